import Verif.Model.LayerData
import Verif.Model.Loss
import Verif.Model.Accuracy
import Verif.Model.Misc
/-
Model of the test files of the package: /repo/matrix_test.go, misc_test.go, accuracy_test.go, loss_test.go, network_test.go and
layer_data_test.go (model_test.go and model_data_test.go are in Model/ExamplesFit.lean).

A test returns the list of its calls of `t.Error`/`t.Errorf` (empty: the test passes) and what it prints with `t.Logf`.  Of a printed matrix the
header is returned; the numbers printed are those that it has when the test ends (no test changes a matrix after it has printed it; the
theorems show which matrices change).  `lit m e` is the floating-point constant m / 10^e of the source text, e.g. `lit 314 2` for 3.14;
whole numbers are written `Flt.ofInt n`.
-/

namespace NN
variable {α : Type} [Flt α]
open Go

/-- A call of `t.Error`: with the text of an error value, or with a fixed text. -/
inductive TestFail where
  | err (e : Err)
  | values
  | dims
deriving DecidableEq, Repr

/-- The literal `[]float64{...}`. -/
def rowLit (l : List α) : Go α Nat := fun w =>
  .ok (w.next, { w with next := w.next + 1, flt := upd w.flt w.next l })

/-- The literal `[][]float64{[]float64{...}, ...}`: every row is a new array. -/
def sliceLit (rows : List (List α)) : Go α Slice := do
  let s ← allocOuter rows.length
  forN rows.length fun i => do
    let r ← rowLit (rows[i]?.getD [])
    setRowRef s i r
  return s

/-- `NewMatrixFromSlice([][]float64{...})`. -/
def matLit (rows : List (List α)) : Go α (Mat × Option Err) := do
  let s ← sliceLit rows
  newMatrixFromSlice s

/-- Whole numbers as constants. -/
def ints (l : List Int) : List α := l.map Flt.ofInt

/-- `reflect.DeepEqual(r, []float64{l...})` for a slice r that is not the one compared with: same length and equal entries; a nil slice is not
deeply equal to the non-nil literal. -/
def deepEqual (r : Option Nat) (l : List α) : Go α Bool := fun w =>
  match r with
  | none => .ok (false, w)
  | some a => .ok (decide ((w.flt a).length = l.length) && ((w.flt a).zip l).all (fun p => Flt.eq p.1 p.2), w)

/-! ### matrix_test.go -/

/-- matrix_test.go:14-40 `TestMatrix`. -/
def testMatrix (lit : Int → Nat → α) : Go α (List TestFail) := do
  let (m, _) ← newMatrix 3 3
  let _ ← m.set 0 0 (lit 314 2)
  let _ ← m.set 1 2 (Flt.ofInt 6)
  let _ ← m.set 2 0 (Flt.ofInt 623)
  let _ ← m.set 1 1 (Flt.ofInt 0)
  let (val1, _) ← m.get 0 0
  let (val2, _) ← m.get 1 2
  let (val3, _) ← m.get 2 0
  let (val4, err) ← m.get 1 1
  if let some e := err then
    return [.err e]
  if !Flt.eq val1 (lit 314 2) || !Flt.eq val2 (Flt.ofInt 6) || !Flt.eq val3 (Flt.ofInt 623) || !Flt.eq val4 (Flt.ofInt 0) then
    return [.values]
  return []

/-- matrix_test.go:43-61 `TestMatrixFromSlice`. -/
def testMatrixFromSlice : Go α (List TestFail) := do
  let (m, err) ← matLit [ints [1, 2, 3], ints [4, 5, 6]]
  if let some e := err then
    return [.err e]
  let (v, _) ← m.get 0 0
  if !Flt.eq v (Flt.ofInt 1) then
    return [.values]
  let (v, _) ← m.getRow 1
  if !(← deepEqual v (ints (α := α) [4, 5, 6])) then
    return [.values]
  return []

/-- matrix_test.go:64-93 `TestMatrixRowsCols`. -/
def testMatrixRowsCols : Go α (List TestFail) := do
  let (m, _) ← newMatrix 3 3
  let r ← rowLit (ints (α := α) [1, 2, 3])
  let err ← m.setRow 0 r
  if let some e := err then
    return [.err e]
  let c ← rowLit (ints (α := α) [1, 2, 3])
  let err ← m.setColumn 1 c
  if let some e := err then
    return [.err e]
  let (row, err) ← m.getRow 1
  if let some e := err then
    return [.err e]
  if !(← deepEqual row (ints (α := α) [0, 2, 0])) then
    return [.values]
  return []

/-- matrix_test.go:96-121 `TestMatrixOperations`.  Also returns the matrix that is compared at the end. -/
def testMatrixOperations : Go α (List TestFail × Mat) := do
  let (a, _) ← matLit (α := α) [ints [1, 2, 3], ints [4, 5, 6]]
  let (b, _) ← matLit (α := α) [ints [2, 4, 6], ints [8, 10, 12]]
  let (c, _) ← matLit (α := α) [ints [-1, -1, -1], ints [-1, -1, -1]]
  let (a, err) ← a.add b
  if let some e := err then
    return ([.err e], a)
  let n ← c.neg
  let (a, err) ← a.sub n
  if let some e := err then
    return ([.err e], a)
  let (d, _) ← matLit (α := α) [ints [2, 5, 8], ints [11, 14, 17]]
  if !(← a.equals d) then
    return ([.values], a)
  return ([], a)

/-- matrix_test.go:124-141 `TestMatrixScalarOperations`.  The constants `1/3` and `10/3` of the source are quotients of whole-number constants
and so truncated: 0 and 3.  Also returns the number compared at the end. -/
def testMatrixScalarOperations (lit : Int → Nat → α) : Go α (List TestFail × α) := do
  let (m, _) ← newMatrix 3 3
  let m ← m.addScalar (Flt.ofInt 10)
  let m ← m.mulScalar (Flt.ofInt (1 / 3))
  let m ← m.powScalar (Flt.ofInt 2)
  let (x, _) ← m.get 0 0
  if Flt.lt (lit 1 1) (x -. Flt.pow (Flt.ofInt (10 / 3)) (Flt.ofInt 2)) then
    return ([.values], x)
  return ([], x)

/-- matrix_test.go:144-160 `TestMatrixDotProduct`. -/
def testMatrixDotProduct : Go α (List TestFail) := do
  let (a, _) ← matLit (α := α) [ints [1, 2, 3], ints [4, 5, 6]]
  let (b, _) ← matLit (α := α) [ints [1, 0, 0], ints [0, 1, 0], ints [0, 0, 1]]
  let (d, err) ← a.dot b
  if let some e := err then
    return [.err e]
  if !(← d.equals a) then
    return [.values]
  return []

/-- matrix_test.go:163-178 `TestMatrixTranspose`. -/
def testMatrixTranspose : Go α (List TestFail) := do
  let (a, _) ← matLit (α := α) [ints [1, 2, 3], ints [4, 5, 6]]
  let tr ← a.t
  if tr.rows ≠ 3 ∨ tr.cols ≠ 2 then
    return [.dims]
  let (x, _) ← tr.get 2 1
  if !Flt.eq x (Flt.ofInt 6) then
    return [.values]
  return []

/-- matrix_test.go:181-196 `TestMatrixSum`. -/
def testMatrixSum : Go α (List TestFail) := do
  let (a, _) ← matLit (α := α) [ints [1, 2, 3], ints [4, 5, 6]]
  let ax0 ← a.sum 0
  let ax1 ← a.sum 1
  let (sum, _) ← matLit (α := α) [ints [5, 7, 9]]
  let b0 ← ax0.equals sum
  let (sum, _) ← matLit (α := α) [ints [6, 15]]
  let b1 ← ax1.equals sum
  return (if b0 then [] else [.values]) ++ (if b1 then [] else [.values])

/-! ### misc_test.go -/

/-- misc_test.go:13-29 `TestSparseToOneHot`. -/
def testSparseToOneHot : Go α (List TestFail) := do
  let (m, _) ← matLit (α := α) [ints [1], ints [3], ints [0], ints [2]]
  let (o, err) ← sparseToOneHot m 5
  if let some e := err then
    return [.err e]
  let v ← o.at 1 3
  if !Flt.eq v (Flt.ofInt 1) then
    return [.values]
  return []

/-- misc_test.go:33-45 `TestRowMax`. -/
def testRowMax (lit : Int → Nat → α) : Go α (List TestFail) := do
  let (m, _) ← matLit [ints [1, 2, 3], [Flt.ofInt 3, Flt.ofInt (-1), lit 5 1], ints [2, 5, 1], [lit 1 1, Flt.ofInt 6, lit 75 1]]
  let o ← rowMax m
  let v ← o.at 2 0
  if !Flt.eq v (Flt.ofInt 1) then
    return [.values]
  return []

/-- misc_test.go:49-61 `TestOutputBinaryValues`. -/
def testOutputBinaryValues (lit : Int → Nat → α) : Go α (List TestFail) := do
  let (m, _) ← matLit [[lit 2 1], [lit 1 1], [lit 9 1], [lit 78 2]]
  let o ← outputBinaryValues m
  let v ← o.at 2 0
  if !Flt.eq v (Flt.ofInt 1) then
    return [.values]
  let v ← o.at 0 0
  if !Flt.eq v (Flt.ofInt 0) then
    return [.values]
  return []

/-- misc_test.go:65-72 `TestShuffleDataset`: it checks nothing.  Also returns the two matrices. -/
def testShuffleDataset (draw : Nat → Nat) : Go α (List TestFail × Mat × Mat) := do
  let (X, _) ← matLit (α := α) [ints [1], ints [3], ints [0], ints [2]]
  let (Y, _) ← matLit (α := α) [ints [3], ints [4], ints [6], ints [7]]
  let (X, Y) ← shuffleDataset draw X Y
  return ([], X, Y)

/-! ### accuracy_test.go -/

/-- accuracy_test.go:11-23 `TestRegressionAccuracy`. -/
def testRegressionAccuracy (lit : Int → Nat → α) : Go α (List TestFail) := do
  let (yHat, _) ← matLit [[lit 1 1, lit 2 1], [lit 2 1, lit 5 1]]
  let (Y, _) ← matLit [[lit 105 3, lit 199 3], [lit 3 1, lit 502 3]]
  let acc ← regressionAccuracy yHat Y (lit 1 2)
  if !Flt.eq acc (lit 75 2) then
    return [.values]
  return []

/-- accuracy_test.go:26-38 `TestCategoricalAccuracy`. -/
def testCategoricalAccuracy (lit : Int → Nat → α) : Go α (List TestFail) := do
  let (yHat, _) ← matLit [[lit 1 1, lit 9 1], [lit 8 1, lit 2 1]]
  let (Y, _) ← matLit (α := α) [ints [0, 1], ints [1, 0]]
  let acc ← categoricalAccuracy yHat Y
  if !Flt.eq acc (Flt.ofInt 1) then
    return [.values]
  return []

/-- accuracy_test.go:41-53 `TestBinaryCategoricalAccuracy`. -/
def testBinaryCategoricalAccuracy (lit : Int → Nat → α) : Go α (List TestFail) := do
  let (yHat, _) ← matLit [[lit 1 1, lit 9 1], [lit 8 1, lit 2 1]]
  let (Y, _) ← matLit (α := α) [ints [0, 1], ints [1, 0]]
  let acc ← binaryCategoricalAccuracy yHat Y
  if !Flt.eq acc (Flt.ofInt 1) then
    return [.values]
  return []

/-! ### loss_test.go -/

/-- The text shared by the four tests of loss_test.go: lines 13-34, 40-60, 66-86 and 92-112 (make the loss, the matrices, run Forward and
Backward).  Returns the errors, the loss printed, and the matrices yhat, y and dInputs. -/
def testLoss (k : LossKind) (size : Int) (yhatRows yRows : List (List α)) : Go α (List TestFail × α × Mat × Mat × Mat) := do
  let (loss, _) := newLoss k size
  let (yhat, _) ← matLit yhatRows
  let (y, _) ← matLit yRows
  let (j, err) ← loss.forward yhat y
  if let some e := err then
    return ([.err e], j, yhat, y, Mat.zero)
  let (dInputs, err) ← loss.backward yhat y
  if let some e := err then
    return ([.err e], j, yhat, y, dInputs)
  return ([], j, yhat, y, dInputs)

/-- loss_test.go:11-34 `TestMSELoss`. -/
def testMSELoss (lit : Int → Nat → α) : Go α (List TestFail × α × Mat × Mat × Mat) :=
  testLoss .mse 5 [[lit 11 1, lit 19 1, lit 32 1, lit 401 2, lit 497 2]] [ints [1, 2, 3, 4, 5]]

/-- loss_test.go:37-60 `TestAbsLoss`. -/
def testAbsLoss (lit : Int → Nat → α) : Go α (List TestFail × α × Mat × Mat × Mat) :=
  testLoss .mae 5 [[lit 11 1, lit 19 1, lit 32 1, lit 401 2, lit 497 2]] [ints [1, 2, 3, 4, 5]]

/-- loss_test.go:63-86 `TestCrossEntropyLoss`. -/
def testCrossEntropyLoss (lit : Int → Nat → α) : Go α (List TestFail × α × Mat × Mat × Mat) :=
  testLoss .ce 5 [[lit 3 2, lit 3 2, lit 2 2, lit 2 2, lit 9 1], [lit 2 2, lit 8 1, lit 8 2, lit 5 1, lit 5 1]]
    [ints [0, 0, 0, 0, 1], ints [0, 1, 0, 0, 0]]

/-- loss_test.go:89-112 `TestBinaryCrossEntropyLoss`. -/
def testBinaryCrossEntropyLoss (lit : Int → Nat → α) : Go α (List TestFail × α × Mat × Mat × Mat) :=
  testLoss .bce 2 [[lit 9 1, lit 12 2], [lit 3 1, lit 35 2]] [ints [0, 1], ints [1, 1]]

/-! ### network_test.go -/

/-- What a test of network_test.go leaves: its errors, the layer, x, the outputs and the gradients it prints. -/
structure LayerTest where
  fails : List TestFail
  layer : Nat
  x : Mat
  out : Mat
  grads : Grads

/-- The text shared by the tests of network_test.go but TestSoftmaxCrossEntropyLayer: lines 14-39, 45-70, 76-101, 107-132, 138-163 and 213-238
(NewLayer(3, 5), Init, Forward, Backward).  The layer is a local variable of the test, used through its address. -/
def testLayer (k : LayerKind) (slope dropout : α) (xRows dRows : List (List α)) : Go α LayerTest := do
  let (l, _) ← newLayer k 3 5 slope dropout
  let lp ← layNew l
  layerInit lp
  let (x, err) ← matLit xRows
  if let some e := err then
    return ⟨[.err e], lp, x, Mat.zero, Grads.fail e⟩
  let (out, err) ← layerForward lp x
  if let some e := err then
    return ⟨[.err e], lp, x, out, Grads.fail e⟩
  let (dValues, _) ← matLit dRows
  let g ← layerBackward lp x dValues
  if let some e := g.err then
    return ⟨[.err e], lp, x, out, g⟩
  return ⟨[], lp, x, out, g⟩

/-- The gradient `{0.3, 0.1, 0.2, 0.2, 0.2}` of lines 64, 95, 126, 157 and 232. -/
def gradRow (lit : Int → Nat → α) : List (List α) := [[lit 3 1, lit 1 1, lit 2 1, lit 2 1, lit 2 1]]

/-- network_test.go:12-40 `TestHiddenLayer`. -/
def testHiddenLayer : Go α LayerTest :=
  testLayer .hidden Flt.zero Flt.zero [ints [1, 2, 3], ints [4, 5, 6], ints [7, 8, 9]]
    [ints [1, 1, 1, 1, 1], ints [2, 2, 2, 2, 2], ints [3, 3, 3, 3, 3]]

/-- network_test.go:43-71 `TestLinearLayer`. -/
def testLinearLayer (lit : Int → Nat → α) : Go α LayerTest :=
  testLayer .linear Flt.zero Flt.zero [ints [1, 2, 3]] (gradRow lit)

/-- network_test.go:74-102 `TestSigmoidLayer`. -/
def testSigmoidLayer (lit : Int → Nat → α) : Go α LayerTest :=
  testLayer .sigmoid Flt.zero Flt.zero [ints [1, 2, 3]] (gradRow lit)

/-- network_test.go:105-133 `TestLeakyLayer`. -/
def testLeakyLayer (lit : Int → Nat → α) : Go α LayerTest :=
  testLayer .leaky (lit 1 1) Flt.zero [ints [1, -1, 2]] (gradRow lit)

/-- network_test.go:136-164 `TestSoftmaxLayer`. -/
def testSoftmaxLayer (lit : Int → Nat → α) : Go α LayerTest :=
  testLayer .softmax Flt.zero Flt.zero [ints [1, -1, 2]] (gradRow lit)

/-- network_test.go:211-239 `TestDropoutLayer`. -/
def testDropoutLayer (lit : Int → Nat → α) : Go α LayerTest :=
  testLayer .dropout Flt.zero (lit 1 1) [ints [1, -1, 2]] (gradRow lit)

/-- network_test.go:167-208 `TestSoftmaxCrossEntropyLayer`.  Also returns the loss printed. -/
def testSoftmaxCrossEntropyLayer : Go α (LayerTest × α) := do
  let (l, _) ← newLayer .softmax 3 5 Flt.zero (Flt.zero (α := α))
  let lp ← layNew l
  let (jl, _) := newLoss .ce 5
  layerInit lp
  let (x, err) ← matLit (α := α) [ints [1, -1, 2]]
  if let some e := err then
    return (⟨[.err e], lp, x, Mat.zero, Grads.fail e⟩, Flt.zero)
  let (y, err) ← matLit (α := α) [ints [0, 0, 0, 1, 0]]
  if let some e := err then
    return (⟨[.err e], lp, x, Mat.zero, Grads.fail e⟩, Flt.zero)
  let (out, err) ← layerForward lp x
  if let some e := err then
    return (⟨[.err e], lp, x, out, Grads.fail e⟩, Flt.zero)
  let (loss, err) ← jl.forward out y
  if let some e := err then
    return (⟨[.err e], lp, x, out, Grads.fail e⟩, loss)
  let g ← softmaxBackwardCE lp x y out
  if let some e := g.err then
    return (⟨[.err e], lp, x, out, g⟩, loss)
  return (⟨[], lp, x, out, g⟩, loss)

/-! ### layer_data_test.go -/

/-- layer_data_test.go:12-29 `TestLayerData`.  The failing type assertion `layer.(*HiddenLayer)` would panic; that panic has no name of its own in
the model and is written as the panic of a nil interface.  Returns the errors, the layer made, the layer loaded. -/
def testLayerData [FltBits α] : Go α (List TestFail × Nat × Nat) := do
  let (l, _) ← newLayer .hidden 3 5 Flt.zero (Flt.zero (α := α))
  let lp ← layNew l
  layerInit lp
  let data ← newSavedLayerData lp
  let (_, buf) ← serializeLayer data []
  let (r, _) ← loadLayer buf
  match r with
  | .error e => return ([.err e], lp, 0)
  | .ok lq =>
    let q ← layGet lq
    if q.kind ≠ .hidden then
      Go.panic .nilDeref
    return ([], lp, lq)

end NN
