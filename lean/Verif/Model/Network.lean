import Verif.Model.Activation
import Verif.Model.Binomial
/- Model of /repo/network.go.  A layer is used through its address `lp` in `World.lay`. -/

namespace NN
variable {α : Type} [Flt α]
open Go

/-- layer_data.go:18-25, the layer codes. -/
def LayerKind.code : LayerKind → Int
  | .hidden => 0 | .linear => 1 | .sigmoid => 2 | .leaky => 3 | .softmax => 4 | .dropout => 5

/-- The zero value of a layer struct of the given kind. -/
def Layer.zero (k : LayerKind) : Layer α :=
  ⟨k, 0, 0, none, none, Flt.zero, Flt.zero, Mat.zero, Mat.zero, Mat.zero⟩

/-- Dereference a layer pointer. -/
def layGet (lp : Nat) : Go α (Layer α) := fun w => .ok (w.lay lp, w)

/-- Assign to a layer object. -/
def laySet (lp : Nat) (l : Layer α) : Go α Unit := fun w => .ok ((), { w with lay := upd w.lay lp l })

/-- `&l`: place a layer struct in the heap. -/
def layNew (l : Layer α) : Go α Nat := fun w =>
  .ok (w.next, { w with next := w.next + 1, lay := upd w.lay w.next l })

/-- The constructors network.go:41-58, 158-175, 266-283, 382-405, 507-524, 704-727: identical size tests and
allocations; leaky additionally rejects `slope < 0`, dropout rejects `dropout > 1 || dropout < 0`. -/
def newLayer (k : LayerKind) (inputSize outputSize : Int) (slope dropout : α) : Go α (Layer α × Option Err) := do
  if inputSize < 1 ∨ outputSize < 1 then
    return (Layer.zero k, some (.layerDims inputSize outputSize))
  if k = .leaky ∧ Flt.lt slope Flt.zero then
    return (Layer.zero k, some .badSlope)
  if k = .dropout ∧ (Flt.lt Flt.one dropout ∨ Flt.lt dropout Flt.zero) then
    return (Layer.zero k, some .badDropout)
  let (weights, _) ← newMatrix inputSize outputSize
  let (biases, _) ← newMatrix 1 outputSize
  return ({ (Layer.zero k : Layer α) with
    inputSize := inputSize, outputSize := outputSize, weights := some weights, biases := some biases,
    slope := if k = .leaky then slope else Flt.zero,
    dropout := if k = .dropout then dropout else Flt.zero }, none)

/-- The map part of `getValues` (network.go:61-64, 178-181, 286-289, 408-411, 527-530, 730-733). -/
def Layer.values (l : Layer α) : GoMap α :=
  match l.kind with
  | .leaky => [(str "inputs", Flt.ofInt l.inputSize), (str "outputs", Flt.ofInt l.outputSize),
      (str "slope", l.slope), (str "type", Flt.ofInt l.kind.code)]
  | .dropout => [(str "inputs", Flt.ofInt l.inputSize), (str "outputs", Flt.ofInt l.outputSize),
      (str "type", Flt.ofInt l.kind.code), (str "dropout", l.dropout)]
  | _ => [(str "inputs", Flt.ofInt l.inputSize), (str "outputs", Flt.ofInt l.outputSize),
      (str "type", Flt.ofInt l.kind.code)]

/-- One draw of `NormFloat64`. -/
def drawNorm : Go α α := fun w => .ok (w.norm w.normPos, { w with normPos := w.normPos + 1 })

/-- `Init` (network.go:75-89, 192-206, 300-314, 423-437, 541-555, 745-759, textually identical). -/
def layerInit (lp : Nat) : Go α Unit := do
  let l ← layGet lp
  let std := Flt.sqrt (Flt.ofInt 2 /. Flt.ofInt l.inputSize)
  forN l.inputSize.toNat fun i => forN l.outputSize.toNat fun j => do
    let r ← drawNorm
    let wm ← deref l.weights
    wm.setAt i j (r *. std)

/-- The common first part of every forward pass: size test, `x.Dot(*l.Weights)`, adding the biases
(network.go:92-108, 209-225, 317-333, 440-456, 558-574, 762-778, 802-818, textually identical). -/
def affine (l : Layer α) (x : Mat) : Go α (Mat × Option Err) := do
  if x.cols ≠ l.inputSize then
    return (Mat.zero, some (.matrixDims x.rows x.cols))
  let wm ← deref l.weights
  let (out, err) ← x.dot wm
  if let some e := err then
    return (Mat.zero, some e)
  forN out.rows.toNat fun i => forN out.cols.toNat fun j => do
    let v ← out.at i j
    let bm ← deref l.biases
    let b ← bm.at 0 j
    out.setAt i j (v +. b)
  return (out, none)

/-- network.go:92-118 `HiddenLayer.Forward`.  `l.reluInputs` shares storage with the output. -/
def hiddenForward (lp : Nat) (x : Mat) : Go α (Mat × Option Err) := do
  let l ← layGet lp
  let (out, err) ← affine l x
  if let some e := err then
    return (Mat.zero, some e)
  laySet lp { l with reluInputs := out }
  let out ← relu out
  return (out, none)

/-- network.go:209-229 `LinearLayer.Forward`. -/
def linearForward (lp : Nat) (x : Mat) : Go α (Mat × Option Err) := do
  let l ← layGet lp
  let (out, err) ← affine l x
  if let some e := err then
    return (Mat.zero, some e)
  return (out, none)

/-- network.go:317-340 `SigmoidLayer.Forward`. -/
def sigmoidForward (lp : Nat) (x : Mat) : Go α (Mat × Option Err) := do
  let l ← layGet lp
  let (out, err) ← affine l x
  if let some e := err then
    return (Mat.zero, some e)
  let out ← sigmoid out
  return (out, none)

/-- network.go:440-466 `LeakyLayer.Forward`.  `l.reluInputs` shares storage with the output. -/
def leakyForward (lp : Nat) (x : Mat) : Go α (Mat × Option Err) := do
  let l ← layGet lp
  let (out, err) ← affine l x
  if let some e := err then
    return (Mat.zero, some e)
  laySet lp { l with reluInputs := out }
  let out ← leakyRelu out l.slope
  return (out, none)

/-- network.go:558-584 `SoftmaxLayer.Forward`. -/
def softmaxForward (lp : Nat) (x : Mat) : Go α (Mat × Option Err) := do
  let l ← layGet lp
  let (out, err) ← affine l x
  if let some e := err then
    return (Mat.zero, some e)
  let out ← softmax out
  laySet lp { l with outputs := out }
  return (out, none)

/-- network.go:762-799 `DropoutLayer.Forward`. -/
def dropoutForward (lp : Nat) (x : Mat) : Go α (Mat × Option Err) := do
  let l ← layGet lp
  let (out, err) ← affine l x
  if let some e := err then
    return (Mat.zero, some e)
  laySet lp { l with reluInputs := out }
  let out ← relu out
  let (mask, _) ← newMatrix out.rows out.cols
  laySet lp { l with reluInputs := out, binaryMask := mask }
  forN out.rows.toNat fun i => forN out.cols.toNat fun j => do
    let r ← binomialRand 1 (Flt.one -. l.dropout)
    mask.setAt i j r
    let v ← out.at i j
    let b ← mask.at i j
    out.setAt i j (v *. (b /. (Flt.one -. l.dropout)))
  return (out, none)

/-- network.go:802-828 `DropoutLayer.ForwardNoDropout`. -/
def dropoutForwardNo (lp : Nat) (x : Mat) : Go α (Mat × Option Err) := do
  let l ← layGet lp
  let (out, err) ← affine l x
  if let some e := err then
    return (Mat.zero, some e)
  laySet lp { l with reluInputs := out }
  let out ← relu out
  return (out, none)

/-- `Layer.Forward` through the interface (network.go:18). -/
def layerForward (lp : Nat) (x : Mat) : Go α (Mat × Option Err) := do
  let l ← layGet lp
  match l.kind with
  | .hidden => hiddenForward lp x
  | .linear => linearForward lp x
  | .sigmoid => sigmoidForward lp x
  | .leaky => leakyForward lp x
  | .softmax => softmaxForward lp x
  | .dropout => dropoutForward lp x

/-- What a backward pass returns: dWeights, dBiases, dInputs, error. -/
structure Grads where
  dWeights : Mat
  dBiases  : Mat
  dInputs  : Mat
  err      : Option Err
deriving Repr, DecidableEq

/-- `Matrix{}, Matrix{}, Matrix{}, err`. -/
def Grads.fail (e : Err) : Grads := ⟨Mat.zero, Mat.zero, Mat.zero, some e⟩

/-- The common last part of every backward pass (network.go:134-145, 242-253, 356-367, 482-493, 638-649, 677-688,
851-862, textually identical up to the variable name).  The error of the last Dot is dropped. -/
def gradTail (l : Layer α) (x dValues : Mat) : Go α Grads := do
  let it ← x.t
  let wm ← deref l.weights
  let wt ← wm.t
  let (dWeights, err) ← it.dot dValues
  if let some e := err then
    return Grads.fail e
  let dBiases ← dValues.sum 0
  let (dInputs, _) ← dValues.dot wt
  return ⟨dWeights, dBiases, dInputs, none⟩

/-- The size tests at the start of every backward pass except softmax (network.go:123-128, 234-239, 345-350, 471-476,
833-838). -/
def backCheck (l : Layer α) (x dValues : Mat) : Option Err :=
  if x.cols ≠ l.inputSize then some (.matrixDims x.rows x.cols)
  else if dValues.cols ≠ l.outputSize then some (.matrixDims dValues.rows dValues.cols)
  else none

/-- network.go:121-146 `HiddenLayer.Backward` (overwrites dValues). -/
def hiddenBackward (lp : Nat) (x dValues : Mat) : Go α Grads := do
  let l ← layGet lp
  if let some e := backCheck l x dValues then
    return Grads.fail e
  let dValues ← reluPrime dValues l.reluInputs
  gradTail l x dValues

/-- network.go:232-254 `LinearLayer.Backward`. -/
def linearBackward (lp : Nat) (x dValues : Mat) : Go α Grads := do
  let l ← layGet lp
  if let some e := backCheck l x dValues then
    return Grads.fail e
  gradTail l x dValues

/-- network.go:343-368 `SigmoidLayer.Backward`: `SigmoidPrime(x, dValues)` overwrites the INPUT matrix x. -/
def sigmoidBackward (lp : Nat) (x dValues : Mat) : Go α Grads := do
  let l ← layGet lp
  if let some e := backCheck l x dValues then
    return Grads.fail e
  let dValues ← sigmoidPrime x dValues
  gradTail l x dValues

/-- network.go:469-494 `LeakyLayer.Backward` (overwrites dValues). -/
def leakyBackward (lp : Nat) (x dValues : Mat) : Go α Grads := do
  let l ← layGet lp
  if let some e := backCheck l x dValues then
    return Grads.fail e
  let dValues ← leakyReluPrime dValues l.reluInputs l.slope
  gradTail l x dValues

/-- `[][]float64{row}`: a new outer array holding one given row. -/
def sliceOfRow (r : Nat) : Go α Slice := do
  let s ← allocOuter 1
  setRowRef s 0 r
  return s

/-- network.go:606-635, the body of the loop over samples in `SoftmaxLayer.Backward`: computes
`(diag(o) - o^T o) d` for sample i and installs it as row i of dValues.  `some e` is an early error return. -/
def softmaxBackRow (l : Layer α) (dValuesPrev dValues : Mat) (i : Nat) : Go α (Option Err) := do
  let (diag, _) ← newMatrix l.outputs.cols l.outputs.cols
  forN l.outputs.cols.toNat fun j => do
    let v ← l.outputs.at i j
    diag.setAt j j v
  let r ← rowRef l.outputs.m i
  let s ← sliceOfRow r
  let (outputRow, _) ← newMatrixFromSlice s
  let outputRow ← outputRow.t
  let outputRowT ← outputRow.t
  let (outputDot, err) ← outputRow.dot outputRowT
  if let some e := err then
    return some e
  let (jacobian, err) ← diag.sub outputDot
  if let some e := err then
    return some e
  let r ← rowRef dValuesPrev.m i
  let s ← sliceOfRow r
  let (dValuesRow, _) ← newMatrixFromSlice s
  let dT ← dValuesRow.t
  let (row, err) ← jacobian.dot dT
  if let some e := err then
    return some e
  let rowT ← row.t
  let r ← rowRef rowT.m 0
  let _ ← dValues.setRow i r
  return none

/-- network.go:587-650 `SoftmaxLayer.Backward`. -/
def softmaxBackward (lp : Nat) (x dValues : Mat) : Go α Grads := do
  let l ← layGet lp
  if x.cols ≠ l.inputSize then
    return Grads.fail (.matrixDims x.rows x.cols)
  if l.outputs.cols ≠ l.outputSize then
    return Grads.fail (.matrixDims l.outputs.rows l.outputs.cols)
  if dValues.cols ≠ l.outputSize then
    return Grads.fail (.matrixDims dValues.rows dValues.cols)
  if l.outputs.rows ≠ dValues.rows then
    return Grads.fail (.matrixDims l.outputs.rows dValues.rows)
  let dValuesPrev := dValues
  let (dValues, _) ← newMatrix dValues.rows dValues.cols
  let r ← forRet dValues.rows.toNat fun i => softmaxBackRow l dValuesPrev dValues i
  if let some e := r then
    return Grads.fail e
  gradTail l x dValues

/-- network.go:653-689 `SoftmaxLayer.BackwardCrossEntropy`. -/
def softmaxBackwardCE (lp : Nat) (x y dValues : Mat) : Go α Grads := do
  let l ← layGet lp
  if y.cols ≠ l.outputSize then
    return Grads.fail (.matrixDims y.rows y.cols)
  if dValues.cols ≠ l.outputSize then
    return Grads.fail (.matrixDims dValues.rows dValues.cols)
  if y.rows ≠ dValues.rows then
    return Grads.fail (.matrixDims y.rows dValues.rows)
  let (newValues, _) ← newMatrix dValues.rows dValues.cols
  forN dValues.rows.toNat fun i => forN dValues.cols.toNat fun j => do
    let t ← y.at i j
    if Flt.eq t Flt.one then
      let v ← dValues.at i j
      newValues.setAt i j ((v -. Flt.one) /. Flt.ofInt dValues.rows)
    else
      let v ← dValues.at i j
      newValues.setAt i j (v /. Flt.ofInt dValues.rows)
  gradTail l x newValues

/-- network.go:831-863 `DropoutLayer.Backward` (overwrites dValues; multiplies by the 0/1 mask only). -/
def dropoutBackward (lp : Nat) (x dValues : Mat) : Go α Grads := do
  let l ← layGet lp
  if let some e := backCheck l x dValues then
    return Grads.fail e
  forN dValues.rows.toNat fun i => forN dValues.cols.toNat fun j => do
    let d ← dValues.at i j
    let b ← l.binaryMask.at i j
    dValues.setAt i j (d *. b)
  let dValues ← reluPrime dValues l.reluInputs
  gradTail l x dValues

/-- `Layer.Backward` through the interface (network.go:19). -/
def layerBackward (lp : Nat) (x dValues : Mat) : Go α Grads := do
  let l ← layGet lp
  match l.kind with
  | .hidden => hiddenBackward lp x dValues
  | .linear => linearBackward lp x dValues
  | .sigmoid => sigmoidBackward lp x dValues
  | .leaky => leakyBackward lp x dValues
  | .softmax => softmaxBackward lp x dValues
  | .dropout => dropoutBackward lp x dValues

end NN
