import Verif.Model.Examples
import Verif.Model.ModelData
/-
Model of the programs of the repository that train with `Model` and `Fit`: /repo/examples/spiral_test.go, /repo/examples/iris_test.go and
/repo/model_test.go, and of /repo/model_data_test.go.

Simplifications: the result is the error that the test reports with `t.Errorf`, `none` if it reports none, together with the error of `Fit`
where the program drops it; `math.Sin` and `math.Cos` are arguments, as are the draws of `rand.Shuffle` and `rand.Float64` and the content of
the file iris.data; the local slices of the spiral are functions from indices to numbers.
-/

namespace NN
variable {α : Type} [Flt α]
open Go

/-- The variables l1, l2, ... of a program: `l, _ := New...Layer(dim i, dim (i+1))` for i = 0, ..., n-1 (the errors are dropped). -/
def makeLayers (kind : Nat → LayerKind) (dim : Nat → Nat) : Nat → Go α (Nat → Nat)
  | 0 => pure fun _ => 0
  | n + 1 => do
    let l ← makeLayers kind dim n
    let p ← layerVar (kind n) (dim n) (dim (n + 1))
    return upd l n p

/-- `m := NewModel()`, then `m.AddLayer(&l)` for the n layers (the errors are dropped). -/
def addVars (l : Nat → Nat) : Nat → Go α (Model α)
  | 0 => pure newModel
  | n + 1 => do
    let m ← addVars l n
    let (m, _) ← addLayer m (l n)
    return m

/-- The model of the layers l: examples/iris_test.go:71-76, examples/spiral_test.go:67-71 (`initFirst`: InitLayers, then Finalize) and
model_test.go:16-30, 92-97, model_data_test.go:22-36, 72-86 (Finalize, then InitLayers).  The error of Finalize is dropped. -/
def exampleModel (initFirst : Bool) (l : Nat → Nat) (n : Nat) (loss : Loss) (o : Optim α) (accType : Int) (accPrec : α) : Go α (Model α) := do
  let m ← addVars l n
  if initFirst then
    initLayers m
    let (m, _) ← finalize m loss o.getValues accType accPrec
    return m
  else
    let (m, _) ← finalize m loss o.getValues accType accPrec
    initLayers m
    return m

/-- examples/spiral_test.go:34-41 `linspace(start, end, num)`: entry i of the result. -/
def linspace (start stop : α) (num : Nat) (i : Nat) : α :=
  start +. Flt.ofInt i *. ((stop -. start) /. Flt.ofInt ((num : Int) - 1))

/-- examples/spiral_test.go:21-23: `t[i] += 0.2 * rand.NormFloat64()` for i = 0, ..., n-1.  The constant 0.2 is the float64 nearest to 2/10. -/
def addNoise (t : Nat → α) (n : Nat) : Go α (Nat → α) :=
  foldN n (fun i t => do
    let r ← drawNorm
    return upd t i (t i +. (Flt.ofInt 2 /. Flt.ofInt 10) *. r)) t

/-- examples/spiral_test.go:14-32 `NewSpiralData(numberOfPoints, numberOfClasses)` for arguments ≥ 0.  The constant 2.5 is 5/2. -/
def newSpiralData (sin cos : α → α) (points classes : Nat) : Go α (Mat × Mat) := do
  let (X, _) ← newMatrix ((points * classes : Nat) : Int) 2
  let (Y, _) ← newMatrix ((points * classes : Nat) : Int) (classes : Nat)
  forN classes fun c => do
    let radius := linspace Flt.zero Flt.one points
    let t ← addNoise (linspace (Flt.ofInt ((c * 4 : Nat) : Int)) (Flt.ofInt (((c + 1) * 4 : Nat) : Int)) points) points
    forN points fun i => do
      X.setAt ((c * points + i : Nat) : Int) 0 (radius i *. sin (t i *. (Flt.ofInt 5 /. Flt.ofInt 2)))
      X.setAt ((c * points + i : Nat) : Int) 1 (radius i *. cos (t i *. (Flt.ofInt 5 /. Flt.ofInt 2)))
      Y.setAt ((c * points + i : Nat) : Int) (c : Nat) Flt.one
  return (X, Y)

/-- The layers of examples/spiral_test.go:59-60: hidden 2→64, softmax 64→2. -/
def spiralKind : Nat → LayerKind
  | 0 => .hidden
  | _ => .softmax

/-- 2, 64, 2. -/
def spiralDim : Nat → Nat
  | 0 => 2
  | 1 => 64
  | _ => 2

/-- examples/spiral_test.go:43-75 `TestSpiral`.  `o` is the optimizer that `NewAdamOptimizer` returns, `openFails` says whether the log file
cannot be opened. -/
def testSpiral (o : Optim α) (sin cos : α → α) (draw : Nat → Nat) (openFails : Bool) : Go α (Option Err × Option Err) := do
  let err ← initLogger true true openFails
  if let some e := err then
    return (some e, none)
  let (X, Y) ← newSpiralData sin cos 100 2
  let (X, Y) ← shuffleDataset draw X Y
  let l ← makeLayers spiralKind spiralDim 2
  let (loss, _) := newLoss .ce 2
  let m ← exampleModel true l 2 loss o 1 Flt.zero
  let err ← fit m X Y 10000 0 Mat.zero Mat.zero 100
  return (none, err)

/-- The layers of examples/iris_test.go:62-64: hidden 4→16, hidden 16→16, softmax 16→3. -/
def irisKind : Nat → LayerKind
  | 2 => .softmax
  | _ => .hidden

/-- 4, 16, 16, 3. -/
def irisDim : Nat → Nat
  | 0 => 4
  | 1 => 16
  | 2 => 16
  | _ => 3

/-- examples/iris_test.go:39-56: the matrices made from the records of the file.  `cell i j` is what `strconv.ParseFloat` returns for field j
of record i (the error is dropped), `cls i` is 0 if field 4 is "Iris-setosa", 1 if it is "Iris-versicolor". -/
def irisData (records : Nat) (cell : Nat → Nat → α) (cls : Nat → Nat) : Go α (Mat × Mat) := do
  let (X, _) ← newMatrix records 4
  let (Y, _) ← newMatrix records 3
  forN records fun i => do
    X.setAt i 0 (cell i 0)
    X.setAt i 1 (cell i 1)
    X.setAt i 2 (cell i 2)
    X.setAt i 3 (cell i 3)
    if cls i = 0 then
      Y.setAt i 0 Flt.one
    else if cls i = 1 then
      Y.setAt i 1 Flt.one
    else
      Y.setAt i 2 Flt.one
  return (X, Y)

/-- examples/iris_test.go:14-80 `TestIris`.  `dataFails` says whether iris.data cannot be opened. -/
def testIris (o : Optim α) (records : Nat) (cell : Nat → Nat → α) (cls : Nat → Nat) (draw : Nat → Nat) (openFails dataFails : Bool) :
    Go α (Option Err × Option Err) := do
  let err ← initLogger true true openFails
  if let some e := err then
    return (some e, none)
  if dataFails then
    return (some .os, none)
  let (X, Y) ← irisData records cell cls
  let (X, Y) ← shuffleDataset draw X Y
  let l ← makeLayers irisKind irisDim 3
  let (loss, _) := newLoss .ce 3
  let m ← exampleModel true l 3 loss o 1 Flt.zero
  let err ← fit m X Y 500 0 Mat.zero Mat.zero 100
  return (none, err)

/-- The layers of model_test.go:65-67: hidden 1→8, hidden 8→8, softmax 8→2. -/
def trainKind : Nat → LayerKind
  | 2 => .softmax
  | _ => .hidden

/-- 1, 8, 8, 2. -/
def trainDim : Nat → Nat
  | 0 => 1
  | 1 => 8
  | 2 => 8
  | _ => 2

/-- model_test.go:56-105 `TestTrainModel`.  `rnd i` is the i-th result of `rand.Float64`. -/
def testTrainModel (o : Optim α) (rnd : Nat → α) (openFails : Bool) : Go α (Option Err) := do
  let err ← initLogger true true openFails
  if let some e := err then
    return some e
  let l ← makeLayers trainKind trainDim 3
  let (loss, _) := newLoss .ce 2
  let (x, _) ← newMatrix 100 1
  let (y, _) ← newMatrix 100 2
  forN 100 fun i => x.setAt i 0 (rnd i)
  forN 100 fun i => do
    let v ← x.at i 0
    if Flt.lt v Flt.half then
      y.setAt i 0 Flt.one
    else
      y.setAt i 1 Flt.one
  let m ← exampleModel false l 3 loss o 1 Flt.zero
  let err ← fit m x y 500 100 Mat.zero Mat.zero 100
  if let some e := err then
    return some e
  return none

/-- The layers of model_test.go:19-21 and model_data_test.go:25-27, 75-77: hidden 3→5, hidden 5→5, linear 5→1. -/
def smallKind : Nat → LayerKind
  | 2 => .linear
  | _ => .hidden

/-- 3, 5, 5, 1. -/
def smallDim : Nat → Nat
  | 0 => 3
  | 1 => 5
  | 2 => 5
  | _ => 1

/-- model_test.go:14-52 `TestModel`.  The matrices X and Y of lines 33-34 are arguments (so are, below, those of model_data_test.go), `prec`
stands for the constant 0.01. -/
def testModel (o : Optim α) (prec : α) (X Y : Mat) : Go α (Option Err) := do
  let l ← makeLayers smallKind smallDim 3
  let (loss, _) := newLoss .mse 1
  let m ← exampleModel false l 3 loss o 0 prec
  let (out, err) ← modelForward m X false
  if let some e := err then
    return some e
  let (_, err) ← modelBackward m out Y
  if let some e := err then
    return some e
  let (_, err) ← predict m X
  if let some e := err then
    return some e
  return none

/-- model_data_test.go:13-59 `TestModelData`.  `order` is the order in which Serialize visits the optimizer values.  Also returns the loss that
the test prints. -/
def testModelData [FltBits α] (o : Optim α) (prec : α) (X Y : Mat) (order : GoMap α) (openFails : Bool) : Go α (Option Err × α) := do
  let err ← initLogger true true openFails
  if let some e := err then
    return (some e, Flt.zero)
  let l ← makeLayers smallKind smallDim 3
  let (loss, _) := newLoss .mse 1
  let m ← exampleModel false l 3 loss o 0 prec
  let data ← newSavedModelData m
  let (_, buf) ← serialize data order []
  let (r, _) ← loadModel buf
  match r with
  | .error e => return (some e, Flt.zero)
  | .ok model =>
    let (j, err) ← calculateLoss model X Y
    if let some e := err then
      return (some e, j)
    return (none, j)

/-- model_data_test.go:63-114 `TestModelSaveLoad` with the files `fs`; the final `os.Remove` is dropped.  Also returns the loss that the test
prints. -/
def testModelSaveLoad [FltBits α] (o : Optim α) (prec : α) (X Y : Mat) (order : GoMap α) (openFails : Bool) (fs : FS) :
    Go α (Option Err × α) := do
  let err ← initLogger true true openFails
  if let some e := err then
    return (some e, Flt.zero)
  let l ← makeLayers smallKind smallDim 3
  let (loss, _) := newLoss .mse 1
  let m ← exampleModel false l 3 loss o 0 prec
  let (err, ops) ← saveFile m (str "testmodel.model") order false none
  if let some e := err then
    return (some e, Flt.zero)
  let r ← loadFile (runOps ops fs) (str "testmodel.model")
  match r with
  | .error e => return (some e, Flt.zero)
  | .ok m2 =>
    let (j, err) ← calculateLoss m2 X Y
    if let some e := err then
      return (some e, j)
    return (none, j)

end NN
