import Verif.Model.Matrix
/- Model of /repo/loss.go. -/

namespace NN
variable {α : Type} [Flt α]
open Go

/-- The four loss types (loss.go:28, 105, 192, 279). -/
inductive LossKind where
  | mse | mae | ce | bce
deriving Repr, DecidableEq, Inhabited

/-- A loss object: the structs at loss.go:28-30, 105-107, 192-194, 279-281. -/
structure Loss where
  kind : LossKind
  size : Int
deriving Repr, DecidableEq, Inhabited

/-- model.go:16-21, the loss codes. -/
def LossKind.code : LossKind → Int
  | .mse => 0 | .mae => 1 | .ce => 2 | .bce => 3

/-- loss.go:33-35, 110-112, 197-199, 284-286 `getValues`. -/
def Loss.getValues (l : Loss) : GoMap α :=
  [(str "size", Flt.ofInt l.size), (str "type", Flt.ofInt l.kind.code)]

/-- loss.go:43-51, 120-128, 207-215, 294-302 the constructors (identical but for the type). -/
def newLoss (k : LossKind) (size : Int) : Loss × Option Err :=
  if size < 1 then (⟨k, 0⟩, some (.lossSize size)) else (⟨k, size⟩, none)

/-- The width test at the start of every Forward/Backward (loss.go:56-63, 83-90, 133-140, 160-167, 220-227,
256-263, 307-314, 334-341). -/
def lossCheck (size : Int) (yhat y : Mat) : Option Err :=
  if yhat.cols ≠ size ∨ y.cols ≠ size then
    if yhat.cols ≠ size then some (.matrixDims yhat.rows yhat.cols)
    else if y.cols ≠ size then some (.matrixDims y.rows y.cols)
    else none
  else none

/-- loss.go:54-78 `MeanSquaredLoss.Forward`: squares row 0 and sums row 0. -/
def mseForward (size : Int) (yhat y : Mat) : Go α (α × Option Err) := do
  if let some e := lossCheck size yhat y then
    return (Flt.zero, some e)
  let (sub, err) ← yhat.sub y
  if let some e := err then
    return (Flt.zero, some e)
  forN sub.cols.toNat fun i => do
    let x ← sub.at 0 i
    sub.setAt 0 i (Flt.pow x (Flt.ofInt 2))
  let s ← sub.sum 1
  let v ← s.at 0 0
  return (v /. Flt.ofInt sub.cols, none)

/-- loss.go:81-101 `MeanSquaredLoss.Backward`. -/
def mseBackward (size : Int) (yhat y : Mat) : Go α (Mat × Option Err) := do
  if let some e := lossCheck size yhat y then
    return (Mat.zero, some e)
  let (dInputs, err) ← yhat.sub y
  if let some e := err then
    return (Mat.zero, some e)
  let dInputs ← dInputs.mulScalar (Flt.ofInt 2 /. Flt.ofInt size)
  return (dInputs, none)

/-- loss.go:131-155 `MeanAbsoluteLoss.Forward`: row 0 only. -/
def maeForward (size : Int) (yhat y : Mat) : Go α (α × Option Err) := do
  if let some e := lossCheck size yhat y then
    return (Flt.zero, some e)
  let (sub, err) ← yhat.sub y
  if let some e := err then
    return (Flt.zero, some e)
  forN sub.cols.toNat fun i => do
    let x ← sub.at 0 i
    sub.setAt 0 i (Flt.abs x)
  let s ← sub.sum 1
  let v ← s.at 0 0
  return (v /. Flt.ofInt sub.cols, none)

/-- loss.go:158-188 `MeanAbsoluteLoss.Backward`: `float64(1/dInputs.Cols)` is an integer division
truncated toward zero. -/
def maeBackward (size : Int) (yhat y : Mat) : Go α (Mat × Option Err) := do
  if let some e := lossCheck size yhat y then
    return (Mat.zero, some e)
  let (dInputs, err) ← yhat.sub y
  if let some e := err then
    return (Mat.zero, some e)
  forN dInputs.rows.toNat fun i => forN dInputs.cols.toNat fun j => do
    let x ← dInputs.at i j
    if Flt.lt Flt.zero x then
      dInputs.setAt i j (Flt.ofInt (Int.tdiv 1 dInputs.cols))
    else
      let x' ← dInputs.at i j
      if Flt.lt x' Flt.zero then
        dInputs.setAt i j (Flt.ofInt (Int.tdiv (-1) dInputs.cols))
      else
        dInputs.setAt i j Flt.zero
  return (dInputs, none)

/-- loss.go:218-251 `CrossEntropyLoss.Forward` (Clip overwrites yhat). -/
def ceForward (size : Int) (yhat y : Mat) : Go α (α × Option Err) := do
  if let some e := lossCheck size yhat y then
    return (Flt.zero, some e)
  let clipped ← clip yhat
  let (likelihoods, _) ← newMatrix yhat.rows 1
  forN yhat.rows.toNat fun i => do
    let sum ← foldN yhat.cols.toNat (fun j sum => do
      let p ← clipped.at i j
      let t ← y.at i j
      return sum +. p *. t) Flt.zero
    likelihoods.setAt i 0 (Flt.neg (Flt.log sum))
  let sum ← foldN likelihoods.rows.toNat (fun i sum => do
    let v ← likelihoods.at i 0
    return sum +. v /. Flt.ofInt likelihoods.rows) Flt.zero
  return (sum, none)

/-- loss.go:254-275 `CrossEntropyLoss.Backward`. -/
def ceBackward (size : Int) (yhat y : Mat) : Go α (Mat × Option Err) := do
  if let some e := lossCheck size yhat y then
    return (Mat.zero, some e)
  let (dInputs, _) ← newMatrix yhat.rows yhat.cols
  forN dInputs.rows.toNat fun i => forN dInputs.cols.toNat fun j => do
    let t ← y.at i j
    let p ← yhat.at i j
    dInputs.setAt i j ((Flt.neg t /. p) /. Flt.ofInt yhat.rows)
  return (dInputs, none)

/-- loss.go:305-329 `BinaryCrossEntropyLoss.Forward` (Clip overwrites yhat). -/
def bceForward (size : Int) (yhat y : Mat) : Go α (α × Option Err) := do
  if let some e := lossCheck size yhat y then
    return (Flt.zero, some e)
  let clipped ← clip yhat
  let sum ← foldN yhat.rows.toNat (fun i sum => foldN yhat.cols.toNat (fun j sum => do
    let t ← y.at i j
    let p ← clipped.at i j
    return sum +. (Flt.neg (t *. Flt.log p +. (Flt.one -. t) *. Flt.log (Flt.one -. p))
      /. Flt.ofInt yhat.rows) /. Flt.ofInt size) sum) Flt.zero
  return (sum, none)

/-- loss.go:332-356 `BinaryCrossEntropyLoss.Backward` (Clip overwrites yhat). -/
def bceBackward (size : Int) (yhat y : Mat) : Go α (Mat × Option Err) := do
  if let some e := lossCheck size yhat y then
    return (Mat.zero, some e)
  let clipped ← clip yhat
  let (dInputs, _) ← newMatrix yhat.rows yhat.cols
  forN dInputs.rows.toNat fun i => forN dInputs.cols.toNat fun j => do
    let t ← y.at i j
    let p ← clipped.at i j
    dInputs.setAt i j ((Flt.neg (t /. p -. (Flt.one -. t) /. (Flt.one -. p))
      /. Flt.ofInt size) /. Flt.ofInt yhat.rows)
  return (dInputs, none)

/-- The `Loss` interface's `Forward` (loss.go:17). -/
def Loss.forward (l : Loss) (yhat y : Mat) : Go α (α × Option Err) :=
  match l.kind with
  | .mse => mseForward l.size yhat y
  | .mae => maeForward l.size yhat y
  | .ce => ceForward l.size yhat y
  | .bce => bceForward l.size yhat y

/-- The `Loss` interface's `Backward` (loss.go:18). -/
def Loss.backward (l : Loss) (yhat y : Mat) : Go α (Mat × Option Err) :=
  match l.kind with
  | .mse => mseBackward l.size yhat y
  | .mae => maeBackward l.size yhat y
  | .ce => ceBackward l.size yhat y
  | .bce => bceBackward l.size yhat y

end NN
