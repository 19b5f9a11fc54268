import Verif.Model.Matrix
/- Model of /repo/activation.go.  All functions work in place on the rows of their argument. -/

namespace NN
variable {α : Type} [Flt α]
open Go

/-- activation.go:12-22 `RELU`. -/
def relu (m : Mat) : Go α Mat := do
  forN m.rows.toNat fun i => forN m.cols.toNat fun j => do
    let x ← m.at i j
    m.setAt i j (Flt.max x Flt.zero)
  return m

/-- activation.go:25-37 `RELUPrime`. -/
def reluPrime (m x : Mat) : Go α Mat := do
  forN m.rows.toNat fun i => forN m.cols.toNat fun j => do
    let v ← x.at i j
    if Flt.le v Flt.zero then
      m.setAt i j Flt.zero
  return m

/-- activation.go:41-51 `Sigmoid`. -/
def sigmoid (m : Mat) : Go α Mat := do
  forN m.rows.toNat fun i => forN m.cols.toNat fun j => do
    let x ← m.at i j
    m.setAt i j (Flt.one /. (Flt.one +. Flt.exp (Flt.neg x)))
  return m

/-- activation.go:54-66 `SigmoidPrime`: overwrites its FIRST argument, with that argument's size. -/
def sigmoidPrime (m dValues : Mat) : Go α Mat := do
  let m ← sigmoid m
  forN m.rows.toNat fun i => forN m.cols.toNat fun j => do
    let d ← dValues.at i j
    let x ← m.at i j
    let x' ← m.at i j
    m.setAt i j (d *. x *. (Flt.one -. x'))
  return m

/-- activation.go:69-81 `LeakyRELU`. -/
def leakyRelu (m : Mat) (slope : α) : Go α Mat := do
  forN m.rows.toNat fun i => forN m.cols.toNat fun j => do
    let x ← m.at i j
    if Flt.lt x Flt.zero then
      let x' ← m.at i j
      m.setAt i j (x' *. slope)
  return m

/-- activation.go:85-97 `LeakyRELUPrime`. -/
def leakyReluPrime (m x : Mat) (slope : α) : Go α Mat := do
  forN m.rows.toNat fun i => forN m.cols.toNat fun j => do
    let v ← x.at i j
    if Flt.lt v Flt.zero then
      let d ← m.at i j
      m.setAt i j (d *. slope)
  return m

/-- activation.go:100-115 `Softmax`. -/
def softmax (m : Mat) : Go α Mat := do
  forN m.rows.toNat fun i => do
    let sum ← foldN m.cols.toNat (fun j sum => do
      let x ← m.at i j
      m.setAt i j (Flt.exp x)
      let e ← m.at i j
      return sum +. e) Flt.zero
    forN m.cols.toNat fun j => do
      let e ← m.at i j
      m.setAt i j (e /. sum)
  return m

end NN
