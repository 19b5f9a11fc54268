import Verif.Spec.Client
/- Client code (not part of the repository) that assigns the parameters of a model through Matrix.Set. -/

namespace NN
variable {α : Type} [Flt α]
open Go

/-- `for i := 0; i < m.Rows; i++ { for j := 0; j < m.Cols; j++ { m.Set(i, j, v[i][j]) } }` -/
def fillMat (m : Mat) (V : Nat → Nat → α) : Go α Unit :=
  forN m.rows.toNat fun i => forN m.cols.toNat fun j => do
    let _ ← m.set i j (V i j)

/-- The same for `l.Weights` and `l.Biases` of a layer. -/
def assignLayer (lp : Nat) (W : Nat → Nat → α) (b : Nat → α) : Go α Unit := do
  let l ← layGet lp
  let wm ← deref l.weights
  let bm ← deref l.biases
  fillMat wm W
  fillMat bm fun _ => b

/-- The same for every layer of a model. -/
def assignParams (m : Model α) (W : Nat → Nat → Nat → α) (b : Nat → Nat → α) : Go α Unit :=
  forN m.layers.length fun k => do
    let lp ← listGet m.layers k
    assignLayer lp (W k) (b k)

/-- Build a model, assign its parameters, Finalize; stop at the first error. -/
def makeModelWith (a : Nat → LayerArg α) (n : Nat) (W : Nat → Nat → Nat → α) (b : Nat → Nat → α) (loss : Loss) (o : Optim α)
    (accType : Int) (accPrec : α) : Go α (Model α × Option Err) := do
  let (m, err) ← buildModel a n
  if let some e := err then
    return (m, some e)
  assignParams m W b
  finalize m loss o.getValues accType accPrec

end NN
