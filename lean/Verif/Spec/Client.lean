import Verif.Model.ModelGo
/-
A client of the package: the program that makes layers, puts them into a new model, initialises and finalizes it, and trains it.
Not code of the package; it only calls exported functions of the package.
-/

namespace NN
variable {α : Type} [Flt α]
open Go

/-- The arguments of a layer constructor. -/
structure LayerArg (α : Type) where
  kind : LayerKind
  inputs : Int
  outputs : Int
  slope : α
  dropout : α

/-- `m := NewModel()`, then for i = 0, ..., n-1: `l, err := New...Layer(...)`; `err = m.AddLayer(&l)`; stop at the first error. -/
def buildModel (a : Nat → LayerArg α) : Nat → Go α (Model α × Option Err)
  | 0 => pure (newModel, none)
  | n + 1 => do
    let (m, err) ← buildModel a n
    if let some e := err then
      return (m, some e)
    let (l, err) ← newLayer (a n).kind (a n).inputs (a n).outputs (a n).slope (a n).dropout
    if let some e := err then
      return (m, some e)
    let lp ← layNew l
    addLayer m lp

/-- The first n layers have valid arguments, and the outputs of each are the inputs of the next. -/
def ArgsOk (a : Nat → LayerArg α) (n : Nat) : Prop :=
  (∀ i, i < n → 1 ≤ (a i).inputs ∧ 1 ≤ (a i).outputs ∧ ((a i).kind = .leaky → Flt.lt (a i).slope Flt.zero = false) ∧
    ((a i).kind = .dropout → Flt.lt Flt.one (a i).dropout = false ∧ Flt.lt (a i).dropout Flt.zero = false)) ∧
  ∀ i, i + 1 < n → (a i).outputs = (a (i + 1)).inputs

/-- Build, InitLayers, Finalize; stop at the first error. -/
def makeModel (a : Nat → LayerArg α) (n : Nat) (loss : Loss) (o : Optim α) (accType : Int) (accPrec : α) :
    Go α (Model α × Option Err) := do
  let (m, err) ← buildModel a n
  if let some e := err then
    return (m, some e)
  initLayers m
  finalize m loss o.getValues accType accPrec

/-- Make a model and train it with logging off. -/
def trainNew (a : Nat → LayerArg α) (n : Nat) (loss : Loss) (o : Optim α) (accType : Int) (accPrec : α) (X Y : Mat)
    (epochs batchSize : Int) : Go α (Model α × Option Err) := do
  let (m, err) ← makeModel a n loss o accType accPrec
  if let some e := err then
    return (m, some e)
  let err ← fit m X Y epochs batchSize Mat.zero Mat.zero 0
  return (m, err)

end NN
