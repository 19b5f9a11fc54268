import Verif.Model.ModelGo
/- Copies of `Model` values.  `Model` is a struct (model.go:53-65) and NewModel returns it by value, so a client can write `b := a`.  The copy
has the same `Layers` slice: the same array, length and capacity.  AddLayer (model.go:75-97) extends it with `append`, which writes into the
array if there is room.  In `Model/ModelGo.lean` the field Layers is a list; here it is a slice, and the theorems of C128 say when the list
is right.  `Optimizers` needs no such treatment: Finalize starts a new slice (model.go:119) and nothing else appends to it.

The growth of an array is a parameter: the Go language only says that there is enough room. -/

namespace NN
variable {α : Type} [Flt α]
open Go

/-- The header of a `[]Layer`: array, length, capacity.  No slice in the package that is appended to starts behind the first element. -/
structure LaySlice where
  arr : Nat
  len : Nat
  cap : Nat

/-- The arrays behind the `[]Layer` slices.  An element is the address of a layer object. -/
structure Arrays where
  next : Nat
  elem : Nat → Nat → Nat

/-- The elements of a slice. -/
def Arrays.list (A : Arrays) (s : LaySlice) : List Nat := (List.range s.len).map (A.elem s.arr)

/-- `append(s, x)`: write behind the last element if the capacity allows it, otherwise move to a new array (Go language, used in
model.go:90).  `grow` is the capacity of the new array as a function of the old one. -/
def goAppend (grow : Nat → Nat) (A : Arrays) (s : LaySlice) (x : Nat) : Arrays × LaySlice :=
  if s.len < s.cap then
    ({ A with elem := upd A.elem s.arr (upd (A.elem s.arr) s.len x) }, { s with len := s.len + 1 })
  else
    (⟨A.next + 1, upd A.elem A.next (upd (A.elem s.arr) s.len x)⟩, ⟨A.next, s.len + 1, grow s.cap⟩)

/-- model.go:53-65: a `Model` value whose Layers are a slice.  The list in `fields` is not used. -/
structure ModelVar (α : Type) where
  fields : Model α
  layers : LaySlice

/-- The model with the elements of its slice as a list. -/
def ModelVar.view (A : Arrays) (v : ModelVar α) : Model α := { v.fields with layers := A.list v.layers }

/-- model.go:68-72 `NewModel`: `[]Layer{}` has no room for an element. -/
def newModelVar : ModelVar α := ⟨newModel, ⟨0, 0, 0⟩⟩

/-- model.go:75-97 `AddLayer`. -/
def addLayerVar (grow : Nat → Nat) (A : Arrays) (v : ModelVar α) (lp : Nat) : Go α ((Arrays × ModelVar α) × Option Err) := do
  let l ← layGet lp
  let values := l.values
  let m := v.fields
  let m1 : Model α := if m.modelSize = 0 then
      { m with inputSize := Flt.toInt (values.get (str "inputs")) } else m
  if m.modelSize ≠ 0 ∧ m.outputSize ≠ Flt.toInt (values.get (str "inputs")) then
    return ((A, { v with fields := m1 }), some .addLayer)
  let (A', s) := goAppend grow A v.layers lp
  return ((A', ⟨{ m1 with modelSize := m1.modelSize + 1, outputSize := Flt.toInt (values.get (str "outputs")) }, s⟩), none)

/-- What a client does with its variables of type Model. -/
inductive VarOp (α : Type) where
  /-- `v = NewModel()` -/
  | new (v : Nat)
  /-- `v = u` -/
  | copy (v u : Nat)
  /-- `v.AddLayer(l)` -/
  | add (v lp : Nat)
  /-- Any other call that may change the fields of v but not `v.Layers`: Finalize, InitLayers, Fit, Predict, ... -/
  | call (v : Nat) (f : Model α → Go α (Model α × Option Err))

/-- One operation on variables with slices. -/
def VarOp.step (grow : Nat → Nat) : VarOp α → Arrays × (Nat → ModelVar α) → Go α ((Arrays × (Nat → ModelVar α)) × Option Err)
  | .new v, (A, env) => return ((A, upd env v newModelVar), none)
  | .copy v u, (A, env) => return ((A, upd env v (env u)), none)
  | .add v lp, (A, env) => do
      let ((A', m), err) ← addLayerVar grow A (env v) lp
      return ((A', upd env v m), err)
  | .call v f, (A, env) => do
      let (m, err) ← f ((env v).view A)
      return ((A, upd env v { env v with fields := m }), err)

/-- One operation on variables with lists, with the functions of `Model/ModelGo.lean`. -/
def VarOp.stepList : VarOp α → (Nat → Model α) → Go α ((Nat → Model α) × Option Err)
  | .new v, env => return (upd env v newModel, none)
  | .copy v u, env => return (upd env v (env u), none)
  | .add v lp, env => do
      let (m, err) ← addLayer (env v) lp
      return (upd env v m, err)
  | .call v f, env => do
      let (m, err) ← f (env v)
      return (upd env v m, err)

/-- A program: a sequence of operations.  The errors are collected. -/
def runVars (grow : Nat → Nat) : List (VarOp α) → Arrays × (Nat → ModelVar α) → Go α ((Arrays × (Nat → ModelVar α)) × List (Option Err))
  | [], s => return (s, [])
  | op :: ops, s => do
      let (s1, err) ← op.step grow s
      let (s2, errs) ← runVars grow ops s1
      return (s2, err :: errs)

/-- The same with lists. -/
def runLists : List (VarOp α) → (Nat → Model α) → Go α ((Nat → Model α) × List (Option Err))
  | [], s => return (s, [])
  | op :: ops, s => do
      let (s1, err) ← op.stepList s
      let (s2, errs) ← runLists ops s1
      return (s2, err :: errs)

end NN
