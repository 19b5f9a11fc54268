import Verif.Spec.Same
import Mathlib.Logic.Equiv.Basic
/-
Specification vocabulary for models whose units are numbered differently.
-/

namespace NN
variable {α : Type}

/-- The layer whose unit j is unit τ j of L, for inputs renumbered by σ. -/
def LayerSpec.renum (L : LayerSpec α) (σ τ : Equiv.Perm Nat) : LayerSpec α :=
  { L with W := fun i j => L.W (σ i) (τ j), b := fun j => L.b (τ j) }

/-- The model with unit `σ k j` of `net` as unit j at every level k: the inputs are level 0, the outputs of layer k are level k+1. -/
def Net.renum (net : Net α) (σ : Nat → Equiv.Perm Nat) : Net α :=
  { net with L := fun k => (net.L k).renum (σ k) (σ (k + 1)) }

/-- The state of an optimizer, renumbered in the same way. -/
def OptSpec.renum (S : OptSpec α) (σ τ : Equiv.Perm Nat) : OptSpec α :=
  { S with
    vw := fun i j => S.vw (σ i) (τ j)
    vb := fun i j => S.vb i (τ j)
    cw := fun i j => S.cw (σ i) (τ j)
    cb := fun i j => S.cb i (τ j) }

/-- σ permutes the units of every level. -/
def Net.Renumbers (net : Net α) (σ : Nat → Equiv.Perm Nat) : Prop := ∀ k, k ≤ net.size → ∀ j, j < net.dim k ↔ σ k j < net.dim k

end NN
