import Verif.Spec.Same
import Verif.Real.Inst
import Mathlib.Algebra.BigOperators.Ring.Finset
/-
Specification vocabulary for a change of the coordinates of the inputs.
-/

namespace NN
open Finset

/-- The rows of the d × d' matrix Q are orthonormal: multiplication by Q is a rotation, a reflection, or (for d < d') an embedding into a space
with more coordinates that keeps lengths and angles. -/
def Orthonormal (d d' : Nat) (Q : Nat → Nat → ℝ) : Prop :=
  ∀ k l, k < d → l < d → ∑ j ∈ range d', Q k j * Q l j = if k = l then 1 else 0

/-- AQ: the rows of A (with d entries) in the new coordinates. -/
noncomputable def turned (d : Nat) (Q A : Nat → Nat → ℝ) (i j : Nat) : ℝ := ∑ l ∈ range d, A i l * Q l j

/-- QᵀW: a matrix with d rows, one for each input, in the new coordinates. -/
noncomputable def turnedW (d : Nat) (Q W : Nat → Nat → ℝ) (k j : Nat) : ℝ := ∑ l ∈ range d, Q l k * W l j

/-- The model for inputs with d' entries whose first layer has the weights QᵀW instead of W. -/
noncomputable def Net.turn (net : Net ℝ) (Q : Nat → Nat → ℝ) (d' : Nat) : Net ℝ :=
  { net with
    dim := fun k => if k = 0 then d' else net.dim k
    L := fun k => if k = 0 then { net.L 0 with n := d', W := turnedW (net.L 0).n Q (net.L 0).W } else net.L k }

/-- The state of the optimizer of the first layer, in the new coordinates. -/
noncomputable def OptSpec.turn (S : OptSpec ℝ) (d : Nat) (Q : Nat → Nat → ℝ) : OptSpec ℝ :=
  { S with vw := turnedW d Q S.vw, cw := turnedW d Q S.cw }

/-- The states of the optimizers of all layers, in the new coordinates. -/
noncomputable def turnOpts (S : Nat → OptSpec ℝ) (d : Nat) (Q : Nat → Nat → ℝ) (k : Nat) : OptSpec ℝ := if k = 0 then (S 0).turn d Q else S k

end NN
