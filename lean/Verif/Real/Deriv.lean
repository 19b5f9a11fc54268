import Verif.Lemmas.Mat
import Mathlib.Analysis.Calculus.Deriv.Add
import Mathlib.Analysis.Calculus.Deriv.Mul
/- Derivatives of sums over the entries of a matrix with respect to one entry. -/

namespace NN
open Finset

theorem hasDerivAt_sum2_upd {r c : Nat} (g : Nat → Nat → ℝ → ℝ) (A : Nat → Nat → ℝ) {i0 j0 : Nat} (hi : i0 < r)
    (hj : j0 < c) {d : ℝ} (h : HasDerivAt (g i0 j0) d (A i0 j0)) :
    HasDerivAt (fun x => ∑ i ∈ range r, ∑ j ∈ range c, g i j (upd2 A i0 j0 x i j)) d (A i0 j0) := by
  have key : HasDerivAt (fun x => ∑ i ∈ range r, ∑ j ∈ range c, g i j (upd2 A i0 j0 x i j))
      (∑ i ∈ range r, ∑ j ∈ range c, if i = i0 ∧ j = j0 then d else 0) (A i0 j0) := by
    refine HasDerivAt.fun_sum fun i _ => HasDerivAt.fun_sum fun j _ => ?_
    by_cases e : i = i0 ∧ j = j0
    · obtain ⟨rfl, rfl⟩ := e
      simpa [upd2] using h
    · simp only [upd2, if_neg e]
      exact hasDerivAt_const _ _
  have e : (∑ i ∈ range r, ∑ j ∈ range c, if i = i0 ∧ j = j0 then d else 0) = d := by
    rw [Finset.sum_eq_single i0, Finset.sum_eq_single j0]
    · simp
    · intro j _ hne; simp [hne]
    · intro h; exact absurd (mem_range.2 hj) h
    · intro i _ hne; simp [hne]
    · intro h; exact absurd (mem_range.2 hi) h
  rwa [e] at key

/-- Derivative of one row's weighted sum with respect to one of its entries. -/
theorem hasDerivAt_row_upd {c : Nat} (A B : Nat → Nat → ℝ) {i0 j0 : Nat} (hj : j0 < c) :
    HasDerivAt (fun x => ∑ j ∈ range c, upd2 A i0 j0 x i0 j * B i0 j) (B i0 j0) (A i0 j0) := by
  have := hasDerivAt_sum2_upd (r := i0 + 1) (c := c) (fun i j x => if i = i0 then x * B i j else 0) A
    (i0 := i0) (j0 := j0) (by omega) hj (d := B i0 j0) (by simpa using (hasDerivAt_id (A i0 j0)).mul_const (B i0 j0))
  refine this.congr_of_eventuallyEq (Filter.Eventually.of_forall fun x => ?_)
  dsimp only
  rw [Finset.sum_range_succ]
  simp only [if_true]
  rw [Finset.sum_eq_zero (s := range i0), zero_add]
  intro i hi
  have : i ≠ i0 := by have := mem_range.1 hi; omega
  simp [this]

end NN
