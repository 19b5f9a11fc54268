import Verif.Real.LeastSquares
import Mathlib.Algebra.Order.Chebyshev
/- Subgradient descent for least absolute deviations, over the reals. -/

namespace NN
open Finset

/-- the sign of a number -/
noncomputable def sgn (x : ℝ) : ℝ := if 0 < x then 1 else if x < 0 then -1 else 0

theorem sgn_sq (x : ℝ) : sgn x ^ 2 ≤ 1 := by
  unfold sgn
  split
  · norm_num
  · split <;> norm_num

/-- The sign is a subgradient of the absolute value. -/
theorem sgn_sub (x y : ℝ) : |x| + sgn x * (y - x) ≤ |y| := by
  unfold sgn
  split
  · next h => rw [abs_of_pos h]; have := le_abs_self y; linarith
  · split
    · next h => rw [abs_of_neg h]; have := neg_le_abs y; linarith
    · next h1 h2 =>
      have : x = 0 := le_antisymm (not_lt.1 h1) (not_lt.1 h2)
      subst this
      simp

/-- sum of the absolute residuals of coefficients θ of one output (column 0) -/
noncomputable def lad (r p : Nat) (X Y θ : Nat → Nat → ℝ) : ℝ := ∑ i ∈ range r, |resid p X Y θ i 0|

/-- its subgradient -/
noncomputable def ladGrad (r p : Nat) (X Y θ : Nat → Nat → ℝ) (k j : Nat) : ℝ := ∑ i ∈ range r, X i k * sgn (resid p X Y θ i j)

/-- Coefficients after t steps of rate lr along g. -/
noncomputable def stepIter (g : (Nat → Nat → ℝ) → Nat → Nat → ℝ) (lr : ℝ) (θ : Nat → Nat → ℝ) : Nat → Nat → Nat → ℝ
  | 0 => θ
  | t + 1 => fun k j => stepIter g lr θ t k j - g (stepIter g lr θ t) k j * lr

theorem lad_sub (r p : Nat) (X Y θ θs : Nat → Nat → ℝ) :
    lad r p X Y θ + ∑ k ∈ range p, ladGrad r p X Y θ k 0 * (θs k 0 - θ k 0) ≤ lad r p X Y θs := by
  have e : ∑ k ∈ range p, ladGrad r p X Y θ k 0 * (θs k 0 - θ k 0) =
      ∑ i ∈ range r, sgn (resid p X Y θ i 0) * (resid p X Y θs i 0 - resid p X Y θ i 0) := by
    have hr : ∀ i, resid p X Y θs i 0 - resid p X Y θ i 0 = ∑ k ∈ range p, X i k * (θs k 0 - θ k 0) := by
      intro i
      unfold resid
      simp only [mul_sub, sum_sub_distrib]
      ring
    simp only [hr, ladGrad, sum_mul, mul_sum]
    rw [sum_comm]
    exact sum_congr rfl fun i _ => sum_congr rfl fun k _ => by ring
  rw [e]
  unfold lad
  rw [← sum_add_distrib]
  exact sum_le_sum fun i _ => sgn_sub _ _

theorem ladGrad_sq (r p : Nat) (X Y θ : Nat → Nat → ℝ) :
    ∑ k ∈ range p, ladGrad r p X Y θ k 0 ^ 2 ≤ r * ∑ i ∈ range r, ∑ k ∈ range p, X i k ^ 2 := by
  rw [sum_comm, mul_sum]
  refine sum_le_sum fun k _ => ?_
  unfold ladGrad
  refine sq_sum_le_card_mul_sum_sq.trans ?_
  rw [card_range]
  refine mul_le_mul_of_nonneg_left (sum_le_sum fun i _ => ?_) (Nat.cast_nonneg _)
  rw [mul_pow]
  exact mul_le_of_le_one_right (sq_nonneg _) (sgn_sq _)

theorem lad_step (r p : Nat) (X Y θ θs : Nat → Nat → ℝ) {lr : ℝ} (h0 : 0 < lr) :
    sqDist 1 p (fun k j => θ k j - ladGrad r p X Y θ k j * lr) θs ≤ sqDist 1 p θ θs - 2 * lr * (lad r p X Y θ - lad r p X Y θs) +
      lr ^ 2 * (r * ∑ i ∈ range r, ∑ k ∈ range p, X i k ^ 2) := by
  have h1 := lad_sub r p X Y θ θs
  have h2 := ladGrad_sq r p X Y θ
  have hd : sqDist 1 p (fun k j => θ k j - ladGrad r p X Y θ k j * lr) θs = sqDist 1 p θ θs +
      2 * lr * ∑ k ∈ range p, ladGrad r p X Y θ k 0 * (θs k 0 - θ k 0) + lr ^ 2 * ∑ k ∈ range p, ladGrad r p X Y θ k 0 ^ 2 := by
    unfold sqDist
    rw [mul_sum, mul_sum, ← sum_add_distrib, ← sum_add_distrib]
    refine sum_congr rfl fun k _ => ?_
    rw [sum_range_one, sum_range_one]
    ring
  rw [hd]
  have a1 := mul_le_mul_of_nonneg_left h1 h0.le
  have a2 := mul_le_mul_of_nonneg_left h2 (sq_nonneg lr)
  linarith

/-- Among the first T iterates there is one whose deviation is close to the least possible one. -/
theorem lad_bound (r p : Nat) (X Y θ θs : Nat → Nat → ℝ) {lr : ℝ} (h0 : 0 < lr) {T : Nat} (hT : 0 < T) :
    ∃ t, t < T ∧ lad r p X Y (stepIter (ladGrad r p X Y) lr θ t) ≤ lad r p X Y θs + sqDist 1 p θ θs / (2 * lr * T) +
      lr / 2 * (r * ∑ i ∈ range r, ∑ k ∈ range p, X i k ^ 2) := by
  by_contra hc
  push Not at hc
  set K := (r : ℝ) * ∑ i ∈ range r, ∑ k ∈ range p, X i k ^ 2 with hK
  have hsum : ∀ s, s ≤ T → sqDist 1 p (stepIter (ladGrad r p X Y) lr θ s) θs ≤ sqDist 1 p θ θs - s * (sqDist 1 p θ θs / T) ∧
      (0 < s → sqDist 1 p (stepIter (ladGrad r p X Y) lr θ s) θs < sqDist 1 p θ θs - s * (sqDist 1 p θ θs / T)) := by
    intro s
    induction s with
    | zero => intro _; exact ⟨by simp [stepIter], fun h => absurd h (lt_irrefl _)⟩
    | succ s ih =>
      intro hs
      have a := (ih (by omega)).1
      have b := hc s (by omega)
      have d := lad_step r p X Y (stepIter (ladGrad r p X Y) lr θ s) θs h0
      rw [← hK] at d
      have e : 2 * lr * (sqDist 1 p θ θs / (2 * lr * T)) = sqDist 1 p θ θs / T := by
        have : (T : ℝ) ≠ 0 := by positivity
        field_simp
      have b2 := mul_lt_mul_of_pos_left b (by positivity : 0 < 2 * lr)
      have e2 : 2 * lr * (lr / 2 * K) = lr ^ 2 * K := by ring
      have : sqDist 1 p (stepIter (ladGrad r p X Y) lr θ (s + 1)) θs < sqDist 1 p θ θs - ((s + 1 : ℕ) : ℝ) * (sqDist 1 p θ θs / T) := by
        show sqDist 1 p (fun k j => stepIter (ladGrad r p X Y) lr θ s k j - ladGrad r p X Y (stepIter (ladGrad r p X Y) lr θ s) k j * lr) θs < _
        push_cast
        rw [mul_add, mul_add, e, e2] at b2
        linarith
      exact ⟨this.le, fun _ => this⟩
  have h := (hsum T le_rfl).2 hT
  rw [mul_div_cancel₀ _ (by positivity : (T : ℝ) ≠ 0), sub_self] at h
  exact absurd (sqDist_nonneg 1 p _ θs) (not_le.2 h)

end NN
