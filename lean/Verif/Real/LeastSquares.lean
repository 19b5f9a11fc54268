import Mathlib.Algebra.Order.BigOperators.Ring.Finset
import Mathlib.Algebra.BigOperators.Field
import Mathlib.Data.Real.Basic
import Mathlib.Tactic.Linarith
import Mathlib.Tactic.Ring
import Mathlib.Tactic.FieldSimp
import Mathlib.Tactic.Positivity
/- Gradient descent for linear least squares, over the reals: a small enough constant step decreases the error, and the error
exceeds that of any other coefficients by at most the squared distance over twice the sum of the steps. -/

namespace NN
open Finset

/-- residuals of the coefficients `θ` (p × c) on the samples X ↦ Y -/
noncomputable def resid (p : Nat) (X Y θ : Nat → Nat → ℝ) (i j : Nat) : ℝ := ∑ k ∈ range p, X i k * θ k j - Y i j

/-- summed mean squared error -/
noncomputable def lsq (r c p : Nat) (X Y θ : Nat → Nat → ℝ) : ℝ := ∑ i ∈ range r, (∑ j ∈ range c, resid p X Y θ i j ^ 2) / c

/-- its gradient -/
noncomputable def lsqGrad (r c p : Nat) (X Y θ : Nat → Nat → ℝ) (k j : Nat) : ℝ :=
  ∑ i ∈ range r, X i k * (resid p X Y θ i j * (2 / c))

/-- squared distance of coefficients -/
noncomputable def sqDist (c p : Nat) (θ θ' : Nat → Nat → ℝ) : ℝ := ∑ k ∈ range p, ∑ j ∈ range c, (θ k j - θ' k j) ^ 2

theorem lsq_pair (r c p : Nat) (X Y θ Δ : Nat → Nat → ℝ) :
    ∑ i ∈ range r, ∑ j ∈ range c, resid p X Y θ i j * (2 / c) * (∑ k ∈ range p, X i k * Δ k j) =
      ∑ k ∈ range p, ∑ j ∈ range c, lsqGrad r c p X Y θ k j * Δ k j := by
  simp only [lsqGrad, mul_sum, sum_mul]
  rw [sum_comm]
  rw [sum_comm (s := range p)]
  refine sum_congr rfl fun j _ => ?_
  rw [sum_comm]
  refine sum_congr rfl fun k _ => sum_congr rfl fun i _ => ?_
  ring

theorem resid_add (p : Nat) (X Y θ Δ : Nat → Nat → ℝ) (i j : Nat) :
    resid p X Y (fun k j => θ k j + Δ k j) i j = resid p X Y θ i j + ∑ k ∈ range p, X i k * Δ k j := by
  unfold resid
  simp only [mul_add, sum_add_distrib]
  ring

theorem lsq_add (r c p : Nat) (X Y θ Δ : Nat → Nat → ℝ) :
    lsq r c p X Y (fun k j => θ k j + Δ k j) = lsq r c p X Y θ + ∑ k ∈ range p, ∑ j ∈ range c, lsqGrad r c p X Y θ k j * Δ k j +
      ∑ i ∈ range r, (∑ j ∈ range c, (∑ k ∈ range p, X i k * Δ k j) ^ 2) / c := by
  rw [← lsq_pair]
  unfold lsq
  rw [← sum_add_distrib, ← sum_add_distrib]
  refine sum_congr rfl fun i _ => ?_
  rw [sum_div, sum_div, sum_div, ← sum_add_distrib, ← sum_add_distrib]
  refine sum_congr rfl fun j _ => ?_
  rw [resid_add]
  ring

theorem lsq_quad_le (r c p : Nat) (X Δ : Nat → Nat → ℝ) :
    ∑ i ∈ range r, (∑ j ∈ range c, (∑ k ∈ range p, X i k * Δ k j) ^ 2) / c ≤
      (∑ i ∈ range r, ∑ k ∈ range p, X i k ^ 2) / c * ∑ k ∈ range p, ∑ j ∈ range c, Δ k j ^ 2 := by
  rw [sum_div, sum_mul]
  refine sum_le_sum fun i _ => ?_
  rw [div_mul_eq_mul_div]
  refine div_le_div_of_nonneg_right ?_ (Nat.cast_nonneg c)
  rw [sum_comm (s := range p) (t := range c), mul_sum]
  exact sum_le_sum fun j _ => sum_mul_sq_le_sq_mul_sq _ _ _

/-- One step of gradient descent with a small enough rate. -/
theorem lsq_step (r c p : Nat) (X Y θ : Nat → Nat → ℝ) {lr : ℝ} (h0 : 0 < lr)
    (hlr : lr * (2 / c * ∑ i ∈ range r, ∑ k ∈ range p, X i k ^ 2) ≤ 1) :
    lsq r c p X Y (fun k j => θ k j - lsqGrad r c p X Y θ k j * lr) ≤ lsq r c p X Y θ -
        lr / 2 * ∑ k ∈ range p, ∑ j ∈ range c, lsqGrad r c p X Y θ k j ^ 2 ∧
      ∀ θs, sqDist c p (fun k j => θ k j - lsqGrad r c p X Y θ k j * lr) θs ≤ sqDist c p θ θs -
        2 * lr * (lsq r c p X Y (fun k j => θ k j - lsqGrad r c p X Y θ k j * lr) - lsq r c p X Y θs) := by
  set g := lsqGrad r c p X Y θ with hg
  set N := ∑ k ∈ range p, ∑ j ∈ range c, g k j ^ 2 with hN
  have hN0 : 0 ≤ N := sum_nonneg fun _ _ => sum_nonneg fun _ _ => sq_nonneg _
  have h1 : lsq r c p X Y (fun k j => θ k j - g k j * lr) ≤ lsq r c p X Y θ - lr / 2 * N := by
    have e := lsq_add r c p X Y θ (fun k j => -(g k j * lr))
    have q := lsq_quad_le r c p X (fun k j => -(g k j * lr))
    have e1 : ∑ k ∈ range p, ∑ j ∈ range c, g k j * -(g k j * lr) = -lr * N := by
      rw [hN, mul_sum]
      refine sum_congr rfl fun k _ => ?_
      rw [mul_sum]
      exact sum_congr rfl fun j _ => by ring
    have e2 : ∑ k ∈ range p, ∑ j ∈ range c, (-(g k j * lr)) ^ 2 = lr ^ 2 * N := by
      rw [hN, mul_sum]
      refine sum_congr rfl fun k _ => ?_
      rw [mul_sum]
      exact sum_congr rfl fun j _ => by ring
    rw [← hg, e1] at e
    rw [e2] at q
    have q2 : (∑ i ∈ range r, ∑ k ∈ range p, X i k ^ 2) / c * (lr ^ 2 * N) ≤ lr / 2 * N := by
      have := mul_le_mul_of_nonneg_right hlr (by positivity : 0 ≤ lr * N / 2)
      refine le_trans (le_of_eq ?_) (this.trans (le_of_eq ?_)) <;> ring
    simp only [sub_eq_add_neg] at e ⊢
    rw [e]
    linarith
  refine ⟨h1, fun θs => ?_⟩
  have e := lsq_add r c p X Y θ (fun k j => θs k j - θ k j)
  simp only [add_sub_cancel] at e
  rw [← hg] at e
  set P := ∑ k ∈ range p, ∑ j ∈ range c, g k j * (θs k j - θ k j) with hP
  have hq : 0 ≤ ∑ i ∈ range r, (∑ j ∈ range c, (∑ k ∈ range p, X i k * (θs k j - θ k j)) ^ 2) / c :=
    sum_nonneg fun _ _ => div_nonneg (sum_nonneg fun _ _ => sq_nonneg _) (Nat.cast_nonneg c)
  have hd : sqDist c p (fun k j => θ k j - g k j * lr) θs = sqDist c p θ θs + 2 * lr * P + lr ^ 2 * N := by
    unfold sqDist
    rw [hP, hN, mul_sum, mul_sum, ← sum_add_distrib, ← sum_add_distrib]
    refine sum_congr rfl fun k _ => ?_
    rw [mul_sum, mul_sum, ← sum_add_distrib, ← sum_add_distrib]
    exact sum_congr rfl fun j _ => by ring
  rw [hd]
  have a1 : lr * P ≤ lr * (lsq r c p X Y θs - lsq r c p X Y θ) := mul_le_mul_of_nonneg_left (by linarith) h0.le
  have a2 := mul_le_mul_of_nonneg_left h1 h0.le
  nlinarith [a1, a2]

theorem sqDist_nonneg (c p : Nat) (θ θ' : Nat → Nat → ℝ) : 0 ≤ sqDist c p θ θ' :=
  sum_nonneg fun _ _ => sum_nonneg fun _ _ => sq_nonneg _

/-- Coefficients after t steps. -/
noncomputable def lsqIter (r c p : Nat) (X Y : Nat → Nat → ℝ) (lr : ℝ) (θ : Nat → Nat → ℝ) : Nat → Nat → Nat → ℝ
  | 0 => θ
  | t + 1 => fun k j => lsqIter r c p X Y lr θ t k j - lsqGrad r c p X Y (lsqIter r c p X Y lr θ t) k j * lr

theorem lsqIter_spec (r c p : Nat) (X Y θ : Nat → Nat → ℝ) {lr : ℝ} (h0 : 0 < lr)
    (hlr : lr * (2 / c * ∑ i ∈ range r, ∑ k ∈ range p, X i k ^ 2) ≤ 1) (t : Nat) :
    lsq r c p X Y (lsqIter r c p X Y lr θ t) ≤ lsq r c p X Y θ ∧
      ∀ θs, 2 * lr * t * (lsq r c p X Y (lsqIter r c p X Y lr θ t) - lsq r c p X Y θs) + sqDist c p (lsqIter r c p X Y lr θ t) θs ≤
        sqDist c p θ θs := by
  induction t with
  | zero => exact ⟨le_rfl, fun θs => by simp [lsqIter]⟩
  | succ t ih =>
    obtain ⟨i1, i2⟩ := ih
    obtain ⟨s1, s2⟩ := lsq_step r c p X Y (lsqIter r c p X Y lr θ t) h0 hlr
    have hN : 0 ≤ lr / 2 * ∑ k ∈ range p, ∑ j ∈ range c, lsqGrad r c p X Y (lsqIter r c p X Y lr θ t) k j ^ 2 :=
      mul_nonneg (by positivity) (sum_nonneg fun _ _ => sum_nonneg fun _ _ => sq_nonneg _)
    have hdec : lsq r c p X Y (lsqIter r c p X Y lr θ (t + 1)) ≤ lsq r c p X Y (lsqIter r c p X Y lr θ t) := by
      exact s1.trans (by linarith)
    refine ⟨hdec.trans i1, fun θs => ?_⟩
    have a := i2 θs
    have b := s2 θs
    change sqDist c p (lsqIter r c p X Y lr θ (t + 1)) θs ≤ _ - 2 * lr * (lsq r c p X Y (lsqIter r c p X Y lr θ (t + 1)) - _) at b
    have d := mul_le_mul_of_nonneg_left hdec (by positivity : 0 ≤ 2 * lr * (t : ℝ))
    push_cast
    nlinarith [a, b, d]

theorem lsqIter_bound (r c p : Nat) (X Y θ : Nat → Nat → ℝ) {lr : ℝ} (h0 : 0 < lr)
    (hlr : lr * (2 / c * ∑ i ∈ range r, ∑ k ∈ range p, X i k ^ 2) ≤ 1) {t : Nat} (ht : 0 < t) (θs : Nat → Nat → ℝ) :
    lsq r c p X Y (lsqIter r c p X Y lr θ t) ≤ lsq r c p X Y θs + sqDist c p θ θs / (2 * lr * t) := by
  have h := (lsqIter_spec r c p X Y θ h0 hlr t).2 θs
  have h2 := sqDist_nonneg c p (lsqIter r c p X Y lr θ t) θs
  have hpos : 0 < 2 * lr * (t : ℝ) := by positivity
  rw [← sub_le_iff_le_add', le_div_iff₀ hpos]
  linarith

end NN
