import Mathlib.Algebra.Order.BigOperators.Ring.Finset
import Mathlib.Algebra.BigOperators.Field
import Mathlib.Analysis.SpecialFunctions.Log.Basic
import Mathlib.Analysis.SpecialFunctions.Exp
import Mathlib.Analysis.Complex.Exponential
import Mathlib.Tactic.Linarith
import Mathlib.Tactic.Ring
import Mathlib.Tactic.FieldSimp
import Mathlib.Tactic.Positivity
import Verif.Real.LeastSquares
/- Gradient descent for softmax regression, over the reals: a small enough constant step decreases the cross-entropy, the cross-entropy
exceeds that of any other coefficients by at most the squared distance over twice the sum of the steps, and on separable data it tends
to 0. -/

namespace NN
open Finset

/-- softmax of the first c entries of z -/
noncomputable def smaxP (c : Nat) (z : Nat → ℝ) (j : Nat) : ℝ := Real.exp (z j) / ∑ k ∈ range c, Real.exp (z k)

/-- logarithm of the sum of the exponentials -/
noncomputable def lse (c : Nat) (z : Nat → ℝ) : ℝ := Real.log (∑ k ∈ range c, Real.exp (z k))

theorem sumExp_pos {c : Nat} (hc : 0 < c) (z : Nat → ℝ) : 0 < ∑ k ∈ range c, Real.exp (z k) :=
  sum_pos (fun _ _ => Real.exp_pos _) ⟨0, mem_range.2 hc⟩

theorem smaxP_nonneg (c : Nat) (z : Nat → ℝ) (j : Nat) : 0 ≤ smaxP c z j :=
  div_nonneg (Real.exp_pos _).le (sum_nonneg fun _ _ => (Real.exp_pos _).le)

theorem smaxP_sum {c : Nat} (hc : 0 < c) (z : Nat → ℝ) : ∑ j ∈ range c, smaxP c z j = 1 := by
  unfold smaxP
  rw [← sum_div, div_self (sumExp_pos hc z).ne']

theorem smaxP_le {c : Nat} (hc : 0 < c) (z : Nat → ℝ) {j : Nat} (hj : j < c) : smaxP c z j ≤ 1 := by
  rw [← smaxP_sum hc z]
  exact single_le_sum (f := smaxP c z) (fun k _ => smaxP_nonneg c z k) (mem_range.2 hj)

theorem lse_add {c : Nat} (hc : 0 < c) (z d : Nat → ℝ) :
    lse c (fun j => z j + d j) = lse c z + Real.log (∑ j ∈ range c, smaxP c z j * Real.exp (d j)) := by
  have h := sumExp_pos hc z
  have e : ∑ j ∈ range c, Real.exp (z j + d j) = (∑ k ∈ range c, Real.exp (z k)) * ∑ j ∈ range c, smaxP c z j * Real.exp (d j) := by
    rw [mul_sum]
    refine sum_congr rfl fun j _ => ?_
    unfold smaxP
    rw [Real.exp_add]
    field_simp
  have h2 : 0 < ∑ j ∈ range c, smaxP c z j * Real.exp (d j) := by
    refine sum_pos (fun j _ => mul_pos (div_pos (Real.exp_pos _) h) (Real.exp_pos _)) ⟨0, mem_range.2 hc⟩
  unfold lse
  rw [e, Real.log_mul h.ne' h2.ne']

/-- The first-order estimate is below. -/
theorem lse_lower {c : Nat} (hc : 0 < c) (z d : Nat → ℝ) :
    lse c z + ∑ j ∈ range c, smaxP c z j * d j ≤ lse c (fun j => z j + d j) := by
  rw [lse_add hc]
  have h : Real.exp (∑ j ∈ range c, smaxP c z j * d j) ≤ ∑ j ∈ range c, smaxP c z j * Real.exp (d j) := by
    set m := ∑ j ∈ range c, smaxP c z j * d j with hm
    have : ∑ j ∈ range c, smaxP c z j * (Real.exp m * (1 + (d j - m))) ≤ ∑ j ∈ range c, smaxP c z j * Real.exp (d j) := by
      refine sum_le_sum fun j _ => mul_le_mul_of_nonneg_left ?_ (smaxP_nonneg c z j)
      have h1 : 1 + (d j - m) ≤ Real.exp (d j - m) := by have := Real.add_one_le_exp (d j - m); linarith
      calc Real.exp m * (1 + (d j - m)) ≤ Real.exp m * Real.exp (d j - m) := mul_le_mul_of_nonneg_left h1 (Real.exp_pos _).le
        _ = Real.exp (d j) := by rw [← Real.exp_add]; congr 1; ring
    refine le_trans (le_of_eq ?_) this
    have e : ∀ j, smaxP c z j * (Real.exp m * (1 + (d j - m))) = Real.exp m * (smaxP c z j * (1 - m) + smaxP c z j * d j) := fun j => by ring
    simp only [e]
    rw [← mul_sum, sum_add_distrib, ← sum_mul, smaxP_sum hc, ← hm]
    ring
  have := Real.log_le_log (Real.exp_pos _) h
  rw [Real.log_exp] at this
  linarith

/-- For small changes it is off by at most a square. -/
theorem lse_upper {c : Nat} (hc : 0 < c) (z d : Nat → ℝ) (hd : ∀ j, j < c → |d j| ≤ 1) :
    lse c (fun j => z j + d j) ≤ lse c z + ∑ j ∈ range c, smaxP c z j * d j + ∑ j ∈ range c, smaxP c z j * d j ^ 2 := by
  rw [lse_add hc]
  have hpos : 0 < ∑ j ∈ range c, smaxP c z j * Real.exp (d j) :=
    sum_pos (fun j _ => mul_pos (div_pos (Real.exp_pos _) (sumExp_pos hc z)) (Real.exp_pos _)) ⟨0, mem_range.2 hc⟩
  have h1 := Real.log_le_sub_one_of_pos hpos
  have h2 : ∑ j ∈ range c, smaxP c z j * Real.exp (d j) ≤ ∑ j ∈ range c, (smaxP c z j + smaxP c z j * d j + smaxP c z j * d j ^ 2) := by
    refine sum_le_sum fun j hj => ?_
    have := (abs_le.1 (Real.abs_exp_sub_one_sub_id_le (hd j (mem_range.1 hj)))).2
    have : Real.exp (d j) ≤ 1 + d j + d j ^ 2 := by linarith
    calc smaxP c z j * Real.exp (d j) ≤ smaxP c z j * (1 + d j + d j ^ 2) := mul_le_mul_of_nonneg_left this (smaxP_nonneg c z j)
      _ = _ := by ring
  rw [sum_add_distrib, sum_add_distrib, smaxP_sum hc] at h2
  linarith

/-- scores of the coefficients `θ` (p × c) on the samples -/
noncomputable def score (p : Nat) (X θ : Nat → Nat → ℝ) (i j : Nat) : ℝ := ∑ k ∈ range p, X i k * θ k j

/-- mean cross-entropy of the softmax of the scores; sample i has the class `l i` -/
noncomputable def smr (r c p : Nat) (X : Nat → Nat → ℝ) (l : Nat → Nat) (θ : Nat → Nat → ℝ) : ℝ :=
  (∑ i ∈ range r, (lse c (score p X θ i) - score p X θ i (l i))) / r

/-- error of the predicted probabilities -/
noncomputable def pErr (c p : Nat) (X : Nat → Nat → ℝ) (l : Nat → Nat) (θ : Nat → Nat → ℝ) (i j : Nat) : ℝ :=
  smaxP c (score p X θ i) j - if j = l i then 1 else 0

/-- its gradient -/
noncomputable def smrGrad (r c p : Nat) (X : Nat → Nat → ℝ) (l : Nat → Nat) (θ : Nat → Nat → ℝ) (k j : Nat) : ℝ :=
  ∑ i ∈ range r, X i k * (pErr c p X l θ i j / r)

theorem score_add (p : Nat) (X θ Δ : Nat → Nat → ℝ) (i j : Nat) :
    score p X (fun k j => θ k j + Δ k j) i j = score p X θ i j + score p X Δ i j := by
  unfold score
  simp only [mul_add, sum_add_distrib]

theorem smr_pair (r c p : Nat) (X : Nat → Nat → ℝ) (l : Nat → Nat) (θ Δ : Nat → Nat → ℝ) :
    (∑ i ∈ range r, ∑ j ∈ range c, pErr c p X l θ i j * score p X Δ i j) / r =
      ∑ k ∈ range p, ∑ j ∈ range c, smrGrad r c p X l θ k j * Δ k j := by
  simp only [smrGrad, score, mul_sum, sum_mul, sum_div]
  rw [sum_comm]
  rw [sum_comm (s := range p)]
  refine sum_congr rfl fun j _ => ?_
  rw [sum_comm]
  refine sum_congr rfl fun k _ => sum_congr rfl fun i _ => ?_
  ring

theorem pErr_sum {c p : Nat} (X : Nat → Nat → ℝ) (l : Nat → Nat) (θ : Nat → Nat → ℝ) {i : Nat} (hl : l i < c) (d : Nat → ℝ) :
    ∑ j ∈ range c, pErr c p X l θ i j * d j = ∑ j ∈ range c, smaxP c (score p X θ i) j * d j - d (l i) := by
  unfold pErr
  simp only [sub_mul, sum_sub_distrib, ite_mul, one_mul, zero_mul]
  rw [sum_ite_eq' (range c) (l i), if_pos (mem_range.2 hl)]

/-- convexity -/
theorem smr_lower {r c p : Nat} (X : Nat → Nat → ℝ) (l : Nat → Nat) (hl : ∀ i, i < r → l i < c) (θ Δ : Nat → Nat → ℝ) :
    smr r c p X l θ + ∑ k ∈ range p, ∑ j ∈ range c, smrGrad r c p X l θ k j * Δ k j ≤ smr r c p X l (fun k j => θ k j + Δ k j) := by
  rw [← smr_pair]
  unfold smr
  rw [← add_div, ← sum_add_distrib]
  refine div_le_div_of_nonneg_right (sum_le_sum fun i hi => ?_) (Nat.cast_nonneg r)
  have hli := hl i (mem_range.1 hi)
  rw [pErr_sum X l θ hli]
  have h := lse_lower (c := c) (by omega) (score p X θ i) (score p X Δ i)
  rw [show score p X (fun k j => θ k j + Δ k j) i = fun j => score p X θ i j + score p X Δ i j from funext fun j => score_add p X θ Δ i j]
  linarith

/-- smoothness -/
theorem smr_upper {r c p : Nat} (X : Nat → Nat → ℝ) (l : Nat → Nat) (hl : ∀ i, i < r → l i < c) (θ Δ : Nat → Nat → ℝ)
    (hd : ∀ i j, i < r → j < c → |score p X Δ i j| ≤ 1) :
    smr r c p X l (fun k j => θ k j + Δ k j) ≤ smr r c p X l θ + ∑ k ∈ range p, ∑ j ∈ range c, smrGrad r c p X l θ k j * Δ k j +
      (∑ i ∈ range r, ∑ j ∈ range c, score p X Δ i j ^ 2) / r := by
  rw [← smr_pair]
  unfold smr
  rw [← add_div, ← add_div, ← sum_add_distrib, ← sum_add_distrib]
  refine div_le_div_of_nonneg_right (sum_le_sum fun i hi => ?_) (Nat.cast_nonneg r)
  have hli := hl i (mem_range.1 hi)
  rw [pErr_sum X l θ hli]
  have h := lse_upper (c := c) (by omega) (score p X θ i) (score p X Δ i) (fun j hj => hd i j (mem_range.1 hi) hj)
  have h2 : ∑ j ∈ range c, smaxP c (score p X θ i) j * score p X Δ i j ^ 2 ≤ ∑ j ∈ range c, score p X Δ i j ^ 2 :=
    sum_le_sum fun j hj => mul_le_of_le_one_left (sq_nonneg _) (smaxP_le (by omega) _ (mem_range.1 hj))
  rw [show score p X (fun k j => θ k j + Δ k j) i = fun j => score p X θ i j + score p X Δ i j from funext fun j => score_add p X θ Δ i j]
  linarith

theorem pErr_abs {c p : Nat} (X : Nat → Nat → ℝ) (l : Nat → Nat) (θ : Nat → Nat → ℝ) {i j : Nat} (hj : j < c) : |pErr c p X l θ i j| ≤ 1 := by
  have h1 := smaxP_nonneg c (score p X θ i) j
  have h2 := smaxP_le (by omega) (score p X θ i) hj
  unfold pErr
  rw [abs_le]
  split <;> constructor <;> linarith

/-- The scores of the gradient are bounded. -/
theorem score_grad {r c p : Nat} (X : Nat → Nat → ℝ) (l : Nat → Nat) (θ : Nat → Nat → ℝ) {R : ℝ} (hR : ∀ i, i < r → ∑ k ∈ range p, X i k ^ 2 ≤ R)
    {i j : Nat} (hi : i < r) (hj : j < c) : |score p X (smrGrad r c p X l θ) i j| ≤ R := by
  have hr : (0 : ℝ) < r := by exact_mod_cast (show 0 < r by omega)
  have e : score p X (smrGrad r c p X l θ) i j = (∑ i' ∈ range r, pErr c p X l θ i' j * ∑ k ∈ range p, X i k * X i' k) / r := by
    unfold score smrGrad
    simp only [mul_sum, sum_div]
    rw [sum_comm]
    exact sum_congr rfl fun i' _ => sum_congr rfl fun k _ => by ring
  rw [e, abs_div, abs_of_pos hr, div_le_iff₀ hr]
  refine (abs_sum_le_sum_abs _ _).trans ?_
  have : ∀ i' ∈ range r, |pErr c p X l θ i' j * ∑ k ∈ range p, X i k * X i' k| ≤ R := by
    intro i' hi'
    have h1 := hR i hi
    have h2 := hR i' (mem_range.1 hi')
    have h3 : |∑ k ∈ range p, X i k * X i' k| ≤ R := by
      have a1 : 0 ≤ ∑ k ∈ range p, (X i k - X i' k) ^ 2 := sum_nonneg fun _ _ => sq_nonneg _
      have a2 : 0 ≤ ∑ k ∈ range p, (X i k + X i' k) ^ 2 := sum_nonneg fun _ _ => sq_nonneg _
      have e1 : ∑ k ∈ range p, (X i k - X i' k) ^ 2 = ∑ k ∈ range p, X i k ^ 2 + ∑ k ∈ range p, X i' k ^ 2 - 2 * ∑ k ∈ range p, X i k * X i' k := by
        rw [mul_sum, ← sum_add_distrib, ← sum_sub_distrib]
        exact sum_congr rfl fun k _ => by ring
      have e2 : ∑ k ∈ range p, (X i k + X i' k) ^ 2 = ∑ k ∈ range p, X i k ^ 2 + ∑ k ∈ range p, X i' k ^ 2 + 2 * ∑ k ∈ range p, X i k * X i' k := by
        rw [mul_sum, ← sum_add_distrib, ← sum_add_distrib]
        exact sum_congr rfl fun k _ => by ring
      rw [abs_le]
      constructor <;> linarith
    rw [abs_mul]
    calc _ ≤ 1 * |∑ k ∈ range p, X i k * X i' k| := mul_le_mul_of_nonneg_right (pErr_abs X l θ hj) (abs_nonneg _)
      _ ≤ R := by rw [one_mul]; exact h3
  calc _ ≤ ∑ _i' ∈ range r, R := sum_le_sum this
    _ = R * r := by rw [sum_const, card_range, nsmul_eq_mul, mul_comm]

/-- One step of gradient descent with a small enough rate. -/
theorem smr_step {r c p : Nat} (hr : 0 < r) (X : Nat → Nat → ℝ) (l : Nat → Nat) (hl : ∀ i, i < r → l i < c) (θ : Nat → Nat → ℝ) {lr R : ℝ} (h0 : 0 < lr)
    (hR : ∀ i, i < r → ∑ k ∈ range p, X i k ^ 2 ≤ R) (hlr : lr * R ≤ 1 / 2) :
    smr r c p X l (fun k j => θ k j - smrGrad r c p X l θ k j * lr) ≤ smr r c p X l θ -
        lr / 2 * ∑ k ∈ range p, ∑ j ∈ range c, smrGrad r c p X l θ k j ^ 2 ∧
      ∀ θs, sqDist c p (fun k j => θ k j - smrGrad r c p X l θ k j * lr) θs ≤ sqDist c p θ θs -
        2 * lr * (smr r c p X l (fun k j => θ k j - smrGrad r c p X l θ k j * lr) - smr r c p X l θs) := by
  have hsg := fun i j hi hj => score_grad (c := c) X l θ hR (i := i) (j := j) hi hj
  have hrr : (0 : ℝ) < r := by exact_mod_cast hr
  have hR0 : 0 ≤ R := (sum_nonneg fun _ _ => sq_nonneg _).trans (hR 0 hr)
  set g := smrGrad r c p X l θ with hg
  set N := ∑ k ∈ range p, ∑ j ∈ range c, g k j ^ 2 with hN
  have hN0 : 0 ≤ N := sum_nonneg fun _ _ => sum_nonneg fun _ _ => sq_nonneg _
  have hsc : ∀ i j, score p X (fun k j => -(g k j * lr)) i j = -(lr * score p X g i j) := by
    intro i j
    unfold score
    rw [mul_sum, ← sum_neg_distrib]
    exact sum_congr rfl fun k _ => by ring
  have h1 : smr r c p X l (fun k j => θ k j - g k j * lr) ≤ smr r c p X l θ - lr / 2 * N := by
    have e := smr_upper X l hl θ (fun k j => -(g k j * lr)) (fun i j hi hj => by
      rw [hsc, abs_neg, abs_mul, abs_of_pos h0]
      have := mul_le_mul_of_nonneg_left (hsg i j hi hj) h0.le
      linarith)
    have e1 : ∑ k ∈ range p, ∑ j ∈ range c, g k j * -(g k j * lr) = -lr * N := by
      rw [hN, mul_sum]
      refine sum_congr rfl fun k _ => ?_
      rw [mul_sum]
      exact sum_congr rfl fun j _ => by ring
    have q : (∑ i ∈ range r, ∑ j ∈ range c, score p X (fun k j => -(g k j * lr)) i j ^ 2) / r ≤ lr ^ 2 * (R * N) := by
      rw [div_le_iff₀ hrr]
      have : ∀ i ∈ range r, ∑ j ∈ range c, score p X (fun k j => -(g k j * lr)) i j ^ 2 ≤ lr ^ 2 * (R * N) := by
        intro i hi
        have a1 : ∑ j ∈ range c, score p X g i j ^ 2 ≤ R * N := by
          calc ∑ j ∈ range c, score p X g i j ^ 2 ≤ ∑ j ∈ range c, (∑ k ∈ range p, X i k ^ 2) * ∑ k ∈ range p, g k j ^ 2 :=
                sum_le_sum fun j _ => sum_mul_sq_le_sq_mul_sq _ _ _
            _ = (∑ k ∈ range p, X i k ^ 2) * N := by rw [← mul_sum, hN, sum_comm]
            _ ≤ R * N := mul_le_mul_of_nonneg_right (hR i (mem_range.1 hi)) hN0
        have a2 : ∑ j ∈ range c, score p X (fun k j => -(g k j * lr)) i j ^ 2 = lr ^ 2 * ∑ j ∈ range c, score p X g i j ^ 2 := by
          rw [mul_sum]
          exact sum_congr rfl fun j _ => by rw [hsc]; ring
        rw [a2]
        exact mul_le_mul_of_nonneg_left a1 (sq_nonneg _)
      calc _ ≤ ∑ _i ∈ range r, lr ^ 2 * (R * N) := sum_le_sum this
        _ = _ := by rw [sum_const, card_range, nsmul_eq_mul, mul_comm]
    rw [← hg, e1] at e
    have q2 : lr ^ 2 * (R * N) ≤ lr / 2 * N := by
      have := mul_le_mul_of_nonneg_right hlr (by positivity : 0 ≤ lr * N)
      refine le_trans (le_of_eq ?_) (this.trans (le_of_eq ?_)) <;> ring
    simp only [sub_eq_add_neg] at e ⊢
    linarith
  refine ⟨h1, fun θs => ?_⟩
  have e := smr_lower (p := p) X l hl θ (fun k j => θs k j - θ k j)
  simp only [add_sub_cancel] at e
  rw [← hg] at e
  set P := ∑ k ∈ range p, ∑ j ∈ range c, g k j * (θs k j - θ k j) with hP
  have hd : sqDist c p (fun k j => θ k j - g k j * lr) θs = sqDist c p θ θs + 2 * lr * P + lr ^ 2 * N := by
    unfold sqDist
    rw [hP, hN, mul_sum, mul_sum, ← sum_add_distrib, ← sum_add_distrib]
    refine sum_congr rfl fun k _ => ?_
    rw [mul_sum, mul_sum, ← sum_add_distrib, ← sum_add_distrib]
    exact sum_congr rfl fun j _ => by ring
  rw [hd]
  have a1 : lr * P ≤ lr * (smr r c p X l θs - smr r c p X l θ) := mul_le_mul_of_nonneg_left (by linarith) h0.le
  have a2 := mul_le_mul_of_nonneg_left h1 h0.le
  nlinarith [a1, a2]

/-- Coefficients after t steps. -/
noncomputable def smrIter (r c p : Nat) (X : Nat → Nat → ℝ) (l : Nat → Nat) (lr : ℝ) (θ : Nat → Nat → ℝ) : Nat → Nat → Nat → ℝ
  | 0 => θ
  | t + 1 => fun k j => smrIter r c p X l lr θ t k j - smrGrad r c p X l (smrIter r c p X l lr θ t) k j * lr

theorem smrIter_spec {r c p : Nat} (hr : 0 < r) (X : Nat → Nat → ℝ) (l : Nat → Nat) (hl : ∀ i, i < r → l i < c) (θ : Nat → Nat → ℝ) {lr R : ℝ}
    (h0 : 0 < lr) (hR : ∀ i, i < r → ∑ k ∈ range p, X i k ^ 2 ≤ R) (hlr : lr * R ≤ 1 / 2) (t : Nat) :
    smr r c p X l (smrIter r c p X l lr θ t) ≤ smr r c p X l θ ∧
      ∀ θs, 2 * lr * t * (smr r c p X l (smrIter r c p X l lr θ t) - smr r c p X l θs) + sqDist c p (smrIter r c p X l lr θ t) θs ≤
        sqDist c p θ θs := by
  induction t with
  | zero => exact ⟨le_rfl, fun θs => by simp [smrIter]⟩
  | succ t ih =>
    obtain ⟨i1, i2⟩ := ih
    obtain ⟨s1, s2⟩ := smr_step hr X l hl (smrIter r c p X l lr θ t) h0 hR hlr
    have hN : 0 ≤ lr / 2 * ∑ k ∈ range p, ∑ j ∈ range c, smrGrad r c p X l (smrIter r c p X l lr θ t) k j ^ 2 :=
      mul_nonneg (by positivity) (sum_nonneg fun _ _ => sum_nonneg fun _ _ => sq_nonneg _)
    have hdec : smr r c p X l (smrIter r c p X l lr θ (t + 1)) ≤ smr r c p X l (smrIter r c p X l lr θ t) := by
      exact s1.trans (by linarith)
    refine ⟨hdec.trans i1, fun θs => ?_⟩
    have a := i2 θs
    have b := s2 θs
    change sqDist c p (smrIter r c p X l lr θ (t + 1)) θs ≤ _ - 2 * lr * (smr r c p X l (smrIter r c p X l lr θ (t + 1)) - _) at b
    have c1 := mul_le_mul_of_nonneg_left hdec (by positivity : (0 : ℝ) ≤ 2 * lr * t)
    push_cast
    nlinarith [a, b, c1]

theorem smrIter_bound {r c p : Nat} (hr : 0 < r) (X : Nat → Nat → ℝ) (l : Nat → Nat) (hl : ∀ i, i < r → l i < c) (θ : Nat → Nat → ℝ) {lr R : ℝ}
    (h0 : 0 < lr) (hR : ∀ i, i < r → ∑ k ∈ range p, X i k ^ 2 ≤ R) (hlr : lr * R ≤ 1 / 2) {t : Nat} (ht : 0 < t) (θs : Nat → Nat → ℝ) :
    smr r c p X l (smrIter r c p X l lr θ t) ≤ smr r c p X l θs + sqDist c p θ θs / (2 * lr * t) := by
  have h := (smrIter_spec hr X l hl θ h0 hR hlr t).2 θs
  have hd := sqDist_nonneg c p (smrIter r c p X l lr θ t) θs
  have htt : (0 : ℝ) < 2 * lr * t := by
    have : (0 : ℝ) < t := by exact_mod_cast ht
    positivity
  rw [← sub_le_iff_le_add', le_div_iff₀ htt]
  linarith

/-- Coefficients that separate the classes by 1, scaled by s, have cross-entropy at most (c - 1) exp(-s). -/
theorem smr_separable {r c p : Nat} (hr : 0 < r) (X : Nat → Nat → ℝ) (l : Nat → Nat) (hl : ∀ i, i < r → l i < c) (θ : Nat → Nat → ℝ)
    (hs : ∀ i j, i < r → j < c → j ≠ l i → score p X θ i j + 1 ≤ score p X θ i (l i)) {s : ℝ} (h0 : 0 ≤ s) :
    smr r c p X l (fun k j => s * θ k j) ≤ (c - 1) * Real.exp (-s) := by
  have hrr : (0 : ℝ) < r := by exact_mod_cast hr
  unfold smr
  rw [div_le_iff₀ hrr]
  have hsc : ∀ i j, score p X (fun k j => s * θ k j) i j = s * score p X θ i j := by
    intro i j
    unfold score
    rw [mul_sum]
    exact sum_congr rfl fun k _ => by ring
  have : ∀ i ∈ range r, lse c (score p X (fun k j => s * θ k j) i) - score p X (fun k j => s * θ k j) i (l i) ≤ (c - 1) * Real.exp (-s) := by
    intro i hi
    have hi := mem_range.1 hi
    have hli := hl i hi
    set z := score p X (fun k j => s * θ k j) i with hz
    have hpos := sumExp_pos (c := c) (by omega) z
    have e : lse c z - z (l i) = Real.log (∑ j ∈ range c, Real.exp (z j - z (l i))) := by
      have : ∑ j ∈ range c, Real.exp (z j - z (l i)) = (∑ j ∈ range c, Real.exp (z j)) / Real.exp (z (l i)) := by
        rw [sum_div]
        exact sum_congr rfl fun j _ => Real.exp_sub _ _
      rw [this, Real.log_div hpos.ne' (Real.exp_pos _).ne', Real.log_exp]
      rfl
    rw [e]
    have hb : ∑ j ∈ range c, Real.exp (z j - z (l i)) ≤ 1 + (c - 1) * Real.exp (-s) := by
      rw [← Finset.add_sum_erase (range c) _ (mem_range.2 hli), sub_self, Real.exp_zero]
      have : ∀ j ∈ (range c).erase (l i), Real.exp (z j - z (l i)) ≤ Real.exp (-s) := by
        intro j hj
        rw [mem_erase, mem_range] at hj
        refine Real.exp_le_exp.2 ?_
        rw [hz, hsc, hsc]
        have := mul_le_mul_of_nonneg_left (hs i j hi hj.2 hj.1) h0
        linarith
      have h2 := sum_le_sum this
      rw [sum_const, card_erase_of_mem (mem_range.2 hli), card_range, nsmul_eq_mul, Nat.cast_sub (by omega), Nat.cast_one] at h2
      linarith
    have hpos2 : 0 < ∑ j ∈ range c, Real.exp (z j - z (l i)) := sumExp_pos (c := c) (by omega) (fun j => z j - z (l i))
    have := Real.log_le_sub_one_of_pos hpos2
    linarith
  calc _ ≤ ∑ _i ∈ range r, ((c : ℝ) - 1) * Real.exp (-s) := sum_le_sum this
    _ = _ := by rw [sum_const, card_range, nsmul_eq_mul, mul_comm]

/-- A small cross-entropy means that every sample is classified correctly, with a probability above 1/2. -/
theorem smr_correct {r c p : Nat} (X : Nat → Nat → ℝ) (l : Nat → Nat) (hl : ∀ i, i < r → l i < c) (θ : Nat → Nat → ℝ)
    (h : smr r c p X l θ < Real.log 2 / r) {i : Nat} (hi : i < r) : 1 / 2 < smaxP c (score p X θ i) (l i) := by
  have hrr : (0 : ℝ) < r := by exact_mod_cast (show 0 < r by omega)
  unfold smr at h
  have h1 : ∑ i ∈ range r, (lse c (score p X θ i) - score p X θ i (l i)) < Real.log 2 := by
    rwa [div_lt_div_iff_of_pos_right hrr] at h
  have key : ∀ i, i < r → lse c (score p X θ i) - score p X θ i (l i) = -Real.log (smaxP c (score p X θ i) (l i)) := by
    intro i hi
    have hpos := sumExp_pos (c := c) (by have := hl i hi; omega) (score p X θ i)
    unfold smaxP
    rw [Real.log_div (Real.exp_pos _).ne' hpos.ne', Real.log_exp]
    unfold lse
    ring
  have hnn : ∀ i ∈ range r, 0 ≤ lse c (score p X θ i) - score p X θ i (l i) := by
    intro i hi
    have hi := mem_range.1 hi
    rw [key i hi, neg_nonneg]
    exact Real.log_nonpos (smaxP_nonneg _ _ _) (smaxP_le (by have := hl i hi; omega) _ (hl i hi))
  have h2 := single_le_sum hnn (mem_range.2 hi)
  rw [key i hi] at h2
  have hpos : 0 < smaxP c (score p X θ i) (l i) := div_pos (Real.exp_pos _) (sumExp_pos (by have := hl i hi; omega) _)
  have h3 : Real.log (1 / 2) < Real.log (smaxP c (score p X θ i) (l i)) := by
    rw [one_div, Real.log_inv]
    linarith
  exact (Real.log_lt_log_iff (by norm_num) hpos).1 h3

end NN
