import Verif.Real.Nearest
import Mathlib.Analysis.Normed.Module.FiniteDimension
/-
The speed at which gradient descent on batches approaches the nearest exact solution: the distance shrinks by a constant factor per pass.
-/

namespace NN
open Finset RealInnerProductSpace

/-- XΔ as a linear map -/
noncomputable def rowsMap (r c p : Nat) (X : Nat → Nat → ℝ) : EuclideanSpace ℝ (Fin p × Fin c) →ₗ[ℝ] EuclideanSpace ℝ (Fin r × Fin c) where
  toFun v := toE r c fun i j => ∑ k ∈ range p, X i k * ofE v k j
  map_add' v w := by
    ext q
    simp only [toE, PiLp.add_apply]
    rw [← sum_add_distrib]
    refine sum_congr rfl fun k hk => ?_
    have h : k < p ∧ (q.2 : Nat) < c := ⟨mem_range.1 hk, q.2.2⟩
    simp only [ofE, dif_pos h, PiLp.add_apply]
    ring
  map_smul' a v := by
    ext q
    simp only [toE, PiLp.smul_apply, smul_eq_mul, RingHom.id_apply, mul_sum]
    refine sum_congr rfl fun k hk => ?_
    have h : k < p ∧ (q.2 : Nat) < c := ⟨mem_range.1 hk, q.2.2⟩
    simp only [ofE, dif_pos h, PiLp.smul_apply, smul_eq_mul]
    ring

theorem norm_rowsMap (r c p : Nat) (X Δ : Nat → Nat → ℝ) :
    ‖rowsMap r c p X (toE p c Δ)‖ ^ 2 = ∑ i ∈ range r, ∑ j ∈ range c, (∑ k ∈ range p, X i k * Δ k j) ^ 2 := by
  have e : rowsMap r c p X (toE p c Δ) = toE r c fun i j => ∑ k ∈ range p, X i k * ofE (toE p c Δ) k j := rfl
  rw [e, norm_toE_sq]
  refine sum_congr rfl fun i _ => sum_congr rfl fun j hj => ?_
  congr 1
  exact sum_congr rfl fun k hk => by rw [ofE_toE Δ (mem_range.1 hk) (mem_range.1 hj)]

/-- A vector that is orthogonal to everything that does not show in the rows of X does show, in proportion to its length. -/
theorem rows_lower (r c p : Nat) (X : Nat → Nat → ℝ) : ∃ μ : ℝ, 0 < μ ∧ ∀ Δ : Nat → Nat → ℝ,
    (∀ Δ' : Nat → Nat → ℝ, (∀ i j, i < r → j < c → ∑ k ∈ range p, X i k * Δ' k j = 0) → ∑ k ∈ range p, ∑ j ∈ range c, Δ k j * Δ' k j = 0) →
    μ * ∑ k ∈ range p, ∑ j ∈ range c, Δ k j ^ 2 ≤ ∑ i ∈ range r, ∑ j ∈ range c, (∑ k ∈ range p, X i k * Δ k j) ^ 2 := by
  let T := rowsMap r c p X
  let K := LinearMap.ker T
  have hker : LinearMap.ker (T.domRestrict Kᗮ) = ⊥ := by
    rw [LinearMap.ker_eq_bot']
    rintro ⟨v, hv⟩ h
    have h1 : v ∈ K := h
    have h2 := (Submodule.mem_orthogonal K v).1 hv v h1
    exact Subtype.ext (inner_self_eq_zero.1 h2)
  obtain ⟨C, hC, hanti⟩ := (T.domRestrict Kᗮ).exists_antilipschitzWith hker
  refine ⟨1 / (C : ℝ) ^ 2, by positivity, fun Δ hΔ => ?_⟩
  have hmem : toE p c Δ ∈ Kᗮ := by
    rw [Submodule.mem_orthogonal]
    intro u hu
    have h1 := hΔ (ofE u) fun i j hi hj => by
      have h2 : T u = 0 := hu
      have h3 := norm_rowsMap r c p X (ofE u)
      rw [toE_ofE, show rowsMap r c p X u = 0 from h2, norm_zero, zero_pow two_ne_zero] at h3
      have h4 := (sum_eq_zero_iff_of_nonneg fun _ _ => sum_nonneg fun _ _ => sq_nonneg _).1 h3.symm i (mem_range.2 hi)
      exact pow_eq_zero_iff two_ne_zero |>.1 ((sum_eq_zero_iff_of_nonneg fun _ _ => sq_nonneg _).1 h4 j (mem_range.2 hj))
    rw [← toE_ofE u, inner_toE, ← h1]
    exact sum_congr rfl fun k _ => sum_congr rfl fun j _ => mul_comm _ _
  have h1 : ‖toE p c Δ‖ ≤ C * ‖T (toE p c Δ)‖ := by
    have := hanti.le_mul_dist ⟨toE p c Δ, hmem⟩ 0
    rw [map_zero, dist_zero_right, dist_zero_right] at this
    exact this
  have h2 : ‖toE p c Δ‖ ^ 2 ≤ (C : ℝ) ^ 2 * ‖T (toE p c Δ)‖ ^ 2 := by
    rw [← mul_pow]
    exact pow_le_pow_left₀ (norm_nonneg _) h1 2
  rw [norm_toE_sq, show ‖T (toE p c Δ)‖ ^ 2 = _ from norm_rowsMap r c p X Δ] at h2
  rw [div_mul_eq_mul_div, one_mul, div_le_iff₀ (by positivity), mul_comm]
  exact h2

/-- One pass over the batches takes at least a multiple of the error off the squared distance to an exact solution. -/
theorem lsqBatchIter_pass {c p : Nat} (X Y θs : Nat → Nat → ℝ) {r m : Nat} (bs : Nat → Nat × Nat) {a : ℝ} (hm : 0 < m)
    (hb : ∀ s, s < m → (bs s).1 + (bs s).2 ≤ r) (h0 : 0 < a)
    (hρ : ∀ s, s < m → a * ((∑ i ∈ range (bs s).2, ∑ k ∈ range p, X ((bs s).1 + i) k ^ 2) / c) ≤ 1 / 2)
    (hz : ∀ i j, i < r → j < c → resid p X Y θs i j = 0) (θ : Nat → Nat → ℝ) (n : Nat) :
    ∑ s ∈ range m, bLsq c p X Y (bs s) (lsqBatchIter c p X Y m bs a θ (n * m)) ≤
      (1 + m ^ 2) / a * (sqDist c p (lsqBatchIter c p X Y m bs a θ (n * m)) θs - sqDist c p (lsqBatchIter c p X Y m bs a θ ((n + 1) * m)) θs) := by
  have hzp := zeroParts_lsq (c := c) (ρ := 1 / 2 / a) X Y θs bs hb (by positivity)
    (fun s hs => by rw [le_div_iff₀ h0, mul_comm]; exact hρ s hs) hz
  have ha : a * (1 / 2 / a) ≤ 1 / 2 := by rw [mul_div_cancel₀ _ h0.ne']
  have hx : ∀ t, toE p c (lsqBatchIter c p X Y m bs a θ (n * m + (t + 1))) = toE p c (lsqBatchIter c p X Y m bs a θ (n * m + t)) -
      a • toE p c (bLsqGrad c p X Y (bs (t % m)) (ofE (toE p c (lsqBatchIter c p X Y m bs a θ (n * m + t))))) := by
    intro t
    rw [← toE_smul, ← toE_sub]
    refine toE_congr fun k j hk hj => ?_
    have e : bLsqGrad c p X Y (bs (t % m)) (lsqBatchIter c p X Y m bs a θ (n * m + t)) k j =
        bLsqGrad c p X Y (bs (t % m)) (ofE (toE p c (lsqBatchIter c p X Y m bs a θ (n * m + t)))) k j :=
      lsqGrad_ext _ _ (fun k j hk hj => (ofE_toE (lsqBatchIter c p X Y m bs a θ (n * m + t)) hk hj).symm) k hj
    rw [← e, ← show (n * m + t) % m = t % m by rw [Nat.mul_comm, Nat.mul_add_mod]]
    rfl
  have := hzp.sum_le h0 ha hm (fun t => toE p c (lsqBatchIter c p X Y m bs a θ (n * m + t))) hx 1
  have e : ∀ θ, ∑ s ∈ range m, bLsq c p X Y (bs s) (ofE (toE p c θ)) = ∑ s ∈ range m, bLsq c p X Y (bs s) θ := fun θ =>
    sum_congr rfl fun s hs => lsq_ext _ _ fun k j hk hj => ofE_toE _ hk hj
  simp only [e, sum_range_one, Nat.zero_mul, Nat.add_zero, Nat.one_mul] at this
  rw [norm_toE_sub, norm_toE_sub, ← Nat.succ_mul] at this
  exact this

/-- The squared distance to an exact solution θl shrinks by a constant factor with each pass, for all starts from which θl is the nearest.  The factor
does not depend on the outputs. -/
theorem lsq_rate {c p : Nat} (X : Nat → Nat → ℝ) {r m : Nat} (bs : Nat → Nat × Nat) {a : ℝ} (hc : 0 < c) (hm : 0 < m)
    (hb : ∀ s, s < m → (bs s).1 + (bs s).2 ≤ r) (h0 : 0 < a)
    (hcov : ∀ Y θ, ∑ s ∈ range m, bLsq c p X Y (bs s) θ = lsq r c p X Y θ)
    (hρ : ∀ s, s < m → a * ((∑ i ∈ range (bs s).2, ∑ k ∈ range p, X ((bs s).1 + i) k ^ 2) / c) ≤ 1 / 2) :
    ∃ q : ℝ, 0 ≤ q ∧ q < 1 ∧ ∀ Y θ θl : Nat → Nat → ℝ, (∀ i j, i < r → j < c → resid p X Y θl i j = 0) →
      (∀ Δ : Nat → Nat → ℝ, (∀ i j, i < r → j < c → ∑ k ∈ range p, X i k * Δ k j = 0) →
        ∑ k ∈ range p, ∑ j ∈ range c, (θ k j - θl k j) * Δ k j = 0) →
      ∀ n, sqDist c p (lsqBatchIter c p X Y m bs a θ (n * m)) θl ≤ q ^ n * sqDist c p θ θl := by
  obtain ⟨μ, hμ, hlow⟩ := rows_lower r c p X
  have hc' : (0 : ℝ) < c := by exact_mod_cast hc
  have hδ : 0 < a / (1 + (m : ℝ) ^ 2) * (μ / c) := by positivity
  refine ⟨max 0 (1 - a / (1 + (m : ℝ) ^ 2) * (μ / c)), le_max_left _ _, max_lt one_pos (by linarith), fun Y θ θl hz hθ n => ?_⟩
  induction n with
  | zero => simp [lsqBatchIter]
  | succ n ih =>
    set x := lsqBatchIter c p X Y m bs a θ (n * m) with hx
    have h1 := lsqBatchIter_pass X Y θl bs hm hb h0 hρ hz θ n
    rw [hcov, ← hx] at h1
    -- the error is at least a multiple of the squared distance
    have h2 : μ / c * sqDist c p x θl ≤ lsq r c p X Y x := by
      have h3 := hlow (fun k j => x k j - θl k j) fun Δ hΔ => by
        have h4 := lsqBatchIter_orth X Y bs a hm hb θ Δ hΔ (n * m)
        have h5 := hθ Δ hΔ
        simp only [sub_mul, sum_sub_distrib] at h5 ⊢
        rw [← hx] at h4
        linarith
      have h6 : ∑ i ∈ range r, ∑ j ∈ range c, (∑ k ∈ range p, X i k * (x k j - θl k j)) ^ 2 = c * lsq r c p X Y x := by
        unfold lsq
        rw [← sum_div, mul_div_cancel₀ _ hc'.ne']
        refine sum_congr rfl fun i hi => sum_congr rfl fun j hj => ?_
        have := hz i j (mem_range.1 hi) (mem_range.1 hj)
        unfold resid at this ⊢
        simp only [mul_sub, sum_sub_distrib]
        congr 1
        linarith
      rw [h6] at h3
      rw [div_mul_eq_mul_div, div_le_iff₀ hc', mul_comm (lsq r c p X Y x)]
      exact h3
    have h7 : a / (1 + (m : ℝ) ^ 2) * lsq r c p X Y x ≤ sqDist c p x θl - sqDist c p (lsqBatchIter c p X Y m bs a θ ((n + 1) * m)) θl := by
      rw [div_mul_eq_mul_div, div_le_iff₀ (by positivity)]
      rw [div_mul_eq_mul_div, le_div_iff₀ h0] at h1
      linarith
    have h8 : a / (1 + (m : ℝ) ^ 2) * (μ / c) * sqDist c p x θl ≤ a / (1 + (m : ℝ) ^ 2) * lsq r c p X Y x := by
      rw [mul_assoc]
      exact mul_le_mul_of_nonneg_left h2 (by positivity)
    have h9 := sqDist_nonneg c p x θl
    calc _ ≤ (1 - a / (1 + (m : ℝ) ^ 2) * (μ / c)) * sqDist c p x θl := by linarith
      _ ≤ max 0 (1 - a / (1 + (m : ℝ) ^ 2) * (μ / c)) * sqDist c p x θl := mul_le_mul_of_nonneg_right (le_max_right _ _) h9
      _ ≤ max 0 (1 - a / (1 + (m : ℝ) ^ 2) * (μ / c)) * (max 0 (1 - a / (1 + (m : ℝ) ^ 2) * (μ / c)) ^ n * sqDist c p θ θl) :=
        mul_le_mul_of_nonneg_left ih (le_max_left _ _)
      _ = _ := by ring

/-- Pythagoras' law for all exact solutions means that θ - θl is orthogonal to all that does not show in the rows. -/
theorem orth_of_pyth {r c p : Nat} (X Y θ θl : Nat → Nat → ℝ) (hz : ∀ i j, i < r → j < c → resid p X Y θl i j = 0)
    (h : ∀ θs, (∀ i j, i < r → j < c → resid p X Y θs i j = 0) → sqDist c p θ θs = sqDist c p θ θl + sqDist c p θl θs)
    (Δ : Nat → Nat → ℝ) (hΔ : ∀ i j, i < r → j < c → ∑ k ∈ range p, X i k * Δ k j = 0) :
    ∑ k ∈ range p, ∑ j ∈ range c, (θ k j - θl k j) * Δ k j = 0 := by
  have h1 := h (fun k j => θl k j + Δ k j) fun i j hi hj => by
    have h2 := hz i j hi hj
    have h3 := hΔ i j hi hj
    unfold resid at h2 ⊢
    simp only [mul_add, sum_add_distrib]
    linarith
  have h4 : sqDist c p θ (fun k j => θl k j + Δ k j) = sqDist c p θ θl + sqDist c p θl (fun k j => θl k j + Δ k j) -
      2 * ∑ k ∈ range p, ∑ j ∈ range c, (θ k j - θl k j) * Δ k j := by
    unfold sqDist
    simp only [mul_sum, ← sum_add_distrib, ← sum_sub_distrib]
    exact sum_congr rfl fun k _ => sum_congr rfl fun j _ => by ring
  linarith

end NN
