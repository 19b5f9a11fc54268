import Verif.Real.Interpolation
import Mathlib.Topology.MetricSpace.Sequences
/-
Gradient descent on batches for a least-squares problem with an exact solution tends to the exact solution that is nearest to the start.
-/

namespace NN
open Finset Filter Topology

/-- The gradient of a batch is orthogonal to everything that does not show in the rows of the batch. -/
theorem lsqGrad_orth {r c p : Nat} (X Y θ Δ : Nat → Nat → ℝ) (h : ∀ i j, i < r → j < c → ∑ k ∈ range p, X i k * Δ k j = 0) :
    ∑ k ∈ range p, ∑ j ∈ range c, lsqGrad r c p X Y θ k j * Δ k j = 0 := by
  rw [← lsq_pair]
  exact sum_eq_zero fun i hi => sum_eq_zero fun j hj => by rw [h i j (mem_range.1 hi) (mem_range.1 hj), mul_zero]

theorem lsqBatchIter_orth {c p r m : Nat} (X Y : Nat → Nat → ℝ) (bs : Nat → Nat × Nat) (a : ℝ) (hm : 0 < m)
    (hb : ∀ s, s < m → (bs s).1 + (bs s).2 ≤ r) (θ Δ : Nat → Nat → ℝ) (h : ∀ i j, i < r → j < c → ∑ k ∈ range p, X i k * Δ k j = 0) (t : Nat) :
    ∑ k ∈ range p, ∑ j ∈ range c, lsqBatchIter c p X Y m bs a θ t k j * Δ k j = ∑ k ∈ range p, ∑ j ∈ range c, θ k j * Δ k j := by
  induction t with
  | zero => rfl
  | succ t ih =>
    rw [← ih]
    have hs := hb _ (Nat.mod_lt t hm)
    have := lsqGrad_orth (r := (bs (t % m)).2) (bRows (bs (t % m)) X) (bRows (bs (t % m)) Y) (lsqBatchIter c p X Y m bs a θ t) Δ
      fun i j hi hj => h _ j (by omega) hj
    have e : ∀ k j, lsqBatchIter c p X Y m bs a θ (t + 1) k j * Δ k j = lsqBatchIter c p X Y m bs a θ t k j * Δ k j -
        a * (lsqGrad (bs (t % m)).2 c p (bRows (bs (t % m)) X) (bRows (bs (t % m)) Y) (lsqBatchIter c p X Y m bs a θ t) k j * Δ k j) := fun k j => by
      show (_ - bLsqGrad c p X Y (bs (t % m)) _ k j * a) * _ = _
      unfold bLsqGrad
      ring
    simp only [e, sum_sub_distrib, ← mul_sum, this, mul_zero, sub_zero]

theorem continuous_ofE {p c : Nat} (k j : Nat) : Continuous fun v : EuclideanSpace ℝ (Fin p × Fin c) => ofE v k j := by
  unfold ofE
  by_cases h : k < p ∧ j < c
  · simp only [dif_pos h]
    exact (EuclideanSpace.proj (⟨k, h.1⟩, ⟨j, h.2⟩) : EuclideanSpace ℝ (Fin p × Fin c) →L[ℝ] ℝ).continuous
  · simp only [dif_neg h]
    exact continuous_const

/-- Gradient descent over the batches, with a small enough constant step, on data that can be fitted exactly.  The coefficients tend to coefficients
θl that fit the data exactly; and of all coefficients that do, θl are the nearest to the start θ (Pythagoras' law holds). -/
theorem lsq_nearest {c p : Nat} (X Y θs : Nat → Nat → ℝ) {r m : Nat} (bs : Nat → Nat × Nat) {a : ℝ} (hc : 0 < c) (hm : 0 < m)
    (hb : ∀ s, s < m → (bs s).1 + (bs s).2 ≤ r) (hcov : ∀ θ, ∑ s ∈ range m, bLsq c p X Y (bs s) θ = lsq r c p X Y θ) (h0 : 0 < a)
    (hρ : ∀ s, s < m → a * ((∑ i ∈ range (bs s).2, ∑ k ∈ range p, X ((bs s).1 + i) k ^ 2) / c) ≤ 1 / 2)
    (hz : ∀ i j, i < r → j < c → resid p X Y θs i j = 0) (θ : Nat → Nat → ℝ) :
    ∃ θl : Nat → Nat → ℝ, (∀ k j, k < p → j < c → Tendsto (fun t => lsqBatchIter c p X Y m bs a θ t k j) atTop (𝓝 (θl k j))) ∧
      (∀ i j, i < r → j < c → resid p X Y θl i j = 0) ∧
      ∀ θ' : Nat → Nat → ℝ, (∀ i j, i < r → j < c → resid p X Y θ' i j = 0) → sqDist c p θ θ' = sqDist c p θ θl + sqDist c p θl θ' := by
  set it := lsqBatchIter c p X Y m bs a θ with hit
  obtain ⟨q1, q2⟩ := lsqBatchIter_spec X Y θs bs hm hb h0 hρ hz θ
  rw [← hit] at q1 q2
  -- the error after whole epochs tends to 0
  simp only [hcov] at q2
  have herr : Tendsto (fun k => lsq r c p X Y (it (k * m))) atTop (𝓝 0) :=
    (summable_of_sum_range_le (fun _ => lsq_nonneg' _ _ _ _ _ _) q2).tendsto_atTop_zero
  -- a subsequence converges
  have hbd : ∀ t, it t = it t ∧ sqDist c p (it t) θs ≤ sqDist c p θ θs := fun t => ⟨rfl, by
    induction t with
    | zero => exact le_rfl
    | succ t ih => exact (q1 t).trans ih⟩
  obtain ⟨v, -, φ, hφ, hv⟩ := tendsto_subseq_of_bounded (x := fun k => toE p c (it (k * m))) (s := Metric.closedBall (toE p c θs) (‖toE p c θ - toE p c θs‖))
    Metric.isBounded_closedBall fun k => by
      rw [Metric.mem_closedBall, dist_eq_norm]
      refine abs_le_of_sq_le_sq' ?_ (norm_nonneg _) |>.2
      rw [norm_toE_sub, norm_toE_sub]
      exact (hbd _).2
  -- its limit fits the data
  have hent : ∀ k j, k < p → j < c → Tendsto (fun s => it (φ s * m) k j) atTop (𝓝 (ofE v k j)) := fun k j hk hj => by
    have := ((continuous_ofE k j).tendsto v).comp hv
    refine this.congr fun s => ?_
    show ofE (toE p c (it (φ s * m))) k j = _
    exact ofE_toE _ hk hj
  have hres : ∀ i j, j < c → Tendsto (fun s => resid p X Y (it (φ s * m)) i j) atTop (𝓝 (resid p X Y (ofE v) i j)) := fun i j hj => by
    unfold resid
    exact (tendsto_finsetSum _ fun k hk => (hent k j (mem_range.1 hk) hj).const_mul _).sub_const _
  have hlsq : Tendsto (fun s => lsq r c p X Y (it (φ s * m))) atTop (𝓝 (lsq r c p X Y (ofE v))) := by
    unfold lsq
    exact tendsto_finsetSum _ fun i _ => (tendsto_finsetSum _ fun j hj => (hres i j (mem_range.1 hj)).pow 2).div_const _
  have hzero : lsq r c p X Y (ofE v) = 0 := tendsto_nhds_unique hlsq (herr.comp hφ.tendsto_atTop)
  have hfit : ∀ i j, i < r → j < c → resid p X Y (ofE v) i j = 0 := by
    intro i j hi hj
    unfold lsq at hzero
    have h1 := (sum_eq_zero_iff_of_nonneg fun i _ => div_nonneg (sum_nonneg fun _ _ => sq_nonneg _) (Nat.cast_nonneg c)).1 hzero i (mem_range.2 hi)
    rw [div_eq_zero_iff, or_iff_left (Nat.cast_ne_zero.2 hc.ne')] at h1
    exact pow_eq_zero_iff two_ne_zero |>.1 ((sum_eq_zero_iff_of_nonneg fun j _ => sq_nonneg _).1 h1 j (mem_range.2 hj))
  -- the distance to it never grows, so the whole sequence tends to it
  obtain ⟨q3, -⟩ := lsqBatchIter_spec X Y (ofE v) bs hm hb h0 hρ hfit θ
  rw [← hit] at q3
  have hanti : Antitone fun t => sqDist c p (it t) (ofE v) := antitone_nat_of_succ_le q3
  have hsub : Tendsto (fun s => sqDist c p (it (φ s * m)) (ofE v)) atTop (𝓝 0) := by
    have := ((hv.sub_const v).norm.pow 2)
    simp only [sub_self, norm_zero, ne_eq, OfNat.ofNat_ne_zero, not_false_eq_true, zero_pow] at this
    refine this.congr fun s => ?_
    rw [← norm_toE_sub, toE_ofE]
    rfl
  have hlim : Tendsto (fun t => sqDist c p (it t) (ofE v)) atTop (𝓝 0) := by
    rw [Metric.tendsto_atTop] at hsub ⊢
    intro ε hε
    obtain ⟨N, hN⟩ := hsub ε hε
    refine ⟨φ N * m, fun t ht => ?_⟩
    have h1 := hN N le_rfl
    rw [Real.dist_eq, sub_zero, abs_of_nonneg (sqDist_nonneg _ _ _ _)] at h1 ⊢
    exact (hanti ht).trans_lt h1
  have hall : ∀ k j, k < p → j < c → Tendsto (fun t => it t k j) atTop (𝓝 (ofE v k j)) := by
    intro k j hk hj
    have h1 : Tendsto (fun t => (it t k j - ofE v k j) ^ 2) atTop (𝓝 0) := by
      refine squeeze_zero (fun _ => sq_nonneg _) (fun t => ?_) hlim
      unfold sqDist
      exact (single_le_sum (f := fun j => (it t k j - ofE v k j) ^ 2) (fun _ _ => sq_nonneg _) (mem_range.2 hj)).trans
        (single_le_sum (f := fun k => ∑ j ∈ range c, (it t k j - ofE v k j) ^ 2) (fun _ _ => sum_nonneg fun _ _ => sq_nonneg _) (mem_range.2 hk))
    have h2 : Tendsto (fun t => |it t k j - ofE v k j|) atTop (𝓝 0) := by
      have := h1.sqrt
      simpa [Real.sqrt_sq_eq_abs] using this
    have h3 := (tendsto_zero_iff_abs_tendsto_zero _).2 h2
    simpa using h3.add_const (ofE v k j)
  refine ⟨ofE v, hall, hfit, fun θ' hθ' => ?_⟩
  -- Pythagoras
  set Δ : Nat → Nat → ℝ := fun k j => ofE v k j - θ' k j with hΔ
  have hΔ0 : ∀ i j, i < r → j < c → ∑ k ∈ range p, X i k * Δ k j = 0 := by
    intro i j hi hj
    have h1 := hfit i j hi hj
    have h2 := hθ' i j hi hj
    unfold resid at h1 h2
    simp only [hΔ, mul_sub, sum_sub_distrib]
    linarith
  have h1 : Tendsto (fun t => ∑ k ∈ range p, ∑ j ∈ range c, it t k j * Δ k j) atTop (𝓝 (∑ k ∈ range p, ∑ j ∈ range c, ofE v k j * Δ k j)) :=
    tendsto_finsetSum _ fun k hk => tendsto_finsetSum _ fun j hj => (hall k j (mem_range.1 hk) (mem_range.1 hj)).mul_const _
  have h2 : ∑ k ∈ range p, ∑ j ∈ range c, ofE v k j * Δ k j = ∑ k ∈ range p, ∑ j ∈ range c, θ k j * Δ k j := by
    refine tendsto_nhds_unique h1 ?_
    simp only [hit, lsqBatchIter_orth X Y bs a hm hb θ Δ hΔ0]
    exact tendsto_const_nhds
  have h3 : sqDist c p θ θ' - (sqDist c p θ (ofE v) + sqDist c p (ofE v) θ') =
      2 * (∑ k ∈ range p, ∑ j ∈ range c, θ k j * Δ k j - ∑ k ∈ range p, ∑ j ∈ range c, ofE v k j * Δ k j) := by
    unfold sqDist
    simp only [← sum_sub_distrib, ← sum_add_distrib, mul_sum]
    refine sum_congr rfl fun k _ => sum_congr rfl fun j _ => ?_
    simp only [hΔ]
    ring
  rw [h2, sub_self, mul_zero] at h3
  linarith

end NN
