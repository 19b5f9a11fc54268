import Verif.Real.SoftmaxLimit
/- Softmax regression, over the reals: all best coefficients give the same probabilities for the training samples. -/

namespace NN
open Finset Filter Topology

/-- The first-order estimate is exact only for changes that are the same in all entries. -/
theorem lse_strict {c : Nat} (hc : 0 < c) (z d : Nat → ℝ)
    (h : lse c (fun j => z j + d j) ≤ lse c z + ∑ j ∈ range c, smaxP c z j * d j) {j : Nat} (hj : j < c) :
    d j = ∑ j ∈ range c, smaxP c z j * d j := by
  by_contra hne
  refine absurd h (not_le.2 ?_)
  have hp : ∀ j, 0 < smaxP c z j := fun j => div_pos (Real.exp_pos _) (sumExp_pos hc z)
  rw [lse_add hc]
  have h : Real.exp (∑ j ∈ range c, smaxP c z j * d j) < ∑ j ∈ range c, smaxP c z j * Real.exp (d j) := by
    set m := ∑ j ∈ range c, smaxP c z j * d j with hm
    have hex : ∀ j, Real.exp m * Real.exp (d j - m) = Real.exp (d j) := fun j => by rw [← Real.exp_add]; congr 1; ring
    have : ∑ j ∈ range c, smaxP c z j * (Real.exp m * (1 + (d j - m))) < ∑ j ∈ range c, smaxP c z j * Real.exp (d j) := by
      refine sum_lt_sum (fun j _ => mul_le_mul_of_nonneg_left ?_ (smaxP_nonneg c z j)) ⟨j, mem_range.2 hj, mul_lt_mul_of_pos_left ?_ (hp j)⟩
      · have h1 : 1 + (d j - m) ≤ Real.exp (d j - m) := by have := Real.add_one_le_exp (d j - m); linarith
        exact (mul_le_mul_of_nonneg_left h1 (Real.exp_pos _).le).trans (hex j).le
      · have h1 : 1 + (d j - m) < Real.exp (d j - m) := by have := Real.add_one_lt_exp (sub_ne_zero.2 hne); linarith
        exact (mul_lt_mul_of_pos_left h1 (Real.exp_pos _)).trans_le (hex j).le
    refine lt_of_le_of_lt (le_of_eq ?_) this
    have e : ∀ j, smaxP c z j * (Real.exp m * (1 + (d j - m))) = Real.exp m * (smaxP c z j * (1 - m) + smaxP c z j * d j) := fun j => by ring
    simp only [e]
    rw [← mul_sum, sum_add_distrib, ← sum_mul, smaxP_sum hc, ← hm]
    ring
  have := Real.log_lt_log (Real.exp_pos _) h
  rw [Real.log_exp] at this
  linarith

/-- The gradient at best coefficients is 0. -/
theorem smrGrad_best {r c p : Nat} (hr : 0 < r) (X : Nat → Nat → ℝ) (l : Nat → Nat) (hl : ∀ i, i < r → l i < c) (θ : Nat → Nat → ℝ)
    (hmin : ∀ θ', smr r c p X l θ ≤ smr r c p X l θ') {k j : Nat} (hk : k < p) (hj : j < c) : smrGrad r c p X l θ k j = 0 := by
  set R := 1 + ∑ i ∈ range r, ∑ k ∈ range p, X i k ^ 2 with hRdef
  have hnn : ∀ i ∈ range r, 0 ≤ ∑ k ∈ range p, X i k ^ 2 := fun i _ => sum_nonneg fun _ _ => sq_nonneg _
  have hR1 : 1 ≤ R := by have := sum_nonneg hnn; linarith
  have hR : ∀ i, i < r → ∑ k ∈ range p, X i k ^ 2 ≤ R := by
    intro i hi
    have := single_le_sum hnn (mem_range.2 hi)
    linarith
  have hpos : 0 < 1 / 2 / R := by positivity
  have h1 := (smr_step hr X l hl θ hpos hR (div_mul_cancel₀ _ (by linarith)).le).1
  have h2 := hmin (fun k j => θ k j - smrGrad r c p X l θ k j * (1 / 2 / R))
  have h3 : smrGrad r c p X l θ k j ^ 2 ≤ ∑ k ∈ range p, ∑ j ∈ range c, smrGrad r c p X l θ k j ^ 2 :=
    (single_le_sum (f := fun j => smrGrad r c p X l θ k j ^ 2) (fun _ _ => sq_nonneg _) (mem_range.2 hj)).trans
      (single_le_sum (f := fun k => ∑ j ∈ range c, smrGrad r c p X l θ k j ^ 2) (fun _ _ => sum_nonneg fun _ _ => sq_nonneg _) (mem_range.2 hk))
  have h4 : 1 / 2 / R / 2 * ∑ k ∈ range p, ∑ j ∈ range c, smrGrad r c p X l θ k j ^ 2 ≤ 0 := by linarith
  have h5 : ∑ k ∈ range p, ∑ j ∈ range c, smrGrad r c p X l θ k j ^ 2 ≤ 0 := by
    by_contra hcon
    have := mul_pos (half_pos hpos) (not_le.1 hcon)
    linarith
  exact pow_eq_zero_iff two_ne_zero |>.1 (le_antisymm (h3.trans h5) (sq_nonneg _))

/-- Best coefficients give the same probabilities. -/
theorem smaxP_best {r c p : Nat} (hr : 0 < r) (X : Nat → Nat → ℝ) (l : Nat → Nat) (hl : ∀ i, i < r → l i < c) (θ θ' : Nat → Nat → ℝ)
    (hmin : ∀ θ'', smr r c p X l θ ≤ smr r c p X l θ'') (hmin' : ∀ θ'', smr r c p X l θ' ≤ smr r c p X l θ'') {i : Nat} (hi : i < r) {j : Nat} (hj : j < c) :
    smaxP c (score p X θ' i) j = smaxP c (score p X θ i) j := by
  have hrr : (0 : ℝ) < r := by exact_mod_cast hr
  set Δ : Nat → Nat → ℝ := fun k j => θ' k j - θ k j with hΔ
  have hθ : (fun k j => θ k j + Δ k j) = θ' := by funext k j; simp [hΔ]
  have hs : ∀ i, score p X θ' i = fun j => score p X θ i j + score p X Δ i j := by
    intro i
    rw [← hθ]
    exact funext fun j => score_add p X θ Δ i j
  have hzero : ∑ k ∈ range p, ∑ j ∈ range c, smrGrad r c p X l θ k j * Δ k j = 0 :=
    sum_eq_zero fun k hk => sum_eq_zero fun j hj => by
      rw [smrGrad_best hr X l hl θ hmin (mem_range.1 hk) (mem_range.1 hj), zero_mul]
  rw [← smr_pair, div_eq_zero_iff, or_iff_left hrr.ne'] at hzero
  have heq : smr r c p X l θ' ≤ smr r c p X l θ := hmin' θ
  unfold smr at heq
  rw [div_le_div_iff_of_pos_right hrr] at heq
  have hterm : ∀ i ∈ range r, 0 ≤ (lse c (score p X θ' i) - score p X θ' i (l i)) - (lse c (score p X θ i) - score p X θ i (l i)) -
      ∑ j ∈ range c, pErr c p X l θ i j * score p X Δ i j := by
    intro i hi
    have hli := hl i (mem_range.1 hi)
    rw [pErr_sum X l θ hli, hs i]
    have := lse_lower (c := c) (by omega) (score p X θ i) (score p X Δ i)
    dsimp only
    linarith
  have hsum := single_le_sum hterm (mem_range.2 hi)
  rw [sum_sub_distrib, sum_sub_distrib, hzero] at hsum
  have hli := hl i hi
  have hc : 0 < c := by omega
  rw [pErr_sum X l θ hli, hs i] at hsum
  dsimp only at hsum
  have hconst := fun j (hj : j < c) => lse_strict hc (score p X θ i) (score p X Δ i) (by linarith) hj
  set m := ∑ j ∈ range c, smaxP c (score p X θ i) j * score p X Δ i j
  have hpos := sumExp_pos hc (score p X θ i)
  rw [hs i]
  unfold smaxP
  have e : ∑ k ∈ range c, Real.exp (score p X θ i k + score p X Δ i k) = (∑ k ∈ range c, Real.exp (score p X θ i k)) * Real.exp m := by
    rw [sum_mul]
    refine sum_congr rfl fun k hk => ?_
    rw [hconst k (mem_range.1 hk), Real.exp_add]
  rw [e]
  beta_reduce
  rw [hconst j hj, Real.exp_add, mul_div_mul_right _ _ (Real.exp_pos m).ne']

/-- If the coefficients tend to others, so do the probabilities. -/
theorem smaxP_tendsto {c p : Nat} (X : Nat → Nat → ℝ) (θ : Nat → Nat → Nat → ℝ) (a : Nat → Nat → ℝ)
    (h : Tendsto (fun t => sqDist c p (θ t) a) atTop (𝓝 0)) (i : Nat) {j : Nat} (hj : j < c) :
    Tendsto (fun t => smaxP c (score p X (θ t) i) j) atTop (𝓝 (smaxP c (score p X a i) j)) := by
  have h1 : ∀ k j, k < p → j < c → Tendsto (fun t => θ t k j) atTop (𝓝 (a k j)) := by
    intro k j hk hj
    rw [tendsto_iff_dist_tendsto_zero]
    have h2 : Tendsto (fun t => Real.sqrt (sqDist c p (θ t) a)) atTop (𝓝 0) := by
      have := (Real.continuous_sqrt.tendsto 0).comp h
      rwa [Real.sqrt_zero] at this
    refine squeeze_zero (fun _ => dist_nonneg) (fun t => ?_) h2
    rw [Real.dist_eq]
    exact Real.abs_le_sqrt (sq_le_sqDist (θ t) a hk hj)
  have h2 : ∀ j, j < c → Tendsto (fun t => Real.exp (score p X (θ t) i j)) atTop (𝓝 (Real.exp (score p X a i j))) := by
    intro j hj
    refine (Real.continuous_exp.tendsto _).comp ?_
    exact tendsto_finsetSum _ fun k hk => tendsto_const_nhds.mul (h1 k j (mem_range.1 hk) hj)
  unfold smaxP
  exact (h2 j hj).div (tendsto_finsetSum _ fun k hk => h2 k (mem_range.1 hk)) (sumExp_pos (by omega) _).ne'

end NN
