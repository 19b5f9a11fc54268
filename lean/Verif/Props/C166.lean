import Verif.Props.C165
/- C166: the limit of training is the best set of parameters nearest to the start. -/

set_option linter.unusedSectionVars false

namespace NN
open Go Finset Filter Topology

/-- Coefficients that give the same probabilities differ by ones that score each sample the same in all classes. -/
theorem score_diff {c p : Nat} (X : Nat → Nat → ℝ) (θ θ' : Nat → Nat → ℝ) {i : Nat}
    (h : ∀ j, j < c → smaxP c (score p X θ' i) j = smaxP c (score p X θ i) j) {j : Nat} (hj : j < c) :
    score p X (fun k j => θ' k j - θ k j) i j = lse c (score p X θ' i) - lse c (score p X θ i) := by
  have hc : 0 < c := by omega
  have hs := sumExp_pos hc (score p X θ i)
  have hs' := sumExp_pos hc (score p X θ' i)
  have h1 := congrArg Real.log (h j hj)
  unfold smaxP at h1
  rw [Real.log_div (Real.exp_pos _).ne' hs'.ne', Real.log_div (Real.exp_pos _).ne' hs.ne', Real.log_exp, Real.log_exp] at h1
  have h2 : score p X (fun k j => θ' k j - θ k j) i j = score p X θ' i j - score p X θ i j := by
    unfold score
    rw [← sum_sub_distrib]
    exact sum_congr rfl fun k _ => by ring
  rw [h2]
  unfold lse
  linarith

/-- The gradient is orthogonal to coefficients that score each sample the same in all classes. -/
theorem smrGrad_orth {r c p : Nat} (X : Nat → Nat → ℝ) (l : Nat → Nat) (hl : ∀ i, i < r → l i < c) (θ Δ : Nat → Nat → ℝ) (κ : Nat → ℝ)
    (h : ∀ i j, i < r → j < c → score p X Δ i j = κ i) : ∑ k ∈ range p, ∑ j ∈ range c, smrGrad r c p X l θ k j * Δ k j = 0 := by
  rw [← smr_pair, sum_eq_zero, zero_div]
  intro i hi
  have hi := mem_range.1 hi
  have hli := hl i hi
  rw [pErr_sum X l θ hli, sum_congr rfl fun j hj => by rw [h i j hi (mem_range.1 hj)], ← sum_mul, smaxP_sum (by omega), h i (l i) hi hli]
  ring

theorem smrIter_orth {r c p : Nat} (X : Nat → Nat → ℝ) (l : Nat → Nat) (hl : ∀ i, i < r → l i < c) (lr : ℝ) (θ Δ : Nat → Nat → ℝ) (κ : Nat → ℝ)
    (h : ∀ i j, i < r → j < c → score p X Δ i j = κ i) (t : Nat) :
    ∑ k ∈ range p, ∑ j ∈ range c, (smrIter r c p X l lr θ t k j - θ k j) * Δ k j = 0 := by
  induction t with
  | zero => simp [smrIter]
  | succ t ih =>
    have h1 := smrGrad_orth X l hl (smrIter r c p X l lr θ t) Δ κ h
    have h2 : ∀ k j, (smrIter r c p X l lr θ (t + 1) k j - θ k j) * Δ k j = (smrIter r c p X l lr θ t k j - θ k j) * Δ k j -
        lr * (smrGrad r c p X l (smrIter r c p X l lr θ t) k j * Δ k j) := by
      intro k j
      rw [smrIter]
      ring
    simp only [h2, sum_sub_distrib, ← mul_sum]
    rw [ih, h1]
    ring

/-- C166: if the classes overlap, the weights and biases of the model tend to the ones that are nearest to the start of all that have the least
cross-entropy: for all others with the least cross-entropy Pythagoras' law holds, so they are farther away and the limit is unique. -/
theorem C166_nearest (w : World ℝ) (m : Model ℝ) (net : Net ℝ) (op : Nat → Nat) (S : Nat → OptSpec ℝ) (lr : ℝ) (X Y xv yv : Mat) (r : Nat)
    (A B : Nat → Nat → ℝ) (l : Nat → Nat) (h : SoftTask w m net op S lr X Y r A B l)
    (hov : Overlapping (net.dim 0) (net.dim 1) r A l) :
    ∃ W b, BestSoftmax (net.dim 0) (net.dim 1) r A B W b ∧
      (∀ W' b', BestSoftmax (net.dim 0) (net.dim 1) r A B W' b' →
        ∑ k ∈ range (net.dim 0), ∑ j ∈ range (net.dim 1), (W' k j - (net.L 0).W k j) ^ 2 + ∑ j ∈ range (net.dim 1), (b' j - (net.L 0).b j) ^ 2 =
        (∑ k ∈ range (net.dim 0), ∑ j ∈ range (net.dim 1), (W k j - (net.L 0).W k j) ^ 2 + ∑ j ∈ range (net.dim 1), (b j - (net.L 0).b j) ^ 2) +
        (∑ k ∈ range (net.dim 0), ∑ j ∈ range (net.dim 1), (W' k j - W k j) ^ 2 + ∑ j ∈ range (net.dim 1), (b' j - b j) ^ 2)) ∧
      ∀ ε : ℝ, 0 < ε → ∃ T : Nat, ∀ t : Nat, T ≤ t →
        wp (fit m X Y t 0 xv yv 0) w (fun e w' => e = none ∧ ∃ net', IsNet w' m net' ∧ SameShape net net' ∧
          (∀ k j, k < net.dim 0 → j < net.dim 1 → |(net'.L 0).W k j - W k j| < ε) ∧
          ∀ j, j < net.dim 1 → |(net'.L 0).b j - b j| < ε) := by
  have hr : 0 < r := h.inputs.mat.rpos
  have hR : ∀ i, i < r → ∑ k ∈ range (net.dim 0 + 1), augIn (net.dim 0) A i k ^ 2 ≤ 1 / 2 / lr := by
    intro i hi
    rw [aug_sq_row, le_div_iff₀ h.pos, mul_comm]
    exact h.small i hi
  have hlr : lr * (1 / 2 / lr) ≤ 1 / 2 := by rw [mul_div_cancel₀ _ h.pos.ne']
  obtain ⟨W0, b0, hb0⟩ := (C163_exists hr h.labels h.oneHot).2 hov
  rw [best_iff h.labels h.oneHot] at hb0
  obtain ⟨a, ha, hlim⟩ := smrIter_limit hr (augIn (net.dim 0) A) l h.labels (coefs (net.dim 0) (net.L 0).W (net.L 0).b) _ hb0 h.pos hR hlr
  have hco : ∀ k j, k < net.dim 0 + 1 → coefs (net.dim 0) a (a (net.dim 0)) k j = a k j := fun k j hk => coefs_self _ a hk j
  refine ⟨a, a (net.dim 0), ?_, fun W' b' hb' => ?_, fun ε hε => ?_⟩
  · rw [best_iff h.labels h.oneHot]
    intro θ
    rw [smr_congr _ l h.labels (θ := coefs (net.dim 0) a (a (net.dim 0))) (fun k j hk _ => hco k j hk)]
    exact ha θ
  · rw [best_iff h.labels h.oneHot] at hb'
    rw [← sqDist_coefs, ← sqDist_coefs, ← sqDist_coefs]
    set θ0 := coefs (net.dim 0) (net.L 0).W (net.L 0).b with hθ0
    set θ' := coefs (net.dim 0) W' b' with hθ'
    have hsd : ∀ i j, i < r → j < net.dim 1 → score (net.dim 0 + 1) (augIn (net.dim 0) A) (fun k j => θ' k j - a k j) i j =
        lse (net.dim 1) (score (net.dim 0 + 1) (augIn (net.dim 0) A) θ' i) - lse (net.dim 1) (score (net.dim 0 + 1) (augIn (net.dim 0) A) a i) :=
      fun i j hi hj => score_diff _ a θ' (fun j hj => smaxP_best hr _ l h.labels _ _ ha hb' hi hj) hj
    have horth := smrIter_orth (augIn (net.dim 0) A) l h.labels lr θ0 _ _ hsd
    have hcoord : ∀ k j, k < net.dim 0 + 1 → j < net.dim 1 →
        Tendsto (fun t => smrIter r (net.dim 1) (net.dim 0 + 1) (augIn (net.dim 0) A) l lr θ0 t k j) atTop (𝓝 (a k j)) := by
      intro k j hk hj
      rw [tendsto_iff_dist_tendsto_zero]
      have h2 := (Real.continuous_sqrt.tendsto 0).comp hlim
      rw [Real.sqrt_zero] at h2
      refine squeeze_zero (fun _ => dist_nonneg) (fun t => ?_) h2
      rw [Real.dist_eq]
      exact Real.abs_le_sqrt (sq_le_sqDist _ a hk hj)
    have hl0 : Tendsto (fun t => ∑ k ∈ range (net.dim 0 + 1), ∑ j ∈ range (net.dim 1),
        (smrIter r (net.dim 1) (net.dim 0 + 1) (augIn (net.dim 0) A) l lr θ0 t k j - θ0 k j) * (θ' k j - a k j)) atTop
        (𝓝 (∑ k ∈ range (net.dim 0 + 1), ∑ j ∈ range (net.dim 1), (a k j - θ0 k j) * (θ' k j - a k j))) :=
      tendsto_finsetSum _ fun k hk => tendsto_finsetSum _ fun j hj =>
        ((hcoord k j (mem_range.1 hk) (mem_range.1 hj)).sub tendsto_const_nhds).mul tendsto_const_nhds
    simp only [horth] at hl0
    have hz := tendsto_nhds_unique hl0 tendsto_const_nhds
    unfold sqDist
    have e1 : ∑ k ∈ range (net.dim 0 + 1), ∑ j ∈ range (net.dim 1), (coefs (net.dim 0) a (a (net.dim 0)) k j - θ0 k j) ^ 2 =
        ∑ k ∈ range (net.dim 0 + 1), ∑ j ∈ range (net.dim 1), (a k j - θ0 k j) ^ 2 :=
      sum_congr rfl fun k hk => sum_congr rfl fun j _ => by rw [hco k j (mem_range.1 hk)]
    have e2 : ∑ k ∈ range (net.dim 0 + 1), ∑ j ∈ range (net.dim 1), (θ' k j - coefs (net.dim 0) a (a (net.dim 0)) k j) ^ 2 =
        ∑ k ∈ range (net.dim 0 + 1), ∑ j ∈ range (net.dim 1), (θ' k j - a k j) ^ 2 :=
      sum_congr rfl fun k hk => sum_congr rfl fun j _ => by rw [hco k j (mem_range.1 hk)]
    rw [e1, e2]
    have e3 : ∀ k j, (θ' k j - θ0 k j) ^ 2 = (a k j - θ0 k j) ^ 2 + (θ' k j - a k j) ^ 2 + 2 * ((a k j - θ0 k j) * (θ' k j - a k j)) :=
      fun k j => by ring
    simp only [e3, sum_add_distrib, ← mul_sum]
    rw [hz]
    ring
  · obtain ⟨T, hT⟩ := eventually_atTop.1 (hlim.eventually (gt_mem_nhds (show (0 : ℝ) < ε ^ 2 by positivity)))
    refine ⟨T, fun t ht => wp_mono (h.runLayer xv yv t) ?_⟩
    rintro e w' ⟨he, net', hN, hsh, h4⟩
    have hclose : ∀ k j, k < net.dim 0 + 1 → j < net.dim 1 → |coefs (net.dim 0) (net'.L 0).W (net'.L 0).b k j - a k j| < ε := by
      intro k j hk hj
      rw [h4 k j (by omega) hj]
      exact abs_lt_of_sq_lt_sq ((sq_le_sqDist _ a hk hj).trans_lt (hT t ht)) hε.le
    refine ⟨he, net', hN, hsh, fun k j hk hj => ?_, fun j hj => ?_⟩
    · have := hclose k j (by omega) hj
      rwa [coefs, if_pos hk] at this
    · have := hclose (net.dim 0) j (by omega) hj
      rwa [coefs, if_neg (lt_irrefl _)] at this

/-- Hypotheses of C166_nearest: four samples with the same inputs, two of each class. -/
example : ∃ (w : World ℝ) (m : Model ℝ) (net : Net ℝ) (op : Nat → Nat) (S : Nat → OptSpec ℝ) (X Y : Mat) (A B : Nat → Nat → ℝ) (l : Nat → Nat),
    SoftTask w m net op S (1 / 38) X Y 4 A B l ∧ Overlapping (net.dim 0) (net.dim 1) 4 A l := by
  obtain ⟨w, m, net, op, S, X, Y, B, h, d0, d1⟩ := softTask_case (fun _ _ => 1) (by
    intro i hi
    norm_num [sum_range_succ])
  refine ⟨w, m, net, op, S, X, Y, _, B, _, h, ?_⟩
  rw [d0, d1]
  intro W b hle i j hi hj
  have h1 := hle 0 1 (by decide) (by decide)
  have h2 := hle 2 0 (by decide) (by decide)
  unfold linPred at h1 h2 ⊢
  norm_num at h1 h2 ⊢
  have hi2 : i / 2 = 0 ∨ i / 2 = 1 := by omega
  have hj2 : j = 0 ∨ j = 1 := by omega
  rcases hi2 with e | e <;> rcases hj2 with rfl | rfl <;> rw [e] <;> linarith

end NN
