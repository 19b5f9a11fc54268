import Verif.Props.C164
/- C165: the mean predicted probability of each class tends to its frequency. -/

set_option linter.unusedSectionVars false

namespace NN
open Go Finset Filter Topology

theorem smr_ge_zero {r c p : Nat} (X : Nat → Nat → ℝ) (l : Nat → Nat) (hl : ∀ i, i < r → l i < c) (θ : Nat → Nat → ℝ) : 0 ≤ smr r c p X l θ := by
  unfold smr
  refine div_nonneg (sum_nonneg fun i hi => ?_) (Nat.cast_nonneg r)
  have hli := hl i (mem_range.1 hi)
  rw [sub_nonneg]
  unfold lse
  rw [Real.le_log_iff_exp_le (sumExp_pos (by omega) _)]
  exact single_le_sum (f := fun k => Real.exp (score p X θ i k)) (fun k _ => (Real.exp_pos _).le) (mem_range.2 hli)

/-- The gradient of the cross-entropy tends to 0. -/
theorem smrGrad_tendsto {r c p : Nat} (hr : 0 < r) (X : Nat → Nat → ℝ) (l : Nat → Nat) (hl : ∀ i, i < r → l i < c) (θ : Nat → Nat → ℝ)
    {lr R : ℝ} (h0 : 0 < lr) (hR : ∀ i, i < r → ∑ k ∈ range p, X i k ^ 2 ≤ R) (hlr : lr * R ≤ 1 / 2) {k j : Nat} (hk : k < p) (hj : j < c) :
    Tendsto (fun t => smrGrad r c p X l (smrIter r c p X l lr θ t) k j) atTop (𝓝 0) := by
  set L : Nat → ℝ := fun t => smr r c p X l (smrIter r c p X l lr θ t) with hL
  have hstep : ∀ t, smrGrad r c p X l (smrIter r c p X l lr θ t) k j ^ 2 ≤ 2 / lr * (L t - L (t + 1)) := by
    intro t
    have h1 := (smr_step hr X l hl (smrIter r c p X l lr θ t) h0 hR hlr).1
    change L (t + 1) ≤ L t - _ at h1
    have h2 : smrGrad r c p X l (smrIter r c p X l lr θ t) k j ^ 2 ≤
        ∑ k ∈ range p, ∑ j ∈ range c, smrGrad r c p X l (smrIter r c p X l lr θ t) k j ^ 2 :=
      (single_le_sum (f := fun j => smrGrad r c p X l (smrIter r c p X l lr θ t) k j ^ 2) (fun _ _ => sq_nonneg _) (mem_range.2 hj)).trans
        (single_le_sum (f := fun k => ∑ j ∈ range c, smrGrad r c p X l (smrIter r c p X l lr θ t) k j ^ 2)
          (fun _ _ => sum_nonneg fun _ _ => sq_nonneg _) (mem_range.2 hk))
    refine h2.trans ?_
    rw [div_mul_eq_mul_div, le_div_iff₀ h0]
    linarith
  have hanti : Antitone L := antitone_nat_of_succ_le fun t => by
    have h1 := hstep t
    have h2 := (sq_nonneg _).trans h1
    have h3 : 0 < 2 / lr := by positivity
    have := nonneg_of_mul_nonneg_right h2 h3
    linarith
  have hconv := tendsto_atTop_ciInf hanti ⟨0, by rintro _ ⟨t, rfl⟩; exact smr_ge_zero X l hl _⟩
  have hdiff : Tendsto (fun t => 2 / lr * (L t - L (t + 1))) atTop (𝓝 0) := by
    have := (hconv.sub (hconv.comp (tendsto_add_atTop_nat 1))).const_mul (2 / lr)
    simpa using this
  have hsq := squeeze_zero (fun t => sq_nonneg _) hstep hdiff
  have := (Real.continuous_sqrt.tendsto 0).comp hsq
  rw [Real.sqrt_zero] at this
  refine squeeze_zero_norm (fun t => ?_) this
  rw [Real.norm_eq_abs, Function.comp, Real.sqrt_sq_eq_abs]

/-- C165: full-batch SGD on the cross-entropy of a softmax layer, on any data and from any start. For every ε > 0, after some number of epochs
and forever after: the mean over the training samples of the predicted probability of each class differs from the frequency of the class by
less than ε, and so does the mean of the probability times an input from the mean of the target times that input, for every input. -/
theorem C165_calibrated (w : World ℝ) (m : Model ℝ) (net : Net ℝ) (op : Nat → Nat) (S : Nat → OptSpec ℝ) (lr : ℝ) (X Y xv yv : Mat) (r : Nat)
    (A B : Nat → Nat → ℝ) (l : Nat → Nat) (h : SoftTask w m net op S lr X Y r A B l) (ε : ℝ) (hε : 0 < ε) :
    ∃ T : Nat, ∀ t : Nat, T ≤ t → wp (fit m X Y t 0 xv yv 0) w (fun e w' => e = none ∧
      ∃ net' F, IsNet w' m net' ∧ SameShape net net' ∧ NetComputes net' r A F ∧ ∀ j, j < net.dim 1 →
        |(∑ i ∈ range r, F i j) / r - ((range r).filter fun i => l i = j).card / r| < ε ∧
        ∀ k, k < net.dim 0 → |(∑ i ∈ range r, A i k * F i j) / r - (∑ i ∈ range r, A i k * B i j) / r| < ε) := by
  have hr : 0 < r := h.inputs.mat.rpos
  have hR : ∀ i, i < r → ∑ k ∈ range (net.dim 0 + 1), augIn (net.dim 0) A i k ^ 2 ≤ 1 / 2 / lr := by
    intro i hi
    rw [aug_sq_row, le_div_iff₀ h.pos, mul_comm]
    exact h.small i hi
  have hlr : lr * (1 / 2 / lr) ≤ 1 / 2 := by rw [mul_div_cancel₀ _ h.pos.ne']
  have hev : ∀ᶠ t in atTop, ∀ k ∈ range (net.dim 0 + 1), ∀ j ∈ range (net.dim 1), |smrGrad r (net.dim 1) (net.dim 0 + 1) (augIn (net.dim 0) A) l
      (smrIter r (net.dim 1) (net.dim 0 + 1) (augIn (net.dim 0) A) l lr (coefs (net.dim 0) (net.L 0).W (net.L 0).b) t) k j| < ε := by
    rw [eventually_all_finset]
    intro k hk
    rw [eventually_all_finset]
    intro j hj
    have h1 := (smrGrad_tendsto hr (augIn (net.dim 0) A) l h.labels (coefs (net.dim 0) (net.L 0).W (net.L 0).b) h.pos hR hlr
      (mem_range.1 hk) (mem_range.1 hj)).abs
    rw [abs_zero] at h1
    exact h1.eventually (gt_mem_nhds hε)
  obtain ⟨T, hT⟩ := eventually_atTop.1 hev
  refine ⟨T, fun t ht => wp_mono (h.run xv yv t) ?_⟩
  rintro e w' ⟨he, net', S', W1, b1, hT', hsh, h1, h2, hk', hX', hY', hout, h4⟩
  have hF := netComputes_netOut (net := net') (by intro k hk2; obtain rfl : k = 0 := by omega
                                                  rw [hk']; decide) r A
  rw [hout] at hF
  have hsc : ∀ i j, j < net.dim 1 → score (net.dim 0 + 1) (augIn (net.dim 0) A) (coefs (net.dim 0) W1 b1) i j =
      score (net.dim 0 + 1) (augIn (net.dim 0) A) (smrIter r (net.dim 1) (net.dim 0 + 1) (augIn (net.dim 0) A) l lr
        (coefs (net.dim 0) (net.L 0).W (net.L 0).b) t) i j := fun i j hj =>
    sum_congr rfl fun k hk => by rw [h4 k j (by have := mem_range.1 hk; omega) hj]
  have hsm : ∀ i j, j < net.dim 1 → softPred (net.dim 0) (net.dim 1) W1 b1 A i j =
      smaxP (net.dim 1) (score (net.dim 0 + 1) (augIn (net.dim 0) A) (smrIter r (net.dim 1) (net.dim 0 + 1) (augIn (net.dim 0) A) l lr
        (coefs (net.dim 0) (net.L 0).W (net.L 0).b) t) i) j := by
    intro i j hj
    rw [← smaxP_coefs]
    unfold smaxP
    rw [hsc i j hj, sum_congr rfl fun k hk => by rw [hsc i k (mem_range.1 hk)]]
  have hgrad : ∀ k j, k < net.dim 0 + 1 → j < net.dim 1 → |(∑ i ∈ range r, augIn (net.dim 0) A i k * softPred (net.dim 0) (net.dim 1) W1 b1 A i j) / r -
      (∑ i ∈ range r, augIn (net.dim 0) A i k * oneHots l i j) / r| < ε := by
    intro k j hk hj
    have h5 := hT t ht k (mem_range.2 hk) j (mem_range.2 hj)
    unfold smrGrad pErr at h5
    rw [← sub_div, ← sum_sub_distrib, sum_div]
    refine lt_of_le_of_lt (le_of_eq ?_) h5
    congr 1
    refine sum_congr rfl fun i _ => ?_
    rw [hsm i j hj, oneHots]
    ring
  refine ⟨he, net', _, hT'.isNet, hsh, hF, fun j hj => ⟨?_, fun k hk => ?_⟩⟩
  · have h5 := hgrad (net.dim 0) j (by omega) hj
    simp only [augIn, lt_irrefl, if_false, one_mul] at h5
    have h6 : ∑ i ∈ range r, oneHots l i j = ((range r).filter fun i => l i = j).card := by
      rw [card_eq_sum_ones, Nat.cast_sum, sum_filter]
      refine sum_congr rfl fun i _ => ?_
      unfold oneHots
      by_cases hc : l i = j
      · simp [hc]
      · simp [hc, Ne.symm hc]
    rwa [h6] at h5
  · have h5 := hgrad k j (by omega) hj
    simp only [augIn, if_pos hk] at h5
    have h6 : ∑ i ∈ range r, A i k * B i j = ∑ i ∈ range r, A i k * oneHots l i j :=
      sum_congr rfl fun i hi => by rw [h.oneHot i j (mem_range.1 hi) hj]
    rwa [h6]

/-- Hypotheses of C165_calibrated: four samples of two classes. -/
example : ∃ (w : World ℝ) (m : Model ℝ) (net : Net ℝ) (op : Nat → Nat) (S : Nat → OptSpec ℝ) (X Y : Mat) (A B : Nat → Nat → ℝ) (l : Nat → Nat),
    SoftTask w m net op S (1 / 38) X Y 4 A B l := by
  obtain ⟨w, m, net, op, S, X, Y, B, h, -, -⟩ := softTask_case (fun i _ => (i : ℝ)) (by
    intro i hi
    have h4 : i = 0 ∨ i = 1 ∨ i = 2 ∨ i = 3 := by omega
    rcases h4 with rfl | rfl | rfl | rfl <;> norm_num [sum_range_succ])
  exact ⟨w, m, net, op, S, X, Y, _, B, _, h⟩

end NN
