import Verif.Props.C163
import Verif.Real.SoftmaxUnique
/- C164: if the classes overlap, the predictions for the training samples tend to limits that depend on the data only. -/

set_option linter.unusedSectionVars false

namespace NN
open Go Finset Filter Topology

/-- C164: let the classes of a data set overlap. Then there are probabilities P, determined by the data alone (they are those of all weights
and biases with the least cross-entropy), such that the predictions for the training samples of every softmax model trained on the data
with cross-entropy and full-batch SGD tend to P as the number of epochs grows: whatever its initial weights and its learning rate. -/
theorem C164_predictions (n c r : Nat) (hr : 0 < r) (A B : Nat → Nat → ℝ) (l : Nat → Nat) (hl : ∀ i, i < r → l i < c)
    (hB : ∀ i j, i < r → j < c → B i j = oneHots l i j) (hov : Overlapping n c r A l) :
    ∃ P : Nat → Nat → ℝ, (∀ W b, BestSoftmax n c r A B W b → ∀ i j, i < r → j < c → softPred n c W b A i j = P i j) ∧
      ∀ (w : World ℝ) (m : Model ℝ) (net : Net ℝ) (op : Nat → Nat) (S : Nat → OptSpec ℝ) (lr : ℝ) (X Y xv yv : Mat),
        SoftTask w m net op S lr X Y r A B l → net.dim 0 = n → net.dim 1 = c → ∀ ε : ℝ, 0 < ε → ∃ T : Nat, ∀ t : Nat, T ≤ t →
          wp (fit m X Y t 0 xv yv 0) w (fun e w' => e = none ∧ ∃ net' F, IsNet w' m net' ∧ SameShape net net' ∧ NetComputes net' r A F ∧
            ∀ i j, i < r → j < c → |F i j - P i j| < ε) := by
  obtain ⟨W0, b0, h0⟩ := (C163_exists hr hl hB).2 hov
  have h0' := (best_iff hl hB W0 b0).1 h0
  refine ⟨softPred n c W0 b0 A, fun W b h i j hi hj => ?_, ?_⟩
  · rw [← smaxP_coefs, ← smaxP_coefs]
    exact smaxP_best hr _ l hl _ _ h0' ((best_iff hl hB W b).1 h) hi hj
  rintro w m net op S lr X Y xv yv h rfl rfl ε hε
  have hR : ∀ i, i < r → ∑ k ∈ range (net.dim 0 + 1), augIn (net.dim 0) A i k ^ 2 ≤ 1 / 2 / lr := by
    intro i hi
    rw [aug_sq_row, le_div_iff₀ h.pos, mul_comm]
    exact h.small i hi
  have hlr : lr * (1 / 2 / lr) ≤ 1 / 2 := by rw [mul_div_cancel₀ _ h.pos.ne']
  obtain ⟨a, ha, hlim⟩ := smrIter_limit hr (augIn (net.dim 0) A) l h.labels (coefs (net.dim 0) (net.L 0).W (net.L 0).b) _ h0' h.pos hR hlr
  have hev : ∀ᶠ t in atTop, ∀ i ∈ range r, ∀ j ∈ range (net.dim 1), |smaxP (net.dim 1) (score (net.dim 0 + 1) (augIn (net.dim 0) A)
      (smrIter r (net.dim 1) (net.dim 0 + 1) (augIn (net.dim 0) A) l lr (coefs (net.dim 0) (net.L 0).W (net.L 0).b) t) i) j -
        softPred (net.dim 0) (net.dim 1) W0 b0 A i j| < ε := by
    rw [eventually_all_finset]
    intro i hi
    rw [eventually_all_finset]
    intro j hj
    have h1 := smaxP_tendsto (augIn (net.dim 0) A) _ a hlim i (mem_range.1 hj)
    rw [smaxP_best hr _ l hl _ _ h0' ha (mem_range.1 hi) (mem_range.1 hj), smaxP_coefs] at h1
    have h2 := (tendsto_iff_dist_tendsto_zero.1 h1).eventually (gt_mem_nhds hε)
    simpa only [Real.dist_eq] using h2
  obtain ⟨T, hT⟩ := eventually_atTop.1 hev
  refine ⟨T, fun t ht => wp_mono (h.run xv yv t) ?_⟩
  rintro e w' ⟨he, net', S', W1, b1, hT', hsh, h1, h2, hk', hX', hY', hout, h4⟩
  have hF := netComputes_netOut (net := net') (by intro k hk2; obtain rfl : k = 0 := by omega
                                                  rw [hk']; decide) r A
  rw [hout] at hF
  refine ⟨he, net', _, hT'.isNet, hsh, hF, fun i j hi hj => ?_⟩
  have h5 := hT t ht i (mem_range.2 hi) j (mem_range.2 hj)
  rw [← smaxP_coefs (net.dim 0) (net.dim 1) W1]
  have hsc : ∀ j, j < net.dim 1 → score (net.dim 0 + 1) (augIn (net.dim 0) A) (coefs (net.dim 0) W1 b1) i j =
      score (net.dim 0 + 1) (augIn (net.dim 0) A) (smrIter r (net.dim 1) (net.dim 0 + 1) (augIn (net.dim 0) A) l lr
        (coefs (net.dim 0) (net.L 0).W (net.L 0).b) t) i j := fun j hj =>
    sum_congr rfl fun k hk => by rw [h4 k j (by have := mem_range.1 hk; omega) hj]
  have hsm : smaxP (net.dim 1) (score (net.dim 0 + 1) (augIn (net.dim 0) A) (coefs (net.dim 0) W1 b1) i) j =
      smaxP (net.dim 1) (score (net.dim 0 + 1) (augIn (net.dim 0) A) (smrIter r (net.dim 1) (net.dim 0 + 1) (augIn (net.dim 0) A) l lr
        (coefs (net.dim 0) (net.L 0).W (net.L 0).b) t) i) j := by
    unfold smaxP
    rw [hsc j hj, sum_congr rfl fun k hk => by rw [hsc k (mem_range.1 hk)]]
  rw [hsm]
  exact h5

/-- Hypotheses of C164_predictions: four samples with the same inputs, two of each class, and a model for them. -/
example : ∃ (w : World ℝ) (m : Model ℝ) (net : Net ℝ) (op : Nat → Nat) (S : Nat → OptSpec ℝ) (X Y : Mat) (A B : Nat → Nat → ℝ) (l : Nat → Nat),
    SoftTask w m net op S (1 / 38) X Y 4 A B l ∧ net.dim 0 = 2 ∧ net.dim 1 = 2 ∧ Overlapping 2 2 4 A l := by
  obtain ⟨w, m, net, op, S, X, Y, B, h, d0, d1⟩ := softTask_case (fun _ _ => 1) (by
    intro i hi
    norm_num [sum_range_succ])
  refine ⟨w, m, net, op, S, X, Y, _, B, _, h, d0, d1, ?_⟩
  intro W b hle i j hi hj
  have h1 := hle 0 1 (by decide) (by decide)
  have h2 := hle 2 0 (by decide) (by decide)
  unfold linPred at h1 h2 ⊢
  norm_num at h1 h2 ⊢
  have hi2 : i / 2 = 0 ∨ i / 2 = 1 := by omega
  have hj2 : j = 0 ∨ j = 1 := by omega
  rcases hi2 with e | e <;> rcases hj2 with rfl | rfl <;> rw [e] <;> linarith

end NN
