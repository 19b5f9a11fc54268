import Verif.Props.C161
import Verif.Real.SoftmaxLimit
/- C162: training a softmax layer tends to best parameters if there are any; if there are none, the parameters exceed every bound. -/

set_option linter.unusedSectionVars false

namespace NN
open Go Finset Filter Topology

/-- No weights and biases of a softmax layer have a smaller mean cross-entropy on the data than W and b. -/
def BestSoftmax (n c r : Nat) (A B : Nat → Nat → ℝ) (W : Nat → Nat → ℝ) (b : Nat → ℝ) : Prop :=
  ∀ W' b', objective .ce r c (softPred n c W b A) B ≤ objective .ce r c (softPred n c W' b' A) B

theorem coefs_self (n : Nat) (θ : Nat → Nat → ℝ) {k : Nat} (hk : k < n + 1) (j : Nat) : coefs n θ (θ n) k j = θ k j := by
  unfold coefs
  split
  · rfl
  · rw [show k = n by omega]

theorem best_iff {n c r : Nat} {A B : Nat → Nat → ℝ} {l : Nat → Nat} (hl : ∀ i, i < r → l i < c)
    (hB : ∀ i j, i < r → j < c → B i j = oneHots l i j) (W : Nat → Nat → ℝ) (b : Nat → ℝ) :
    BestSoftmax n c r A B W b ↔ ∀ θ, smr r c (n + 1) (augIn n A) l (coefs n W b) ≤ smr r c (n + 1) (augIn n A) l θ := by
  unfold BestSoftmax
  constructor
  · intro h θ
    have := h θ (θ n)
    rw [objective_softPred _ _ _ B l hl hB, objective_softPred _ _ _ B l hl hB,
      smr_congr _ l hl (θ := coefs n θ (θ n)) (fun k j hk _ => coefs_self n θ hk j)] at this
    exact this
  · intro h W' b'
    rw [objective_softPred _ _ _ B l hl hB, objective_softPred _ _ _ B l hl hB]
    exact h _

/-- C162: let some weights and biases have the least cross-entropy on the training data. Then there are such weights and biases to which
those of the model tend, as the number of epochs grows. -/
theorem C162_limit (w : World ℝ) (m : Model ℝ) (net : Net ℝ) (op : Nat → Nat) (S : Nat → OptSpec ℝ) (lr : ℝ) (X Y xv yv : Mat) (r : Nat)
    (A B : Nat → Nat → ℝ) (l : Nat → Nat) (h : SoftTask w m net op S lr X Y r A B l)
    (hbest : ∃ W b, BestSoftmax (net.dim 0) (net.dim 1) r A B W b) :
    ∃ W b, BestSoftmax (net.dim 0) (net.dim 1) r A B W b ∧ ∀ ε : ℝ, 0 < ε → ∃ T : Nat, ∀ t : Nat, T ≤ t →
      wp (fit m X Y t 0 xv yv 0) w (fun e w' => e = none ∧ ∃ net', IsNet w' m net' ∧ SameShape net net' ∧
        (∀ k j, k < net.dim 0 → j < net.dim 1 → |(net'.L 0).W k j - W k j| < ε) ∧
        ∀ j, j < net.dim 1 → |(net'.L 0).b j - b j| < ε) := by
  have hr : 0 < r := h.inputs.mat.rpos
  have hR : ∀ i, i < r → ∑ k ∈ range (net.dim 0 + 1), augIn (net.dim 0) A i k ^ 2 ≤ 1 / 2 / lr := by
    intro i hi
    rw [aug_sq_row, le_div_iff₀ h.pos, mul_comm]
    exact h.small i hi
  have hlr : lr * (1 / 2 / lr) ≤ 1 / 2 := by rw [mul_div_cancel₀ _ h.pos.ne']
  obtain ⟨W0, b0, hb0⟩ := hbest
  rw [best_iff h.labels h.oneHot] at hb0
  obtain ⟨a, ha, hlim⟩ := smrIter_limit hr (augIn (net.dim 0) A) l h.labels (coefs (net.dim 0) (net.L 0).W (net.L 0).b) _ hb0 h.pos hR hlr
  refine ⟨a, a (net.dim 0), ?_, fun ε hε => ?_⟩
  · rw [best_iff h.labels h.oneHot]
    intro θ
    rw [smr_congr _ l h.labels (θ := coefs (net.dim 0) a (a (net.dim 0))) (fun k j hk _ => coefs_self _ a hk j)]
    exact ha θ
  · obtain ⟨T, hT⟩ := eventually_atTop.1 (hlim.eventually (gt_mem_nhds (show (0 : ℝ) < ε ^ 2 by positivity)))
    refine ⟨T, fun t ht => wp_mono (h.runLayer xv yv t) ?_⟩
    rintro e w' ⟨he, net', hN, hsh, h4⟩
    have hclose : ∀ k j, k < net.dim 0 + 1 → j < net.dim 1 → |coefs (net.dim 0) (net'.L 0).W (net'.L 0).b k j - a k j| < ε := by
      intro k j hk hj
      rw [h4 k j (by omega) hj]
      exact abs_lt_of_sq_lt_sq ((sq_le_sqDist _ a hk hj).trans_lt (hT t ht)) hε.le
    refine ⟨he, net', hN, hsh, fun k j hk hj => ?_, fun j hj => ?_⟩
    · have := hclose k j (by omega) hj
      rwa [coefs, if_pos hk] at this
    · have := hclose (net.dim 0) j (by omega) hj
      rwa [coefs, if_neg (lt_irrefl _)] at this

/-- C162: let no weights and biases have the least cross-entropy on the training data. Then for every M, after some number of epochs
and forever after, some weight or bias of the model is above M in size. -/
theorem C162_none (w : World ℝ) (m : Model ℝ) (net : Net ℝ) (op : Nat → Nat) (S : Nat → OptSpec ℝ) (lr : ℝ) (X Y xv yv : Mat) (r : Nat)
    (A B : Nat → Nat → ℝ) (l : Nat → Nat) (h : SoftTask w m net op S lr X Y r A B l)
    (hbest : ¬∃ W b, BestSoftmax (net.dim 0) (net.dim 1) r A B W b) (M : ℝ) :
    ∃ T : Nat, ∀ t : Nat, T ≤ t → wp (fit m X Y t 0 xv yv 0) w (fun e w' => e = none ∧ ∃ net', IsNet w' m net' ∧ SameShape net net' ∧
      ∃ j, j < net.dim 1 ∧ (M < |(net'.L 0).b j| ∨ ∃ k, k < net.dim 0 ∧ M < |(net'.L 0).W k j|)) := by
  have hr : 0 < r := h.inputs.mat.rpos
  have hR : ∀ i, i < r → ∑ k ∈ range (net.dim 0 + 1), augIn (net.dim 0) A i k ^ 2 ≤ 1 / 2 / lr := by
    intro i hi
    rw [aug_sq_row, le_div_iff₀ h.pos, mul_comm]
    exact h.small i hi
  have hlr : lr * (1 / 2 / lr) ≤ 1 / 2 := by rw [mul_div_cancel₀ _ h.pos.ne']
  have hfr : ¬∃ᶠ t in atTop, ∀ k j, k < net.dim 0 + 1 → j < net.dim 1 → |smrIter r (net.dim 1) (net.dim 0 + 1) (augIn (net.dim 0) A) l lr
        (coefs (net.dim 0) (net.L 0).W (net.L 0).b) t k j| ≤ M := by
    intro hf
    obtain ⟨a, ha, -⟩ := smrIter_cluster hr (augIn (net.dim 0) A) l h.labels _ h.pos hR hlr hf
    refine hbest ⟨a, a (net.dim 0), ?_⟩
    rw [best_iff h.labels h.oneHot]
    intro θ
    rw [smr_congr _ l h.labels (θ := coefs (net.dim 0) a (a (net.dim 0))) (fun k j hk _ => coefs_self _ a hk j)]
    exact ha θ
  rw [not_frequently, eventually_atTop] at hfr
  obtain ⟨T, hT⟩ := hfr
  refine ⟨T, fun t ht => wp_mono (h.runLayer xv yv t) ?_⟩
  rintro e w' ⟨he, net', hN, hsh, h4⟩
  have := hT t ht
  push Not at this
  obtain ⟨k, j, hk, hj, hM⟩ := this
  rw [← h4 k j (by omega) hj, coefs] at hM
  refine ⟨he, net', hN, hsh, j, hj, ?_⟩
  split at hM
  · next hlt => exact Or.inr ⟨k, hlt, hM⟩
  · exact Or.inl hM

/-- C162: linearly separable data of two or more classes is such a case: no weights and biases have the least cross-entropy. -/
theorem C162_separable {w : World ℝ} {m : Model ℝ} {net : Net ℝ} {op : Nat → Nat} {S : Nat → OptSpec ℝ} {lr : ℝ} {X Y : Mat} {r : Nat}
    {A B : Nat → Nat → ℝ} {l : Nat → Nat} (h : SoftTask w m net op S lr X Y r A B l) (hc : 2 ≤ net.dim 1)
    (hsep : Separable (net.dim 0) (net.dim 1) r A l) : ¬∃ W b, BestSoftmax (net.dim 0) (net.dim 1) r A B W b := by
  rintro ⟨W, b, hb⟩
  rw [best_iff h.labels h.oneHot] at hb
  have hr : 0 < r := h.inputs.mat.rpos
  have hrr : (0 : ℝ) < r := by exact_mod_cast hr
  have hR : ∀ i, i < r → ∑ k ∈ range (net.dim 0 + 1), augIn (net.dim 0) A i k ^ 2 ≤ 1 / 2 / lr := by
    intro i hi
    rw [aug_sq_row, le_div_iff₀ h.pos, mul_comm]
    exact h.small i hi
  have hlr : lr * (1 / 2 / lr) ≤ 1 / 2 := by rw [mul_div_cancel₀ _ h.pos.ne']
  obtain ⟨Ws, bs, hm⟩ := hsep.margin
  obtain ⟨j, hj, hne⟩ : ∃ j, j < net.dim 1 ∧ j ≠ l 0 := by
    by_cases h0 : l 0 = 0
    · exact ⟨1, by omega, by omega⟩
    · exact ⟨0, by omega, by omega⟩
  set M := score (net.dim 0 + 1) (augIn (net.dim 0) A) (coefs (net.dim 0) W b) 0 (l 0) -
    score (net.dim 0 + 1) (augIn (net.dim 0) A) (coefs (net.dim 0) W b) 0 j with hM
  have hlog : 0 < Real.log (1 + Real.exp (-M)) / r := div_pos (Real.log_pos (by linarith [Real.exp_pos (-M)])) hrr
  obtain ⟨T, hT⟩ := smrIter_separable hr (augIn (net.dim 0) A) l h.labels (coefs (net.dim 0) (net.L 0).W (net.L 0).b) (coefs (net.dim 0) Ws bs)
    (p := net.dim 0 + 1) (by simpa only [score_coefs] using hm) h.pos hR hlr hlog
  have := smr_margin _ l h.labels _ ((hb _).trans_lt (hT T le_rfl)) hr hj hne
  linarith

/-- Hypotheses of C162_separable and C162_none: four samples of two classes. -/
example : ∃ (w : World ℝ) (m : Model ℝ) (net : Net ℝ) (op : Nat → Nat) (S : Nat → OptSpec ℝ) (X Y : Mat) (A B : Nat → Nat → ℝ) (l : Nat → Nat),
    SoftTask w m net op S (1 / 38) X Y 4 A B l ∧ 2 ≤ net.dim 1 ∧ Separable (net.dim 0) (net.dim 1) 4 A l ∧
    ¬∃ W b, BestSoftmax (net.dim 0) (net.dim 1) 4 A B W b := by
  obtain ⟨w, m, net, op, S, X, Y, B, h, d0, d1⟩ := softTask_case (fun i _ => (i : ℝ)) (by
    intro i hi
    have h4 : i = 0 ∨ i = 1 ∨ i = 2 ∨ i = 3 := by omega
    rcases h4 with rfl | rfl | rfl | rfl <;> norm_num [sum_range_succ])
  have hsep : Separable (net.dim 0) (net.dim 1) 4 (fun i _ => (i : ℝ)) (fun i => i / 2) := by rw [d0, d1]; exact separable_pair
  exact ⟨w, m, net, op, S, X, Y, _, B, _, h, d1.ge, hsep, C162_separable h d1.ge hsep⟩

/-- Hypotheses of C162_limit: the samples of the two classes have the same inputs, so equal probabilities are best. -/
example : ∃ (w : World ℝ) (m : Model ℝ) (net : Net ℝ) (op : Nat → Nat) (S : Nat → OptSpec ℝ) (X Y : Mat) (A B : Nat → Nat → ℝ) (l : Nat → Nat),
    SoftTask w m net op S (1 / 38) X Y 4 A B l ∧ ∃ W b, BestSoftmax (net.dim 0) (net.dim 1) 4 A B W b := by
  obtain ⟨w, m, net, op, S, X, Y, B, h, d0, d1⟩ := softTask_case (fun _ _ => 1) (by
    intro i hi
    norm_num [sum_range_succ])
  refine ⟨w, m, net, op, S, X, Y, _, B, _, h, fun _ _ => 0, fun _ => 0, ?_⟩
  rw [best_iff h.labels h.oneHot, d0, d1]
  intro θ
  have e := smr_lower (r := 4) (c := 2) (p := 3) (augIn 2 fun _ _ => (1 : ℝ)) (fun i => i / 2) (by intro i hi; omega)
    (coefs 2 (fun _ _ => 0) fun _ => 0) θ
  have hz : (coefs 2 (fun _ _ => (0 : ℝ)) fun _ => 0) = fun _ _ => 0 := by
    funext k j
    unfold coefs
    split <;> rfl
  rw [hz] at e ⊢
  simp only [zero_add] at e
  refine le_trans ?_ e
  rw [le_add_iff_nonneg_right]
  refine le_of_eq ?_
  norm_num [sum_range_succ, smrGrad, pErr, smaxP, score, augIn]

end NN
