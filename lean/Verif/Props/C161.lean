import Verif.Props.C111_C113
/- C161: on separable data the margins and the weights of a softmax classifier grow without bound; on other data the loss stays away from 0. -/

set_option linter.unusedSectionVars false

namespace NN
open Go Finset

/-- A mean cross-entropy below log(1 + exp(-M)) / r means that the score of each sample in its class exceeds its other scores by M. -/
theorem smr_margin {r c p : Nat} (X : Nat → Nat → ℝ) (l : Nat → Nat) (hl : ∀ i, i < r → l i < c) (θ : Nat → Nat → ℝ) {M : ℝ}
    (h : smr r c p X l θ < Real.log (1 + Real.exp (-M)) / r) {i j : Nat} (hi : i < r) (hj : j < c) (hne : j ≠ l i) :
    score p X θ i j + M < score p X θ i (l i) := by
  have hrr : (0 : ℝ) < r := by exact_mod_cast (show 0 < r by omega)
  unfold smr at h
  rw [div_lt_div_iff_of_pos_right hrr] at h
  have hnn : ∀ i ∈ range r, 0 ≤ lse c (score p X θ i) - score p X θ i (l i) := by
    intro i hi
    rw [sub_nonneg]
    unfold lse
    rw [Real.le_log_iff_exp_le (sumExp_pos (by have := hl i (mem_range.1 hi); omega) _)]
    exact single_le_sum (f := fun k => Real.exp (score p X θ i k)) (fun k _ => (Real.exp_pos _).le) (mem_range.2 (hl i (mem_range.1 hi)))
  have h2 := (single_le_sum hnn (mem_range.2 hi)).trans_lt h
  have h3 : Real.exp (score p X θ i j) + Real.exp (score p X θ i (l i)) ≤ ∑ k ∈ range c, Real.exp (score p X θ i k) := by
    rw [← sum_pair (f := fun k => Real.exp (score p X θ i k)) hne]
    refine sum_le_sum_of_subset_of_nonneg ?_ fun k _ _ => (Real.exp_pos _).le
    intro x hx
    simp at hx
    rcases hx with rfl | rfl
    · exact mem_range.2 hj
    · exact mem_range.2 (hl i hi)
  have h4 : Real.log (∑ k ∈ range c, Real.exp (score p X θ i k)) < Real.log (Real.exp (score p X θ i (l i)) * (1 + Real.exp (-M))) := by
    rw [Real.log_mul (Real.exp_pos _).ne' (by positivity), Real.log_exp]
    unfold lse at h2
    linarith
  have h5 := (Real.log_lt_log_iff (sumExp_pos (by have := hl i hi; omega) _) (by positivity)).1 h4
  have h6 : Real.exp (score p X θ i j) < Real.exp (score p X θ i (l i) + -M) := by
    rw [Real.exp_add]
    linarith
  have := Real.exp_lt_exp.1 h6
  linarith

/-- Scores of bounded coefficients differ by a bounded amount. -/
theorem linPred_diff_le {n : Nat} {W : Nat → Nat → ℝ} {A : Nat → Nat → ℝ} {K : ℝ} {i a b : Nat}
    (ha : ∀ k, k < n → |W k a| ≤ K) (hb : ∀ k, k < n → |W k b| ≤ K) :
    |∑ k ∈ range n, A i k * W k a - ∑ k ∈ range n, A i k * W k b| ≤ 2 * K * ∑ k ∈ range n, |A i k| := by
  rw [← sum_sub_distrib, mul_sum]
  refine (abs_sum_le_sum_abs _ _).trans (sum_le_sum fun k hk => ?_)
  rw [← mul_sub, abs_mul, mul_comm]
  have h1 := ha k (mem_range.1 hk)
  have h2 := hb k (mem_range.1 hk)
  exact mul_le_mul_of_nonneg_right ((abs_sub _ _).trans (by linarith)) (abs_nonneg _)

/-- C161: training a softmax layer by full-batch SGD on the cross-entropy of linearly separable data of two or more classes. For every M,
after some number of epochs and forever after, the score of each training sample in its class exceeds its other scores by more than M,
some weight or bias is above M in size, and if samples of two classes occur some weight is. So the parameters have no limit. -/
theorem C161_grow (w : World ℝ) (m : Model ℝ) (net : Net ℝ) (op : Nat → Nat) (S : Nat → OptSpec ℝ) (lr : ℝ) (X Y xv yv : Mat) (r : Nat)
    (A B : Nat → Nat → ℝ) (l : Nat → Nat) (h : SoftTask w m net op S lr X Y r A B l) (hc : 2 ≤ net.dim 1)
    (hsep : Separable (net.dim 0) (net.dim 1) r A l) (M : ℝ) :
    ∃ T : Nat, ∀ t : Nat, T ≤ t → wp (fit m X Y t 0 xv yv 0) w (fun e w' => e = none ∧ ∃ net', IsNet w' m net' ∧ SameShape net net' ∧
      (∀ i j, i < r → j < net.dim 1 → j ≠ l i → linPred (net.dim 0) (net'.L 0).W (net'.L 0).b A i j + M <
        linPred (net.dim 0) (net'.L 0).W (net'.L 0).b A i (l i)) ∧
      (∃ j, j < net.dim 1 ∧ (M < |(net'.L 0).b j| ∨ ∃ k, k < net.dim 0 ∧ M < |(net'.L 0).W k j|)) ∧
      ((∃ i i', i < r ∧ i' < r ∧ l i ≠ l i') → ∃ k j, k < net.dim 0 ∧ j < net.dim 1 ∧ M < |(net'.L 0).W k j|)) := by
  have hr : 0 < r := h.inputs.mat.rpos
  have hrr : (0 : ℝ) < r := by exact_mod_cast hr
  have hR : ∀ i, i < r → ∑ k ∈ range (net.dim 0 + 1), augIn (net.dim 0) A i k ^ 2 ≤ 1 / 2 / lr := by
    intro i hi
    rw [aug_sq_row, le_div_iff₀ h.pos, mul_comm]
    exact h.small i hi
  have hlr : lr * (1 / 2 / lr) ≤ 1 / 2 := by rw [mul_div_cancel₀ _ h.pos.ne']
  obtain ⟨Ws, bs, hm⟩ := hsep.margin
  have hnn : ∀ i ∈ range r, 0 ≤ ∑ k ∈ range (net.dim 0), |A i k| := fun i _ => sum_nonneg fun k _ => abs_nonneg _
  have hle : ∀ i, i < r → ∑ k ∈ range (net.dim 0), |A i k| ≤ ∑ i ∈ range r, ∑ k ∈ range (net.dim 0), |A i k| := fun i hi =>
    single_le_sum hnn (mem_range.2 hi)
  set Q := ∑ i ∈ range r, ∑ k ∈ range (net.dim 0), |A i k| with hQ
  have hQ0 : 0 ≤ Q := sum_nonneg hnn
  have hM0 : 0 ≤ |M| := abs_nonneg M
  have hMM : M ≤ |M| := le_abs_self M
  set K := 2 * |M| * (1 + Q) with hK
  have hKM : |M| ≤ K := by nlinarith
  have hlog : 0 < Real.log (1 + Real.exp (-K)) / r := div_pos (Real.log_pos (by linarith [Real.exp_pos (-K)])) hrr
  obtain ⟨T, hT⟩ := smrIter_separable hr (augIn (net.dim 0) A) l h.labels (coefs (net.dim 0) (net.L 0).W (net.L 0).b) (coefs (net.dim 0) Ws bs)
    (p := net.dim 0 + 1) (by simpa only [score_coefs] using hm) h.pos hR hlr hlog
  refine ⟨T, fun t ht => wp_mono (h.run xv yv t) ?_⟩
  rintro e w' ⟨he, net', S', W1, b1, hT', hsh, h1, h2, hk', hX', hY', hout, h4⟩
  have hlt := hT t ht
  rw [← smr_congr _ l h.labels (fun k j hk hj => h4 k j (by omega) hj), ← objective_softPred _ _ _ B l h.labels h.oneHot, ← hout A, h1] at hlt
  have hn : (net'.L 0).n = net.dim 0 := by rw [hT'.isNet.ins 0 (by omega), h2]
  have ho : (net'.L 0).o = net.dim 1 := by rw [hT'.isNet.outs 0 (by omega), h2]
  change objective .ce r (net.dim 1) (infer (net'.L 0) A) B < _ at hlt
  rw [infer_softPred hk', hn, ho, objective_softPred _ _ _ B l h.labels h.oneHot] at hlt
  have hmar : ∀ i j, i < r → j < net.dim 1 → j ≠ l i → linPred (net.dim 0) (net'.L 0).W (net'.L 0).b A i j + K <
        linPred (net.dim 0) (net'.L 0).W (net'.L 0).b A i (l i) := by
    intro i j hi hj hne
    have := smr_margin _ l h.labels _ hlt hi hj hne
    simpa only [score_coefs] using this
  refine ⟨he, net', hT'.isNet, hsh, fun i j hi hj hne => ?_, ?_, ?_⟩
  · have := hmar i j hi hj hne
    linarith
  · by_contra hcon
    push Not at hcon
    obtain ⟨j, hj, hne⟩ : ∃ j, j < net.dim 1 ∧ j ≠ l 0 := by
      by_cases h0 : l 0 = 0
      · exact ⟨1, by omega, by omega⟩
      · exact ⟨0, by omega, by omega⟩
    have hl0 := h.labels 0 hr
    have h5 := hmar 0 j hr hj hne
    have h6 := le_of_abs_le (linPred_diff_le (A := A) (i := 0) (K := |M|) (fun k hk => ((hcon _ hl0).2 k hk).trans hMM)
      (fun k hk => ((hcon _ hj).2 k hk).trans hMM))
    have h7 := abs_le.1 ((hcon _ hl0).1.trans hMM)
    have h8 := abs_le.1 ((hcon _ hj).1.trans hMM)
    have h9 := mul_le_mul_of_nonneg_left (hle 0 hr) hM0
    unfold linPred at h5
    nlinarith
  · rintro ⟨i, i', hi, hi', hne⟩
    by_contra hcon
    push Not at hcon
    have ha := h.labels i hi
    have hb := h.labels i' hi'
    have h5 := hmar i (l i') hi hb (Ne.symm hne)
    have h5' := hmar i' (l i) hi' ha hne
    have h6 := le_of_abs_le (linPred_diff_le (A := A) (i := i) (K := |M|) (fun k hk => (hcon k _ hk ha).trans hMM)
      (fun k hk => (hcon k _ hk hb).trans hMM))
    have h6' := le_of_abs_le (linPred_diff_le (A := A) (i := i') (K := |M|) (fun k hk => (hcon k _ hk hb).trans hMM)
      (fun k hk => (hcon k _ hk ha).trans hMM))
    have h9 := mul_le_mul_of_nonneg_left (hle i hi) hM0
    have h9' := mul_le_mul_of_nonneg_left (hle i' hi') hM0
    unfold linPred at h5 h5'
    nlinarith

/-- C161: on data that is not linearly separable the mean cross-entropy is log 2 / r or more after any number of epochs. -/
theorem C161_floor (w : World ℝ) (m : Model ℝ) (net : Net ℝ) (op : Nat → Nat) (S : Nat → OptSpec ℝ) (lr : ℝ) (X Y xv yv : Mat) (r : Nat)
    (A B : Nat → Nat → ℝ) (l : Nat → Nat) (h : SoftTask w m net op S lr X Y r A B l)
    (hsep : ¬Separable (net.dim 0) (net.dim 1) r A l) (t : Nat) :
    wp (fit m X Y t 0 xv yv 0) w (fun e w' => e = none ∧ ∃ net' F, IsNet w' m net' ∧ SameShape net net' ∧ NetComputes net' r A F ∧
      Real.log 2 / r ≤ objective .ce r (net.dim 1) F B) := by
  refine wp_mono (h.run xv yv t) ?_
  rintro e w' ⟨he, net', S', W1, b1, hT', hsh, h1, h2, hk', hX', hY', hout, h4⟩
  have hF := netComputes_netOut (net := net') (by intro k hk2; obtain rfl : k = 0 := by omega
                                                  rw [hk']; decide) r A
  rw [hout] at hF
  refine ⟨he, net', _, hT'.isNet, hsh, hF, ?_⟩
  by_contra hcon
  push Not at hcon
  rw [objective_softPred _ _ _ B l h.labels h.oneHot] at hcon
  refine hsep ⟨W1, b1, fun i j hi hj hne => ?_⟩
  have := smr_margin (M := 0) _ l h.labels _ (by rw [neg_zero, Real.exp_zero, one_add_one_eq_two]; exact hcon) hi hj hne
  simpa only [score_coefs, add_zero] using this

/-- The run of Fit, and the layer it ends with. -/
theorem SoftTask.runLayer {w : World ℝ} {m : Model ℝ} {net : Net ℝ} {op : Nat → Nat} {S : Nat → OptSpec ℝ} {lr : ℝ} {X Y : Mat} {r : Nat}
    {A B : Nat → Nat → ℝ} {l : Nat → Nat} (h : SoftTask w m net op S lr X Y r A B l) (xv yv : Mat) (t : Nat) :
    wp (fit m X Y t 0 xv yv 0) w (fun e w' => e = none ∧ ∃ net', IsNet w' m net' ∧ SameShape net net' ∧ ∀ k j, k ≤ net.dim 0 → j < net.dim 1 →
      coefs (net.dim 0) (net'.L 0).W (net'.L 0).b k j = smrIter r (net.dim 1) (net.dim 0 + 1) (augIn (net.dim 0) A) l lr
        (coefs (net.dim 0) (net.L 0).W (net.L 0).b) t k j) := by
  have hs := h.size
  have hn : (net.L 0).n = net.dim 0 := h.task.isNet.ins 0 (by omega)
  have ho : (net.L 0).o = net.dim 1 := h.task.isNet.outs 0 (by omega)
  refine wp_mono (C70_fit w m net op S h.task (fun k hk' => by obtain rfl : k = 0 := by omega
                                                               rw [h.kind]; decide) _ h.loss (by rw [hs]) X Y xv yv r A B h.inputs.mat
    (by rw [hs]; exact h.targets.mat) h.inputs.cap h.targets.cap h.inputs.sep h.targets.sep t 0 (by have := h.rows; omega)) ?_
  rintro e w' ⟨he, net', S', hD, hT', hsh, hX', hY', -⟩
  have hbl : (List.replicate (t : Int).toNat (blocks r 0)).flatten = List.replicate t (0, r) := by
    rw [Int.toNat_natCast, show blocks r 0 = [(0, r)] by simp [blocks], flatten_replicate_one]
  obtain ⟨h1, h2, ⟨W1, b1, h3, h4⟩, -⟩ := Descent.soft hs h.kind h.lossType l (by rw [ho]; exact h.oneHot) h.opt t hbl hD
  rw [hn, ho] at h4
  refine ⟨he, net', hT'.isNet, hsh, ?_⟩
  rw [h3]
  exact h4

/-- C161: how fast they can grow, on any data: after t epochs the squared distance of the weights and biases from their start is at most
2 · rate · t times the decrease of the mean cross-entropy. -/
theorem C161_slow (w : World ℝ) (m : Model ℝ) (net : Net ℝ) (op : Nat → Nat) (S : Nat → OptSpec ℝ) (lr : ℝ) (X Y xv yv : Mat) (r : Nat)
    (A B : Nat → Nat → ℝ) (l : Nat → Nat) (h : SoftTask w m net op S lr X Y r A B l) (t : Nat) :
    wp (fit m X Y t 0 xv yv 0) w (fun e w' => e = none ∧ ∃ net', IsNet w' m net' ∧ SameShape net net' ∧
      ∑ k ∈ range (net.dim 0), ∑ j ∈ range (net.dim 1), ((net'.L 0).W k j - (net.L 0).W k j) ^ 2 +
          ∑ j ∈ range (net.dim 1), ((net'.L 0).b j - (net.L 0).b j) ^ 2 ≤
        2 * lr * t * (objective .ce r (net.dim 1) (softPred (net.dim 0) (net.dim 1) (net.L 0).W (net.L 0).b A) B -
          objective .ce r (net.dim 1) (softPred (net.dim 0) (net.dim 1) (net'.L 0).W (net'.L 0).b A) B)) := by
  have hr : 0 < r := h.inputs.mat.rpos
  have hR : ∀ i, i < r → ∑ k ∈ range (net.dim 0 + 1), augIn (net.dim 0) A i k ^ 2 ≤ 1 / 2 / lr := by
    intro i hi
    rw [aug_sq_row, le_div_iff₀ h.pos, mul_comm]
    exact h.small i hi
  have hlr : lr * (1 / 2 / lr) ≤ 1 / 2 := by rw [mul_div_cancel₀ _ h.pos.ne']
  refine wp_mono (h.runLayer xv yv t) ?_
  rintro e w' ⟨he, net', hN, hsh, h4⟩
  refine ⟨he, net', hN, hsh, ?_⟩
  have h5 := (smrIter_spec hr _ l h.labels (coefs (net.dim 0) (net.L 0).W (net.L 0).b) h.pos hR hlr t).2
    (coefs (net.dim 0) (net.L 0).W (net.L 0).b)
  have h0 : ∀ c p (θ : Nat → Nat → ℝ), sqDist c p θ θ = 0 := fun c p θ => by simp [sqDist]
  have h6 : sqDist (net.dim 1) (net.dim 0 + 1) (coefs (net.dim 0) (net'.L 0).W (net'.L 0).b) (coefs (net.dim 0) (net.L 0).W (net.L 0).b) =
      sqDist (net.dim 1) (net.dim 0 + 1) (smrIter r (net.dim 1) (net.dim 0 + 1) (augIn (net.dim 0) A) l lr
        (coefs (net.dim 0) (net.L 0).W (net.L 0).b) t) (coefs (net.dim 0) (net.L 0).W (net.L 0).b) := by
    unfold sqDist
    refine sum_congr rfl fun k hk => sum_congr rfl fun j hj => ?_
    rw [h4 k j (by have := mem_range.1 hk; omega) (mem_range.1 hj)]
  rw [h0, ← h6, sqDist_coefs, ← smr_congr _ l h.labels (fun k j hk hj => h4 k j (by omega) hj),
    ← objective_softPred _ _ _ B l h.labels h.oneHot, ← objective_softPred _ _ _ B l h.labels h.oneHot] at h5
  linarith

/-- A softmax layer with two inputs and two outputs, four samples of two classes with inputs up to 3, learning rate 1/38. -/
theorem softTask_case (A : Nat → Nat → ℝ) (hA : ∀ i, i < 4 → (1 / 38 : ℝ) * (1 + ∑ k ∈ range 2, A i k ^ 2) ≤ 1 / 2) :
    ∃ (w : World ℝ) (m : Model ℝ) (net : Net ℝ) (op : Nat → Nat) (S : Nat → OptSpec ℝ) (X Y : Mat) (B : Nat → Nat → ℝ),
    SoftTask w m net op S (1 / 38) X Y 4 A B (fun i => i / 2) ∧ net.dim 0 = 2 ∧ net.dim 1 = 2 := by
  obtain ⟨o, ho⟩ := sgd_ok_real (lr := 1 / 38) (decay := 0) (mom := 0) (by norm_num) le_rfl le_rfl
  have hrows : o.weightMomentums.rows = 0 := by rw [newSGD_ok ho]; rfl
  obtain ⟨w, net, op, XM, YM, xM, yM, -, hs, hL, hdim, hT, dX, dY, -, -⟩ := exists_task (emptyWorld : World ℝ) 1 Nat.one_pos
    softUnit (fun _ => ⟨Nat.two_pos, Nat.two_pos⟩) (fun _ => rfl) { newModel with loss := some ⟨.ce, 2⟩, lossType := 2, accType := 1 } o
    (OptSpec.fresh o) hrows (fun w p i hlt e => e ▸ isOpt_newSGD _ _ _ _ hlt (e.symm ▸ ho)) (r := 4) (r' := 1) (by decide) Nat.one_pos
    A (oneHots fun i => i / 2) (fun _ _ => 0) (fun _ _ => 0)
  have d0 : net.dim 0 = 2 := by rw [hdim]; rfl
  have d1 : net.dim 1 = 2 := by rw [hdim]; rfl
  refine ⟨w, _, net, op, _, XM, YM, oneHots fun i => i / 2, ⟨hT, hs, by rw [hL]; rfl, by rw [d1]; rfl, rfl, ?_,
    ?_, ?_, by norm_num, ?_, fun _ _ _ _ => rfl, by norm_num, ?_⟩, d0, d1⟩
  · rw [newSGD_ok ho]; exact ⟨rfl, rfl, rfl, rfl⟩
  · rw [d0]; exact dX
  · rw [d1]; exact dY
  · intro i hi
    rw [d1]
    omega
  · rw [d0]
    exact hA

/-- Hypotheses of C161_grow and C161_slow, with samples of two classes. -/
example : ∃ (w : World ℝ) (m : Model ℝ) (net : Net ℝ) (op : Nat → Nat) (S : Nat → OptSpec ℝ) (X Y : Mat) (A B : Nat → Nat → ℝ) (l : Nat → Nat),
    SoftTask w m net op S (1 / 38) X Y 4 A B l ∧ 2 ≤ net.dim 1 ∧ Separable (net.dim 0) (net.dim 1) 4 A l ∧
    ∃ i i', i < 4 ∧ i' < 4 ∧ l i ≠ l i' := by
  obtain ⟨w, m, net, op, S, X, Y, B, h, d0, d1⟩ := softTask_case (fun i _ => (i : ℝ)) (by
    intro i hi
    have h4 : i = 0 ∨ i = 1 ∨ i = 2 ∨ i = 3 := by omega
    rcases h4 with rfl | rfl | rfl | rfl <;> norm_num [sum_range_succ])
  exact ⟨w, m, net, op, S, X, Y, _, B, _, h, d1.ge, by rw [d0, d1]; exact separable_pair, 0, 3, by decide, by decide, by decide⟩

/-- Hypotheses of C161_floor: the samples of the two classes have the same inputs. -/
example : ∃ (w : World ℝ) (m : Model ℝ) (net : Net ℝ) (op : Nat → Nat) (S : Nat → OptSpec ℝ) (X Y : Mat) (A B : Nat → Nat → ℝ) (l : Nat → Nat),
    SoftTask w m net op S (1 / 38) X Y 4 A B l ∧ ¬Separable (net.dim 0) (net.dim 1) 4 A l := by
  obtain ⟨w, m, net, op, S, X, Y, B, h, d0, d1⟩ := softTask_case (fun _ _ => 1) (by
    intro i hi
    norm_num [sum_range_succ])
  refine ⟨w, m, net, op, S, X, Y, _, B, _, h, ?_⟩
  rintro ⟨W, b, hs⟩
  rw [d0, d1] at hs
  have h1 := hs 0 1 (by decide) (by decide) (by decide)
  have h2 := hs 2 0 (by decide) (by decide) (by decide)
  unfold linPred at h1 h2
  norm_num at h1 h2
  linarith

end NN
