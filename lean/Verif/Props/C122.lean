import Verif.Props.C119_C121
import Verif.Real.Interpolation
/- C122: mini-batch SGD with a constant learning rate learns an exact linear relation. -/

set_option linter.unusedSectionVars false

namespace NN
open Go Finset

/-- The state of gradient descent on a linear layer after t updates on the batches bs 0, ..., bs (m-1) in turn. -/
structure LinBatchState (net : Net ℝ) (A B : Nat → Nat → ℝ) (mb : Nat) (bs : Nat → Nat × Nat) (lr : ℝ) (t : Nat) (net' : Net ℝ)
    (S' : Nat → OptSpec ℝ) : Prop where
  size : net'.size = 1
  dim : net'.dim = net.dim
  layer : ∃ W b, net'.L 0 = { net.L 0 with W := W, b := b } ∧ ∀ k j, k ≤ (net.L 0).n → coefs (net.L 0).n W b k j =
    lsqBatchIter (net.dim 1) ((net.L 0).n + 1) (augIn (net.L 0).n A) B mb bs lr (coefs (net.L 0).n (net.L 0).W (net.L 0).b) t k j
  opt : (S' 0).kind = .sgd ∧ (S' 0).momentum = 0 ∧ (S' 0).decay = 0 ∧ (S' 0).lr = lr

theorem Descent.linBatches {m : Model ℝ} {u : Nat → ℝ} {A B : Nat → Nat → ℝ} {net : Net ℝ} {S : Nat → OptSpec ℝ} {p : Nat}
    {lr : ℝ} (hs : net.size = 1) (hk : (net.L 0).kind = .linear)
    (hS : (S 0).kind = .sgd ∧ (S 0).momentum = 0 ∧ (S 0).decay = 0 ∧ (S 0).lr = lr) (mb : Nat) (bf : Nat → Nat × Nat) (t : Nat) :
    ∀ {bs : List (Nat × Nat)} {net' : Net ℝ} {S' : Nat → OptSpec ℝ} {p' : Nat}, bs = (List.range t).map (fun q => bf (q % mb)) →
      Descent m .mse u A B net S p bs net' S' p' → LinBatchState net A B mb bf lr t net' S' := by
  induction t with
  | zero =>
    intro bs net' S' p' hb h
    cases h with
    | start => exact ⟨hs, rfl, ⟨_, _, rfl, fun _ _ _ => rfl⟩, hS⟩
    | step => simp at hb
  | succ t ih =>
    intro bs net' S' p' hb h
    rw [List.range_succ, List.map_append] at hb
    cases h with
    | start => simp at hb
    | @step bs0 b0 net1 _ S1 _ p1 hD0 hstep =>
      obtain ⟨e1, e2⟩ := List.append_inj' hb rfl
      obtain rfl : b0 = bf (t % mb) := by simpa using e2
      obtain ⟨i1, i2, ⟨W, b, i3, i4⟩, s1, s2, s3, s4⟩ := ih e1 hD0
      obtain ⟨G, D, hG, rfl, rfl⟩ := hstep
      set q := bf (t % mb) with hq
      have hk1 : (net1.L 0).kind = .linear := by rw [i3]; exact hk
      have hf : ¬ Fused m net1 := by
        intro hf
        have := hf.1
        rw [i1, hk1] at this
        cases this
      obtain ⟨g1, g2⟩ := hG.plain hf
      set n := (net.L 0).n with hn
      set Aq : Nat → Nat → ℝ := fun i j => A (q.1 + i) j with hAq
      have haug : bRows q (augIn n A) = augIn n Aq := rfl
      have hV : trainVals net1 q.2 (fun x => u (p1 + x)) Aq 1 = linPred n W b Aq := by
        rw [trainVals_netOut _ _ _ _ (by intro k hk; obtain rfl : k = 0 := by omega
                                         rw [hk1]; decide)]
        show infer (net1.L 0) Aq = _
        rw [infer_linPred hk1, i3]
      have hG0 : ∀ i j, G 0 i j = (linPred n W b Aq i j - B (q.1 + i) j) * (2 / (net.dim 1 : ℝ)) := by
        intro i j
        rw [g2.act 0 (by omega)]
        unfold actBack
        rw [hk1]
        dsimp only
        have : D (0 + 1) = D net1.size := by rw [i1]
        rw [this, g1, i1, hV, i2]
        simp [lossGrad]
      have hrate : (S1 0).rate = lr := by
        unfold OptSpec.rate
        rw [s3, if_pos (by simp [Flt.zero]), s4]
      set θ := lsqBatchIter (net.dim 1) (n + 1) (augIn n A) B mb bf lr (coefs n (net.L 0).W (net.L 0).b) t with hθ
      have hres : ∀ i j, resid (n + 1) (augIn n Aq) (bRows q B) θ i j = linPred n W b Aq i j - B (q.1 + i) j := by
        intro i j
        rw [show B (q.1 + i) j = bRows q B i j from rfl, ← resid_coefs]
        unfold resid
        congr 1
        refine sum_congr rfl fun k hk => ?_
        rw [i4 k j (by have := mem_range.1 hk; omega)]
      refine ⟨i1, i2, ?_, s1, s2, s3, s4⟩
      refine ⟨(S1 0).newW (net1.L 0).W (gradW q.2 (trainVals net1 q.2 (fun x => u (p1 + x)) Aq 0) (G 0)),
        fun j => (S1 0).newB (fun _ j => (net1.L 0).b j) (gradB q.2 (G 0)) 0 j, ?_, fun k j hk => ?_⟩
      · unfold stepNet
        dsimp only
        rw [i3]
      · show _ = θ k j - bLsqGrad (net.dim 1) (n + 1) (augIn n A) B q θ k j * lr
        rw [← i4 k j hk]
        unfold bLsqGrad lsqGrad
        rw [haug]
        simp only [hres]
        unfold coefs OptSpec.newW OptSpec.newB OptSpec.upd
        rw [s1, s2, hrate, i3]
        dsimp only
        by_cases hkn : k < n
        · rw [if_pos hkn, if_pos hkn, if_pos (by simp [Flt.zero])]
          simp only [gradW, fsum_real, hG0, augIn, if_pos hkn]
          rfl
        · rw [if_neg hkn, if_neg hkn, if_pos (by simp [Flt.zero])]
          simp only [gradB, fsum_real, hG0, augIn, if_neg hkn, one_mul]
          rfl

/-- The squared error of the data is the sum of those of the batches. -/
theorem sum_batches (r b : Nat) (f : Nat → ℝ) :
    ∑ s ∈ range (blocks r b).length, ∑ i ∈ range (batchNo r b s).2, f ((batchNo r b s).1 + i) = ∑ i ∈ range r, f i := by
  have h1 : ((blocks r b).map fun q => ∑ i ∈ range q.2, f (q.1 + i)).sum = ∑ i ∈ range r, f i := by
    have : ∀ bl : List (Nat × Nat), (bl.map fun q => ∑ i ∈ range q.2, f (q.1 + i)).sum = ((bl.flatMap fun p => List.range' p.1 p.2).map f).sum := by
      intro bl
      induction bl with
      | nil => simp
      | cons q bl ih =>
        rw [List.map_cons, List.sum_cons, ih, List.flatMap_cons, List.map_append, List.sum_append]
        congr 1
        rw [List.range'_eq_map_range, List.map_map, sum_map_range _ 0]
        simp only [List.length_range]
        refine sum_congr rfl fun i hi => ?_
        have := mem_range.1 hi
        simp [this]
    rw [this, blocks_cover, sum_map_range _ 0, List.length_range]
    refine sum_congr rfl fun i hi => ?_
    have := mem_range.1 hi
    simp [this]
  rw [← h1, sum_map_range _ (0, 0)]
  rfl

theorem lsq_batches (r bsz c p : Nat) (X Y θ : Nat → Nat → ℝ) :
    ∑ s ∈ range (blocks r bsz).length, bLsq c p X Y (batchNo r bsz s) θ = lsq r c p X Y θ :=
  sum_batches r bsz fun i => (∑ j ∈ range c, resid p X Y θ i j ^ 2) / c

/-- squared distance of weights and biases -/
noncomputable def parDist (n c : Nat) (W W' : Nat → Nat → ℝ) (b b' : Nat → ℝ) : ℝ :=
  ∑ k ∈ range n, ∑ j ∈ range c, (W k j - W' k j) ^ 2 + ∑ j ∈ range c, (b j - b' j) ^ 2

/-- C122: a model with one linear layer, trained with plain SGD on the squared error in batches of any size, with a learning rate of at
most c / (2 Σ(1 + |xᵢ|²)), the sum being over a batch; and data that some weights Ws and biases bs fit exactly.  With each epoch the
trained weights and biases come closer to Ws and bs (or stay); the squared errors after 0, 1, 2, ... epochs add up to at most
(1 + number of batches²) · |(W₀,b₀) - (Ws,bs)|² / rate, whatever the number of epochs; so the error tends to 0, and every prediction
to its target. -/
theorem C122_exact (w : World ℝ) (m : Model ℝ) (net : Net ℝ) (op : Nat → Nat) (S : Nat → OptSpec ℝ) (hT : IsTask w m net op S)
    (hs : net.size = 1) (hk : (net.L 0).kind = .linear) (hl : m.loss = some ⟨.mse, net.dim 1⟩) (lr : ℝ)
    (hS : (S 0).kind = .sgd ∧ (S 0).momentum = 0 ∧ (S 0).decay = 0 ∧ (S 0).lr = lr) (X Y xv yv : Mat) (r : Nat) (A B : Nat → Nat → ℝ)
    (hX : IsData w net X r (net.dim 0) A) (hY : IsData w net Y r (net.dim 1) B) (bsz : Nat) (hbig : r + bsz ≤ 2 ^ 53) (h0 : 0 < lr)
    (hlr : ∀ q ∈ blocks r bsz, lr * ((∑ i ∈ range q.2, (1 + ∑ k ∈ range (net.dim 0), A (q.1 + i) k ^ 2)) / (net.dim 1 : ℝ)) ≤ 1 / 2)
    (Ws : Nat → Nat → ℝ) (bs : Nat → ℝ) (hfit : ∀ i j, i < r → j < net.dim 1 → linPred (net.dim 0) Ws bs A i j = B i j) :
    ∃ (W : Nat → Nat → Nat → ℝ) (b : Nat → Nat → ℝ),
      (∀ t : Nat, wp (fit m X Y t bsz xv yv 0) w (fun e w' => e = none ∧ ∃ net' S', IsTask w' m net' op S' ∧ SameShape net net' ∧
        net'.L 0 = { net.L 0 with W := W t, b := b t } ∧ NetComputes net' r A (linPred (net.dim 0) (W t) (b t) A))) ∧
      (∀ t, parDist (net.dim 0) (net.dim 1) (W (t + 1)) Ws (b (t + 1)) bs ≤ parDist (net.dim 0) (net.dim 1) (W t) Ws (b t) bs) ∧
      (∀ T : Nat, ∑ t ∈ range T, objective .mse r (net.dim 1) (linPred (net.dim 0) (W t) (b t) A) B ≤
        (1 + ((blocks r bsz).length : ℝ) ^ 2) / lr * parDist (net.dim 0) (net.dim 1) (net.L 0).W Ws (net.L 0).b bs) ∧
      ∀ ε : ℝ, 0 < ε → ∃ T : Nat, ∀ t, T ≤ t → objective .mse r (net.dim 1) (linPred (net.dim 0) (W t) (b t) A) B < ε ∧
        ∀ i j, i < r → j < net.dim 1 → |linPred (net.dim 0) (W t) (b t) A i j - B i j| < ε := by
  have hr : 0 < r := hX.mat.rpos
  have hn : (net.L 0).n = net.dim 0 := hT.isNet.ins 0 (by omega)
  have hc : (0 : ℝ) < net.dim 1 := by exact_mod_cast hY.mat.cpos
  have hmb := blocks_pos (b := bsz) hr
  set mb := (blocks r bsz).length with hmbd
  set θ : Nat → Nat → Nat → ℝ := fun t => lsqBatchIter (net.dim 1) (net.dim 0 + 1) (augIn (net.dim 0) A) B mb (batchNo r bsz) lr
    (coefs (net.dim 0) (net.L 0).W (net.L 0).b) (t * mb) with hθ
  -- the coefficients after t epochs
  have hrun : ∀ t : Nat, ∃ W b, wp (fit m X Y t bsz xv yv 0) w (fun e w' => e = none ∧ ∃ net' S', IsTask w' m net' op S' ∧ SameShape net net' ∧
        net'.L 0 = { net.L 0 with W := W, b := b } ∧ NetComputes net' r A (linPred (net.dim 0) W b A)) ∧
      ∀ k j, k ≤ net.dim 0 → coefs (net.dim 0) W b k j = θ t k j := by
    intro t
    obtain ⟨e, w', hrun, he, net', S', hD, hT', hsh, -⟩ := wp_iff.1 (C70_fit w m net op S hT (fun k hk' => by
      obtain rfl : k = 0 := by omega
      rw [hk]; decide) _ hl (by rw [hs]) X Y xv yv r A B hX.mat (by rw [hs]; exact hY.mat) hX.cap hY.cap hX.sep hY.sep t bsz hbig)
    rw [Int.toNat_natCast] at hD
    obtain ⟨h1, h2, ⟨W1, b1, h3, h4⟩, -⟩ := Descent.linBatches hs hk hS mb (batchNo r bsz) (t * mb) (blocks_cyclic _ _) hD
    have hk' : (net'.L 0).kind = .linear := by rw [h3]; exact hk
    have hF := netComputes_netOut (net := net') (by intro k hk2; obtain rfl : k = 0 := by omega
                                                    rw [hk']; decide) r A
    have hout : netOut net' A net'.size = linPred (net.dim 0) W1 b1 A := by
      rw [h1]
      show infer (net'.L 0) A = _
      rw [infer_linPred hk', h3, ← hn]
    rw [hout] at hF
    rw [hn] at h4
    exact ⟨W1, b1, wp_iff.2 ⟨e, w', hrun, he, net', S', hT', hsh, h3, hF⟩, h4⟩
  choose W b hW hθW using hrun
  have hz : ∀ i j, i < r → j < net.dim 1 → resid (net.dim 0 + 1) (augIn (net.dim 0) A) B (coefs (net.dim 0) Ws bs) i j = 0 := by
    intro i j hi hj
    rw [resid_coefs, hfit i j hi hj, sub_self]
  obtain ⟨q1, q2⟩ := lsqBatchIter_spec (augIn (net.dim 0) A) B (coefs (net.dim 0) Ws bs) (c := net.dim 1) (p := net.dim 0 + 1) (r := r) (a := lr)
    (batchNo r bsz) hmb (fun s hs => blocks_le r bsz _ (batchNo_mem hs)) h0 (fun s hs => by
      simp only [aug_sq_row]
      exact hlr _ (batchNo_mem hs)) hz (coefs (net.dim 0) (net.L 0).W (net.L 0).b)
  have hcoef : ∀ t k j, k < net.dim 0 + 1 → j < net.dim 1 → coefs (net.dim 0) (W t) (b t) k j = θ t k j := fun t k j hk _ => hθW t k j (by omega)
  have hobj : ∀ t, objective .mse r (net.dim 1) (linPred (net.dim 0) (W t) (b t) A) B =
      ∑ s ∈ range mb, bLsq (net.dim 1) (net.dim 0 + 1) (augIn (net.dim 0) A) B (batchNo r bsz s) (θ t) := by
    intro t
    rw [objective_linPred, lsq_batches]
    exact lsq_ext _ _ (hcoef t)
  have hsum : ∀ T : Nat, ∑ t ∈ range T, objective .mse r (net.dim 1) (linPred (net.dim 0) (W t) (b t) A) B ≤
        (1 + (mb : ℝ) ^ 2) / lr * parDist (net.dim 0) (net.dim 1) (net.L 0).W Ws (net.L 0).b bs := by
    intro T
    have := q2 T
    rw [sqDist_coefs] at this
    rw [sum_congr rfl fun t _ => hobj t]
    exact this
  have hnn : ∀ t, 0 ≤ objective .mse r (net.dim 1) (linPred (net.dim 0) (W t) (b t) A) B := by
    intro t
    rw [objective_linPred]
    exact lsq_nonneg' _ _ _ _ _ _
  refine ⟨W, b, hW, fun t => ?_, hsum, fun ε hε => ?_⟩
  · have hd : ∀ t, parDist (net.dim 0) (net.dim 1) (W t) Ws (b t) bs = sqDist (net.dim 1) (net.dim 0 + 1) (θ t) (coefs (net.dim 0) Ws bs) := by
      intro t
      unfold parDist
      rw [← sqDist_coefs]
      exact sum_congr rfl fun k hk => sum_congr rfl fun j hj => by rw [hcoef t k j (mem_range.1 hk) (mem_range.1 hj)]
    rw [hd, hd]
    have : ∀ d t, sqDist (net.dim 1) (net.dim 0 + 1) (lsqBatchIter (net.dim 1) (net.dim 0 + 1) (augIn (net.dim 0) A) B mb (batchNo r bsz) lr
        (coefs (net.dim 0) (net.L 0).W (net.L 0).b) (t + d)) (coefs (net.dim 0) Ws bs) ≤
        sqDist (net.dim 1) (net.dim 0 + 1) (lsqBatchIter (net.dim 1) (net.dim 0 + 1) (augIn (net.dim 0) A) B mb (batchNo r bsz) lr
        (coefs (net.dim 0) (net.L 0).W (net.L 0).b) t) (coefs (net.dim 0) Ws bs) := by
      intro d t
      induction d with
      | zero => exact le_rfl
      | succ d ih => exact (q1 (t + d)).trans ih
    have h5 := this mb (t * mb)
    rw [← Nat.succ_mul] at h5
    exact h5
  · have hsm : Summable fun t => objective .mse r (net.dim 1) (linPred (net.dim 0) (W t) (b t) A) B := summable_of_sum_range_le hnn hsum
    have hε2 : 0 < min ε (ε ^ 2 / net.dim 1) := lt_min hε (by positivity)
    obtain ⟨T, hT⟩ := Filter.eventually_atTop.1 (hsm.tendsto_atTop_zero.eventually (gt_mem_nhds hε2))
    refine ⟨T, fun t ht => ?_⟩
    have h1 := lt_min_iff.1 (hT t ht)
    refine ⟨h1.1, fun i j hi hj => ?_⟩
    have h2 : (linPred (net.dim 0) (W t) (b t) A i j - B i j) ^ 2 / (net.dim 1 : ℝ) ≤ objective .mse r (net.dim 1) (linPred (net.dim 0) (W t) (b t) A) B := by
      unfold objective
      dsimp only
      refine le_trans ?_ (single_le_sum (f := fun i => (∑ j ∈ range (net.dim 1), (linPred (net.dim 0) (W t) (b t) A i j - B i j) ^ 2) / (net.dim 1 : ℝ))
        (fun i _ => div_nonneg (sum_nonneg fun _ _ => sq_nonneg _) hc.le) (mem_range.2 hi))
      exact div_le_div_of_nonneg_right (single_le_sum (f := fun j => (linPred (net.dim 0) (W t) (b t) A i j - B i j) ^ 2) (fun _ _ => sq_nonneg _)
        (mem_range.2 hj)) hc.le
    have h3 := lt_of_le_of_lt h2 h1.2
    rw [div_lt_div_iff_of_pos_right hc] at h3
    exact abs_lt_of_sq_lt_sq h3 hε.le

/-- Hypotheses of C122_exact: a linear layer with two inputs and two outputs, four samples in batches of three, learning rate 1/19. -/
example : ∃ (w : World ℝ) (m : Model ℝ) (net : Net ℝ) (op : Nat → Nat) (S : Nat → OptSpec ℝ) (X Y : Mat) (A B Ws : Nat → Nat → ℝ) (bs : Nat → ℝ),
    IsTask w m net op S ∧ net.size = 1 ∧ (net.L 0).kind = .linear ∧ m.loss = some ⟨.mse, net.dim 1⟩ ∧
    ((S 0).kind = .sgd ∧ (S 0).momentum = 0 ∧ (S 0).decay = 0 ∧ (S 0).lr = 1 / 19) ∧ IsData w net X 4 (net.dim 0) A ∧
    IsData w net Y 4 (net.dim 1) B ∧ 4 + 3 ≤ 2 ^ 53 ∧
    (∀ q ∈ blocks 4 3, (1 / 19 : ℝ) * ((∑ i ∈ range q.2, (1 + ∑ k ∈ range (net.dim 0), A (q.1 + i) k ^ 2)) / (net.dim 1 : ℝ)) ≤ 1 / 2) ∧
    ∀ i j, i < 4 → j < net.dim 1 → linPred (net.dim 0) Ws bs A i j = B i j := by
  obtain ⟨o, ho⟩ := sgd_ok_real (lr := 1 / 19) (decay := 0) (mom := 0) (by norm_num) le_rfl le_rfl
  have hrows : o.weightMomentums.rows = 0 := by rw [newSGD_ok ho]; rfl
  obtain ⟨w, net, op, XM, YM, xM, yM, -, hs, hL, hdim, hT, dX, dY, -, -⟩ := exists_task (emptyWorld : World ℝ) 1 Nat.one_pos
    pairUnit (fun _ => ⟨Nat.two_pos, Nat.two_pos⟩) (fun _ => rfl) { newModel with loss := some ⟨.mse, 2⟩, lossType := 0 } o
    (OptSpec.fresh o) hrows (fun w p i hlt e => e ▸ isOpt_newSGD _ _ _ _ hlt (e.symm ▸ ho)) (r := 4) (r' := 1) (by decide) Nat.one_pos
    (fun i _ => (i : ℝ)) (fun i j => 2 * (i : ℝ) - j) (fun _ _ => 0) (fun _ _ => 0)
  have d0 : net.dim 0 = 2 := by rw [hdim]; rfl
  have d1 : net.dim 1 = 2 := by rw [hdim]; rfl
  refine ⟨w, _, net, op, _, XM, YM, fun i _ => (i : ℝ), fun i j => 2 * (i : ℝ) - j, fun _ _ => 1, fun j => -j, hT, hs, by rw [hL]; rfl, by rw [d1]; rfl, ?_,
    ?_, ?_, by norm_num, ?_, ?_⟩
  · rw [newSGD_ok ho]; exact ⟨rfl, rfl, rfl, rfl⟩
  · rw [d0]; exact dX
  · rw [d1]; exact dY
  · rw [d0, d1]
    intro q hq
    have : blocks 4 3 = [(0, 3), (3, 1)] := by decide
    rw [this] at hq
    simp only [List.mem_cons, List.not_mem_nil, or_false] at hq
    rcases hq with rfl | rfl <;> norm_num [sum_range_succ]
  · rw [d0]
    intro i j _ _
    unfold linPred
    norm_num [sum_range_succ]
    ring

end NN
