import Verif.Props.C122
import Verif.Real.Nearest
/- C156: of all exact solutions of a linear problem, mini-batch SGD finds the one nearest to the initial weights. -/

set_option linter.unusedSectionVars false

namespace NN
open Go Finset Filter Topology

/-- Training of a linear layer, in t epochs of mini-batches, makes t passes of batch gradient descent on the squared error. -/
theorem fit_lsqIter (w : World ℝ) (m : Model ℝ) (net : Net ℝ) (op : Nat → Nat) (S : Nat → OptSpec ℝ) (hT : IsTask w m net op S)
    (hs : net.size = 1) (hk : (net.L 0).kind = .linear) (hl : m.loss = some ⟨.mse, net.dim 1⟩) (lr : ℝ)
    (hS : (S 0).kind = .sgd ∧ (S 0).momentum = 0 ∧ (S 0).decay = 0 ∧ (S 0).lr = lr) (X Y xv yv : Mat) (r : Nat) (A B : Nat → Nat → ℝ)
    (hX : IsData w net X r (net.dim 0) A) (hY : IsData w net Y r (net.dim 1) B) (bsz : Nat) (hbig : r + bsz ≤ 2 ^ 53) (t : Nat) :
    ∃ W b, wp (fit m X Y t bsz xv yv 0) w (fun e w' => e = none ∧ ∃ net' S', IsTask w' m net' op S' ∧ SameShape net net' ∧
        net'.L 0 = { net.L 0 with W := W, b := b } ∧ ∀ (n : Nat) (V : Nat → Nat → ℝ), NetComputes net' n V (linPred (net.dim 0) W b V)) ∧
      ∀ k j, k ≤ net.dim 0 → coefs (net.dim 0) W b k j = lsqBatchIter (net.dim 1) (net.dim 0 + 1) (augIn (net.dim 0) A) B (blocks r bsz).length
        (batchNo r bsz) lr (coefs (net.dim 0) (net.L 0).W (net.L 0).b) (t * (blocks r bsz).length) k j := by
  have hn : (net.L 0).n = net.dim 0 := hT.isNet.ins 0 (by omega)
  obtain ⟨e, w', hrun, he, net', S', hD, hT', hsh, -⟩ := wp_iff.1 (C70_fit w m net op S hT (fun k hk' => by
    obtain rfl : k = 0 := by omega
    rw [hk]; decide) _ hl (by rw [hs]) X Y xv yv r A B hX.mat (by rw [hs]; exact hY.mat) hX.cap hY.cap hX.sep hY.sep t bsz hbig)
  rw [Int.toNat_natCast] at hD
  obtain ⟨h1, h2, ⟨W1, b1, h3, h4⟩, -⟩ := Descent.linBatches hs hk hS (blocks r bsz).length (batchNo r bsz) (t * (blocks r bsz).length)
    (blocks_cyclic _ _) hD
  have hk' : (net'.L 0).kind = .linear := by rw [h3]; exact hk
  have hF : ∀ (n : Nat) (V : Nat → Nat → ℝ), NetComputes net' n V (linPred (net.dim 0) W1 b1 V) := by
    intro n V
    have hF := netComputes_netOut (net := net') (by intro k hk2; obtain rfl : k = 0 := by omega
                                                    rw [hk']; decide) n V
    have hout : netOut net' V net'.size = linPred (net.dim 0) W1 b1 V := by
      rw [h1]
      show infer (net'.L 0) V = _
      rw [infer_linPred hk', h3, ← hn]
    rwa [hout] at hF
  rw [hn] at h4
  exact ⟨W1, b1, wp_iff.2 ⟨e, w', hrun, he, net', S', hT', hsh, h3, hF⟩, h4⟩

/-- C156: a model with one linear layer, trained with plain SGD on the squared error in batches of any size, with a learning rate as in C122, on data
that can be fitted exactly (in general in many ways).  With the number of epochs, the trained weights and biases tend to limits Wl and bl, which fit
the data exactly; and for all weights Ws and biases bs that fit the data exactly, the squared distance from the initial weights and biases to
(Ws, bs) is that to (Wl, bl) plus that from (Wl, bl) to (Ws, bs): the limit is the exact solution nearest to the start.  The predictions for any
inputs V tend to those of the limit. -/
theorem C156_nearest (w : World ℝ) (m : Model ℝ) (net : Net ℝ) (op : Nat → Nat) (S : Nat → OptSpec ℝ) (hT : IsTask w m net op S)
    (hs : net.size = 1) (hk : (net.L 0).kind = .linear) (hl : m.loss = some ⟨.mse, net.dim 1⟩) (lr : ℝ)
    (hS : (S 0).kind = .sgd ∧ (S 0).momentum = 0 ∧ (S 0).decay = 0 ∧ (S 0).lr = lr) (X Y xv yv : Mat) (r : Nat) (A B : Nat → Nat → ℝ)
    (hX : IsData w net X r (net.dim 0) A) (hY : IsData w net Y r (net.dim 1) B) (bsz : Nat) (hbig : r + bsz ≤ 2 ^ 53) (h0 : 0 < lr)
    (hlr : ∀ q ∈ blocks r bsz, lr * ((∑ i ∈ range q.2, (1 + ∑ k ∈ range (net.dim 0), A (q.1 + i) k ^ 2)) / (net.dim 1 : ℝ)) ≤ 1 / 2)
    (hfit : ∃ (Ws : Nat → Nat → ℝ) (bs : Nat → ℝ), ∀ i j, i < r → j < net.dim 1 → linPred (net.dim 0) Ws bs A i j = B i j) :
    ∃ (W : Nat → Nat → Nat → ℝ) (b : Nat → Nat → ℝ) (Wl : Nat → Nat → ℝ) (bl : Nat → ℝ),
      (∀ t : Nat, wp (fit m X Y t bsz xv yv 0) w (fun e w' => e = none ∧ ∃ net' S', IsTask w' m net' op S' ∧ SameShape net net' ∧
        net'.L 0 = { net.L 0 with W := W t, b := b t } ∧ ∀ (n : Nat) (V : Nat → Nat → ℝ), NetComputes net' n V (linPred (net.dim 0) (W t) (b t) V))) ∧
      (∀ k j, k < net.dim 0 → j < net.dim 1 → Tendsto (fun t => W t k j) atTop (𝓝 (Wl k j))) ∧
      (∀ j, j < net.dim 1 → Tendsto (fun t => b t j) atTop (𝓝 (bl j))) ∧
      (∀ i j, i < r → j < net.dim 1 → linPred (net.dim 0) Wl bl A i j = B i j) ∧
      (∀ (Ws : Nat → Nat → ℝ) (bs : Nat → ℝ), (∀ i j, i < r → j < net.dim 1 → linPred (net.dim 0) Ws bs A i j = B i j) →
        parDist (net.dim 0) (net.dim 1) (net.L 0).W Ws (net.L 0).b bs =
          parDist (net.dim 0) (net.dim 1) (net.L 0).W Wl (net.L 0).b bl + parDist (net.dim 0) (net.dim 1) Wl Ws bl bs) ∧
      ∀ (V : Nat → Nat → ℝ) (i j : Nat), j < net.dim 1 →
        Tendsto (fun t => linPred (net.dim 0) (W t) (b t) V i j) atTop (𝓝 (linPred (net.dim 0) Wl bl V i j)) := by
  obtain ⟨Ws, bs, hfit⟩ := hfit
  have hr : 0 < r := hX.mat.rpos
  have hc : 0 < net.dim 1 := hY.mat.cpos
  have hmb := blocks_pos (b := bsz) hr
  set mb := (blocks r bsz).length with hmbd
  set it : Nat → Nat → Nat → ℝ := lsqBatchIter (net.dim 1) (net.dim 0 + 1) (augIn (net.dim 0) A) B mb (batchNo r bsz) lr
    (coefs (net.dim 0) (net.L 0).W (net.L 0).b) with hit
  have hrun := fun t => fit_lsqIter w m net op S hT hs hk hl lr hS X Y xv yv r A B hX hY bsz hbig t
  choose W b hW hθW using hrun
  have hz : ∀ (Ws : Nat → Nat → ℝ) (bs : Nat → ℝ), (∀ i j, i < r → j < net.dim 1 → linPred (net.dim 0) Ws bs A i j = B i j) →
      ∀ i j, i < r → j < net.dim 1 → resid (net.dim 0 + 1) (augIn (net.dim 0) A) B (coefs (net.dim 0) Ws bs) i j = 0 := by
    intro Ws bs hfit i j hi hj
    rw [resid_coefs, hfit i j hi hj, sub_self]
  obtain ⟨θl, l1, l2, l3⟩ := lsq_nearest (augIn (net.dim 0) A) B (coefs (net.dim 0) Ws bs) (c := net.dim 1) (p := net.dim 0 + 1) (r := r) (a := lr)
    (batchNo r bsz) hc hmb (fun s hs => blocks_le r bsz _ (batchNo_mem hs)) (lsq_batches r bsz _ _ _ _) h0 (fun s hs => by
      simp only [aug_sq_row]
      exact hlr _ (batchNo_mem hs)) (hz Ws bs hfit) (coefs (net.dim 0) (net.L 0).W (net.L 0).b)
  rw [← hit] at l1
  -- the limits as weights and biases
  have hcl : ∀ k j, k < net.dim 0 + 1 → coefs (net.dim 0) θl (θl (net.dim 0)) k j = θl k j := fun k j hk => by
    unfold coefs
    split
    · rfl
    · rw [show k = net.dim 0 by omega]
  have hep : Tendsto (fun t => t * mb) atTop atTop := tendsto_id.atTop_mul_const' hmb
  have hWt : ∀ k j, k < net.dim 0 → j < net.dim 1 → Tendsto (fun t => W t k j) atTop (𝓝 (θl k j)) := fun k j hk hj => by
    refine ((l1 k j (by omega) hj).comp hep).congr fun t => ?_
    have := hθW t k j hk.le
    rw [coefs, if_pos hk] at this
    exact this.symm
  have hbt : ∀ j, j < net.dim 1 → Tendsto (fun t => b t j) atTop (𝓝 (θl (net.dim 0) j)) := fun j hj => by
    refine ((l1 (net.dim 0) j (by omega) hj).comp hep).congr fun t => ?_
    have := hθW t (net.dim 0) j le_rfl
    rw [coefs, if_neg (lt_irrefl _)] at this
    exact this.symm
  refine ⟨W, b, θl, θl (net.dim 0), hW, hWt, hbt, fun i j hi hj => ?_, fun Ws bs hfit => ?_, fun V i j hj => ?_⟩
  · have h1 := l2 i j hi hj
    have h2 := resid_coefs (net.dim 0) θl (θl (net.dim 0)) A B i j
    have h3 : resid (net.dim 0 + 1) (augIn (net.dim 0) A) B (coefs (net.dim 0) θl (θl (net.dim 0))) i j = resid (net.dim 0 + 1) (augIn (net.dim 0) A) B θl i j := by
      unfold resid
      congr 1
      exact sum_congr rfl fun k hk => by rw [hcl k j (mem_range.1 hk)]
    rw [h3, h1] at h2
    linarith
  · have h1 := l3 _ (hz Ws bs hfit)
    have e1 : sqDist (net.dim 1) (net.dim 0 + 1) (coefs (net.dim 0) (net.L 0).W (net.L 0).b) θl =
        sqDist (net.dim 1) (net.dim 0 + 1) (coefs (net.dim 0) (net.L 0).W (net.L 0).b) (coefs (net.dim 0) θl (θl (net.dim 0))) :=
      sum_congr rfl fun k hk => sum_congr rfl fun j _ => by rw [hcl k j (mem_range.1 hk)]
    have e2 : sqDist (net.dim 1) (net.dim 0 + 1) θl (coefs (net.dim 0) Ws bs) =
        sqDist (net.dim 1) (net.dim 0 + 1) (coefs (net.dim 0) θl (θl (net.dim 0))) (coefs (net.dim 0) Ws bs) :=
      sum_congr rfl fun k hk => sum_congr rfl fun j _ => by rw [hcl k j (mem_range.1 hk)]
    rw [e1, e2, sqDist_coefs, sqDist_coefs, sqDist_coefs] at h1
    exact h1
  · unfold linPred
    exact (tendsto_finsetSum _ fun k hk => (hWt k j (mem_range.1 hk) hj).const_mul _).add (hbt j hj)

/-- C156: from zero weights and biases (a model on which InitLayers was not called), the limit is the exact solution with the least sum of squares of
weights and biases, and the only one. -/
theorem C156_least (w : World ℝ) (m : Model ℝ) (net : Net ℝ) (op : Nat → Nat) (S : Nat → OptSpec ℝ) (hT : IsTask w m net op S)
    (hs : net.size = 1) (hk : (net.L 0).kind = .linear) (hl : m.loss = some ⟨.mse, net.dim 1⟩) (lr : ℝ)
    (hS : (S 0).kind = .sgd ∧ (S 0).momentum = 0 ∧ (S 0).decay = 0 ∧ (S 0).lr = lr) (X Y xv yv : Mat) (r : Nat) (A B : Nat → Nat → ℝ)
    (hX : IsData w net X r (net.dim 0) A) (hY : IsData w net Y r (net.dim 1) B) (bsz : Nat) (hbig : r + bsz ≤ 2 ^ 53) (h0 : 0 < lr)
    (hlr : ∀ q ∈ blocks r bsz, lr * ((∑ i ∈ range q.2, (1 + ∑ k ∈ range (net.dim 0), A (q.1 + i) k ^ 2)) / (net.dim 1 : ℝ)) ≤ 1 / 2)
    (hW0 : ∀ k j, k < net.dim 0 → j < net.dim 1 → (net.L 0).W k j = 0) (hb0 : ∀ j, j < net.dim 1 → (net.L 0).b j = 0)
    (Ws : Nat → Nat → ℝ) (bs : Nat → ℝ) (hfit : ∀ i j, i < r → j < net.dim 1 → linPred (net.dim 0) Ws bs A i j = B i j)
    (hmin : ∀ (W' : Nat → Nat → ℝ) (b' : Nat → ℝ), (∀ i j, i < r → j < net.dim 1 → linPred (net.dim 0) W' b' A i j = B i j) →
      ∑ k ∈ range (net.dim 0), ∑ j ∈ range (net.dim 1), Ws k j ^ 2 + ∑ j ∈ range (net.dim 1), bs j ^ 2 ≤
        ∑ k ∈ range (net.dim 0), ∑ j ∈ range (net.dim 1), W' k j ^ 2 + ∑ j ∈ range (net.dim 1), b' j ^ 2) :
    ∃ (W : Nat → Nat → Nat → ℝ) (b : Nat → Nat → ℝ),
      (∀ t : Nat, wp (fit m X Y t bsz xv yv 0) w (fun e w' => e = none ∧ ∃ net' S', IsTask w' m net' op S' ∧ SameShape net net' ∧
        net'.L 0 = { net.L 0 with W := W t, b := b t } ∧ ∀ (n : Nat) (V : Nat → Nat → ℝ), NetComputes net' n V (linPred (net.dim 0) (W t) (b t) V))) ∧
      (∀ k j, k < net.dim 0 → j < net.dim 1 → Tendsto (fun t => W t k j) atTop (𝓝 (Ws k j))) ∧
      ∀ j, j < net.dim 1 → Tendsto (fun t => b t j) atTop (𝓝 (bs j)) := by
  obtain ⟨W, b, Wl, bl, h1, h2, h3, h4, h5, -⟩ := C156_nearest w m net op S hT hs hk hl lr hS X Y xv yv r A B hX hY bsz hbig h0 hlr ⟨Ws, bs, hfit⟩
  have hd : ∀ (W' : Nat → Nat → ℝ) (b' : Nat → ℝ), parDist (net.dim 0) (net.dim 1) (net.L 0).W W' (net.L 0).b b' =
      ∑ k ∈ range (net.dim 0), ∑ j ∈ range (net.dim 1), W' k j ^ 2 + ∑ j ∈ range (net.dim 1), b' j ^ 2 := fun W' b' => by
    unfold parDist
    congr 1
    · exact sum_congr rfl fun k hk => sum_congr rfl fun j hj => by rw [hW0 k j (mem_range.1 hk) (mem_range.1 hj), zero_sub, neg_sq]
    · exact sum_congr rfl fun j hj => by rw [hb0 j (mem_range.1 hj), zero_sub, neg_sq]
  have h6 := h5 Ws bs hfit
  rw [hd, hd] at h6
  have h7 := hmin Wl bl h4
  have hA : 0 ≤ ∑ k ∈ range (net.dim 0), ∑ j ∈ range (net.dim 1), (Wl k j - Ws k j) ^ 2 := sum_nonneg fun _ _ => sum_nonneg fun _ _ => sq_nonneg _
  have hB : 0 ≤ ∑ j ∈ range (net.dim 1), (bl j - bs j) ^ 2 := sum_nonneg fun _ _ => sq_nonneg _
  unfold parDist at h6
  have hA0 : ∑ k ∈ range (net.dim 0), ∑ j ∈ range (net.dim 1), (Wl k j - Ws k j) ^ 2 = 0 := by linarith
  have hB0 : ∑ j ∈ range (net.dim 1), (bl j - bs j) ^ 2 = 0 := by linarith
  refine ⟨W, b, h1, fun k j hk hj => ?_, fun j hj => ?_⟩
  · have a1 := (sum_eq_zero_iff_of_nonneg fun _ _ => sum_nonneg fun _ _ => sq_nonneg _).1 hA0 k (mem_range.2 hk)
    have a2 := (sum_eq_zero_iff_of_nonneg fun _ _ => sq_nonneg _).1 a1 j (mem_range.2 hj)
    rw [← sub_eq_zero.1 (pow_eq_zero_iff two_ne_zero |>.1 a2)]
    exact h2 k j hk hj
  · have a2 := (sum_eq_zero_iff_of_nonneg fun _ _ => sq_nonneg _).1 hB0 j (mem_range.2 hj)
    rw [← sub_eq_zero.1 (pow_eq_zero_iff two_ne_zero |>.1 a2)]
    exact h3 j hj

/-- A linear layer with two inputs and one output, and zero parameters (followed, in the list of layers, by layers with one input). -/
noncomputable def nullPair (i : Nat) : LayerSpec ℝ := ⟨.linear, if i = 0 then 2 else 1, 1, fun _ _ => 0, fun _ => 0, 0, 0⟩

/-- C156_nearest, C156_least: a linear layer with two inputs, one output and zero parameters; two samples (1, 1) ↦ 3 and (-1, -1) ↦ -3 in batches of
one, learning rate 1/10.  Weights (3, 0) and (0, 3) fit exactly, and the least exact solution is (3/2, 3/2), with bias 0. -/
example : ∃ (w : World ℝ) (m : Model ℝ) (net : Net ℝ) (op : Nat → Nat) (S : Nat → OptSpec ℝ) (X Y : Mat) (A B Ws W2 : Nat → Nat → ℝ) (bs : Nat → ℝ),
    IsTask w m net op S ∧ net.size = 1 ∧ (net.L 0).kind = .linear ∧ m.loss = some ⟨.mse, net.dim 1⟩ ∧
    ((S 0).kind = .sgd ∧ (S 0).momentum = 0 ∧ (S 0).decay = 0 ∧ (S 0).lr = 1 / 10) ∧ IsData w net X 2 (net.dim 0) A ∧
    IsData w net Y 2 (net.dim 1) B ∧ 2 + 1 ≤ 2 ^ 53 ∧
    (∀ q ∈ blocks 2 1, (1 / 10 : ℝ) * ((∑ i ∈ range q.2, (1 + ∑ k ∈ range (net.dim 0), A (q.1 + i) k ^ 2)) / (net.dim 1 : ℝ)) ≤ 1 / 2) ∧
    (∀ k j, k < net.dim 0 → j < net.dim 1 → (net.L 0).W k j = 0) ∧ (∀ j, j < net.dim 1 → (net.L 0).b j = 0) ∧
    (∀ i j, i < 2 → j < net.dim 1 → linPred (net.dim 0) Ws bs A i j = B i j) ∧
    (∀ i j, i < 2 → j < net.dim 1 → linPred (net.dim 0) W2 bs A i j = B i j) ∧ Ws 0 0 ≠ W2 0 0 ∧
    ∀ (W' : Nat → Nat → ℝ) (b' : Nat → ℝ), (∀ i j, i < 2 → j < net.dim 1 → linPred (net.dim 0) W' b' A i j = B i j) →
      ∑ k ∈ range (net.dim 0), ∑ j ∈ range (net.dim 1), Ws k j ^ 2 + ∑ j ∈ range (net.dim 1), bs j ^ 2 ≤
        ∑ k ∈ range (net.dim 0), ∑ j ∈ range (net.dim 1), W' k j ^ 2 + ∑ j ∈ range (net.dim 1), b' j ^ 2 := by
  obtain ⟨o, ho⟩ := sgd_ok_real (lr := 1 / 10) (decay := 0) (mom := 0) (by norm_num) le_rfl le_rfl
  have hrows : o.weightMomentums.rows = 0 := by rw [newSGD_ok ho]; rfl
  obtain ⟨w, net, op, XM, YM, xM, yM, -, hs, hL, hdim, hT, dX, dY, -, -⟩ := exists_task (emptyWorld : World ℝ) 1 Nat.one_pos
    nullPair (fun i => by
      refine ⟨?_, Nat.one_pos⟩
      show 0 < if i = 0 then 2 else 1
      split <;> decide) (fun i => (if_neg (Nat.succ_ne_zero i) : (if i + 1 = 0 then 2 else 1) = 1).symm)
    { newModel with loss := some ⟨.mse, 1⟩, lossType := 0 } o
    (OptSpec.fresh o) hrows (fun w p i hlt e => e ▸ isOpt_newSGD _ _ _ _ hlt (e.symm ▸ ho)) (r := 2) (r' := 1) (by decide) Nat.one_pos
    (fun i _ => 1 - 2 * (i : ℝ)) (fun i _ => 3 - 6 * (i : ℝ)) (fun _ _ => 0) (fun _ _ => 0)
  have d0 : net.dim 0 = 2 := by rw [hdim]; rfl
  have d1 : net.dim 1 = 1 := by rw [hdim]; rfl
  refine ⟨w, _, net, op, _, XM, YM, fun i _ => 1 - 2 * (i : ℝ), fun i _ => 3 - 6 * (i : ℝ), fun _ _ => 3 / 2, fun k _ => if k = 0 then 3 else 0, fun _ => 0,
    hT, hs, by rw [hL]; rfl, by rw [d1]; rfl, ?_, ?_, ?_, by norm_num, ?_, fun k j _ _ => by rw [hL]; rfl, fun j _ => by rw [hL]; rfl, ?_, ?_, ?_, ?_⟩
  · rw [newSGD_ok ho]; exact ⟨rfl, rfl, rfl, rfl⟩
  · rw [d0]; exact dX
  · rw [d1]; exact dY
  · rw [d0, d1]
    intro q hq
    have : blocks 2 1 = [(0, 1), (1, 1)] := by decide
    rw [this] at hq
    simp only [List.mem_cons, List.not_mem_nil, or_false] at hq
    rcases hq with rfl | rfl <;> norm_num [sum_range_succ]
  · rw [d0]
    intro i j _ _
    unfold linPred
    norm_num [sum_range_succ]
    ring
  · rw [d0]
    intro i j _ _
    unfold linPred
    norm_num [sum_range_succ]
    ring
  · norm_num
  · rw [d0, d1]
    intro W' b' h
    have a := h 0 0 (by decide) (by decide)
    have c := h 1 0 (by decide) (by decide)
    unfold linPred at a c
    norm_num [sum_range_succ] at a c ⊢
    have hb : b' 0 = 0 := by linarith
    have hw : W' 1 0 = 3 - W' 0 0 := by linarith
    rw [hb, hw]
    nlinarith [sq_nonneg (W' 0 0 - 3 / 2)]

end NN
