import Verif.Props.C157
import Verif.Real.NoisyLimit
/- C159: mini-batch SGD on linear regression with noise: it tends to a limit, forgets its start, and need not find the least-squares solution. -/

set_option linter.unusedSectionVars false

namespace NN
open Go Finset Filter Topology

/-- A model with one linear layer of p inputs and c outputs, plain SGD with the rate lr and the squared error, and the data (A, B) of r samples in X
and Y. -/
structure LinTask (p c r : Nat) (lr : ℝ) (A B : Nat → Nat → ℝ) (w : World ℝ) (m : Model ℝ) (net : Net ℝ) (op : Nat → Nat) (S : Nat → OptSpec ℝ)
    (X Y : Mat) : Prop where
  task : IsTask w m net op S
  size : net.size = 1
  ins : net.dim 0 = p
  outs : net.dim 1 = c
  kind : (net.L 0).kind = .linear
  loss : m.loss = some ⟨.mse, c⟩
  opt : (S 0).kind = .sgd ∧ (S 0).momentum = 0 ∧ (S 0).decay = 0 ∧ (S 0).lr = lr
  xs : IsData w net X r p A
  ys : IsData w net Y r c B

/-- `Fit` for t epochs with batches of bsz samples succeeds, and the model computes xW + b afterwards; nothing else about it changes. -/
def FitsTo (w : World ℝ) (m : Model ℝ) (net : Net ℝ) (op : Nat → Nat) (X Y xv yv : Mat) (bsz t : Nat) (W : Nat → Nat → ℝ) (b : Nat → ℝ) : Prop :=
  wp (fit m X Y t bsz xv yv 0) w (fun e w' => e = none ∧ ∃ net' S', IsTask w' m net' op S' ∧ SameShape net net' ∧
    net'.L 0 = { net.L 0 with W := W, b := b } ∧ ∀ (n : Nat) (V : Nat → Nat → ℝ), NetComputes net' n V (linPred (net.dim 0) W b V))

/-- The learning rate is at most c/(2 Σ(1 + |x|²)) for every batch (as in C122). -/
def RateOk (p c r bsz : Nat) (A : Nat → Nat → ℝ) (lr : ℝ) : Prop :=
  ∀ s ∈ blocks r bsz, lr * ((∑ i ∈ range s.2, (1 + ∑ k ∈ range p, A (s.1 + i) k ^ 2)) / (c : ℝ)) ≤ 1 / 2

theorem LinTask.run {p c r : Nat} {lr : ℝ} {A B : Nat → Nat → ℝ} {w : World ℝ} {m : Model ℝ} {net : Net ℝ} {op : Nat → Nat} {S : Nat → OptSpec ℝ}
    {X Y : Mat} (h : LinTask p c r lr A B w m net op S X Y) (xv yv : Mat) (bsz : Nat) (hbig : r + bsz ≤ 2 ^ 53) (t : Nat) :
    ∃ W b, FitsTo w m net op X Y xv yv bsz t W b ∧ ∀ k j, k ≤ p → coefs p W b k j =
      lsqBatchIter c (p + 1) (augIn p A) B (blocks r bsz).length (batchNo r bsz) lr (coefs p (net.L 0).W (net.L 0).b) (t * (blocks r bsz).length) k j := by
  obtain ⟨hT, hs, hp, hc, hk, hl, hS, hX, hY⟩ := h
  subst hp hc
  exact fit_lsqIter w m net op S hT hs hk hl lr hS X Y xv yv r A B hX hY bsz hbig t

theorem coefs_split (p : Nat) (θ : Nat → Nat → ℝ) {k : Nat} (j : Nat) (hk : k < p + 1) : coefs p θ (θ p) k j = θ k j := by
  unfold coefs
  split
  · rfl
  · rw [show k = p by omega]

theorem parDist_coefs (p c : Nat) (W W' : Nat → Nat → ℝ) (b b' : Nat → ℝ) : parDist p c W W' b b' = sqDist c (p + 1) (coefs p W b) (coefs p W' b') :=
  (sqDist_coefs c p W W' b b').symm

theorem sqDist_congr_left {c p : Nat} {θ1 θ2 : Nat → Nat → ℝ} (θ : Nat → Nat → ℝ) (h : ∀ k j, k < p → j < c → θ1 k j = θ2 k j) :
    sqDist c p θ1 θ = sqDist c p θ2 θ :=
  sum_congr rfl fun k hk => sum_congr rfl fun j hj => by rw [h k j (mem_range.1 hk) (mem_range.1 hj)]

/-- C159: two models with one linear layer that are trained on the same data (exactly fittable or not) with plain SGD, the squared error, the same batch
size and the same learning rate within the bound: whatever their initial weights, training never moves them apart.  If moreover the inputs determine the
parameters (only zero weights and biases give the prediction 0 for every sample), then with each epoch the squared distance between the two shrinks at
least by a factor q < 1 that depends only on the inputs, the batch size and the learning rate: the start is forgotten. -/
theorem C159_forget (p c r bsz : Nat) (A : Nat → Nat → ℝ) (lr : ℝ) (hc : 0 < c) (hr : 0 < r) (hbig : r + bsz ≤ 2 ^ 53) (h0 : 0 < lr)
    (hlr : RateOk p c r bsz A lr) : ∃ q : ℝ, 0 ≤ q ∧ q < 1 ∧
    ∀ (B : Nat → Nat → ℝ) (w1 w2 : World ℝ) (m1 m2 : Model ℝ) (net1 net2 : Net ℝ) (op1 op2 : Nat → Nat) (S1 S2 : Nat → OptSpec ℝ)
      (X1 Y1 X2 Y2 xv yv : Mat), LinTask p c r lr A B w1 m1 net1 op1 S1 X1 Y1 → LinTask p c r lr A B w2 m2 net2 op2 S2 X2 Y2 →
      ∃ (W1 W2 : Nat → Nat → Nat → ℝ) (b1 b2 : Nat → Nat → ℝ),
        (∀ t, FitsTo w1 m1 net1 op1 X1 Y1 xv yv bsz t (W1 t) (b1 t)) ∧ (∀ t, FitsTo w2 m2 net2 op2 X2 Y2 xv yv bsz t (W2 t) (b2 t)) ∧
        (∀ t, parDist p c (W1 t) (W2 t) (b1 t) (b2 t) ≤ parDist p c (net1.L 0).W (net2.L 0).W (net1.L 0).b (net2.L 0).b) ∧
        ((∀ (V : Nat → Nat → ℝ) (v : Nat → ℝ), (∀ i j, i < r → j < c → linPred p V v A i j = 0) →
            (∀ k j, k < p → j < c → V k j = 0) ∧ ∀ j, j < c → v j = 0) →
          ∀ t, parDist p c (W1 t) (W2 t) (b1 t) (b2 t) ≤ q ^ t * parDist p c (net1.L 0).W (net2.L 0).W (net1.L 0).b (net2.L 0).b) := by
  have hmb := blocks_pos (b := bsz) hr
  have hle : ∀ s, s < (blocks r bsz).length → (batchNo r bsz s).1 + (batchNo r bsz s).2 ≤ r := fun s hs => blocks_le r bsz _ (batchNo_mem hs)
  have hρ : ∀ s, s < (blocks r bsz).length → lr * ((∑ i ∈ range (batchNo r bsz s).2, ∑ k ∈ range (p + 1),
      augIn p A ((batchNo r bsz s).1 + i) k ^ 2) / (c : ℝ)) ≤ 1 / 2 := fun s hs => by
    simp only [aug_sq_row]
    exact hlr _ (batchNo_mem hs)
  obtain ⟨q, q0, q1, hq⟩ := lsqBatchIter_contract (c := c) (p := p + 1) (augIn p A) (batchNo r bsz) hc hmb hle h0 (fun Y => lsq_batches r bsz _ _ _ Y) hρ
  refine ⟨q, q0, q1, ?_⟩
  intro B w1 w2 m1 m2 net1 net2 op1 op2 S1 S2 X1 Y1 X2 Y2 xv yv h1 h2
  choose W1 b1 f1 e1 using fun t => h1.run xv yv bsz hbig t
  choose W2 b2 f2 e2 using fun t => h2.run xv yv bsz hbig t
  have hd : ∀ t, parDist p c (W1 t) (W2 t) (b1 t) (b2 t) = sqDist c (p + 1)
      (lsqBatchIter c (p + 1) (augIn p A) B (blocks r bsz).length (batchNo r bsz) lr (coefs p (net1.L 0).W (net1.L 0).b) (t * (blocks r bsz).length))
      (lsqBatchIter c (p + 1) (augIn p A) B (blocks r bsz).length (batchNo r bsz) lr (coefs p (net2.L 0).W (net2.L 0).b) (t * (blocks r bsz).length)) :=
    fun t => by
      rw [parDist_coefs, sqDist_congr_right _ fun k j hk _ => e2 t k j (by omega), sqDist_congr_left _ fun k j hk _ => e1 t k j (by omega)]
  refine ⟨W1, W2, b1, b2, f1, f2, fun t => ?_, fun hdet t => ?_⟩
  · rw [hd, parDist_coefs]
    exact lsqBatchIter_nonexp (augIn p A) B (batchNo r bsz) hmb hle h0 hρ _ _ _
  · rw [hd, parDist_coefs]
    refine hq B _ _ (fun Δ hΔ => ?_) t
    have hz := hdet Δ (Δ p) fun i j hi hj => by
      have := resid_coefs p Δ (Δ p) A (fun _ _ => 0) i j
      rw [sub_zero] at this
      rw [← this]
      refine Eq.trans ?_ (hΔ i j hi hj)
      unfold resid
      rw [sub_zero]
      exact sum_congr rfl fun k hk => by rw [coefs_split p Δ j (mem_range.1 hk)]
    refine sum_eq_zero fun k hk => sum_eq_zero fun j hj => ?_
    have : Δ k j = 0 := by
      rcases lt_or_eq_of_le (Nat.lt_succ_iff.1 (mem_range.1 hk)) with h | rfl
      · exact hz.1 k j h (mem_range.1 hj)
      · exact hz.2 j (mem_range.1 hj)
    rw [this, mul_zero]

/-- C159: in the situation of C159_forget, for all data: as the number of epochs grows, the weights and biases tend to limits (Wl, bl), the squared
distance to them being after t epochs at most qᵗ times the initial one.  A model that starts at the limits is not changed by an epoch of training. -/
theorem C159_limit (p c r bsz : Nat) (A : Nat → Nat → ℝ) (lr : ℝ) (hc : 0 < c) (hr : 0 < r) (hbig : r + bsz ≤ 2 ^ 53) (h0 : 0 < lr)
    (hlr : RateOk p c r bsz A lr) : ∃ q : ℝ, 0 ≤ q ∧ q < 1 ∧
    ∀ (B : Nat → Nat → ℝ) (w : World ℝ) (m : Model ℝ) (net : Net ℝ) (op : Nat → Nat) (S : Nat → OptSpec ℝ) (X Y xv yv : Mat),
      LinTask p c r lr A B w m net op S X Y →
      ∃ (W : Nat → Nat → Nat → ℝ) (b : Nat → Nat → ℝ) (Wl : Nat → Nat → ℝ) (bl : Nat → ℝ),
        (∀ t, FitsTo w m net op X Y xv yv bsz t (W t) (b t)) ∧
        (∀ t, parDist p c (W t) Wl (b t) bl ≤ q ^ t * parDist p c (net.L 0).W Wl (net.L 0).b bl) ∧
        ∀ (w2 : World ℝ) (m2 : Model ℝ) (net2 : Net ℝ) (op2 : Nat → Nat) (S2 : Nat → OptSpec ℝ) (X2 Y2 : Mat),
          LinTask p c r lr A B w2 m2 net2 op2 S2 X2 Y2 → (∀ k j, k < p → j < c → (net2.L 0).W k j = Wl k j) → (∀ j, j < c → (net2.L 0).b j = bl j) →
          ∃ W2 b2, FitsTo w2 m2 net2 op2 X2 Y2 xv yv bsz 1 W2 b2 ∧ (∀ k j, k < p → j < c → W2 k j = Wl k j) ∧ ∀ j, j < c → b2 j = bl j := by
  have hmb := blocks_pos (b := bsz) hr
  have hle : ∀ s, s < (blocks r bsz).length → (batchNo r bsz s).1 + (batchNo r bsz s).2 ≤ r := fun s hs => blocks_le r bsz _ (batchNo_mem hs)
  have hρ : ∀ s, s < (blocks r bsz).length → lr * ((∑ i ∈ range (batchNo r bsz s).2, ∑ k ∈ range (p + 1),
      augIn p A ((batchNo r bsz s).1 + i) k ^ 2) / (c : ℝ)) ≤ 1 / 2 := fun s hs => by
    simp only [aug_sq_row]
    exact hlr _ (batchNo_mem hs)
  obtain ⟨q, q0, q1, hq⟩ := lsq_limit (c := c) (p := p + 1) (augIn p A) (batchNo r bsz) hc hmb hle h0 (fun Y => lsq_batches r bsz _ _ _ Y) hρ
  refine ⟨q, q0, q1, ?_⟩
  intro B w m net op S X Y xv yv h
  choose W b f e using fun t => h.run xv yv bsz hbig t
  obtain ⟨θl, l1, -, l2⟩ := hq B (coefs p (net.L 0).W (net.L 0).b)
  have hs : ∀ k j, k < p + 1 → j < c → θl k j = coefs p θl (θl p) k j := fun k j hk _ => (coefs_split p θl j hk).symm
  refine ⟨W, b, θl, θl p, f, fun t => ?_, ?_⟩
  · rw [parDist_coefs, parDist_coefs, ← sqDist_congr_right _ hs, ← sqDist_congr_right _ hs, sqDist_congr_left _ fun k j hk _ => e t k j (by omega)]
    exact l2 t
  · intro w2 m2 net2 op2 S2 X2 Y2 h2 hW hb
    obtain ⟨W2, b2, f2, e2⟩ := h2.run xv yv bsz hbig 1
    have h3 : sqDist c (p + 1) (coefs p W2 b2) θl ≤ 0 := by
      have := lsqBatchIter_nonexp (c := c) (augIn p A) B (batchNo r bsz) hmb hle h0 hρ (coefs p (net2.L 0).W (net2.L 0).b) θl (1 * (blocks r bsz).length)
      rw [sqDist_congr_left _ fun k j hk _ => (e2 k j (by omega)).symm, one_mul, sqDist_congr_right _ l1, sqDist_congr_right _ hs,
        sqDist_congr_right (coefs p (net2.L 0).W (net2.L 0).b) hs, ← parDist_coefs, ← parDist_coefs] at this
      rw [sqDist_congr_right _ hs, ← parDist_coefs]
      refine this.trans (le_of_eq ?_)
      unfold parDist
      rw [sum_eq_zero fun k hk => sum_eq_zero fun j hj => by rw [hW k j (mem_range.1 hk) (mem_range.1 hj), sub_self, zero_pow two_ne_zero],
        sum_eq_zero fun j hj => by rw [hb j (mem_range.1 hj), sub_self, zero_pow two_ne_zero], add_zero]
    refine ⟨W2, b2, f2, fun k j hk hj => ?_, fun j hj => ?_⟩
    · have := sqDist_eq_zero h3 (k := k) (j := j) (by omega) hj
      rwa [coefs, if_pos hk] at this
    · have := sqDist_eq_zero h3 (k := p) (j := j) (by omega) hj
      rwa [coefs, if_neg (lt_irrefl _)] at this

/-- C159: the limit need not be a least-squares solution.  Two samples with the input 0 and the outputs 0 and 1, in batches of one, with the learning
rate 1/10.  Whatever the initial weights, the prediction for the input 0 tends to 5/9, while 1/2 has the least squared error. -/
theorem C159_biased (w : World ℝ) (m : Model ℝ) (net : Net ℝ) (op : Nat → Nat) (S : Nat → OptSpec ℝ) (X Y xv yv : Mat)
    (h : LinTask 1 1 2 (1 / 10) (fun _ _ => 0) (fun i _ => (i : ℝ)) w m net op S X Y) :
    ∃ (W : Nat → Nat → Nat → ℝ) (b : Nat → Nat → ℝ), (∀ t, FitsTo w m net op X Y xv yv 1 t (W t) (b t)) ∧
      Tendsto (fun t => linPred 1 (W t) (b t) (fun _ _ => 0) 0 0) atTop (𝓝 (5 / 9)) ∧
      ((0 : ℝ) - 1 / 2) ^ 2 + (1 - 1 / 2) ^ 2 < (0 - 5 / 9) ^ 2 + (1 - 5 / 9) ^ 2 := by
  have hbl : blocks 2 1 = [(0, 1), (1, 1)] := by decide
  have hlen : (blocks 2 1).length = 2 := by rw [hbl]; rfl
  choose W b f e using fun t => h.run xv yv 1 (by norm_num) t
  refine ⟨W, b, f, ?_, by norm_num⟩
  set θ := coefs 1 (net.L 0).W (net.L 0).b
  set it := lsqBatchIter 1 2 (augIn 1 fun _ _ => 0) (fun i _ => (i : ℝ)) (blocks 2 1).length (batchNo 2 1) (1 / 10) θ with hit
  have b0 : batchNo 2 1 0 = (0, 1) := by unfold batchNo; rw [hbl]; rfl
  have b1 : batchNo 2 1 1 = (1, 1) := by unfold batchNo; rw [hbl]; rfl
  have hb : ∀ t, b t 0 = it (2 * t) 1 0 := fun t => by
    have := e t 1 0 le_rfl
    rw [coefs, if_neg (lt_irrefl _), hlen, Nat.mul_comm] at this
    rw [this, hit, hlen]
  have hstep : ∀ t, it (2 * t + 2) 1 0 = 16 / 25 * it (2 * t) 1 0 + 1 / 5 := fun t => by
    have s1 : it (2 * t + 1) 1 0 = 4 / 5 * it (2 * t) 1 0 := by
      rw [hit]
      show lsqBatchIter 1 2 _ _ _ _ _ _ (2 * t) 1 0 - bLsqGrad 1 2 _ _ (batchNo 2 1 (2 * t % (blocks 2 1).length)) _ 1 0 * (1 / 10) = _
      rw [hlen, Nat.mul_mod_right, b0]
      unfold bLsqGrad lsqGrad resid bRows augIn
      norm_num [sum_range_succ]
      ring
    have s2 : it (2 * t + 2) 1 0 = 4 / 5 * it (2 * t + 1) 1 0 + 1 / 5 := by
      rw [hit]
      show lsqBatchIter 1 2 _ _ _ _ _ _ (2 * t + 1) 1 0 - bLsqGrad 1 2 _ _ (batchNo 2 1 ((2 * t + 1) % (blocks 2 1).length)) _ 1 0 * (1 / 10) = _
      rw [hlen, show (2 * t + 1) % 2 = 1 by omega, b1]
      unfold bLsqGrad lsqGrad resid bRows augIn
      norm_num [sum_range_succ]
      ring
    rw [s2, s1]
    ring
  have hcl : ∀ t, b t 0 = 5 / 9 + (16 / 25) ^ t * (θ 1 0 - 5 / 9) := fun t => by
    induction t with
    | zero => rw [hb]; show θ 1 0 = _; ring
    | succ t ih =>
      rw [hb, show 2 * (t + 1) = 2 * t + 2 by ring, hstep, ← hb, ih]
      ring
  have hlim : Tendsto (fun t : Nat => 5 / 9 + (16 / 25 : ℝ) ^ t * (θ 1 0 - 5 / 9)) atTop (𝓝 (5 / 9 + 0 * (θ 1 0 - 5 / 9))) :=
    ((tendsto_pow_atTop_nhds_zero_of_lt_one (by norm_num) (by norm_num)).mul_const _).const_add _
  rw [zero_mul, add_zero] at hlim
  refine hlim.congr fun t => ?_
  unfold linPred
  rw [← hcl]
  simp

/-- C159_limit, C159_biased: a linear layer with one input and one output, weight 2 and bias 3, and the two samples of C159_biased.  C159_forget: the
samples (0, 0) and (1, 1) with the same layer, whose inputs 0 and 1 determine weight and bias. -/
example : RateOk 1 1 2 1 (fun _ _ => 0) (1 / 10) ∧ RateOk 1 1 2 1 (fun i _ => (i : ℝ)) (1 / 10) ∧
    (∃ w m net op S X Y, LinTask 1 1 2 (1 / 10) (fun _ _ => 0) (fun i _ => (i : ℝ)) w m net op S X Y ∧ (net.L 0).W 0 0 = 2 ∧ (net.L 0).b 0 = 3) ∧
    (∃ w m net op S X Y, LinTask 1 1 2 (1 / 10) (fun i _ => (i : ℝ)) (fun i _ => (i : ℝ)) w m net op S X Y) ∧
    ∀ (V : Nat → Nat → ℝ) (v : Nat → ℝ), (∀ i j, i < 2 → j < 1 → linPred 1 V v (fun i _ => (i : ℝ)) i j = 0) →
      (∀ k j, k < 1 → j < 1 → V k j = 0) ∧ ∀ j, j < 1 → v j = 0 := by
  have hbl : blocks 2 1 = [(0, 1), (1, 1)] := by decide
  have mk : ∀ A : Nat → Nat → ℝ, ∃ w m net op S X Y, LinTask 1 1 2 (1 / 10) A (fun i _ => (i : ℝ)) w m net op S X Y ∧ (net.L 0).W 0 0 = 2 ∧
      (net.L 0).b 0 = 3 := fun A => by
    obtain ⟨o, ho⟩ := sgd_ok_real (lr := 1 / 10) (decay := 0) (mom := 0) (by norm_num) le_rfl le_rfl
    have hrows : o.weightMomentums.rows = 0 := by rw [newSGD_ok ho]; rfl
    obtain ⟨w, net, op, XM, YM, xM, yM, -, hs, hL, hdim, hT, dX, dY, -, -⟩ := exists_task (emptyWorld : World ℝ) 1 Nat.one_pos
      (fun _ => ⟨.linear, 1, 1, fun _ _ => 2, fun _ => 3, 0, 0⟩) (fun i => ⟨Nat.one_pos, Nat.one_pos⟩) (fun i => rfl)
      { newModel with loss := some ⟨.mse, 1⟩, lossType := 0 } o
      (OptSpec.fresh o) hrows (fun w p i hlt e => e ▸ isOpt_newSGD _ _ _ _ hlt (e.symm ▸ ho)) (r := 2) (r' := 1) (by decide) Nat.one_pos
      A (fun i _ => (i : ℝ)) (fun _ _ => 0) (fun _ _ => 0)
    refine ⟨w, _, net, op, _, XM, YM, ⟨hT, hs, by rw [hdim], by rw [hdim], by rw [hL], rfl, ?_, dX, dY⟩, by rw [hL], by rw [hL]⟩
    rw [newSGD_ok ho]; exact ⟨rfl, rfl, rfl, rfl⟩
  refine ⟨?_, ?_, mk _, ?_, fun V v h => ?_⟩
  · intro s hs
    rw [hbl] at hs
    simp only [List.mem_cons, List.not_mem_nil, or_false] at hs
    rcases hs with rfl | rfl <;> norm_num
  · intro s hs
    rw [hbl] at hs
    simp only [List.mem_cons, List.not_mem_nil, or_false] at hs
    rcases hs with rfl | rfl <;> norm_num
  · obtain ⟨w, m, net, op, S, X, Y, h, -⟩ := mk fun i _ => (i : ℝ)
    exact ⟨w, m, net, op, S, X, Y, h⟩
  · have h1 := h 0 0 (by decide) (by decide)
    have h2 := h 1 0 (by decide) (by decide)
    unfold linPred at h1 h2
    norm_num at h1 h2
    rw [h1, add_zero] at h2
    refine ⟨fun k j hk hj => ?_, fun j hj => ?_⟩
    · obtain rfl : k = 0 := by omega
      obtain rfl : j = 0 := by omega
      exact h2
    · obtain rfl : j = 0 := by omega
      exact h1

end NN
