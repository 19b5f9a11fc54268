import Verif.Props.C111_C113
import Verif.Props.C76
import Verif.Props.C92
import Verif.Lemmas.ExamplesRun
import Verif.Real.SoftmaxBatches
/- C119–C121: mini-batch SGD with learning-rate decay on the cross-entropy of a softmax model converges, for every learning rate,
decay and batch size, and classifies separable data perfectly. -/

set_option linter.unusedSectionVars false

namespace NN
open Go Finset

/-- The learning rate of update number t. -/
noncomputable def decayRate (lr d : ℝ) (t : Nat) : ℝ := lr * (1 / (1 + d * (t : ℝ)))

/-- The state of gradient descent on a softmax layer after t updates on the batches bs 0, ..., bs (m-1) in turn. -/
structure BatchState (net : Net ℝ) (A : Nat → Nat → ℝ) (l : Nat → Nat) (mb : Nat) (bs : Nat → Nat × Nat) (lr d : ℝ) (t0 t : Nat) (net' : Net ℝ)
    (S' : Nat → OptSpec ℝ) : Prop where
  size : net'.size = 1
  dim : net'.dim = net.dim
  layer : ∃ W b, net'.L 0 = { net.L 0 with W := W, b := b } ∧ ∀ k j, k ≤ (net.L 0).n → j < (net.L 0).o → coefs (net.L 0).n W b k j =
    batchIter (net.L 0).o ((net.L 0).n + 1) (augIn (net.L 0).n A) l mb bs (fun q => decayRate lr d (t0 + q))
      (coefs (net.L 0).n (net.L 0).W (net.L 0).b) t k j
  opt : (S' 0).kind = .sgd ∧ (S' 0).momentum = 0 ∧ (S' 0).decay = d ∧ (S' 0).lr = lr ∧ (S' 0).t = t0 + t

theorem Descent.softBatches {m : Model ℝ} {u : Nat → ℝ} {A B : Nat → Nat → ℝ} {net : Net ℝ} {S : Nat → OptSpec ℝ} {p : Nat} {r : Nat}
    {lr d : ℝ} {t0 : Nat} (hs : net.size = 1) (hk : (net.L 0).kind = .softmax) (hm : m.lossType = 2) (l : Nat → Nat)
    (hB : ∀ i j, i < r → j < (net.L 0).o → B i j = oneHots l i j) (hd : d ≠ 0)
    (hS : (S 0).kind = .sgd ∧ (S 0).momentum = 0 ∧ (S 0).decay = d ∧ (S 0).lr = lr ∧ (S 0).t = t0) (mb : Nat) (hmb : 0 < mb) (bf : Nat → Nat × Nat)
    (hbf : ∀ s, s < mb → (bf s).1 + (bf s).2 ≤ r) (t : Nat) :
    ∀ {bs : List (Nat × Nat)} {net' : Net ℝ} {S' : Nat → OptSpec ℝ} {p' : Nat}, bs = (List.range t).map (fun q => bf (q % mb)) →
      Descent m .ce u A B net S p bs net' S' p' → BatchState net A l mb bf lr d t0 t net' S' := by
  induction t with
  | zero =>
    intro bs net' S' p' hb h
    cases h with
    | start => exact ⟨hs, rfl, ⟨_, _, rfl, fun _ _ _ _ => rfl⟩, hS⟩
    | step => simp at hb
  | succ t ih =>
    intro bs net' S' p' hb h
    rw [List.range_succ, List.map_append] at hb
    cases h with
    | start => simp at hb
    | @step bs0 b0 net1 _ S1 _ p1 hD0 hstep =>
      obtain ⟨e1, e2⟩ := List.append_inj' hb rfl
      obtain rfl : b0 = bf (t % mb) := by simpa using e2
      obtain ⟨i1, i2, ⟨W, b, i3, i4⟩, s1, s2, s3, s4, s5⟩ := ih e1 hD0
      obtain ⟨G, D, hG, rfl, rfl⟩ := hstep
      have hlast := hbf (t % mb) (Nat.mod_lt _ hmb)
      set q := bf (t % mb) with hq
      have hk1 : (net1.L 0).kind = .softmax := by rw [i3]; exact hk
      have hf : Fused m net1 := ⟨by rw [i1]; exact hk1, hm⟩
      obtain ⟨g1, -⟩ := hG.fused hf
      set n := (net.L 0).n with hn
      set c := (net.L 0).o with hc
      set a : Nat → ℝ := fun q => decayRate lr d (t0 + q) with ha
      set θ := batchIter c (n + 1) (augIn n A) l mb bf a (coefs n (net.L 0).W (net.L 0).b) t with hθ
      set Aq : Nat → Nat → ℝ := fun i j => A (q.1 + i) j with hAq
      have haug : bRows q (augIn n A) = augIn n Aq := rfl
      have hV : trainVals net1 q.2 (fun x => u (p1 + x)) Aq 1 = softPred n c W b Aq := by
        rw [trainVals_netOut _ _ _ _ (by intro k hk; obtain rfl : k = 0 := by omega
                                         rw [hk1]; decide)]
        show infer (net1.L 0) Aq = _
        rw [infer_softPred hk1, i3]
      have hsc : ∀ i j, j < c → score (n + 1) (augIn n Aq) θ i j = linPred n W b Aq i j := by
        intro i j hj
        rw [← score_coefs]
        unfold score
        refine sum_congr rfl fun k hk => ?_
        rw [i4 k j (by have := mem_range.1 hk; omega) hj]
      have hG0 : ∀ i j, i < q.2 → j < c → G 0 i j = pErr c (n + 1) (augIn n Aq) (fun i => l (q.1 + i)) θ i j / q.2 := by
        intro i j hi hj
        rw [i1] at g1
        rw [show G 0 = fusedGrad q.2 (trainVals net1 q.2 (fun x => u (p1 + x)) Aq 1) (fun i j => B (q.1 + i) j) from g1, hV]
        have hp : smaxP c (score (n + 1) (augIn n Aq) θ i) j = softPred n c W b Aq i j := by
          unfold smaxP softPred
          rw [hsc i j hj, sum_congr rfl fun k hk => by rw [hsc i k (mem_range.1 hk)]]
        unfold fusedGrad pErr
        have hBq : (fun i j => B (q.1 + i) j) i j = oneHots l (q.1 + i) j := hB (q.1 + i) j (by omega) hj
        rw [hp, hBq, oneHots]
        by_cases h : j = l (q.1 + i)
        · simp [h, Flt.one]
        · simp [h, Flt.one]
      have hrate : (S1 0).rate = a t := by
        unfold OptSpec.rate
        rw [s3, if_neg (by simpa [Flt.zero] using hd), s4, s5, ha]
        simp [decayRate, Flt.one]
      refine ⟨i1, i2, ?_, s1, s2, s3, s4, ?_⟩
      · refine ⟨(S1 0).newW (net1.L 0).W (gradW q.2 (trainVals net1 q.2 (fun x => u (p1 + x)) Aq 0) (G 0)),
          fun j => (S1 0).newB (fun _ j => (net1.L 0).b j) (gradB q.2 (G 0)) 0 j, ?_, fun k j hk hj => ?_⟩
        · unfold stepNet
          dsimp only
          rw [i3]
        · show _ = θ k j - bGrad c (n + 1) (augIn n A) l q θ k j * a t
          rw [← i4 k j hk hj]
          unfold bGrad smrGrad
          rw [haug]
          unfold coefs OptSpec.newW OptSpec.newB OptSpec.upd
          rw [s1, s2, hrate, i3]
          dsimp only
          by_cases hkn : k < n
          · rw [if_pos hkn, if_pos hkn, if_pos (by simp [Flt.zero])]
            have : gradW q.2 (trainVals net1 q.2 (fun x => u (p1 + x)) Aq 0) (G 0) k j = ∑ i ∈ range q.2, augIn n Aq i k *
                (pErr c (n + 1) (augIn n Aq) (fun i => l (q.1 + i)) θ i j / q.2) := by
              rw [gradW, fsum_real]
              refine sum_congr rfl fun i hi => ?_
              rw [hG0 i j (mem_range.1 hi) hj, augIn, if_pos hkn]
              rfl
            rw [this]
            rfl
          · rw [if_neg hkn, if_neg hkn, if_pos (by simp [Flt.zero])]
            have : gradB q.2 (G 0) 0 j = ∑ i ∈ range q.2, augIn n Aq i k *
                (pErr c (n + 1) (augIn n Aq) (fun i => l (q.1 + i)) θ i j / q.2) := by
              rw [gradB, fsum_real]
              refine sum_congr rfl fun i hi => ?_
              rw [hG0 i j (mem_range.1 hi) hj, augIn, if_neg hkn, one_mul]
            rw [this]
            rfl
      · show (S1 0).t + 1 = _
        rw [s5]
        omega

/-- The batches of k epochs, in one list. -/
theorem blocks_cyclic (bl : List (Nat × Nat)) (k : Nat) :
    (List.replicate k bl).flatten = (List.range (k * bl.length)).map fun q => bl.getD (q % bl.length) (0, 0) := by
  induction k with
  | zero => simp
  | succ k ih =>
    rw [List.replicate_succ', List.flatten_append, ih, Nat.succ_mul, List.range_add, List.map_append]
    congr 1
    rw [List.map_map]
    simp only [List.flatten_cons, List.flatten_nil, List.append_nil]
    refine List.ext_getElem (by simp) fun i h1 h2 => ?_
    simp only [List.getElem_map, List.getElem_range, Function.comp]
    rw [Nat.mul_comm, Nat.mul_add_mod, Nat.mod_eq_of_lt h1, List.getD_eq_getElem _ _ h1]

/-- A model with one softmax layer for `c` classes, trained on cross-entropy with SGD of rate `lr` with decay `d`, and r samples of the
classes `l`. -/
structure DecayTask (w : World ℝ) (m : Model ℝ) (net : Net ℝ) (op : Nat → Nat) (S : Nat → OptSpec ℝ) (lr d : ℝ) (X Y : Mat) (r : Nat)
    (A B : Nat → Nat → ℝ) (l : Nat → Nat) : Prop where
  task : IsTask w m net op S
  size : net.size = 1
  kind : (net.L 0).kind = .softmax
  loss : m.loss = some ⟨.ce, net.dim 1⟩
  lossType : m.lossType = 2
  opt : (S 0).kind = .sgd ∧ (S 0).momentum = 0 ∧ (S 0).decay = d ∧ (S 0).lr = lr
  inputs : IsData w net X r (net.dim 0) A
  targets : IsData w net Y r (net.dim 1) B
  labels : ∀ i, i < r → l i < net.dim 1
  oneHot : ∀ i j, i < r → j < net.dim 1 → B i j = oneHots l i j
  pos : 0 < lr
  decays : 0 < d

/-- The s-th batch. -/
def batchNo (r b s : Nat) : Nat × Nat := (blocks r b).getD s (0, 0)

theorem batchNo_mem {r b s : Nat} (hs : s < (blocks r b).length) : batchNo r b s ∈ blocks r b := by
  unfold batchNo
  rw [List.getD_eq_getElem _ _ hs]
  exact List.getElem_mem hs

/-- The run of Fit, and the coefficients it ends with. -/
theorem DecayTask.run {w : World ℝ} {m : Model ℝ} {net : Net ℝ} {op : Nat → Nat} {S : Nat → OptSpec ℝ} {lr d : ℝ} {X Y : Mat} {r : Nat}
    {A B : Nat → Nat → ℝ} {l : Nat → Nat} (h : DecayTask w m net op S lr d X Y r A B l) (xv yv : Mat) (bsz : Nat) (hbig : r + bsz ≤ 2 ^ 53) (t : Nat) :
    wp (fit m X Y t bsz xv yv 0) w (fun e w' => e = none ∧ ∃ net' S' W b, IsTask w' m net' op S' ∧ SameShape net net' ∧ net'.size = 1 ∧
      net'.dim = net.dim ∧ (net'.L 0).kind = .softmax ∧ IsMat w' X r (net.dim 0) A ∧ IsMat w' Y r (net.dim 1) B ∧
      (∀ A', netOut net' A' net'.size = softPred (net.dim 0) (net.dim 1) W b A') ∧ ∀ k j, k ≤ net.dim 0 → j < net.dim 1 →
        coefs (net.dim 0) W b k j = batchIter (net.dim 1) (net.dim 0 + 1) (augIn (net.dim 0) A) l (blocks r bsz).length (batchNo r bsz)
          (fun q => decayRate lr d ((S 0).t + q)) (coefs (net.dim 0) (net.L 0).W (net.L 0).b) (t * (blocks r bsz).length) k j) := by
  have hs := h.size
  have hr : 0 < r := h.inputs.mat.rpos
  have hn : (net.L 0).n = net.dim 0 := h.task.isNet.ins 0 (by omega)
  have ho : (net.L 0).o = net.dim 1 := h.task.isNet.outs 0 (by omega)
  refine wp_mono (C70_fit w m net op S h.task (fun k hk' => by obtain rfl : k = 0 := by omega
                                                               rw [h.kind]; decide) _ h.loss (by rw [hs]) X Y xv yv r A B h.inputs.mat
    (by rw [hs]; exact h.targets.mat) h.inputs.cap h.targets.cap h.inputs.sep h.targets.sep t bsz hbig) ?_
  rintro e w' ⟨he, net', S', hD, hT', hsh, hX', hY', -⟩
  rw [hs] at hY'
  rw [Int.toNat_natCast] at hD
  obtain ⟨h1, h2, ⟨W1, b1, h3, h4⟩, -⟩ := Descent.softBatches hs h.kind h.lossType l (by rw [ho]; exact h.oneHot) h.decays.ne'
    ⟨h.opt.1, h.opt.2.1, h.opt.2.2.1, h.opt.2.2.2, rfl⟩ (blocks r bsz).length (blocks_pos hr) (batchNo r bsz)
    (fun s hs => blocks_le r bsz _ (batchNo_mem hs)) (t * (blocks r bsz).length) (blocks_cyclic _ _) hD
  have hk' : (net'.L 0).kind = .softmax := by rw [h3]; exact h.kind
  rw [hn, ho] at h4
  refine ⟨he, net', S', W1, b1, hT', hsh, h1, h2, hk', hX', hY', fun A' => ?_, h4⟩
  rw [h1]
  show infer (net'.L 0) A' = _
  rw [infer_softPred hk', h3, ← hn, ← ho]

/-- The cross-entropies of the batches, added up. -/
noncomputable def batchCE (r b c : Nat) (F B : Nat → Nat → ℝ) : ℝ :=
  ((blocks r b).map fun q => objective .ce q.2 c (fun i j => F (q.1 + i) j) (fun i j => B (q.1 + i) j)).sum

theorem sum_map_range {β : Type} (xs : List β) (d : β) (f : β → ℝ) : (xs.map f).sum = ∑ s ∈ range xs.length, f (xs.getD s d) := by
  induction xs with
  | nil => simp
  | cons x xs ih => rw [List.map_cons, List.sum_cons, ih, List.length_cons, sum_range_succ', add_comm]; simp

theorem batchCE_softPred {r bsz c n : Nat} (W : Nat → Nat → ℝ) (b : Nat → ℝ) (A B : Nat → Nat → ℝ) (l : Nat → Nat) (hl : ∀ i, i < r → l i < c)
    (hB : ∀ i j, i < r → j < c → B i j = oneHots l i j) :
    batchCE r bsz c (softPred n c W b A) B = ∑ s ∈ range (blocks r bsz).length, bLoss c (n + 1) (augIn n A) l (batchNo r bsz s) (coefs n W b) := by
  unfold batchCE
  rw [sum_map_range _ (0, 0)]
  refine sum_congr rfl fun s hs => ?_
  have hle := blocks_le r bsz _ (batchNo_mem (mem_range.1 hs))
  change objective .ce (batchNo r bsz s).2 c _ _ = _
  exact objective_softPred W b (fun i j => A ((batchNo r bsz s).1 + i) j) (fun i j => B ((batchNo r bsz s).1 + i) j) (fun i => l ((batchNo r bsz s).1 + i))
    (fun i hi => hl _ (by omega)) fun i j hi hj => hB _ j (by omega) hj

/-- With batches of equal size, this is a multiple of the cross-entropy of the whole data. -/
theorem batchCE_equal (s b c : Nat) (hb : 0 < b) (F B : Nat → Nat → ℝ) : batchCE (s * b) b c F B = s * objective .ce (s * b) c F B := by
  unfold batchCE objective
  rw [blocks_mul hb, List.map_map]
  have e : ∀ s : Nat, ((List.range s).map ((fun q : Nat × Nat => (∑ i ∈ range q.2, -Real.log (∑ j ∈ range c, F (q.1 + i) j * B (q.1 + i) j)) / (q.2 : ℝ)) ∘
      fun k => (k * b, b))).sum = (∑ i ∈ range (s * b), -Real.log (∑ j ∈ range c, F i j * B i j)) / b := by
    intro s
    induction s with
    | zero => simp
    | succ s ih =>
      rw [List.range_succ, List.map_append, List.sum_append, ih, Nat.succ_mul, sum_range_add]
      simp [add_div]
  have hbb : (0 : ℝ) < b := by exact_mod_cast hb
  rcases Nat.eq_zero_or_pos s with rfl | hs
  · simp
  · have hss : (0 : ℝ) < s := by exact_mod_cast hs
    refine (e s).trans ?_
    push_cast
    field_simp

theorem batchCE_whole (r c : Nat) (F B : Nat → Nat → ℝ) : batchCE r 0 c F B = objective .ce r c F B := by
  simp [batchCE, blocks]

theorem inputs_bounded (r p : Nat) (X : Nat → Nat → ℝ) : ∃ R : ℝ, ∀ i, i < r → ∑ k ∈ range p, X i k ^ 2 ≤ R :=
  ⟨∑ i ∈ range r, ∑ k ∈ range p, X i k ^ 2, fun i hi =>
    single_le_sum (f := fun i => ∑ k ∈ range p, X i k ^ 2) (fun _ _ => sum_nonneg fun _ _ => sq_nonneg _) (mem_range.2 hi)⟩

theorem DecayTask.converge {w : World ℝ} {m : Model ℝ} {net : Net ℝ} {op : Nat → Nat} {S : Nat → OptSpec ℝ} {lr d : ℝ} {X Y : Mat} {r : Nat}
    {A B : Nat → Nat → ℝ} {l : Nat → Nat} (h : DecayTask w m net op S lr d X Y r A B l) (bsz : Nat) (W : Nat → Nat → ℝ) (b : Nat → ℝ) {ε : ℝ} (hε : 0 < ε) :
    ∃ T : Nat, ∀ t, T ≤ t → ∑ s ∈ range (blocks r bsz).length, bLoss (net.dim 1) (net.dim 0 + 1) (augIn (net.dim 0) A) l (batchNo r bsz s)
      (batchIter (net.dim 1) (net.dim 0 + 1) (augIn (net.dim 0) A) l (blocks r bsz).length (batchNo r bsz)
          (fun q => decayRate lr d ((S 0).t + q)) (coefs (net.dim 0) (net.L 0).W (net.L 0).b) (t * (blocks r bsz).length)) ≤
        batchCE r bsz (net.dim 1) (softPred (net.dim 0) (net.dim 1) W b A) B + ε := by
  have hr : 0 < r := h.inputs.mat.rpos
  have hmb := blocks_pos (b := bsz) hr
  obtain ⟨R, hR⟩ := inputs_bounded r (net.dim 0 + 1) (augIn (net.dim 0) A)
  obtain ⟨a1, a2, a3, a4⟩ := decay_steps h.pos h.decays (S 0).t _ hmb
  rw [batchCE_softPred W b A B l h.labels h.oneHot]
  exact batchIter_converge (augIn (net.dim 0) A) l (batchNo r bsz) h.targets.mat.cpos hmb
    (fun s hs => ⟨(blocks_mem hr (batchNo_mem hs)).1, (blocks_mem hr (batchNo_mem hs)).2.1⟩) h.labels hR
    (fun q => decayRate lr d ((S 0).t + q)) a1 (fun t => (a2 t).le) a3 a4 (coefs (net.dim 0) (net.L 0).W (net.L 0).b) (coefs (net.dim 0) W b) hε

/-- C119: SGD with learning-rate decay on the cross-entropy of a softmax layer, for any batch size, any positive learning rate and any
positive decay.  The sum of the mean cross-entropies of the batches comes within any ε > 0 of the value for any weights W and biases b,
hence of the least possible value, after some number T of epochs and forever after. -/
theorem C119_converge (w : World ℝ) (m : Model ℝ) (net : Net ℝ) (op : Nat → Nat) (S : Nat → OptSpec ℝ) (lr d : ℝ) (X Y xv yv : Mat) (r : Nat)
    (A B : Nat → Nat → ℝ) (l : Nat → Nat) (h : DecayTask w m net op S lr d X Y r A B l) (bsz : Nat) (hbig : r + bsz ≤ 2 ^ 53)
    (W : Nat → Nat → ℝ) (b : Nat → ℝ) (ε : ℝ) (hε : 0 < ε) :
    ∃ T : Nat, ∀ t : Nat, T ≤ t → wp (fit m X Y t bsz xv yv 0) w (fun e w' => e = none ∧ ∃ net' S' F, IsTask w' m net' op S' ∧ SameShape net net' ∧
      NetComputes net' r A F ∧ batchCE r bsz (net.dim 1) F B ≤ batchCE r bsz (net.dim 1) (softPred (net.dim 0) (net.dim 1) W b A) B + ε) := by
  obtain ⟨T, hT⟩ := h.converge bsz W b hε
  refine ⟨T, fun t ht => wp_mono (h.run xv yv bsz hbig t) ?_⟩
  rintro e w' ⟨he, net', S', W1, b1, hT', hsh, h1, h2, hk', -, -, hout, h4⟩
  have hF := netComputes_netOut (net := net') (by intro k hk2; obtain rfl : k = 0 := by omega
                                                  rw [hk']; decide) r A
  rw [hout] at hF
  refine ⟨he, net', S', _, hT', hsh, hF, ?_⟩
  rw [batchCE_softPred W1 b1 A B l h.labels h.oneHot]
  refine le_trans (le_of_eq ?_) (hT t ht)
  refine sum_congr rfl fun s hs => ?_
  have hle := blocks_le r bsz _ (batchNo_mem (mem_range.1 hs))
  exact smr_congr _ _ (fun i hi => h.labels _ (by omega)) fun k j hk hj => h4 k j (by omega) hj

/-- C119 for batches of equal size (batch size 0, that is all rows, or a divisor of the number of rows): the mean cross-entropy of the
training data tends to the least possible value. -/
theorem C119_mean (w : World ℝ) (m : Model ℝ) (net : Net ℝ) (op : Nat → Nat) (S : Nat → OptSpec ℝ) (lr d : ℝ) (X Y xv yv : Mat) (r : Nat)
    (A B : Nat → Nat → ℝ) (l : Nat → Nat) (h : DecayTask w m net op S lr d X Y r A B l) (bsz : Nat) (hbig : r + bsz ≤ 2 ^ 53)
    (hdiv : bsz = 0 ∨ bsz ∣ r) (W : Nat → Nat → ℝ) (b : Nat → ℝ) (ε : ℝ) (hε : 0 < ε) :
    ∃ T : Nat, ∀ t : Nat, T ≤ t → wp (fit m X Y t bsz xv yv 0) w (fun e w' => e = none ∧ ∃ net' S' F, IsTask w' m net' op S' ∧ SameShape net net' ∧
      NetComputes net' r A F ∧
      objective .ce r (net.dim 1) F B ≤ objective .ce r (net.dim 1) (softPred (net.dim 0) (net.dim 1) W b A) B + ε) := by
  have hr : 0 < r := h.inputs.mat.rpos
  rcases Nat.eq_zero_or_pos bsz with rfl | hb
  · simpa only [batchCE_whole] using C119_converge w m net op S lr d X Y xv yv r A B l h 0 hbig W b ε hε
  · obtain ⟨s, rfl⟩ : ∃ s, r = s * bsz := by
      rcases hdiv with h | ⟨s, h⟩
      · omega
      · exact ⟨s, by rw [h, Nat.mul_comm]⟩
    have hs : 0 < s := Nat.pos_of_mul_pos_right hr
    have hss : (0 : ℝ) < s := by exact_mod_cast hs
    obtain ⟨T, hT⟩ := C119_converge w m net op S lr d X Y xv yv _ A B l h bsz hbig W b (s * ε) (by positivity)
    refine ⟨T, fun t ht => wp_mono (hT t ht) ?_⟩
    rintro e w' ⟨he, net', S', F, h1, h2, h3, h4⟩
    refine ⟨he, net', S', F, h1, h2, h3, ?_⟩
    rw [batchCE_equal _ _ _ hb, batchCE_equal _ _ _ hb, ← mul_add] at h4
    exact le_of_mul_le_mul_left h4 hss

/-- A trained softmax model that gives every sample a probability above 1/2 for its class: Predict returns the classes and
CalculateAccuracy returns 1. -/
theorem soft_perfect {w' : World ℝ} {m : Model ℝ} {net' : Net ℝ} {op : Nat → Nat} {S' : Nat → OptSpec ℝ} {X Y : Mat} {r n c : Nat}
    {A B : Nat → Nat → ℝ} {l : Nat → Nat} {W1 : Nat → Nat → ℝ} {b1 : Nat → ℝ} (hT' : IsTask w' m net' op S') (hloss : m.loss = some ⟨.ce, c⟩)
    (h1 : net'.size = 1) (hd0 : net'.dim 0 = n) (hd1 : net'.dim 1 = c) (hbig : c ≤ 2 ^ 53) (hacc : m.accType = 1)
    (hX' : IsMat w' X r n A) (hY' : IsMat w' Y r c B) (hl : ∀ i, i < r → l i < c) (hB : ∀ i j, i < r → j < c → B i j = oneHots l i j)
    (hout : ∀ A', netOut net' A' net'.size = softPred n c W1 b1 A') (hmaj : ∀ i, i < r → 1 / 2 < softPred n c W1 b1 A i (l i)) :
    wp (predict m X) w' (fun p w'' => p.2 = none ∧ IsMat w'' p.1 r 1 fun i _ => (l i : ℝ)) ∧
      wp (calculateAccuracy m X Y) w' (fun p _ => p = (1, none)) := by
  have hr : 0 < r := hX'.rpos
  have hrr : (0 : ℝ) < r := by exact_mod_cast hr
  have hbest : ∀ i, i < r → (bestCol (netOut net' A net'.size i) c).1 = l i := by
    intro i hi
    rw [hout]
    exact bestCol_softPred (hl i hi) (hmaj i hi)
  have hBe := behaves_self hT'.isNet hT'.pos hloss (by rw [h1, hd1]) (by rw [h1, hd1]; exact hbig) (Or.inr (Or.inl hacc))
  rw [h1, hd0, hd1] at hBe
  constructor
  · refine wp_mono (hBe.predict X r A hX') ?_
    rintro p w'' ⟨he2, -, hp, -⟩
    refine ⟨he2, (hp hacc).congr fun i j hi _ => ?_⟩
    rw [hbest i hi]
    simp
  · refine wp_mono (hBe.accuracy X Y ⟨r, A, B⟩ hX' hY') ?_
    rintro p w'' rfl
    congr 1
    unfold accOf
    rw [if_neg (by omega), if_pos hacc]
    have : rowsWith r (fun i => Flt.eq (B i (bestCol (netOut net' A net'.size i) c).1) Flt.one) = r := by
      unfold rowsWith
      rw [filter_true_of_mem, card_range]
      intro i hi
      have hi := mem_range.1 hi
      dsimp only
      rw [hbest i hi, hB i (l i) hi (hl i hi), oneHots, if_pos rfl]
      simp [Flt.one]
    dsimp only
    rw [this]
    simp [hrr.ne']

/-- every row is in some batch -/
theorem row_in_batch {r b i : Nat} (hi : i < r) : ∃ s, s < (blocks r b).length ∧ (batchNo r b s).1 ≤ i ∧ i < (batchNo r b s).1 + (batchNo r b s).2 := by
  have : i ∈ (blocks r b).flatMap fun p => List.range' p.1 p.2 := by rw [blocks_cover]; exact List.mem_range.2 hi
  obtain ⟨q, hq, h⟩ := List.mem_flatMap.1 this
  obtain ⟨s, hs, rfl⟩ := List.getElem_of_mem hq
  rw [List.mem_range'_1] at h
  refine ⟨s, hs, ?_⟩
  unfold batchNo
  rw [List.getD_eq_getElem _ _ hs]
  exact h

/-- C120: on linearly separable data, for any batch size, any positive learning rate and any positive decay: from some number T of epochs
on the model gives every training sample a probability above 1/2 for its class, Predict returns the classes, and CalculateAccuracy
(categorical) returns 1. -/
theorem C120_separable (w : World ℝ) (m : Model ℝ) (net : Net ℝ) (op : Nat → Nat) (S : Nat → OptSpec ℝ) (lr d : ℝ) (X Y xv yv : Mat) (r : Nat)
    (A B : Nat → Nat → ℝ) (l : Nat → Nat) (h : DecayTask w m net op S lr d X Y r A B l) (bsz : Nat) (hbig : r + bsz ≤ 2 ^ 53) (hacc : m.accType = 1)
    (hbc : net.dim 1 ≤ 2 ^ 53) (hsep : Separable (net.dim 0) (net.dim 1) r A l) :
    ∃ T : Nat, ∀ t : Nat, T ≤ t → wp (fit m X Y t bsz xv yv 0) w (fun e w' => e = none ∧
      (∃ net' F, IsNet w' m net' ∧ NetComputes net' r A F ∧ ∀ i, i < r → 1 / 2 < F i (l i)) ∧
      wp (predict m X) w' (fun p w'' => p.2 = none ∧ IsMat w'' p.1 r 1 fun i _ => (l i : ℝ)) ∧
      wp (calculateAccuracy m X Y) w' (fun p _ => p = (1, none))) := by
  have hr : 0 < r := h.inputs.mat.rpos
  have hrr : (0 : ℝ) < r := by exact_mod_cast hr
  set n := net.dim 0 with hn
  set c := net.dim 1 with hc
  have hcc : (1 : ℝ) ≤ c := by exact_mod_cast h.targets.mat.cpos
  set mb := (blocks r bsz).length with hmb
  have hmbp : 0 < mb := blocks_pos hr
  have hmbr : (0 : ℝ) < mb := by exact_mod_cast hmbp
  obtain ⟨Ws, bs, hm⟩ := hsep.margin
  set δ : ℝ := Real.log 2 / r with hδ
  have hδ0 : 0 < δ := div_pos (Real.log_pos (by norm_num)) hrr
  -- weights for which all batches have a small cross-entropy
  obtain ⟨s, hs0, hs1⟩ : ∃ s : ℝ, 0 ≤ s ∧ mb * ((c - 1) * Real.exp (-s)) < δ / 2 := by
    have hx : (0 : ℝ) < mb * c := by positivity
    refine ⟨2 * (mb * c) / δ, by positivity, ?_⟩
    have h1 := Real.add_one_le_exp (2 * (mb * c) / δ)
    have h2 : Real.exp (-(2 * (mb * c) / δ)) * Real.exp (2 * (mb * c) / δ) = 1 := by rw [← Real.exp_add, neg_add_cancel, Real.exp_zero]
    have h3 : Real.exp (-(2 * (mb * c) / δ)) * (2 * (mb * c) / δ + 1) ≤ 1 := by
      exact (mul_le_mul_of_nonneg_left h1 (Real.exp_pos _).le).trans h2.le
    have h4 := Real.exp_pos (-(2 * (mb * c) / δ))
    set E := Real.exp (-(2 * (mb * c) / δ))
    have h5 : E * (2 * (mb * c) / δ) < 1 := by nlinarith
    have h6 : E * (2 * (mb * c)) < δ := by
      rw [mul_div_assoc', div_lt_one hδ0] at h5
      exact h5
    have h7 : 0 < (mb : ℝ) * E := by positivity
    nlinarith
  obtain ⟨T, hT⟩ := h.converge bsz (fun k j => s * Ws k j) (fun j => s * bs j) (half_pos hδ0)
  rw [batchCE_softPred _ _ A B l h.labels h.oneHot] at hT
  have hsmall : ∑ q ∈ range mb, bLoss c (n + 1) (augIn n A) l (batchNo r bsz q) (coefs n (fun k j => s * Ws k j) fun j => s * bs j) < δ / 2 := by
    refine lt_of_le_of_lt ?_ hs1
    rw [show (mb : ℝ) * ((c - 1) * Real.exp (-s)) = ∑ _q ∈ range mb, (c - 1) * Real.exp (-s) by rw [sum_const, card_range, nsmul_eq_mul]]
    refine sum_le_sum fun q hq => ?_
    have hbm := blocks_mem hr (batchNo_mem (mem_range.1 hq))
    have e : (coefs n (fun k j => s * Ws k j) fun j => s * bs j) = fun k j => s * coefs n Ws bs k j := by
      funext k j
      unfold coefs
      split <;> rfl
    rw [e]
    refine smr_separable hbm.1 _ _ (fun i hi => h.labels _ (by omega)) _ (fun i j hi hj hne => ?_) hs0
    have := hm ((batchNo r bsz q).1 + i) j (by omega) hj hne
    rw [← score_coefs, ← score_coefs] at this
    exact this
  refine ⟨T, fun t ht => wp_mono (h.run xv yv bsz hbig t) ?_⟩
  rintro e w' ⟨he, net', S', W1, b1, hT', hsh, h1, h2, hk', hX', hY', hout, h4⟩
  have hF := netComputes_netOut (net := net') (by intro k hk2; obtain rfl : k = 0 := by omega
                                                  rw [hk']; decide) r A
  rw [hout] at hF
  have htot : ∑ q ∈ range mb, bLoss c (n + 1) (augIn n A) l (batchNo r bsz q) (coefs n W1 b1) < δ := by
    have := hT t ht
    have e : ∑ q ∈ range mb, bLoss c (n + 1) (augIn n A) l (batchNo r bsz q) (coefs n W1 b1) = _ := sum_congr rfl fun q hq => by
      have hle := blocks_le r bsz _ (batchNo_mem (mem_range.1 hq))
      exact smr_congr _ _ (fun i hi => h.labels _ (by omega)) fun k j hk hj => h4 k j (by omega) hj
    rw [e]
    exact lt_of_le_of_lt this (by linarith)
  have hmaj : ∀ i, i < r → 1 / 2 < softPred n c W1 b1 A i (l i) := by
    intro i hi
    obtain ⟨q, hq, hq1, hq2⟩ := row_in_batch (b := bsz) hi
    have hbm := blocks_mem hr (batchNo_mem hq)
    have hone : bLoss c (n + 1) (augIn n A) l (batchNo r bsz q) (coefs n W1 b1) < δ := by
      refine lt_of_le_of_lt ?_ htot
      refine single_le_sum (f := fun q => bLoss c (n + 1) (augIn n A) l (batchNo r bsz q) (coefs n W1 b1)) (fun q hq => ?_) (mem_range.2 hq)
      have hle := blocks_le r bsz _ (batchNo_mem (mem_range.1 hq))
      exact smr_nonneg _ _ _ _ _ (fun i hi => h.labels _ (by omega)) _
    have hδ2 : δ ≤ Real.log 2 / (batchNo r bsz q).2 := by
      refine div_le_div_of_nonneg_left (Real.log_nonneg (by norm_num)) (by exact_mod_cast hbm.1) ?_
      exact_mod_cast (by omega : (batchNo r bsz q).2 ≤ r)
    have := smr_correct (c := c) (p := n + 1) (bRows (batchNo r bsz q) (augIn n A)) (fun i => l ((batchNo r bsz q).1 + i))
      (fun i hi => h.labels _ (by omega)) (coefs n W1 b1) (lt_of_lt_of_le hone hδ2) (i := i - (batchNo r bsz q).1) (by omega)
    have e1 : (batchNo r bsz q).1 + (i - (batchNo r bsz q).1) = i := by omega
    rw [e1] at this
    rw [← smaxP_coefs]
    have e2 : score (n + 1) (bRows (batchNo r bsz q) (augIn n A)) (coefs n W1 b1) (i - (batchNo r bsz q).1) =
        score (n + 1) (augIn n A) (coefs n W1 b1) i := by
      funext j
      unfold score bRows
      rw [e1]
    rwa [e2] at this
  obtain ⟨p1, p2⟩ := soft_perfect hT' h.loss h1 (by rw [h2]) (by rw [h2]) hbc hacc hX' hY' h.labels h.oneHot hout hmaj
  exact ⟨he, ⟨net', _, hT'.isNet, hF, hmaj⟩, p1, p2⟩

/-- C121: the whole program.  Make a softmax model for linearly separable data, with random weights, and train it in batches of any size
with any positive learning rate and decay, for t epochs: whatever the random numbers, for all large enough t nothing fails, Predict
returns the class of every training sample, and CalculateAccuracy returns 1. -/
theorem C121_program (w : World ℝ) (n c : Nat) (hn : 0 < n) (hn2 : n ≤ 2 ^ 53) (hc2 : c ≤ 2 ^ 53) (lr d : ℝ) (o : Optim ℝ)
    (ho : newSGDOptimizer lr d 0 = (o, none)) (prec : ℝ) (hp : 0 ≤ prec) (X Y : Mat) (r : Nat) (A B : Nat → Nat → ℝ) (l : Nat → Nat)
    (hX : IsMat w X r n A) (hY : IsMat w Y r c B) (hcX : r ≤ X.m.cap) (hcY : r ≤ Y.m.cap) (bsz : Nat) (hbig : r + bsz ≤ 2 ^ 53)
    (hl : ∀ i, i < r → l i < c) (hB : ∀ i j, i < r → j < c → B i j = oneHots l i j) (h0 : 0 < lr) (hd : 0 < d) (hsep : Separable n c r A l) :
    ∃ T : Nat, ∀ t : Nat, T ≤ t → wp (trainNew (fun _ => ⟨.softmax, n, c, 0, 0⟩) 1 ⟨.ce, c⟩ o 1 prec X Y t bsz) w (fun p w' => p.2 = none ∧
      wp (predict p.1 X) w' (fun q w'' => q.2 = none ∧ IsMat w'' q.1 r 1 fun i _ => (l i : ℝ)) ∧
      wp (calculateAccuracy p.1 X Y) w' (fun q _ => q = (1, none))) := by
  have hc : 0 < c := hY.cpos
  have hmk := C71_make w (fun _ => (⟨.softmax, n, c, 0, 0⟩ : LayerArg ℝ)) (fun _ => by dsimp only; omega) 1 ⟨.ce, c⟩ (by dsimp only; omega)
    (by dsimp only; omega) o 1 prec
  obtain ⟨⟨m, e⟩, w1, hrun, hf, hiff, hm⟩ := wp_iff.1 hmk
  dsimp only at hiff hm
  obtain rfl : e = none := hiff.2 ⟨⟨fun i _ => ⟨by dsimp only; omega, by dsimp only; omega, (fun h => by cases h), (fun h => by cases h)⟩,
    fun i hi => by omega⟩, Nat.one_pos, rfl, by simpa [Flt.zero] using hp⟩
  obtain ⟨net, op, hM⟩ := hm rfl
  have hs0 := hM.start 0 hM.task.pos
  have d0 : net.dim 0 = n := by
    have h1 := hM.task.isNet.ins 0 hM.task.pos
    have h2 := hs0.2.1
    dsimp only at h2
    omega
  have d1 : net.dim 1 = c := by
    have h1 := hM.lossSize
    rw [hM.size] at h1
    dsimp only at h1
    omega
  have hT : DecayTask w1 m net op (fun _ => OptSpec.fresh (optFrom o)) lr d X Y r A B l := by
    refine ⟨hM.task, hM.size, hs0.1, by rw [hM.hasLoss, d1], hM.lossType, ?_, ⟨?_, hcX, fun x h1 h2 => ?_⟩, ⟨?_, hcY, fun x h1 h2 => ?_⟩,
      by rw [d1]; exact hl, by rw [d1]; exact hB, h0, hd⟩
    · rw [newSGD_ok ho]; exact ⟨rfl, rfl, rfl, rfl⟩
    · rw [d0]; exact hX.frame hf (fun h => h) (fun _ _ h => h)
    · have := hM.params x h1
      have := hX.isRow_lt ((hX.isRow_frame hf (fun h => h) x).1 h2)
      omega
    · rw [d1]; exact hY.frame hf (fun h => h) (fun _ _ h => h)
    · have := hM.params x h1
      have := hY.isRow_lt ((hY.isRow_frame hf (fun h => h) x).1 h2)
      omega
  obtain ⟨T, hT⟩ := C120_separable w1 m net op _ lr d X Y Mat.zero Mat.zero r A B l hT bsz hbig hM.accType (by rw [d1]; exact hc2)
    (by rw [d0, d1]; exact hsep)
  refine ⟨T, fun t ht => ?_⟩
  unfold trainNew
  refine wp_bind_ok hrun ?_
  dsimp only
  refine wp_bind_mono (hT t ht) ?_
  rintro e w2 ⟨rfl, -, h1, h2⟩
  exact wp_pure.2 ⟨rfl, h1, h2⟩

/-- Hypotheses of C119_converge, C119_mean and C120_separable: a softmax layer with two inputs and two outputs, four samples in batches of
two, learning rate 5, decay 1/10. -/
example : ∃ (w : World ℝ) (m : Model ℝ) (net : Net ℝ) (op : Nat → Nat) (S : Nat → OptSpec ℝ) (X Y : Mat) (A B : Nat → Nat → ℝ) (l : Nat → Nat),
    DecayTask w m net op S 5 (1 / 10) X Y 4 A B l ∧ 4 + 2 ≤ 2 ^ 53 ∧ 2 ∣ 4 ∧ m.accType = 1 ∧ net.dim 1 ≤ 2 ^ 53 ∧
      Separable (net.dim 0) (net.dim 1) 4 A l := by
  obtain ⟨o, ho⟩ := sgd_ok_real (lr := 5) (decay := 1 / 10) (mom := 0) (by norm_num) (by norm_num) le_rfl
  have hrows : o.weightMomentums.rows = 0 := by rw [newSGD_ok ho]; rfl
  obtain ⟨w, net, op, XM, YM, xM, yM, -, hs, hL, hdim, hT, dX, dY, -, -⟩ := exists_task (emptyWorld : World ℝ) 1 Nat.one_pos
    softUnit (fun _ => ⟨Nat.two_pos, Nat.two_pos⟩) (fun _ => rfl) { newModel with loss := some ⟨.ce, 2⟩, lossType := 2, accType := 1 } o
    (OptSpec.fresh o) hrows (fun w p i hlt e => e ▸ isOpt_newSGD _ _ _ _ hlt (e.symm ▸ ho)) (r := 4) (r' := 1) (by decide) Nat.one_pos
    (fun i _ => (i : ℝ)) (oneHots fun i => i / 2) (fun _ _ => 0) (fun _ _ => 0)
  have d0 : net.dim 0 = 2 := by rw [hdim]; rfl
  have d1 : net.dim 1 = 2 := by rw [hdim]; rfl
  refine ⟨w, _, net, op, _, XM, YM, fun i _ => (i : ℝ), oneHots fun i => i / 2, fun i => i / 2, ⟨hT, hs, by rw [hL]; rfl, by rw [d1]; rfl, rfl, ?_,
    ?_, ?_, ?_, fun _ _ _ _ => rfl, by norm_num, by norm_num⟩, by norm_num, by decide, rfl, by rw [d1]; norm_num, ?_⟩
  · rw [newSGD_ok ho]; exact ⟨rfl, rfl, rfl, rfl⟩
  · rw [d0]; exact dX
  · rw [d1]; exact dY
  · intro i hi
    rw [d1]
    omega
  · rw [d0, d1]
    exact separable_pair

/-- Hypotheses of C121_program: the same data, in a state without any model. -/
example : ∃ (w : World ℝ) (o : Optim ℝ) (X Y : Mat) (A B : Nat → Nat → ℝ) (l : Nat → Nat), newSGDOptimizer (5 : ℝ) (1 / 10) 0 = (o, none) ∧
    IsMat w X 4 2 A ∧ IsMat w Y 4 2 B ∧ 4 ≤ X.m.cap ∧ 4 ≤ Y.m.cap ∧ (∀ i, i < 4 → l i < 2) ∧ (∀ i j, i < 4 → j < 2 → B i j = oneHots l i j) ∧
    Separable 2 2 4 A l := by
  obtain ⟨o, ho⟩ := sgd_ok_real (lr := 5) (decay := 1 / 10) (mom := 0) (by norm_num) (by norm_num) le_rfl
  obtain ⟨w, net, op, XM, YM, xM, yM, -, hs, hL, hdim, hT, dX, dY, -, -⟩ := exists_task (emptyWorld : World ℝ) 1 Nat.one_pos
    softUnit (fun _ => ⟨Nat.two_pos, Nat.two_pos⟩) (fun _ => rfl) newModel o
    (OptSpec.fresh o) (by rw [newSGD_ok ho]; rfl) (fun w p i hlt e => e ▸ isOpt_newSGD _ _ _ _ hlt (e.symm ▸ ho)) (r := 4) (r' := 1) (by decide) Nat.one_pos
    (fun i _ => (i : ℝ)) (oneHots fun i => i / 2) (fun _ _ => 0) (fun _ _ => 0)
  refine ⟨w, o, XM, YM, fun i _ => (i : ℝ), oneHots fun i => i / 2, fun i => i / 2, ho, dX.mat, dY.mat, dX.cap, dY.cap, fun i hi => ?_,
    fun _ _ _ _ => rfl, separable_pair⟩
  dsimp only
  omega

end NN
