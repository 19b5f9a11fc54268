import Verif.Props.C107
import Verif.Props.C73
import Verif.Real.SoftmaxRegression
/- C111–C113: training a softmax model with plain SGD on the cross-entropy converges, and classifies separable data perfectly. -/

set_option linter.unusedSectionVars false

namespace NN
open Go Finset

/-- The predictions of the softmax model with weights `W` and biases `b`, for inputs of width `n` and `c` classes. -/
noncomputable def softPred (n c : Nat) (W : Nat → Nat → ℝ) (b : Nat → ℝ) (A : Nat → Nat → ℝ) (i j : Nat) : ℝ :=
  Real.exp (linPred n W b A i j) / ∑ k ∈ range c, Real.exp (linPred n W b A i k)

/-- one-hot targets for the classes `l` -/
noncomputable def oneHots (l : Nat → Nat) (i j : Nat) : ℝ := if j = l i then 1 else 0

theorem score_coefs (n : Nat) (W : Nat → Nat → ℝ) (b : Nat → ℝ) (A : Nat → Nat → ℝ) (i j : Nat) :
    score (n + 1) (augIn n A) (coefs n W b) i j = linPred n W b A i j := by
  have := resid_coefs n W b A (fun _ _ => 0) i j
  unfold resid at this
  simpa [score] using this

theorem smaxP_coefs (n c : Nat) (W : Nat → Nat → ℝ) (b : Nat → ℝ) (A : Nat → Nat → ℝ) (i j : Nat) :
    smaxP c (score (n + 1) (augIn n A) (coefs n W b) i) j = softPred n c W b A i j := by
  unfold smaxP softPred
  simp only [score_coefs]

theorem objective_softPred {r c n : Nat} (W : Nat → Nat → ℝ) (b : Nat → ℝ) (A B : Nat → Nat → ℝ) (l : Nat → Nat) (hl : ∀ i, i < r → l i < c)
    (hB : ∀ i j, i < r → j < c → B i j = oneHots l i j) :
    objective .ce r c (softPred n c W b A) B = smr r c (n + 1) (augIn n A) l (coefs n W b) := by
  unfold objective smr
  dsimp only
  congr 1
  refine sum_congr rfl fun i hi => ?_
  have hi := mem_range.1 hi
  have hli := hl i hi
  have e : ∑ j ∈ range c, softPred n c W b A i j * B i j = softPred n c W b A i (l i) := by
    have : ∀ j ∈ range c, softPred n c W b A i j * B i j = if j = l i then softPred n c W b A i j else 0 := by
      intro j hj
      rw [hB i j hi (mem_range.1 hj), oneHots]
      split <;> simp
    rw [sum_congr rfl this, sum_ite_eq' (range c) (l i), if_pos (mem_range.2 hli)]
  have hpos := sumExp_pos (c := c) (by omega) (linPred n W b A i)
  rw [e, softPred, Real.log_div (Real.exp_pos _).ne' hpos.ne', Real.log_exp, score_coefs]
  unfold lse
  simp only [score_coefs]
  ring

theorem aug_sq_row (n : Nat) (A : Nat → Nat → ℝ) (i : Nat) : ∑ k ∈ range (n + 1), augIn n A i k ^ 2 = 1 + ∑ k ∈ range n, A i k ^ 2 := by
  have := aug_sq (i + 1) n A
  have h2 := aug_sq i n A
  rw [sum_range_succ, sum_range_succ _ i, h2] at this
  linarith

/-- The state of full-batch gradient descent on a softmax layer after t epochs. -/
structure SoftState (net : Net ℝ) (r : Nat) (A : Nat → Nat → ℝ) (l : Nat → Nat) (lr : ℝ) (t : Nat) (net' : Net ℝ) (S' : Nat → OptSpec ℝ) : Prop where
  size : net'.size = 1
  dim : net'.dim = net.dim
  layer : ∃ W b, net'.L 0 = { net.L 0 with W := W, b := b } ∧ ∀ k j, k ≤ (net.L 0).n → j < (net.L 0).o → coefs (net.L 0).n W b k j =
    smrIter r (net.L 0).o ((net.L 0).n + 1) (augIn (net.L 0).n A) l lr (coefs (net.L 0).n (net.L 0).W (net.L 0).b) t k j
  opt : (S' 0).kind = .sgd ∧ (S' 0).momentum = 0 ∧ (S' 0).decay = 0 ∧ (S' 0).lr = lr

theorem infer_softPred {L : LayerSpec ℝ} (h : L.kind = .softmax) (A : Nat → Nat → ℝ) : infer L A = softPred L.n L.o L.W L.b A := by
  funext i j
  unfold infer actRow
  rw [h]
  simp [preact_real, softPred, linPred, fsum_real]

theorem Descent.soft {m : Model ℝ} {u : Nat → ℝ} {A B : Nat → Nat → ℝ} {net : Net ℝ} {S : Nat → OptSpec ℝ} {p : Nat} {r : Nat}
    {lr : ℝ} (hs : net.size = 1) (hk : (net.L 0).kind = .softmax) (hm : m.lossType = 2) (l : Nat → Nat)
    (hB : ∀ i j, i < r → j < (net.L 0).o → B i j = oneHots l i j)
    (hS : (S 0).kind = .sgd ∧ (S 0).momentum = 0 ∧ (S 0).decay = 0 ∧ (S 0).lr = lr) (t : Nat) :
    ∀ {bs : List (Nat × Nat)} {net' : Net ℝ} {S' : Nat → OptSpec ℝ} {p' : Nat}, bs = List.replicate t (0, r) →
      Descent m .ce u A B net S p bs net' S' p' → SoftState net r A l lr t net' S' := by
  induction t with
  | zero =>
    intro bs net' S' p' hb h
    cases h with
    | start => exact ⟨hs, rfl, ⟨_, _, rfl, fun _ _ _ _ => rfl⟩, hS⟩
    | step => simp at hb
  | succ t ih =>
    intro bs net' S' p' hb h
    rw [List.replicate_succ'] at hb
    cases h with
    | start => simp at hb
    | @step bs0 b0 net1 _ S1 _ p1 hD0 hstep =>
      obtain ⟨e1, e2⟩ := List.append_inj' hb rfl
      obtain rfl : b0 = (0, r) := by simpa using e2
      obtain ⟨i1, i2, ⟨W, b, i3, i4⟩, s1, s2, s3, s4⟩ := ih e1 hD0
      simp only [Nat.zero_add] at hstep
      obtain ⟨G, D, hG, rfl, rfl⟩ := hstep
      have hk1 : (net1.L 0).kind = .softmax := by rw [i3]; exact hk
      have hf : Fused m net1 := ⟨by rw [i1]; exact hk1, hm⟩
      obtain ⟨g1, -⟩ := hG.fused hf
      set θ := smrIter r (net.L 0).o ((net.L 0).n + 1) (augIn (net.L 0).n A) l lr (coefs (net.L 0).n (net.L 0).W (net.L 0).b) t with hθ
      have hV : trainVals net1 r (fun q => u (p1 + q)) A 1 = softPred (net.L 0).n (net.L 0).o W b A := by
        rw [trainVals_netOut _ _ _ _ (by intro k hk; obtain rfl : k = 0 := by omega
                                         rw [hk1]; decide)]
        show infer (net1.L 0) A = _
        rw [infer_softPred hk1, i3]
      have hsc : ∀ i j, j < (net.L 0).o → score ((net.L 0).n + 1) (augIn (net.L 0).n A) θ i j = linPred (net.L 0).n W b A i j := by
        intro i j hj
        rw [← score_coefs]
        unfold score
        refine sum_congr rfl fun k hk => ?_
        rw [i4 k j (by have := mem_range.1 hk; omega) hj]
      have hG0 : ∀ i j, i < r → j < (net.L 0).o → G 0 i j = pErr (net.L 0).o ((net.L 0).n + 1) (augIn (net.L 0).n A) l θ i j / r := by
        intro i j hi hj
        rw [i1] at g1
        rw [show G 0 = fusedGrad r (trainVals net1 r (fun q => u (p1 + q)) A 1) B from g1, hV]
        have hp : smaxP (net.L 0).o (score ((net.L 0).n + 1) (augIn (net.L 0).n A) θ i) j = softPred (net.L 0).n (net.L 0).o W b A i j := by
          unfold smaxP softPred
          rw [hsc i j hj, sum_congr rfl fun k hk => by rw [hsc i k (mem_range.1 hk)]]
        unfold fusedGrad pErr
        rw [hp, hB i j hi hj, oneHots]
        by_cases h : j = l i
        · simp [h, Flt.one]
        · simp [h, Flt.one]
      have hrate : (S1 0).rate = lr := by
        unfold OptSpec.rate
        rw [s3, if_pos (by simp [Flt.zero]), s4]
      refine ⟨i1, i2, ?_, s1, s2, s3, s4⟩
      refine ⟨(S1 0).newW (net1.L 0).W (gradW r (trainVals net1 r (fun q => u (p1 + q)) A 0) (G 0)),
        fun j => (S1 0).newB (fun _ j => (net1.L 0).b j) (gradB r (G 0)) 0 j, ?_, fun k j hk hj => ?_⟩
      · unfold stepNet
        dsimp only
        rw [i3]
      · show _ = θ k j - smrGrad _ _ _ _ _ θ k j * lr
        rw [← i4 k j hk hj]
        unfold smrGrad
        unfold coefs OptSpec.newW OptSpec.newB OptSpec.upd
        rw [s1, s2, hrate, i3]
        dsimp only
        by_cases hkn : k < (net.L 0).n
        · rw [if_pos hkn, if_pos hkn, if_pos (by simp [Flt.zero])]
          have : gradW r (trainVals net1 r (fun q => u (p1 + q)) A 0) (G 0) k j = ∑ i ∈ range r, augIn (net.L 0).n A i k *
              (pErr (net.L 0).o ((net.L 0).n + 1) (augIn (net.L 0).n A) l θ i j / r) := by
            rw [gradW, fsum_real]
            refine sum_congr rfl fun i hi => ?_
            rw [hG0 i j (mem_range.1 hi) hj, augIn, if_pos hkn]
            rfl
          rw [this]
          rfl
        · rw [if_neg hkn, if_neg hkn, if_pos (by simp [Flt.zero])]
          have : gradB r (G 0) 0 j = ∑ i ∈ range r, augIn (net.L 0).n A i k *
              (pErr (net.L 0).o ((net.L 0).n + 1) (augIn (net.L 0).n A) l θ i j / r) := by
            rw [gradB, fsum_real]
            refine sum_congr rfl fun i hi => ?_
            rw [hG0 i j (mem_range.1 hi) hj, augIn, if_neg hkn, one_mul]
          rw [this]
          rfl

/-- A model with one softmax layer for `c` classes, trained on cross-entropy with plain SGD of rate `lr`, and r samples of the classes `l`.
The rate is small for the inputs: lr · (1 + |xᵢ|²) ≤ 1/2. -/
structure SoftTask (w : World ℝ) (m : Model ℝ) (net : Net ℝ) (op : Nat → Nat) (S : Nat → OptSpec ℝ) (lr : ℝ) (X Y : Mat) (r : Nat)
    (A B : Nat → Nat → ℝ) (l : Nat → Nat) : Prop where
  task : IsTask w m net op S
  size : net.size = 1
  kind : (net.L 0).kind = .softmax
  loss : m.loss = some ⟨.ce, net.dim 1⟩
  lossType : m.lossType = 2
  opt : (S 0).kind = .sgd ∧ (S 0).momentum = 0 ∧ (S 0).decay = 0 ∧ (S 0).lr = lr
  inputs : IsData w net X r (net.dim 0) A
  targets : IsData w net Y r (net.dim 1) B
  rows : r ≤ 2 ^ 53
  labels : ∀ i, i < r → l i < net.dim 1
  oneHot : ∀ i j, i < r → j < net.dim 1 → B i j = oneHots l i j
  pos : 0 < lr
  small : ∀ i, i < r → lr * (1 + ∑ k ∈ range (net.dim 0), A i k ^ 2) ≤ 1 / 2

/-- The run of Fit, and the coefficients it ends with. -/
theorem SoftTask.run {w : World ℝ} {m : Model ℝ} {net : Net ℝ} {op : Nat → Nat} {S : Nat → OptSpec ℝ} {lr : ℝ} {X Y : Mat} {r : Nat}
    {A B : Nat → Nat → ℝ} {l : Nat → Nat} (h : SoftTask w m net op S lr X Y r A B l) (xv yv : Mat) (t : Nat) :
    wp (fit m X Y t 0 xv yv 0) w (fun e w' => e = none ∧ ∃ net' S' W b, IsTask w' m net' op S' ∧ SameShape net net' ∧ net'.size = 1 ∧
      net'.dim = net.dim ∧ (net'.L 0).kind = .softmax ∧ IsMat w' X r (net.dim 0) A ∧ IsMat w' Y r (net.dim 1) B ∧
      (∀ A', netOut net' A' net'.size = softPred (net.dim 0) (net.dim 1) W b A') ∧ ∀ k j, k ≤ net.dim 0 → j < net.dim 1 →
        coefs (net.dim 0) W b k j = smrIter r (net.dim 1) (net.dim 0 + 1) (augIn (net.dim 0) A) l lr
          (coefs (net.dim 0) (net.L 0).W (net.L 0).b) t k j) := by
  have hs := h.size
  have hn : (net.L 0).n = net.dim 0 := h.task.isNet.ins 0 (by omega)
  have ho : (net.L 0).o = net.dim 1 := h.task.isNet.outs 0 (by omega)
  refine wp_mono (C70_fit w m net op S h.task (fun k hk' => by obtain rfl : k = 0 := by omega
                                                               rw [h.kind]; decide) _ h.loss (by rw [hs]) X Y xv yv r A B h.inputs.mat
    (by rw [hs]; exact h.targets.mat) h.inputs.cap h.targets.cap h.inputs.sep h.targets.sep t 0 (by have := h.rows; omega)) ?_
  rintro e w' ⟨he, net', S', hD, hT', hsh, hX', hY', -⟩
  rw [hs] at hY'
  have hbl : (List.replicate (t : Int).toNat (blocks r 0)).flatten = List.replicate t (0, r) := by
    rw [Int.toNat_natCast, show blocks r 0 = [(0, r)] by simp [blocks], flatten_replicate_one]
  obtain ⟨h1, h2, ⟨W1, b1, h3, h4⟩, -⟩ := Descent.soft hs h.kind h.lossType l (by rw [ho]; exact h.oneHot) h.opt t hbl hD
  have hk' : (net'.L 0).kind = .softmax := by rw [h3]; exact h.kind
  rw [hn, ho] at h4
  refine ⟨he, net', S', W1, b1, hT', hsh, h1, h2, hk', hX', hY', fun A' => ?_, h4⟩
  rw [h1]
  show infer (net'.L 0) A' = _
  rw [infer_softPred hk', h3, ← hn, ← ho]

theorem smr_congr {r c p : Nat} (X : Nat → Nat → ℝ) (l : Nat → Nat) (hl : ∀ i, i < r → l i < c) {θ θ' : Nat → Nat → ℝ}
    (h : ∀ k j, k < p → j < c → θ k j = θ' k j) : smr r c p X l θ = smr r c p X l θ' := by
  have hs : ∀ i j, j < c → score p X θ i j = score p X θ' i j := fun i j hj =>
    sum_congr rfl fun k hk => by rw [h k j (mem_range.1 hk) hj]
  unfold smr lse
  congr 1
  refine sum_congr rfl fun i hi => ?_
  rw [hs i (l i) (hl i (mem_range.1 hi)), sum_congr rfl fun k hk => by rw [hs i k (mem_range.1 hk)]]

/-- C111: full-batch SGD on the cross-entropy of a softmax layer, with a learning rate of at most 1 / (2(1 + |xᵢ|²)) for all samples.
After any number of epochs the cross-entropy is at most the initial one; and after t ≥ 1 epochs it exceeds that of any weights W and
biases b, hence the least possible one, by at most |(W₀,b₀) - (W,b)|² / (2 · rate · t). -/
theorem C111_converge (w : World ℝ) (m : Model ℝ) (net : Net ℝ) (op : Nat → Nat) (S : Nat → OptSpec ℝ) (lr : ℝ) (X Y xv yv : Mat) (r : Nat)
    (A B : Nat → Nat → ℝ) (l : Nat → Nat) (h : SoftTask w m net op S lr X Y r A B l) (t : Nat) :
    wp (fit m X Y t 0 xv yv 0) w (fun e w' => e = none ∧ ∃ net' S' F, IsTask w' m net' op S' ∧ SameShape net net' ∧
      NetComputes net' r A F ∧
      objective .ce r (net.dim 1) F B ≤ objective .ce r (net.dim 1) (softPred (net.dim 0) (net.dim 1) (net.L 0).W (net.L 0).b A) B ∧
      ∀ W b, 0 < t → objective .ce r (net.dim 1) F B ≤ objective .ce r (net.dim 1) (softPred (net.dim 0) (net.dim 1) W b A) B +
        (∑ k ∈ range (net.dim 0), ∑ j ∈ range (net.dim 1), ((net.L 0).W k j - W k j) ^ 2 +
          ∑ j ∈ range (net.dim 1), ((net.L 0).b j - b j) ^ 2) / (2 * lr * t)) := by
  have hr : 0 < r := h.inputs.mat.rpos
  refine wp_mono (h.run xv yv t) ?_
  rintro e w' ⟨he, net', S', W1, b1, hT', hsh, h1, h2, hk', -, -, hout, h4⟩
  have hF := netComputes_netOut (net := net') (by intro k hk2; obtain rfl : k = 0 := by omega
                                                  rw [hk']; decide) r A
  rw [hout] at hF
  have hR : ∀ i, i < r → ∑ k ∈ range (net.dim 0 + 1), augIn (net.dim 0) A i k ^ 2 ≤ 1 / 2 / lr := by
    intro i hi
    rw [aug_sq_row, le_div_iff₀ h.pos, mul_comm]
    exact h.small i hi
  have hlr : lr * (1 / 2 / lr) ≤ 1 / 2 := by rw [mul_div_cancel₀ _ h.pos.ne']
  have hobj := objective_softPred (n := net.dim 0) W1 b1 A B l h.labels h.oneHot
  rw [smr_congr _ l h.labels (fun k j hk hj => h4 k j (by omega) hj)] at hobj
  refine ⟨he, net', S', _, hT', hsh, hF, ?_, fun W b ht => ?_⟩
  · rw [hobj, objective_softPred _ _ _ _ l h.labels h.oneHot]
    exact (smrIter_spec hr _ l h.labels _ h.pos hR hlr t).1
  · rw [hobj, objective_softPred _ _ _ _ l h.labels h.oneHot, ← sqDist_coefs]
    exact smrIter_bound hr _ l h.labels _ h.pos hR hlr ht _

/-- Some weights and biases score every sample highest in its own class. -/
def Separable (n c r : Nat) (A : Nat → Nat → ℝ) (l : Nat → Nat) : Prop :=
  ∃ W b, ∀ i j, i < r → j < c → j ≠ l i → linPred n W b A i j < linPred n W b A i (l i)

/-- Then some do it with a margin of 1. -/
theorem Separable.margin {n c r : Nat} {A : Nat → Nat → ℝ} {l : Nat → Nat} (h : Separable n c r A l) :
    ∃ W b, ∀ i j, i < r → j < c → j ≠ l i → linPred n W b A i j + 1 ≤ linPred n W b A i (l i) := by
  obtain ⟨W, b, h⟩ := h
  have : ∃ δ : ℝ, 0 < δ ∧ ∀ q ∈ (range r ×ˢ range c).filter (fun q => q.2 ≠ l q.1), δ ≤ linPred n W b A q.1 (l q.1) - linPred n W b A q.1 q.2 := by
    set s := (range r ×ˢ range c).filter (fun q => q.2 ≠ l q.1) with hs
    have hpos : ∀ q ∈ s, 0 < linPred n W b A q.1 (l q.1) - linPred n W b A q.1 q.2 := by
      intro q hq
      rw [hs, mem_filter, mem_product, mem_range, mem_range] at hq
      have := h q.1 q.2 hq.1.1 hq.1.2 hq.2
      linarith
    rcases s.eq_empty_or_nonempty with he | hne
    · exact ⟨1, one_pos, fun q hq => by rw [he] at hq; simp at hq⟩
    · obtain ⟨q, hq, hmin⟩ := exists_min_image s (fun q => linPred n W b A q.1 (l q.1) - linPred n W b A q.1 q.2) hne
      exact ⟨_, hpos q hq, hmin⟩
  obtain ⟨δ, h0, hδ⟩ := this
  refine ⟨fun k j => W k j / δ, fun j => b j / δ, fun i j hi hj hne => ?_⟩
  have e : ∀ i j, linPred n (fun k j => W k j / δ) (fun j => b j / δ) A i j = linPred n W b A i j / δ := by
    intro i j
    unfold linPred
    rw [add_div, sum_div]
    congr 1
    exact sum_congr rfl fun k _ => by ring
  have := hδ (i, j) (by rw [mem_filter, mem_product, mem_range, mem_range]; exact ⟨⟨hi, hj⟩, hne⟩)
  dsimp only at this
  rw [e, e, div_add_one h0.ne', div_le_div_iff_of_pos_right h0]
  linarith

/-- On separable data gradient descent reaches any cross-entropy above 0 and stays below it. -/
theorem smrIter_separable {r c p : Nat} (hr : 0 < r) (X : Nat → Nat → ℝ) (l : Nat → Nat) (hl : ∀ i, i < r → l i < c) (θ θs : Nat → Nat → ℝ)
    (hs : ∀ i j, i < r → j < c → j ≠ l i → score p X θs i j + 1 ≤ score p X θs i (l i)) {lr R : ℝ}
    (h0 : 0 < lr) (hR : ∀ i, i < r → ∑ k ∈ range p, X i k ^ 2 ≤ R) (hlr : lr * R ≤ 1 / 2) {ε : ℝ} (he : 0 < ε) :
    ∃ T : Nat, ∀ t, T ≤ t → smr r c p X l (smrIter r c p X l lr θ t) < ε := by
  have hc : (1 : ℝ) ≤ c := by exact_mod_cast (show 1 ≤ c by have := hl 0 hr; omega)
  obtain ⟨s, hs0, hs1⟩ : ∃ s : ℝ, 0 ≤ s ∧ (c - 1) * Real.exp (-s) < ε / 2 := by
    refine ⟨2 * c / ε, by positivity, ?_⟩
    have h1 := Real.add_one_le_exp (2 * c / ε)
    have h2 : Real.exp (-(2 * c / ε)) * Real.exp (2 * c / ε) = 1 := by rw [← Real.exp_add, neg_add_cancel, Real.exp_zero]
    have h3 : Real.exp (-(2 * c / ε)) * (2 * c / ε + 1) ≤ 1 := by
      exact (mul_le_mul_of_nonneg_left h1 (Real.exp_pos _).le).trans h2.le
    have h4 := Real.exp_pos (-(2 * c / ε))
    set E := Real.exp (-(2 * c / ε))
    have h5 : E * (2 * c / ε) < 1 := by nlinarith
    have h6 : E * (2 * c) < ε := by
      rw [mul_div_assoc', div_lt_one he] at h5
      exact h5
    nlinarith
  have hsep := smr_separable hr X l hl θs hs hs0
  set D := sqDist c p θ (fun k j => s * θs k j) with hD
  have hD0 : 0 ≤ D := sqDist_nonneg _ _ _ _
  obtain ⟨T, hT⟩ := exists_nat_gt (D / (lr * ε))
  refine ⟨T + 1, fun t ht => ?_⟩
  have htt : (T : ℝ) < t := by exact_mod_cast (show T < t by omega)
  have hb := smrIter_bound hr X l hl θ h0 hR hlr (t := t) (by omega) (fun k j => s * θs k j)
  rw [← hD] at hb
  have hlt : D / (2 * lr * t) < ε / 2 := by
    have ht0 : (0 : ℝ) < t := lt_of_le_of_lt (Nat.cast_nonneg T) htt
    rw [div_lt_iff₀ (by positivity)]
    have := hT.trans htt
    rw [div_lt_iff₀ (by positivity)] at this
    nlinarith
  linarith

theorem bestCol_major {f : Nat → ℝ} {c j : Nat} (hj : j < c) (h0 : 0 < f j) (h : ∀ k, k < c → k ≠ j → f k < f j) : (bestCol f c).1 = j := by
  have key : ∀ n, (n ≤ j → n ≤ c → (bestCol f n).2 < f j) ∧ (j < n → n ≤ c → bestCol f n = (j, f j)) := by
    intro n
    induction n with
    | zero => exact ⟨fun _ _ => by simpa [bestCol, Flt.zero] using h0, fun h => by omega⟩
    | succ n ih =>
      constructor
      · intro h1 h2
        rw [bestCol]
        split
        · exact h n (by omega) (by omega)
        · exact ih.1 (by omega) (by omega)
      · intro h1 h2
        rw [bestCol]
        rcases Nat.lt_or_ge j n with hjn | hjn
        · rw [ih.2 hjn (by omega)]
          have := h n (by omega) (by omega)
          simp [this.le]
        · obtain rfl : n = j := by omega
          have := ih.1 le_rfl (by omega)
          simp [this]
  rw [(key c).2 hj le_rfl]

/-- With a probability above 1/2 for its class, a sample is predicted to be of that class. -/
theorem bestCol_softPred {n c : Nat} {W : Nat → Nat → ℝ} {b : Nat → ℝ} {A : Nat → Nat → ℝ} {i j : Nat} (hj : j < c)
    (h : 1 / 2 < softPred n c W b A i j) : (bestCol (softPred n c W b A i) c).1 = j := by
  have hp : ∀ k, 0 ≤ softPred n c W b A i k := fun k => by rw [← smaxP_coefs]; exact smaxP_nonneg _ _ _
  have hs : ∑ k ∈ range c, softPred n c W b A i k = 1 := by
    have := smaxP_sum (c := c) (by omega) (score (n + 1) (augIn n A) (coefs n W b) i)
    simpa only [smaxP_coefs] using this
  refine bestCol_major hj (by linarith) fun k hk hne => ?_
  have : softPred n c W b A i k + softPred n c W b A i j ≤ 1 := by
    rw [← hs, ← sum_pair hne]
    exact sum_le_sum_of_subset_of_nonneg (by intro x hx; simp at hx; rcases hx with rfl | rfl <;> exact mem_range.2 (by assumption)) fun k _ _ => hp k
  linarith

/-- C112: on linearly separable data, after some number T of epochs and forever after, the cross-entropy is below any ε > 0 that was
chosen; and from some T on the model gives every training sample a probability above 1/2 for its class, Predict returns the classes,
and CalculateAccuracy (categorical) returns 1. -/
theorem C112_separable (w : World ℝ) (m : Model ℝ) (net : Net ℝ) (op : Nat → Nat) (S : Nat → OptSpec ℝ) (lr : ℝ) (X Y xv yv : Mat) (r : Nat)
    (A B : Nat → Nat → ℝ) (l : Nat → Nat) (h : SoftTask w m net op S lr X Y r A B l) (hacc : m.accType = 1) (hbig : net.dim 1 ≤ 2 ^ 53)
    (hsep : Separable (net.dim 0) (net.dim 1) r A l) (ε : ℝ) (hε : 0 < ε) :
    ∃ T : Nat, ∀ t : Nat, T ≤ t → wp (fit m X Y t 0 xv yv 0) w (fun e w' => e = none ∧
      (∃ net' F, IsNet w' m net' ∧ NetComputes net' r A F ∧ objective .ce r (net.dim 1) F B < ε ∧ ∀ i, i < r → 1 / 2 < F i (l i)) ∧
      wp (predict m X) w' (fun p w'' => p.2 = none ∧ IsMat w'' p.1 r 1 fun i _ => (l i : ℝ)) ∧
      wp (calculateAccuracy m X Y) w' (fun p _ => p = (1, none))) := by
  have hr : 0 < r := h.inputs.mat.rpos
  have hrr : (0 : ℝ) < r := by exact_mod_cast hr
  have hR : ∀ i, i < r → ∑ k ∈ range (net.dim 0 + 1), augIn (net.dim 0) A i k ^ 2 ≤ 1 / 2 / lr := by
    intro i hi
    rw [aug_sq_row, le_div_iff₀ h.pos, mul_comm]
    exact h.small i hi
  have hlr : lr * (1 / 2 / lr) ≤ 1 / 2 := by rw [mul_div_cancel₀ _ h.pos.ne']
  obtain ⟨Ws, bs, hm⟩ := hsep.margin
  obtain ⟨T, hT⟩ := smrIter_separable hr (augIn (net.dim 0) A) l h.labels (coefs (net.dim 0) (net.L 0).W (net.L 0).b) (coefs (net.dim 0) Ws bs)
    (p := net.dim 0 + 1) (by simpa only [score_coefs] using hm) h.pos hR hlr (ε := min ε (Real.log 2 / r))
    (lt_min hε (div_pos (Real.log_pos (by norm_num)) hrr))
  refine ⟨T, fun t ht => wp_mono (h.run xv yv t) ?_⟩
  rintro e w' ⟨he, net', S', W1, b1, hT', hsh, h1, h2, hk', hX', hY', hout, h4⟩
  have hF := netComputes_netOut (net := net') (by intro k hk2; obtain rfl : k = 0 := by omega
                                                  rw [hk']; decide) r A
  rw [hout] at hF
  have hlt := hT t ht
  rw [lt_min_iff, ← smr_congr _ l h.labels (fun k j hk hj => h4 k j (by omega) hj)] at hlt
  have hmaj : ∀ i, i < r → 1 / 2 < softPred (net.dim 0) (net.dim 1) W1 b1 A i (l i) := by
    intro i hi
    rw [← smaxP_coefs]
    exact smr_correct _ l h.labels _ hlt.2 hi
  have hbest : ∀ i, i < r → (bestCol (netOut net' A net'.size i) (net.dim 1)).1 = l i := by
    intro i hi
    rw [hout]
    exact bestCol_softPred (h.labels i hi) (hmaj i hi)
  have hB := behaves_self hT'.isNet hT'.pos h.loss (by rw [h1, h2]) (by rw [h1, h2]; exact hbig) (Or.inr (Or.inl hacc))
  rw [h1, h2] at hB
  refine ⟨he, ⟨net', _, hT'.isNet, hF, ?_, hmaj⟩, ?_, ?_⟩
  · rw [objective_softPred _ _ _ _ l h.labels h.oneHot]
    exact hlt.1
  · refine wp_mono (hB.predict X r A hX') ?_
    rintro p w'' ⟨he2, -, hp, -⟩
    refine ⟨he2, (hp hacc).congr fun i j hi _ => ?_⟩
    rw [hbest i hi]
    simp
  · refine wp_mono (hB.accuracy X Y ⟨r, A, B⟩ hX' hY') ?_
    rintro p w'' rfl
    congr 1
    unfold accOf
    rw [if_neg (by omega), if_pos hacc]
    have : rowsWith r (fun i => Flt.eq (B i (bestCol (netOut net' A net'.size i) (net.dim 1)).1) Flt.one) = r := by
      unfold rowsWith
      rw [filter_true_of_mem, card_range]
      intro i hi
      have hi := mem_range.1 hi
      dsimp only
      rw [hbest i hi, h.oneHot i (l i) hi (h.labels i hi), oneHots, if_pos rfl]
      simp [Flt.one]
    dsimp only
    rw [this]
    simp [hrr.ne']

/-- C113: the whole program.  Make a softmax model for linearly separable data, with random weights and a small enough learning rate,
and train it for t epochs: whatever the random numbers, for all large enough t nothing fails, Predict returns the class of every
training sample, and CalculateAccuracy returns 1. -/
theorem C113_program (w : World ℝ) (n c : Nat) (hn : 0 < n) (hn2 : n ≤ 2 ^ 53) (hc2 : c ≤ 2 ^ 53) (lr : ℝ) (o : Optim ℝ)
    (ho : newSGDOptimizer lr 0 0 = (o, none)) (prec : ℝ) (hp : 0 ≤ prec) (X Y : Mat) (r : Nat) (A B : Nat → Nat → ℝ) (l : Nat → Nat)
    (hX : IsMat w X r n A) (hY : IsMat w Y r c B) (hcX : r ≤ X.m.cap) (hcY : r ≤ Y.m.cap) (hr : r ≤ 2 ^ 53)
    (hl : ∀ i, i < r → l i < c) (hB : ∀ i j, i < r → j < c → B i j = oneHots l i j) (h0 : 0 < lr)
    (hlr : ∀ i, i < r → lr * (1 + ∑ k ∈ range n, A i k ^ 2) ≤ 1 / 2) (hsep : Separable n c r A l) :
    ∃ T : Nat, ∀ t : Nat, T ≤ t → wp (trainNew (fun _ => ⟨.softmax, n, c, 0, 0⟩) 1 ⟨.ce, c⟩ o 1 prec X Y t 0) w (fun p w' => p.2 = none ∧
      wp (predict p.1 X) w' (fun q w'' => q.2 = none ∧ IsMat w'' q.1 r 1 fun i _ => (l i : ℝ)) ∧
      wp (calculateAccuracy p.1 X Y) w' (fun q _ => q = (1, none))) := by
  have hc : 0 < c := hY.cpos
  have hmk := C71_make w (fun _ => (⟨.softmax, n, c, 0, 0⟩ : LayerArg ℝ)) (fun _ => by dsimp only; omega) 1 ⟨.ce, c⟩ (by dsimp only; omega)
    (by dsimp only; omega) o 1 prec
  obtain ⟨⟨m, e⟩, w1, hrun, hf, hiff, hm⟩ := wp_iff.1 hmk
  dsimp only at hiff hm
  obtain rfl : e = none := hiff.2 ⟨⟨fun i _ => ⟨by dsimp only; omega, by dsimp only; omega, (fun h => by cases h), (fun h => by cases h)⟩,
    fun i hi => by omega⟩, Nat.one_pos, rfl, by simpa [Flt.zero] using hp⟩
  obtain ⟨net, op, hM⟩ := hm rfl
  have hs0 := hM.start 0 hM.task.pos
  have d0 : net.dim 0 = n := by
    have h1 := hM.task.isNet.ins 0 hM.task.pos
    have h2 := hs0.2.1
    dsimp only at h2
    omega
  have d1 : net.dim 1 = c := by
    have h1 := hM.lossSize
    rw [hM.size] at h1
    dsimp only at h1
    omega
  have hT : SoftTask w1 m net op (fun _ => OptSpec.fresh (optFrom o)) lr X Y r A B l := by
    refine ⟨hM.task, hM.size, hs0.1, by rw [hM.hasLoss, d1], hM.lossType, ?_, ⟨?_, hcX, fun x h1 h2 => ?_⟩, ⟨?_, hcY, fun x h1 h2 => ?_⟩, hr,
      by rw [d1]; exact hl, by rw [d1]; exact hB, h0, by rw [d0]; exact hlr⟩
    · rw [newSGD_ok ho]; exact ⟨rfl, rfl, rfl, rfl⟩
    · rw [d0]; exact hX.frame hf (fun h => h) (fun _ _ h => h)
    · have := hM.params x h1
      have := hX.isRow_lt ((hX.isRow_frame hf (fun h => h) x).1 h2)
      omega
    · rw [d1]; exact hY.frame hf (fun h => h) (fun _ _ h => h)
    · have := hM.params x h1
      have := hY.isRow_lt ((hY.isRow_frame hf (fun h => h) x).1 h2)
      omega
  obtain ⟨T, hT⟩ := C112_separable w1 m net op _ lr X Y Mat.zero Mat.zero r A B l hT hM.accType (by rw [d1]; exact hc2)
    (by rw [d0, d1]; exact hsep) 1 one_pos
  refine ⟨T, fun t ht => ?_⟩
  unfold trainNew
  refine wp_bind_ok hrun ?_
  dsimp only
  refine wp_bind_mono (hT t ht) ?_
  rintro e w2 ⟨rfl, -, h1, h2⟩
  exact wp_pure.2 ⟨rfl, h1, h2⟩

/-- Two classes of two samples each, with two inputs. -/
theorem separable_pair : Separable 2 2 4 (fun i _ => (i : ℝ)) (fun i => i / 2) := by
  refine ⟨fun _ j => 2 * j, fun j => -(6 * j), fun i j hi hj hne => ?_⟩
  unfold linPred
  have h4 : i = 0 ∨ i = 1 ∨ i = 2 ∨ i = 3 := by omega
  have h2 : j = 0 ∨ j = 1 := by omega
  rcases h4 with rfl | rfl | rfl | rfl <;> rcases h2 with rfl | rfl <;>
    first | exact absurd rfl hne | norm_num [sum_range_succ]

/-- A softmax layer with two inputs and two outputs. -/
noncomputable def softUnit (_ : Nat) : LayerSpec ℝ := ⟨.softmax, 2, 2, fun i j => i + j, fun j => j, 0, 0⟩

/-- Hypotheses of C111_converge and C112_separable: a softmax layer with two inputs and two outputs, four samples, learning rate 1/38. -/
example : ∃ (w : World ℝ) (m : Model ℝ) (net : Net ℝ) (op : Nat → Nat) (S : Nat → OptSpec ℝ) (X Y : Mat) (A B : Nat → Nat → ℝ) (l : Nat → Nat),
    SoftTask w m net op S (1 / 38) X Y 4 A B l ∧ m.accType = 1 ∧ net.dim 1 ≤ 2 ^ 53 ∧ Separable (net.dim 0) (net.dim 1) 4 A l := by
  obtain ⟨o, ho⟩ := sgd_ok_real (lr := 1 / 38) (decay := 0) (mom := 0) (by norm_num) le_rfl le_rfl
  have hrows : o.weightMomentums.rows = 0 := by rw [newSGD_ok ho]; rfl
  obtain ⟨w, net, op, XM, YM, xM, yM, -, hs, hL, hdim, hT, dX, dY, -, -⟩ := exists_task (emptyWorld : World ℝ) 1 Nat.one_pos
    softUnit (fun _ => ⟨Nat.two_pos, Nat.two_pos⟩) (fun _ => rfl) { newModel with loss := some ⟨.ce, 2⟩, lossType := 2, accType := 1 } o
    (OptSpec.fresh o) hrows (fun w p i hlt e => e ▸ isOpt_newSGD _ _ _ _ hlt (e.symm ▸ ho)) (r := 4) (r' := 1) (by decide) Nat.one_pos
    (fun i _ => (i : ℝ)) (oneHots fun i => i / 2) (fun _ _ => 0) (fun _ _ => 0)
  have d0 : net.dim 0 = 2 := by rw [hdim]; rfl
  have d1 : net.dim 1 = 2 := by rw [hdim]; rfl
  refine ⟨w, _, net, op, _, XM, YM, fun i _ => (i : ℝ), oneHots fun i => i / 2, fun i => i / 2, ⟨hT, hs, by rw [hL]; rfl, by rw [d1]; rfl, rfl, ?_,
    ?_, ?_, by norm_num, ?_, fun _ _ _ _ => rfl, by norm_num, ?_⟩, rfl, by rw [d1]; norm_num, ?_⟩
  · rw [newSGD_ok ho]; exact ⟨rfl, rfl, rfl, rfl⟩
  · rw [d0]; exact dX
  · rw [d1]; exact dY
  · intro i hi
    rw [d1]
    omega
  · intro i hi
    rw [d0]
    have h4 : i = 0 ∨ i = 1 ∨ i = 2 ∨ i = 3 := by omega
    rcases h4 with rfl | rfl | rfl | rfl <;> norm_num [sum_range_succ]
  · rw [d0, d1]
    exact separable_pair

/-- Hypotheses of C113_program: the same data, in a state without any model. -/
example : ∃ (w : World ℝ) (o : Optim ℝ) (X Y : Mat) (A B : Nat → Nat → ℝ) (l : Nat → Nat), newSGDOptimizer (1 / 38 : ℝ) 0 0 = (o, none) ∧
    IsMat w X 4 2 A ∧ IsMat w Y 4 2 B ∧ 4 ≤ X.m.cap ∧ 4 ≤ Y.m.cap ∧ (∀ i, i < 4 → l i < 2) ∧ (∀ i j, i < 4 → j < 2 → B i j = oneHots l i j) ∧
    (∀ i, i < 4 → (1 / 38 : ℝ) * (1 + ∑ k ∈ range 2, A i k ^ 2) ≤ 1 / 2) ∧ Separable 2 2 4 A l := by
  obtain ⟨o, ho⟩ := sgd_ok_real (lr := 1 / 38) (decay := 0) (mom := 0) (by norm_num) le_rfl le_rfl
  obtain ⟨w, net, op, XM, YM, xM, yM, -, hs, hL, hdim, hT, dX, dY, -, -⟩ := exists_task (emptyWorld : World ℝ) 1 Nat.one_pos
    softUnit (fun _ => ⟨Nat.two_pos, Nat.two_pos⟩) (fun _ => rfl) newModel o
    (OptSpec.fresh o) (by rw [newSGD_ok ho]; rfl) (fun w p i hlt e => e ▸ isOpt_newSGD _ _ _ _ hlt (e.symm ▸ ho)) (r := 4) (r' := 1) (by decide) Nat.one_pos
    (fun i _ => (i : ℝ)) (oneHots fun i => i / 2) (fun _ _ => 0) (fun _ _ => 0)
  refine ⟨w, o, XM, YM, fun i _ => (i : ℝ), oneHots fun i => i / 2, fun i => i / 2, ho, dX.mat, dY.mat, dX.cap, dY.cap, fun i hi => ?_,
    fun _ _ _ _ => rfl, fun i hi => ?_, separable_pair⟩
  · dsimp only
    omega
  · have h4 : i = 0 ∨ i = 1 ∨ i = 2 ∨ i = 3 := by omega
    rcases h4 with rfl | rfl | rfl | rfl <;> norm_num [sum_range_succ]

end NN
