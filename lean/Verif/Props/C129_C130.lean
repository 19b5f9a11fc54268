import Verif.Props.C111_C113
import Verif.Real.HeavyBall
/- C129, C130: training with momentum.  Full-batch SGD with momentum on one linear or softmax layer converges, and classifies separable
data perfectly. -/

set_option linter.unusedSectionVars false

namespace NN
open Go Finset

/-- The optimizer of the layer is SGD with momentum β and rate α, without decay. -/
def BallOpt (S : OptSpec ℝ) (α β : ℝ) : Prop := S.kind = .sgd ∧ S.momentum = β ∧ S.decay = 0 ∧ S.lr = α

/-- The state of full-batch gradient descent with momentum on one layer after t epochs. -/
structure BallState (net : Net ℝ) (g : (Nat → Nat → ℝ) → Nat → Nat → ℝ) (α β : ℝ) (t : Nat) (net' : Net ℝ) (S' : Nat → OptSpec ℝ) : Prop where
  size : net'.size = 1
  dim : net'.dim = net.dim
  layer : ∃ W b, net'.L 0 = { net.L 0 with W := W, b := b } ∧ ∀ k j, k ≤ (net.L 0).n → j < (net.L 0).o → coefs (net.L 0).n W b k j =
    (ballIter g α β (coefs (net.L 0).n (net.L 0).W (net.L 0).b) t).1 k j
  vel : ∀ k j, k ≤ (net.L 0).n → j < (net.L 0).o → coefs (net.L 0).n (S' 0).vw ((S' 0).vb 0) k j =
    (ballIter g α β (coefs (net.L 0).n (net.L 0).W (net.L 0).b) t).2 k j
  opt : BallOpt (S' 0) α β

/-- Back-propagation through the one layer of `net`, whatever its parameters, gives the gradient g. -/
def GradIs (m : Model ℝ) (loss : LossKind) (net : Net ℝ) (r : Nat) (A B : Nat → Nat → ℝ) (g : (Nat → Nat → ℝ) → Nat → Nat → ℝ) : Prop :=
  ∀ (net1 : Net ℝ) (W : Nat → Nat → ℝ) (b : Nat → ℝ) (u : Nat → ℝ) (M G D : Nat → Nat → Nat → ℝ) (θ : Nat → Nat → ℝ), net1.size = 1 →
    net1.dim = net.dim → net1.L 0 = { net.L 0 with W := W, b := b } →
    (∀ k j, k ≤ (net.L 0).n → j < (net.L 0).o → coefs (net.L 0).n W b k j = θ k j) →
    NetGrad m net1 loss r (trainVals net1 r u A) M B G D → ∀ k j, k ≤ (net.L 0).n → j < (net.L 0).o →
      coefs (net.L 0).n (gradW r (trainVals net1 r u A 0) (G 0)) (gradB r (G 0) 0) k j = g θ k j

theorem Descent.ball {m : Model ℝ} {loss : LossKind} {u : Nat → ℝ} {A B : Nat → Nat → ℝ} {net : Net ℝ} {S : Nat → OptSpec ℝ} {p : Nat} {r : Nat}
    {g : (Nat → Nat → ℝ) → Nat → Nat → ℝ} {α β : ℝ} (hs : net.size = 1) (hg : GradIs m loss net r A B g) (hβ : β ≠ 0)
    (hS : BallOpt (S 0) α β) (hv : ∀ i j, (S 0).vw i j = 0 ∧ (S 0).vb i j = 0) (t : Nat) :
    ∀ {bs : List (Nat × Nat)} {net' : Net ℝ} {S' : Nat → OptSpec ℝ} {p' : Nat}, bs = List.replicate t (0, r) →
      Descent m loss u A B net S p bs net' S' p' → BallState net g α β t net' S' := by
  induction t with
  | zero =>
    intro bs net' S' p' hb h
    cases h with
    | start =>
      refine ⟨hs, rfl, ⟨_, _, rfl, fun _ _ _ _ => rfl⟩, fun k j _ _ => ?_, hS⟩
      unfold coefs
      split
      · exact (hv k j).1
      · exact (hv 0 j).2
    | step => simp at hb
  | succ t ih =>
    intro bs net' S' p' hb h
    rw [List.replicate_succ'] at hb
    cases h with
    | start => simp at hb
    | @step bs0 b0 net1 _ S1 _ p1 hD0 hstep =>
      obtain ⟨e1, e2⟩ := List.append_inj' hb rfl
      obtain rfl : b0 = (0, r) := by simpa using e2
      obtain ⟨i1, i2, ⟨W, b, i3, i4⟩, i5, s1, s2, s3, s4⟩ := ih e1 hD0
      simp only [Nat.zero_add] at hstep
      obtain ⟨G, D, hG, rfl, rfl⟩ := hstep
      have hgr := hg net1 W b _ _ G D _ i1 i2 i3 i4 hG
      set x := (ballIter g α β (coefs (net.L 0).n (net.L 0).W (net.L 0).b) t).1 with hx
      set v := (ballIter g α β (coefs (net.L 0).n (net.L 0).W (net.L 0).b) t).2 with hv'
      set V := trainVals net1 r (fun q => u (p1 + q)) A with hV
      have hrate : (S1 0).rate = α := by
        unfold OptSpec.rate
        rw [s3, if_pos (by simp [Flt.zero]), s4]
      have hmom : Flt.eq (S1 0).momentum Flt.zero = false := by rw [s2]; simp [Flt.zero, hβ]
      have hvel : ∀ y d : ℝ, (S1 0).vel y d = y * β - d * α := by
        intro y d
        unfold OptSpec.vel
        rw [s1, hmom, hrate, s2]
        rfl
      have hupd : ∀ y z q d : ℝ, (S1 0).upd y z q d = y + (z * β - d * α) := by
        intro y z q d
        unfold OptSpec.upd
        rw [s1, hmom, hvel]
        rfl
      refine ⟨i1, i2, ⟨(S1 0).newW (net1.L 0).W (gradW r (V 0) (G 0)), fun j => (S1 0).newB (fun _ j => (net1.L 0).b j) (gradB r (G 0)) 0 j, ?_,
        fun k j hk hj => ?_⟩, fun k j hk hj => ?_, s1, s2, s3, s4⟩
      · unfold stepNet
        dsimp only
        rw [i3]
      · show _ = x k j + (v k j * β - g x k j * α)
        rw [← hgr k j hk hj, ← i4 k j hk hj, ← i5 k j hk hj]
        unfold coefs OptSpec.newW OptSpec.newB
        rw [i3]
        simp only [hupd]
        split <;> rfl
      · show _ = v k j * β - g x k j * α
        rw [← hgr k j hk hj, ← i5 k j hk hj]
        unfold coefs stepOpts OptSpec.step
        simp only [hvel]
        split <;> rfl

/-- The gradient of a linear layer under the squared error. -/
theorem gradIs_linear {m : Model ℝ} {net : Net ℝ} {r : Nat} {A B : Nat → Nat → ℝ} (hk : (net.L 0).kind = .linear) :
    GradIs m .mse net r A B (lsqGrad r (net.dim 1) ((net.L 0).n + 1) (augIn (net.L 0).n A) B) := by
  intro net1 W b u M G D θ i1 i2 i3 i4 hG k j hkn hj
  have hk1 : (net1.L 0).kind = .linear := by rw [i3]; exact hk
  have hf : ¬ Fused m net1 := by
    intro hf
    have := hf.1
    rw [i1, hk1] at this
    cases this
  obtain ⟨g1, g2⟩ := hG.plain hf
  have hV : trainVals net1 r u A 1 = linPred (net.L 0).n W b A := by
    rw [trainVals_netOut _ _ _ _ (by intro k hk; obtain rfl : k = 0 := by omega
                                     rw [hk1]; decide)]
    show infer (net1.L 0) A = _
    rw [infer_linPred hk1, i3]
  have hG0 : ∀ i j, G 0 i j = (linPred (net.L 0).n W b A i j - B i j) * (2 / (net.dim 1 : ℝ)) := by
    intro i j
    rw [g2.act 0 (by omega)]
    unfold actBack
    rw [hk1]
    dsimp only
    have : D (0 + 1) = D net1.size := by rw [i1]
    rw [this, g1, i1, hV, i2]
    simp [lossGrad]
  have hres : ∀ i, resid ((net.L 0).n + 1) (augIn (net.L 0).n A) B θ i j = linPred (net.L 0).n W b A i j - B i j := by
    intro i
    rw [← resid_coefs]
    unfold resid
    congr 1
    refine sum_congr rfl fun k hk => ?_
    rw [i4 k j (by have := mem_range.1 hk; omega) hj]
  unfold lsqGrad coefs
  simp only [hres]
  by_cases h : k < (net.L 0).n
  · rw [if_pos h]
    simp only [gradW, fsum_real, hG0, augIn, if_pos h]
    rfl
  · rw [if_neg h]
    simp only [gradB, fsum_real, hG0, augIn, if_neg h, one_mul]

/-- The gradient of a softmax layer under the cross-entropy. -/
theorem gradIs_soft {m : Model ℝ} {net : Net ℝ} {r : Nat} {A B : Nat → Nat → ℝ} (hk : (net.L 0).kind = .softmax) (hm : m.lossType = 2) (l : Nat → Nat)
    (hB : ∀ i j, i < r → j < (net.L 0).o → B i j = oneHots l i j) :
    GradIs m .ce net r A B (smrGrad r (net.L 0).o ((net.L 0).n + 1) (augIn (net.L 0).n A) l) := by
  intro net1 W b u M G D θ i1 i2 i3 i4 hG k j hkn hj
  have hk1 : (net1.L 0).kind = .softmax := by rw [i3]; exact hk
  have hf : Fused m net1 := ⟨by rw [i1]; exact hk1, hm⟩
  obtain ⟨g1, -⟩ := hG.fused hf
  have hV : trainVals net1 r u A 1 = softPred (net.L 0).n (net.L 0).o W b A := by
    rw [trainVals_netOut _ _ _ _ (by intro k hk; obtain rfl : k = 0 := by omega
                                     rw [hk1]; decide)]
    show infer (net1.L 0) A = _
    rw [infer_softPred hk1, i3]
  have hsc : ∀ i j, j < (net.L 0).o → score ((net.L 0).n + 1) (augIn (net.L 0).n A) θ i j = linPred (net.L 0).n W b A i j := by
    intro i j hj
    rw [← score_coefs]
    unfold score
    refine sum_congr rfl fun k hk => ?_
    rw [i4 k j (by have := mem_range.1 hk; omega) hj]
  have hG0 : ∀ i, i < r → G 0 i j = pErr (net.L 0).o ((net.L 0).n + 1) (augIn (net.L 0).n A) l θ i j / r := by
    intro i hi
    rw [i1] at g1
    rw [show G 0 = fusedGrad r (trainVals net1 r u A 1) B from g1, hV]
    have hp : smaxP (net.L 0).o (score ((net.L 0).n + 1) (augIn (net.L 0).n A) θ i) j = softPred (net.L 0).n (net.L 0).o W b A i j := by
      unfold smaxP softPred
      rw [hsc i j hj, sum_congr rfl fun k hk => by rw [hsc i k (mem_range.1 hk)]]
    unfold fusedGrad pErr
    rw [hp, hB i j hi hj, oneHots]
    by_cases h : j = l i
    · simp [h, Flt.one]
    · simp [h, Flt.one]
  unfold smrGrad coefs
  by_cases h : k < (net.L 0).n
  · rw [if_pos h, gradW, fsum_real]
    refine sum_congr rfl fun i hi => ?_
    rw [hG0 i (mem_range.1 hi), augIn, if_pos h]
    rfl
  · rw [if_neg h, gradB, fsum_real]
    refine sum_congr rfl fun i hi => ?_
    rw [hG0 i (mem_range.1 hi), augIn, if_neg h, one_mul]

/-- A model with one layer of kind `kind` and loss `loss`, to be trained with SGD of rate α and momentum β > 0, whose optimizer has not been
used yet; and a data set of r samples. -/
structure BallTask (w : World ℝ) (m : Model ℝ) (net : Net ℝ) (op : Nat → Nat) (S : Nat → OptSpec ℝ) (kind : LayerKind) (loss : LossKind) (α β : ℝ)
    (X Y : Mat) (r : Nat) (A B : Nat → Nat → ℝ) : Prop where
  task : IsTask w m net op S
  size : net.size = 1
  kind : (net.L 0).kind = kind
  loss : m.loss = some ⟨loss, net.dim 1⟩
  opt : BallOpt (S 0) α β
  fresh : ∀ i j, (S 0).vw i j = 0 ∧ (S 0).vb i j = 0
  inputs : IsData w net X r (net.dim 0) A
  targets : IsData w net Y r (net.dim 1) B
  rows : r ≤ 2 ^ 53
  rate : 0 < α
  momPos : 0 < β
  momLt : β < 1

/-- The run of Fit, and the coefficients it ends with. -/
theorem BallTask.run {w : World ℝ} {m : Model ℝ} {net : Net ℝ} {op : Nat → Nat} {S : Nat → OptSpec ℝ} {kind : LayerKind} {loss : LossKind} {α β : ℝ}
    {X Y : Mat} {r : Nat} {A B : Nat → Nat → ℝ} (h : BallTask w m net op S kind loss α β X Y r A B) (hd : kind = .linear ∨ kind = .softmax)
    {g : (Nat → Nat → ℝ) → Nat → Nat → ℝ} (hg : GradIs m loss net r A B g) (xv yv : Mat) (t : Nat) :
    wp (fit m X Y t 0 xv yv 0) w (fun e w' => e = none ∧ ∃ net' S' W b, IsTask w' m net' op S' ∧ SameShape net net' ∧ net'.size = 1 ∧
      net'.dim = net.dim ∧ IsMat w' X r (net.dim 0) A ∧ IsMat w' Y r (net.dim 1) B ∧
      net'.L 0 = { net.L 0 with W := W, b := b } ∧ ∀ k j, k ≤ net.dim 0 → j < net.dim 1 →
        coefs (net.dim 0) W b k j = (ballIter g α β (coefs (net.dim 0) (net.L 0).W (net.L 0).b) t).1 k j) := by
  have hs := h.size
  have hn : (net.L 0).n = net.dim 0 := h.task.isNet.ins 0 (by omega)
  have ho : (net.L 0).o = net.dim 1 := h.task.isNet.outs 0 (by omega)
  refine wp_mono (C70_fit w m net op S h.task (fun k hk' => by obtain rfl : k = 0 := by omega
                                                               rw [h.kind]; rcases hd with rfl | rfl <;> decide) _ h.loss (by rw [hs]) X Y xv yv r A B
    h.inputs.mat (by rw [hs]; exact h.targets.mat) h.inputs.cap h.targets.cap h.inputs.sep h.targets.sep t 0 (by have := h.rows; omega)) ?_
  rintro e w' ⟨he, net', S', hD, hT', hsh, hX', hY', -⟩
  rw [hs] at hY'
  have hbl : (List.replicate (t : Int).toNat (blocks r 0)).flatten = List.replicate t (0, r) := by
    rw [Int.toNat_natCast, show blocks r 0 = [(0, r)] by simp [blocks], flatten_replicate_one]
  obtain ⟨h1, h2, ⟨W1, b1, h3, h4⟩, -⟩ := Descent.ball hs hg h.momPos.ne' h.opt h.fresh t hbl hD
  rw [hn, ho] at h4
  exact ⟨he, net', S', W1, b1, hT', hsh, h1, h2, hX', hY', h3, h4⟩

/-- C129, cross-entropy: full-batch SGD with momentum 0 < β < 1 on a softmax layer, with a learning rate of at most (1-β) / (2(1 + |xᵢ|²))
for all samples.  After any number of epochs the cross-entropy is at most the initial one; and after t ≥ 1 epochs it exceeds that of any
weights W and biases b, hence the least possible one, by at most ((1-β)/(2·rate)·|(W₀,b₀) - (W,b)|² + 2(1+β)/(1-β)²·(initial value)) / t. -/
theorem C129_softmax (w : World ℝ) (m : Model ℝ) (net : Net ℝ) (op : Nat → Nat) (S : Nat → OptSpec ℝ) (α β : ℝ) (X Y xv yv : Mat) (r : Nat)
    (A B : Nat → Nat → ℝ) (l : Nat → Nat) (h : BallTask w m net op S .softmax .ce α β X Y r A B) (hm : m.lossType = 2)
    (hl : ∀ i, i < r → l i < net.dim 1) (hB : ∀ i j, i < r → j < net.dim 1 → B i j = oneHots l i j)
    (hlr : ∀ i, i < r → α * (1 + ∑ k ∈ range (net.dim 0), A i k ^ 2) ≤ (1 - β) / 2) (t : Nat) :
    wp (fit m X Y t 0 xv yv 0) w (fun e w' => e = none ∧ ∃ net' S' F, IsTask w' m net' op S' ∧ SameShape net net' ∧
      NetComputes net' r A F ∧
      objective .ce r (net.dim 1) F B ≤ objective .ce r (net.dim 1) (softPred (net.dim 0) (net.dim 1) (net.L 0).W (net.L 0).b A) B ∧
      ∀ W b, 0 < t → objective .ce r (net.dim 1) F B ≤ objective .ce r (net.dim 1) (softPred (net.dim 0) (net.dim 1) W b A) B +
        ((1 - β) / (2 * α) * (∑ k ∈ range (net.dim 0), ∑ j ∈ range (net.dim 1), ((net.L 0).W k j - W k j) ^ 2 +
          ∑ j ∈ range (net.dim 1), ((net.L 0).b j - b j) ^ 2) +
        2 * (1 + β) / (1 - β) ^ 2 *
          objective .ce r (net.dim 1) (softPred (net.dim 0) (net.dim 1) (net.L 0).W (net.L 0).b A) B) / t) := by
  have hr : 0 < r := h.inputs.mat.rpos
  have hn : (net.L 0).n = net.dim 0 := h.task.isNet.ins 0 (by have := h.size; omega)
  have ho : (net.L 0).o = net.dim 1 := h.task.isNet.outs 0 (by have := h.size; omega)
  have hg := gradIs_soft (m := m) (net := net) (r := r) (A := A) (B := B) h.kind hm l (by rw [ho]; exact hB)
  rw [hn, ho] at hg
  refine wp_mono (h.run (Or.inr rfl) hg xv yv t) ?_
  rintro e w' ⟨he, net', S', W1, b1, hT', hsh, h1, h2, -, -, h3, h4⟩
  have hk' : (net'.L 0).kind = .softmax := by rw [h3]; exact h.kind
  have hF := netComputes_netOut (net := net') (by intro k hk2; obtain rfl : k = 0 := by omega
                                                  rw [hk']; decide) r A
  have hout : netOut net' A net'.size = softPred (net.dim 0) (net.dim 1) W1 b1 A := by
    rw [h1]
    show infer (net'.L 0) A = _
    rw [infer_softPred hk', h3, ← hn, ← ho]
  rw [hout] at hF
  have hR : ∀ i, i < r → ∑ k ∈ range (net.dim 0 + 1), augIn (net.dim 0) A i k ^ 2 ≤ (1 - β) / 2 / α := by
    intro i hi
    rw [aug_sq_row, le_div_iff₀ h.rate, mul_comm]
    exact hlr i hi
  have hlr' : α * ((1 - β) / 2 / α) ≤ (1 - β) / 2 := by rw [mul_div_cancel₀ _ h.rate.ne']
  have hobj := objective_softPred (n := net.dim 0) W1 b1 A B l hl hB
  rw [smr_congr _ l hl (fun k j hk hj => h4 k j (by omega) hj)] at hobj
  have hb := smrBall_bound hr _ l hl (coefs (net.dim 0) (net.L 0).W (net.L 0).b) h.rate h.momPos.le h.momLt hR hlr' t
  refine ⟨he, net', S', _, hT', hsh, hF, ?_, fun W b ht => ?_⟩
  · rw [hobj, objective_softPred _ _ _ _ l hl hB]
    exact hb.1
  · rw [hobj, objective_softPred _ _ _ _ l hl hB, objective_softPred _ _ _ _ l hl hB, ← sqDist_coefs]
    exact hb.2 _ ht

/-- C129, squared error: the same for a linear layer and the mean squared error of its c outputs, with a learning rate of at most
(1-β)·c / (2·Σᵢ(1 + |xᵢ|²)). -/
theorem C129_linear (w : World ℝ) (m : Model ℝ) (net : Net ℝ) (op : Nat → Nat) (S : Nat → OptSpec ℝ) (α β : ℝ) (X Y xv yv : Mat) (r : Nat)
    (A B : Nat → Nat → ℝ) (h : BallTask w m net op S .linear .mse α β X Y r A B)
    (hlr : α * ((∑ i ∈ range r, (1 + ∑ k ∈ range (net.dim 0), A i k ^ 2)) / (net.dim 1 : ℝ)) ≤ (1 - β) / 2) (t : Nat) :
    wp (fit m X Y t 0 xv yv 0) w (fun e w' => e = none ∧ ∃ net' S' F, IsTask w' m net' op S' ∧ SameShape net net' ∧
      NetComputes net' r A F ∧
      objective .mse r (net.dim 1) F B ≤ objective .mse r (net.dim 1) (linPred (net.dim 0) (net.L 0).W (net.L 0).b A) B ∧
      ∀ W b, 0 < t → objective .mse r (net.dim 1) F B ≤ objective .mse r (net.dim 1) (linPred (net.dim 0) W b A) B +
        ((1 - β) / (2 * α) * (∑ k ∈ range (net.dim 0), ∑ j ∈ range (net.dim 1), ((net.L 0).W k j - W k j) ^ 2 +
          ∑ j ∈ range (net.dim 1), ((net.L 0).b j - b j) ^ 2) +
        2 * (1 + β) / (1 - β) ^ 2 * objective .mse r (net.dim 1) (linPred (net.dim 0) (net.L 0).W (net.L 0).b A) B) / t) := by
  have hn : (net.L 0).n = net.dim 0 := h.task.isNet.ins 0 (by have := h.size; omega)
  have hg := gradIs_linear (m := m) (net := net) (r := r) (A := A) (B := B) h.kind
  rw [hn] at hg
  refine wp_mono (h.run (Or.inl rfl) hg xv yv t) ?_
  rintro e w' ⟨he, net', S', W1, b1, hT', hsh, h1, h2, -, -, h3, h4⟩
  have hk' : (net'.L 0).kind = .linear := by rw [h3]; exact h.kind
  have hF := netComputes_netOut (net := net') (by intro k hk2; obtain rfl : k = 0 := by omega
                                                  rw [hk']; decide) r A
  have hout : netOut net' A net'.size = linPred (net.dim 0) W1 b1 A := by
    rw [h1]
    show infer (net'.L 0) A = _
    rw [infer_linPred hk', h3, ← hn]
  rw [hout] at hF
  have hobj : objective .mse r (net.dim 1) (linPred (net.dim 0) W1 b1 A) B = lsq r (net.dim 1) (net.dim 0 + 1) (augIn (net.dim 0) A) B
      (ballIter (lsqGrad r (net.dim 1) (net.dim 0 + 1) (augIn (net.dim 0) A) B) α β (coefs (net.dim 0) (net.L 0).W (net.L 0).b) t).1 := by
    rw [objective_linPred]
    unfold lsq
    refine sum_congr rfl fun i _ => ?_
    congr 1
    refine sum_congr rfl fun j hj2 => ?_
    congr 1
    unfold resid
    congr 1
    refine sum_congr rfl fun k hk2 => ?_
    rw [h4 k j (by have := mem_range.1 hk2; omega) (mem_range.1 hj2)]
  rw [← aug_sq] at hlr
  have hb := lsqBall_bound r (net.dim 1) (net.dim 0 + 1) (augIn (net.dim 0) A) B (coefs (net.dim 0) (net.L 0).W (net.L 0).b) h.rate h.momPos.le
    h.momLt hlr t
  refine ⟨he, net', S', _, hT', hsh, hF, ?_, fun W b ht => ?_⟩
  · rw [hobj, objective_linPred]
    exact hb.1
  · rw [hobj, objective_linPred, objective_linPred, ← sqDist_coefs]
    exact hb.2 _ ht

/-- C130: with momentum, on linearly separable data, after some number T of epochs and forever after, the cross-entropy is below any ε > 0
that was chosen, the model gives every training sample a probability above 1/2 for its class, Predict returns the classes, and
CalculateAccuracy (categorical) returns 1. -/
theorem C130_separable (w : World ℝ) (m : Model ℝ) (net : Net ℝ) (op : Nat → Nat) (S : Nat → OptSpec ℝ) (α β : ℝ) (X Y xv yv : Mat) (r : Nat)
    (A B : Nat → Nat → ℝ) (l : Nat → Nat) (h : BallTask w m net op S .softmax .ce α β X Y r A B) (hm : m.lossType = 2)
    (hl : ∀ i, i < r → l i < net.dim 1) (hB : ∀ i j, i < r → j < net.dim 1 → B i j = oneHots l i j)
    (hlr : ∀ i, i < r → α * (1 + ∑ k ∈ range (net.dim 0), A i k ^ 2) ≤ (1 - β) / 2) (hacc : m.accType = 1) (hbig : net.dim 1 ≤ 2 ^ 53)
    (hsep : Separable (net.dim 0) (net.dim 1) r A l) (ε : ℝ) (hε : 0 < ε) :
    ∃ T : Nat, ∀ t : Nat, T ≤ t → wp (fit m X Y t 0 xv yv 0) w (fun e w' => e = none ∧
      (∃ net' F, IsNet w' m net' ∧ NetComputes net' r A F ∧ objective .ce r (net.dim 1) F B < ε ∧ ∀ i, i < r → 1 / 2 < F i (l i)) ∧
      wp (predict m X) w' (fun p w'' => p.2 = none ∧ IsMat w'' p.1 r 1 fun i _ => (l i : ℝ)) ∧
      wp (calculateAccuracy m X Y) w' (fun p _ => p = (1, none))) := by
  have hr : 0 < r := h.inputs.mat.rpos
  have hrr : (0 : ℝ) < r := by exact_mod_cast hr
  have hn : (net.L 0).n = net.dim 0 := h.task.isNet.ins 0 (by have := h.size; omega)
  have ho : (net.L 0).o = net.dim 1 := h.task.isNet.outs 0 (by have := h.size; omega)
  have hg := gradIs_soft (m := m) (net := net) (r := r) (A := A) (B := B) h.kind hm l (by rw [ho]; exact hB)
  rw [hn, ho] at hg
  have hR : ∀ i, i < r → ∑ k ∈ range (net.dim 0 + 1), augIn (net.dim 0) A i k ^ 2 ≤ (1 - β) / 2 / α := by
    intro i hi
    rw [aug_sq_row, le_div_iff₀ h.rate, mul_comm]
    exact hlr i hi
  have hlr' : α * ((1 - β) / 2 / α) ≤ (1 - β) / 2 := by rw [mul_div_cancel₀ _ h.rate.ne']
  obtain ⟨Ws, bs, hmg⟩ := hsep.margin
  obtain ⟨T, hT⟩ := smrBall_separable hr (augIn (net.dim 0) A) l hl (coefs (net.dim 0) (net.L 0).W (net.L 0).b) (coefs (net.dim 0) Ws bs)
    (p := net.dim 0 + 1) (by simpa only [score_coefs] using hmg) h.rate h.momPos.le h.momLt hR hlr' (ε := min ε (Real.log 2 / r))
    (lt_min hε (div_pos (Real.log_pos (by norm_num)) hrr))
  refine ⟨T, fun t ht => wp_mono (h.run (Or.inr rfl) hg xv yv t) ?_⟩
  rintro e w' ⟨he, net', S', W1, b1, hT', hsh, h1, h2, hX', hY', h3, h4⟩
  have hk' : (net'.L 0).kind = .softmax := by rw [h3]; exact h.kind
  have hF := netComputes_netOut (net := net') (by intro k hk2; obtain rfl : k = 0 := by omega
                                                  rw [hk']; decide) r A
  have hout : netOut net' A net'.size = softPred (net.dim 0) (net.dim 1) W1 b1 A := by
    rw [h1]
    show infer (net'.L 0) A = _
    rw [infer_softPred hk', h3, ← hn, ← ho]
  rw [hout] at hF
  have hlt := hT t ht
  rw [lt_min_iff, ← smr_congr _ l hl (fun k j hk hj => h4 k j (by omega) hj)] at hlt
  have hmaj : ∀ i, i < r → 1 / 2 < softPred (net.dim 0) (net.dim 1) W1 b1 A i (l i) := by
    intro i hi
    rw [← smaxP_coefs]
    exact smr_correct _ l hl _ hlt.2 hi
  have hbest : ∀ i, i < r → (bestCol (netOut net' A net'.size i) (net.dim 1)).1 = l i := by
    intro i hi
    rw [hout]
    exact bestCol_softPred (hl i hi) (hmaj i hi)
  have hBh := behaves_self hT'.isNet hT'.pos h.loss (by rw [h1, h2]) (by rw [h1, h2]; exact hbig) (Or.inr (Or.inl hacc))
  rw [h1, h2] at hBh
  refine ⟨he, ⟨net', _, hT'.isNet, hF, ?_, hmaj⟩, ?_, ?_⟩
  · rw [objective_softPred _ _ _ _ l hl hB]
    exact hlt.1
  · refine wp_mono (hBh.predict X r A hX') ?_
    rintro p w'' ⟨he2, -, hp, -⟩
    refine ⟨he2, (hp hacc).congr fun i j hi _ => ?_⟩
    rw [hbest i hi]
    simp
  · refine wp_mono (hBh.accuracy X Y ⟨r, A, B⟩ hX' hY') ?_
    rintro p w'' rfl
    congr 1
    unfold accOf
    rw [if_neg (by omega), if_pos hacc]
    have : rowsWith r (fun i => Flt.eq (B i (bestCol (netOut net' A net'.size i) (net.dim 1)).1) Flt.one) = r := by
      unfold rowsWith
      rw [filter_true_of_mem, card_range]
      intro i hi
      have hi := mem_range.1 hi
      dsimp only
      rw [hbest i hi, hB i (l i) hi (hl i hi), oneHots, if_pos rfl]
      simp [Flt.one]
    dsimp only
    rw [this]
    simp [hrr.ne']

/-- C130, the whole program: make a softmax model for linearly separable data, with random weights and an SGD optimizer with momentum and a
small enough learning rate, and train it for t epochs.  Whatever the random numbers, for all large enough t nothing fails, Predict returns
the class of every training sample, and CalculateAccuracy returns 1. -/
theorem C130_program (w : World ℝ) (n c : Nat) (hn : 0 < n) (hn2 : n ≤ 2 ^ 53) (hc2 : c ≤ 2 ^ 53) (α β : ℝ) (o : Optim ℝ)
    (ho : newSGDOptimizer α 0 β = (o, none)) (prec : ℝ) (hp : 0 ≤ prec) (X Y : Mat) (r : Nat) (A B : Nat → Nat → ℝ) (l : Nat → Nat)
    (hX : IsMat w X r n A) (hY : IsMat w Y r c B) (hcX : r ≤ X.m.cap) (hcY : r ≤ Y.m.cap) (hr : r ≤ 2 ^ 53)
    (hl : ∀ i, i < r → l i < c) (hB : ∀ i j, i < r → j < c → B i j = oneHots l i j) (h0 : 0 < α) (hb0 : 0 < β) (hb1 : β < 1)
    (hlr : ∀ i, i < r → α * (1 + ∑ k ∈ range n, A i k ^ 2) ≤ (1 - β) / 2) (hsep : Separable n c r A l) :
    ∃ T : Nat, ∀ t : Nat, T ≤ t → wp (trainNew (fun _ => ⟨.softmax, n, c, 0, 0⟩) 1 ⟨.ce, c⟩ o 1 prec X Y t 0) w (fun p w' => p.2 = none ∧
      wp (predict p.1 X) w' (fun q w'' => q.2 = none ∧ IsMat w'' q.1 r 1 fun i _ => (l i : ℝ)) ∧
      wp (calculateAccuracy p.1 X Y) w' (fun q _ => q = (1, none))) := by
  have hc : 0 < c := hY.cpos
  have hmk := C71_make w (fun _ => (⟨.softmax, n, c, 0, 0⟩ : LayerArg ℝ)) (fun _ => by dsimp only; omega) 1 ⟨.ce, c⟩ (by dsimp only; omega)
    (by dsimp only; omega) o 1 prec
  obtain ⟨⟨m, e⟩, w1, hrun, hf, hiff, hm⟩ := wp_iff.1 hmk
  dsimp only at hiff hm
  obtain rfl : e = none := hiff.2 ⟨⟨fun i _ => ⟨by dsimp only; omega, by dsimp only; omega, (fun h => by cases h), (fun h => by cases h)⟩,
    fun i hi => by omega⟩, Nat.one_pos, rfl, by simpa [Flt.zero] using hp⟩
  obtain ⟨net, op, hM⟩ := hm rfl
  have hs0 := hM.start 0 hM.task.pos
  have d0 : net.dim 0 = n := by
    have h1 := hM.task.isNet.ins 0 hM.task.pos
    have h2 := hs0.2.1
    dsimp only at h2
    omega
  have d1 : net.dim 1 = c := by
    have h1 := hM.lossSize
    rw [hM.size] at h1
    dsimp only at h1
    omega
  have hT : BallTask w1 m net op (fun _ => OptSpec.fresh (optFrom o)) .softmax .ce α β X Y r A B := by
    refine ⟨hM.task, hM.size, hs0.1, by rw [hM.hasLoss, d1], ?_, fun _ _ => by simp [OptSpec.fresh, Flt.zero], ⟨?_, hcX, fun x h1 h2 => ?_⟩, ⟨?_, hcY, fun x h1 h2 => ?_⟩,
      hr, h0, hb0, hb1⟩
    · rw [newSGD_ok ho]; exact ⟨rfl, rfl, rfl, rfl⟩
    · rw [d0]; exact hX.frame hf (fun h => h) (fun _ _ h => h)
    · have := hM.params x h1
      have := hX.isRow_lt ((hX.isRow_frame hf (fun h => h) x).1 h2)
      omega
    · rw [d1]; exact hY.frame hf (fun h => h) (fun _ _ h => h)
    · have := hM.params x h1
      have := hY.isRow_lt ((hY.isRow_frame hf (fun h => h) x).1 h2)
      omega
  obtain ⟨T, hT⟩ := C130_separable w1 m net op _ α β X Y Mat.zero Mat.zero r A B l hT hM.lossType (by rw [d1]; exact hl) (by rw [d1]; exact hB)
    (by rw [d0]; exact hlr) hM.accType (by rw [d1]; exact hc2) (by rw [d0, d1]; exact hsep) 1 one_pos
  refine ⟨T, fun t ht => ?_⟩
  unfold trainNew
  refine wp_bind_ok hrun ?_
  dsimp only
  refine wp_bind_mono (hT t ht) ?_
  rintro e w2 ⟨rfl, -, h1, h2⟩
  exact wp_pure.2 ⟨rfl, h1, h2⟩

/-- Hypotheses of C129_softmax and C130_separable: a softmax layer with two inputs and two outputs, four samples, learning rate 1/380 and
momentum 9/10. -/
example : ∃ (w : World ℝ) (m : Model ℝ) (net : Net ℝ) (op : Nat → Nat) (S : Nat → OptSpec ℝ) (X Y : Mat) (A B : Nat → Nat → ℝ) (l : Nat → Nat),
    BallTask w m net op S .softmax .ce (1 / 380) (9 / 10) X Y 4 A B ∧ m.lossType = 2 ∧ (∀ i, i < 4 → l i < net.dim 1) ∧
    (∀ i j, i < 4 → j < net.dim 1 → B i j = oneHots l i j) ∧
    (∀ i, i < 4 → (1 / 380 : ℝ) * (1 + ∑ k ∈ range (net.dim 0), A i k ^ 2) ≤ (1 - 9 / 10) / 2) ∧ m.accType = 1 ∧ net.dim 1 ≤ 2 ^ 53 ∧
    Separable (net.dim 0) (net.dim 1) 4 A l := by
  obtain ⟨o, ho⟩ := sgd_ok_real (lr := 1 / 380) (decay := 0) (mom := 9 / 10) (by norm_num) le_rfl (by norm_num)
  have hrows : o.weightMomentums.rows = 0 := by rw [newSGD_ok ho]; rfl
  obtain ⟨w, net, op, XM, YM, xM, yM, -, hs, hL, hdim, hT, dX, dY, -, -⟩ := exists_task (emptyWorld : World ℝ) 1 Nat.one_pos
    softUnit (fun _ => ⟨Nat.two_pos, Nat.two_pos⟩) (fun _ => rfl) { newModel with loss := some ⟨.ce, 2⟩, lossType := 2, accType := 1 } o
    (OptSpec.fresh o) hrows (fun w p i hlt e => e ▸ isOpt_newSGD _ _ _ _ hlt (e.symm ▸ ho)) (r := 4) (r' := 1) (by decide) Nat.one_pos
    (fun i _ => (i : ℝ)) (oneHots fun i => i / 2) (fun _ _ => 0) (fun _ _ => 0)
  have d0 : net.dim 0 = 2 := by rw [hdim]; rfl
  have d1 : net.dim 1 = 2 := by rw [hdim]; rfl
  refine ⟨w, _, net, op, _, XM, YM, fun i _ => (i : ℝ), oneHots fun i => i / 2, fun i => i / 2, ⟨hT, hs, by rw [hL]; rfl, by rw [d1]; rfl, ?_,
    fun _ _ => by simp [OptSpec.fresh, Flt.zero], ?_, ?_, by norm_num, by norm_num, by norm_num, by norm_num⟩, rfl, ?_, fun _ _ _ _ => rfl, ?_, rfl, by rw [d1]; norm_num, ?_⟩
  · rw [newSGD_ok ho]; exact ⟨rfl, rfl, rfl, rfl⟩
  · rw [d0]; exact dX
  · rw [d1]; exact dY
  · intro i hi
    rw [d1]; dsimp only
    omega
  · intro i hi
    rw [d0]
    have h4 : i = 0 ∨ i = 1 ∨ i = 2 ∨ i = 3 := by omega
    rcases h4 with rfl | rfl | rfl | rfl <;> norm_num [sum_range_succ]
  · rw [d0, d1]
    exact separable_pair

/-- Hypotheses of C129_linear: a linear layer with two inputs and two outputs, three samples, learning rate 1/130 and momentum 9/10. -/
example : ∃ (w : World ℝ) (m : Model ℝ) (net : Net ℝ) (op : Nat → Nat) (S : Nat → OptSpec ℝ) (X Y : Mat) (A B : Nat → Nat → ℝ),
    BallTask w m net op S .linear .mse (1 / 130) (9 / 10) X Y 3 A B ∧
    (1 / 130 : ℝ) * ((∑ i ∈ range 3, (1 + ∑ k ∈ range (net.dim 0), A i k ^ 2)) / (net.dim 1 : ℝ)) ≤ (1 - 9 / 10) / 2 := by
  obtain ⟨o, ho⟩ := sgd_ok_real (lr := 1 / 130) (decay := 0) (mom := 9 / 10) (by norm_num) le_rfl (by norm_num)
  have hrows : o.weightMomentums.rows = 0 := by rw [newSGD_ok ho]; rfl
  obtain ⟨w, net, op, XM, YM, xM, yM, -, hs, hL, hdim, hT, dX, dY, -, -⟩ := exists_task (emptyWorld : World ℝ) 1 Nat.one_pos
    pairUnit (fun _ => ⟨Nat.two_pos, Nat.two_pos⟩) (fun _ => rfl) { newModel with loss := some ⟨.mse, 2⟩, lossType := 0 } o
    (OptSpec.fresh o) hrows (fun w p i hlt e => e ▸ isOpt_newSGD _ _ _ _ hlt (e.symm ▸ ho)) (r := 3) (r' := 1) (by decide) Nat.one_pos
    (fun i _ => (i : ℝ)) (fun i j => (i : ℝ) - j) (fun _ _ => 0) (fun _ _ => 0)
  have d0 : net.dim 0 = 2 := by rw [hdim]; rfl
  have d1 : net.dim 1 = 2 := by rw [hdim]; rfl
  refine ⟨w, _, net, op, _, XM, YM, fun i _ => (i : ℝ), fun i j => (i : ℝ) - j, ⟨hT, hs, by rw [hL]; rfl, by rw [d1]; rfl, ?_,
    fun _ _ => by simp [OptSpec.fresh, Flt.zero], ?_, ?_, by norm_num, by norm_num, by norm_num, by norm_num⟩, ?_⟩
  · rw [newSGD_ok ho]; exact ⟨rfl, rfl, rfl, rfl⟩
  · rw [d0]; exact dX
  · rw [d1]; exact dY
  · rw [d0, d1]
    norm_num [sum_range_succ, sum_range_zero]

/-- Hypotheses of C130_program: the same samples, in a state without any model. -/
example : ∃ (w : World ℝ) (o : Optim ℝ) (X Y : Mat) (A B : Nat → Nat → ℝ) (l : Nat → Nat),
    newSGDOptimizer (1 / 380 : ℝ) 0 (9 / 10) = (o, none) ∧
    IsMat w X 4 2 A ∧ IsMat w Y 4 2 B ∧ 4 ≤ X.m.cap ∧ 4 ≤ Y.m.cap ∧ (∀ i, i < 4 → l i < 2) ∧ (∀ i j, i < 4 → j < 2 → B i j = oneHots l i j) ∧
    (∀ i, i < 4 → (1 / 380 : ℝ) * (1 + ∑ k ∈ range 2, A i k ^ 2) ≤ (1 - 9 / 10) / 2) ∧ Separable 2 2 4 A l := by
  obtain ⟨o, ho⟩ := sgd_ok_real (lr := 1 / 380) (decay := 0) (mom := 9 / 10) (by norm_num) le_rfl (by norm_num)
  obtain ⟨w, net, op, XM, YM, xM, yM, -, hs, hL, hdim, hT, dX, dY, -, -⟩ := exists_task (emptyWorld : World ℝ) 1 Nat.one_pos
    softUnit (fun _ => ⟨Nat.two_pos, Nat.two_pos⟩) (fun _ => rfl) newModel o
    (OptSpec.fresh o) (by rw [newSGD_ok ho]; rfl) (fun w p i hlt e => e ▸ isOpt_newSGD _ _ _ _ hlt (e.symm ▸ ho)) (r := 4) (r' := 1) (by decide) Nat.one_pos
    (fun i _ => (i : ℝ)) (oneHots fun i => i / 2) (fun _ _ => 0) (fun _ _ => 0)
  refine ⟨w, o, XM, YM, fun i _ => (i : ℝ), oneHots fun i => i / 2, fun i => i / 2, ho, dX.mat, dY.mat, dX.cap, dY.cap, fun i hi => ?_,
    fun _ _ _ _ => rfl, fun i hi => ?_, separable_pair⟩
  · dsimp only
    omega
  · have h4 : i = 0 ∨ i = 1 ∨ i = 2 ∨ i = 3 := by omega
    rcases h4 with rfl | rfl | rfl | rfl <;> norm_num [sum_range_succ]

end NN
