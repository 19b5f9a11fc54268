import Verif.Props.C129_C130
import Verif.Props.C100
import Verif.Real.AbsDev
/- C133: training on the mean absolute error.  With two or more outputs it never changes a parameter; with one output it is subgradient
descent. -/

set_option linter.unusedSectionVars false

namespace NN
open Go Finset

/-! ### Two or more outputs -/

/-- An optimizer that is at rest: plain SGD, or no velocity (first moment) so far. -/
def OptSpec.Resting (S : OptSpec ℝ) : Prop := (S.kind = .sgd ∧ S.momentum = 0) ∨ ∀ i j, S.vw i j = 0 ∧ S.vb i j = 0

theorem lossGrad_mae_zero {r c : Nat} (hc : 1 < c) (P Y : Nat → Nat → ℝ) (i j : Nat) : lossGrad .mae r c P Y i j = 0 := by
  have e1 : Int.tdiv 1 (c : Int) = 0 := Int.tdiv_eq_zero_of_lt (by omega) (by omega)
  have e2 : Int.tdiv (-1) (c : Int) = 0 := by rw [Int.neg_tdiv, e1]; rfl
  unfold lossGrad
  dsimp only
  rw [e1, e2]
  split
  · simp
  · split <;> simp [Flt.zero]

theorem gradX_zero {L : LayerSpec ℝ} {G : Nat → Nat → ℝ} (h : ∀ i j, G i j = 0) (i k : Nat) : gradX L G i k = 0 := by
  unfold gradX
  rw [fsum_real]
  exact sum_eq_zero fun j _ => by rw [h]; exact zero_mul _

theorem actBack_null {L : LayerSpec ℝ} {P M D : Nat → Nat → ℝ} (h : ∀ i j, D i j = 0) (i j : Nat) : actBack L P M D i j = 0 := by
  unfold actBack
  cases L.kind <;> dsimp only
  case linear => exact h i j
  case sigmoid => exact h i j
  case softmax =>
    rw [fsum_real]
    exact sum_eq_zero fun j _ => by rw [h]; exact mul_zero _
  all_goals
    split
    · first | (simp [Flt.zero]; done) | (rw [h]; exact zero_mul _)
    · first | exact h i j | (rw [h]; exact zero_mul _)

/-- All gradients are zero. -/
theorem netGrad_zero {m : Model ℝ} {net : Net ℝ} {r : Nat} {V M G D : Nat → Nat → Nat → ℝ} {Y : Nat → Nat → ℝ} (hm : m.lossType ≠ 2)
    (hc : 1 < net.dim net.size) (h : NetGrad m net .mae r V M Y G D) : ∀ k, k < net.size → ∀ i j, G k i j = 0 := by
  obtain ⟨a1, a2⟩ := h.plain fun hF => hm hF.2
  have hD : ∀ q, q ≤ net.size → ∀ i j, D (net.size - q) i j = 0 := by
    intro q
    induction q with
    | zero =>
      intro _ i j
      rw [Nat.sub_zero, a1]
      exact lossGrad_mae_zero hc _ _ i j
    | succ q ih =>
      intro hq i j
      have e : net.size - (q + 1) + 1 = net.size - q := by omega
      rw [a2.inp _ (by omega)]
      refine gradX_zero (fun i j => ?_) i j
      rw [a2.act _ (by omega), e]
      exact actBack_null (ih (by omega)) i j
  intro k hk i j
  rw [a2.act k hk]
  refine actBack_null (fun i j => ?_) i j
  have := hD (net.size - (k + 1)) (by omega) i j
  rwa [show net.size - (net.size - (k + 1)) = k + 1 by omega] at this

theorem OptSpec.Resting.upd {S : OptSpec ℝ} (h : S.Resting) (i j : Nat) (x c : ℝ) : S.upd x (S.vw i j) c 0 = x ∧ S.upd x (S.vb i j) c 0 = x := by
  unfold OptSpec.upd OptSpec.vel
  rcases h with ⟨h1, h2⟩ | h
  · rw [h1, h2]
    simp [Flt.zero]
  · rw [(h i j).1, (h i j).2]
    cases S.kind <;> dsimp only
    · split <;> simp
    · simp

theorem OptSpec.Resting.step {S : OptSpec ℝ} (h : S.Resting) {GW GB : Nat → Nat → ℝ} (hW : ∀ i j, GW i j = 0) (hB : ∀ i j, GB i j = 0) :
    (S.step GW GB).Resting := by
  rcases h with h | h
  · exact .inl h
  · refine .inr fun i j => ?_
    unfold OptSpec.step OptSpec.vel
    dsimp only
    rw [(h i j).1, (h i j).2, hW, hB]
    cases S.kind <;> dsimp only
    · split <;> simp
    · simp

theorem descent_frozen {m : Model ℝ} {u : Nat → ℝ} {A B : Nat → Nat → ℝ} {net : Net ℝ} {S : Nat → OptSpec ℝ} {p : Nat} (hm : m.lossType ≠ 2)
    (hc : 1 < net.dim net.size) (hS : ∀ i, i < net.size → (S i).Resting) (bs : List (Nat × Nat)) {net' : Net ℝ} {S' : Nat → OptSpec ℝ} {p' : Nat}
    (h : Descent m .mae u A B net S p bs net' S' p') :
    net'.size = net.size ∧ net'.dim = net.dim ∧ ∀ i, i < net.size → net'.L i = net.L i ∧ (S' i).Resting := by
  induction bs using List.reverseRecOn generalizing net' S' p' with
  | nil =>
    obtain ⟨rfl, rfl, rfl⟩ := h.nil
    exact ⟨rfl, rfl, fun i hi => ⟨rfl, hS i hi⟩⟩
  | append_singleton bs b ih =>
    obtain ⟨net1, S1, p1, a1, ⟨G, D, g, rfl, rfl⟩, rfl⟩ := h.snoc
    obtain ⟨i1, i2, i3⟩ := ih a1
    refine ⟨i1, i2, fun i hi => ?_⟩
    have hG := netGrad_zero hm (by rw [i1, i2]; exact hc) g i (by omega)
    have hW : ∀ k j, gradW b.2 (trainVals net1 b.2 (fun q => u (p1 + q)) (fun i j => A (b.1 + i) j) i) (G i) k j = 0 := by
      intro k j
      unfold gradW
      rw [fsum_real]
      exact sum_eq_zero fun q _ => by rw [hG]; exact mul_zero _
    have hB : ∀ k j, gradB b.2 (G i) k j = 0 := by
      intro k j
      unfold gradB
      rw [fsum_real]
      exact sum_eq_zero fun q _ => by rw [hG]
    obtain ⟨j1, j2⟩ := i3 i hi
    refine ⟨?_, j2.step hW hB⟩
    rw [← j1]
    unfold stepNet OptSpec.newW OptSpec.newB
    dsimp only
    simp only [hW, hB, j2.upd]

/-- C133, two or more outputs: Fit on the mean absolute error, with any layers but sigmoid ones, any data, any optimizers that are fresh or
plain, any number of epochs and any batch size.  It succeeds and changes no weight and no bias. -/
theorem C133_frozen (w : World ℝ) (m : Model ℝ) (net : Net ℝ) (op : Nat → Nat) (S : Nat → OptSpec ℝ) (X Y xv yv : Mat) (n : Nat)
    (A B : Nat → Nat → ℝ) (h : Trains w m net op S .mae X Y n A B) (hm : m.lossType ≠ 2) (hc : 2 ≤ net.dim net.size)
    (hS : ∀ i, i < net.size → (S i).Resting) (epochs : Int) (b : Nat) (hbig : n + b ≤ 2 ^ 53) :
    wp (fit m X Y epochs b xv yv 0) w fun e w' => e = none ∧ ∃ net' S', IsTask w' m net' op S' ∧ SameShape net net' ∧
      IsMat w' X n (net.dim 0) A ∧ IsMat w' Y n (net.dim net.size) B ∧ ∀ i, i < net.size → net'.L i = net.L i := by
  refine wp_mono (C70_fit w m net op S h.task h.noSig _ h.loss rfl X Y xv yv n A B h.xs.mat h.ys.mat h.xs.cap h.ys.cap h.xs.sep h.ys.sep
    epochs b hbig) ?_
  rintro e w' ⟨he, net', S', hD, hT, hsh, hX, hY, -⟩
  exact ⟨he, net', S', hT, hsh, hX, hY, fun i hi => ((descent_frozen hm hc hS _ hD).2.2 i hi).1⟩

/-! ### One output -/

/-- The state of full-batch plain gradient descent on one layer after t epochs. -/
structure PlainState (net : Net ℝ) (g : (Nat → Nat → ℝ) → Nat → Nat → ℝ) (lr : ℝ) (t : Nat) (net' : Net ℝ) (S' : Nat → OptSpec ℝ) : Prop where
  size : net'.size = 1
  dim : net'.dim = net.dim
  layer : ∃ W b, net'.L 0 = { net.L 0 with W := W, b := b } ∧ ∀ k j, k ≤ (net.L 0).n → j < (net.L 0).o → coefs (net.L 0).n W b k j =
    stepIter g lr (coefs (net.L 0).n (net.L 0).W (net.L 0).b) t k j
  opt : BallOpt (S' 0) lr 0

theorem Descent.plain {m : Model ℝ} {loss : LossKind} {u : Nat → ℝ} {A B : Nat → Nat → ℝ} {net : Net ℝ} {S : Nat → OptSpec ℝ} {p : Nat} {r : Nat}
    {g : (Nat → Nat → ℝ) → Nat → Nat → ℝ} {lr : ℝ} (hs : net.size = 1) (hg : GradIs m loss net r A B g) (hS : BallOpt (S 0) lr 0) (t : Nat) :
    ∀ {net' : Net ℝ} {S' : Nat → OptSpec ℝ} {p' : Nat},
      Descent m loss u A B net S p (List.replicate t (0, r)) net' S' p' → PlainState net g lr t net' S' := by
  induction t with
  | zero =>
    intro net' S' p' h
    obtain ⟨rfl, rfl, rfl⟩ := h.nil
    exact ⟨hs, rfl, ⟨_, _, rfl, fun _ _ _ _ => rfl⟩, hS⟩
  | succ t ih =>
    intro net' S' p' h
    rw [List.replicate_succ'] at h
    obtain ⟨net1, S1, p1, hD0, hstep, rfl⟩ := h.snoc
    obtain ⟨i1, i2, ⟨W, b, i3, i4⟩, s1, s2, s3, s4⟩ := ih hD0
    simp only [Nat.zero_add] at hstep
    obtain ⟨G, D, hG, rfl, rfl⟩ := hstep
    have hgr := hg net1 W b _ _ G D _ i1 i2 i3 i4 hG
    set x := stepIter g lr (coefs (net.L 0).n (net.L 0).W (net.L 0).b) t with hx
    set V := trainVals net1 r (fun q => u (p1 + q)) A with hV
    have hrate : (S1 0).rate = lr := by
      unfold OptSpec.rate
      rw [s3, if_pos (by simp [Flt.zero]), s4]
    have hupd : ∀ y z q d : ℝ, (S1 0).upd y z q d = y - d * lr := by
      intro y z q d
      unfold OptSpec.upd
      rw [s1, s2, hrate]
      dsimp only
      rw [if_pos (by simp [Flt.zero])]
      rfl
    refine ⟨i1, i2, ⟨(S1 0).newW (net1.L 0).W (gradW r (V 0) (G 0)), fun j => (S1 0).newB (fun _ j => (net1.L 0).b j) (gradB r (G 0)) 0 j, ?_,
      fun k j hk hj => ?_⟩, s1, s2, s3, s4⟩
    · unfold stepNet
      dsimp only
      rw [i3]
    · show _ = x k j - g x k j * lr
      rw [← hgr k j hk hj, ← i4 k j hk hj]
      unfold coefs OptSpec.newW OptSpec.newB
      rw [i3]
      simp only [hupd]
      split <;> rfl

/-- The gradient of a linear layer with one output under the absolute error. -/
theorem gradIs_abs {m : Model ℝ} {net : Net ℝ} {r : Nat} {A B : Nat → Nat → ℝ} (hk : (net.L 0).kind = .linear) (hd : net.dim 1 = 1) :
    GradIs m .mae net r A B (ladGrad r ((net.L 0).n + 1) (augIn (net.L 0).n A) B) := by
  intro net1 W b u M G D θ i1 i2 i3 i4 hG k j hkn hj
  have hk1 : (net1.L 0).kind = .linear := by rw [i3]; exact hk
  have hf : ¬ Fused m net1 := by
    intro hf
    have := hf.1
    rw [i1, hk1] at this
    cases this
  obtain ⟨g1, g2⟩ := hG.plain hf
  have hV : trainVals net1 r u A 1 = linPred (net.L 0).n W b A := by
    rw [trainVals_netOut _ _ _ _ (by intro k hk; obtain rfl : k = 0 := by omega
                                     rw [hk1]; decide)]
    show infer (net1.L 0) A = _
    rw [infer_linPred hk1, i3]
  have hG0 : ∀ i j, G 0 i j = sgn (linPred (net.L 0).n W b A i j - B i j) := by
    intro i j
    rw [g2.act 0 (by omega)]
    unfold actBack
    rw [hk1]
    dsimp only
    have : D (0 + 1) = D net1.size := by rw [i1]
    rw [this, g1, i1, hV, i2, hd]
    simp [lossGrad, sgn, Flt.zero]
  have hres : ∀ i, resid ((net.L 0).n + 1) (augIn (net.L 0).n A) B θ i j = linPred (net.L 0).n W b A i j - B i j := by
    intro i
    rw [← resid_coefs]
    unfold resid
    congr 1
    refine sum_congr rfl fun k hk => ?_
    rw [i4 k j (by have := mem_range.1 hk; omega) hj]
  unfold ladGrad coefs
  simp only [hres]
  by_cases h : k < (net.L 0).n
  · rw [if_pos h]
    simp only [gradW, fsum_real, hG0, augIn, if_pos h]
    rfl
  · rw [if_neg h]
    simp only [gradB, fsum_real, hG0, augIn, if_neg h, one_mul]

/-- A model with one linear layer, to be trained with plain SGD of rate lr on the loss `loss`; and a data set of r samples. -/
structure PlainTask (w : World ℝ) (m : Model ℝ) (net : Net ℝ) (op : Nat → Nat) (S : Nat → OptSpec ℝ) (loss : LossKind) (lr : ℝ)
    (X Y : Mat) (r : Nat) (A B : Nat → Nat → ℝ) : Prop where
  task : IsTask w m net op S
  size : net.size = 1
  kind : (net.L 0).kind = .linear
  loss : m.loss = some ⟨loss, net.dim 1⟩
  opt : (S 0).kind = .sgd ∧ (S 0).momentum = 0 ∧ (S 0).decay = 0 ∧ (S 0).lr = lr
  inputs : IsData w net X r (net.dim 0) A
  targets : IsData w net Y r (net.dim 1) B
  rows : r ≤ 2 ^ 53

/-- The run of Fit, and the coefficients it ends with. -/
theorem PlainTask.run {w : World ℝ} {m : Model ℝ} {net : Net ℝ} {op : Nat → Nat} {S : Nat → OptSpec ℝ} {loss : LossKind} {lr : ℝ}
    {X Y : Mat} {r : Nat} {A B : Nat → Nat → ℝ} (h : PlainTask w m net op S loss lr X Y r A B)
    {g : (Nat → Nat → ℝ) → Nat → Nat → ℝ} (hg : GradIs m loss net r A B g) (xv yv : Mat) (t : Nat) :
    wp (fit m X Y t 0 xv yv 0) w (fun e w' => e = none ∧ ∃ net' S' W b, IsTask w' m net' op S' ∧ SameShape net net' ∧
      net'.L 0 = { net.L 0 with W := W, b := b } ∧ NetComputes net' r A (linPred (net.dim 0) W b A) ∧ ∀ k j, k ≤ net.dim 0 → j < net.dim 1 →
        coefs (net.dim 0) W b k j = stepIter g lr (coefs (net.dim 0) (net.L 0).W (net.L 0).b) t k j) := by
  have hs := h.size
  have hn : (net.L 0).n = net.dim 0 := h.task.isNet.ins 0 (by omega)
  have ho : (net.L 0).o = net.dim 1 := h.task.isNet.outs 0 (by omega)
  refine wp_mono (C70_fit w m net op S h.task (fun k hk' => by obtain rfl : k = 0 := by omega
                                                               rw [h.kind]; decide) _ h.loss (by rw [hs]) X Y xv yv r A B
    h.inputs.mat (by rw [hs]; exact h.targets.mat) h.inputs.cap h.targets.cap h.inputs.sep h.targets.sep t 0 (by have := h.rows; omega)) ?_
  rintro e w' ⟨he, net', S', hD, hT', hsh, -⟩
  have hbl : (List.replicate (t : Int).toNat (blocks r 0)).flatten = List.replicate t (0, r) := by
    rw [Int.toNat_natCast, show blocks r 0 = [(0, r)] by simp [blocks], flatten_replicate_one]
  rw [hbl] at hD
  obtain ⟨h1, h2, ⟨W1, b1, h3, h4⟩, -⟩ := Descent.plain hs hg h.opt t hD
  rw [hn, ho] at h4
  have hk' : (net'.L 0).kind = .linear := by rw [h3]; exact h.kind
  have hF := netComputes_netOut (net := net') (by intro k hk2; obtain rfl : k = 0 := by omega
                                                  rw [hk']; decide) r A
  have hout : netOut net' A net'.size = linPred (net.dim 0) W1 b1 A := by
    rw [h1]
    show infer (net'.L 0) A = _
    rw [infer_linPred hk', h3, ← hn]
  rw [hout] at hF
  exact ⟨he, net', S', W1, b1, hT', hsh, h3, hF, h4⟩

theorem objective_abs (r n : Nat) (W : Nat → Nat → ℝ) (b : Nat → ℝ) (A Y : Nat → Nat → ℝ) :
    objective .mae r 1 (linPred n W b A) Y = lad r (n + 1) (augIn n A) Y (coefs n W b) := by
  unfold objective lad
  simp only [resid_coefs, sum_range_one, Nat.cast_one, div_one]

/-- C133, one output, one linear layer, full-batch plain SGD: for every number T of epochs, one of the runs of fewer than T epochs ends with
an absolute error that exceeds that of any weights W and biases b, hence the least possible one, by at most
|(W₀,b₀) - (W,b)|² / (2·rate·T) + rate/2 · r·Σᵢ(1 + |xᵢ|²).  Missing, since it is false (C133_false): two or more outputs. -/
theorem C133_one_partial (w : World ℝ) (m : Model ℝ) (net : Net ℝ) (op : Nat → Nat) (S : Nat → OptSpec ℝ) (lr : ℝ) (X Y xv yv : Mat) (r : Nat)
    (A B : Nat → Nat → ℝ) (h : PlainTask w m net op S .mae lr X Y r A B) (hd : net.dim 1 = 1) (h0 : 0 < lr) (W : Nat → Nat → ℝ) (b : Nat → ℝ)
    (T : Nat) (hT : 0 < T) :
    ∃ t, t < T ∧ wp (fit m X Y t 0 xv yv 0) w (fun e w' => e = none ∧ ∃ net' S' F, IsTask w' m net' op S' ∧ SameShape net net' ∧
      NetComputes net' r A F ∧ objective .mae r 1 F B ≤ objective .mae r 1 (linPred (net.dim 0) W b A) B +
        (∑ k ∈ range (net.dim 0), ((net.L 0).W k 0 - W k 0) ^ 2 + ((net.L 0).b 0 - b 0) ^ 2) / (2 * lr * T) +
        lr / 2 * (r * ∑ i ∈ range r, (1 + ∑ k ∈ range (net.dim 0), A i k ^ 2))) := by
  have hn : (net.L 0).n = net.dim 0 := h.task.isNet.ins 0 (by have := h.size; omega)
  obtain ⟨t, ht, hb⟩ := lad_bound r (net.dim 0 + 1) (augIn (net.dim 0) A) B (coefs (net.dim 0) (net.L 0).W (net.L 0).b) (coefs (net.dim 0) W b) h0 hT
  refine ⟨t, ht, ?_⟩
  have hg := gradIs_abs (m := m) (r := r) (A := A) (B := B) h.kind hd
  rw [hn] at hg
  refine wp_mono (h.run hg xv yv t) ?_
  rintro e w' ⟨he, net', S', W1, b1, hT', hsh, -, hF, h4⟩
  refine ⟨he, net', S', _, hT', hsh, hF, ?_⟩
  rw [aug_sq, sqDist_coefs] at hb
  simp only [sum_range_one] at hb
  rw [objective_abs, objective_abs]
  refine le_trans (le_of_eq ?_) hb
  unfold lad
  refine sum_congr rfl fun i _ => ?_
  congr 1
  unfold resid
  congr 1
  refine sum_congr rfl fun k hk => ?_
  rw [h4 k 0 (by have := mem_range.1 hk; omega) (by omega)]

/-- C133, one output, one sample: each epoch moves a wrong prediction P by rate·(1 + |x|²) towards the target. -/
theorem C133_sample_partial (w : World ℝ) (m : Model ℝ) (net : Net ℝ) (op : Nat → Nat) (S : Nat → OptSpec ℝ) (lr : ℝ) (X Y xv yv : Mat)
    (A B : Nat → Nat → ℝ) (h : PlainTask w m net op S .mae lr X Y 1 A B) (hd : net.dim 1 = 1) :
    wp (fit m X Y 1 0 xv yv 0) w (fun e w' => e = none ∧ ∃ net' S' P F, IsTask w' m net' op S' ∧ SameShape net net' ∧
      NetComputes net 1 A P ∧ NetComputes net' 1 A F ∧
      (P 0 0 < B 0 0 → F 0 0 = P 0 0 + lr * (1 + ∑ k ∈ range (net.dim 0), A 0 k ^ 2)) ∧
      (B 0 0 < P 0 0 → F 0 0 = P 0 0 - lr * (1 + ∑ k ∈ range (net.dim 0), A 0 k ^ 2)) ∧ (P 0 0 = B 0 0 → F 0 0 = P 0 0)) := by
  have hn : (net.L 0).n = net.dim 0 := h.task.isNet.ins 0 (by have := h.size; omega)
  have hg := gradIs_abs (m := m) (r := 1) (A := A) (B := B) h.kind hd
  rw [hn] at hg
  refine wp_mono (h.run hg xv yv 1) ?_
  rintro e w' ⟨he, net', S', W1, b1, hT', hsh, -, hF, h4⟩
  have hP := netComputes_netOut (net := net) (by intro k hk2; obtain rfl : k = 0 := by have := h.size; omega
                                                 rw [h.kind]; decide) 1 A
  have hout : netOut net A net.size = linPred (net.dim 0) (net.L 0).W (net.L 0).b A := by
    rw [h.size]
    show infer (net.L 0) A = _
    rw [infer_linPred h.kind, ← hn]
  rw [hout] at hP
  refine ⟨he, net', S', _, _, hT', hsh, hP, hF, ?_⟩
  set θ := coefs (net.dim 0) (net.L 0).W (net.L 0).b with hθ
  set Z := augIn (net.dim 0) A with hZ
  have hsq : ∑ k ∈ range (net.dim 0 + 1), Z 0 k ^ 2 = 1 + ∑ k ∈ range (net.dim 0), A 0 k ^ 2 := by
    have := aug_sq 1 (net.dim 0) A
    simpa only [sum_range_one] using this
  have e0 : linPred (net.dim 0) (net.L 0).W (net.L 0).b A 0 0 - B 0 0 = resid (net.dim 0 + 1) Z B θ 0 0 := (resid_coefs _ _ _ _ _ _ _).symm
  have e1 : linPred (net.dim 0) W1 b1 A 0 0 = linPred (net.dim 0) (net.L 0).W (net.L 0).b A 0 0 -
      lr * (1 + ∑ k ∈ range (net.dim 0), A 0 k ^ 2) * sgn (linPred (net.dim 0) (net.L 0).W (net.L 0).b A 0 0 - B 0 0) := by
    have a := resid_coefs (net.dim 0) W1 b1 A B 0 0
    have b : resid (net.dim 0 + 1) Z B (coefs (net.dim 0) W1 b1) 0 0 = resid (net.dim 0 + 1) Z B θ 0 0 -
        lr * (∑ k ∈ range (net.dim 0 + 1), Z 0 k ^ 2) * sgn (resid (net.dim 0 + 1) Z B θ 0 0) := by
      have : ∀ k ∈ range (net.dim 0 + 1), Z 0 k * coefs (net.dim 0) W1 b1 k 0 = Z 0 k * θ k 0 -
          lr * (Z 0 k ^ 2) * sgn (resid (net.dim 0 + 1) Z B θ 0 0) := by
        intro k hk
        rw [h4 k 0 (by have := mem_range.1 hk; omega) (by omega)]
        show Z 0 k * (θ k 0 - ladGrad 1 (net.dim 0 + 1) Z B θ k 0 * lr) = _
        unfold ladGrad
        rw [sum_range_one]
        ring
      show ∑ k ∈ range (net.dim 0 + 1), Z 0 k * coefs (net.dim 0) W1 b1 k 0 - B 0 0 = _
      rw [sum_congr rfl this, sum_sub_distrib, ← sum_mul, ← mul_sum]
      unfold resid
      ring
    rw [← hZ, b, ← e0, hsq] at a
    linarith
  generalize linPred (net.dim 0) (net.L 0).W (net.L 0).b A 0 0 = P at *
  rw [e1]
  unfold sgn
  refine ⟨fun hlt => ?_, fun hlt => ?_, fun heq => ?_⟩
  · rw [if_neg (by linarith), if_pos (by linarith)]; ring
  · rw [if_pos (by linarith)]; ring
  · rw [if_neg (by linarith), if_neg (by linarith)]; ring

/-! ### The claim, and its refutation -/

/-- The claim: training a linear layer on the mean absolute error with plain SGD moves the predictions towards the targets.  If it predicts
the one sample wrongly, then at some small enough learning rates some number of epochs gives a smaller error. -/
def MaeLearns : Prop :=
  ∀ (w : World ℝ) (m : Model ℝ) (net : Net ℝ) (op : Nat → Nat) (S : Nat → OptSpec ℝ) (lr : ℝ) (X Y : Mat) (A B P : Nat → Nat → ℝ),
    PlainTask w m net op S .mae lr X Y 1 A B → m.lossType = 1 → 0 < lr → NetComputes net 1 A P → 0 < objective .mae 1 (net.dim 1) P B →
    lr * (1 + ∑ k ∈ range (net.dim 0), A 0 k ^ 2) ≤ objective .mae 1 (net.dim 1) P B →
    ∃ t : Nat, wp (fit m X Y t 0 X Y 0) w (fun e w' => e = none ∧ ∃ net' S' F, IsTask w' m net' op S' ∧ SameShape net net' ∧
      NetComputes net' 1 A F ∧ objective .mae 1 (net.dim 1) F B < objective .mae 1 (net.dim 1) P B)

/-- A linear layer with two inputs and c outputs, and zero parameters. -/
noncomputable def nullL (c i : Nat) : LayerSpec ℝ := ⟨.linear, if i = 0 then 2 else c, c, fun _ _ => 0, fun _ => 0, 0, 0⟩

/-- A training situation: one sample (1, 1), all predictions 0, learning rate 1/4. -/
theorem exists_absTask (c : Nat) (hc : 0 < c) (B : Nat → Nat → ℝ) :
    ∃ (w : World ℝ) (m : Model ℝ) (net : Net ℝ) (op : Nat → Nat) (S : Nat → OptSpec ℝ) (X Y : Mat),
    PlainTask w m net op S .mae (1 / 4) X Y 1 (fun _ _ => 1) B ∧ m.lossType = 1 ∧ net.dim 0 = 2 ∧ net.dim 1 = c ∧ net.L = nullL c := by
  obtain ⟨o, ho⟩ := sgd_ok_real (lr := 1 / 4) (decay := 0) (mom := 0) (by norm_num) le_rfl le_rfl
  have hrows : o.weightMomentums.rows = 0 := by rw [newSGD_ok ho]; rfl
  obtain ⟨w, net, op, XM, YM, xM, yM, -, hs, hLn, hdim, hT, dX, dY, -, -⟩ := exists_task (emptyWorld : World ℝ) 1 Nat.one_pos
    (nullL c) (fun i => by
      refine ⟨?_, hc⟩
      show 0 < if i = 0 then 2 else c
      split
      · exact Nat.two_pos
      · exact hc) (fun i => (if_neg (Nat.succ_ne_zero i) : (if i + 1 = 0 then 2 else c) = c).symm)
    { newModel with loss := some ⟨.mae, c⟩, lossType := 1 } o
    (OptSpec.fresh o) hrows (fun w p i hlt e => e ▸ isOpt_newSGD _ _ _ _ hlt (e.symm ▸ ho)) (r := 1) (r' := 1) Nat.one_pos Nat.one_pos
    (fun _ _ => 1) B (fun _ _ => 0) (fun _ _ => 0)
  have d0 : net.dim 0 = 2 := by rw [hdim]; rfl
  have d1 : net.dim 1 = c := by rw [hdim]; rfl
  refine ⟨w, _, net, op, _, XM, YM, ⟨hT, hs, by rw [hLn]; rfl, by rw [d1]; rfl, ?_, by rw [d0]; exact dX, by rw [d1]; exact dY, by norm_num⟩, rfl, d0, d1, hLn⟩
  rw [newSGD_ok ho]; exact ⟨rfl, rfl, rfl, rfl⟩

/-- The claim is false: with two outputs training does nothing. -/
theorem C133_false : ¬ MaeLearns := by
  intro hcl
  obtain ⟨w, m, net, op, S, X, Y, h, hm, d0, d1, hL⟩ := exists_absTask 2 Nat.two_pos (fun _ _ => 1)
  have hs := h.size
  have hn : (net.L 0).n = net.dim 0 := h.task.isNet.ins 0 (by omega)
  have hP := netComputes_netOut (net := net) (by intro k hk2; obtain rfl : k = 0 := by omega
                                                 rw [h.kind]; decide) 1 (fun _ _ => 1)
  have hout : netOut net (fun _ _ => 1) net.size = linPred (net.dim 0) (net.L 0).W (net.L 0).b (fun _ _ => 1) := by
    rw [hs]
    show infer (net.L 0) _ = _
    rw [infer_linPred h.kind, ← hn]
    rfl
  have hz : netOut net (fun _ _ => 1) net.size = fun _ _ => 0 := by
    rw [hout, hL]
    funext i j
    simp [linPred, nullL]
  rw [hz] at hP
  have hobj : objective .mae 1 (net.dim 1) (fun _ _ => 0) (fun _ _ => 1) = 1 := by
    rw [d1]
    norm_num [objective, sum_range_succ]
  obtain ⟨t, ht⟩ := hcl w m net op S (1 / 4) X Y _ _ _ h hm (by norm_num) hP (by rw [hobj]; norm_num) (by
    rw [hobj, d0]
    norm_num [sum_range_succ, sum_range_zero])
  have hT : Trains w m net op S .mae X Y 1 (fun _ _ => 1) (fun _ _ => 1) := ⟨h.task, by rw [hs]; exact h.loss, fun i hi => by
    obtain rfl : i = 0 := by omega
    rw [h.kind]; decide, h.inputs, by rw [hs]; exact h.targets⟩
  have hfz := C133_frozen w m net op S X Y X Y 1 _ _ hT (by rw [hm]; decide) (by rw [hs, d1]) (fun i hi => by
    obtain rfl : i = 0 := by omega
    exact .inl ⟨h.opt.1, h.opt.2.1⟩) t 0 (by norm_num)
  obtain ⟨e, w', -, ⟨-, net', S', F, hT1, hsh1, hF, hlt⟩, -, net2, S2, hT2, hsh2, hX, -, hfr⟩ := wp_iff.1 (wp_and ht hfz)
  have hP2 : NetComputes net2 1 (fun _ _ => 1) (fun _ _ => 0) := NetComputes.congr hsh2.size hsh2.dim hfr hP
  have hX1 : IsMat w' X 1 (net'.dim 0) (fun _ _ => 1) := by rw [hsh1.dim]; exact hX
  have hX2 : IsMat w' X 1 (net2.dim 0) (fun _ _ => 1) := by rw [hsh2.dim]; exact hX
  obtain ⟨p, w2, -, ⟨-, o1, q1, r1⟩, -, o2, q2, r2⟩ := wp_iff.1 (wp_and (hF w' m X false net'.lp net'.wm net'.bm hT1.isNet hX1)
    (hP2 w' m X false net2.lp net2.wm net2.bm hT2.isNet hX2))
  rw [q1] at q2
  obtain rfl := Option.some.inj q2
  rw [hsh1.dim, hsh1.size] at r1
  rw [hsh2.dim, hsh2.size] at r2
  have hFz : ∀ j, j < net.dim 1 → F 0 j = 0 := fun j hj => r1.entries_unique r2 Nat.one_pos (by rw [hs]; exact hj)
  refine absurd hlt (not_lt.2 (le_of_eq ?_))
  unfold objective
  simp only [sum_range_one]
  congr 1
  exact sum_congr rfl fun j hj => by rw [hFz j (mem_range.1 hj)]

/-- C133_one_partial, C133_sample_partial: a linear layer with two inputs and one output, and one sample that it predicts wrongly. -/
example : ∃ (w : World ℝ) (m : Model ℝ) (net : Net ℝ) (op : Nat → Nat) (S : Nat → OptSpec ℝ) (X Y : Mat),
    PlainTask w m net op S .mae (1 / 4) X Y 1 (fun _ _ => 1) (fun _ _ => 3) ∧ net.dim 0 = 2 ∧ net.dim 1 = 1 ∧
    linPred (net.dim 0) (net.L 0).W (net.L 0).b (fun _ _ => 1) 0 0 < 3 := by
  obtain ⟨w, m, net, op, S, X, Y, h, hm, d0, d1, hL⟩ := exists_absTask 1 Nat.one_pos (fun _ _ => 3)
  refine ⟨w, m, net, op, S, X, Y, h, d0, d1, ?_⟩
  rw [hL]
  simp [linPred, nullL]

/-- C133_frozen: a model with two hidden layers and Adam, with 5 outputs, and 5 samples. -/
example : ∃ (w : World ℝ) (m : Model ℝ) (net : Net ℝ) (op : Nat → Nat) (S : Nat → OptSpec ℝ) (X Y : Mat) (A B : Nat → Nat → ℝ),
    Trains w m net op S .mae X Y 5 A B ∧ m.lossType ≠ 2 ∧ 2 ≤ net.dim net.size ∧ (∀ i, i < net.size → (S i).Resting) ∧ net.size = 3 ∧
    (S 0).kind = .adam := by
  obtain ⟨o, ho⟩ := adam_ok_real (lr := 1 / 1000) (decay := 0) (by norm_num) le_rfl (1 / 10 ^ 7) (9 / 10) (999 / 1000)
  have hrows : o.weightMomentums.rows = 0 := by rw [newAdam_ok ho]; rfl
  obtain ⟨w, net, op, XM, YM, xM, yM, hf, hs, hL, hdim, hT, dX, dY, -, -⟩ := exists_task emptyWorld 3 (by decide)
    plainT (fun i => demoT_pos (α := ℝ) i) (fun i => demoT_chain (α := ℝ) i) { newModel with loss := some ⟨.mae, (plainT 3).n⟩, lossType := 1 } o
    (OptSpec.fresh o) hrows
    (fun w p i hlt e => e ▸ isOpt_newAdam _ _ _ _ hlt (e.symm ▸ ho)) (r := 5) (r' := 2) (by decide) (by decide)
    (fun i j => (i : ℝ) + j) (fun i j => (i : ℝ) - j) (fun i _ => (i : ℝ)) (fun _ j => (j : ℝ))
  have d0 : net.dim 0 = (plainT 0).n := by rw [hdim]
  have d1 : net.dim net.size = (plainT 3).n := by rw [hdim, hs]
  refine ⟨w, _, net, op, _, XM, YM, fun i j => (i : ℝ) + j, fun i j => (i : ℝ) - j, ⟨hT, by rw [d1]; rfl, fun i _ => ?_, d0 ▸ dX, d1 ▸ dY⟩, ?_, ?_,
    fun i _ => .inr fun _ _ => ⟨by simp [OptSpec.fresh, Flt.zero], by simp [OptSpec.fresh, Flt.zero]⟩, hs, by rw [newAdam_ok ho]; rfl⟩
  · rw [hL]
    unfold plainT
    dsimp only
    split <;> exact fun h => by cases h
  · show (1 : Int) ≠ 2; decide
  · rw [d1]; decide

end NN
