import Verif.Props.C93
import Verif.Props.C76
/- Properties C101 and C102: what training cannot change.  Equal units stay equal, dead units stay dead. -/

set_option linter.unusedSectionVars false

namespace NN
open Go Finset

/-! ### C101: equal units stay equal -/

section Twins
variable {α : Type} [Flt α]

/-- Layer types that treat each unit on its own, without randomness. -/
def UnitWise (k : LayerKind) : Prop := k = .linear ∨ k = .hidden ∨ k = .leaky

/-- The units p and q of layer k have the same incoming weights, the same bias and the same outgoing weights. -/
structure Twins (net : Net α) (k p q : Nat) : Prop where
  into : ∀ i, i < (net.L k).n → (net.L k).W i p = (net.L k).W i q
  bias : (net.L k).b p = (net.L k).b q
  out : ∀ j, j < (net.L (k + 1)).o → (net.L (k + 1)).W p j = (net.L (k + 1)).W q j

/-- The optimizers have the same accumulated state for the parameters of the units p and q of layer k. -/
structure TwinOpts (net : Net α) (S : Nat → OptSpec α) (k p q : Nat) : Prop where
  into : ∀ i, i < (net.L k).n → (S k).vw i p = (S k).vw i q ∧ (S k).cw i p = (S k).cw i q
  bias : (S k).vb 0 p = (S k).vb 0 q ∧ (S k).cb 0 p = (S k).cb 0 q
  out : ∀ j, j < (net.L (k + 1)).o → (S (k + 1)).vw p j = (S (k + 1)).vw q j ∧ (S (k + 1)).cw p j = (S (k + 1)).cw q j

theorem Twins.infer {net : Net α} {k p q : Nat} (h : Twins net k p q) (hk : UnitWise (net.L k).kind) (X : Nat → Nat → α) (i : Nat) :
    infer (net.L k) X i p = infer (net.L k) X i q := by
  have hz : preact (net.L k) X i p = preact (net.L k) X i q := by
    unfold preact
    rw [h.bias, fsum_congr fun j hj => by rw [h.into j hj]]
  unfold NN.infer
  rcases hk with e | e | e <;> rw [e] <;> simp only [actRow, hz]

theorem Twins.vals {net : Net α} {k p q : Nat} (h : Twins net k p q) (hk : UnitWise (net.L k).kind) (r : Nat) (u : Nat → α)
    (X : Nat → Nat → α) (i : Nat) : trainVals net r u X (k + 1) i p = trainVals net r u X (k + 1) i q := by
  show trainOut (net.L k) _ _ i p = trainOut (net.L k) _ _ i q
  unfold trainOut
  rw [if_neg (by rcases hk with e | e | e <;> rw [e] <;> decide), if_neg (by rcases hk with e | e | e <;> rw [e] <;> decide)]
  exact h.infer hk _ i

/-- The gradient that reaches the outputs of a layer below the last one. -/
theorem NetGrad.inp {m : Model α} {net : Net α} {loss : LossKind} {r : Nat} {V M : Nat → Nat → Nat → α} {Y : Nat → Nat → α}
    {G D : Nat → Nat → Nat → α} (h : NetGrad m net loss r V M Y G D) {k : Nat} (hk : k < net.size) :
    D k = gradX (net.L k) (G k) := by
  by_cases hf : Fused m net
  · obtain ⟨-, h2, h3⟩ := h.fused hf
    rcases Nat.lt_or_ge k (net.size - 1) with hl | hl
    · exact h3.inp k hl
    · rw [show k = net.size - 1 by omega]; exact h2
  · exact (h.plain hf).2.inp k hk

/-- The gradient at the pre-activations of a layer below the last one. -/
theorem NetGrad.act {m : Model α} {net : Net α} {loss : LossKind} {r : Nat} {V M : Nat → Nat → Nat → α} {Y : Nat → Nat → α}
    {G D : Nat → Nat → Nat → α} (h : NetGrad m net loss r V M Y G D) {k : Nat} (hk : k + 1 < net.size) :
    G k = actBack (net.L k) (V (k + 1)) (M k) (D (k + 1)) := by
  by_cases hf : Fused m net
  · exact (h.fused hf).2.2.act k (by omega)
  · have := (h.plain hf).2.act k (by omega)
    rwa [if_neg (by omega)] at this

theorem Twins.grads {net : Net α} {k p q : Nat} (h : Twins net k p q) (hk : UnitWise (net.L k).kind) (hs : k + 1 < net.size) {m : Model α}
    {loss : LossKind} {r : Nat} {u : Nat → α} {X Y : Nat → Nat → α} {M G D : Nat → Nat → Nat → α}
    (hG : NetGrad m net loss r (trainVals net r u X) M Y G D) (i : Nat) : G k i p = G k i q := by
  have hD : D (k + 1) i p = D (k + 1) i q := by
    rw [hG.inp hs]
    exact fsum_congr fun j hj => by rw [h.out j hj]
  have hV := h.vals hk r u X i
  rw [hG.act hs]
  unfold actBack
  rcases hk with e | e | e <;> rw [e] <;> simp only [hD, hV]

theorem Twins.step {net net' : Net α} {S S' : Nat → OptSpec α} {k p q : Nat} (h : Twins net k p q) (hS : TwinOpts net S k p q)
    (hk : UnitWise (net.L k).kind) (hs : k + 1 < net.size) {m : Model α} {loss : LossKind} {r : Nat} {u : Nat → α} {X Y : Nat → Nat → α}
    (hst : TrainStep m loss r u X Y net S net' S') : Twins net' k p q ∧ TwinOpts net' S' k p q ∧ SameShape net net' := by
  obtain ⟨G, D, hG, rfl, rfl⟩ := hst
  have hg := h.grads hk hs hG
  have hv := h.vals hk r u X
  have g1 : ∀ i, gradW r (trainVals net r u X k) (G k) i p = gradW r (trainVals net r u X k) (G k) i q := fun i =>
    fsum_congr fun j _ => by rw [hg j]
  have g2 : ∀ i, gradB r (G k) i p = gradB r (G k) i q := fun i => fsum_congr fun j _ => hg j
  have g3 : ∀ j, gradW r (trainVals net r u X (k + 1)) (G (k + 1)) p j = gradW r (trainVals net r u X (k + 1)) (G (k + 1)) q j := fun j =>
    fsum_congr fun i _ => by rw [hv i]
  refine ⟨⟨fun i hi => ?_, ?_, fun j hj => ?_⟩, ⟨fun i hi => ?_, ?_, fun j hj => ?_⟩, ⟨rfl, rfl, rfl, rfl, rfl, fun i => ⟨_, _, rfl⟩⟩⟩
  · show (S k).upd ((net.L k).W i p) ((S k).vw i p) ((S k).cw i p) _ = (S k).upd ((net.L k).W i q) ((S k).vw i q) ((S k).cw i q) _
    rw [g1, h.into i hi, (hS.into i hi).1, (hS.into i hi).2]
  · show (S k).upd ((net.L k).b p) ((S k).vb 0 p) ((S k).cb 0 p) _ = (S k).upd ((net.L k).b q) ((S k).vb 0 q) ((S k).cb 0 q) _
    rw [g2, h.bias, hS.bias.1, hS.bias.2]
  · show (S (k + 1)).upd ((net.L (k + 1)).W p j) ((S (k + 1)).vw p j) ((S (k + 1)).cw p j) _ =
      (S (k + 1)).upd ((net.L (k + 1)).W q j) ((S (k + 1)).vw q j) ((S (k + 1)).cw q j) _
    rw [g3, h.out j hj, (hS.out j hj).1, (hS.out j hj).2]
  · show (S k).vel ((S k).vw i p) _ = (S k).vel ((S k).vw i q) _ ∧ (S k).cache ((S k).cw i p) _ = (S k).cache ((S k).cw i q) _
    rw [g1, (hS.into i hi).1, (hS.into i hi).2]
    exact ⟨rfl, rfl⟩
  · show (S k).vel ((S k).vb 0 p) _ = (S k).vel ((S k).vb 0 q) _ ∧ (S k).cache ((S k).cb 0 p) _ = (S k).cache ((S k).cb 0 q) _
    rw [g2, hS.bias.1, hS.bias.2]
    exact ⟨rfl, rfl⟩
  · show (S (k + 1)).vel ((S (k + 1)).vw p j) _ = (S (k + 1)).vel ((S (k + 1)).vw q j) _ ∧
      (S (k + 1)).cache ((S (k + 1)).cw p j) _ = (S (k + 1)).cache ((S (k + 1)).cw q j) _
    rw [g3, (hS.out j hj).1, (hS.out j hj).2]
    exact ⟨rfl, rfl⟩

theorem Descent.twins {m : Model α} {loss : LossKind} {u : Nat → α} {X Y : Nat → Nat → α} {net : Net α} {S : Nat → OptSpec α} {p0 : Nat}
    {bs : List (Nat × Nat)} {net' : Net α} {S' : Nat → OptSpec α} {p' : Nat} (h : Descent m loss u X Y net S p0 bs net' S' p') {k p q : Nat}
    (hT : Twins net k p q) (hS : TwinOpts net S k p q) (hk : UnitWise (net.L k).kind) (hs : k + 1 < net.size) :
    Twins net' k p q ∧ TwinOpts net' S' k p q ∧ SameShape net net' := by
  induction h with
  | start => exact ⟨hT, hS, rfl, rfl, rfl, rfl, rfl, fun i => ⟨_, _, rfl⟩⟩
  | step _ hst ih =>
    obtain ⟨i1, i2, i3⟩ := ih
    obtain ⟨j1, j2, j3⟩ := i1.step i2 (by rw [i3.kind]; exact hk) (by rw [i3.size]; exact hs) hst
    exact ⟨j1, j2, i3.trans j3⟩

/-- C101: two units of a linear, RELU or leaky layer that start with the same weights (in and out), the same bias and the same optimizer
state are still equal after Fit, whatever the data, the loss, the optimizer, the batches and the arithmetic; so they always have the same
output. -/
theorem C101_twins [FltInt α] (w : World α) (m : Model α) (net : Net α) (op : Nat → Nat) (S : Nat → OptSpec α) (loss : Loss) (X Y xv yv : Mat)
    (n : Nat) (A B : Nat → Nat → α) (h : FitArgs w m net op S loss X Y n A B) (k p q : Nat) (hs : k + 1 < net.size)
    (hk : UnitWise (net.L k).kind) (hT : Twins net k p q) (hS : TwinOpts net S k p q) (epochs : Int) (b : Nat) (hbig : n + b ≤ 2 ^ 53) :
    wp (fit m X Y epochs b xv yv 0) w (fun e w' => e = none ∧ ∃ net' S', IsTask w' m net' op S' ∧ SameShape net net' ∧
      Twins net' k p q ∧ TwinOpts net' S' k p q ∧ ∀ Z i, netOut net' Z (k + 1) i p = netOut net' Z (k + 1) i q) := by
  refine wp_mono (C70_fit w m net op S h.task h.noSigmoid loss h.loss_eq h.loss_size X Y xv yv n A B h.x h.y h.xcap h.ycap h.xsep h.ysep
    epochs b hbig) ?_
  rintro e w' ⟨rfl, net', S', hD, hT', hsh, -⟩
  obtain ⟨h1, h2, -⟩ := hD.twins hT hS hk hs
  exact ⟨rfl, net', S', hT', hsh, h1, h2, fun Z i => h1.infer (by rw [hsh.kind]; exact hk) _ i⟩

end Twins

/-! ### C102: dead units stay dead -/

/-- Layer types with a RELU. -/
def Relu (k : LayerKind) : Prop := k = .hidden ∨ k = .dropout

/-- Unit q of the first layer is dead: its pre-activation is not positive for any of the n samples. -/
def Dead (net : Net ℝ) (n : Nat) (A : Nat → Nat → ℝ) (q : Nat) : Prop := ∀ i, i < n → preact (net.L 0) A i q ≤ 0

/-- No accumulated state for the parameters of unit q of the first layer. -/
structure DeadOpts (S : Nat → OptSpec ℝ) (q : Nat) : Prop where
  into : ∀ i, (S 0).vw i q = 0 ∧ (S 0).cw i q = 0
  bias : (S 0).vb 0 q = 0 ∧ (S 0).cb 0 q = 0
  out : ∀ j, (S 1).vw q j = 0 ∧ (S 1).cw q j = 0

/-- The parameters of unit q of the first layer are the same. -/
structure SameUnit (net net' : Net ℝ) (q : Nat) : Prop where
  into : ∀ i, (net'.L 0).W i q = (net.L 0).W i q
  bias : (net'.L 0).b q = (net.L 0).b q
  out : ∀ j, (net'.L 1).W q j = (net.L 1).W q j

theorem dead_step {net net' : Net ℝ} {S S' : Nat → OptSpec ℝ} {q : Nat} (hk : Relu (net.L 0).kind) (hs : 2 ≤ net.size) (hS : DeadOpts S q)
    {m : Model ℝ} {loss : LossKind} {r : Nat} {u : Nat → ℝ} {X Y : Nat → Nat → ℝ} (hd : Dead net r X q)
    (hst : TrainStep m loss r u X Y net S net' S') : SameUnit net net' q ∧ DeadOpts S' q ∧ SameShape net net' := by
  obtain ⟨G, D, hG, rfl, rfl⟩ := hst
  have hv : ∀ i, i < r → trainVals net r u X 1 i q = 0 := fun i hi => by
    show trainOut (net.L 0) _ X i q = 0
    have h0 : Flt.max (preact (net.L 0) X i q) Flt.zero = 0 := by
      rw [zero_real]
      exact max_eq_right (hd i hi)
    unfold trainOut
    split
    · rw [h0]; exact zero_mul _
    · unfold infer
      rcases hk with e | e <;> rw [e] <;> simp only [actRow] <;> exact h0
  have hg : ∀ i, i < r → G 0 i q = 0 := fun i hi => by
    have hle : Flt.le (trainVals net r u X 1 i q) Flt.zero = true := by
      rw [hv i hi, zero_real]
      simp [Flt.le]
    rw [hG.act (by omega)]
    unfold actBack
    rcases hk with e | e <;> rw [e] <;> simp only [Nat.zero_add, hle, if_true] <;> exact zero_real
  have g1 : ∀ i, gradW r (trainVals net r u X 0) (G 0) i q = 0 := fun i => by
    simp only [gradW, fsum_real]
    exact Finset.sum_eq_zero fun j hj => by rw [hg j (mem_range.1 hj)]; exact mul_zero _
  have g2 : ∀ i, gradB r (G 0) i q = 0 := fun i => by
    simp only [gradB, fsum_real]
    exact Finset.sum_eq_zero fun j hj => hg j (mem_range.1 hj)
  have g3 : ∀ j, gradW r (trainVals net r u X 1) (G 1) q j = 0 := fun j => by
    simp only [gradW, fsum_real]
    exact Finset.sum_eq_zero fun i hi => by rw [hv i (mem_range.1 hi)]; exact zero_mul _
  refine ⟨⟨fun i => ?_, ?_, fun j => ?_⟩, ⟨fun i => ?_, ?_, fun j => ?_⟩, ⟨rfl, rfl, rfl, rfl, rfl, fun i => ⟨_, _, rfl⟩⟩⟩
  · show (S 0).upd ((net.L 0).W i q) ((S 0).vw i q) ((S 0).cw i q) _ = _
    rw [g1, (hS.into i).1, (hS.into i).2]
    exact ((S 0).upd_zero _).1
  · show (S 0).upd ((net.L 0).b q) ((S 0).vb 0 q) ((S 0).cb 0 q) _ = _
    rw [g2, hS.bias.1, hS.bias.2]
    exact ((S 0).upd_zero _).1
  · show (S 1).upd ((net.L 1).W q j) ((S 1).vw q j) ((S 1).cw q j) _ = _
    rw [g3, (hS.out j).1, (hS.out j).2]
    exact ((S 1).upd_zero _).1
  · show (S 0).vel ((S 0).vw i q) _ = 0 ∧ (S 0).cache ((S 0).cw i q) _ = 0
    rw [g1, (hS.into i).1, (hS.into i).2]
    exact ((S 0).upd_zero 0).2
  · show (S 0).vel ((S 0).vb 0 q) _ = 0 ∧ (S 0).cache ((S 0).cb 0 q) _ = 0
    rw [g2, hS.bias.1, hS.bias.2]
    exact ((S 0).upd_zero 0).2
  · show (S 1).vel ((S 1).vw q j) _ = 0 ∧ (S 1).cache ((S 1).cw q j) _ = 0
    rw [g3, (hS.out j).1, (hS.out j).2]
    exact ((S 1).upd_zero 0).2

theorem Dead.same {net net' : Net ℝ} {q n : Nat} {A : Nat → Nat → ℝ} (h : Dead net n A q) (hu : SameUnit net net' q) (hsh : SameShape net net') :
    Dead net' n A q := by
  intro i hi
  have := h i hi
  obtain ⟨W, b, e⟩ := hsh.layer 0
  have hn : (net'.L 0).n = (net.L 0).n := by rw [e]
  rw [preact_real] at this ⊢
  rw [hn, hu.bias]
  simpa only [hu.into] using this

theorem Descent.dead {m : Model ℝ} {loss : LossKind} {u : Nat → ℝ} {X Y : Nat → Nat → ℝ} {net : Net ℝ} {S : Nat → OptSpec ℝ} {p0 n : Nat}
    {bs : List (Nat × Nat)} {net' : Net ℝ} {S' : Nat → OptSpec ℝ} {p' : Nat} (h : Descent m loss u X Y net S p0 bs net' S' p') {q : Nat}
    (hk : Relu (net.L 0).kind) (hs : 2 ≤ net.size) (hS : DeadOpts S q) (hd : Dead net n X q) (hbs : ∀ b ∈ bs, b.1 + b.2 ≤ n) :
    SameUnit net net' q ∧ DeadOpts S' q ∧ SameShape net net' := by
  induction h with
  | start => exact ⟨⟨fun _ => rfl, rfl, fun _ => rfl⟩, hS, rfl, rfl, rfl, rfl, rfl, fun i => ⟨_, _, rfl⟩⟩
  | @step bs b net1 net2 S1 S2 p1 _ hst ih =>
    obtain ⟨i1, i2, i3⟩ := ih fun b hb => hbs b (by simp [hb])
    have hb := hbs b (by simp)
    have hd1 : Dead net1 b.2 (fun i j => X (b.1 + i) j) q := fun i hi => (hd.same i1 i3) (b.1 + i) (by omega)
    obtain ⟨j1, j2, j3⟩ := dead_step (by rw [i3.kind]; exact hk) (by rw [i3.size]; exact hs) i2 hd1 hst
    exact ⟨⟨fun i => (j1.into i).trans (i1.into i), j1.bias.trans i1.bias, fun j => (j1.out j).trans (i1.out j)⟩, j2, i3.trans j3⟩

/-- C102: a unit of the first (RELU or dropout) layer whose pre-activation is not positive for any sample keeps its weights (in and out) and
its bias through Fit, and gives 0 for every sample afterwards: it never comes back.  For optimizers without accumulated state. -/
theorem C102_dead (w : World ℝ) (m : Model ℝ) (net : Net ℝ) (op : Nat → Nat) (S : Nat → OptSpec ℝ) (loss : Loss) (X Y xv yv : Mat) (n : Nat)
    (A B : Nat → Nat → ℝ) (h : FitArgs w m net op S loss X Y n A B) (hs : 2 ≤ net.size) (hk : Relu (net.L 0).kind) (q : Nat)
    (hd : Dead net n A q) (hS : DeadOpts S q) (epochs : Int) (b : Nat) (hbig : n + b ≤ 2 ^ 53) :
    wp (fit m X Y epochs b xv yv 0) w (fun e w' => e = none ∧ ∃ net' S', IsTask w' m net' op S' ∧ SameShape net net' ∧
      (∀ i, (net'.L 0).W i q = (net.L 0).W i q) ∧ (net'.L 0).b q = (net.L 0).b q ∧ (∀ j, (net'.L 1).W q j = (net.L 1).W q j) ∧
      ∀ i, i < n → netOut net' A 1 i q = 0) := by
  refine wp_mono (C70_fit w m net op S h.task h.noSigmoid loss h.loss_eq h.loss_size X Y xv yv n A B h.x h.y h.xcap h.ycap h.xsep h.ysep
    epochs b hbig) ?_
  rintro e w' ⟨rfl, net', S', hD, hT', hsh, -⟩
  obtain ⟨h1, h2, -⟩ := hD.dead hk hs hS hd (fun p hp => by
    obtain ⟨l, hl, hp⟩ := List.mem_flatten.1 hp
    rw [List.eq_of_mem_replicate hl] at hp
    exact blocks_le n b p hp)
  refine ⟨rfl, net', S', hT', hsh, h1.into, h1.bias, h1.out, fun i hi => ?_⟩
  show infer (net'.L 0) A i q = 0
  have h0 : Flt.max (preact (net'.L 0) A i q) Flt.zero = 0 := by
    rw [zero_real]
    exact max_eq_right (hd.same h1 hsh i hi)
  unfold infer
  rw [hsh.kind]
  rcases hk with e | e <;> rw [e] <;> simp only [actRow] <;> exact h0

/-! ### Examples -/

/-- There is a model with any given layers (no sigmoid), mean squared error and Adam, with 5 samples, ready for Fit. -/
theorem exists_fitArgs (k : Nat) (hk : 0 < k) (L : Nat → LayerSpec ℝ) (hpos : ∀ i, 0 < (L i).n ∧ 0 < (L i).o) (hc : ∀ i, (L i).o = (L (i + 1)).n)
    (hns : ∀ i, (L i).kind ≠ .sigmoid) (A B : Nat → Nat → ℝ) :
    ∃ (w : World ℝ) (m : Model ℝ) (net : Net ℝ) (op : Nat → Nat) (o : Optim ℝ) (X Y : Mat),
      FitArgs w m net op (fun _ => OptSpec.fresh o) ⟨.mse, (L k).n⟩ X Y 5 A B ∧ net.size = k ∧ net.L = L ∧
      newAdamOptimizer (1 / 1000) 0 (1 / 10 ^ 7) (9 / 10) (999 / 1000) = (o, none) := by
  obtain ⟨o, ho⟩ := adam_ok_real (lr := 1 / 1000) (decay := 0) (by norm_num) le_rfl (1 / 10 ^ 7) (9 / 10) (999 / 1000)
  have hrows : o.weightMomentums.rows = 0 := by rw [newAdam_ok ho]; rfl
  obtain ⟨w, net, op, XM, YM, xM, yM, -, hs, hL, hdim, hT, dX, dY, -, -⟩ := exists_task (emptyWorld : World ℝ) k hk
    L hpos hc { newModel with loss := some ⟨.mse, (L k).n⟩ } o (OptSpec.fresh o) hrows
    (fun w p i hlt e => e ▸ isOpt_newAdam _ _ _ _ hlt (e.symm ▸ ho)) (r := 5) (r' := 2) (by decide) (by decide)
    A B (fun i _ => (i : ℝ)) (fun _ j => (j : ℝ))
  have d0 : net.dim 0 = (L 0).n := by rw [hdim]
  have d1 : net.dim net.size = (L k).n := by rw [hdim, hs]
  refine ⟨w, _, net, op, o, XM, YM, ⟨hT, fun i _ => by rw [hL]; exact hns i, rfl, by rw [d1], d0 ▸ dX.mat, d1 ▸ dY.mat, dX.cap, dY.cap, dX.sep,
    dY.sep⟩, hs, hL, ho⟩

/-- C101_twins: three layers with 2, 4, 4 and 4 units, where the units 1 and 3 of the first two layers are equal. -/
example : ∃ (w : World ℝ) (m : Model ℝ) (net : Net ℝ) (op : Nat → Nat) (S : Nat → OptSpec ℝ) (loss : Loss) (X Y : Mat) (A B : Nat → Nat → ℝ),
    FitArgs w m net op S loss X Y 5 A B ∧ net.size = 3 ∧ UnitWise (net.L 1).kind ∧ Twins net 1 1 3 ∧ TwinOpts net S 1 1 3 ∧
    (net.L 1).W 0 1 ≠ (net.L 1).W 0 2 := by
  obtain ⟨w, m, net, op, o, X, Y, h, hs, hL, -⟩ := exists_fitArgs 3 (by decide)
    (fun i => ⟨if i = 1 then .hidden else .linear, if i = 0 then 2 else 4, 4, fun i j => ((i % 2 : Nat) : ℝ) + (j % 2 : Nat), fun j => (j % 2 : Nat), 0, 0⟩)
    (fun i => ⟨by dsimp only; split <;> decide, by norm_num⟩) (fun i => by simp) (fun i => by dsimp only; split <;> decide)
    (fun i j => (i : ℝ) + j) (fun i j => (i : ℝ) - j)
  refine ⟨w, m, net, op, _, _, X, Y, _, _, h, hs, ?_, ⟨fun i _ => ?_, ?_, fun j _ => ?_⟩,
    ⟨fun _ _ => ⟨rfl, rfl⟩, ⟨rfl, rfl⟩, fun _ _ => ⟨rfl, rfl⟩⟩, ?_⟩
  · rw [hL]; exact .inr (.inl rfl)
  · rw [hL]
  · rw [hL]
  · rw [hL]
  · rw [hL]; norm_num

/-- C102_dead: a RELU layer whose unit 1 has the bias -1 and no weights. -/
example : ∃ (w : World ℝ) (m : Model ℝ) (net : Net ℝ) (op : Nat → Nat) (S : Nat → OptSpec ℝ) (loss : Loss) (X Y : Mat) (A B : Nat → Nat → ℝ),
    FitArgs w m net op S loss X Y 5 A B ∧ net.size = 3 ∧ Relu (net.L 0).kind ∧ Dead net 5 A 1 ∧ DeadOpts S 1 ∧ ¬ Dead net 5 A 0 := by
  obtain ⟨w, m, net, op, o, X, Y, h, hs, hL, -⟩ := exists_fitArgs 3 (by decide)
    (fun i => ⟨if i = 0 then .hidden else .linear, if i = 0 then 2 else 4, 4, fun i j => if j = 1 then 0 else 1, fun j => if j = 1 then -1 else 1, 0, 0⟩)
    (fun i => ⟨by dsimp only; split <;> decide, by norm_num⟩) (fun i => by simp) (fun i => by dsimp only; split <;> decide)
    (fun i j => (i : ℝ) + j) (fun i j => (i : ℝ) - j)
  refine ⟨w, m, net, op, _, _, X, Y, _, _, h, hs, ?_, fun i _ => ?_,
    ⟨fun _ => ⟨zero_real, zero_real⟩, ⟨zero_real, zero_real⟩, fun _ => ⟨zero_real, zero_real⟩⟩, fun hd => ?_⟩
  · rw [hL]; exact .inl rfl
  · rw [hL, preact_real]
    norm_num
  · have := hd 0 (by norm_num)
    rw [hL, preact_real] at this
    norm_num [Finset.sum_range_succ] at this

end NN
