import Verif.Props.C148
/- C149: inputs, units (C101) and outputs that start alike stay alike, to the last bit of float64; the units of a dropout layer need not. -/

set_option linter.unusedSectionVars false

namespace NN
open Go
variable {α : Type} [Flt α]

/-- The columns p and q of two parameter matrices and of the optimizer's state are the same. -/
structure TwinColumns (L : LayerSpec α) (S : OptSpec α) (p q : Nat) : Prop where
  W : ∀ k, k < L.n → L.W k p = L.W k q
  b : L.b p = L.b q
  vw : ∀ k, k < L.n → S.vw k p = S.vw k q
  cw : ∀ k, k < L.n → S.cw k p = S.cw k q
  vb : S.vb 0 p = S.vb 0 q
  cb : S.cb 0 p = S.cb 0 q

/-- The rows p and q of the weights and of the optimizer's state are the same. -/
structure TwinRows (L : LayerSpec α) (S : OptSpec α) (p q : Nat) : Prop where
  W : ∀ j, j < L.o → L.W p j = L.W q j
  vw : ∀ j, j < L.o → S.vw p j = S.vw q j
  cw : ∀ j, j < L.o → S.cw p j = S.cw q j

/-- The units p and q of layer l, which is not the last: they have the same parameters, and the next layer gives them the same weights. -/
def TwinUnits (net : Net α) (S : Nat → OptSpec α) (l p q : Nat) : Prop :=
  TwinColumns (net.L l) (S l) p q ∧ TwinRows (net.L (l + 1)) (S (l + 1)) p q

theorem TwinColumns.step {L : LayerSpec α} {S : OptSpec α} {p q r : Nat} {V G : Nat → Nat → α} (h : TwinColumns L S p q)
    (hG : ∀ i, i < r → G i p = G i q) :
    TwinColumns { L with W := S.newW L.W (gradW r V G), b := fun j => S.newB (fun _ j => L.b j) (gradB r G) 0 j } (S.step (gradW r V G) (gradB r G)) p q := by
  have gw : ∀ k, gradW r V G k p = gradW r V G k q := fun k => fsum_congr fun i hi => by rw [hG i hi]
  have gb : gradB r G 0 p = gradB r G 0 q := fsum_congr fun i hi => hG i hi
  refine ⟨fun k hk => ?_, ?_, fun k hk => ?_, fun k hk => ?_, ?_, ?_⟩
  · show S.upd _ _ _ _ = S.upd _ _ _ _
    rw [h.W k hk, h.vw k hk, h.cw k hk, gw]
  · show S.upd (L.b p) _ _ _ = S.upd (L.b q) _ _ _
    rw [h.b, h.vb, h.cb, gb]
  · show S.vel _ _ = S.vel _ _
    rw [h.vw k hk, gw]
  · show S.cache _ _ = S.cache _ _
    rw [h.cw k hk, gw]
  · show S.vel _ _ = S.vel _ _
    rw [h.vb, gb]
  · show S.cache _ _ = S.cache _ _
    rw [h.cb, gb]

theorem TwinRows.step {L : LayerSpec α} {S : OptSpec α} {p q r : Nat} {V G GB : Nat → Nat → α} {b : Nat → α} (h : TwinRows L S p q)
    (hV : ∀ i, i < r → V i p = V i q) : TwinRows { L with W := S.newW L.W (gradW r V G), b := b } (S.step (gradW r V G) GB) p q := by
  have gw : ∀ j, gradW r V G p j = gradW r V G q j := fun j => fsum_congr fun i hi => by rw [hV i hi]
  refine ⟨fun j hj => ?_, fun j hj => ?_, fun j hj => ?_⟩
  · show S.upd _ _ _ _ = S.upd _ _ _ _
    rw [h.W j hj, h.vw j hj, h.cw j hj, gw]
  · show S.vel _ _ = S.vel _ _
    rw [h.vw j hj, gw]
  · show S.cache _ _ = S.cache _ _
    rw [h.cw j hj, gw]

/-- Two units with the same parameters have the same output. -/
theorem TwinColumns.out {L : LayerSpec α} {S : OptSpec α} {p q : Nat} (h : TwinColumns L S p q) (hd : L.kind ≠ .dropout) (u : Nat → α)
    (X : Nat → Nat → α) (i : Nat) : trainOut L u X i p = trainOut L u X i q := by
  have hp : preact L X i p = preact L X i q := by
    unfold preact
    rw [h.b, fsum_congr (g := fun k => X i k *. L.W k q) fun k hk => by rw [h.W k hk]]
  unfold trainOut
  rw [if_neg hd, if_neg hd]
  unfold infer actRow
  cases L.kind <;> dsimp only <;> rw [hp]

/-- The gradient at the pre-activations of two units with the same output and the same gradient at the output. -/
theorem actBack_twin {L : LayerSpec α} (hd : L.kind ≠ .dropout) (hs : L.kind ≠ .softmax) {P M D : Nat → Nat → α} {i p q : Nat} (hP : P i p = P i q)
    (hD : D i p = D i q) : actBack L P M D i p = actBack L P M D i q := by
  unfold actBack
  cases hk : L.kind <;> dsimp only
  case dropout => exact absurd hk hd
  case softmax => exact absurd hk hs
  all_goals simp only [hP, hD]

/-- Back-propagation to the values after layer l, which is not the last, and to the pre-activations of layer l. -/
theorem netGrad_inner {m : Model α} {net : Net α} {loss : LossKind} {r : Nat} {V M G D : Nat → Nat → Nat → α} {Y : Nat → Nat → α}
    (g : NetGrad m net loss r V M Y G D) {l : Nat} (hl : l + 1 < net.size) :
    D (l + 1) = gradX (net.L (l + 1)) (G (l + 1)) ∧ G l = actBack (net.L l) (V (l + 1)) (M l) (D (l + 1)) := by
  by_cases hF : Fused m net
  · obtain ⟨g1, g2, g3⟩ := g.fused hF
    refine ⟨?_, g3.act l (by omega)⟩
    by_cases hls : l + 1 = net.size - 1
    · rw [hls]; exact g2
    · exact g3.inp _ (by omega)
  · obtain ⟨g1, g2⟩ := g.plain hF
    refine ⟨g2.inp _ hl, ?_⟩
    have := g2.act l (by omega)
    rwa [if_neg (by omega)] at this

/-- The gradient at two outputs with the same predictions and the same targets. -/
theorem netGrad_outer {m : Model α} {net : Net α} {loss : LossKind} {r : Nat} {V M G D : Nat → Nat → Nat → α} {Y : Nat → Nat → α}
    (g : NetGrad m net loss r V M Y G D) (h0 : 0 < net.size) (hd : (net.L (net.size - 1)).kind ≠ .dropout)
    (hs : (net.L (net.size - 1)).kind = .softmax → m.lossType = 2) {i p q : Nat} (hV : V net.size i p = V net.size i q) (hY : Y i p = Y i q) :
    G (net.size - 1) i p = G (net.size - 1) i q := by
  by_cases hF : Fused m net
  · obtain ⟨g1, -⟩ := g.fused hF
    rw [g1]
    unfold fusedGrad
    rw [hV, hY]
  · obtain ⟨g1, g2⟩ := g.plain hF
    have hns : (net.L (net.size - 1)).kind ≠ .softmax := fun h => hF ⟨h, hs h⟩
    rw [g2.act _ (by omega), show net.size - 1 + 1 = net.size by omega, if_pos rfl, g1]
    refine actBack_twin hd hns ?_ ?_
    · unfold afterLoss
      cases loss <;> dsimp only <;> rw [hV]
    · unfold lossGrad
      cases loss <;> dsimp only <;> rw [hV, hY]

/-- Everything that is kept. -/
structure KeepsTwins (m : Model α) (n : Nat) (A B : Nat → Nat → α) (net : Net α) (S : Nat → OptSpec α) (net' : Net α) (S' : Nat → OptSpec α) : Prop where
  inputs : ∀ p q, (∀ i, i < n → A i p = A i q) → TwinRows (net.L 0) (S 0) p q → TwinRows (net'.L 0) (S' 0) p q
  units : ∀ l p q, l + 1 < net.size → (net.L l).kind ≠ .dropout → (net.L l).kind ≠ .softmax → TwinUnits net S l p q → TwinUnits net' S' l p q
  outputs : ∀ p q, (∀ i, i < n → B i p = B i q) → (net.L (net.size - 1)).kind ≠ .dropout →
    ((net.L (net.size - 1)).kind = .softmax → m.lossType = 2) → TwinColumns (net.L (net.size - 1)) (S (net.size - 1)) p q →
    TwinColumns (net'.L (net.size - 1)) (S' (net.size - 1)) p q

section
attribute [local irreducible] wp

/-- C149: Fit with any loss, layers but sigmoid ones, optimizers, number of epochs and batch size, in float64 (or any other) arithmetic.
Inputs with the same values in all samples and the same weights keep the same weights; units of a layer that is not a dropout or softmax layer with
the same parameters and the same outgoing weights keep both; outputs with the same targets and the same parameters keep the same parameters - all
of this if the optimizers have the same state for both, as at the start. -/
theorem C149_twins [FltInt α] (w : World α) (m : Model α) (net : Net α) (op : Nat → Nat) (S : Nat → OptSpec α) (loss : LossKind) (X Y xv yv : Mat)
    (n : Nat) (A B : Nat → Nat → α) (h : Trains w m net op S loss X Y n A B) (epochs : Int) (b : Nat) (hbig : n + b ≤ 2 ^ 53) :
    wp (fit m X Y epochs b xv yv 0) w fun e w' => e = none ∧ ∃ net' S', IsTask w' m net' op S' ∧ SameShape net net' ∧
      KeepsTwins m n A B net S net' S' := by
  refine wp_mono (C70_fit w m net op S h.task h.noSig _ h.loss rfl X Y xv yv n A B h.xs.mat h.ys.mat h.xs.cap h.ys.cap h.xs.sep h.ys.sep
    epochs b hbig) ?_
  rintro e w' ⟨he, net', S', hD, hT, hsh, -⟩
  refine ⟨he, net', S', hT, hsh, ?_⟩
  refine (descent_keeps (KeepsTwins m n A B net S) ⟨fun _ _ _ h => h, fun _ _ _ _ _ _ h => h, fun _ _ _ _ _ h => h⟩ _ ?_ hD).1
  intro net1 S1 u q G D hq hs1 hk g
  have hr := batch_mem hq
  have kind : ∀ l, (net1.L l).kind = (net.L l).kind := fun l => by obtain ⟨_, _, e⟩ := hs1.layer l; rw [e]
  refine ⟨fun x y hA ht => ?_, fun l x y hl hd hs ht => ?_, fun x y hB hd hs ht => ?_⟩
  · exact (hk.inputs x y hA ht).step fun i hi => hA _ (by omega)
  · obtain ⟨t1, t2⟩ := hk.units l x y hl hd hs ht
    have hV : ∀ i, trainVals net1 q.2 u (fun i j => A (q.1 + i) j) (l + 1) i x = trainVals net1 q.2 u (fun i j => A (q.1 + i) j) (l + 1) i y :=
      fun i => t1.out (by rw [kind]; exact hd) _ _ i
    obtain ⟨g1, g2⟩ := netGrad_inner g (by rw [hs1.size]; exact hl)
    refine ⟨t1.step fun i _ => ?_, t2.step fun i _ => hV i⟩
    rw [g2]
    refine actBack_twin (by rw [kind]; exact hd) (by rw [kind]; exact hs) (hV i) ?_
    rw [g1]
    exact fsum_congr fun j hj => by rw [t2.W j hj]
  · have t := hk.outputs x y hB hd hs ht
    have h0 : 0 < net1.size := by rw [hs1.size]; exact h.task.pos
    refine t.step fun i hi => ?_
    have hsz := hs1.size
    rw [← hsz]
    rw [← hsz] at hd hs t
    refine netGrad_outer g h0 (by rw [kind]; exact hd) (by rw [kind]; exact hs) ?_ (hB _ (by omega))
    obtain ⟨k, hk⟩ : ∃ k, net1.size = k + 1 := ⟨net1.size - 1, by omega⟩
    rw [hk] at t hd ⊢
    exact t.out (by rw [kind]; exact hd) _ _ i

end

/-! ### Dropout -/

/-- The claim about the two units of a layer of any kind. -/
def TwinsAlways : Prop := ∀ (w : World ℝ) (m : Model ℝ) (net : Net ℝ) (op : Nat → Nat) (S : Nat → OptSpec ℝ) (X Y : Mat) (n : Nat) (A B : Nat → Nat → ℝ),
  Trains w m net op S .mse X Y n A B → net.size = 2 → (net.L 0).o = 2 → TwinUnits net S 0 0 1 →
  wp (fit m X Y 1 0 X Y 0) w fun e w' => e = none ∧ ∃ net' S', IsTask w' m net' op S' ∧ SameShape net net' ∧ (net'.L 0).b 0 = (net'.L 0).b 1

/-- A dropout layer with two units, and a linear layer with one; all weights 1. -/
noncomputable def dropPair (i : Nat) : LayerSpec ℝ :=
  ⟨if i = 0 then .dropout else .linear, if i = 1 then 2 else 1, if i = 0 then 2 else 1, fun _ _ => 1, fun _ => 0, 0, 1 / 2⟩

/-- C149: this claim is false: if a dropout layer drops one of the units, only the other one learns. -/
theorem C149_dropout : ¬ TwinsAlways := by
  intro hcl
  obtain ⟨o, ho⟩ := sgd_ok_real (lr := 1) (decay := 0) (mom := 0) (by norm_num) le_rfl le_rfl
  have hrows : o.weightMomentums.rows = 0 := by rw [newSGD_ok ho]; rfl
  obtain ⟨w, net, op, XM, YM, xM, yM, hf, hs, hL, hdim, hT, dX, dY, -, -⟩ := exists_task
    ({ (emptyWorld : World ℝ) with unif := fun q => if q = (emptyWorld : World ℝ).unifPos then 0 else 1 }) 2 (by decide)
    dropPair (fun i => by
      constructor
      · show 0 < if i = 1 then 2 else 1
        split <;> decide
      · show 0 < if i = 0 then 2 else 1
        split <;> decide) (fun i => by
      show (if i = 0 then 2 else 1) = if i + 1 = 1 then 2 else 1
      simp)
    { newModel with loss := some ⟨.mse, 1⟩, lossType := 0 } o
    (OptSpec.fresh o) hrows (fun w p i hlt e => e ▸ isOpt_newSGD _ _ _ _ hlt (e.symm ▸ ho)) (r := 1) (r' := 1) Nat.one_pos Nat.one_pos
    (fun _ _ => 1) (fun _ _ => 0) (fun _ _ => 0) (fun _ _ => 0)
  have d0 : net.dim 0 = 1 := by rw [hdim]; rfl
  have dn : net.dim net.size = 1 := by rw [hs, hdim]; rfl
  have hTr : Trains w _ net op _ .mse XM YM 1 (fun _ _ => 1) (fun _ _ => 0) :=
    ⟨hT, by rw [dn]; rfl, fun i _ => by rw [hL]; unfold dropPair; dsimp only; split <;> exact LayerKind.noConfusion, by rw [d0]; exact dX,
      by rw [dn]; exact dY⟩
  have h1 := hcl w _ net op _ XM YM 1 _ _ hTr hs (by rw [hL]; rfl)
    (by rw [TwinUnits, hL]; exact ⟨⟨fun _ _ => rfl, rfl, fun _ _ => rfl, fun _ _ => rfl, rfl, rfl⟩, fun _ _ => rfl, fun _ _ => rfl, fun _ _ => rfl⟩)
  have h2 := C70_fit w _ net op _ hT hTr.noSig _ hTr.loss rfl XM YM XM YM 1 _ _ hTr.xs.mat hTr.ys.mat hTr.xs.cap hTr.ys.cap hTr.xs.sep hTr.ys.sep 1 0
    (by norm_num)
  obtain ⟨e, w', -, ⟨-, net', S', hT1, hsh1, heq⟩, -, net2, S2, hD, hT2, hsh2, -⟩ := wp_iff.1 (wp_and h1 h2)
  have hb : ∀ j, j < 2 → (net'.L 0).b j = (net2.L 0).b j := by
    intro j hj
    have b1 := (hT1.isNet.lay 0 (by rw [hsh1.size, hs]; exact Nat.two_pos)).bmat
    have b2 := (hT2.isNet.lay 0 (by rw [hsh2.size, hs]; exact Nat.two_pos)).bmat
    obtain ⟨_, _, e1⟩ := hsh1.layer 0
    obtain ⟨_, _, e2⟩ := hsh2.layer 0
    rw [hsh1.bm, show (net'.L 0).o = 2 by rw [e1, hL]; rfl] at b1
    rw [hsh2.bm, show (net2.L 0).o = 2 by rw [e2, hL]; rfl] at b2
    exact b1.entries_unique b2 Nat.one_pos hj
  have hu : ∀ q, w.unif (w.unifPos + q) = if q = 0 then 0 else 1 := by
    intro q
    rw [hf.unif, hf.unifPos (fun h => h)]
    dsimp only
    simp
  rw [show (List.replicate (1 : Int).toNat (blocks 1 0)).flatten = [] ++ [(0, 1)] from rfl] at hD
  obtain ⟨net1, S1, p1, a1, ⟨G, D, g, rfl, rfl⟩, hp⟩ := hD.snoc
  obtain ⟨rfl, rfl, rfl⟩ := a1.nil
  obtain ⟨g1, g2⟩ := g.plain fun h => by have := h.2; exact absurd this (by show ¬ ((0 : Int) = 2); decide)
  set V := trainVals net1 1 (fun q => w.unif (w.unifPos + q)) (fun i j => (fun _ _ => (1 : ℝ)) (0 + i) j) with hV
  have v1 : ∀ j, j < 2 → V 1 0 j = if j = 0 then 2 else 0 := by
    intro j hj
    show trainOut (net1.L 0) (fun q => w.unif (w.unifPos + (0 + q))) (fun _ _ => 1) 0 j = _
    have hp : preact (net1.L 0) (fun _ _ => 1) 0 j = 1 := by
      rw [hL]
      unfold preact dropPair
      norm_num [fsum_real, Finset.sum_range_succ]
    have hm : dropBits (net1.L 0) (fun q => w.unif (w.unifPos + (0 + q))) 0 j = if j = 0 then 1 else 0 := by
      unfold dropBits bern
      simp only [hu, hL]
      unfold dropPair
      by_cases h : j = 0 <;> norm_num [h, Flt.lt, Flt.eq, Flt.half, Flt.one, Flt.zero, Flt.sub, Flt.add]
    unfold trainOut
    rw [if_pos (by rw [hL]; rfl), hp, hm, hL]
    unfold dropPair
    by_cases h : j = 0 <;> norm_num [h, Flt.max, Flt.one, Flt.zero]
  have v2 : V 2 0 0 = 2 := by
    show trainOut (net1.L 1) (fun q => w.unif (w.unifPos + _)) (V 1) 0 0 = 2
    unfold trainOut infer preact
    rw [if_neg (by rw [hL]; exact LayerKind.noConfusion), hL]
    unfold dropPair actRow
    norm_num [fsum_real, Finset.sum_range_succ, v1]
  have hG1 : G 1 0 0 = 4 := by
    have h1 := g2.act 1 (by omega)
    rw [h1, if_pos (by omega)]
    rw [hs, show net1.dim 2 = 1 by rw [hdim]; rfl] at g1
    unfold actBack
    rw [hL, g1]
    unfold dropPair lossGrad
    norm_num [v2, Flt.ofInt]
  have hD1 : ∀ j, D 1 0 j = 4 := by
    intro j
    rw [g2.inp 1 (by omega)]
    unfold gradX
    rw [hL]
    unfold dropPair
    norm_num [fsum_real, Finset.sum_range_succ, hG1]
  have hG0 : ∀ j, j < 2 → G 0 0 j = if j = 0 then 4 else 0 := by
    intro j hj
    rw [g2.act 0 (by omega), if_neg (by omega)]
    have hm : dropBits (net1.L 0) (fun q => w.unif (w.unifPos + (dropDraws net1 1 0 + q))) 0 j = if j = 0 then 1 else 0 := by
      unfold dropBits bern dropDraws
      simp only [hu, hL]
      unfold dropPair
      by_cases h : j = 0 <;> norm_num [h, Flt.lt, Flt.eq, Flt.half, Flt.one, Flt.zero, Flt.sub, Flt.add]
    unfold actBack
    rw [show (net1.L 0).kind = .dropout by rw [hL]; rfl]
    dsimp only
    rw [show V (0 + 1) 0 j = if j = 0 then 2 else 0 from v1 j hj, hm, hD1]
    by_cases h : j = 0 <;> norm_num [h, Flt.le, Flt.zero]
  have hnew : ∀ j, j < 2 → ((stepNet net1 (fun _ => OptSpec.fresh o) 1 V G).L 0).b j = if j = 0 then -4 else 0 := by
    intro j hj
    show (OptSpec.fresh o).upd ((net1.L 0).b j) _ _ (gradB 1 (G 0) 0 j) = _
    have hg : gradB 1 (G 0) 0 j = G 0 0 j := by unfold gradB; rw [fsum_real, Finset.sum_range_one]
    rw [hg, hL, newSGD_ok ho, hG0 j hj]
    simp only [OptSpec.upd, OptSpec.fresh, OptSpec.rate, Optim.zero, dropPair]
    by_cases h : j = 0 <;> norm_num [h, Flt.zero, Flt.eq]
  rw [hb 0 (by decide), hb 1 (by decide), hnew 0 (by decide), hnew 1 (by decide)] at heq
  norm_num at heq

/-- Three layers in which the units 0 and 1 are alike. -/
def twinT (i : Nat) : LayerSpec α :=
  { (demoT i : LayerSpec α) with kind := if i = 2 then .softmax else .hidden, W := fun k j => Flt.ofInt ((k / 2 : Nat) - (j / 2 : Nat) : Int), b := fun j => Flt.ofInt (j / 2 : Nat) }

/-- C149_twins: a model of three layers, the last a softmax layer, on float64, with SGD and 5 samples, with two equal inputs, two equal
units in each hidden layer and two equal outputs. -/
example [Libm] : ∃ (w : World F64) (m : Model F64) (net : Net F64) (op : Nat → Nat) (S : Nat → OptSpec F64) (X Y : Mat) (A B : Nat → Nat → F64),
    Trains w m net op S .ce X Y 5 A B ∧ net.size = 3 ∧ (∀ i, i < 5 → A i 0 = A i 1) ∧ TwinRows (net.L 0) (S 0) 0 1 ∧
    (∀ l, l < 2 → (net.L l).kind ≠ .dropout ∧ (net.L l).kind ≠ .softmax ∧ TwinUnits net S l 0 1) ∧ (∀ i, i < 5 → B i 0 = B i 1) ∧
    (net.L 2).kind = .softmax ∧ m.lossType = 2 ∧ TwinColumns (net.L 2) (S 2) 0 1 := by
  obtain ⟨w, net, op, XM, YM, xM, yM, -, hs, hL, hdim, hT, dX, dY, -, -⟩ := exists_task (emptyWorld : World F64) 3 (by decide)
    twinT (fun i => demoT_pos (α := F64) i) (fun i => demoT_chain (α := F64) i) { newModel with loss := some ⟨.ce, (twinT 3 : LayerSpec F64).n⟩, lossType := 2 }
    (optFrom light) (OptSpec.fresh (optFrom light)) rfl (fun w p i hlt e => isOpt_from _ _ _ _ hlt e) (r := 5) (r' := 2) (by decide) (by decide)
    (fun i _ => Flt.ofInt i) (fun i j => if j = i + 2 then Flt.one else Flt.zero) (fun _ _ => Flt.one) (fun _ _ => Flt.one)
  have d0 : net.dim 0 = (twinT 0 : LayerSpec F64).n := by rw [hdim]
  have d1 : net.dim net.size = (twinT 3 : LayerSpec F64).n := by rw [hdim, hs]
  have hk : ∀ i, (net.L i).kind ≠ .sigmoid := by
    intro i
    rw [hL]
    unfold twinT
    dsimp only
    split <;> intro h <;> cases h
  have rows : ∀ i, TwinRows (net.L i) (OptSpec.fresh (optFrom light)) 0 1 := fun i => by rw [hL]; exact ⟨fun _ _ => rfl, fun _ _ => rfl, fun _ _ => rfl⟩
  have cols : ∀ i, TwinColumns (net.L i) (OptSpec.fresh (optFrom light)) 0 1 := fun i => by
    rw [hL]; exact ⟨fun _ _ => rfl, rfl, fun _ _ => rfl, fun _ _ => rfl, rfl, rfl⟩
  refine ⟨w, _, net, op, _, XM, YM, fun i _ => Flt.ofInt i, fun i j => if j = i + 2 then Flt.one else Flt.zero,
    ⟨hT, by rw [d1]; rfl, fun i _ => hk i, d0 ▸ dX, d1 ▸ dY⟩, hs, fun _ _ => rfl, rows 0, fun l hl => ⟨?_, ?_, cols l, rows (l + 1)⟩, fun i _ => ?_, ?_, rfl,
    cols 2⟩
  · rw [hL]; unfold twinT; dsimp only; split <;> intro h <;> cases h
  · rw [hL]; unfold twinT; dsimp only; rw [if_neg (by omega)]; intro h; cases h
  · show (if 0 = i + 2 then Flt.one else Flt.zero : F64) = if 1 = i + 2 then Flt.one else Flt.zero
    rw [if_neg (by omega), if_neg (by omega)]
  · rw [hL]; rfl

end NN
