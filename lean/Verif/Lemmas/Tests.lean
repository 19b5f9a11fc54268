import Verif.Model.Tests
import Verif.Props.C81_C82
import Verif.Lemmas.ExamplesRun
import Verif.Lemmas.ModelBack
/- The test programs of the package: literals, a loss test, a layer test. -/

set_option linter.unusedSectionVars false

namespace NN
variable {α : Type} [Flt α]
open Go

/-- The entries of a literal. -/
def entry (rows : List (List α)) (i j : Nat) : α := ((rows[i]?.getD [])[j]?).getD Flt.zero

theorem sliceLit_spec {w : World α} {rows : List (List α)} {c : Nat} (hr : rows ≠ []) (hc : 0 < c) (hl : ∀ l ∈ rows, l.length = c) :
    wp (sliceLit rows) w (fun s w' => NewMat w w' ⟨rows.length, c, s⟩ rows.length c (entry rows)) := by
  have hr' : 0 < rows.length := List.length_pos_iff.2 hr
  unfold sliceLit
  simp only [wp_bind]
  simp only [wp, allocOuter]
  refine wp_mono (wp_forN (fun k w1 =>
    (∀ a, a < w.next → w1.flt a = w.flt a) ∧ (∀ a, a ≠ w.next → w1.outs a = w.outs a) ∧
    w1.lay = w.lay ∧ w1.opt = w.opt ∧ w1.norm = w.norm ∧ w1.normPos = w.normPos ∧ w1.unif = w.unif ∧
    w1.unifPos = w.unifPos ∧ w1.log = w.log ∧ w1.logger = w.logger ∧ w1.next = w.next + 1 + k ∧
    (w1.outs w.next).length = rows.length ∧
    (∀ i, i < k → (w1.outs w.next)[i]? = some (w.next + 1 + i)) ∧
    (∀ i, i < k → w1.flt (w.next + 1 + i) = rows[i]?.getD [])) ?_ ?_) ?_
  · refine ⟨fun _ _ => rfl, fun a ha => ?_, rfl, rfl, rfl, rfl, rfl, rfl, rfl, rfl, rfl, ?_, ?_, ?_⟩
    · exact upd_ne ha
    · simp
    · intro i hi; omega
    · intro i hi; omega
  · rintro k w1 hk ⟨h1, h2, h3, h4, h5, h6, h7, h8, h9, h10, h11, h12, h13, h14⟩
    simp only [wp_bind]
    simp only [wp, rowLit, setRowRef]
    rw [if_pos (by simp; omega)]
    simp only [Nat.zero_add, Int.toNat_natCast]
    refine ⟨?_, ?_, h3, h4, h5, h6, h7, h8, h9, h10, by simp only [h11]; omega, ?_, ?_, ?_⟩
    · intro a ha
      rw [upd_ne (by omega)]; exact h1 a ha
    · intro a ha
      rw [upd_ne ha]; exact h2 a ha
    · simp [h12]
    · intro i hi
      simp only [upd_same, h11]
      rw [List.getElem?_set]
      by_cases e : k = i
      · subst e; simp [h12, hk]
      · rw [if_neg e]; exact h13 i (by omega)
    · intro i hi
      by_cases e : i = k
      · subst e; rw [← h11]; simp
      · rw [upd_ne (by omega)]; exact h14 i (by omega)
  · rintro _ w1 ⟨h1, h2, h3, h4, h5, h6, h7, h8, h9, h10, h11, h12, h13, h14⟩
    refine ⟨⟨rfl, rfl, rfl, hr', hc, by simp only [h11]; omega, ?_⟩, ?_, Nat.le_refl _, ?_, ?_, rfl, rfl⟩
    · intro i hi
      refine ⟨w.next + 1 + i, ?_, by omega, ?_⟩
      · simp only [World.rowAddr, Nat.zero_add]; exact h13 i hi
      · rw [h14 i hi]
        have hm : rows[i]?.getD [] = rows[i] := by simp [hi]
        have hlen : (rows[i]).length = c := hl _ (List.getElem_mem hi)
        rw [hm]
        refine List.ext_getElem (by simp [hlen]) fun j hj1 hj2 => ?_
        simp [entry, hi, hj1]
    · refine ⟨by omega, fun a ha _ => h1 a ha, fun a ha _ => h2 a (by omega), fun _ _ _ => by rw [h3],
        fun _ _ _ => by rw [h4], h5, h7, fun _ => h6, fun _ => h8, fun _ => h9, h10⟩
    · rintro a ⟨i, hi, e⟩
      simp only [World.rowAddr, Nat.zero_add, h13 i hi, Option.some.injEq] at e
      omega
    · intro i j a hi hj e1 e2
      simp only [World.rowAddr, Nat.zero_add, h13 i hi, h13 j hj, Option.some.injEq] at e1 e2
      omega

theorem matLit_spec {w : World α} {rows : List (List α)} (c : Nat) (hr : rows ≠ []) (hc : 0 < c) (hl : ∀ l ∈ rows, l.length = c) :
    wp (matLit rows) w (fun p w' => p.2 = none ∧ NewMat w w' p.1 rows.length c (entry rows)) := by
  unfold matLit
  refine wp_bind_mono (sliceLit_spec hr hc hl) ?_
  intro s w' h
  exact wp_of_ok (newMatrixFromSlice_spec h.mat) ⟨rfl, h⟩

/-! ### Losses -/

/-- The predictions after Forward of a loss: both cross-entropies clip them in place. -/
def afterForward (k : LossKind) (P : Nat → Nat → α) (i j : Nat) : α :=
  match k with
  | .ce | .bce => clipped (P i j)
  | _ => P i j

theorem lossForward_spec {w : World α} {out y : Mat} {r c : Nat} {P Y : Nat → Nat → α} (loss : Loss) (hl : loss.size = c)
    (hP : IsMat w out r c P) (hd : DistinctRows w out r) (hY : IsMat w y r c Y) (hy : ∀ a, w.IsRow y r a → ¬ w.IsRow out r a) :
    wp (loss.forward out y) w (fun p w' => p = (lossOf loss.kind r c P Y, none) ∧ Frame { flt := w.IsRow out r } w w' ∧
      IsMat w' out r c (afterForward loss.kind P)) := by
  have weak : ∀ {w'}, OnlyAllocs w w' → Frame { flt := w.IsRow out r } w w' := fun h =>
    h.weaken (fun _ _ h => h.elim) (fun _ _ h => h) (fun _ _ h => h) (fun _ _ h => h) id id id
  unfold Loss.forward lossOf afterForward
  rw [hl]
  cases loss.kind with
  | mse => exact wp_mono (mseForward_spec hP hY) fun p _ h => ⟨Prod.ext h.2.2 h.1, weak h.2.1, hP.allocs h.2.1⟩
  | mae => exact wp_mono (maeForward_spec hP hY) fun p _ h => ⟨Prod.ext h.2.2 h.1, weak h.2.1, hP.allocs h.2.1⟩
  | ce => exact wp_mono (ceForward_spec hP hd hY (Nat.le_refl _) hy) fun p _ h => ⟨Prod.ext h.2.2.2 h.1, h.2.1, h.2.2.1⟩
  | bce => exact wp_mono (bceForward_spec hP hd hY (Nat.le_refl _) hy) fun p _ h =>
      ⟨Prod.ext (h.2.2.trans (fsum2_sum2 _ _ _)) h.1, h.2.1.frame, h.2.1.mat⟩

/-- A test of loss_test.go: no error is reported; the loss printed and the gradient printed are those of the numbers in the test; the state that
existed before is unchanged. -/
theorem testLoss_spec {w : World α} (k : LossKind) {c : Nat} (hc : 0 < c) {P Y : List (List α)} (hP : P ≠ []) (hlen : Y.length = P.length)
    (hp : ∀ l ∈ P, l.length = c) (hy : ∀ l ∈ Y, l.length = c) :
    wp (testLoss k c P Y) w fun t w' => t.1 = [] ∧ t.2.1 = lossOf k P.length c (entry P) (entry Y) ∧
      IsMat w' t.2.2.2.2 P.length c (lossGrad k P.length c (afterForward k (entry P)) (entry Y)) ∧ OnlyAllocs w w' := by
  have hY : Y ≠ [] := by
    rintro rfl
    exact hP (List.length_eq_zero_iff.1 hlen.symm)
  unfold testLoss
  have e : newLoss k (c : Int) = (⟨k, c⟩, none) := by unfold newLoss; rw [if_neg (by omega)]
  rw [e]
  dsimp only
  refine wp_bind_mono (matLit_spec c hP hc hp) ?_
  rintro ⟨yhat, e1⟩ w1 ⟨-, h1⟩
  refine wp_bind_mono (matLit_spec c hY hc hy) ?_
  rintro ⟨y, e2⟩ w2 ⟨-, h2⟩
  dsimp only at h1 h2 ⊢
  rw [hlen] at h2
  have h1' := h1.then_allocs h2.frame
  have sep : ∀ a, w2.IsRow y P.length a → ¬ w2.IsRow yhat P.length a := by
    intro a ha hb
    have := h2.fresh a ha
    have := h1.mat.isRow_lt ((h1.mat.isRow_frame h2.frame (fun h => h) a).1 hb)
    omega
  refine wp_bind_mono (lossForward_spec ⟨k, c⟩ rfl h1'.mat h1'.distinct h2.mat sep) ?_
  rintro ⟨j, er⟩ w3 ⟨hj, h3, m3⟩
  obtain ⟨rfl, rfl⟩ := Prod.mk.inj hj
  dsimp only at m3 ⊢
  have hy3 : IsMat w3 y P.length c (entry Y) := h2.mat.frame h3 (fun h => h) sep
  have d3 : DistinctRows w3 yhat P.length := h1'.distinct.frame h3 h1'.mat.addr_lt (fun h => h)
  have ir : ∀ a, w3.IsRow yhat P.length a ↔ w2.IsRow yhat P.length a := h1'.mat.isRow_frame h3 (fun h => h)
  have sep3 : ∀ a, w3.IsRow y P.length a → ¬ w3.IsRow yhat P.length a := fun a ha hb =>
    sep a ((h2.mat.isRow_frame h3 (fun h => h) a).1 ha) ((ir a).1 hb)
  refine wp_bind_mono (lossBackward_spec ⟨k, c⟩ rfl m3 d3 hy3 sep3) ?_
  rintro ⟨d, e4⟩ w4 ⟨he, w5, n5, f5, a4, -, hg⟩
  obtain rfl : e4 = none := he
  refine wp_pure.2 ⟨rfl, rfl, hg.mat, ?_⟩
  have a2 := h1.frame.trans h2.frame
  have a3 : OnlyAllocs w w3 := a2.then_flt h3 fun a ha => h1.fresh a ((h1.mat.isRow_frame h2.frame (fun h => h) a).1 ha)
  have a5 : OnlyAllocs w w5 := a3.then_flt f5 fun a ha =>
    h1.fresh a ((h1.mat.isRow_frame h2.frame (fun h => h) a).1 ((ir a).1 ha.2))
  exact a5.trans a4

/-! ### Layers -/

/-- `NewLayer(n, o)`, `Init()`. -/
theorem freshLayer_spec {w : World α} {k : LayerKind} {n o : Nat} {slope dropout : α} (h : ¬ BadLayer k n o slope dropout) {β : Type}
    {K : Nat → Go α β} {Q : β → World α → Prop}
    (hK : ∀ lp wm bm w1, IsLayer w1 lp wm bm { newSpec k n o slope dropout with W := initW w n o } → OwnParams w1 wm bm n →
      Frame { norm := True } w w1 → w.next ≤ lp → (∀ a, w1.IsParam wm bm n a → w.next ≤ a) → wp (K lp) w1 Q) :
    wp (do
      let (l, _) ← newLayer k n o slope dropout
      let lp ← layNew l
      layerInit lp
      K lp) w Q := by
  refine wp_bind_mono (newLayer_spec h) ?_
  rintro ⟨l, e⟩ w2 ⟨-, ha2, wm, bm, hl⟩
  dsimp only at hl ⊢
  obtain ⟨w3, e3, hnew, -⟩ := hl.put ha2
  refine wp_bind_ok e3 ?_
  refine wp_bind_mono (layerInit_spec hnew.layer hnew.own) ?_
  rintro _ w4 ⟨hL, hf, hn, ho, -⟩
  have en : w3.normPos = w.normPos := hnew.allocs.normPos fun h => h
  have en' : w3.norm = w.norm := hnew.allocs.norm
  have ei : initW w3 n o = initW w n o := by
    funext i j
    unfold initW
    rw [en, en']
  have isr : ∀ m q a, w4.IsRow m q a ↔ w3.IsRow m q a := fun m q a => isRow_eq (by rw [ho]) _ _
  refine hK _ wm bm w4 ?_ ⟨?_, ?_, hnew.own.outer⟩ ?_ hnew.fresh ?_
  · rw [← ei]; exact hL
  · exact (distinctRows_eq (by rw [ho])).2 hnew.own.distinct
  · intro a h1 h2
    exact hnew.own.disjoint a ((isr _ _ _).1 h1) ((isr _ _ _).1 h2)
  · have := hnew.params
    frames hnew.allocs hf
    intro a ha h1
    have := this a (.inl h1)
    omega
  · intro a h1
    exact hnew.params a (h1.imp (isr _ _ _).1 (isr _ _ _).1)

/-- A layer as a model of its own. -/
def soloNet (lp : Nat) (wm bm : Mat) (L : LayerSpec α) : Net α := ⟨1, fun i => if i = 0 then L.n else L.o, fun _ => lp, fun _ => wm, fun _ => bm, fun _ => L⟩

/-- The model of which a layer is the only one. -/
def soloModel (lp : Nat) (L : LayerSpec α) : Model α := { newModel with modelSize := 1, inputSize := L.n, outputSize := L.o, layers := [lp] }

theorem soloNet_isNet {w : World α} {lp : Nat} {wm bm : Mat} {L : LayerSpec α} (h : IsLayer w lp wm bm L) :
    IsNet w (soloModel lp L) (soloNet lp wm bm L) := by
  refine ⟨rfl, rfl, fun i _ => h, ?_, ?_, fun _ => rfl, fun _ => rfl⟩ <;> intro i hi <;> (obtain rfl : i = 0 := by simpa [soloNet] using hi) <;> rfl

theorem layerForward_step (lp : Nat) (x : Mat) (w : World α) : layerForward lp x w = forwardStep true lp x w := by
  unfold forwardStep
  refine Eq.symm ((bind_ok (show layGet lp w = .ok (w.lay lp, w) from rfl)).trans ?_)
  rw [if_neg (by simp)]

/-- What a passing test of a layer with content `L` leaves, for r rows `X` of inputs and upstream gradient `D`: the outputs and the gradients are those
of the textbook formulas. -/
structure LayerTestOk (w w' : World α) (t : LayerTest) (L : LayerSpec α) (r : Nat) (X D : Nat → Nat → α) (V M : Nat → Nat → α) : Prop where
  fails : t.fails = []
  layer : ∃ wm bm, IsLayer w' t.layer wm bm L
  x : IsMat w' t.x r L.n X
  out : IsMat w' t.out r L.o V
  err : t.grads.err = none
  dw : IsMat w' t.grads.dWeights L.n L.o (gradW r X (actBack L V M D))
  db : IsMat w' t.grads.dBiases 1 L.o (gradB r (actBack L V M D))
  dx : IsMat w' t.grads.dInputs r L.n (gradX L (actBack L V M D))
  frame : Frame { norm := True, unif := L.kind = .dropout } w w'

/-- The layer of a test. -/
def testSpec (w : World α) (k : LayerKind) (slope dropout : α) : LayerSpec α := { newSpec k 3 5 slope dropout with W := initW w 3 5 }

/-- Forward of a layer in training, for the backward pass that follows. -/
theorem layerForward_tape {w : World α} {lp : Nat} {wm bm : Mat} {L : LayerSpec α} (hL : IsLayer w lp wm bm L) {x : Mat} {r : Nat}
    {X : Nat → Nat → α} (hX : IsMat w x r L.n X) :
    wp (layerForward lp x) w fun p w' => p.2 = none ∧ Fresh w w' p.1 r L.o (trainOut L (fun q => w.unif (w.unifPos + q)) X) ∧
      Frame { lay := fun a => a = lp, unif := L.kind = .dropout } w w' ∧ IsLayer w' lp wm bm L ∧
      ∃ mask, Tape w' (soloModel lp L) (soloNet lp wm bm L) r (fun i => if i = 0 then x else p.1) (fun _ => mask)
        (fun i => if i = 0 then X else trainOut L (fun q => w.unif (w.unifPos + q)) X) (fun _ => dropBits L fun q => w.unif (w.unifPos + q)) := by
  have := forwardStep_spec hL hX true
  unfold wp at this ⊢
  rw [layerForward_step]
  refine wp_mono this ?_
  rintro ⟨out, e⟩ w' ⟨he, mask, V, M, h⟩
  have hV : V = trainOut L (fun q => w.unif (w.unifPos + q)) X := by
    by_cases hk : L.kind = .dropout
    · exact (h.valD ⟨rfl, hk⟩).1
    · rw [h.val (by simp [hk])]
      funext i j
      unfold trainOut
      rw [if_neg hk]
  have hL' : IsLayer w' lp wm bm L := hL.frame_static h.frame (h.stat _ hL.lt) (fun h => h) (fun h => h) (fun _ _ h => h)
  have hX' : IsMat w' x r L.n X := hX.frame h.frame (fun h => h) (fun _ _ h => h)
  subst hV
  refine ⟨he, h.res, h.frame.weaken (fun _ _ h => h) (fun _ _ h => h) (fun _ _ h => h) (fun _ _ h => h) (fun h => h.2) id id, hL', mask,
    soloNet_isNet hL', ?_, ?_, ?_, ?_⟩
  · intro i hi
    have hi : i ≤ 1 := hi
    rcases Nat.le_one_iff_eq_zero_or_eq_one.1 hi with rfl | rfl
    · exact hX'
    · exact h.res.mat
  · intro i hi hk
    obtain rfl : i = 0 := by simpa [soloNet] using hi
    have hk : L.kind = .hidden ∨ L.kind = .leaky ∨ L.kind = .dropout := hk
    show (w'.lay lp).reluInputs = out
    by_cases hd : L.kind = .dropout
    · rw [h.memD ⟨rfl, hd⟩]
    · rw [h.mem (by simp [hd])]
      rcases hk with e | e | e <;> simp [e, remember]
  · intro i hi hk
    obtain rfl : i = 0 := by simpa [soloNet] using hi
    have hk : L.kind = .softmax := hk
    show (w'.lay lp).outputs = out
    rw [h.mem (by simp [hk]), hk]
    rfl
  · intro i hi hk
    obtain rfl : i = 0 := by simpa [soloNet] using hi
    have hk : L.kind = .dropout := hk
    have hM := (h.valD ⟨rfl, hk⟩).2
    subst hM
    refine ⟨?_, (h.bits ⟨rfl, hk⟩).mat⟩
    show (w'.lay lp).binaryMask = mask
    rw [h.memD ⟨rfl, hk⟩]

/-- A test of network_test.go for a layer other than sigmoid. -/
theorem testLayer_spec {w : World α} {k : LayerKind} (hk : k ≠ .sigmoid) {slope dropout : α} (hb : ¬ BadLayer k 3 5 slope dropout)
    {X D : List (List α)} (hX : X ≠ []) (hlen : D.length = X.length) (hx : ∀ l ∈ X, l.length = 3) (hd : ∀ l ∈ D, l.length = 5) :
    wp (testLayer k slope dropout X D) w fun t w' =>
      LayerTestOk w w' t (testSpec w k slope dropout) X.length (entry X) (entry D)
        (trainOut (testSpec w k slope dropout) (fun q => w.unif (w.unifPos + q)) (entry X))
        (dropBits (testSpec w k slope dropout) fun q => w.unif (w.unifPos + q)) := by
  have hD : D ≠ [] := by
    rintro rfl
    exact hX (List.length_eq_zero_iff.1 hlen.symm)
  unfold testLayer
  refine freshLayer_spec (n := 3) (o := 5) hb ?_
  intro lp wm bm w1 hL hown f1 hfr hpar
  change IsLayer w1 lp wm bm (testSpec w k slope dropout) at hL
  have hkind : (testSpec w k slope dropout).kind = k := rfl
  have hn : (testSpec w k slope dropout).n = 3 := rfl
  have ho : (testSpec w k slope dropout).o = 5 := rfl
  generalize testSpec w k slope dropout = L at *
  refine wp_bind_mono (matLit_spec 3 hX (by omega) hx) ?_
  rintro ⟨x, e⟩ w2 ⟨he, h2⟩
  obtain rfl : e = none := he
  dsimp only at h2 ⊢
  have hL2 : IsLayer w2 lp wm bm L := hL.frame_static h2.frame (Static.of_frame h2.frame (fun _ _ h => h) _ hL.lt) (fun h => h) (fun h => h) (fun _ _ h => h)
  have hX2 : IsMat w2 x X.length L.n (entry X) := by rw [hn]; exact h2.mat
  refine wp_bind_mono (layerForward_tape hL2 hX2) ?_
  rintro ⟨out, e⟩ w3 ⟨he, ho3, f3, hL3, mask, ht⟩
  obtain rfl : e = none := he
  dsimp only at ho3 ht ⊢
  have eu : (fun q => w2.unif (w2.unifPos + q)) = fun q => w.unif (w.unifPos + q) := by
    rw [h2.frame.unif, h2.frame.unifPos (fun h => h), f1.unif, f1.unifPos (fun h => h)]
  rw [eu] at ho3 ht
  refine wp_bind_mono (matLit_spec 5 hD (by omega) hd) ?_
  rintro ⟨d, e⟩ w4 ⟨-, h4⟩
  dsimp only at h4 ⊢
  have hb4 := layerBackward_spec ht h4.frame (k := 0) (by simp [soloNet]) (by show L.kind ≠ _; rw [hkind]; exact hk) (d := d) (Dk := entry D)
    (by show Fresh w3 w4 d X.length (if 0 + 1 = 0 then L.n else L.o) _
        rw [← hlen, if_neg (by omega), ho]; exact h4.toFresh)
  refine wp_bind_mono hb4 ?_
  rintro g w5 ⟨hg, f5⟩
  dsimp only [soloNet] at hg
  simp only [if_true, Nat.zero_add, one_ne_zero, if_false] at hg
  have ge := hg.err
  rw [ge]
  have drow : ∀ a, w4.IsRow d X.length a → w3.next ≤ a := fun a ha => h4.fresh a (by rw [hlen]; exact ha)
  have old : ∀ {m : Mat} {r c : Nat} {A : Nat → Nat → α}, IsMat w3 m r c A → IsMat w5 m r c A := by
    intro m r c A hm
    refine (hm.allocs h4.frame).frame f5 (fun h => h) fun a ha hb => ?_
    have := drow a hb
    have := hm.isRow_lt ((hm.isRow_frame h4.frame (fun h => h) a).1 ha)
    omega
  refine wp_pure.2 ⟨rfl, ⟨wm, bm, ?_⟩, ?_, ?_, ge, ?_, ?_, ?_, ?_⟩
  · have hL4 : IsLayer w4 lp wm bm L := hL3.frame_static h4.frame (Static.of_frame h4.frame (fun _ _ h => h) _ hL3.lt) (fun h => h) (fun h => h) (fun _ _ h => h)
    refine hL4.frame_static f5 (Static.of_frame f5 (fun _ _ h => h) _ hL4.lt) (fun h => h) (fun h => h) fun a ha hb => ?_
    have := drow a hb
    have := hL3.wmat.isRow_lt (a := a)
    have := hL3.bmat.isRow_lt (a := a)
    rcases ha with ha | ha
    · have := hL3.wmat.isRow_lt ((hL3.wmat.isRow_frame h4.frame (fun h => h) a).1 ha)
      omega
    · have := hL3.bmat.isRow_lt ((hL3.bmat.isRow_frame h4.frame (fun h => h) a).1 ha)
      omega
  · exact old (ht.mats 0 (by simp [soloNet]))
  · exact old ho3.mat
  · exact hg.spec.1.mat
  · exact hg.spec.2.1.mat
  · exact hg.spec.2.2.mat
  · have f2 : Frame { norm := True } w w2 := by frames f1 h2.frame
    have f3' : Frame { norm := True, unif := L.kind = .dropout } w w3 := by
      frames f2 f3
      intro a ha hb
      have : a = lp := hb
      omega
    have f4' : Frame { norm := True, unif := L.kind = .dropout } w w4 := by frames f3' h4.frame
    frames f4' f5
    intro a ha hb
    have := drow a hb
    have := f3'.next_le
    omega

end NN
