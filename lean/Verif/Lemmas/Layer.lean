import Verif.Lemmas.Activation
import Verif.Spec.Layer
import Verif.Model.Network
/- Execution lemmas for network.go: constructors, Init, forward passes. -/

set_option linter.unusedSectionVars false

namespace NN
variable {α : Type} [Flt α]
open Go

/-- Compose two frames; leaves only the non-trivial footprint inclusions. -/
macro "frames " h1:term:max h2:term:max : tactic =>
  `(tactic| (refine Frame.trans $h1 $h2 ?_ ?_ ?_ ?_ ?_ ?_ ?_ ?_ ?_ ?_ ?_ ?_ ?_ ?_ <;>
    first | exact fun _ _ h => h | exact id | exact fun _ _ h => False.elim h | exact False.elim | skip))

theorem Frame.weaken {f g : Foot} {w w' : World α} (h : Frame f w w') (fl : ∀ a, a < w.next → f.flt a → g.flt a)
    (ou : ∀ a, a < w.next → f.outs a → g.outs a) (la : ∀ a, a < w.next → f.lay a → g.lay a)
    (op : ∀ a, a < w.next → f.opt a → g.opt a) (un : f.unif → g.unif) (no : f.norm → g.norm) (lo : f.log → g.log) :
    Frame g w w' :=
  h.trans (Frame.refl {} w') fl (fun _ _ h => h.elim) ou (fun _ _ h => h.elim) la (fun _ _ h => h.elim) op
    (fun _ _ h => h.elim) un False.elim no False.elim lo False.elim

theorem NewMat.toFresh {w w' : World α} {m : Mat} {r c : Nat} {V} (h : NewMat w w' m r c V) : Fresh w w' m r c V :=
  ⟨h.mat, h.fresh_outer, h.fresh, h.distinct, h.off, h.cap⟩

theorem Fresh.congr {w w' : World α} {m : Mat} {r c : Nat} {A B} (h : Fresh w w' m r c A)
    (hAB : ∀ i j, i < r → j < c → A i j = B i j) : Fresh w w' m r c B := { h with mat := h.mat.congr hAB }

theorem Fresh.set {w w1 w2 : World α} {m : Mat} {r c : Nat} {A V} (h : Fresh w w1 m r c A)
    (hs : SetMat w1 w2 m r c V) : Fresh w w2 m r c V :=
  ⟨hs.mat, h.fresh_outer, fun a ha => h.fresh a ((hs.isRow a).1 ha), (hs.distinct _ _).2 h.distinct, h.off, h.cap⟩

/-- A fresh matrix survives changes that do not touch it. -/
theorem Fresh.frame {f : Foot} {w w1 w2 : World α} {m : Mat} {r c : Nat} {A} (h : Fresh w w1 m r c A)
    (hf : Frame f w1 w2) (ho : ¬ f.outs m.m.addr) (hr : ∀ a, w1.IsRow m r a → ¬ f.flt a) : Fresh w w2 m r c A :=
  ⟨h.mat.frame hf ho hr, h.fresh_outer, fun a ha => h.fresh a ((h.mat.isRow_frame hf ho a).1 ha),
    h.distinct.frame hf h.mat.addr_lt ho, h.off, h.cap⟩

theorem Fresh.mono {w w0 w1 : World α} {m : Mat} {r c : Nat} {A} (h : Fresh w w1 m r c A) (hle : w0.next ≤ w.next) :
    Fresh w0 w1 m r c A :=
  { h with fresh_outer := hle.trans h.fresh_outer, fresh := fun a ha => hle.trans (h.fresh a ha) }

theorem frame_laySet (w : World α) (lp : Nat) (l : Layer α) :
    Frame { lay := fun a => a = lp } w { w with lay := upd w.lay lp l } :=
  ⟨Nat.le_refl _, fun _ _ _ => rfl, fun _ _ _ => rfl, fun _ _ h => upd_ne h, fun _ _ _ => rfl, rfl, rfl,
    fun _ => rfl, fun _ => rfl, fun _ => rfl, rfl⟩

/-- Layer objects survive changes that touch neither them nor their parameters. -/
theorem IsLayer.frame {f : Foot} {w w' : World α} {lp : Nat} {wm bm : Mat} {L : LayerSpec α}
    (h : IsLayer w lp wm bm L) (hf : Frame f w w') (hl : ¬ f.lay lp) (how : ¬ f.outs wm.m.addr)
    (hob : ¬ f.outs bm.m.addr) (hr : ∀ a, w.IsParam wm bm L.n a → ¬ f.flt a) : IsLayer w' lp wm bm L := by
  have e := hf.lay lp h.lt hl
  refine ⟨h.lt.trans_le hf.next_le, ?_, ?_, ?_, ?_, ?_, ?_, ?_, h.wmat.frame hf how fun a ha => hr a (.inl ha),
    h.bmat.frame hf hob fun a ha => hr a (.inr ha)⟩ <;> rw [e]
  exacts [h.kind, h.ins, h.outs, h.weights, h.biases, h.slope, h.dropout]

/-- Static part of a layer object: everything but what it remembers from the last forward pass. -/
def Layer.static (l : Layer α) : Layer α :=
  { l with reluInputs := Mat.zero, outputs := Mat.zero, binaryMask := Mat.zero }

/-- Like `IsLayer.frame`, when the layer object itself may have remembered something new. -/
theorem IsLayer.frame_static {f : Foot} {w w' : World α} {lp : Nat} {wm bm : Mat} {L : LayerSpec α}
    (h : IsLayer w lp wm bm L) (hf : Frame f w w') (hl : (w'.lay lp).static = (w.lay lp).static)
    (how : ¬ f.outs wm.m.addr) (hob : ¬ f.outs bm.m.addr) (hr : ∀ a, w.IsParam wm bm L.n a → ¬ f.flt a) :
    IsLayer w' lp wm bm L := by
  simp only [Layer.static, Layer.mk.injEq, and_true] at hl
  obtain ⟨e1, e2, e3, e4, e5, e6, e7⟩ := hl
  exact ⟨h.lt.trans_le hf.next_le, e1.trans h.kind, e2.trans h.ins, e3.trans h.outs, e4.trans h.weights,
    e5.trans h.biases, e6.trans h.slope, e7.trans h.dropout, h.wmat.frame hf how fun a ha => hr a (.inl ha),
    h.bmat.frame hf hob fun a ha => hr a (.inr ha)⟩

theorem remember_static (k : LayerKind) (l : Layer α) (out : Mat) : (remember k l out).static = l.static := by
  cases k <;> rfl

theorem affine_spec {w : World α} {lp : Nat} {wm bm : Mat} {L : LayerSpec α} (hL : IsLayer w lp wm bm L) {x : Mat}
    {r : Nat} {X : Nat → Nat → α} (hX : IsMat w x r L.n X) :
    wp (affine (w.lay lp) x) w (fun p w' => p.2 = none ∧ NewMat w w' p.1 r L.o (preact L X)) := by
  unfold affine
  rw [if_neg (by rw [hX.cols, hL.ins]; simp), hL.weights]
  refine wp_bind_ok rfl ?_
  refine wp_bind_mono (dot_spec hX hL.wmat) ?_
  rintro ⟨out, e⟩ w1 ⟨rfl, h1⟩
  dsimp only
  rw [h1.mat.rows, h1.mat.cols, Int.toNat_natCast, Int.toNat_natCast]
  refine wp_bind_mono (wp_fill (V := preact L X) h1.mat ?_) fun _ w' hw' => ⟨rfl, h1.set hw'⟩
  intro i j w2 hi hj hw2
  rw [wp_bind, wp_at hw2.mat hi hj, mix_self, hL.biases]
  refine wp_bind_ok rfl ?_
  have h0 : wp (bm.at 0 (j : Int)) w2 (fun v w3 => v = L.b j ∧ w3 = w2) :=
    (wp_at (i := 0) (h1.old hw2 hL.bmat) Nat.one_pos hj).2 ⟨rfl, rfl⟩
  refine wp_bind_mono h0 ?_
  rintro _ w3 ⟨rfl, rfl⟩
  exact hw2.put h1.distinct hi hj rfl

theorem affine_bad {l : Layer α} {x : Mat} (h : x.cols ≠ l.inputSize) (w : World α) :
    affine l x w = .ok ((Mat.zero, some (.matrixDims x.rows x.cols)), w) := by
  unfold affine; rw [if_pos h]; rfl

/-- After remembering and activating in place. -/
theorem act_frame {w w1 w2 : World α} {lp : Nat} {l : Layer α} {out : Mat} {r o : Nat} {Z V : Nat → Nat → α}
    (hlt : lp < w.next) (h1 : NewMat w w1 out r o Z) (hs : SetMat { w1 with lay := upd w1.lay lp l } w2 out r o V) :
    Fresh w w2 out r o V ∧ Frame { lay := fun a => a = lp } w w2 ∧ w2.lay lp = l := by
  have hf := frame_laySet w1 lp l
  have hfr : Fresh w { w1 with lay := upd w1.lay lp l } out r o Z := h1.toFresh.frame hf (fun h => h) (fun _ _ h => h)
  refine ⟨hfr.set hs, ?_, ?_⟩
  · have h2 : Frame { lay := fun a => a = lp } w { w1 with lay := upd w1.lay lp l } := by
      frames h1.frame hf
    frames h2 hs.frame
    intro a ha hr
    have := hfr.fresh a hr
    omega
  · rw [hs.frame.lay lp (hlt.trans_le h1.frame.next_le) (fun h => h)]
    exact upd_same

/-- The inference pass of every layer type. -/
def layerInfer (lp : Nat) (x : Mat) : Go α (Mat × Option Err) := do
  let l ← layGet lp
  if l.kind = .dropout then dropoutForwardNo lp x else layerForward lp x

/-- What a successful forward pass establishes. -/
structure FwdOk (w w' : World α) (lp : Nat) (L : LayerSpec α) (r : Nat) (out : Mat) (V : Nat → Nat → α) : Prop where
  res : Fresh w w' out r L.o V
  frame : Frame { lay := fun a => a = lp } w w'
  mem : w'.lay lp = remember L.kind (w.lay lp) out

theorem layerInfer_spec {w : World α} {lp : Nat} {wm bm : Mat} {L : LayerSpec α} (hL : IsLayer w lp wm bm L) {x : Mat}
    {r : Nat} {X : Nat → Nat → α} (hX : IsMat w x r L.n X) :
    wp (layerInfer lp x) w (fun p w' => p.2 = none ∧ FwdOk w w' lp L r p.1 (infer L X)) := by
  unfold layerInfer
  have hk := hL.kind
  refine wp_bind_ok rfl ?_
  rw [hk]
  by_cases hdrop : L.kind = .dropout
  · rw [if_pos hdrop]
    unfold dropoutForwardNo
    refine wp_bind_ok rfl ?_
    refine wp_bind_mono (affine_spec hL hX) ?_
    rintro ⟨out, e⟩ w1 ⟨he, h1⟩
    obtain rfl : e = none := he
    dsimp only at h1 ⊢
    refine wp_bind_ok rfl ?_
    have hf := frame_laySet w1 lp { w.lay lp with reluInputs := out }
    refine wp_bind_mono (relu_spec (h1.mat.frame hf (fun h => h) fun _ _ h => h)
      ((distinctRows_eq rfl).2 h1.distinct)) ?_
    rintro out w2 ⟨rfl, h2⟩
    obtain ⟨a, b, c⟩ := act_frame hL.lt h1 h2
    refine ⟨rfl, a.congr ?_, b, ?_⟩
    · intro i j _ _; simp [infer, actRow, hdrop]
    · rw [c]; simp [remember, hdrop]
  rw [if_neg hdrop]
  unfold layerForward
  refine wp_bind_ok rfl ?_
  rw [hk]
  cases hkind : L.kind with
  | dropout => exact absurd hkind hdrop
  | hidden =>
    unfold hiddenForward
    refine wp_bind_ok rfl ?_
    refine wp_bind_mono (affine_spec hL hX) ?_
    rintro ⟨out, e⟩ w1 ⟨he, h1⟩
    obtain rfl : e = none := he
    dsimp only at h1 ⊢
    refine wp_bind_ok rfl ?_
    have hf := frame_laySet w1 lp { w.lay lp with reluInputs := out }
    refine wp_bind_mono (relu_spec (h1.mat.frame hf (fun h => h) fun _ _ h => h)
      ((distinctRows_eq rfl).2 h1.distinct)) ?_
    rintro out w2 ⟨rfl, h2⟩
    obtain ⟨a, b, c⟩ := act_frame hL.lt h1 h2
    refine ⟨rfl, a.congr ?_, b, ?_⟩
    · intro i j _ _; simp [infer, actRow, hkind]
    · rw [c]; simp [remember, hkind]
  | linear =>
    unfold linearForward
    refine wp_bind_ok rfl ?_
    refine wp_bind_mono (affine_spec hL hX) ?_
    rintro ⟨out, e⟩ w1 ⟨he, h1⟩
    obtain rfl : e = none := he
    dsimp only at h1 ⊢
    refine ⟨rfl, h1.toFresh.congr ?_, h1.frame.mono (Foot.Le.empty _), ?_⟩
    · intro i j _ _; simp [infer, actRow, hkind]
    · rw [h1.frame.lay lp hL.lt (fun h => h)]; simp [remember, hkind]
  | sigmoid =>
    unfold sigmoidForward
    refine wp_bind_ok rfl ?_
    refine wp_bind_mono (affine_spec hL hX) ?_
    rintro ⟨out, e⟩ w1 ⟨he, h1⟩
    obtain rfl : e = none := he
    dsimp only at h1 ⊢
    refine wp_bind_mono (sigmoid_spec h1.mat h1.distinct) ?_
    rintro out w2 ⟨rfl, h2⟩
    have h3 := h1.set h2
    refine ⟨rfl, h3.toFresh.congr ?_, h3.frame.mono (Foot.Le.empty _), ?_⟩
    · intro i j _ _; simp [infer, actRow, hkind]
    · rw [h3.frame.lay lp hL.lt (fun h => h)]; simp [remember, hkind]
  | leaky =>
    unfold leakyForward
    refine wp_bind_ok rfl ?_
    refine wp_bind_mono (affine_spec hL hX) ?_
    rintro ⟨out, e⟩ w1 ⟨he, h1⟩
    obtain rfl : e = none := he
    dsimp only at h1 ⊢
    refine wp_bind_ok rfl ?_
    have hf := frame_laySet w1 lp { w.lay lp with reluInputs := out }
    refine wp_bind_mono (leakyRelu_spec _ (h1.mat.frame hf (fun h => h) fun _ _ h => h)
      ((distinctRows_eq rfl).2 h1.distinct)) ?_
    rintro out w2 ⟨rfl, h2⟩
    obtain ⟨a, b, c⟩ := act_frame hL.lt h1 h2
    refine ⟨rfl, a.congr ?_, b, ?_⟩
    · intro i j _ _; simp [infer, actRow, hkind, hL.slope]
    · rw [c]; simp [remember, hkind]
  | softmax =>
    unfold softmaxForward
    refine wp_bind_ok rfl ?_
    refine wp_bind_mono (affine_spec hL hX) ?_
    rintro ⟨out, e⟩ w1 ⟨he, h1⟩
    obtain rfl : e = none := he
    dsimp only at h1 ⊢
    refine wp_bind_mono (softmax_spec h1.mat h1.distinct) ?_
    rintro out w2 ⟨rfl, h2⟩
    have h3 := h1.set h2
    refine wp_bind_ok rfl ?_
    have hf := frame_laySet w2 lp { w.lay lp with outputs := out }
    refine ⟨rfl, (h3.toFresh.frame hf (fun h => h) fun _ _ h => h).congr ?_, ?_, ?_⟩
    · intro i j _ _; simp [infer, actRow, hkind]
    · frames h3.frame hf
    · simp [remember, hkind]

/-! ### Rejected inputs -/

theorem layerForward_bad {w : World α} {lp : Nat} {x : Mat} (h : x.cols ≠ (w.lay lp).inputSize) :
    layerForward lp x w = .ok ((Mat.zero, some (.matrixDims x.rows x.cols)), w) := by
  unfold layerForward
  refine (bind_ok (show layGet lp w = .ok (w.lay lp, w) from rfl)).trans ?_
  have ha := affine_bad h w
  cases (w.lay lp).kind <;>
  · simp only [hiddenForward, linearForward, sigmoidForward, leakyForward, softmaxForward, dropoutForward]
    refine (bind_ok (show layGet lp w = .ok (w.lay lp, w) from rfl)).trans ?_
    exact (bind_ok ha).trans rfl

theorem layerInfer_bad {w : World α} {lp : Nat} {x : Mat} (h : x.cols ≠ (w.lay lp).inputSize) :
    layerInfer lp x w = .ok ((Mat.zero, some (.matrixDims x.rows x.cols)), w) := by
  unfold layerInfer
  refine (bind_ok (show layGet lp w = .ok (w.lay lp, w) from rfl)).trans ?_
  split
  · unfold dropoutForwardNo
    refine (bind_ok (show layGet lp w = .ok (w.lay lp, w) from rfl)).trans ?_
    exact (bind_ok (affine_bad h w)).trans rfl
  · exact layerForward_bad h

/-! ### The dropout layer in training -/

/-- Nested loops with an invariant. -/
theorem wp_for2 {r c : Nat} {body : Nat → Nat → Go α Unit} {w : World α} (Inv : Nat → Nat → World α → Prop)
    (h0 : Inv 0 0 w) (hs : ∀ i j w', i < r → j < c → Inv i j w' → wp (body i j) w' (fun _ w'' => Inv i (j + 1) w''))
    (hr : ∀ i w', i < r → Inv i c w' → Inv (i + 1) 0 w') :
    wp (forN r fun i => forN c fun j => body i j) w (fun _ w' => Inv r 0 w') := by
  refine wp_forN (fun i w' => Inv i 0 w') h0 ?_
  intro i w1 hi h1
  refine wp_mono (wp_forN (fun j w' => Inv i j w') h1 ?_) fun _ w' h => hr i w' hi h
  intro j w2 hj h2
  exact hs i j w2 hi hj h2

theorem binomialRand_spec (w : World α) (P : α) :
    binomialRand 1 P w = .ok (bern P (w.unif w.unifPos), { w with unifPos := w.unifPos + 1 }) := by
  unfold binomialRand bern
  simp only [foldN, pure_bind]
  have hd : drawUnif w = .ok (w.unif w.unifPos, { w with unifPos := w.unifPos + 1 }) := rfl
  by_cases h1 : Flt.lt (w.unif w.unifPos) (if Flt.lt Flt.half P = true then Flt.one -. P else P) = true <;>
  by_cases h2 : Flt.eq (if Flt.lt Flt.half P = true then Flt.one -. P else P) P = true <;>
  simp [bind, Go.bind, pure, Go.pure, hd, h1, h2]

/-- What a training pass of a dropout layer establishes. -/
structure DropOk (w w' : World α) (lp : Nat) (L : LayerSpec α) (r : Nat) (out mask : Mat) (V M : Nat → Nat → α) :
    Prop where
  res : Fresh w w' out r L.o V
  bits : Fresh w w' mask r L.o M
  sep : ∀ a, w'.IsRow out r a → ¬ w'.IsRow mask r a
  frame : Frame { lay := fun a => a = lp, unif := True } w w'
  mem : w'.lay lp = { w.lay lp with reluInputs := out, binaryMask := mask }
  pos : w'.unifPos = w.unifPos + r * L.o

/-- The mask entry drawn for position (i, j). -/
def maskAt (w : World α) (L : LayerSpec α) (i j : Nat) : α :=
  bern (Flt.one -. L.dropout) (w.unif (w.unifPos + i * L.o + j))

theorem dropoutForward_spec {w : World α} {lp : Nat} {wm bm : Mat} {L : LayerSpec α} (hL : IsLayer w lp wm bm L)
    {x : Mat} {r : Nat} {X : Nat → Nat → α} (hX : IsMat w x r L.n X) :
    wp (dropoutForward lp x) w (fun p w' => p.2 = none ∧ ∃ mask, DropOk w w' lp L r p.1 mask
      (fun i j => Flt.max (preact L X i j) Flt.zero *. (maskAt w L i j /. (Flt.one -. L.dropout))) (maskAt w L)) := by
  unfold dropoutForward
  refine wp_bind_ok rfl ?_
  refine wp_bind_mono (affine_spec hL hX) ?_
  rintro ⟨out, e⟩ w1 ⟨he, h1⟩
  obtain rfl : e = none := he
  dsimp only at h1 ⊢
  refine wp_bind_ok rfl ?_
  have hf := frame_laySet w1 lp { w.lay lp with reluInputs := out }
  refine wp_bind_mono (relu_spec (h1.mat.frame hf (fun h => h) fun _ _ h => h)
    ((distinctRows_eq rfl).2 h1.distinct)) ?_
  rintro out w2 ⟨rfl, h2⟩
  obtain ⟨a, b, c⟩ := act_frame hL.lt h1 h2
  rw [h1.mat.rows, h1.mat.cols]
  refine wp_bind_mono (newMatrix_spec a.mat.rpos a.mat.cpos) ?_
  rintro ⟨mask, e⟩ w3 ⟨_, h3⟩
  dsimp only at h3 ⊢
  refine wp_bind_ok rfl ?_
  set l' : Layer α := { w.lay lp with reluInputs := out, binaryMask := mask } with hl'
  set w4 : World α := { w3 with lay := upd w3.lay lp l' } with hw4
  change wp _ w4 _
  rw [hL.dropout]
  have hf4 : Frame { lay := fun a => a = lp } w3 w4 := frame_laySet w3 lp l'
  have fa : Fresh w w3 out r L.o _ := a.frame h3.frame (fun h => h) (fun _ _ h => h)
  have fa4 : Fresh w w4 out r L.o _ := fa.frame hf4 (fun h => h) (fun _ _ h => h)
  have fm4 : Fresh w w4 mask r L.o _ :=
    (h3.toFresh.mono b.next_le).frame hf4 (fun h => h) (fun _ _ h => h)
  have sep4 : ∀ x, w4.IsRow out r x → ¬ w4.IsRow mask r x := by
    intro x hx hm
    have e1 : w2.IsRow out r x := (a.mat.isRow_frame h3.frame (fun h => h) x).1 ((isRow_eq rfl _ _).1 hx)
    have := a.mat.isRow_lt e1
    have := h3.fresh x ((isRow_eq rfl _ _).1 hm)
    omega
  have hfr4 : Frame { lay := fun a => a = lp } w w4 := by
    have : Frame { lay := fun a => a = lp } w w3 := by frames b h3.frame
    exact this.trans_same hf4
  have hpos4 : w4.unifPos = w.unifPos := hfr4.unifPos (fun h => h)
  have hunif4 : w4.unif = w.unif := hfr4.unif
  rw [Int.toNat_natCast, Int.toNat_natCast]
  -- the loop
  let Z : Nat → Nat → α := fun i j => Flt.max (preact L X i j) Flt.zero
  let V : Nat → Nat → α := fun i j => Flt.max (preact L X i j) Flt.zero *. (maskAt w L i j /. (Flt.one -. L.dropout))
  refine wp_bind_mono (wp_for2 (fun i j w5 => IsMat w5 out r L.o (mix Z V i j) ∧
    IsMat w5 mask r L.o (mix (fun _ _ => Flt.zero) (maskAt w L) i j) ∧
    Frame { flt := fun a => w4.IsRow out r a ∨ w4.IsRow mask r a, unif := True } w4 w5 ∧ w5.outs = w4.outs ∧
    w5.next = w4.next ∧ w5.unifPos = w.unifPos + i * L.o + j) ?_ ?_ ?_) ?_
  · refine ⟨fa4.mat.congr ?_, fm4.mat.congr ?_, Frame.refl _ _, rfl, rfl, ?_⟩
    · intro i j _ _; simp [mix, Z]
    · intro i j _ _; simp [mix]
    · rw [hpos4]; omega
  · rintro i j w5 hi hj ⟨m1, m2, m3, m4, m5, m6⟩
    refine wp_bind_ok (binomialRand_spec w5 _) ?_
    have hu : bern (Flt.one -. L.dropout) (w5.unif w5.unifPos) = maskAt w L i j := by
      rw [m6, m3.unif, hunif4]; rfl
    rw [hu]
    set w6 : World α := { w5 with unifPos := w5.unifPos + 1 } with hw6
    have f6 : Frame { unif := True } w5 w6 :=
      ⟨Nat.le_refl _, fun _ _ _ => rfl, fun _ _ _ => rfl, fun _ _ _ => rfl, fun _ _ _ => rfl, rfl, rfl,
        fun _ => rfl, fun h => absurd trivial h, fun _ => rfl, rfl⟩
    have dm6 : DistinctRows w6 mask r := (distinctRows_eq (by rw [← m4])).1 fm4.distinct
    have do6 : DistinctRows w6 out r := (distinctRows_eq (by rw [← m4])).1 fa4.distinct
    refine wp_bind_mono (wp_setAt (m2.frame f6 (fun h => h) (fun _ _ h => h)) dm6 hi hj _) ?_
    intro _ w7 h7
    have i7 : ∀ m r' x, w7.IsRow m r' x ↔ w4.IsRow m r' x := by
      intro m r' x
      rw [h7.isRow' m r' x]
      exact isRow_eq (by rw [hw6]; simp only; rw [m4]) _ _
    have i6 : ∀ m r' x, w6.IsRow m r' x ↔ w4.IsRow m r' x := by
      intro m r' x
      exact isRow_eq (by rw [hw6]; simp only; rw [m4]) _ _
    have o7 : IsMat w7 out r L.o (mix Z V i j) := by
      refine (m1.frame f6 (fun h => h) (fun _ _ h => h)).frame h7.frame (fun h => h) ?_
      intro x hx hx'
      exact sep4 x ((i6 _ _ _).1 hx) ((i6 _ _ _).1 hx')
    rw [wp_bind, wp_at o7 hi hj, mix_self, wp_bind, wp_at h7.mat hi hj]
    have e0 : upd2 (mix (fun _ _ => Flt.zero) (maskAt w L) i j) i j (maskAt w L i j) i j = maskAt w L i j := by
      simp [upd2]
    rw [e0]
    refine wp_mono (wp_setAt o7 ((h7.distinct _ _).2 do6) hi hj _) ?_
    intro _ w8 h8
    refine ⟨h8.mat.congr ?_, ?_, ?_, ?_, ?_, ?_⟩
    · intro i' j' hi' hj'
      simp only [upd2, mix]
      by_cases e : i' = i ∧ j' = j
      · obtain ⟨rfl, rfl⟩ := e; simp [Z, V]
      · have : (i' < i ∨ (i' = i ∧ j' < j + 1)) ↔ (i' < i ∨ (i' = i ∧ j' < j)) := by omega
        simp [e, this]
    · refine (h7.mat.frame h8.frame (fun h => h) ?_).congr ?_
      · intro x hx hx'
        exact sep4 x ((i7 _ _ _).1 hx') ((i7 _ _ _).1 hx)
      · intro i' j' hi' hj'
        simp only [upd2, mix]
        by_cases e : i' = i ∧ j' = j
        · obtain ⟨rfl, rfl⟩ := e; simp
        · have : (i' < i ∨ (i' = i ∧ j' < j + 1)) ↔ (i' < i ∨ (i' = i ∧ j' < j)) := by omega
          simp [e, this]
    · have g1 : Frame { flt := fun a => w4.IsRow out r a ∨ w4.IsRow mask r a, unif := True } w4 w6 := by
        frames m3 f6
      have g2 : Frame { flt := fun a => w4.IsRow out r a ∨ w4.IsRow mask r a, unif := True } w4 w7 := by
        frames g1 h7.frame
        intro x _ hx; exact .inr ((i6 _ _ _).1 hx)
      frames g2 h8.frame
      intro x _ hx; exact .inl ((i7 _ _ _).1 hx)
    · rw [h8.outs, h7.outs]; exact m4
    · rw [h8.next, h7.next]; exact m5
    · rw [h8.frame.unifPos (fun h => h), h7.frame.unifPos (fun h => h), hw6]
      simp only
      rw [m6]
      omega
  · rintro i w5 hi ⟨m1, m2, m3, m4, m5, m6⟩
    refine ⟨m1.congr ?_, m2.congr ?_, m3, m4, m5, ?_⟩
    · intro i' j' hi' hj'
      have : (i' < i ∨ (i' = i ∧ j' < L.o)) ↔ (i' < i + 1 ∨ (i' = i + 1 ∧ j' < 0)) := by omega
      simp only [mix, this]
    · intro i' j' hi' hj'
      have : (i' < i ∨ (i' = i ∧ j' < L.o)) ↔ (i' < i + 1 ∨ (i' = i + 1 ∧ j' < 0)) := by omega
      simp only [mix, this]
    · rw [m6, Nat.add_mul]; omega
  · rintro _ w5 ⟨m1, m2, m3, m4, m5, m6⟩
    have i5 : ∀ m r' x, w5.IsRow m r' x ↔ w4.IsRow m r' x := fun m r' x => isRow_eq (by rw [m4]) _ _
    refine ⟨rfl, mask, ⟨m1.congr ?_, fa4.fresh_outer, ?_, (distinctRows_eq (by rw [m4])).2 fa4.distinct, fa4.off, fa4.cap⟩,
      ⟨m2.congr ?_, fm4.fresh_outer, ?_, (distinctRows_eq (by rw [m4])).2 fm4.distinct, fm4.off, fm4.cap⟩, ?_, ?_, ?_, ?_⟩
    · intro i j hi hj; simp [mix, hi, V]
    · intro x hx; exact fa4.fresh x ((i5 _ _ _).1 hx)
    · intro i j hi hj; simp [mix, hi]
    · intro x hx; exact fm4.fresh x ((i5 _ _ _).1 hx)
    · intro x h1 h2; exact sep4 x ((i5 _ _ _).1 h1) ((i5 _ _ _).1 h2)
    · frames hfr4 m3
      · intro x hx h
        rcases h with h | h
        · have := fa4.fresh x h; omega
        · have := fm4.fresh x h; omega
    · rw [m3.lay lp (hL.lt.trans_le hfr4.next_le) (fun h => h)]
      exact upd_same
    · rw [m6]; omega

end NN
