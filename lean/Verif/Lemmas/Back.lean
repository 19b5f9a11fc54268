import Verif.Lemmas.Layer
/- Execution lemmas for network.go: constructors, Init, backward passes. -/

set_option linter.unusedSectionVars false

namespace NN
variable {α : Type} [Flt α]
open Go

/-! ### Constructors -/

/-- The constructor's parameters are rejected. -/
def BadLayer (k : LayerKind) (n o : Int) (slope dropout : α) : Prop :=
  n < 1 ∨ o < 1 ∨ (k = .leaky ∧ Flt.lt slope Flt.zero) ∨
    (k = .dropout ∧ (Flt.lt Flt.one dropout ∨ Flt.lt dropout Flt.zero))

theorem newLayer_bad {k : LayerKind} {n o : Int} {slope dropout : α} (h : BadLayer k n o slope dropout) (w : World α) :
    ∃ e, newLayer k n o slope dropout w = .ok ((Layer.zero k, some e), w) := by
  unfold newLayer
  by_cases h1 : n < 1 ∨ o < 1
  · exact ⟨.layerDims n o, by rw [if_pos h1]; rfl⟩
  by_cases h2 : k = .leaky ∧ Flt.lt slope Flt.zero
  · exact ⟨.badSlope, by rw [if_neg h1, if_pos h2]; rfl⟩
  by_cases h3 : k = .dropout ∧ (Flt.lt Flt.one dropout ∨ Flt.lt dropout Flt.zero)
  · exact ⟨.badDropout, by rw [if_neg h1, if_neg h2, if_pos h3]; rfl⟩
  · rcases h with h | h | h | h
    · exact absurd (.inl h) h1
    · exact absurd (.inr h) h1
    · exact absurd h h2
    · exact absurd h h3

/-- The content of a layer just constructed. -/
def newSpec (k : LayerKind) (n o : Nat) (slope dropout : α) : LayerSpec α :=
  ⟨k, n, o, fun _ _ => Flt.zero, fun _ => Flt.zero, if k = .leaky then slope else Flt.zero,
    if k = .dropout then dropout else Flt.zero⟩

/-- `l` is a layer struct with content `L`, whose parameters are in new, separate storage. -/
structure NewLayerOk (w w' : World α) (l : Layer α) (L : LayerSpec α) (wm bm : Mat) : Prop where
  kind : l.kind = L.kind
  ins : l.inputSize = L.n
  outs : l.outputSize = L.o
  weights : l.weights = some wm
  biases : l.biases = some bm
  slope : l.slope = L.slope
  dropout : l.dropout = L.dropout
  wmat : Fresh w w' wm L.n L.o L.W
  bmat : Fresh w w' bm 1 L.o (fun _ j => L.b j)
  own : OwnParams w' wm bm L.n

theorem newLayer_spec {w : World α} {k : LayerKind} {n o : Nat} {slope dropout : α}
    (h : ¬ BadLayer k n o slope dropout) :
    wp (newLayer k n o slope dropout) w (fun p w' => p.2 = none ∧ OnlyAllocs w w' ∧
      ∃ wm bm, NewLayerOk w w' p.1 (newSpec k n o slope dropout) wm bm) := by
  unfold BadLayer at h
  unfold newLayer
  rw [if_neg (by tauto), if_neg (by tauto), if_neg (by tauto)]
  have hn : 0 < n := by omega
  have ho : 0 < o := by omega
  refine wp_bind_mono (newMatrix_spec hn ho) ?_
  rintro ⟨wm, e⟩ w1 ⟨-, h1⟩
  refine wp_bind_mono (newMatrix_spec (r := 1) Nat.one_pos ho) ?_
  rintro ⟨bm, e'⟩ w2 ⟨-, h2⟩
  dsimp only at h1 h2 ⊢
  refine ⟨rfl, h1.frame.trans h2.frame, wm, bm, rfl, rfl, rfl, rfl, rfl, rfl, rfl,
    (h1.then_allocs h2.frame).toFresh, (h2.toFresh).mono h1.frame.next_le,
    (h1.then_allocs h2.frame).distinct, ?_, ?_⟩
  · intro a ha hb
    have := h2.fresh a hb
    have := h1.mat.isRow_lt ((h1.mat.isRow_frame h2.frame (fun h => h) a).1 ha)
    omega
  · have := h2.fresh_outer
    have := h1.mat.addr_lt
    omega

/-! ### Init -/

/-- The weights that Init writes. -/
def initW (w : World α) (n o i j : Nat) : α :=
  w.norm (w.normPos + i * o + j) *. Flt.sqrt (Flt.ofInt 2 /. Flt.ofInt n)

theorem layerInit_spec {w : World α} {lp : Nat} {wm bm : Mat} {L : LayerSpec α} (hL : IsLayer w lp wm bm L)
    (hown : OwnParams w wm bm L.n) :
    wp (layerInit lp) w (fun _ w' => IsLayer w' lp wm bm { L with W := initW w L.n L.o } ∧
      Frame { flt := w.IsRow wm L.n, norm := True } w w' ∧ w'.next = w.next ∧ w'.outs = w.outs ∧
      w'.normPos = w.normPos + L.n * L.o) := by
  unfold layerInit
  refine wp_bind_ok rfl ?_
  rw [hL.ins, hL.outs, Int.toNat_natCast, Int.toNat_natCast]
  refine wp_mono (wp_for2 (fun i j w1 => IsMat w1 wm L.n L.o (mix L.W (initW w L.n L.o) i j) ∧
    Frame { flt := w.IsRow wm L.n, norm := True } w w1 ∧ w1.next = w.next ∧ w1.outs = w.outs ∧
    w1.normPos = w.normPos + i * L.o + j) ?_ ?_ ?_) ?_
  · exact ⟨hL.wmat.congr (by intro i j _ _; simp [mix]), Frame.refl _ _, rfl, rfl, by omega⟩
  · rintro i j w1 hi hj ⟨m1, m2, m3, m4, m5⟩
    refine wp_bind_ok (show drawNorm w1 = .ok (w1.norm w1.normPos, { w1 with normPos := w1.normPos + 1 }) from rfl) ?_
    rw [hL.weights]
    refine wp_bind_ok rfl ?_
    set w2 : World α := { w1 with normPos := w1.normPos + 1 } with hw2
    have f2 : Frame { norm := True } w1 w2 :=
      ⟨Nat.le_refl _, fun _ _ _ => rfl, fun _ _ _ => rfl, fun _ _ _ => rfl, fun _ _ _ => rfl, rfl, rfl,
        fun h => absurd trivial h, fun _ => rfl, fun _ => rfl, rfl⟩
    refine wp_mono (wp_setAt (m1.frame f2 (fun h => h) (fun _ _ h => h))
      ((distinctRows_eq (by rw [← m4])).1 hown.distinct) hi hj _) ?_
    intro _ w3 h3
    refine ⟨h3.mat.congr ?_, ?_, h3.next.trans m3, h3.outs.trans m4, ?_⟩
    · intro i' j' hi' hj'
      simp only [upd2, mix]
      by_cases e : i' = i ∧ j' = j
      · obtain ⟨rfl, rfl⟩ := e
        simp only [and_self, if_true, lt_irrefl, false_or, Nat.lt_succ_self, initW, m2.norm, m5]
      · have : (i' < i ∨ (i' = i ∧ j' < j + 1)) ↔ (i' < i ∨ (i' = i ∧ j' < j)) := by omega
        simp [e, this]
    · have g1 : Frame { flt := w.IsRow wm L.n, norm := True } w w2 := by frames m2 f2
      frames g1 h3.frame
      intro a _ ha
      exact (isRow_eq (by rw [hw2]; simp only; rw [m4]) _ _).1 ha
    · rw [h3.frame.normPos (fun h => h), hw2]
      simp only
      rw [m5]; omega
  · rintro i w1 hi ⟨m1, m2, m3, m4, m5⟩
    refine ⟨m1.congr ?_, m2, m3, m4, ?_⟩
    · intro i' j' hi' hj'
      have : (i' < i ∨ (i' = i ∧ j' < L.o)) ↔ (i' < i + 1 ∨ (i' = i + 1 ∧ j' < 0)) := by omega
      simp only [mix, this]
    · rw [m5, Nat.add_mul]; omega
  · rintro _ w1 ⟨m1, m2, m3, m4, m5⟩
    have e := m2.lay lp hL.lt (fun h => h)
    refine ⟨⟨hL.lt.trans_le m2.next_le, ?_, ?_, ?_, ?_, ?_, ?_, ?_, m1.congr ?_, ?_⟩, m2, m3, m4, by omega⟩
    · rw [e]; exact hL.kind
    · rw [e]; exact hL.ins
    · rw [e]; exact hL.outs
    · rw [e]; exact hL.weights
    · rw [e]; exact hL.biases
    · rw [e]; exact hL.slope
    · rw [e]; exact hL.dropout
    · intro i j hi hj; simp only [mix]; rw [if_pos (.inl hi)]
    · exact hL.bmat.frame m2 (fun h => h) fun a ha h => hown.disjoint a h ha

/-! ### The common end of the backward passes -/

/-- What a successful backward pass returns: new matrices with the products of `X`, `D` and `W`. -/
structure GradOk (w w' : World α) (g : Grads) (r n o : Nat) (X D W : Nat → Nat → α) : Prop where
  err : g.err = none
  dw : Fresh w w' g.dWeights n o (fun k j => fsum r fun i => X i k *. D i j)
  db : Fresh w w' g.dBiases 1 o (fun _ j => fsum r fun i => D i j)
  dx : Fresh w w' g.dInputs r n (fun i k => fsum o fun j => D i j *. W k j)
  sep : ∀ a, w'.IsRow g.dWeights n a → ¬ w'.IsRow g.dBiases 1 a
  sepx : ∀ a, w'.IsRow g.dWeights n a ∨ w'.IsRow g.dBiases 1 a → ¬ w'.IsRow g.dInputs r a

theorem GradOk.congr {w w' : World α} {g : Grads} {r n o : Nat} {X D D' W : Nat → Nat → α}
    (h : GradOk w w' g r n o X D W) (hD : ∀ i j, i < r → j < o → D i j = D' i j) : GradOk w w' g r n o X D' W :=
  ⟨h.err,
    h.dw.congr fun _ _ _ hj => fsum_congr fun i hi => by rw [hD i _ hi hj],
    h.db.congr fun _ _ _ hj => fsum_congr fun i hi => by rw [hD i _ hi hj],
    h.dx.congr fun _ _ hi _ => fsum_congr fun j hj => by rw [hD _ j hi hj],
    h.sep, h.sepx⟩

theorem gradTail_spec {w : World α} {l : Layer α} {x d wm : Mat} {r n o : Nat} {X D W : Nat → Nat → α}
    (hl : l.weights = some wm) (hW : IsMat w wm n o W) (hX : IsMat w x r n X) (hD : IsMat w d r o D) :
    wp (gradTail l x d) w (fun g w' => GradOk w w' g r n o X D W ∧ OnlyAllocs w w') := by
  unfold gradTail
  refine wp_bind_mono (t_spec hX) ?_
  intro it w1 h1
  rw [hl]
  refine wp_bind_ok rfl ?_
  refine wp_bind_mono (t_spec (hW.allocs h1.frame)) ?_
  intro wt w2 h2
  have a2 := h1.frame.trans h2.frame
  refine wp_bind_mono (dot_spec (h1.mat.allocs h2.frame) (hD.allocs a2)) ?_
  rintro ⟨dw, e⟩ w3 ⟨he, h3⟩
  obtain rfl : e = none := he
  have a3 := a2.trans h3.frame
  refine wp_bind_mono (sum0_spec (hD.allocs a3)) ?_
  intro db w4 h4
  have a4 := a3.trans h4.frame
  refine wp_bind_mono (dot_spec (hD.allocs a4) ((h2.mat.allocs h3.frame).allocs h4.frame)) ?_
  rintro ⟨dx, e⟩ w5 ⟨-, h5⟩
  dsimp only at h3 h4 h5
  have h35 := h4.frame.trans h5.frame
  refine ⟨⟨rfl, ((h3.then_allocs h35).toFresh).mono a2.next_le, ((h4.then_allocs h5.frame).toFresh).mono a3.next_le,
    h5.toFresh.mono a4.next_le, ?_, ?_⟩, a4.trans h5.frame⟩
  · intro a ha hb
    have := (h4.then_allocs h5.frame).fresh a hb
    have := h3.mat.isRow_lt ((h3.mat.isRow_frame h35 (fun h => h) a).1 ha)
    omega
  · intro a ha hb
    have h6 := h5.fresh a hb
    rcases ha with ha | ha
    · have := h3.mat.isRow_lt ((h3.mat.isRow_frame h35 (fun h => h) a).1 ha)
      have := h4.frame.next_le
      omega
    · have := h4.mat.isRow_lt ((h4.mat.isRow_frame h5.frame (fun h => h) a).1 ha)
      omega

theorem backCheck_ok {w : World α} {lp : Nat} {wm bm : Mat} {L : LayerSpec α} (hL : IsLayer w lp wm bm L) {x d : Mat}
    {r r' : Nat} {X D : Nat → Nat → α} (hX : IsMat w x r L.n X) (hD : IsMat w d r' L.o D) :
    backCheck (w.lay lp) x d = none := by
  unfold backCheck
  rw [if_neg (by rw [hX.cols, hL.ins]; simp), if_neg (by rw [hD.cols, hL.outs]; simp)]

theorem Fresh.of_set {w w1 w2 : World α} {m d : Mat} {r c r' c' : Nat} {V D} (h : Fresh w1 w2 m r c V)
    (hs : SetMat w w1 d r' c' D) : Fresh w w2 m r c V := h.mono (Nat.le_of_eq hs.next.symm)

theorem GradOk.of_set {w w1 w2 : World α} {g : Grads} {d : Mat} {r n o r' c' : Nat} {X D W D'}
    (h : GradOk w1 w2 g r n o X D W) (hs : SetMat w w1 d r' c' D') : GradOk w w2 g r n o X D W :=
  ⟨h.err, h.dw.of_set hs, h.db.of_set hs, h.dx.of_set hs, h.sep, h.sepx⟩

theorem SetMat.then_allocs {w w1 w2 : World α} {m : Mat} {r c : Nat} {V} (hs : SetMat w w1 m r c V)
    (h : OnlyAllocs w1 w2) : Frame { flt := w.IsRow m r } w w2 := by
  have := hs.frame
  frames this h

theorem linearBackward_spec {w : World α} {lp : Nat} {wm bm : Mat} {L : LayerSpec α} (hL : IsLayer w lp wm bm L)
    {x d : Mat} {r : Nat} {X D : Nat → Nat → α} (hX : IsMat w x r L.n X) (hD : IsMat w d r L.o D) :
    wp (linearBackward lp x d) w (fun g w' => GradOk w w' g r L.n L.o X D L.W ∧ OnlyAllocs w w') := by
  unfold linearBackward
  refine wp_bind_ok rfl ?_
  rw [backCheck_ok hL hX hD]
  exact gradTail_spec hL.weights hL.wmat hX hD

/-- The conditions under which the upstream gradient may be overwritten. -/
structure OwnGrad (w : World α) (d : Mat) (r : Nat) (x wm : Mat) (n : Nat) : Prop where
  distinct : DistinctRows w d r
  x : ∀ a, w.IsRow x r a → ¬ w.IsRow d r a
  wm : ∀ a, w.IsRow wm n a → ¬ w.IsRow d r a

theorem hiddenBackward_spec {w : World α} {lp : Nat} {wm bm : Mat} {L : LayerSpec α} (hL : IsLayer w lp wm bm L)
    {x d : Mat} {r : Nat} {X D Z : Nat → Nat → α} (hX : IsMat w x r L.n X) (hD : IsMat w d r L.o D)
    (hd : OwnGrad w d r x wm L.n) (hZ : IsMat w (w.lay lp).reluInputs r L.o Z)
    (hz : ∀ a, w.IsRow (w.lay lp).reluInputs r a → ¬ w.IsRow d r a) :
    wp (hiddenBackward lp x d) w (fun g w' =>
      GradOk w w' g r L.n L.o X (fun i j => if Flt.le (Z i j) Flt.zero then Flt.zero else D i j) L.W ∧
      Frame { flt := w.IsRow d r } w w') := by
  unfold hiddenBackward
  refine wp_bind_ok rfl ?_
  rw [backCheck_ok hL hX hD]
  refine wp_bind_mono (reluPrime_spec hD hd.distinct hZ hz) ?_
  rintro d' w1 ⟨rfl, h1⟩
  refine wp_mono (gradTail_spec hL.weights (hL.wmat.frame h1.frame (fun h => h) hd.wm)
    (hX.frame h1.frame (fun h => h) hd.x) h1.mat) ?_
  rintro g w2 ⟨hg, ha⟩
  exact ⟨hg.of_set h1, h1.then_allocs ha⟩

theorem leakyBackward_spec {w : World α} {lp : Nat} {wm bm : Mat} {L : LayerSpec α} (hL : IsLayer w lp wm bm L)
    {x d : Mat} {r : Nat} {X D Z : Nat → Nat → α} (hX : IsMat w x r L.n X) (hD : IsMat w d r L.o D)
    (hd : OwnGrad w d r x wm L.n) (hZ : IsMat w (w.lay lp).reluInputs r L.o Z)
    (hz : ∀ a, w.IsRow (w.lay lp).reluInputs r a → ¬ w.IsRow d r a) :
    wp (leakyBackward lp x d) w (fun g w' =>
      GradOk w w' g r L.n L.o X (fun i j => if Flt.lt (Z i j) Flt.zero then D i j *. L.slope else D i j) L.W ∧
      Frame { flt := w.IsRow d r } w w') := by
  unfold leakyBackward
  refine wp_bind_ok rfl ?_
  rw [backCheck_ok hL hX hD]
  dsimp only
  rw [hL.slope]
  refine wp_bind_mono (leakyReluPrime_spec L.slope hD hd.distinct hZ hz) ?_
  rintro d' w1 ⟨rfl, h1⟩
  refine wp_mono (gradTail_spec hL.weights (hL.wmat.frame h1.frame (fun h => h) hd.wm)
    (hX.frame h1.frame (fun h => h) hd.x) h1.mat) ?_
  rintro g w2 ⟨hg, ha⟩
  exact ⟨hg.of_set h1, h1.then_allocs ha⟩

theorem dropoutBackward_spec {w : World α} {lp : Nat} {wm bm : Mat} {L : LayerSpec α} (hL : IsLayer w lp wm bm L)
    {x d : Mat} {r : Nat} {X D Z M : Nat → Nat → α} (hX : IsMat w x r L.n X) (hD : IsMat w d r L.o D)
    (hd : OwnGrad w d r x wm L.n) (hZ : IsMat w (w.lay lp).reluInputs r L.o Z)
    (hz : ∀ a, w.IsRow (w.lay lp).reluInputs r a → ¬ w.IsRow d r a) (hM : IsMat w (w.lay lp).binaryMask r L.o M)
    (hm : ∀ a, w.IsRow (w.lay lp).binaryMask r a → ¬ w.IsRow d r a) :
    wp (dropoutBackward lp x d) w (fun g w' =>
      GradOk w w' g r L.n L.o X (fun i j => if Flt.le (Z i j) Flt.zero then Flt.zero else D i j *. M i j) L.W ∧
      Frame { flt := w.IsRow d r } w w') := by
  unfold dropoutBackward
  refine wp_bind_ok rfl ?_
  rw [backCheck_ok hL hX hD]
  dsimp only
  rw [hD.rows, hD.cols, Int.toNat_natCast, Int.toNat_natCast]
  refine wp_bind_mono (wp_fill (V := fun i j => D i j *. M i j) hD ?_) ?_
  · intro i j w1 hi hj h1
    rw [wp_bind, wp_at h1.mat hi hj, mix_self, wp_bind, wp_at (hM.frame h1.frame (fun h => h) hm) hi hj]
    exact h1.put hd.distinct hi hj rfl
  intro _ w1 h1
  have hz1 : ∀ a, w1.IsRow (w.lay lp).reluInputs r a → ¬ w1.IsRow d r a := by
    intro a; rw [h1.isRow' _ r a, h1.isRow' d r a]; exact hz a
  refine wp_bind_mono (reluPrime_spec h1.mat ((h1.distinct _ _).2 hd.distinct) (hZ.frame h1.frame (fun h => h) hz) hz1) ?_
  rintro d' w2 ⟨rfl, h2⟩
  have h3 := h1.trans h2
  refine wp_mono (gradTail_spec hL.weights (hL.wmat.frame h3.frame (fun h => h) hd.wm)
    (hX.frame h3.frame (fun h => h) hd.x) h3.mat) ?_
  rintro g w2 ⟨hg, ha⟩
  exact ⟨hg.of_set h3, h3.then_allocs ha⟩

/-! ### Softmax -/

theorem sliceOfRow_spec {w : World α} {a c : Nat} {B : Nat → α} (ha : a < w.next) (hB : w.flt a = (List.range c).map B)
    (hc : 0 < c) : wp (sliceOfRow a) w (fun s w' => OnlyAllocs w w' ∧ IsMat w' ⟨1, c, s⟩ 1 c (fun _ => B)) := by
  unfold sliceOfRow
  refine wp_bind_ok rfl ?_
  refine wp_bind_ok (w' := { w with
    next := w.next + 1, outs := upd (upd w.outs w.next [0]) w.next [a] }) (b := ()) ?_ ?_
  · simp [setRowRef, List.replicate]
  refine ⟨⟨Nat.le_succ _, fun _ _ _ => rfl, ?_, fun _ _ _ => rfl, fun _ _ _ => rfl, rfl, rfl, fun _ => rfl,
    fun _ => rfl, fun _ => rfl, rfl⟩, rfl, rfl, rfl, Nat.one_pos, hc, Nat.lt_succ_self _, ?_⟩
  · intro b hb _
    simp only
    rw [upd_ne (by omega), upd_ne (by omega)]
  · intro i hi
    refine ⟨a, ?_, by simp only; omega, hB⟩
    obtain rfl : i = 0 := by omega
    simp [World.rowAddr]

/-- Row i of `(diag(p) - pᵀp) d`. -/
def smBack (o : Nat) (P D : Nat → Nat → α) (i j : Nat) : α :=
  fsum o fun k => ((if j = k then P i j else Flt.zero) -. fsum 1 fun _ => P i j *. P i k) *. D i k

theorem softmaxBackRow_spec {w w0 : World α} {l : Layer α} {dp nd : Mat} {r o : Nat} {P D A : Nat → Nat → α}
    (hP : IsMat w0 l.outputs r o P) (hD : IsMat w0 dp r o D) (hw : OnlyAllocs w0 w) (hN : IsMat w nd r o A)
    (hnd : w0.next ≤ nd.m.addr) {i : Nat} (hi : i < r) :
    wp (softmaxBackRow l dp nd i) w (fun e w' => e = none ∧ OnlyAllocs w0 w' ∧
      IsMat w' nd r o (updRow A i (smBack o P D i))) := by
  unfold softmaxBackRow
  rw [hP.cols, Int.toNat_natCast]
  refine wp_bind_mono (newMatrix_spec hP.cpos hP.cpos) ?_
  rintro ⟨diag, e⟩ w1 ⟨-, h1⟩
  dsimp only at h1 ⊢
  have a1 := hw.trans h1.frame
  refine wp_bind_mono (wp_forN (fun k w2 => SetMat w1 w2 diag o o
    (fun x y => if x = y ∧ x < k then P i x else Flt.zero)) ?_ ?_) ?_
  · exact (SetMat.refl h1.mat).congr (by simp)
  · intro j w2 hj h2
    rw [wp_bind, wp_at (h1.old h2 (hP.allocs hw)) hi hj]
    refine wp_mono (wp_setAt h2.mat ((h2.distinct _ _).2 h1.distinct) hj hj _) ?_
    intro _ w3 h3
    refine (h2.trans h3).congr ?_
    intro x y hx hy
    simp only [upd2]
    by_cases e : x = j ∧ y = j
    · obtain ⟨rfl, rfl⟩ := e; simp
    · rw [if_neg e]
      have : (x = y ∧ x < j + 1) ↔ (x = y ∧ x < j) := by omega
      simp only [this]
  intro _ w2 h2
  have n2 := h1.set h2
  have a2 := hw.trans n2.frame
  obtain ⟨ra, e1, e2, e3⟩ := (hP.allocs a2).row i hi
  refine wp_bind_ok (rowRef_ok (hP.allocs a2) hi e1) ?_
  refine wp_bind_mono (sliceOfRow_spec e2 e3 hP.cpos) ?_
  rintro s w3 ⟨f3, hs⟩
  refine wp_bind_ok (newMatrixFromSlice_spec hs) ?_
  dsimp only
  refine wp_bind_mono (t_spec hs) ?_
  intro ot w4 h4
  refine wp_bind_mono (t_spec h4.mat) ?_
  intro oT w5 h5
  refine wp_bind_mono (dot_spec (h4.mat.allocs h5.frame) h5.mat) ?_
  rintro ⟨od, e⟩ w6 ⟨he, h6⟩
  obtain rfl : e = none := he
  dsimp only at h6 ⊢
  have a36 := (f3.trans h4.frame).trans (h5.frame.trans h6.frame)
  refine wp_bind_mono (sub_spec (n2.mat.allocs a36) h6.mat) ?_
  rintro ⟨jac, e⟩ w7 ⟨he, h7⟩
  obtain rfl : e = none := he
  dsimp only at h7 ⊢
  have a27 := a36.trans h7.frame
  have a7 := a2.trans a27
  obtain ⟨rd, d1, d2, d3⟩ := (hD.allocs a7).row i hi
  refine wp_bind_ok (rowRef_ok (hD.allocs a7) hi d1) ?_
  refine wp_bind_mono (sliceOfRow_spec d2 d3 hP.cpos) ?_
  rintro s' w8 ⟨f8, hs'⟩
  refine wp_bind_ok (newMatrixFromSlice_spec hs') ?_
  dsimp only
  refine wp_bind_mono (t_spec hs') ?_
  intro dT w9 h9
  refine wp_bind_mono (dot_spec ((h7.mat.allocs f8).allocs h9.frame) h9.mat) ?_
  rintro ⟨row, e⟩ w10 ⟨he, h10⟩
  obtain rfl : e = none := he
  dsimp only at h10 ⊢
  refine wp_bind_mono (t_spec h10.mat) ?_
  intro rT w11 h11
  obtain ⟨rr, r1, r2, r3⟩ := h11.mat.row 0 Nat.one_pos
  refine wp_bind_ok (rowRef_ok (i := 0) h11.mat Nat.one_pos r1) ?_
  have a711 := (f8.trans h9.frame).trans (h10.frame.trans h11.frame)
  have a211 := a27.trans a711
  have a11 := a2.trans a211
  have hN11 : IsMat w11 nd r o A := (hN.allocs n2.frame).allocs a211
  refine wp_bind_mono (setRow_spec hN11 hi r2 r3) ?_
  rintro e w12 ⟨rfl, ew, -, -, hm⟩
  refine ⟨rfl, ?_, hm.congr ?_⟩
  · have f12 : Frame { outs := fun a => a = nd.m.addr } w11 w12 := by
      subst ew
      exact ⟨Nat.le_refl _, fun _ _ _ => rfl, fun _ _ h => upd_ne h, fun _ _ _ => rfl, fun _ _ _ => rfl, rfl, rfl,
        fun _ => rfl, fun _ => rfl, fun _ => rfl, rfl⟩
    frames a11 f12
    rintro a ha rfl
    omega
  · intro i' j hi' hj
    simp only [updRow]
    by_cases e : i' = i
    · rw [if_pos e, if_pos e]
      unfold smBack
      refine fsum_congr fun k hk => ?_
      simp [hj]
    · rw [if_neg e, if_neg e]

theorem softmaxBackward_spec {w : World α} {lp : Nat} {wm bm : Mat} {L : LayerSpec α} (hL : IsLayer w lp wm bm L)
    {x d : Mat} {r : Nat} {X D P : Nat → Nat → α} (hX : IsMat w x r L.n X) (hD : IsMat w d r L.o D)
    (hP : IsMat w (w.lay lp).outputs r L.o P) :
    wp (softmaxBackward lp x d) w (fun g w' => GradOk w w' g r L.n L.o X (smBack L.o P D) L.W ∧ OnlyAllocs w w') := by
  unfold softmaxBackward
  refine wp_bind_ok rfl ?_
  rw [if_neg (by rw [hX.cols, hL.ins]; simp), if_neg (by rw [hP.cols, hL.outs]; simp),
    if_neg (by rw [hD.cols, hL.outs]; simp), if_neg (by rw [hP.rows, hD.rows]; simp)]
  rw [hD.rows, hD.cols]
  refine wp_bind_mono (newMatrix_spec hD.rpos hD.cpos) ?_
  rintro ⟨nd, e⟩ w1 ⟨-, h1⟩
  dsimp only at h1 ⊢
  rw [h1.mat.rows, Int.toNat_natCast]
  refine wp_bind_mono (wp_forRet_none (fun k w2 => OnlyAllocs w w2 ∧
    IsMat w2 nd r L.o (fun i j => if i < k then smBack L.o P D i j else Flt.zero)) ?_ ?_) ?_
  · exact ⟨h1.frame, h1.mat.congr (by simp)⟩
  · rintro k w2 hk ⟨a2, m2⟩
    refine wp_mono (softmaxBackRow_spec hP hD a2 m2 h1.fresh_outer hk) ?_
    rintro e w3 ⟨rfl, a3, m3⟩
    refine ⟨rfl, a3, m3.congr ?_⟩
    intro i j hi hj
    simp only [updRow]
    by_cases e : i = k
    · subst e; simp
    · rw [if_neg e]
      have : i < k + 1 ↔ i < k := by omega
      simp only [this]
  · rintro e w2 ⟨rfl, a2, m2⟩
    dsimp only
    refine wp_mono (gradTail_spec hL.weights (hL.wmat.allocs a2) (hX.allocs a2) m2) ?_
    rintro g w3 ⟨hg, a3⟩
    have hle := a2.next_le
    refine ⟨GradOk.congr ⟨hg.err, hg.dw.mono hle, hg.db.mono hle, hg.dx.mono hle, hg.sep, hg.sepx⟩ ?_, a2.trans a3⟩
    intro i j hi hj
    rw [if_pos hi]

/-! ### Sigmoid -/

/-- What `SigmoidPrime(x, dValues)` writes into x. -/
def sigBack (X D : Nat → Nat → α) (i j : Nat) : α :=
  let s := Flt.one /. (Flt.one +. Flt.exp (Flt.neg (X i j)))
  D i j *. s *. (Flt.one -. s)

theorem dot_any {w : World α} {m b : Mat} {r n n' c : Nat} {A B : Nat → Nat → α} (hA : IsMat w m r n A)
    (hB : IsMat w b n' c B) :
    wp (m.dot b) w (fun p w' => OnlyAllocs w w' ∧ (n ≠ n' → p.1 = Mat.zero) ∧
      (n = n' → NewMat w w' p.1 r c (fun i j => fsum n fun k => A i k *. B k j))) := by
  by_cases e : n = n'
  · subst e
    refine wp_mono (dot_spec hA hB) ?_
    rintro p w' ⟨-, h⟩
    exact ⟨h.frame, fun h => absurd rfl h, fun _ => h⟩
  · refine wp_of_ok (dot_bad (by rw [hA.cols, hB.rows]; omega) w) ?_
    exact ⟨OnlyAllocs.refl _, fun _ => rfl, fun h => absurd h e⟩

/-- `SigmoidLayer.Backward` for a layer that is not narrower than its input: it overwrites the input x, and returns
products of the overwritten x with itself. -/
theorem sigmoidBackward_spec {w : World α} {lp : Nat} {wm bm : Mat} {L : LayerSpec α} (hL : IsLayer w lp wm bm L)
    {x d : Mat} {r : Nat} {X D : Nat → Nat → α} (hX : IsMat w x r L.n X) (hD : IsMat w d r L.o D)
    (hno : L.n ≤ L.o) (hx : DistinctRows w x r) (hdx : ∀ a, w.IsRow d r a → ¬ w.IsRow x r a)
    (hwx : ∀ a, w.IsRow wm L.n a → ¬ w.IsRow x r a) :
    wp (sigmoidBackward lp x d) w (fun g w' => g.err = none ∧ IsMat w' x r L.n (sigBack X D) ∧
      IsMat w' g.dWeights L.n L.n (fun k j => fsum r fun i => sigBack X D i k *. sigBack X D i j) ∧
      IsMat w' g.dBiases 1 L.n (fun _ j => fsum r fun i => sigBack X D i j) ∧
      (L.n ≠ L.o → g.dInputs = Mat.zero) ∧
      (L.n = L.o → IsMat w' g.dInputs r L.n (fun i k => fsum L.n fun j => sigBack X D i j *. L.W k j)) ∧
      Frame { flt := w.IsRow x r } w w') := by
  unfold sigmoidBackward
  refine wp_bind_ok rfl ?_
  rw [backCheck_ok hL hX hD]
  refine wp_bind_mono (sigmoidPrime_spec hX hx hD hno hdx) ?_
  rintro x' w1 ⟨rfl, h1⟩
  unfold gradTail
  refine wp_bind_mono (t_spec h1.mat) ?_
  intro it w2 h2
  rw [hL.weights]
  refine wp_bind_ok rfl ?_
  refine wp_bind_mono (t_spec ((hL.wmat.frame h1.frame (fun h => h) hwx).allocs h2.frame)) ?_
  intro wt w3 h3
  have a3 := h2.frame.trans h3.frame
  refine wp_bind_mono (dot_spec (h2.mat.allocs h3.frame) (h1.mat.allocs a3)) ?_
  rintro ⟨dw, e⟩ w4 ⟨he, h4⟩
  obtain rfl : e = none := he
  dsimp only at h4 ⊢
  have a4 := a3.trans h4.frame
  refine wp_bind_mono (sum0_spec (h1.mat.allocs a4)) ?_
  intro db w5 h5
  have a5 := a4.trans h5.frame
  refine wp_bind_mono (dot_any (h1.mat.allocs a5) ((h3.mat.allocs h4.frame).allocs h5.frame)) ?_
  rintro ⟨dx, e⟩ w6 ⟨a6, hne, heq⟩
  exact ⟨rfl, h1.mat.allocs (a5.trans a6), (h4.mat.allocs h5.frame).allocs a6, h5.mat.allocs a6, hne,
    fun h => (heq h).mat, h1.then_allocs (a5.trans a6)⟩

/-- A sigmoid layer with more inputs than outputs panics in Backward. -/
theorem sigmoidBackward_panics {w : World α} {lp : Nat} {wm bm : Mat} {L : LayerSpec α} (hL : IsLayer w lp wm bm L)
    {x d : Mat} {r : Nat} {X D : Nat → Nat → α} (hX : IsMat w x r L.n X) (hD : IsMat w d r L.o D)
    (hno : L.o < L.n) (hx : DistinctRows w x r) (hdx : ∀ a, w.IsRow d r a → ¬ w.IsRow x r a) :
    Panics (sigmoidBackward lp x d) w := by
  have key : Panics (sigmoidPrime x d) w := by
    unfold sigmoidPrime
    obtain ⟨x', w1, e1, rfl, h1⟩ := wp_iff.1 (sigmoid_spec hX hx)
    unfold Panics
    rw [bind_ok e1, hX.rows, hX.cols, Int.toNat_natCast, Int.toNat_natCast]
    have hr := hX.rpos
    have hd1 : DistinctRows w1 x' r := (h1.distinct _ _).2 hx
    have hdx1 : ∀ a, w1.IsRow d r a → ¬ w1.IsRow x' r a := by
      intro a; rw [h1.isRow', h1.isRow]; exact hdx a
    have hD1 : IsMat w1 d r L.o D := hD.frame h1.frame (fun h => h) hdx
    have hp : Panics (forN r fun i => forN L.n fun j => do
        let dv ← d.at i j
        let xv ← x'.at i j
        let xv' ← x'.at i j
        x'.setAt i j (dv *. xv *. (Flt.one -. xv'))) w1 := by
      have inner : ∀ w2 A, SetMat w1 w2 x' r L.n A → Panics (forN L.n fun j => do
        let dv ← d.at (0 : Nat) j
        let xv ← x'.at (0 : Nat) j
        let xv' ← x'.at (0 : Nat) j
        x'.setAt (0 : Nat) j (dv *. xv *. (Flt.one -. xv'))) w2 := by
        intro w2 A hA
        refine forN_panics (fun j w3 => ∃ B, SetMat w1 w3 x' r L.n B) ⟨A, hA⟩ ?_ ⟨L.o, hno, ?_⟩
        · rintro j w3 hj ⟨B, hB⟩
          have hD3 : IsMat w3 d r L.o D := hD1.frame hB.frame (fun h => h) hdx1
          by_cases hjo : j < L.o
          · left
            rw [wp_bind, wp_at hD3 hr hjo, wp_bind, wp_at hB.mat hr hj, wp_bind, wp_at hB.mat hr hj]
            exact wp_mono (wp_setAt hB.mat ((hB.distinct _ _).2 hd1) hr hj _) fun _ w4 h4 => ⟨_, hB.trans h4⟩
          · exact .inr ⟨_, bind_error (at_bad hD3 hr (by omega))⟩
        · rintro w3 ⟨B, hB⟩
          have hD3 : IsMat w3 d r L.o D := hD1.frame hB.frame (fun h => h) hdx1
          exact ⟨_, bind_error (at_bad hD3 hr (by omega))⟩
      have hfirst : ∀ n, Panics (forN (n + 1) fun i => forN L.n fun j => do
        let dv ← d.at i j
        let xv ← x'.at i j
        let xv' ← x'.at i j
        x'.setAt i j (dv *. xv *. (Flt.one -. xv'))) w1 := by
        intro n
        induction n with
        | zero =>
          obtain ⟨p, hp⟩ := inner w1 _ (SetMat.refl h1.mat)
          exact ⟨p, (bind_ok (show forN 0 _ w1 = .ok ((), w1) from rfl)).trans hp⟩
        | succ n ih =>
          obtain ⟨p, hp⟩ := ih
          exact ⟨p, bind_error hp⟩
      obtain ⟨m, rfl⟩ : ∃ m, r = m + 1 := ⟨r - 1, by omega⟩
      exact hfirst m
    obtain ⟨p, hp⟩ := hp
    exact ⟨p, bind_error hp⟩
  obtain ⟨p, hp⟩ := key
  refine ⟨p, ?_⟩
  unfold sigmoidBackward
  refine (bind_ok (show layGet lp w = .ok (w.lay lp, w) from rfl)).trans ?_
  rw [backCheck_ok hL hX hD]
  exact bind_error hp

theorem softmaxBackwardCE_spec {w : World α} {lp : Nat} {wm bm : Mat} {L : LayerSpec α} (hL : IsLayer w lp wm bm L)
    {x y d : Mat} {r : Nat} {X Y D : Nat → Nat → α} (hX : IsMat w x r L.n X) (hY : IsMat w y r L.o Y)
    (hD : IsMat w d r L.o D) :
    wp (softmaxBackwardCE lp x y d) w (fun g w' => GradOk w w' g r L.n L.o X
      (fun i j => if Flt.eq (Y i j) Flt.one then (D i j -. Flt.one) /. Flt.ofInt r else D i j /. Flt.ofInt r) L.W ∧
      OnlyAllocs w w') := by
  unfold softmaxBackwardCE
  refine wp_bind_ok rfl ?_
  rw [if_neg (by rw [hY.cols, hL.outs]; simp), if_neg (by rw [hD.cols, hL.outs]; simp),
    if_neg (by rw [hY.rows, hD.rows]; simp)]
  rw [hD.rows, hD.cols, Int.toNat_natCast, Int.toNat_natCast]
  refine wp_bind_mono (newMatrix_spec hD.rpos hD.cpos) ?_
  rintro ⟨nd, e⟩ w1 ⟨-, h1⟩
  dsimp only at h1 ⊢
  refine wp_bind_mono (wp_fill (V := fun i j => if Flt.eq (Y i j) Flt.one then (D i j -. Flt.one) /. Flt.ofInt r
    else D i j /. Flt.ofInt r) h1.mat ?_) ?_
  · intro i j w2 hi hj h2
    rw [wp_bind, wp_at (h1.old h2 hY) hi hj]
    by_cases e : Flt.eq (Y i j) Flt.one = true
    · rw [if_pos e, wp_bind, wp_at (h1.old h2 hD) hi hj]
      exact h2.put h1.distinct hi hj (by simp [e])
    · rw [if_neg e, wp_bind, wp_at (h1.old h2 hD) hi hj]
      exact h2.put h1.distinct hi hj (by simp [e])
  intro _ w2 h2
  have n2 := h1.set h2
  have a2 := n2.frame
  refine wp_mono (gradTail_spec hL.weights (hL.wmat.allocs a2) (hX.allocs a2) n2.mat) ?_
  rintro g w3 ⟨hg, a3⟩
  have hle := a2.next_le
  exact ⟨⟨hg.err, hg.dw.mono hle, hg.db.mono hle, hg.dx.mono hle, hg.sep, hg.sepx⟩, a2.trans a3⟩

end NN
