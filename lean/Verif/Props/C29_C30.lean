import Verif.Lemmas.Back
import Verif.Spec.PlaceLayer
import Verif.Real.Inst
/- C29, C30, C40: layer constructors, forward passes, Init. -/

set_option linter.unusedSectionVars false

namespace NN
variable {α : Type} [Flt α]
open Go

/-! ## C29 Layer constructors -/

/-- The parameters the constructor of a layer of type k should accept. -/
def LayerParamsOk (k : LayerKind) (n o : Int) (slope dropout : ℝ) : Prop :=
  1 ≤ n ∧ 1 ≤ o ∧ (k = .leaky → 0 ≤ slope) ∧ (k = .dropout → 0 ≤ dropout ∧ dropout ≤ 1)

theorem badLayer_real (k : LayerKind) (n o : Int) (slope dropout : ℝ) :
    BadLayer k n o slope dropout ↔ ¬ LayerParamsOk k n o slope dropout := by
  unfold BadLayer LayerParamsOk
  simp only [real_lt, decide_eq_true_eq, Flt.zero, Flt.one, real_ofInt, Int.cast_zero, Int.cast_one]
  constructor
  · rintro (h | h | ⟨h, h'⟩ | ⟨h, h'⟩) ⟨h1, h2, h3, h4⟩
    · omega
    · omega
    · exact absurd (h3 h) (not_le.2 h')
    · rcases h' with h' | h'
      · exact absurd (h4 h).2 (not_le.2 h')
      · exact absurd (h4 h).1 (not_le.2 h')
  · intro h
    by_contra hc
    simp only [not_or, not_and, not_lt] at hc
    exact h ⟨hc.1, hc.2.1, hc.2.2.1, fun e => ⟨(hc.2.2.2 e).2, (hc.2.2.2 e).1⟩⟩

/-- Invalid parameters: an error, a zero layer, no effect. -/
theorem C29_reject (w : World ℝ) (k : LayerKind) (n o : Int) (slope dropout : ℝ)
    (h : ¬ LayerParamsOk k n o slope dropout) :
    wp (newLayer k n o slope dropout) w (fun p w' => p.2 ≠ none ∧ p.1 = Layer.zero k ∧ w' = w) := by
  obtain ⟨e, he⟩ := newLayer_bad ((badLayer_real k n o slope dropout).2 h) w
  exact wp_of_ok he ⟨by simp, rfl, rfl⟩

/-- Valid parameters: a layer of that type and size with all-zero parameters in new storage that is shared with
nothing, not even between weights and biases. -/
theorem C29_accept (w : World ℝ) (k : LayerKind) (n o : Int) (slope dropout : ℝ)
    (h : LayerParamsOk k n o slope dropout) :
    wp (newLayer k n o slope dropout) w (fun p w' => p.2 = none ∧ OnlyAllocs w w' ∧
      p.1.kind = k ∧ p.1.inputSize = n ∧ p.1.outputSize = o ∧ (k = .leaky → p.1.slope = slope) ∧
      (k = .dropout → p.1.dropout = dropout) ∧
      ∃ wm bm, p.1.weights = some wm ∧ p.1.biases = some bm ∧
        Fresh w w' wm n.toNat o.toNat (fun _ _ => 0) ∧ Fresh w w' bm 1 o.toNat (fun _ _ => 0) ∧
        OwnParams w' wm bm n.toNat) := by
  obtain ⟨n', rfl⟩ : ∃ n' : Nat, n = n' := ⟨n.toNat, by have := h.1; omega⟩
  obtain ⟨o', rfl⟩ : ∃ o' : Nat, o = o' := ⟨o.toNat, by have := h.2.1; omega⟩
  refine wp_mono (newLayer_spec (by rw [badLayer_real]; exact not_not.2 h)) ?_
  rintro p w' ⟨h1, h2, wm, bm, h3⟩
  have z : (Flt.zero : ℝ) = 0 := by simp [Flt.zero]
  refine ⟨h1, h2, h3.kind, h3.ins, h3.outs, ?_, ?_, wm, bm, h3.weights, h3.biases, ?_, ?_, h3.own⟩
  · intro hk; rw [h3.slope]; simp [newSpec, hk]
  · intro hk; rw [h3.dropout]; simp [newSpec, hk]
  · exact h3.wmat.congr fun _ _ _ _ => z
  · exact h3.bmat.congr fun _ _ _ _ => z

/-- In any float64 semantics: an error exactly if a size is below 1, the slope tests as negative (leaky), or the
dropout tests as above 1 or negative (dropout). -/
theorem C29_iff (w : World α) (k : LayerKind) (n o : Int) (slope dropout : α) :
    wp (newLayer k n o slope dropout) w (fun p w' => OnlyAllocs w w' ∧ (p.2 ≠ none ↔
      n < 1 ∨ o < 1 ∨ (k = .leaky ∧ Flt.lt slope Flt.zero = true) ∨
        (k = .dropout ∧ (Flt.lt Flt.one dropout = true ∨ Flt.lt dropout Flt.zero = true)))) := by
  by_cases h : BadLayer k n o slope dropout
  · obtain ⟨e, he⟩ := newLayer_bad h w
    exact wp_of_ok he ⟨OnlyAllocs.refl _, by simpa [BadLayer] using h⟩
  · have h' := h
    unfold BadLayer at h'
    obtain ⟨n', rfl⟩ : ∃ n' : Nat, n = n' := ⟨n.toNat, by omega⟩
    obtain ⟨o', rfl⟩ : ∃ o' : Nat, o = o' := ⟨o.toNat, by omega⟩
    refine wp_mono (newLayer_spec h) ?_
    rintro p w' ⟨h1, h2, -⟩
    refine ⟨h2, ?_⟩
    rw [h1]
    constructor
    · intro h; exact absurd rfl h
    · intro h; exact absurd h h'

example : LayerParamsOk .dropout 3 2 0 (1 / 2) ∧ ¬ LayerParamsOk .leaky 3 2 (-1) 0 ∧ ¬ LayerParamsOk .hidden 0 2 0 0 := by
  unfold LayerParamsOk
  refine ⟨⟨by decide, by decide, ?_, ?_⟩, ?_, ?_⟩
  · intro h; cases h
  · intro _; norm_num
  · rintro ⟨-, -, h, -⟩
    have := h rfl
    norm_num at this
  · rintro ⟨h, -⟩; omega

/-! ## C30 Forward -/

/-- Inference pass of every layer type (for the dropout layer: ForwardNoDropout): success, a new matrix with entries
act(XW + b); nothing that existed is changed except what the layer object remembers. -/
theorem C30_infer (w : World α) (lp : Nat) (wm bm x : Mat) (L : LayerSpec α) (r : Nat) (X : Nat → Nat → α)
    (hL : IsLayer w lp wm bm L) (hX : IsMat w x r L.n X) :
    wp (do let l ← layGet lp; if l.kind = .dropout then dropoutForwardNo lp x else layerForward lp x) w (fun p w' =>
      p.2 = none ∧ Fresh w w' p.1 r L.o (fun i j =>
        actRow L.kind L.slope L.o (fun j => (fsum L.n fun k => X i k *. L.W k j) +. L.b j) j) ∧
      Frame { lay := fun a => a = lp } w w' ∧ IsLayer w' lp wm bm L ∧ IsMat w' x r L.n X) := by
  refine wp_mono (layerInfer_spec hL hX) ?_
  rintro p w' ⟨h1, h2⟩
  refine ⟨h1, h2.res, h2.frame, ?_, hX.frame h2.frame (fun h => h) (fun _ _ h => h)⟩
  exact hL.frame_static h2.frame (by rw [h2.mem, remember_static]) (fun h => h) (fun h => h) (fun _ _ h => h)

/-- Training pass of the dropout layer: max(XW+b, 0) times a 0/1 mask divided by 1 - Dropout; the mask entry at (i, j)
is a function of uniform draw number i*outputs + j. -/
theorem C30_dropout (w : World α) (lp : Nat) (wm bm x : Mat) (L : LayerSpec α) (r : Nat) (X : Nat → Nat → α)
    (hL : IsLayer w lp wm bm L) (hX : IsMat w x r L.n X) (hk : L.kind = .dropout) :
    wp (layerForward lp x) w (fun p w' => p.2 = none ∧
      Fresh w w' p.1 r L.o (fun i j =>
        Flt.max ((fsum L.n fun k => X i k *. L.W k j) +. L.b j) Flt.zero *.
          (bern (Flt.one -. L.dropout) (w.unif (w.unifPos + i * L.o + j)) /. (Flt.one -. L.dropout))) ∧
      w'.unifPos = w.unifPos + r * L.o ∧
      Frame { lay := fun a => a = lp, unif := True } w w' ∧ IsLayer w' lp wm bm L ∧ IsMat w' x r L.n X) := by
  unfold layerForward
  refine wp_bind_ok rfl ?_
  rw [hL.kind, hk]
  refine wp_mono (dropoutForward_spec hL hX) ?_
  rintro p w' ⟨h1, mask, h2⟩
  refine ⟨h1, h2.res, h2.pos, h2.frame, ?_, hX.frame h2.frame (fun h => h) (fun _ _ h => h)⟩
  exact hL.frame_static h2.frame (by rw [h2.mem]; rfl) (fun h => h) (fun h => h) (fun _ _ h => h)

/-- A wrong input width: an error and no change at all. -/
theorem C30_width (w : World α) (lp : Nat) (x : Mat) (h : x.cols ≠ (w.lay lp).inputSize) :
    wp (layerForward lp x) w (fun p w' => p.2 ≠ none ∧ w' = w) ∧
    wp (dropoutForwardNo lp x) w (fun p w' => p.2 ≠ none ∧ w' = w) := by
  refine ⟨wp_of_ok (layerForward_bad h) ⟨by simp, rfl⟩, ?_⟩
  unfold dropoutForwardNo
  refine wp_bind_ok rfl ?_
  exact wp_bind_ok (affine_bad h w) ⟨by simp, rfl⟩

/-- a layer of every type, 3 inputs, 2 outputs, a batch of 4 -/
example (k : LayerKind) (W X : Nat → Nat → α) (b : Nat → α) (s p : α) :
    ∃ w : World α, ∃ lp wm bm x, IsLayer w lp wm bm ⟨k, 3, 2, W, b, s, p⟩ ∧ IsMat w x 4 3 X := by
  obtain ⟨w, lp, wm, bm, x, h1, -, h2, -⟩ :=
    exists_layer (⟨k, 3, 2, W, b, s, p⟩ : LayerSpec α) (by simp) (by simp) (r := 4) (by decide) X
  exact ⟨w, lp, wm, bm, x, h1, h2⟩

example (X : Nat → Nat → α) : ∃ w : World α, ∃ lp wm bm x, ∃ L : LayerSpec α, IsLayer w lp wm bm L ∧ IsMat w x 4 3 X ∧
    x.cols ≠ (w.lay lp).inputSize := by
  obtain ⟨w', lp, wm, bm, x, h1, -⟩ := exists_layer (⟨.hidden, 5, 2, fun _ _ => Flt.one, fun _ => Flt.one, Flt.one,
    Flt.one⟩ : LayerSpec α) (by simp) (by simp) (r := 4) (by decide) X
  have h2 := place_spec w' X (r := 4) (c := 3) (by decide) (by decide)
  refine ⟨_, lp, wm, bm, _, _, h1.frame h2.frame (fun h => h) (fun h => h) (fun h => h) (fun _ _ h => h), h2.mat, ?_⟩
  rw [h2.mat.cols, h2.frame.lay lp h1.lt (fun h => h), h1.ins]
  simp

/-! ## C40 Init -/

/-- Init writes a fresh normal draw times sqrt(2/inputs) into every weight, uses inputs*outputs draws, and changes
nothing else (in particular not the biases). -/
theorem C40_init (w : World α) (lp : Nat) (wm bm : Mat) (L : LayerSpec α) (hL : IsLayer w lp wm bm L)
    (hown : OwnParams w wm bm L.n) :
    wp (layerInit lp) w (fun _ w' =>
      IsLayer w' lp wm bm { L with W := (fun i j =>
        w.norm (w.normPos + i * L.o + j) *. Flt.sqrt (Flt.ofInt 2 /. Flt.ofInt L.n)) } ∧
      Frame { flt := w.IsRow wm L.n, norm := True } w w' ∧ w'.normPos = w.normPos + L.n * L.o) := by
  refine wp_mono (layerInit_spec hL hown) ?_
  rintro _ w' ⟨h1, h2, -, -, h3⟩
  exact ⟨h1, h2, h3⟩

/-- Different weights use different draws. -/
theorem C40_draws (o i j i' j' : Nat) (hj : j < o) (hj' : j' < o) (p : Nat) (h : p + i * o + j = p + i' * o + j') :
    i = i' ∧ j = j' := by
  have e : i * o + j = i' * o + j' := by omega
  have h1 : (i * o + j) / o = i := by
    rw [Nat.mul_comm, Nat.mul_add_div (by omega), Nat.div_eq_of_lt hj]; omega
  have h2 : (i' * o + j') / o = i' := by
    rw [Nat.mul_comm, Nat.mul_add_div (by omega), Nat.div_eq_of_lt hj']; omega
  have : i = i' := by rw [← h1, e, h2]
  subst this
  exact ⟨rfl, by omega⟩

example (W : Nat → Nat → α) (b : Nat → α) :
    ∃ w : World α, ∃ lp wm bm, IsLayer w lp wm bm ⟨.hidden, 3, 2, W, b, Flt.zero, Flt.zero⟩ ∧ OwnParams w wm bm 3 := by
  obtain ⟨w, lp, wm, bm, x, h1, h2, -⟩ := exists_layer (⟨.hidden, 3, 2, W, b, Flt.zero, Flt.zero⟩ : LayerSpec α)
    (by simp) (by simp) (r := 4) (by decide) W
  exact ⟨w, lp, wm, bm, h1, h2⟩

end NN
