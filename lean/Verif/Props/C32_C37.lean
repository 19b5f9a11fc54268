import Verif.Real.Grad
import Verif.Lemmas.Loss
import Verif.Spec.PlaceLayer
import Verif.Props.C21_C28
/- C32-C37: the backward passes compute exact gradients. -/

set_option linter.unusedSectionVars false

namespace NN
variable {α : Type} [Flt α]
open Go Finset

/-- Allocations after a forward pass keep its results intact. -/
theorem Intact.of_allocs {w1 w2 : World α} {lp : Nat} {out : Mat} {r o : Nat} (h : OnlyAllocs w1 w2) (hlt : lp < w1.next) :
    Intact w1 w2 lp out r o :=
  ⟨h.lay lp hlt (fun h => h), fun _ hV => hV.allocs h⟩

/-- What a forward pass leaves behind can be found, together with an upstream gradient in storage of its own, in some
later state: the hypotheses of the gradient theorems below are satisfiable after every forward pass. -/
theorem exists_after {w w1 : World α} {lp : Nat} {wm bm x out : Mat} {L : LayerSpec α} {r : Nat} {X V : Nat → Nat → α}
    (hL : IsLayer w lp wm bm L) (hown : OwnParams w wm bm L.n) (hX : IsMat w x r L.n X) (hxd : DistinctRows w x r)
    (hpx : ∀ a, w.IsParam wm bm L.n a → ¬ w.IsRow x r a) (hout : Fresh w w1 out r L.o V)
    (hf : Frame { lay := fun a => a = lp, unif := True } w w1) (hs : (w1.lay lp).static = (w.lay lp).static)
    (D : Nat → Nat → α) :
    ∃ w2 d, Intact w1 w2 lp out r L.o ∧ Stage w2 lp wm bm x d L r X D ∧
      (∀ a, w2.IsRow out r a → ¬ w2.IsRow d r a) ∧ OnlyAllocs w1 w2 ∧ ∀ a, w2.IsRow d r a → w1.next ≤ a := by
  have h2 := place_spec w1 D hX.rpos hL.wmat.cpos
  have hL1 : IsLayer w1 lp wm bm L := hL.frame_static hf hs (fun h => h) (fun h => h) (fun _ _ h => h)
  have hL2 : IsLayer (placeW w1 r L.o D) lp wm bm L :=
    hL1.frame h2.frame (fun h => h) (fun h => h) (fun h => h) (fun _ _ h => h)
  have hX1 : IsMat w1 x r L.n X := hX.frame hf (fun h => h) (fun _ _ h => h)
  have hpar : ∀ a, World.IsParam (placeW w1 r L.o D) wm bm L.n a → w1.IsParam wm bm L.n a := by
    rintro a (h | h)
    · exact .inl ((hL1.wmat.isRow_frame h2.frame (fun h => h) a).1 h)
    · exact .inr ((hL1.bmat.isRow_frame h2.frame (fun h => h) a).1 h)
  have hpar0 : ∀ a, w1.IsParam wm bm L.n a → w.IsParam wm bm L.n a := by
    rintro a (h | h)
    · exact .inl ((hL.wmat.isRow_frame hf (fun h => h) a).1 h)
    · exact .inr ((hL.bmat.isRow_frame hf (fun h => h) a).1 h)
  refine ⟨_, _, Intact.of_allocs h2.frame hL1.lt, ⟨hL2, ⟨?_, ?_, hown.outer⟩, hX1.allocs h2.frame, h2.mat, ?_,
    h2.distinct, ?_, ?_, ?_⟩, ?_, h2.frame, h2.fresh⟩
  · exact (hown.distinct.frame hf hL.wmat.addr_lt (fun h => h)).frame h2.frame hL1.wmat.addr_lt (fun h => h)
  · intro a h h'
    refine hown.disjoint a ?_ ?_
    · exact (hL.wmat.isRow_frame hf (fun h => h) a).1 ((hL1.wmat.isRow_frame h2.frame (fun h => h) a).1 h)
    · exact (hL.bmat.isRow_frame hf (fun h => h) a).1 ((hL1.bmat.isRow_frame h2.frame (fun h => h) a).1 h')
  · exact (hxd.frame hf hX.addr_lt (fun h => h)).frame h2.frame hX1.addr_lt (fun h => h)
  · intro a h h'
    exact hpx a (hpar0 a (hpar a h)) ((hX.isRow_frame hf (fun h => h) a).1 ((hX1.isRow_frame h2.frame (fun h => h) a).1 h'))
  · intro a h h'
    have := h2.fresh a h'
    rcases hpar a h with h | h
    · have := hL1.wmat.isRow_lt h; omega
    · have := hL1.bmat.isRow_lt h; omega
  · intro a h h'
    have := h2.fresh a h'
    have := hX1.isRow_lt ((hX1.isRow_frame h2.frame (fun h => h) a).1 h)
    omega
  · intro a h h'
    have := h2.fresh a h'
    have := hout.mat.isRow_lt ((hout.mat.isRow_frame h2.frame (fun h => h) a).1 h)
    omega

/-! ### The gradient is unique

`ExactGrad` determines every entry of the gradients, so the theorems below leave no freedom. -/

theorem Computes.unique {L : LayerSpec ℝ} {r : Nat} {X F G : Nat → Nat → ℝ} (hn : 0 < L.n) (ho : 0 < L.o) (hr : 0 < r)
    (hF : Computes L r X F) (hG : Computes L r X G) {i j : Nat} (hi : i < r) (hj : j < L.o) : F i j = G i j := by
  obtain ⟨w, lp, wm, bm, x, hL, -, hX, -⟩ := exists_layer L hn ho hr X
  obtain ⟨p, w', -, ⟨-, h1⟩, -, h2⟩ := wp_iff.1 (wp_and (hF w lp wm bm x hL hX) (hG w lp wm bm x hL hX))
  exact h1.entries_unique h2 hi hj

theorem ExactGrad.pair_unique {L : LayerSpec ℝ} {r : Nat} {X D dW dX dW' dX' : Nat → Nat → ℝ} {dB dB' : Nat → ℝ}
    (hn : 0 < L.n) (ho : 0 < L.o) (hr : 0 < r) (h : ExactGrad L r X D dW dB dX) (h' : ExactGrad L r X D dW' dB' dX')
    (c : Curve L r X) : c.pair dW dB dX = c.pair dW' dB' dX' := by
  obtain ⟨F, hF, dF⟩ := h c
  obtain ⟨G, hG, dG⟩ := h' c
  refine HasDerivAt.unique dF (dG.congr_of_eventuallyEq (Filter.Eventually.of_forall fun t => ?_))
  refine Finset.sum_congr rfl fun i hi => Finset.sum_congr rfl fun j hj => ?_
  rw [Computes.unique (L := c.at t) hn ho hr (hF t) (hG t) (mem_range.1 hi) (mem_range.1 hj)]

/-- Move one weight. -/
noncomputable def Curve.moveW (L : LayerSpec ℝ) (r : Nat) (X : Nat → Nat → ℝ) (k0 j0 : Nat) : Curve L r X where
  Wt t k j := L.W k j + t * (if k = k0 ∧ j = j0 then 1 else 0)
  bt _ j := L.b j
  Xt _ i k := X i k
  W' k j := if k = k0 ∧ j = j0 then 1 else 0
  b' _ := 0
  X' _ _ := 0
  hW k j _ _ := by
    have := ((hasDerivAt_id (0 : ℝ)).mul_const (if k = k0 ∧ j = j0 then (1 : ℝ) else 0)).const_add (L.W k j)
    simpa using this
  hb _ _ := hasDerivAt_const _ _
  hX _ _ _ _ := hasDerivAt_const _ _
  W0 k j _ _ := by simp
  b0 _ _ := rfl
  X0 _ _ _ _ := rfl

/-- Move one bias. -/
noncomputable def Curve.moveB (L : LayerSpec ℝ) (r : Nat) (X : Nat → Nat → ℝ) (j0 : Nat) : Curve L r X where
  Wt _ k j := L.W k j
  bt t j := L.b j + t * (if j = j0 then 1 else 0)
  Xt _ i k := X i k
  W' _ _ := 0
  b' j := if j = j0 then 1 else 0
  X' _ _ := 0
  hW _ _ _ _ := hasDerivAt_const _ _
  hb j _ := by
    have := ((hasDerivAt_id (0 : ℝ)).mul_const (if j = j0 then (1 : ℝ) else 0)).const_add (L.b j)
    simpa using this
  hX _ _ _ _ := hasDerivAt_const _ _
  W0 _ _ _ _ := rfl
  b0 j _ := by simp
  X0 _ _ _ _ := rfl

/-- Move one input. -/
noncomputable def Curve.moveX (L : LayerSpec ℝ) (r : Nat) (X : Nat → Nat → ℝ) (i0 k0 : Nat) : Curve L r X where
  Wt _ k j := L.W k j
  bt _ j := L.b j
  Xt t i k := X i k + t * (if i = i0 ∧ k = k0 then 1 else 0)
  W' _ _ := 0
  b' _ := 0
  X' i k := if i = i0 ∧ k = k0 then 1 else 0
  hW _ _ _ _ := hasDerivAt_const _ _
  hb _ _ := hasDerivAt_const _ _
  hX i k _ _ := by
    have := ((hasDerivAt_id (0 : ℝ)).mul_const (if i = i0 ∧ k = k0 then (1 : ℝ) else 0)).const_add (X i k)
    simpa using this
  W0 _ _ _ _ := rfl
  b0 _ _ := rfl
  X0 i k _ _ := by simp

theorem sum2_single {r c i0 j0 : Nat} (hi : i0 < r) (hj : j0 < c) (f : Nat → Nat → ℝ) :
    ∑ i ∈ range r, ∑ j ∈ range c, f i j * (if i = i0 ∧ j = j0 then 1 else 0) = f i0 j0 := by
  rw [Finset.sum_eq_single i0, Finset.sum_eq_single j0]
  · simp
  · intro j _ hne; simp [hne]
  · intro h; exact absurd (mem_range.2 hj) h
  · intro i _ hne; simp [hne]
  · intro h; exact absurd (mem_range.2 hi) h

theorem ExactGrad.dW_unique {L : LayerSpec ℝ} {r : Nat} {X D dW dX dW' dX' : Nat → Nat → ℝ} {dB dB' : Nat → ℝ}
    (hr : 0 < r) (h : ExactGrad L r X D dW dB dX) (h' : ExactGrad L r X D dW' dB' dX') {k j : Nat} (hk : k < L.n)
    (hj : j < L.o) : dW k j = dW' k j := by
  have := ExactGrad.pair_unique (by omega) (by omega) hr h h' (Curve.moveW L r X k j)
  simp only [Curve.pair, Curve.moveW] at this
  rw [sum2_single hk hj, sum2_single hk hj] at this
  simpa using this

theorem ExactGrad.dB_unique {L : LayerSpec ℝ} {r : Nat} {X D dW dX dW' dX' : Nat → Nat → ℝ} {dB dB' : Nat → ℝ}
    (hn : 0 < L.n) (hr : 0 < r) (h : ExactGrad L r X D dW dB dX) (h' : ExactGrad L r X D dW' dB' dX') {j : Nat}
    (hj : j < L.o) : dB j = dB' j := by
  have := ExactGrad.pair_unique hn (by omega) hr h h' (Curve.moveB L r X j)
  simpa [Curve.pair, Curve.moveB, hj] using this

theorem ExactGrad.dX_unique {L : LayerSpec ℝ} {r : Nat} {X D dW dX dW' dX' : Nat → Nat → ℝ} {dB dB' : Nat → ℝ}
    (ho : 0 < L.o) (h : ExactGrad L r X D dW dB dX) (h' : ExactGrad L r X D dW' dB' dX') {i k : Nat} (hi : i < r)
    (hk : k < L.n) : dX i k = dX' i k := by
  have := ExactGrad.pair_unique (by omega) ho (by omega) h h' (Curve.moveX L r X i k)
  simp only [Curve.pair, Curve.moveX] at this
  rw [sum2_single hi hk, sum2_single hi hk] at this
  simpa using this

/-! ## C32 Linear layer -/

theorem C32_exact (w : World ℝ) (lp : Nat) (wm bm x d : Mat) (L : LayerSpec ℝ) (r : Nat) (X D : Nat → Nat → ℝ)
    (hk : L.kind = .linear) (hL : IsLayer w lp wm bm L) (hX : IsMat w x r L.n X) (hD : IsMat w d r L.o D) :
    wp (layerBackward lp x d) w (fun g w' => IsGrad w' g L r X D ∧ OnlyAllocs w w') := by
  unfold layerBackward
  refine wp_bind_ok rfl ?_
  rw [hL.kind, hk]
  refine wp_mono (linearBackward_spec hL hX hD) ?_
  rintro g w' ⟨hg, ha⟩
  refine ⟨isGrad_of_gradOk hg (by rw [hk]; decide) ?_, ha⟩
  rw [hk]
  exact actGrad_of_entry (φ := fun x => x) (fun _ _ => rfl) (fun _ _ => 1) (fun i j _ _ => hasDerivAt_id _)
    (fun i j _ _ => by simp)

/-- The entries of the gradients, in any float64 semantics. -/
theorem C32_entries (w : World α) (lp : Nat) (wm bm x d : Mat) (L : LayerSpec α) (r : Nat) (X D : Nat → Nat → α)
    (hk : L.kind = .linear) (hL : IsLayer w lp wm bm L) (hX : IsMat w x r L.n X) (hD : IsMat w d r L.o D) :
    wp (layerBackward lp x d) w (fun g w' => g.err = none ∧
      IsMat w' g.dWeights L.n L.o (fun k j => fsum r fun i => X i k *. D i j) ∧
      IsMat w' g.dBiases 1 L.o (fun _ j => fsum r fun i => D i j) ∧
      IsMat w' g.dInputs r L.n (fun i k => fsum L.o fun j => D i j *. L.W k j)) := by
  unfold layerBackward
  refine wp_bind_ok rfl ?_
  rw [hL.kind, hk]
  refine wp_mono (linearBackward_spec hL hX hD) ?_
  rintro g w' ⟨hg, ha⟩
  exact ⟨hg.err, hg.dw.mat, hg.db.mat, hg.dx.mat⟩

example (W X D : Nat → Nat → ℝ) (b : Nat → ℝ) : ∃ w : World ℝ, ∃ lp wm bm x d,
    Stage w lp wm bm x d ⟨.linear, 3, 2, W, b, 0, 0⟩ 4 X D :=
  exists_stage ⟨.linear, 3, 2, W, b, 0, 0⟩ (by simp) (by simp) (by simp) X D

/-! ## C33 Hidden layer -/

/-- Backward in any state in which the layer, its input and the result of its forward pass are as the forward pass left
them, with any upstream gradient in storage of its own (which is overwritten). -/
theorem C33_exact (w : World ℝ) (lp : Nat) (wm bm x : Mat) (L : LayerSpec ℝ) (r : Nat) (X : Nat → Nat → ℝ)
    (hk : L.kind = .hidden) (hL : IsLayer w lp wm bm L) (hX : IsMat w x r L.n X)
    (hz : ∀ i j, i < r → j < L.o → (∑ k ∈ range L.n, X i k * L.W k j) + L.b j ≠ 0) :
    wp (layerForward lp x) w (fun p w1 => p.2 = none ∧ ∀ w2 d D, Intact w1 w2 lp p.1 r L.o →
      Stage w2 lp wm bm x d L r X D → (∀ a, w2.IsRow p.1 r a → ¬ w2.IsRow d r a) →
      wp (layerBackward lp x d) w2 (fun g w3 => IsGrad w3 g L r X D ∧ Frame { flt := w2.IsRow d r } w2 w3)) := by
  unfold wp
  rw [layerForward_eq_infer (by rw [hL.kind, hk]; decide)]
  refine wp_mono (layerInfer_spec hL hX) ?_
  rintro ⟨out, e⟩ w1 ⟨h1, h2⟩
  refine ⟨h1, ?_⟩
  intro w2 d D hi hs hd
  have hri : (w2.lay lp).reluInputs = out := by rw [hi.lay, h2.mem, hk]; rfl
  have hZ := hi.out _ h2.res.mat
  dsimp only at hri hZ hd
  unfold layerBackward
  refine wp_bind_ok rfl ?_
  rw [hs.layer.kind, hk]
  refine wp_mono (hiddenBackward_spec hs.layer hs.xmat hs.dmat ⟨hs.dd, hs.sep, fun a ha => hs.pd a (.inl ha)⟩
    (by rw [hri]; exact hZ) (by rw [hri]; exact hd)) ?_
  rintro g w3 ⟨hg, hf⟩
  refine ⟨isGrad_of_gradOk hg (by rw [hk]; decide) ?_, hf⟩
  rw [hk]
  refine actGrad_of_entry (φ := fun x => max x 0) (fun _ _ => by simp [actRow, Flt.zero])
    (fun i j => if preact L X i j ≤ 0 then 0 else 1) (fun i j hi hj => hasDerivAt_relu ?_) ?_
  · rw [preact_real]; exact hz i j hi hj
  · intro i j hi hj
    simp only [infer, actRow, hk, real_le, real_max, Flt.zero, real_ofInt, Int.cast_zero, decide_eq_true_eq,
      max_le_iff, le_refl, and_true]
    split <;> simp

/-- a hidden layer whose pre-activations are 1 + (i + j): the hypotheses hold, before and after its forward pass -/
example : ∃ w : World ℝ, ∃ lp wm bm x, ∃ L : LayerSpec ℝ, L.kind = .hidden ∧ IsLayer w lp wm bm L ∧
    IsMat w x 4 L.n (fun i _ => (i : ℝ)) ∧
    (∀ i j : Nat, i < 4 → j < L.o → (∑ k ∈ range L.n, (i : ℝ) * L.W k j) + L.b j ≠ 0) ∧
    wp (layerForward lp x) w (fun p w1 => ∀ D, ∃ w2 d, Intact w1 w2 lp p.1 4 L.o ∧
      Stage w2 lp wm bm x d L 4 (fun i _ => (i : ℝ)) D ∧ ∀ a, w2.IsRow p.1 4 a → ¬ w2.IsRow d 4 a) := by
  obtain ⟨w, lp, wm, bm, x, h1, h2, h3, h4, h5⟩ := exists_layer
    (⟨.hidden, 3, 2, fun _ _ => 1, fun j => 1 + j, 0, 0⟩ : LayerSpec ℝ) (by simp) (by simp) (r := 4) (by simp)
    (fun i _ => (i : ℝ))
  refine ⟨w, lp, wm, bm, x, _, rfl, h1, h3, ?_, ?_⟩
  · intro i j _ _
    simp only [mul_one, Finset.sum_const, card_range, nsmul_eq_mul]
    have h1 : (0 : ℝ) ≤ (3 : ℕ) * (i : ℝ) := mul_nonneg (Nat.cast_nonneg _) (Nat.cast_nonneg _)
    have h2 : (0 : ℝ) < 1 + (j : ℝ) := add_pos_of_pos_of_nonneg one_pos (Nat.cast_nonneg _)
    exact (add_pos_of_nonneg_of_pos h1 h2).ne'
  · unfold wp
    rw [layerForward_eq_infer (by rw [h1.kind]; simp)]
    refine wp_mono (layerInfer_spec h1 h3) ?_
    rintro p w1 ⟨-, f⟩ D
    obtain ⟨w2, d, i1, i2, i3, -⟩ := exists_after h1 h2 h3 h4 h5 f.res
      (f.frame.mono ⟨fun _ h => h, fun _ h => h, fun _ h => h, fun _ h => h, False.elim, id, id⟩)
      (by rw [f.mem, remember_static]) D
    exact ⟨w2, d, i1, i2, i3⟩

/-! ## C34 Leaky layer

False of the code for slope 0 (which the constructor accepts): the layer stores its output, and with slope 0 the
output does not show whether the pre-activation was negative. -/

/-- The gradient claim for one leaky layer. -/
def LeakyClaim (L : LayerSpec ℝ) : Prop :=
  ∀ (w : World ℝ) (lp : Nat) (wm bm x : Mat) (r : Nat) (X : Nat → Nat → ℝ),
    IsLayer w lp wm bm L → IsMat w x r L.n X →
    (∀ i j, i < r → j < L.o → (∑ k ∈ range L.n, X i k * L.W k j) + L.b j ≠ 0) →
    wp (layerForward lp x) w (fun p w1 => p.2 = none ∧ ∀ w2 d D, Intact w1 w2 lp p.1 r L.o →
      Stage w2 lp wm bm x d L r X D → (∀ a, w2.IsRow p.1 r a → ¬ w2.IsRow d r a) →
      wp (layerBackward lp x d) w2 (fun g w3 => IsGrad w3 g L r X D ∧ Frame { flt := w2.IsRow d r } w2 w3))

/-- The full claim. -/
def C34_claim : Prop := ∀ L : LayerSpec ℝ, L.kind = .leaky → 0 ≤ L.slope → LeakyClaim L

/-- Missing: slope 0, for which it is false. -/
theorem C34_exact_partial (L : LayerSpec ℝ) (hk : L.kind = .leaky) (hs : 0 < L.slope) : LeakyClaim L := by
  intro w lp wm bm x r X hL hX hz
  unfold wp
  rw [layerForward_eq_infer (by rw [hL.kind, hk]; decide)]
  refine wp_mono (layerInfer_spec hL hX) ?_
  rintro ⟨out, e⟩ w1 ⟨h1, h2⟩
  refine ⟨h1, ?_⟩
  intro w2 d D hi hst hd
  have hri : (w2.lay lp).reluInputs = out := by rw [hi.lay, h2.mem, hk]; rfl
  have hZ := hi.out _ h2.res.mat
  dsimp only at hri hZ hd
  unfold layerBackward
  refine wp_bind_ok rfl ?_
  rw [hst.layer.kind, hk]
  refine wp_mono (leakyBackward_spec hst.layer hst.xmat hst.dmat ⟨hst.dd, hst.sep, fun a ha => hst.pd a (.inl ha)⟩
    (by rw [hri]; exact hZ) (by rw [hri]; exact hd)) ?_
  rintro g w3 ⟨hg, hf⟩
  refine ⟨isGrad_of_gradOk hg (by rw [hk]; decide) ?_, hf⟩
  rw [hk]
  refine actGrad_of_entry (φ := fun x => if x < 0 then x * L.slope else x) (fun _ _ => by simp [actRow, Flt.zero])
    (fun i j => if preact L X i j < 0 then L.slope else 1) (fun i j hi hj => hasDerivAt_leaky ?_) ?_
  · rw [preact_real]; exact hz i j hi hj
  · intro i j hi hj
    simp only [infer, actRow, hk, real_lt, Flt.zero, real_ofInt, Int.cast_zero, decide_eq_true_eq, real_mul]
    by_cases h : preact L X i j < 0
    · rw [if_pos h, if_pos h, if_pos (mul_neg_of_neg_of_pos h hs)]
    · rw [if_neg h, if_neg h, if_neg h, mul_one]

theorem C34_false : ¬ C34_claim := by
  intro h
  let L : LayerSpec ℝ := ⟨.leaky, 1, 1, fun _ _ => 1, fun _ => 0, 0, 0⟩
  let X : Nat → Nat → ℝ := fun _ _ => -1
  let D : Nat → Nat → ℝ := fun _ _ => 1
  obtain ⟨w, lp, wm, bm, x, h1, h2, h3, h4, h5⟩ := exists_layer L (by simp [L]) (by simp [L]) (r := 1) (by simp) X
  have hc := h L rfl (le_refl _) w lp wm bm x 1 X h1 h3 (by intro i j _ _; simp [L, X])
  have hi : wp (layerForward lp x) w (fun p w' => p.2 = none ∧ FwdOk w w' lp L 1 p.1 (infer L X)) := by
    unfold wp
    rw [layerForward_eq_infer (by rw [h1.kind]; simp [L])]
    exact layerInfer_spec h1 h3
  obtain ⟨⟨out, e⟩, w1, -, ⟨-, hb⟩, -, f⟩ := wp_iff.1 (wp_and hc hi)
  obtain ⟨w2, d, i1, i2, i3, -⟩ := exists_after h1 h2 h3 h4 h5 f.res
    (f.frame.mono ⟨fun _ h => h, fun _ h => h, fun _ h => h, fun _ h => h, False.elim, id, id⟩)
    (by rw [f.mem, remember_static]) D
  have hri : (w2.lay lp).reluInputs = out := by rw [i1.lay, f.mem]; rfl
  have hZ := i1.out _ f.res.mat
  dsimp only at hri hZ i3
  have hback : wp (layerBackward lp x d) w2 (fun g w3 =>
      GradOk w2 w3 g 1 L.n L.o X (fun i j => if Flt.lt (infer L X i j) Flt.zero then D i j *. L.slope else D i j) L.W ∧
      Frame { flt := w2.IsRow d 1 } w2 w3) := by
    unfold layerBackward
    refine wp_bind_ok rfl ?_
    rw [i2.layer.kind]
    exact leakyBackward_spec i2.layer i2.xmat i2.dmat ⟨i2.dd, i2.sep, fun a ha => i2.pd a (.inl ha)⟩
      (by rw [hri]; exact hZ) (by rw [hri]; exact i3)
  obtain ⟨g, w3, -, ⟨⟨-, dW, dB, dX, -, hdB, -, hex⟩, -⟩, hg, -⟩ := wp_iff.1 (wp_and (hb w2 d D i1 i2 i3) hback)
  -- what the code returned for the bias is 1
  have e1 := hdB.entries_unique hg.db.mat (i := 0) (j := 0) (by simp) (by simp [L])
  -- but the true derivative is 0
  have htrue : ExactGrad L 1 X D _ _ _ := exactGrad_of_act (G := fun _ _ => 0) (by simp [L])
    (actGrad_of_entry (φ := fun x => if x < 0 then x * (0 : ℝ) else x) (fun _ _ => by simp [actRow, L, Flt.zero])
      (fun i j => if preact L X i j < 0 then 0 else 1)
      (fun i j _ _ => hasDerivAt_leaky (by rw [preact_real]; simp [L, X]))
      (fun i j _ _ => by rw [preact_real]; simp [L, X]))
  have e2 := ExactGrad.dB_unique (by simp [L]) (by simp) hex htrue (j := 0) (by simp [L])
  rw [e1] at e2
  simp only [fsum_real, infer, actRow, preact_real, L, X, D] at e2
  simp [Flt.zero] at e2

example : ∃ w : World ℝ, ∃ lp wm bm x, ∃ L : LayerSpec ℝ, L.kind = .leaky ∧ 0 < L.slope ∧ IsLayer w lp wm bm L ∧
    IsMat w x 4 L.n (fun i _ => (i : ℝ)) ∧
    (∀ i j : Nat, i < 4 → j < L.o → (∑ k ∈ range L.n, (i : ℝ) * L.W k j) + L.b j ≠ 0) ∧
    wp (layerForward lp x) w (fun p w1 => ∀ D, ∃ w2 d, Intact w1 w2 lp p.1 4 L.o ∧
      Stage w2 lp wm bm x d L 4 (fun i _ => (i : ℝ)) D ∧ ∀ a, w2.IsRow p.1 4 a → ¬ w2.IsRow d 4 a) := by
  obtain ⟨w, lp, wm, bm, x, h1, h2, h3, h4, h5⟩ := exists_layer
    (⟨.leaky, 3, 2, fun _ _ => 1, fun j => 1 + j, 1 / 10, 0⟩ : LayerSpec ℝ) (by simp) (by simp) (r := 4) (by simp)
    (fun i _ => (i : ℝ))
  refine ⟨w, lp, wm, bm, x, _, rfl, by norm_num, h1, h3, ?_, ?_⟩
  · intro i j _ _
    simp only [mul_one, Finset.sum_const, card_range, nsmul_eq_mul]
    have h1 : (0 : ℝ) ≤ (3 : ℕ) * (i : ℝ) := mul_nonneg (Nat.cast_nonneg _) (Nat.cast_nonneg _)
    have h2 : (0 : ℝ) < 1 + (j : ℝ) := add_pos_of_pos_of_nonneg one_pos (Nat.cast_nonneg _)
    exact (add_pos_of_nonneg_of_pos h1 h2).ne'
  · unfold wp
    rw [layerForward_eq_infer (by rw [h1.kind]; simp)]
    refine wp_mono (layerInfer_spec h1 h3) ?_
    rintro p w1 ⟨-, f⟩ D
    obtain ⟨w2, d, i1, i2, i3, -⟩ := exists_after h1 h2 h3 h4 h5 f.res
      (f.frame.mono ⟨fun _ h => h, fun _ h => h, fun _ h => h, fun _ h => h, False.elim, id, id⟩)
      (by rw [f.mem, remember_static]) D
    exact ⟨w2, d, i1, i2, i3⟩

/-! ## C35 Softmax layer -/

theorem C35_exact (w : World ℝ) (lp : Nat) (wm bm x : Mat) (L : LayerSpec ℝ) (r : Nat) (X : Nat → Nat → ℝ)
    (hk : L.kind = .softmax) (hL : IsLayer w lp wm bm L) (hX : IsMat w x r L.n X) :
    wp (layerForward lp x) w (fun p w1 => p.2 = none ∧ ∀ w2 d D, Intact w1 w2 lp p.1 r L.o →
      IsLayer w2 lp wm bm L → IsMat w2 x r L.n X → IsMat w2 d r L.o D →
      wp (layerBackward lp x d) w2 (fun g w3 => IsGrad w3 g L r X D ∧ OnlyAllocs w2 w3)) := by
  unfold wp
  rw [layerForward_eq_infer (by rw [hL.kind, hk]; decide)]
  refine wp_mono (layerInfer_spec hL hX) ?_
  rintro ⟨out, e⟩ w1 ⟨h1, h2⟩
  refine ⟨h1, ?_⟩
  intro w2 d D hi hL2 hX2 hD2
  have hri : (w2.lay lp).outputs = out := by rw [hi.lay, h2.mem, hk]; rfl
  have hZ := hi.out _ h2.res.mat
  dsimp only at hri hZ
  unfold layerBackward
  refine wp_bind_ok rfl ?_
  rw [hL2.kind, hk]
  refine wp_mono (softmaxBackward_spec hL2 hX2 hD2 (by rw [hri]; exact hZ)) ?_
  rintro g w3 ⟨hg, hf⟩
  refine ⟨isGrad_of_gradOk hg (by rw [hk]; decide) ?_, hf⟩
  have := actGrad_softmax (r := r) hL.wmat.cpos (Z0 := preact L X) (D := D) L.slope
  rw [hk]
  have e : infer L X = fun i j => actRow .softmax L.slope L.o (preact L X i) j := by
    funext i j; simp [infer, hk]
  rw [e]
  exact this

example (W X : Nat → Nat → ℝ) (b : Nat → ℝ) : ∃ w : World ℝ, ∃ lp wm bm x,
    IsLayer w lp wm bm ⟨.softmax, 3, 2, W, b, 0, 0⟩ ∧ IsMat w x 4 3 X ∧
    wp (layerForward lp x) w (fun p w1 => ∀ D, ∃ w2 d, Intact w1 w2 lp p.1 4 2 ∧
      IsLayer w2 lp wm bm ⟨.softmax, 3, 2, W, b, 0, 0⟩ ∧ IsMat w2 x 4 3 X ∧ IsMat w2 d 4 2 D) := by
  obtain ⟨w, lp, wm, bm, x, h1, h2, h3, h4, h5⟩ := exists_layer
    (⟨.softmax, 3, 2, W, b, 0, 0⟩ : LayerSpec ℝ) (by simp) (by simp) (r := 4) (by simp) X
  refine ⟨w, lp, wm, bm, x, h1, h3, ?_⟩
  unfold wp
  rw [layerForward_eq_infer (by rw [h1.kind]; simp)]
  refine wp_mono (layerInfer_spec h1 h3) ?_
  rintro p w1 ⟨-, f⟩ D
  obtain ⟨w2, d, i1, i2, i3, -⟩ := exists_after h1 h2 h3 h4 h5 f.res
    (f.frame.mono ⟨fun _ h => h, fun _ h => h, fun _ h => h, fun _ h => h, False.elim, id, id⟩)
    (by rw [f.mem, remember_static]) D
  exact ⟨w2, d, i1, i2.layer, i2.xmat, i2.dmat⟩

/-! ## C36 Fused softmax / cross-entropy -/

/-- For one-hot targets the fused backward pass and the two-step one return the same gradients. -/
theorem C36_fused (w : World ℝ) (lp : Nat) (wm bm x : Mat) (L : LayerSpec ℝ) (r : Nat) (X : Nat → Nat → ℝ)
    (hk : L.kind = .softmax) (hL : IsLayer w lp wm bm L) (hX : IsMat w x r L.n X) :
    wp (layerForward lp x) w (fun p w1 => p.2 = none ∧ ∀ w2 y Y lab, Intact w1 w2 lp p.1 r L.o →
      IsLayer w2 lp wm bm L → IsMat w2 x r L.n X → IsMat w2 y r L.o Y → OneHot r L.o lab Y →
      ∃ dW dB dX,
        wp (softmaxBackwardCE lp x y p.1) w2 (fun g w3 => g.err = none ∧ IsMat w3 g.dWeights L.n L.o dW ∧
          IsMat w3 g.dBiases 1 L.o dB ∧ IsMat w3 g.dInputs r L.n dX) ∧
        wp (do let q ← Loss.backward ⟨.ce, L.o⟩ p.1 y; layerBackward lp x q.1) w2 (fun g w3 => g.err = none ∧
          IsMat w3 g.dWeights L.n L.o dW ∧ IsMat w3 g.dBiases 1 L.o dB ∧ IsMat w3 g.dInputs r L.n dX)) := by
  unfold wp
  rw [layerForward_eq_infer (by rw [hL.kind, hk]; decide)]
  refine wp_mono (layerInfer_spec hL hX) ?_
  rintro ⟨out, e⟩ w1 ⟨h1, h2⟩
  refine ⟨h1, ?_⟩
  intro w2 y Y lab hi hL2 hX2 hY hone
  have hri : (w2.lay lp).outputs = out := by rw [hi.lay, h2.mem, hk]; rfl
  have hZ := hi.out _ h2.res.mat
  dsimp only at hri hZ ⊢
  set P := infer L X with hP
  refine ⟨_, _, _, wp_mono (softmaxBackwardCE_spec hL2 hX2 hY hZ) fun g w3 ⟨hg, _⟩ =>
    ⟨hg.err, hg.dw.mat, hg.db.mat, hg.dx.mat⟩, ?_⟩
  refine wp_bind_mono (ceBackward_spec hZ hY (Nat.le_refl _)) ?_
  rintro ⟨q, e⟩ w3 ⟨-, hq⟩
  dsimp only at hq ⊢
  unfold layerBackward
  refine wp_bind_ok rfl ?_
  have hL3 := hL2.frame hq.frame (fun h => h) (fun h => h) (fun h => h) (fun _ _ h => h)
  rw [hL3.kind, hk]
  have hlay := hq.frame.lay lp hL2.lt (fun h => h)
  refine wp_mono (softmaxBackward_spec hL3 (hX2.allocs hq.frame) hq.mat
    (by rw [hlay, hri]; exact hZ.allocs hq.frame)) ?_
  rintro g w4 ⟨hg, -⟩
  have hr := hX.rpos
  have hpos : ∀ i j, 0 < P i j := by
    intro i j
    rw [hP]
    simp only [infer, hk, actRow, real_exp, real_div, fsum_real]
    exact div_pos (Real.exp_pos _) (Finset.sum_pos (fun k _ => Real.exp_pos _) ⟨0, mem_range.2 hL.wmat.cpos⟩)
  have key : ∀ i j, i < r → j < L.o →
      smBack L.o P (fun i j => Flt.neg (Y i j) /. P i j /. Flt.ofInt (r : Int)) i j =
      if Flt.eq (Y i j) Flt.one then (P i j -. Flt.one) /. Flt.ofInt r else P i j /. Flt.ofInt r := by
    intro i j hi hj
    obtain ⟨ht, hYe⟩ := hone i hi
    have hY1 : Y i (lab i) = 1 := by rw [hYe _ ht, if_pos rfl]
    have hY0 : ∀ j, j < L.o → j ≠ lab i → Y i j = 0 := fun j hj hne => by rw [hYe _ hj, if_neg hne]
    generalize lab i = t at ht hY1 hY0
    have hsum : ∀ k ∈ range L.o, ((if j = k then P i j else 0) - P i j * P i k) * (-(Y i k) / P i k / r) =
        ((if j = k then 1 else 0) - P i j) * (-(Y i k)) / r := by
      intro k _
      have := (hpos i k).ne'
      by_cases e : j = k
      · subst e; simp only [if_true]; field_simp
      · simp only [e, if_false]; field_simp; ring
    simp only [smBack, fsum_real, real_mul, real_sub, real_div, real_neg, real_ofInt, Int.cast_natCast,
      Finset.sum_range_one, real_eq, decide_eq_true_eq, Flt.zero, Flt.one, Int.cast_zero, Int.cast_one]
    rw [Finset.sum_congr rfl hsum, Finset.sum_eq_single t]
    · rw [hY1]
      by_cases e : j = t
      · subst e; rw [if_pos rfl, if_pos hY1]; ring
      · rw [if_neg e, if_neg (by rw [hY0 j hj e]; simp)]; ring
    · intro k hk hkt
      rw [hY0 k (mem_range.1 hk) hkt]; simp
    · intro h; exact absurd (mem_range.2 ht) h
  have hg' := hg.congr key
  exact ⟨hg'.err, hg'.dw.mat, hg'.db.mat, hg'.dx.mat⟩

example (W X : Nat → Nat → ℝ) (b : Nat → ℝ) : ∃ w : World ℝ, ∃ lp wm bm x, ∃ Y,
    IsLayer w lp wm bm ⟨.softmax, 3, 2, W, b, 0, 0⟩ ∧ IsMat w x 4 3 X ∧ OneHot 4 2 (· % 2) Y ∧
    wp (layerForward lp x) w (fun p w1 => ∃ w2 y, Intact w1 w2 lp p.1 4 2 ∧
      IsLayer w2 lp wm bm ⟨.softmax, 3, 2, W, b, 0, 0⟩ ∧ IsMat w2 x 4 3 X ∧ IsMat w2 y 4 2 Y) := by
  obtain ⟨w, lp, wm, bm, x, h1, h2, h3, h4, h5⟩ := exists_layer
    (⟨.softmax, 3, 2, W, b, 0, 0⟩ : LayerSpec ℝ) (by simp) (by simp) (r := 4) (by simp) X
  refine ⟨w, lp, wm, bm, x, fun i j => if j = i % 2 then 1 else 0, h1, h3, ?_, ?_⟩
  · intro i _
    exact ⟨Nat.mod_lt _ (by decide), fun j _ => rfl⟩
  unfold wp
  rw [layerForward_eq_infer (by rw [h1.kind]; simp)]
  refine wp_mono (layerInfer_spec h1 h3) ?_
  rintro p w1 ⟨-, f⟩
  obtain ⟨w2, d, i1, i2, i3, -⟩ := exists_after h1 h2 h3 h4 h5 f.res
    (f.frame.mono ⟨fun _ h => h, fun _ h => h, fun _ h => h, fun _ h => h, False.elim, id, id⟩)
    (by rw [f.mem, remember_static]) (fun i j => if j = i % 2 then 1 else 0)
  exact ⟨w2, d, i1, i2.layer, i2.xmat, i2.dmat⟩

/-! ## C37 Sigmoid layer

False of the code: Backward applies the derivative to the layer's input instead of its output, and does so in place. -/

/-- The full claim. -/
def C37_claim : Prop :=
  ∀ (w : World ℝ) (lp : Nat) (wm bm x d : Mat) (L : LayerSpec ℝ) (r : Nat) (X D : Nat → Nat → ℝ),
    L.kind = .sigmoid → Stage w lp wm bm x d L r X D →
    wp (layerBackward lp x d) w (fun g w' => IsGrad w' g L r X D ∧ IsMat w' x r L.n X)

/-- The part about the gradients alone, for layers with as many inputs as outputs. -/
def C37_claim_gradient : Prop :=
  ∀ (w : World ℝ) (lp : Nat) (wm bm x d : Mat) (L : LayerSpec ℝ) (r : Nat) (X D : Nat → Nat → ℝ),
    L.kind = .sigmoid → L.n = L.o → Stage w lp wm bm x d L r X D →
    wp (layerBackward lp x d) w (fun g w' => IsGrad w' g L r X D)

theorem layerBackward_sigmoid {w : World α} {lp : Nat} (hk : (w.lay lp).kind = .sigmoid) (x d : Mat) :
    layerBackward lp x d w = sigmoidBackward lp x d w := by
  unfold layerBackward
  refine (bind_ok (show layGet lp w = .ok (w.lay lp, w) from rfl)).trans ?_
  rw [hk]

/-- What Backward computes instead when the layer is not narrower than its input: with S = D·σ(X)·(1-σ(X)) it overwrites
the input by S and returns SᵀS, the column sums of S, and SWᵀ or (for different widths) no matrix at all. -/
theorem C37_actual (w : World α) (lp : Nat) (wm bm x d : Mat) (L : LayerSpec α) (r : Nat) (X D : Nat → Nat → α)
    (hk : L.kind = .sigmoid) (hs : Stage w lp wm bm x d L r X D) (hno : L.n ≤ L.o) :
    wp (layerBackward lp x d) w (fun g w' => g.err = none ∧ IsMat w' x r L.n (sigBack X D) ∧
      IsMat w' g.dWeights L.n L.n (fun k j => fsum r fun i => sigBack X D i k *. sigBack X D i j) ∧
      IsMat w' g.dBiases 1 L.n (fun _ j => fsum r fun i => sigBack X D i j) ∧
      (L.n ≠ L.o → g.dInputs = Mat.zero) ∧
      (L.n = L.o → IsMat w' g.dInputs r L.n (fun i k => fsum L.n fun j => sigBack X D i j *. L.W k j)) ∧
      Frame { flt := w.IsRow x r } w w') := by
  unfold wp
  rw [layerBackward_sigmoid (hs.layer.kind.trans hk)]
  exact sigmoidBackward_spec hs.layer hs.xmat hs.dmat hno hs.xd (fun a h h' => hs.sep a h' h)
    (fun a h => hs.px a (.inl h))

/-- A layer narrower than its input: Backward panics. -/
theorem C37_panics (w : World α) (lp : Nat) (wm bm x d : Mat) (L : LayerSpec α) (r : Nat) (X D : Nat → Nat → α)
    (hk : L.kind = .sigmoid) (hs : Stage w lp wm bm x d L r X D) (hno : L.o < L.n) :
    Panics (layerBackward lp x d) w := by
  unfold Panics
  rw [layerBackward_sigmoid (hs.layer.kind.trans hk)]
  exact sigmoidBackward_panics hs.layer hs.xmat hs.dmat hno hs.xd (fun a h h' => hs.sep a h' h)

theorem C37_false : ¬ C37_claim := by
  intro h
  obtain ⟨w, lp, wm, bm, x, d, hs⟩ := exists_stage (⟨.sigmoid, 1, 1, fun _ _ => 1, fun _ => 0, 0, 0⟩ : LayerSpec ℝ)
    (by simp) (by simp) (r := 1) (by simp) (fun _ _ => 0) (fun _ _ => 1)
  obtain ⟨g, w', -, ⟨-, h1⟩, -, h2, -⟩ := wp_iff.1 (wp_and (h _ _ _ _ _ _ _ _ _ _ rfl hs)
    (C37_actual w lp wm bm x d _ 1 _ _ rfl hs (by simp)))
  have := h1.entries_unique h2 (i := 0) (j := 0) (by simp) (by simp)
  norm_num [sigBack, Flt.one] at this

theorem C37_gradient_false : ¬ C37_claim_gradient := by
  intro h
  let L : LayerSpec ℝ := ⟨.sigmoid, 1, 1, fun _ _ => 1, fun _ => 0, 0, 0⟩
  let X : Nat → Nat → ℝ := fun _ _ => 0
  let D : Nat → Nat → ℝ := fun _ _ => 1
  obtain ⟨w, lp, wm, bm, x, d, hs⟩ := exists_stage L (by simp [L]) (by simp [L]) (r := 1) (by simp) X D
  obtain ⟨g, w', -, ⟨-, dW, dB, dX, hdW, -, -, hex⟩, -, -, h2, -⟩ := wp_iff.1 (wp_and (h _ _ _ _ _ _ _ _ _ _ rfl rfl hs)
    (C37_actual w lp wm bm x d L 1 _ _ rfl hs (by simp [L])))
  have e1 := hdW.entries_unique h2 (i := 0) (j := 0) (by simp [L]) (by simp [L])
  have htrue : ExactGrad L 1 X D _ _ _ := exactGrad_of_act (by simp [L])
    (actGrad_of_entry (φ := fun x => 1 / (1 + Real.exp (-x)))
      (G := fun i j => D i j * ((1 / (1 + Real.exp (-preact L X i j))) * (1 - 1 / (1 + Real.exp (-preact L X i j)))))
      (fun _ _ => by simp [actRow, L, Flt.one]) _ (fun i j _ _ => hasDerivAt_sigmoid _) (fun i j _ _ => rfl))
  have e2 := ExactGrad.dW_unique (by simp) hex htrue (k := 0) (j := 0) (by simp [L]) (by simp [L])
  rw [e1] at e2
  simp only [fsum_real, sigBack, X, D] at e2
  norm_num [Flt.one] at e2

/-- Missing: everything about the returned gradients and about the input, which is false; see C37_actual. Proved: unless
the layer is narrower than its input, Backward reports no error and leaves the parameters, the upstream gradient and
the layer object as they are. -/
theorem C37_rest_partial (w : World α) (lp : Nat) (wm bm x d : Mat) (L : LayerSpec α) (r : Nat) (X D : Nat → Nat → α)
    (hk : L.kind = .sigmoid) (hs : Stage w lp wm bm x d L r X D) (hno : L.n ≤ L.o) :
    wp (layerBackward lp x d) w (fun g w' => g.err = none ∧ IsLayer w' lp wm bm L ∧ IsMat w' d r L.o D) := by
  refine wp_mono (C37_actual w lp wm bm x d L r X D hk hs hno) ?_
  rintro g w' ⟨h1, -, -, -, -, -, hf⟩
  exact ⟨h1, hs.layer.frame hf (fun h => h) (fun h => h) (fun h => h) hs.px,
    hs.dmat.frame hf (fun h => h) (fun a h h' => hs.sep a h' h)⟩

example (W X D : Nat → Nat → α) (b : Nat → α) (s p : α) : ∃ w : World α, ∃ lp wm bm x d,
    Stage w lp wm bm x d ⟨.sigmoid, 2, 3, W, b, s, p⟩ 4 X D :=
  exists_stage ⟨.sigmoid, 2, 3, W, b, s, p⟩ (by simp) (by simp) (by simp) X D

example (W X D : Nat → Nat → α) (b : Nat → α) (s p : α) : ∃ w : World α, ∃ lp wm bm x d,
    Stage w lp wm bm x d ⟨.sigmoid, 3, 2, W, b, s, p⟩ 4 X D :=
  exists_stage ⟨.sigmoid, 3, 2, W, b, s, p⟩ (by simp) (by simp) (by simp) X D

end NN
