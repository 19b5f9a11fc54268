import Verif.Props.C32_C37
import Mathlib.Probability.Independence.InfinitePi
import Mathlib.MeasureTheory.Integral.Bochner.Basic
import Mathlib.MeasureTheory.Measure.Lebesgue.Basic
/- C38, C39: dropout. -/

set_option linter.unusedSectionVars false

namespace NN
variable {α : Type} [Flt α]
open Go Finset MeasureTheory ProbabilityTheory

/-! ## C38 The dropout mask -/

/-- Which draws keep a unit. -/
def keptDraws (p : ℝ) : Set ℝ := if p < 1 / 2 then {u | p ≤ u} else {u | u < 1 - p}

theorem bern_real (p u : ℝ) : bern (1 - p) u = (keptDraws p).indicator (fun _ => (1 : ℝ)) u := by
  unfold bern keptDraws
  simp only [real_lt, real_half, real_sub, real_eq, real_add, Flt.one, Flt.zero, real_ofInt, Int.cast_zero, Int.cast_one,
    decide_eq_true_eq, zero_add]
  by_cases h : p < 1 / 2
  · have h1 : (1 : ℝ) / 2 < 1 - p := by linarith
    have h2 : ¬ (1 - (1 - p) = 1 - p) := by intro e; linarith
    rw [if_pos h, if_pos h1, if_neg h2]
    by_cases h3 : p ≤ u
    · have : ¬ u < 1 - (1 - p) := by linarith
      rw [if_neg this, Set.indicator_of_mem (show u ∈ {u | p ≤ u} from h3)]; simp
    · have : u < 1 - (1 - p) := by linarith
      rw [if_pos this, Set.indicator_of_notMem (show u ∉ {u | p ≤ u} from h3)]; simp
  · have h1 : ¬ (1 : ℝ) / 2 < 1 - p := by linarith
    rw [if_neg h, if_neg h1, if_pos rfl]
    by_cases h3 : u < 1 - p
    · rw [if_pos h3, Set.indicator_of_mem (show u ∈ {u | u < 1 - p} from h3)]
    · rw [if_neg h3, Set.indicator_of_notMem (show u ∉ {u | u < 1 - p} from h3)]

theorem measurableSet_keptDraws (p : ℝ) : MeasurableSet (keptDraws p) := by
  unfold keptDraws
  split
  · exact measurableSet_Ici
  · exact measurableSet_Iio

theorem volume_keptDraws {p : ℝ} (h0 : 0 ≤ p) :
    volume.restrict (Set.Ico (0 : ℝ) 1) (keptDraws p) = ENNReal.ofReal (1 - p) := by
  rw [Measure.restrict_apply (measurableSet_keptDraws p)]
  unfold keptDraws
  split
  · have : {u | p ≤ u} ∩ Set.Ico (0 : ℝ) 1 = Set.Ico p 1 := by
      ext u; simp only [Set.mem_inter_iff, Set.mem_ofPred_eq, Set.mem_Ico]
      constructor
      · rintro ⟨a, b, c⟩; exact ⟨a, c⟩
      · rintro ⟨a, c⟩; exact ⟨a, by linarith, c⟩
    rw [this, Real.volume_Ico]
  · have : {u | u < 1 - p} ∩ Set.Ico (0 : ℝ) 1 = Set.Ico 0 (1 - p) := by
      ext u; simp only [Set.mem_inter_iff, Set.mem_ofPred_eq, Set.mem_Ico]
      constructor
      · rintro ⟨a, b, c⟩; exact ⟨b, a⟩
      · rintro ⟨a, c⟩; exact ⟨c, a, by linarith⟩
    rw [this, Real.volume_Ico]; simp

/-- A source of uniform draws: on the probability space Ω, draw number k is uniform on [0, 1). -/
structure UniformSource {Ω : Type} [MeasurableSpace Ω] (μ : Measure Ω) (U : Nat → Ω → ℝ) : Prop where
  meas : ∀ k, Measurable (U k)
  unif : ∀ k, μ.map (U k) = volume.restrict (Set.Ico 0 1)

/-- Training passes of one dropout layer over all outcomes ω of the random source: the mask that the layer stores has
entries 0 or 1, each 1 with probability 1 - Dropout, independently if the draws are independent; the output is
max(XW+b, 0)·mask/(1-Dropout), and its expectation is the inference output if Dropout < 1. -/
theorem C38_training {Ω : Type} [MeasurableSpace Ω] (μ : Measure Ω) [IsProbabilityMeasure μ] (U : Nat → Ω → ℝ)
    (hU : UniformSource μ U) (w : Ω → World ℝ) (k0 : Nat) (lp : Nat) (wm bm x : Mat) (L : LayerSpec ℝ) (r : Nat)
    (X : Nat → Nat → ℝ) (hk : L.kind = .dropout) (hL : ∀ ω, IsLayer (w ω) lp wm bm L) (hX : ∀ ω, IsMat (w ω) x r L.n X)
    (hu : ∀ ω k, (w ω).unif k = U k ω) (hpos : ∀ ω, (w ω).unifPos = k0) (h0 : 0 ≤ L.dropout) :
    ∃ M V : Ω → Nat → Nat → ℝ,
      (∀ ω, wp (layerForward lp x) (w ω) (fun p w' => p.2 = none ∧ IsMat w' (w'.lay lp).binaryMask r L.o (M ω) ∧
        IsMat w' p.1 r L.o (V ω))) ∧
      (∀ ω i j, M ω i j = 0 ∨ M ω i j = 1) ∧
      (∀ ω i j, M ω i j = 0 → V ω i j = 0) ∧
      (∀ ω i j, M ω i j = 1 →
        V ω i j = max ((∑ k ∈ range L.n, X i k * L.W k j) + L.b j) 0 / (1 - L.dropout)) ∧
      (∀ i j, μ {ω | M ω i j = 1} = ENNReal.ofReal (1 - L.dropout)) ∧
      (iIndepFun U μ → iIndepFun (fun (q : Nat × Fin L.o) ω => M ω q.1 q.2) μ) ∧
      (L.dropout < 1 → ∀ i j, Integrable (fun ω => V ω i j) μ ∧
        ∫ ω, V ω i j ∂μ = max ((∑ k ∈ range L.n, X i k * L.W k j) + L.b j) 0) := by
  have hbit : ∀ ω i j, maskAt (w ω) L i j =
      (keptDraws L.dropout).indicator (fun _ => (1 : ℝ)) (U (k0 + i * L.o + j) ω) := by
    intro ω i j
    unfold maskAt
    rw [hu, hpos]
    simpa [Flt.one] using bern_real L.dropout (U (k0 + i * L.o + j) ω)
  refine ⟨fun ω => maskAt (w ω) L, fun ω i j =>
    Flt.max (preact L X i j) Flt.zero *. (maskAt (w ω) L i j /. (Flt.one -. L.dropout)), ?_, ?_, ?_, ?_, ?_, ?_, ?_⟩
  · intro ω
    unfold layerForward
    refine wp_bind_ok rfl ?_
    rw [(hL ω).kind, hk]
    refine wp_mono (dropoutForward_spec (hL ω) (hX ω)) ?_
    rintro p w' ⟨e, mask, h⟩
    refine ⟨e, ?_, h.res.mat⟩
    rw [h.mem]
    exact h.bits.mat
  · intro ω i j
    dsimp only
    rw [hbit]
    by_cases h : U (k0 + i * L.o + j) ω ∈ keptDraws L.dropout <;> simp [h]
  · intro ω i j h
    simp only [h]; simp
  · intro ω i j h
    simp only [h, preact_real]
    simp [Flt.one, Flt.zero, div_eq_mul_inv]
  · intro i j
    have e : {ω | maskAt (w ω) L i j = 1} = U (k0 + i * L.o + j) ⁻¹' keptDraws L.dropout := by
      ext ω
      simp only [Set.mem_ofPred_eq, hbit, Set.mem_preimage]
      by_cases h : U (k0 + i * L.o + j) ω ∈ keptDraws L.dropout <;> simp [h]
    rw [e, ← Measure.map_apply (hU.meas _) (measurableSet_keptDraws _), hU.unif, volume_keptDraws h0]
  · intro hind
    have hinj : Function.Injective (fun q : Nat × Fin L.o => k0 + q.1 * L.o + q.2) := by
      rintro ⟨i, j⟩ ⟨i', j'⟩ h
      dsimp only at h
      have hj := j.2
      have hj' := j'.2
      have h' : i * L.o + j = i' * L.o + j' := by omega
      have e1 : i = i' := by
        have a := congrArg (· / L.o) h'
        have ho : 0 < L.o := by omega
        simpa [Nat.mul_comm _ L.o, Nat.mul_add_div ho, Nat.div_eq_of_lt hj, Nat.div_eq_of_lt hj'] using a
      subst e1
      have e2 : j = j' := Fin.ext (by omega)
      rw [e2]
    have h2 := (hind.precomp hinj).comp (fun _ => (keptDraws L.dropout).indicator fun _ => (1 : ℝ))
      (fun _ => measurable_const.indicator (measurableSet_keptDraws _))
    have e : (fun (q : Nat × Fin L.o) ω => maskAt (w ω) L q.1 q.2) = fun q =>
        ((keptDraws L.dropout).indicator fun _ => (1 : ℝ)) ∘ U (k0 + q.1 * L.o + q.2) := by
      funext q ω
      exact hbit ω _ _
    rw [e]
    exact h2
  · intro hlt i j
    have hm : MeasurableSet (U (k0 + i * L.o + j) ⁻¹' keptDraws L.dropout) := hU.meas _ (measurableSet_keptDraws _)
    have e : (fun ω => Flt.max (preact L X i j) Flt.zero *. (maskAt (w ω) L i j /. (Flt.one -. L.dropout))) =
        (U (k0 + i * L.o + j) ⁻¹' keptDraws L.dropout).indicator
          (fun _ => max ((∑ k ∈ range L.n, X i k * L.W k j) + L.b j) 0 / (1 - L.dropout)) := by
      funext ω
      rw [hbit, preact_real]
      by_cases h : U (k0 + i * L.o + j) ω ∈ keptDraws L.dropout <;>
        simp [h, Flt.one, Flt.zero, div_eq_mul_inv]
    rw [e]
    refine ⟨(integrable_const _).indicator hm, ?_⟩
    rw [integral_indicator_const _ hm]
    have hme : μ (U (k0 + i * L.o + j) ⁻¹' keptDraws L.dropout) = ENNReal.ofReal (1 - L.dropout) := by
      rw [← Measure.map_apply (hU.meas _) (measurableSet_keptDraws _), hU.unif, volume_keptDraws h0]
    have hp : (0 : ℝ) < 1 - L.dropout := by linarith
    rw [measureReal_def, hme, ENNReal.toReal_ofReal hp.le, smul_eq_mul]
    field_simp

/-- Inference: no mask, no randomness, the layer's mask is left alone. -/
theorem C38_inference (w : World α) (lp : Nat) (wm bm x : Mat) (L : LayerSpec α) (r : Nat) (X : Nat → Nat → α)
    (hk : L.kind = .dropout) (hL : IsLayer w lp wm bm L) (hX : IsMat w x r L.n X) :
    wp (dropoutForwardNo lp x) w (fun p w' => p.2 = none ∧
      IsMat w' p.1 r L.o (fun i j => Flt.max ((fsum L.n fun k => X i k *. L.W k j) +. L.b j) Flt.zero) ∧
      w'.unif = w.unif ∧ w'.unifPos = w.unifPos ∧ w'.norm = w.norm ∧ w'.normPos = w.normPos ∧
      (w'.lay lp).binaryMask = (w.lay lp).binaryMask) := by
  have h := layerInfer_spec hL hX
  have e : layerInfer lp x w = dropoutForwardNo lp x w := by
    unfold layerInfer
    refine (bind_ok (show layGet lp w = .ok (w.lay lp, w) from rfl)).trans ?_
    rw [if_pos (hL.kind.trans hk)]
  unfold wp at h
  rw [e] at h
  refine wp_mono h ?_
  rintro p w' ⟨h1, h2⟩
  refine ⟨h1, ?_, h2.frame.unif, h2.frame.unifPos (fun h => h), h2.frame.norm, h2.frame.normPos (fun h => h), ?_⟩
  · have := h2.res.mat
    unfold infer actRow at this
    rw [hk] at this
    exact this
  · rw [h2.mem, hk]; rfl

/-- An independent uniform source exists, and so do the states. -/
theorem exists_uniformSource : ∃ (Ω : Type) (_ : MeasurableSpace Ω) (μ : Measure Ω) (_ : IsProbabilityMeasure μ)
    (U : Nat → Ω → ℝ), UniformSource μ U ∧ iIndepFun U μ := by
  have : IsProbabilityMeasure (volume.restrict (Set.Ico (0 : ℝ) 1)) :=
    ⟨by rw [Measure.restrict_apply_univ, Real.volume_Ico]; simp⟩
  refine ⟨Nat → ℝ, inferInstance, Measure.infinitePi (fun _ => volume.restrict (Set.Ico (0 : ℝ) 1)), inferInstance,
    fun k ω => ω k, ⟨fun k => measurable_pi_apply k, fun k => Measure.infinitePi_map_eval _ k⟩, ?_⟩
  exact iIndepFun_infinitePi (X := fun _ x => x) (fun _ => measurable_id)

theorem IsMat.withUnif {w : World α} {m : Mat} {r c : Nat} {A : Nat → Nat → α} (h : IsMat w m r c A) (u : Nat → α) :
    IsMat { w with unif := u } m r c A := ⟨h.rows, h.cols, h.len, h.rpos, h.cpos, h.addr_lt, h.row⟩

theorem IsLayer.withUnif {w : World α} {lp : Nat} {wm bm : Mat} {L : LayerSpec α} (h : IsLayer w lp wm bm L)
    (u : Nat → α) : IsLayer { w with unif := u } lp wm bm L :=
  ⟨h.lt, h.kind, h.ins, h.outs, h.weights, h.biases, h.slope, h.dropout, h.wmat.withUnif u, h.bmat.withUnif u⟩

example (W X : Nat → Nat → ℝ) (b : Nat → ℝ) : ∃ (Ω : Type) (_ : MeasurableSpace Ω) (μ : Measure Ω)
    (_ : IsProbabilityMeasure μ) (U : Nat → Ω → ℝ) (w : Ω → World ℝ) (k0 lp : Nat) (wm bm x : Mat),
    UniformSource μ U ∧ iIndepFun U μ ∧ (∀ ω, IsLayer (w ω) lp wm bm ⟨.dropout, 3, 2, W, b, 0, 1 / 4⟩) ∧
    (∀ ω, IsMat (w ω) x 4 3 X) ∧ (∀ ω k, (w ω).unif k = U k ω) ∧ (∀ ω, (w ω).unifPos = k0) := by
  obtain ⟨Ω, i1, μ, i2, U, hU, hi⟩ := exists_uniformSource
  obtain ⟨w, lp, wm, bm, x, h1, -, h3, -⟩ := exists_layer
    (⟨.dropout, 3, 2, W, b, 0, 1 / 4⟩ : LayerSpec ℝ) (by simp) (by simp) (r := 4) (by simp) X
  exact ⟨Ω, i1, μ, i2, U, fun ω => { w with unif := fun k => U k ω }, w.unifPos, lp, wm, bm, x, hU, hi,
    fun ω => h1.withUnif _, fun ω => h3.withUnif _, fun _ _ => rfl, fun _ => rfl⟩

/-! ## C39 Dropout backward

False of the code: the factor 1/(1-Dropout) of the forward pass is missing in the backward pass. -/

/-- With the random source `u` at position `p`, Forward of a layer with content `L` on the input `X` returns `F`. -/
def ComputesAt (u : Nat → ℝ) (p : Nat) (L : LayerSpec ℝ) (r : Nat) (X F : Nat → Nat → ℝ) : Prop :=
  ∀ (w : World ℝ) lp wm bm x, w.unif = u → w.unifPos = p → IsLayer w lp wm bm L → IsMat w x r L.n X →
    wp (layerForward lp x) w (fun p w' => p.2 = none ∧ IsMat w' p.1 r L.o F)

/-- `dW`, `dB`, `dX` are the exact gradients of Σ D·Forward, with the random draws held fixed. -/
def SampledGrad (u : Nat → ℝ) (p : Nat) (L : LayerSpec ℝ) (r : Nat) (X D dW : Nat → Nat → ℝ) (dB : Nat → ℝ)
    (dX : Nat → Nat → ℝ) : Prop :=
  ∀ c : Curve L r X, ∃ F : ℝ → Nat → Nat → ℝ, (∀ t, ComputesAt u p (c.at t) r (c.Xt t) (F t)) ∧
    HasDerivAt (fun t => ∑ i ∈ range r, ∑ j ∈ range L.o, D i j * F t i j) (c.pair dW dB dX) 0

/-- `g` consists of matrices of the right shapes that are these gradients. -/
def IsSampledGrad (u : Nat → ℝ) (p : Nat) (w : World ℝ) (g : Grads) (L : LayerSpec ℝ) (r : Nat) (X D : Nat → Nat → ℝ) :
    Prop :=
  g.err = none ∧ ∃ dW dB dX, IsMat w g.dWeights L.n L.o dW ∧ IsMat w g.dBiases 1 L.o (fun _ => dB) ∧
    IsMat w g.dInputs r L.n dX ∧ SampledGrad u p L r X D dW dB dX

/-- Backward after Forward returns the sampled gradients of Σ s·D·Forward. -/
def DropoutClaim (L : LayerSpec ℝ) (s : ℝ) : Prop :=
  ∀ (w : World ℝ) (lp : Nat) (wm bm x : Mat) (r : Nat) (X : Nat → Nat → ℝ),
    IsLayer w lp wm bm L → IsMat w x r L.n X →
    (∀ i j, i < r → j < L.o → (∑ k ∈ range L.n, X i k * L.W k j) + L.b j ≠ 0) →
    wp (layerForward lp x) w (fun p w1 => p.2 = none ∧ ∀ w2 d D, Intact w1 w2 lp p.1 r L.o →
      (∀ M, IsMat w1 (w1.lay lp).binaryMask r L.o M → IsMat w2 (w2.lay lp).binaryMask r L.o M) →
      Stage w2 lp wm bm x d L r X D → (∀ a, w2.IsRow p.1 r a → ¬ w2.IsRow d r a) →
      (∀ a, w2.IsRow (w2.lay lp).binaryMask r a → ¬ w2.IsRow d r a) →
      wp (layerBackward lp x d) w2 (fun g w3 =>
        IsSampledGrad w.unif w.unifPos w3 g L r X (fun i j => s * D i j) ∧ Frame { flt := w2.IsRow d r } w2 w3))

/-- The full claim. -/
def C39_claim : Prop := ∀ L : LayerSpec ℝ, L.kind = .dropout → 0 ≤ L.dropout → L.dropout < 1 → DropoutClaim L 1

theorem maskAt_congr {w w' : World ℝ} {L L' : LayerSpec ℝ} (hu : w'.unif = w.unif) (hp : w'.unifPos = w.unifPos)
    (ho : L'.o = L.o) (hd : L'.dropout = L.dropout) (i j : Nat) : maskAt w' L' i j = maskAt w L i j := by
  unfold maskAt; rw [hu, hp, ho, hd]

theorem maskAt_bit (w : World ℝ) (L : LayerSpec ℝ) (i j : Nat) : maskAt w L i j = 0 ∨ maskAt w L i j = 1 := by
  unfold maskAt
  have := bern_real L.dropout (w.unif (w.unifPos + i * L.o + j))
  simp only [Flt.one, real_ofInt, Int.cast_one, real_sub] at this ⊢
  rw [this]
  by_cases h : w.unif (w.unifPos + i * L.o + j) ∈ keptDraws L.dropout <;> simp [h]

/-- What Backward computes after Forward. -/
theorem dropout_run {α : Type} [Flt α] {w : World α} {lp : Nat} {wm bm x : Mat} {L : LayerSpec α} {r : Nat}
    {X : Nat → Nat → α} (hk : L.kind = .dropout) (hL : IsLayer w lp wm bm L) (hX : IsMat w x r L.n X) :
    wp (layerForward lp x) w (fun p w1 => p.2 = none ∧ ∀ w2 d D, Intact w1 w2 lp p.1 r L.o →
      (∀ M, IsMat w1 (w1.lay lp).binaryMask r L.o M → IsMat w2 (w2.lay lp).binaryMask r L.o M) →
      Stage w2 lp wm bm x d L r X D → (∀ a, w2.IsRow p.1 r a → ¬ w2.IsRow d r a) →
      (∀ a, w2.IsRow (w2.lay lp).binaryMask r a → ¬ w2.IsRow d r a) →
      wp (layerBackward lp x d) w2 (fun g w3 => GradOk w2 w3 g r L.n L.o X (fun i j =>
        if Flt.le (Flt.max (preact L X i j) Flt.zero *. (maskAt w L i j /. (Flt.one -. L.dropout))) Flt.zero
        then Flt.zero else D i j *. maskAt w L i j) L.W ∧ Frame { flt := w2.IsRow d r } w2 w3)) := by
  unfold layerForward
  refine wp_bind_ok rfl ?_
  rw [hL.kind, hk]
  refine wp_mono (dropoutForward_spec hL hX) ?_
  rintro ⟨out, e⟩ w1 ⟨he, mask, hd⟩
  refine ⟨he, ?_⟩
  intro w2 d D hi hmask hst hod hmd
  have hri : (w2.lay lp).reluInputs = out := by rw [hi.lay, hd.mem]
  have hmi : (w1.lay lp).binaryMask = mask := by rw [hd.mem]
  have hM := hmask _ (by rw [hmi]; exact hd.bits.mat)
  have hZ := hi.out _ hd.res.mat
  dsimp only at hri hZ hod
  unfold layerBackward
  refine wp_bind_ok rfl ?_
  rw [hst.layer.kind, hk]
  exact dropoutBackward_spec hst.layer hst.xmat hst.dmat ⟨hst.dd, hst.sep, fun a ha => hst.pd a (.inl ha)⟩
    (by rw [hri]; exact hZ) (by rw [hri]; exact hod) hM hmd

/-- The gradients that Backward returns are those of the claim multiplied by 1 - Dropout. -/
theorem C39_scaled (L : LayerSpec ℝ) (hk : L.kind = .dropout) (h1 : L.dropout < 1) :
    DropoutClaim L (1 - L.dropout) := by
  intro w lp wm bm x r X hL hX hz
  have hp : (0 : ℝ) < 1 - L.dropout := by linarith
  refine wp_mono (dropout_run hk hL hX) ?_
  rintro ⟨out, e⟩ w1 ⟨he, hrun⟩
  refine ⟨he, ?_⟩
  intro w2 d D hi hmask hst hod hmd
  refine wp_mono (hrun w2 d D hi hmask hst hod hmd) ?_
  rintro g w3 ⟨hg, hf⟩
  refine ⟨⟨hg.err, _, _, _, hg.dw.mat, hg.db.mat, hg.dx.mat, ?_⟩, hf⟩
  have key : ActGrad (actRow .hidden L.slope L.o) r L.o (preact L X) (fun i j => D i j * maskAt w L i j)
      (fun i j => if Flt.le (Flt.max (preact L X i j) Flt.zero *. (maskAt w L i j /. (Flt.one -. L.dropout))) Flt.zero
        then Flt.zero else D i j *. maskAt w L i j) := by
    refine actGrad_of_entry (φ := fun x => max x 0) (fun _ _ => by simp [actRow, Flt.zero])
      (fun i j => if preact L X i j ≤ 0 then 0 else 1) (fun i j hi hj => hasDerivAt_relu ?_) ?_
    · rw [preact_real]; exact hz i j hi hj
    · intro i j hi hj
      simp only [real_le, real_max, Flt.zero, Flt.one, real_ofInt, Int.cast_zero, Int.cast_one, decide_eq_true_eq,
        real_mul, real_div, real_sub]
      rcases maskAt_bit w L i j with h | h
      · simp [h]
      · rw [h]
        by_cases hc : preact L X i j ≤ 0
        · rw [max_eq_right hc]; simp [hc]
        · have : 0 < max (preact L X i j) 0 * (1 / (1 - L.dropout)) := by
            have := lt_max_of_lt_left (c := (0 : ℝ)) (not_le.1 hc)
            positivity
          rw [if_neg (not_le.2 this), if_neg hc]; simp
  intro c
  refine ⟨fun t i j => max (preact (c.at t) (c.Xt t) i j) 0 * (maskAt w L i j / (1 - L.dropout)), ?_, ?_⟩
  · intro t w' lp' wm' bm' x' hu hpos hL' hX'
    unfold layerForward
    refine wp_bind_ok rfl ?_
    rw [hL'.kind, show (c.at t).kind = .dropout from hk]
    refine wp_mono (dropoutForward_spec hL' hX') ?_
    rintro p w'' ⟨h, mask', hd'⟩
    refine ⟨h, hd'.res.mat.congr ?_⟩
    intro i j _ _
    rw [maskAt_congr (L := L) (L' := c.at t) hu hpos rfl rfl]
    simp [Flt.zero, Flt.one, show (c.at t).dropout = L.dropout from rfl]
  · have := key (fun t => preact (c.at t) (c.Xt t)) c.Z' (fun i j hi hj => c.hZ hi hj) (fun i j hi hj => c.Z0 hi hj)
    rw [c.pair_eq] at this
    refine this.congr_of_eventuallyEq (Filter.Eventually.of_forall fun t => ?_)
    refine Finset.sum_congr rfl fun i _ => Finset.sum_congr rfl fun j _ => ?_
    simp only [actRow, Flt.zero, real_max, real_ofInt, Int.cast_zero]
    field_simp

/-- Missing: Dropout > 0, for which it is false. -/
theorem C39_exact_partial (L : LayerSpec ℝ) (hk : L.kind = .dropout) (h : L.dropout = 0) : DropoutClaim L 1 := by
  have := C39_scaled L hk (by rw [h]; norm_num)
  rwa [h, sub_zero] at this

theorem ComputesAt.unique {u : Nat → ℝ} {p : Nat} {L : LayerSpec ℝ} {r : Nat} {X F G : Nat → Nat → ℝ} (hn : 0 < L.n)
    (ho : 0 < L.o) (hr : 0 < r) (hF : ComputesAt u p L r X F) (hG : ComputesAt u p L r X G) {i j : Nat} (hi : i < r)
    (hj : j < L.o) : F i j = G i j := by
  obtain ⟨w, lp, wm, bm, x, hL, -, hX, -⟩ := exists_layer L hn ho hr X
  let w' : World ℝ := { w with unif := u, unifPos := p }
  have hX' : ∀ {m r c A}, IsMat w m r c A → IsMat w' m r c A := fun h =>
    ⟨h.rows, h.cols, h.len, h.rpos, h.cpos, h.addr_lt, h.row⟩
  have hL' : IsLayer w' lp wm bm L :=
    ⟨hL.lt, hL.kind, hL.ins, hL.outs, hL.weights, hL.biases, hL.slope, hL.dropout, hX' hL.wmat, hX' hL.bmat⟩
  obtain ⟨q, w'', -, ⟨-, h1⟩, -, h2⟩ := wp_iff.1 (wp_and (hF w' lp wm bm x rfl rfl hL' (hX' hX))
    (hG w' lp wm bm x rfl rfl hL' (hX' hX)))
  exact h1.entries_unique h2 hi hj

theorem SampledGrad.pair_unique {u : Nat → ℝ} {p : Nat} {L : LayerSpec ℝ} {r : Nat} {X D D' dW dX dW' dX' : Nat → Nat → ℝ}
    {dB dB' : Nat → ℝ} {s : ℝ} (hn : 0 < L.n) (ho : 0 < L.o) (hr : 0 < r) (h : SampledGrad u p L r X D dW dB dX)
    (h' : SampledGrad u p L r X D' dW' dB' dX') (hD : ∀ i j, i < r → j < L.o → D' i j = s * D i j) (c : Curve L r X) :
    s * c.pair dW dB dX = c.pair dW' dB' dX' := by
  obtain ⟨F, hF, dF⟩ := h c
  obtain ⟨G, hG, dG⟩ := h' c
  refine HasDerivAt.unique (dF.const_mul s) (dG.congr_of_eventuallyEq (Filter.Eventually.of_forall fun t => ?_))
  dsimp only
  rw [Finset.mul_sum]
  refine Finset.sum_congr rfl fun i hi => ?_
  rw [Finset.mul_sum]
  refine Finset.sum_congr rfl fun j hj => ?_
  rw [ComputesAt.unique (L := c.at t) hn ho hr (hF t) (hG t) (mem_range.1 hi) (mem_range.1 hj),
    hD i j (mem_range.1 hi) (mem_range.1 hj), mul_assoc]

/-- After every forward pass of a dropout layer the hypotheses of `DropoutClaim` are satisfiable. -/
theorem exists_after_dropout {w : World ℝ} {lp : Nat} {wm bm x : Mat} {L : LayerSpec ℝ} {r : Nat} {X : Nat → Nat → ℝ}
    (hk : L.kind = .dropout) (hL : IsLayer w lp wm bm L) (hown : OwnParams w wm bm L.n) (hX : IsMat w x r L.n X)
    (hxd : DistinctRows w x r) (hpx : ∀ a, w.IsParam wm bm L.n a → ¬ w.IsRow x r a) (D : Nat → Nat → ℝ) :
    wp (layerForward lp x) w (fun p w1 => ∃ w2 d, Intact w1 w2 lp p.1 r L.o ∧
      (∀ M, IsMat w1 (w1.lay lp).binaryMask r L.o M → IsMat w2 (w2.lay lp).binaryMask r L.o M) ∧
      Stage w2 lp wm bm x d L r X D ∧ (∀ a, w2.IsRow p.1 r a → ¬ w2.IsRow d r a) ∧
      (∀ a, w2.IsRow (w2.lay lp).binaryMask r a → ¬ w2.IsRow d r a)) := by
  unfold layerForward
  refine wp_bind_ok rfl ?_
  rw [hL.kind, hk]
  refine wp_mono (dropoutForward_spec hL hX) ?_
  rintro ⟨out, e⟩ w1 ⟨he, mask, hd⟩
  obtain ⟨w2, d, i1, i2, i3, i4, i5⟩ := exists_after hL hown hX hxd hpx hd.res hd.frame (by rw [hd.mem]; rfl) D
  have hmi : (w1.lay lp).binaryMask = mask := by rw [hd.mem]
  refine ⟨w2, d, i1, ?_, i2, i3, ?_⟩
  · intro M hM
    rw [i1.lay]
    exact hM.allocs i4
  · intro a h h'
    rw [i1.lay, hmi] at h
    have := hd.bits.mat.isRow_lt ((hd.bits.mat.isRow_frame i4 (fun h => h) a).1 h)
    have := i5 a h'
    omega

theorem C39_false : ¬ C39_claim := by
  intro h
  let L : LayerSpec ℝ := ⟨.dropout, 1, 1, fun _ _ => 1, fun _ => 0, 0, 1 / 2⟩
  let X : Nat → Nat → ℝ := fun _ _ => 1
  let D : Nat → Nat → ℝ := fun _ _ => 1
  obtain ⟨w0, lp, wm, bm, x, h1, h2, h3, h4, h5⟩ := exists_layer L (by simp [L]) (by simp [L]) (r := 1) (by simp) X
  let w : World ℝ := { w0 with unif := fun _ => 0 }
  have g1 : IsLayer w lp wm bm L := h1.withUnif _
  have g3 : IsMat w x 1 L.n X := h3.withUnif _
  have hz : ∀ i j, i < 1 → j < L.o → (∑ k ∈ range L.n, X i k * L.W k j) + L.b j ≠ 0 := by
    intro i j _ _; simp [L, X]
  have c1 := h L rfl (by norm_num [L]) (by norm_num [L]) w lp wm bm x 1 X g1 g3 hz
  have c2 := C39_scaled L rfl (by norm_num [L]) w lp wm bm x 1 X g1 g3 hz
  obtain ⟨p, w1, -, ⟨⟨-, c1⟩, -, c2⟩, ⟨-, c3⟩, w2, d, j1, j2, j3, j4, j5⟩ := wp_iff.1 (wp_and (wp_and c1 c2)
    (wp_and (dropout_run rfl g1 g3) (exists_after_dropout rfl g1 ⟨h2.distinct, h2.disjoint, h2.outer⟩ g3 h4 h5 D)))
  obtain ⟨g, w3, -, ⟨⟨⟨-, dW, dB, dX, -, b1, -, e1⟩, -⟩, ⟨-, dW', dB', dX', -, b2, -, e2⟩, -⟩, c3, -⟩ := wp_iff.1
    (wp_and (wp_and (c1 w2 d D j1 j2 j3 j4 j5) (c2 w2 d D j1 j2 j3 j4 j5)) (c3 w2 d D j1 j2 j3 j4 j5))
  have k1 := b1.entries_unique c3.db.mat (i := 0) (j := 0) (by simp) (by simp [L])
  have k2 := b2.entries_unique c3.db.mat (i := 0) (j := 0) (by simp) (by simp [L])
  have k3 := SampledGrad.pair_unique (s := 1 / 2) (by simp [L]) (by simp [L]) (by simp) e1 e2
    (by intro i j _ _; simp only [L]; ring) (Curve.moveB L 1 X 0)
  have hm : maskAt w L 0 0 = 1 := by
    unfold maskAt
    have := bern_real (1 / 2) 0
    simp only [w, L, Flt.one, real_ofInt, Int.cast_one, real_sub]
    rw [this, Set.indicator_of_mem]
    unfold keptDraws
    rw [if_neg (by norm_num)]
    show (0 : ℝ) < 1 - 1 / 2
    norm_num
  have hv : dB 0 = 1 := by
    rw [k1]
    simp only [fsum_real, Finset.sum_range_one, hm, preact_real, L, X, D]
    norm_num [Flt.zero, Flt.one]
  have hv' : dB' 0 = 1 := by rw [k2, ← k1, hv]
  simp [Curve.pair, Curve.moveB, L, hv, hv'] at k3

/-- a dropout layer with Dropout 1/4 (and one with 0): the hypotheses hold before and after the forward pass -/
example (p : ℝ) (D : Nat → Nat → ℝ) : ∃ w : World ℝ, ∃ lp wm bm x, ∃ L : LayerSpec ℝ, L.kind = .dropout ∧ L.dropout = p ∧
    IsLayer w lp wm bm L ∧ IsMat w x 4 L.n (fun i _ => (i : ℝ)) ∧
    (∀ i j : Nat, i < 4 → j < L.o → (∑ k ∈ range L.n, (i : ℝ) * L.W k j) + L.b j ≠ 0) ∧
    wp (layerForward lp x) w (fun p w1 => ∃ w2 d, Intact w1 w2 lp p.1 4 L.o ∧
      (∀ M, IsMat w1 (w1.lay lp).binaryMask 4 L.o M → IsMat w2 (w2.lay lp).binaryMask 4 L.o M) ∧
      Stage w2 lp wm bm x d L 4 (fun i _ => (i : ℝ)) D ∧ (∀ a, w2.IsRow p.1 4 a → ¬ w2.IsRow d 4 a) ∧
      (∀ a, w2.IsRow (w2.lay lp).binaryMask 4 a → ¬ w2.IsRow d 4 a)) := by
  obtain ⟨w, lp, wm, bm, x, h1, h2, h3, h4, h5⟩ := exists_layer
    (⟨.dropout, 3, 2, fun _ _ => 1, fun j => 1 + j, 0, p⟩ : LayerSpec ℝ) (by simp) (by simp) (r := 4) (by simp)
    (fun i _ => (i : ℝ))
  refine ⟨w, lp, wm, bm, x, _, rfl, rfl, h1, h3, ?_, exists_after_dropout rfl h1 h2 h3 h4 h5 D⟩
  intro i j _ _
  simp only [mul_one, Finset.sum_const, card_range, nsmul_eq_mul]
  have h1 : (0 : ℝ) ≤ (3 : ℕ) * (i : ℝ) := mul_nonneg (Nat.cast_nonneg _) (Nat.cast_nonneg _)
  have h2 : (0 : ℝ) < 1 + (j : ℝ) := add_pos_of_pos_of_nonneg one_pos (Nat.cast_nonneg _)
  exact (add_pos_of_nonneg_of_pos h1 h2).ne'

end NN
