import Verif.Props.C71
import Verif.Real.NetGrad
import Verif.Lemmas.HeProb
import Verif.Props.C41_C45
import Verif.Spec.PlaceFit
/- C150: what InitLayers is for: with independent standard normal draws, the signal keeps its strength from layer to layer, and
no two weights are equal. -/

set_option linter.unusedSectionVars false

namespace NN
open Go Finset MeasureTheory ProbabilityTheory

/-! ## Specification -/

/-- A source of independent draws with law ν on the probability space Ω. -/
structure DrawSource {Ω : Type} [MeasurableSpace Ω] (μ : Measure Ω) (ν : Measure ℝ) (U : Nat → Ω → ℝ) : Prop where
  meas : ∀ k, Measurable (U k)
  law : ∀ k, μ.map (U k) = ν
  indep : iIndepFun U μ

/-- By how much a freshly initialised layer multiplies the mean square of the signal: rectified layers keep it, linear layers
double it, leaky layers are in between. -/
noncomputable def gain (L : LayerSpec ℝ) : ℝ :=
  match L.kind with
  | .linear => 2
  | .leaky => 1 + L.slope ^ 2
  | _ => 1

/-- The mean square of n numbers. -/
noncomputable def meanSq (n : Nat) (v : Nat → ℝ) : ℝ := (∑ j ∈ range n, v j ^ 2) / n

/-- InitLayers and then a forward pass in inference mode. -/
noncomputable def initAndForward (m : Model ℝ) (x : Mat) : Go ℝ (List Mat × Option Err) := do
  initLayers m
  modelForward m x false

/-! ## One activation -/

/-- The activation of a layer that is neither sigmoid nor softmax. -/
noncomputable def heAct (L : LayerSpec ℝ) (z : ℝ) : ℝ :=
  match L.kind with
  | .linear => z
  | .leaky => if z < 0 then z * L.slope else z
  | _ => max z 0

theorem heAct_meas (L : LayerSpec ℝ) : Measurable (heAct L) := by
  unfold heAct
  cases L.kind <;> dsimp only
  case linear => exact measurable_id
  case leaky => exact Measurable.ite measurableSet_Iio (by fun_prop) (by fun_prop)
  all_goals exact measurable_id.max measurable_const

theorem heAct_sq (L : LayerSpec ℝ) (z : ℝ) : heAct L z ^ 2 + heAct L (-z) ^ 2 = gain L * z ^ 2 := by
  unfold heAct gain
  have hmax : max z 0 ^ 2 + max (-z) 0 ^ 2 = 1 * z ^ 2 := by
    rcases le_total z 0 with h | h
    · rw [max_eq_right h, max_eq_left (by linarith)]; ring
    · rw [max_eq_left h, max_eq_right (by linarith)]; ring
  cases L.kind <;> dsimp only
  case linear => ring
  case leaky =>
    rcases lt_trichotomy z 0 with h | h | h
    · rw [if_pos h, if_neg (by linarith)]; ring
    · subst h; simp
    · rw [if_neg (by linarith), if_pos (by linarith)]; ring
  all_goals exact hmax

theorem infer_actFn {L : LayerSpec ℝ} (h1 : L.kind ≠ .sigmoid) (h2 : L.kind ≠ .softmax) (hb : ∀ j, j < L.o → L.b j = 0)
    (X : Nat → Nat → ℝ) (i : Nat) {j : Nat} (hj : j < L.o) : infer L X i j = heAct L (∑ k ∈ range L.n, X i k * L.W k j) := by
  have hp : preact L X i j = ∑ k ∈ range L.n, X i k * L.W k j := by
    unfold preact
    rw [fsum_real, hb j hj]
    simp
  unfold infer heAct actRow
  rw [hp]
  cases hk : L.kind <;> dsimp only
  case sigmoid => exact absurd hk h1
  case softmax => exact absurd hk h2
  case leaky => simp [Flt.zero]
  all_goals simp [Flt.zero]

/-! ## The layers of a freshly initialised model as functions of the draws -/

/-- The inputs of layer q (the outputs of layer q - 1) for row i, as a function of the draws. -/
noncomputable def fresh (net : Net ℝ) (X : Nat → Nat → ℝ) (i q k : Nat) (d : ℕ → ℝ) : ℝ := netOut (initNet net d net.size) X q i k

theorem fresh_succ {net : Net ℝ} (X : Nat → Nat → ℝ) (i : Nat) {q : Nat} (hq : q < net.size) (h1 : (net.L q).kind ≠ .sigmoid)
    (h2 : (net.L q).kind ≠ .softmax) (hb : ∀ j, j < (net.L q).o → (net.L q).b j = 0) {j : Nat} (hj : j < (net.L q).o)
    (d : ℕ → ℝ) :
    fresh net X i (q + 1) j d = heAct (net.L q) (∑ k ∈ range (net.L q).n,
      fresh net X i q k d * (d (initDraws net q + k * (net.L q).o + j) * √(2 / (net.L q).n))) := by
  unfold fresh
  show infer ((initNet net d net.size).L q) _ i j = _
  have hL : (initNet net d net.size).L q = { net.L q with W := drawnW net d q } := by
    unfold initNet
    dsimp only
    rw [if_pos hq]
  rw [hL, infer_actFn (by exact h1) (by exact h2) (by exact hb) _ _ (by exact hj)]
  show heAct { net.L q with W := drawnW net d q } (∑ k ∈ range (net.L q).n, _ * drawnW net d q k j) = _
  have e : heAct { net.L q with W := drawnW net d q } = heAct (net.L q) := rfl
  rw [e]
  refine congrArg _ (Finset.sum_congr rfl fun k _ => ?_)
  unfold drawnW
  simp

theorem initDraws_mono (net : Net ℝ) (q : Nat) : initDraws net q ≤ initDraws net (q + 1) := Nat.le_add_right _ _

/-- The mean square of the signal after q freshly initialised layers. -/
theorem fresh_meanSq {ν : Measure ℝ} [IsProbabilityMeasure ν] (hν : UnitLaw ν) {net : Net ℝ}
    (hins : ∀ q, q < net.size → (net.L q).n = net.dim q) (houts : ∀ q, q < net.size → (net.L q).o = net.dim (q + 1))
    (hp : ∀ q, q < net.size → 0 < (net.L q).n ∧ 0 < (net.L q).o)
    (hk : ∀ q, q < net.size → (net.L q).kind ≠ .sigmoid ∧ (net.L q).kind ≠ .softmax)
    (hb : ∀ q, q < net.size → ∀ j, j < (net.L q).o → (net.L q).b j = 0) (X : Nat → Nat → ℝ) (i : Nat) (q : Nat) (hq : q ≤ net.size) :
    (∀ k, k < net.dim q → Measurable (fresh net X i q k) ∧ OnFirst (initDraws net q) (fresh net X i q k) ∧
      Integrable (fun d => fresh net X i q k d ^ 2) (seqLaw ν)) ∧
    (∑ k ∈ range (net.dim q), ∫ d, fresh net X i q k d ^ 2 ∂(seqLaw ν)) / net.dim q =
      (∏ p ∈ range q, gain (net.L p)) * meanSq (net.dim 0) (X i) := by
  induction q with
  | zero =>
    have e : ∀ k, fresh net X i 0 k = fun _ => X i k := fun k => rfl
    refine ⟨fun k _ => ?_, ?_⟩
    · rw [e]
      exact ⟨measurable_const, fun _ _ _ => rfl, integrable_const _⟩
    · simp only [e]
      simp [meanSq]
  | succ q ih =>
    obtain ⟨h1, h2⟩ := ih (by omega)
    have hq' : q < net.size := by omega
    obtain ⟨hn, ho⟩ := hp q hq'
    rw [← hins q hq'] at h1 h2
    rw [← houts q hq']
    have e : ∀ j, j < (net.L q).o → fresh net X i (q + 1) j = fun d => heAct (net.L q) (∑ k ∈ range (net.L q).n,
        fresh net X i q k d * (d (initDraws net q + k * (net.L q).o + j) * √(2 / (net.L q).n))) := fun j hj =>
      funext fun d => fresh_succ X i hq' (hk q hq').1 (hk q hq').2 (hb q hq') hj d
    have a : ∀ j, j < (net.L q).o → _ := fun j _ => act_sq hν (N := initDraws net q) (n := (net.L q).n) (a := fresh net X i q)
      (fun k => initDraws net q + k * (net.L q).o + j) (fun k _ => by show _ ≤ initDraws net q + k * _ + j; omega)
      (fun k l _ _ h => by
        have h : initDraws net q + k * (net.L q).o + j = initDraws net q + l * (net.L q).o + j := h
        exact Nat.eq_of_mul_eq_mul_right ho (by omega))
      (fun k hk => (h1 k hk).1) (fun k hk => (h1 k hk).2.1) (fun k hk => (h1 k hk).2.2) (√(2 / (net.L q).n))
      (heAct_meas (net.L q)) (heAct_sq (net.L q))
    refine ⟨fun j hj => ⟨?_, ?_, ?_⟩, ?_⟩
    · rw [e j hj]
      refine (heAct_meas _).comp (Finset.measurable_fun_sum _ fun k hk => ?_)
      exact (h1 k (Finset.mem_range.1 hk)).1.mul ((measurable_pi_apply _).mul_const _)
    · rw [e j hj]
      intro d d' hd
      refine congrArg _ (Finset.sum_congr rfl fun k hk => ?_)
      have hk' := Finset.mem_range.1 hk
      rw [(h1 k hk').2.1 d d' (fun p hp => hd p (lt_of_lt_of_le hp (initDraws_mono net q))), hd]
      show initDraws net q + k * (net.L q).o + j < initDraws net q + (net.L q).n * (net.L q).o
      have : (k + 1) * (net.L q).o ≤ (net.L q).n * (net.L q).o := Nat.mul_le_mul_right _ hk'
      rw [Nat.add_mul, Nat.one_mul] at this
      omega
    · rw [e j hj]
      exact (a j hj).1
    · have hs : √(2 / ((net.L q).n : ℝ)) ^ 2 = 2 / (net.L q).n := Real.sq_sqrt (by positivity)
      rw [Finset.sum_congr rfl fun j hj => by rw [e j (Finset.mem_range.1 hj), (a j (Finset.mem_range.1 hj)).2], hs,
        Finset.sum_const, Finset.card_range, Finset.prod_range_succ, nsmul_eq_mul]
      have hn' : ((net.L q).n : ℝ) ≠ 0 := by positivity
      have ho' : ((net.L q).o : ℝ) ≠ 0 := by positivity
      rw [mul_right_comm (∏ p ∈ range q, gain (net.L p)), ← h2]
      field_simp

theorem fresh_integrable {ν : Measure ℝ} [IsProbabilityMeasure ν] (hν : UnitLaw ν) {net : Net ℝ}
    (hins : ∀ q, q < net.size → (net.L q).n = net.dim q) (houts : ∀ q, q < net.size → (net.L q).o = net.dim (q + 1))
    (hp : ∀ q, q < net.size → 0 < (net.L q).n ∧ 0 < (net.L q).o)
    (hk : ∀ q, q < net.size → (net.L q).kind ≠ .sigmoid ∧ (net.L q).kind ≠ .softmax)
    (hb : ∀ q, q < net.size → ∀ j, j < (net.L q).o → (net.L q).b j = 0) (X : Nat → Nat → ℝ) (i : Nat) (q : Nat) (hq : q ≤ net.size) :
    Measurable (fun d => meanSq (net.dim q) fun k => fresh net X i q k d) ∧
    Integrable (fun d => meanSq (net.dim q) fun k => fresh net X i q k d) (seqLaw ν) ∧
    ∫ d, meanSq (net.dim q) (fun k => fresh net X i q k d) ∂(seqLaw ν) =
      (∏ p ∈ range q, gain (net.L p)) * meanSq (net.dim 0) (X i) := by
  obtain ⟨h1, h2⟩ := fresh_meanSq hν hins houts hp hk hb X i q hq
  rw [← h2]
  unfold meanSq
  refine ⟨?_, ?_, ?_⟩
  · exact (Finset.measurable_fun_sum _ fun k hk => ((h1 k (Finset.mem_range.1 hk)).1.pow_const 2)).div_const _
  · exact (integrable_finsetSum _ fun k hk => (h1 k (Finset.mem_range.1 hk)).2.2).div_const _
  · rw [integral_div, integral_finsetSum _ fun k hk => (h1 k (Finset.mem_range.1 hk)).2.2]

/-! ## From the space of sequences of draws to any source of draws -/

theorem DrawSource.joint {Ω : Type} [MeasurableSpace Ω] {μ : Measure Ω} {ν : Measure ℝ} [IsProbabilityMeasure ν]
    {U : Nat → Ω → ℝ} (hU : DrawSource μ ν U) : μ.map (fun ω k => U k ω) = seqLaw ν := by
  rw [hU.indep.map_fun_eq_infinitePi_map hU.meas]
  unfold seqLaw
  congr 1
  funext k
  exact hU.law k

theorem DrawSource.measurable {Ω : Type} [MeasurableSpace Ω] {μ : Measure Ω} {ν : Measure ℝ}
    {U : Nat → Ω → ℝ} (hU : DrawSource μ ν U) : Measurable (fun ω k => U k ω) := measurable_pi_lambda _ hU.meas

/-! ## The sign of a pre-activation -/

theorem sum_ne_zero {ν : Measure ℝ} [IsProbabilityMeasure ν] [NullSingletonClass ν] (x : ℕ → ℝ) {pos : ℕ → ℕ} (hpos : StrictMono pos)
    (n : ℕ) (hx : ∃ k, k < n ∧ x k ≠ 0) : ∀ᵐ d ∂(seqLaw ν), ∑ k ∈ range n, x k * d (pos k) ≠ 0 := by
  induction n with
  | zero => obtain ⟨k, hk, -⟩ := hx; omega
  | succ n ih =>
    simp only [Finset.sum_range_succ]
    by_cases hn : x n = 0
    · have : ∃ k, k < n ∧ x k ≠ 0 := by
        obtain ⟨k, hk, hne⟩ := hx
        rcases Nat.lt_succ_iff_lt_or_eq.1 hk with h | h
        · exact ⟨k, h, hne⟩
        · exact absurd (h ▸ hn) hne
      simpa [hn] using ih this
    · have hm : Measurable fun d : ℕ → ℝ => ∑ k ∈ range n, x k * d (pos k) :=
        Finset.measurable_fun_sum _ fun k _ => (measurable_pi_apply _).const_mul _
      have ho : OnFirst (pos n) fun d : ℕ → ℝ => ∑ k ∈ range n, x k * d (pos k) := fun d e h =>
        Finset.sum_congr rfl fun k hk => by rw [h _ (hpos (Finset.mem_range.1 hk))]
      have hψ : Measurable fun t : ({pos n} : Finset ℕ) → ℝ => t ⟨pos n, by simp⟩ := by fun_prop
      have hi := (indep_later (ν := ν) hm ho {pos n} (by simp)).comp (φ := id) measurable_id hψ
      exact no_cancel hm hi hn

/-- A sum of fresh draws, not all with factor 0, is positive with probability one half. -/
theorem half_pos {ν : Measure ℝ} [IsProbabilityMeasure ν] [NullSingletonClass ν] (hν : UnitLaw ν) (x : ℕ → ℝ) {pos : ℕ → ℕ}
    (hpos : StrictMono pos) (n : ℕ) (hx : ∃ k, k < n ∧ x k ≠ 0) :
    seqLaw ν {d | 0 < ∑ k ∈ range n, x k * d (pos k)} = 1 / 2 := by
  have hm : Measurable fun d : ℕ → ℝ => ∑ k ∈ range n, x k * d (pos k) :=
    Finset.measurable_fun_sum _ fun k _ => (measurable_pi_apply _).const_mul _
  have s1 : MeasurableSet {d : ℕ → ℝ | 0 < ∑ k ∈ range n, x k * d (pos k)} := measurableSet_lt measurable_const hm
  have s2 : MeasurableSet {d : ℕ → ℝ | ∑ k ∈ range n, x k * d (pos k) < 0} := measurableSet_lt hm measurable_const
  have h1 : seqLaw ν {d | ∑ k ∈ range n, x k * d (pos k) < 0} = seqLaw ν {d | 0 < ∑ k ∈ range n, x k * d (pos k)} := by
    conv_lhs => rw [← map_flip hν (fun _ => True), Measure.map_apply (measurable_flip _) s2]
    congr 1
    ext d
    simp only [Set.mem_preimage, Set.mem_ofPred_eq]
    have : ∑ k ∈ range n, x k * flip (fun _ => True) d (pos k) = -∑ k ∈ range n, x k * d (pos k) := by
      rw [← Finset.sum_neg_distrib]
      exact Finset.sum_congr rfl fun k _ => by unfold flip; rw [if_pos trivial]; ring
    rw [this]
    constructor <;> intro h <;> linarith
  have h2 : seqLaw ν ({d | 0 < ∑ k ∈ range n, x k * d (pos k)} ∪ {d | ∑ k ∈ range n, x k * d (pos k) < 0}) = 1 := by
    rw [← mem_ae_iff_prob_eq_one (s1.union s2)]
    filter_upwards [sum_ne_zero x hpos n hx] with d hd
    rcases lt_or_gt_of_ne hd with h | h
    · exact Or.inr h
    · exact Or.inl h
  have hdis : Disjoint {d : ℕ → ℝ | 0 < ∑ k ∈ range n, x k * d (pos k)} {d | ∑ k ∈ range n, x k * d (pos k) < 0} :=
    Set.disjoint_left.2 fun d a b => lt_asymm (show 0 < ∑ k ∈ range n, x k * d (pos k) from a) b
  rw [measure_union hdis s2, h1, ← two_mul] at h2
  rw [ENNReal.eq_div_iff (by norm_num) (by norm_num)]
  exact h2

theorem draws_distinct {ν : Measure ℝ} [IsProbabilityMeasure ν] [NullSingletonClass ν] :
    ∀ᵐ d ∂(seqLaw ν), ∀ a b, d a ≠ 0 ∧ (a ≠ b → d a ≠ d b) := by
  rw [ae_all_iff]; intro a
  rw [ae_all_iff]; intro b
  have h0 : ∀ᵐ d ∂(seqLaw ν), d a ≠ 0 := by
    have := no_cancel (ν := ν) (R := fun _ => 0) measurable_const (i := a) (indepFun_const_left 0 _) (c := 1) one_ne_zero
    simpa using this
  by_cases hab : a = b
  · filter_upwards [h0] with d hd
    exact ⟨hd, fun h => absurd hab h⟩
  · have h1 := no_cancel (ν := ν) (R := fun d => d a) (measurable_pi_apply a) (i := b) (indep_eval.indepFun hab) (c := -1) (by norm_num)
    filter_upwards [h0, h1] with d hd hd'
    exact ⟨hd, fun _ e => hd' (by rw [e]; ring)⟩

/-! ## The theorems -/

section Main
variable {Ω : Type} [MeasurableSpace Ω] {μ : Measure Ω} {ν : Measure ℝ} [IsProbabilityMeasure ν] {U : Nat → Ω → ℝ}
  {w : Ω → World ℝ} {m : Model ℝ} {net : Net ℝ}

attribute [local irreducible] wp

/-- What InitLayers and a forward pass compute. -/
theorem initAndForward_spec {w : World ℝ} {d : ℕ → ℝ} (hN : IsNet w m net) (hO : OwnNet w net) {x : Mat} {r : Nat}
    {X : Nat → Nat → ℝ} (hX : IsData w net x r (net.dim 0) X) (hd : ∀ k, w.norm (w.normPos + k) = d k) :
    wp (initAndForward m x) w (fun p w' => p.2 = none ∧ ∀ q, q ≤ net.size → ∃ out, p.1[q]? = some out ∧
      IsMat w' out r (net.dim q) (fun i k => fresh net X i q k d)) := by
  unfold initAndForward
  refine wp_bind_mono (initLayers_spec hN hO) ?_
  intro _ w1 h
  have hd' : (fun q => w.norm (w.normPos + q)) = d := funext hd
  have h1 := h.isNet
  rw [hd'] at h1
  have hx : IsMat w1 x r (net.dim 0) X := by
    refine hX.mat.frame h.frame (fun h => h) ?_
    rintro a ha ⟨q, hq, hr⟩
    exact hX.sep a ⟨q, hq, Or.inl hr⟩ ha
  refine wp_mono (modelForward_spec h1 hx false) ?_
  rintro p w' ⟨o, mask, V, M, h2, h3, h4, h5, h6⟩
  have hv : ∀ k, k ≤ net.size → V k = netOut (initNet net d net.size) X k := by
    intro k
    induction k with
    | zero => intro _; exact h5
    | succ k ih => intro hk'; rw [h6.val k (by exact hk') (fun h => absurd h.1 (by decide)), ih (by omega)]; rfl
  refine ⟨h3, fun q hq => ⟨o q, ?_, ?_⟩⟩
  · rw [h2, List.getElem?_map, List.getElem?_range (by exact Nat.lt_succ_of_le hq)]
    rfl
  · show IsMat w' (o q) r (net.dim q) (netOut (initNet net d net.size) X q)
    rw [← hv q hq]
    rcases Nat.eq_zero_or_pos q with h0 | h0
    · subst h0
      rw [h4, h5]
      exact hx.frame h6.frame (fun h => h) (fun _ _ h => h)
    · have := (h6.res (q - 1) (by show _ < net.size; omega)).mat
      rwa [Nat.sub_add_cancel h0] at this

/-- C150: InitLayers on a model with zero biases, with independent draws from the standard normal law (or any symmetric law of
variance 1), and then a forward pass in inference mode: after every layer the expected mean square of the signal is that of the
input times the gains of the layers passed, 1 for hidden and dropout layers, 2 for linear ones, 1 + Slope² for leaky ones. -/
theorem C150_signal (hν : UnitLaw ν) (hU : DrawSource μ ν U) (hN : ∀ ω, IsNet (w ω) m net) (hO : ∀ ω, OwnNet (w ω) net) {x : Mat}
    {r : Nat} {X : Nat → Nat → ℝ} (hX : ∀ ω, IsData (w ω) net x r (net.dim 0) X)
    (hd : ∀ ω k, (w ω).norm ((w ω).normPos + k) = U k ω)
    (hb : ∀ q, q < net.size → ∀ j, j < (net.L q).o → (net.L q).b j = 0)
    (hk : ∀ q, q < net.size → (net.L q).kind ≠ .sigmoid ∧ (net.L q).kind ≠ .softmax) :
    ∃ F : Ω → Nat → Nat → Nat → ℝ,
      (∀ ω, wp (initAndForward m x) (w ω) (fun p w' => p.2 = none ∧ ∀ q, q ≤ net.size → ∃ out, p.1[q]? = some out ∧
        IsMat w' out r (net.dim q) (F ω q))) ∧
      ∀ q, q ≤ net.size → ∀ i, Integrable (fun ω => meanSq (net.dim q) (F ω q i)) μ ∧
        ∫ ω, meanSq (net.dim q) (F ω q i) ∂μ = (∏ p ∈ range q, gain (net.L p)) * meanSq (net.dim 0) (X i) := by
  refine ⟨fun ω q i k => fresh net X i q k (fun k => U k ω), fun ω => initAndForward_spec (hN ω) (hO ω) (hX ω) (hd ω), ?_⟩
  intro q hq i
  rcases isEmpty_or_nonempty Ω with hE | ⟨⟨ω⟩⟩
  · have := hU.joint
    have h0 : μ = 0 := Measure.eq_zero_of_isEmpty μ
    rw [h0, Measure.map_zero] at this
    exact absurd this.symm (IsProbabilityMeasure.ne_zero _)
  obtain ⟨h1, h2, h3⟩ := fresh_integrable hν (hN ω).ins (hN ω).outs
    (fun q hq => ⟨((hN ω).lay q hq).wmat.rpos, ((hN ω).lay q hq).wmat.cpos⟩) hk hb X i q hq
  rw [← hU.joint] at h2 h3
  rw [integral_map hU.measurable.aemeasurable h1.aestronglyMeasurable] at h3
  exact ⟨h2.comp_measurable hU.measurable, h3⟩

/-- C150: with such draws from a law without atoms, the weights of a layer that InitLayers has set are almost surely all different
from each other and from 0, so that no two inputs, units or outputs are alike. -/
theorem C150_distinct [NullSingletonClass ν] (hU : DrawSource μ ν U) (hN : ∀ ω, IsNet (w ω) m net) (hO : ∀ ω, OwnNet (w ω) net)
    (hd : ∀ ω k, (w ω).norm ((w ω).normPos + k) = U k ω) :
    ∀ᵐ ω ∂μ, wp (initLayers m) (w ω) (fun _ w' => ∃ net', IsNet w' m net' ∧ OwnNet w' net' ∧ SameShape net net' ∧
      ∀ q, q < net.size → ∀ i j, i < (net.L q).n → j < (net.L q).o → (net'.L q).W i j ≠ 0 ∧
        ∀ i' j', i' < (net.L q).n → j' < (net.L q).o → (i, j) ≠ (i', j') → (net'.L q).W i j ≠ (net'.L q).W i' j') := by
  have h := draws_distinct (ν := ν)
  rw [← hU.joint] at h
  filter_upwards [ae_of_ae_map hU.measurable.aemeasurable h] with ω hω
  refine wp_mono (initLayers_spec (hN ω) (hO ω)) ?_
  intro _ w1 h
  have hd' : (fun q => (w ω).norm ((w ω).normPos + q)) = fun k => U k ω := funext (hd ω)
  have h1 := h.isNet
  have h2 := h.own
  rw [hd'] at h1 h2
  refine ⟨_, h1, h2, initNet_same _ _ _, fun q hq i j hi hj => ?_⟩
  have hL : (initNet net (fun k => U k ω) net.size).L q = { net.L q with W := drawnW net (fun k => U k ω) q } := by
    unfold initNet
    dsimp only
    rw [if_pos hq]
  rw [hL]
  show drawnW net (fun k => U k ω) q i j ≠ 0 ∧ ∀ i' j', i' < (net.L q).n → j' < (net.L q).o → (i, j) ≠ (i', j') →
    drawnW net (fun k => U k ω) q i j ≠ drawnW net (fun k => U k ω) q i' j'
  unfold drawnW
  have hn : 0 < (net.L q).n := by omega
  have hs : (Flt.sqrt (Flt.ofInt 2 /. Flt.ofInt (net.L q).n) : ℝ) ≠ 0 := by
    simp only [real_sqrt, real_div, real_ofInt]
    have : (0 : ℝ) < ((net.L q).n : Int) := by exact_mod_cast hn
    positivity
  refine ⟨mul_ne_zero (hω _ 0).1 hs, fun i' j' hi' hj' hne e => ?_⟩
  refine (hω (initDraws net q + i * (net.L q).o + j) (initDraws net q + i' * (net.L q).o + j')).2 ?_ (mul_right_cancel₀ hs e)
  intro h
  have h' : i * (net.L q).o + j = i' * (net.L q).o + j' := by omega
  have ho : 0 < (net.L q).o := by omega
  have e1 : i = i' := by
    have := congrArg (· / (net.L q).o) h'
    simpa [Nat.mul_comm _ (net.L q).o, Nat.mul_add_div ho, Nat.div_eq_of_lt hj, Nat.div_eq_of_lt hj'] using this
  subst e1
  exact hne (by rw [show j = j' by omega])

theorem heAct_pos {L : LayerSpec ℝ} (h : L.kind = .leaky → 0 ≤ L.slope) (z : ℝ) : 0 < heAct L z ↔ 0 < z := by
  unfold heAct
  cases hk : L.kind <;> dsimp only
  case leaky =>
    have hs := h hk
    split
    · rename_i hz
      constructor
      · intro h; exact absurd (mul_nonpos_of_nonpos_of_nonneg hz.le hs) (by linarith)
      · intro h; linarith
    · rfl
  all_goals simp

/-- C150: in the first layer after InitLayers, for an input row that is not all zero, every unit is active (its output positive)
with probability one half. -/
theorem C150_half [NullSingletonClass ν] (hν : UnitLaw ν) (hU : DrawSource μ ν U) (hN : ∀ ω, IsNet (w ω) m net)
    (hO : ∀ ω, OwnNet (w ω) net) {x : Mat} {r : Nat} {X : Nat → Nat → ℝ} (hX : ∀ ω, IsData (w ω) net x r (net.dim 0) X)
    (hd : ∀ ω k, (w ω).norm ((w ω).normPos + k) = U k ω) (h0 : 0 < net.size) (hb : ∀ j, j < (net.L 0).o → (net.L 0).b j = 0)
    (hk : (net.L 0).kind ≠ .sigmoid ∧ (net.L 0).kind ≠ .softmax) (hs : (net.L 0).kind = .leaky → 0 ≤ (net.L 0).slope) :
    ∃ F : Ω → Nat → Nat → ℝ,
      (∀ ω, wp (initAndForward m x) (w ω) (fun p w' => p.2 = none ∧ ∃ out, p.1[1]? = some out ∧ IsMat w' out r (net.dim 1) (F ω))) ∧
      ∀ i, (∃ k, k < net.dim 0 ∧ X i k ≠ 0) → ∀ j, j < net.dim 1 → μ {ω | 0 < F ω i j} = 1 / 2 := by
  refine ⟨fun ω i k => fresh net X i 1 k (fun k => U k ω),
    fun ω => wp_mono (initAndForward_spec (hN ω) (hO ω) (hX ω) (hd ω)) fun p w' h => ⟨h.1, h.2 1 h0⟩, ?_⟩
  intro i hx j hj
  rcases isEmpty_or_nonempty Ω with hE | ⟨⟨ω⟩⟩
  · have := hU.joint
    have h0 : μ = 0 := Measure.eq_zero_of_isEmpty μ
    rw [h0, Measure.map_zero] at this
    exact absurd this.symm (IsProbabilityMeasure.ne_zero _)
  have hins := (hN ω).ins 0 h0
  have houts := (hN ω).outs 0 h0
  rw [← hins] at hx
  rw [← houts] at hj
  have hn : 0 < (net.L 0).n := ((hN ω).lay 0 h0).wmat.rpos
  have hq : 0 < √(2 / ((net.L 0).n : ℝ)) := Real.sqrt_pos.2 (by positivity)
  have e : ∀ d, 0 < fresh net X i 1 j d ↔ 0 < ∑ k ∈ range (net.L 0).n, X i k * d (k * (net.L 0).o + j) := by
    intro d
    rw [fresh_succ X i h0 hk.1 hk.2 hb hj d, heAct_pos hs]
    have : ∑ k ∈ range (net.L 0).n, fresh net X i 0 k d * (d (initDraws net 0 + k * (net.L 0).o + j) * √(2 / (net.L 0).n)) =
        (∑ k ∈ range (net.L 0).n, X i k * d (k * (net.L 0).o + j)) * √(2 / (net.L 0).n) := by
      rw [Finset.sum_mul]
      refine Finset.sum_congr rfl fun k _ => ?_
      show X i k * (d (0 + k * _ + j) * _) = _
      rw [Nat.zero_add, mul_assoc]
    rw [this, mul_pos_iff_of_pos_right hq]
  simp only [e]
  have hm : StrictMono fun k => k * (net.L 0).o + j := by
    intro a b hab
    have := Nat.mul_lt_mul_of_pos_right hab (show 0 < (net.L 0).o by omega)
    show a * _ + j < b * _ + j
    omega
  have h := half_pos hν (X i) hm (net.L 0).n hx
  rw [← hU.joint, Measure.map_apply hU.measurable] at h
  · exact h
  · exact measurableSet_lt measurable_const (Finset.measurable_fun_sum _ fun k _ => (measurable_pi_apply _).const_mul _)

end Main

/-! ## The hypotheses can be met -/

theorem IsMat.withNorm {w : World ℝ} {m : Mat} {r c : Nat} {A : Nat → Nat → ℝ} (h : IsMat w m r c A) (u : Nat → ℝ) :
    IsMat { w with norm := u } m r c A := ⟨h.rows, h.cols, h.len, h.rpos, h.cpos, h.addr_lt, h.row⟩

theorem IsNet.withNorm {w : World ℝ} {m : Model ℝ} {net : Net ℝ} (h : IsNet w m net) (u : Nat → ℝ) :
    IsNet { w with norm := u } m net :=
  ⟨h.size, h.ptrs, fun i hi => let l := h.lay i hi
    ⟨l.lt, l.kind, l.ins, l.outs, l.weights, l.biases, l.slope, l.dropout, l.wmat.withNorm u, l.bmat.withNorm u⟩,
    h.ins, h.outs, h.input, h.output⟩

theorem OwnNet.withNorm {w : World ℝ} {net : Net ℝ} (h : OwnNet w net) (u : Nat → ℝ) : OwnNet { w with norm := u } net :=
  ⟨fun i hi => ⟨(h.own i hi).distinct, (h.own i hi).disjoint, (h.own i hi).outer⟩, h.inj, h.sep⟩

/-- Independent draws with any given law exist. -/
theorem drawSource_seq {ν : Measure ℝ} [IsProbabilityMeasure ν] : DrawSource (seqLaw ν) ν (fun k d => d k) :=
  ⟨fun k => measurable_pi_apply k, map_eval_seqLaw, indep_eval⟩

/-- A model with a layer of each of the four kinds, and zero parameters. -/
noncomputable def heL (i : Nat) : LayerSpec ℝ where
  kind := match i % 4 with
    | 0 => .hidden | 1 => .dropout | 2 => .linear | _ => .leaky
  n := i + 2
  o := i + 3
  W _ _ := 0
  b _ := 0
  slope := 1 / 100
  dropout := 1 / 2

/-- C150: a hidden, a dropout, a linear and a leaky layer, standard normal draws. -/
example (X : Nat → Nat → ℝ) : ∃ (w : (ℕ → ℝ) → World ℝ) (m : Model ℝ) (net : Net ℝ) (x : Mat),
    UnitLaw (gaussianReal 0 1) ∧ NullSingletonClass (gaussianReal 0 1) ∧
    DrawSource (seqLaw (gaussianReal 0 1)) (gaussianReal 0 1) (fun k d => d k) ∧ (∀ ω, IsNet (w ω) m net) ∧ (∀ ω, OwnNet (w ω) net) ∧
    (∀ ω, IsData (w ω) net x 5 (net.dim 0) X) ∧ (∀ ω k, (w ω).norm ((w ω).normPos + k) = ω k) ∧
    (∀ q, q < net.size → ∀ j, j < (net.L q).o → (net.L q).b j = 0) ∧
    (∀ q, q < net.size → (net.L q).kind ≠ .sigmoid ∧ (net.L q).kind ≠ .softmax) ∧ net.size = 4 ∧
    (∏ p ∈ range net.size, gain (net.L p)) = 2 * (1 + (1 / 100) ^ 2) := by
  obtain ⟨o, ho⟩ := sgd_ok_real (lr := 1 / 10) (decay := 1 / 100) (mom := 9 / 10) (by norm_num) (by norm_num) (by norm_num)
  have hrows : o.weightMomentums.rows = 0 := by rw [newSGD_ok ho]; rfl
  obtain ⟨w, net, op, XM, YM, xM, yM, -, h1, h2, h3, h4, h5, -, -, -⟩ := exists_task (emptyWorld (α := ℝ)) 4 (by decide) heL
    (fun i => ⟨Nat.succ_pos _, Nat.succ_pos _⟩) (fun i => rfl) newModel o
    (OptSpec.fresh o) hrows (fun w p i hlt e => e ▸ isOpt_newSGD _ _ _ _ hlt (e.symm ▸ ho)) (r := 5) (r' := 1) (by decide) (by decide) X
    (fun _ _ => 0) (fun _ _ => 0) (fun _ _ => 0)
  refine ⟨fun ω => { w with norm := fun k => ω (k - w.normPos) }, _, net, XM, unitLaw_gaussian, nullSingletonClass_gaussianReal one_ne_zero,
    drawSource_seq, fun ω => h4.isNet.withNorm _, fun ω => h4.own.withNorm _, fun ω => ⟨?_, h5.cap, h5.sep⟩, fun ω k => ?_, ?_, ?_, h1, ?_⟩
  · rw [h3]; exact h5.mat.withNorm _
  · show ω (w.normPos + k - w.normPos) = ω k
    rw [Nat.add_sub_cancel_left]
  · intro q _ j _; rw [h2]; rfl
  · intro q _
    rw [h2]
    unfold heL
    dsimp only
    split <;> exact ⟨LayerKind.noConfusion, LayerKind.noConfusion⟩
  · rw [h1, h2]
    simp [Finset.prod_range_succ, gain, heL]

end NN
