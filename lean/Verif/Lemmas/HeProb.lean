import Mathlib.Probability.Independence.InfinitePi
import Mathlib.Probability.Independence.Integration
import Mathlib.Probability.Distributions.Gaussian.Real
/- Sums of products of independent symmetric draws: the probability theory behind C150. -/

namespace NN
open Finset MeasureTheory ProbabilityTheory
set_option linter.unusedSectionVars false

/-- A law of the draws: symmetric about 0, with variance 1.  The standard normal law is one. -/
structure UnitLaw (ν : Measure ℝ) : Prop where
  symm : ν.map (fun x => -x) = ν
  sq : Integrable (fun x => x ^ 2) ν
  var : ∫ x, x ^ 2 ∂ν = 1

theorem unitLaw_gaussian : UnitLaw (gaussianReal 0 1) := by
  refine ⟨by simpa using gaussianReal_map_neg (μ := 0) (v := 1), ?_, ?_⟩
  · have := (memLp_id_gaussianReal (μ := 0) (v := 1) 2).integrable_sq
    simpa using this
  · have h := variance_fun_id_gaussianReal (μ := 0) (v := 1)
    rw [variance_eq_integral measurable_id'.aemeasurable] at h
    simpa using h

variable {ν : Measure ℝ} [IsProbabilityMeasure ν]

/-- The law of an independent sequence of draws. -/
noncomputable def seqLaw (ν : Measure ℝ) [IsProbabilityMeasure ν] : Measure (ℕ → ℝ) := Measure.infinitePi (fun _ => ν)

instance : IsProbabilityMeasure (seqLaw ν) := by unfold seqLaw; infer_instance

/-- A function of the first N draws. -/
def OnFirst (N : ℕ) (f : (ℕ → ℝ) → ℝ) : Prop := ∀ d e : ℕ → ℝ, (∀ i, i < N → d i = e i) → f d = f e

theorem map_eval_seqLaw (i : ℕ) : (seqLaw ν).map (fun d => d i) = ν := Measure.infinitePi_map_eval _ i

theorem integral_eval (f : ℝ → ℝ) (hf : AEStronglyMeasurable f ν) (i : ℕ) : ∫ d, f (d i) ∂(seqLaw ν) = ∫ x, f x ∂ν := by
  have h := integral_map (μ := seqLaw ν) (φ := fun d => d i) (measurable_pi_apply i).aemeasurable (f := f) (by rw [map_eval_seqLaw]; exact hf)
  rw [map_eval_seqLaw] at h
  exact h.symm

theorem integrable_eval {f : ℝ → ℝ} (hf : Integrable f ν) (i : ℕ) : Integrable (fun d : ℕ → ℝ => f (d i)) (seqLaw ν) := by
  have h := hf
  rw [← map_eval_seqLaw (ν := ν) i] at h
  exact h.comp_measurable (by fun_prop)

theorem UnitLaw.mean (h : UnitLaw ν) : ∫ x, x ∂ν = 0 := by
  have h1 : ∫ x, x ∂ν = ∫ x, -x ∂ν := by
    conv_lhs => rw [← h.symm]
    rw [integral_map (by fun_prop) (by fun_prop)]
  rw [integral_neg] at h1
  linarith

theorem UnitLaw.int1 (h : UnitLaw ν) : Integrable (fun x : ℝ => x) ν := by
  have : MemLp (fun x : ℝ => x) 2 ν := (memLp_two_iff_integrable_sq (by fun_prop)).2 h.sq
  exact this.integrable (by norm_num)

/-- The draws in s with their signs flipped. -/
def flip (s : ℕ → Prop) [DecidablePred s] (d : ℕ → ℝ) : ℕ → ℝ := fun i => if s i then -d i else d i

theorem measurable_flip (s : ℕ → Prop) [DecidablePred s] : Measurable (flip s) := by
  unfold flip
  refine measurable_pi_lambda _ fun i => ?_
  split <;> fun_prop

theorem map_flip (h : UnitLaw ν) (s : ℕ → Prop) [DecidablePred s] : (seqLaw ν).map (flip s) = seqLaw ν := by
  have h1 : flip s = fun (d : ℕ → ℝ) i => (if s i then (fun x : ℝ => -x) else id) (d i) := by
    funext d i
    unfold flip
    split <;> rfl
  unfold seqLaw
  rw [h1, Measure.infinitePi_map_pi _ (fun i => by split <;> fun_prop)]
  congr 1
  funext i
  split
  · exact h.symm
  · exact Measure.map_id

theorem integral_flip (h : UnitLaw ν) (s : ℕ → Prop) [DecidablePred s] {f : (ℕ → ℝ) → ℝ} (hf : Measurable f) :
    ∫ d, f (flip s d) ∂(seqLaw ν) = ∫ d, f d ∂(seqLaw ν) := by
  conv_rhs => rw [← map_flip h s]
  rw [integral_map (measurable_flip s).aemeasurable hf.aestronglyMeasurable]

theorem indep_eval : iIndepFun (fun (i : ℕ) (d : ℕ → ℝ) => d i) (seqLaw ν) :=
  iIndepFun_infinitePi (P := fun _ : ℕ => ν) (X := fun _ x => x) (fun _ => measurable_id)

/-- What depends on the first draws only is independent of the later ones. -/
theorem indep_later {N : ℕ} {f : (ℕ → ℝ) → ℝ} (hf : Measurable f) (hN : OnFirst N f) (T : Finset ℕ) (hT : ∀ i ∈ T, N ≤ i) :
    IndepFun f (fun (d : ℕ → ℝ) (i : T) => d i) (seqLaw ν) := by
  have hd : Disjoint (range N) T := by
    rw [Finset.disjoint_left]
    intro i hi ht
    have := hT i ht
    have := Finset.mem_range.1 hi
    omega
  have h := indep_eval (ν := ν).indepFun_finset (range N) T hd (fun i => by fun_prop)
  let e : (range N → ℝ) → ℕ → ℝ := fun t i => if hi : i ∈ range N then t ⟨i, hi⟩ else 0
  have he : Measurable e := by
    refine measurable_pi_lambda _ fun i => ?_
    by_cases hi : i ∈ range N
    · simp only [e, dif_pos hi]; fun_prop
    · simp only [e, dif_neg hi]; fun_prop
  have h2 := h.comp (φ := fun t => f (e t)) (ψ := id) (hf.comp he) measurable_id
  have h3 : (fun t => f (e t)) ∘ (fun (d : ℕ → ℝ) (i : range N) => d i) = f := by
    funext d
    refine hN _ _ fun i hi => ?_
    simp only [e, dif_pos (Finset.mem_range.2 hi)]
  rw [h3] at h2
  exact h2

theorem indep_pair {N : ℕ} {f : (ℕ → ℝ) → ℝ} (hf : Measurable f) (hN : OnFirst N f) {a b : ℕ} (ha : N ≤ a) (hb : N ≤ b) :
    IndepFun f (fun d : ℕ → ℝ => d a * d b) (seqLaw ν) := by
  have h := indep_later (ν := ν) hf hN {a, b} (by simp [ha, hb])
  have h2 := h.comp (φ := id) (ψ := fun t : ({a, b} : Finset ℕ) → ℝ => t ⟨a, by simp⟩ * t ⟨b, by simp⟩) measurable_id
    (by fun_prop)
  exact h2

theorem integrable_pair (h : UnitLaw ν) (a b : ℕ) : Integrable (fun d : ℕ → ℝ => d a * d b) (seqLaw ν) := by
  have h1 : ∀ i, MemLp (fun d : ℕ → ℝ => d i) 2 (seqLaw ν) := fun i =>
    (memLp_two_iff_integrable_sq (measurable_pi_apply i).aestronglyMeasurable).2 (integrable_eval h.sq i)
  exact (h1 a).integrable_mul (h1 b)

theorem integral_pair (h : UnitLaw ν) (a b : ℕ) : ∫ d, d a * d b ∂(seqLaw ν) = if a = b then 1 else 0 := by
  split
  · rename_i e
    subst e
    rw [← h.var, ← integral_eval (fun x => x ^ 2) (by fun_prop) a]
    simp only [sq]
  · rename_i e
    rw [(indep_eval (ν := ν).indepFun e).integral_fun_mul_eq_mul_integral (measurable_pi_apply a).aestronglyMeasurable
      (measurable_pi_apply b).aestronglyMeasurable,
      integral_eval (fun x => x) (by fun_prop), h.mean, zero_mul]

/-- Earlier quantities times two later draws. -/
theorem integral_later (h : UnitLaw ν) {N : ℕ} {f : (ℕ → ℝ) → ℝ} (hf : Measurable f) (hN : OnFirst N f)
    (hi : Integrable f (seqLaw ν)) {a b : ℕ} (ha : N ≤ a) (hb : N ≤ b) :
    Integrable (fun d => f d * (d a * d b)) (seqLaw ν) ∧
    ∫ d, f d * (d a * d b) ∂(seqLaw ν) = if a = b then ∫ d, f d ∂(seqLaw ν) else 0 := by
  have h1 := indep_pair (ν := ν) hf hN ha hb
  refine ⟨h1.integrable_mul hi (integrable_pair h a b), ?_⟩
  rw [h1.integral_fun_mul_eq_mul_integral hf.aestronglyMeasurable (by fun_prop), integral_pair h]
  split <;> simp

/-- A weighted sum of fresh draws: its mean square is the sum of the mean squares of the weights. -/
theorem sum_sq (h : UnitLaw ν) {N n : ℕ} {a : ℕ → (ℕ → ℝ) → ℝ} (pos : ℕ → ℕ) (hpos : ∀ k, k < n → N ≤ pos k)
    (hinj : ∀ k l, k < n → l < n → pos k = pos l → k = l) (hm : ∀ k, k < n → Measurable (a k))
    (hN : ∀ k, k < n → OnFirst N (a k)) (hi : ∀ k, k < n → Integrable (fun d => a k d ^ 2) (seqLaw ν)) :
    Integrable (fun d => (∑ k ∈ range n, a k d * d (pos k)) ^ 2) (seqLaw ν) ∧
    ∫ d, (∑ k ∈ range n, a k d * d (pos k)) ^ 2 ∂(seqLaw ν) = ∑ k ∈ range n, ∫ d, a k d ^ 2 ∂(seqLaw ν) := by
  have h2 : ∀ k, k < n → MemLp (a k) 2 (seqLaw ν) := fun k hk =>
    (memLp_two_iff_integrable_sq (hm k hk).aestronglyMeasurable).2 (hi k hk)
  have e : ∀ d : ℕ → ℝ, (∑ k ∈ range n, a k d * d (pos k)) ^ 2 =
      ∑ k ∈ range n, ∑ l ∈ range n, a k d * a l d * (d (pos k) * d (pos l)) := by
    intro d
    rw [sq, Finset.sum_mul_sum]
    exact Finset.sum_congr rfl fun k _ => Finset.sum_congr rfl fun l _ => by ring
  have t : ∀ k, k < n → ∀ l, l < n → Integrable (fun d => a k d * a l d * (d (pos k) * d (pos l))) (seqLaw ν) ∧
      ∫ d, a k d * a l d * (d (pos k) * d (pos l)) ∂(seqLaw ν) =
        if pos k = pos l then ∫ d, a k d * a l d ∂(seqLaw ν) else 0 := by
    intro k hk l hl
    refine integral_later h (f := fun d => a k d * a l d) ((hm k hk).mul (hm l hl)) ?_ ((h2 k hk).integrable_mul (h2 l hl))
      (hpos k hk) (hpos l hl)
    intro d d' hd
    show a k d * a l d = a k d' * a l d'
    rw [hN k hk d d' hd, hN l hl d d' hd]
  simp only [e]
  refine ⟨integrable_finsetSum _ fun k hk => integrable_finsetSum _ fun l hl =>
    (t k (Finset.mem_range.1 hk) l (Finset.mem_range.1 hl)).1, ?_⟩
  rw [integral_finsetSum _ fun k hk => integrable_finsetSum _ fun l hl =>
    (t k (Finset.mem_range.1 hk) l (Finset.mem_range.1 hl)).1]
  refine Finset.sum_congr rfl fun k hk => ?_
  have hk' := Finset.mem_range.1 hk
  rw [integral_finsetSum _ fun l hl => (t k hk' l (Finset.mem_range.1 hl)).1, Finset.sum_eq_single k]
  · rw [(t k hk' k hk').2, if_pos rfl]
    simp only [sq]
  · intro l hl hne
    have hl' := Finset.mem_range.1 hl
    rw [(t k hk' l hl').2, if_neg]
    intro e
    exact hne (hinj k l hk' hl' e).symm
  · intro h; exact absurd hk h

/-- An activation whose squares at z and -z add up to c·z² turns the mean square into c/2 of it: fresh draws are symmetric. -/
theorem act_sq (h : UnitLaw ν) {N n : ℕ} {a : ℕ → (ℕ → ℝ) → ℝ} (pos : ℕ → ℕ) (hpos : ∀ k, k < n → N ≤ pos k)
    (hinj : ∀ k l, k < n → l < n → pos k = pos l → k = l) (hm : ∀ k, k < n → Measurable (a k))
    (hN : ∀ k, k < n → OnFirst N (a k)) (hi : ∀ k, k < n → Integrable (fun d => a k d ^ 2) (seqLaw ν)) (s : ℝ)
    {φ : ℝ → ℝ} {c : ℝ} (hφ : Measurable φ) (hc : ∀ z, φ z ^ 2 + φ (-z) ^ 2 = c * z ^ 2) :
    Integrable (fun d => φ (∑ k ∈ range n, a k d * (d (pos k) * s)) ^ 2) (seqLaw ν) ∧
    ∫ d, φ (∑ k ∈ range n, a k d * (d (pos k) * s)) ^ 2 ∂(seqLaw ν) =
      c / 2 * s ^ 2 * ∑ k ∈ range n, ∫ d, a k d ^ 2 ∂(seqLaw ν) := by
  obtain ⟨z1, z2⟩ := sum_sq h pos hpos hinj hm hN hi
  have e : ∀ d : ℕ → ℝ, ∑ k ∈ range n, a k d * (d (pos k) * s) = (∑ k ∈ range n, a k d * d (pos k)) * s := by
    intro d
    rw [Finset.sum_mul]
    exact Finset.sum_congr rfl fun k _ => by ring
  simp only [e]
  set z : (ℕ → ℝ) → ℝ := fun d => ∑ k ∈ range n, a k d * d (pos k) with hz
  have hzm : Measurable z := Finset.measurable_fun_sum _ fun k hk => (hm k (Finset.mem_range.1 hk)).mul (measurable_pi_apply _)
  have hzm' : Measurable fun d => φ (z d * s) ^ 2 := (hφ.comp (hzm.mul_const s)).pow_const 2
  have hs : ∀ d, φ (z d * s) ^ 2 + φ (-(z d * s)) ^ 2 = c * s ^ 2 * z d ^ 2 := by
    intro d; rw [hc]; ring
  have hint : Integrable (fun d => φ (z d * s) ^ 2) (seqLaw ν) := by
    refine Integrable.mono' (z1.const_mul (c * s ^ 2)) hzm'.aestronglyMeasurable (Filter.Eventually.of_forall fun d => ?_)
    rw [Real.norm_of_nonneg (sq_nonneg _), ← hs]
    have := sq_nonneg (φ (-(z d * s)))
    linarith
  refine ⟨hint, ?_⟩
  have hflip : ∀ d, z (flip (fun i => N ≤ i) d) = -z d := by
    intro d
    rw [hz]
    show ∑ k ∈ range n, _ = -∑ k ∈ range n, _
    rw [← Finset.sum_neg_distrib]
    refine Finset.sum_congr rfl fun k hk => ?_
    have hk' := Finset.mem_range.1 hk
    rw [hN k hk' (flip (fun i => N ≤ i) d) d (fun i hi => if_neg (by omega))]
    unfold flip
    rw [if_pos (hpos k hk')]
    ring
  have h3 := integral_flip h (fun i => N ≤ i) hzm'
  simp only [hflip] at h3
  have h4 : ∫ d, (φ (z d * s) ^ 2 + φ (-z d * s) ^ 2) ∂(seqLaw ν) = c * s ^ 2 * ∑ k ∈ range n, ∫ d, a k d ^ 2 ∂(seqLaw ν) := by
    rw [← z2, ← integral_const_mul]
    refine integral_congr_ae (Filter.Eventually.of_forall fun d => ?_)
    show φ (z d * s) ^ 2 + φ (-z d * s) ^ 2 = c * s ^ 2 * z d ^ 2
    rw [← hs, neg_mul]
  have hint2 : Integrable (fun d => φ (-z d * s) ^ 2) (seqLaw ν) := by
    refine ((z1.const_mul (c * s ^ 2)).sub hint).congr (Filter.Eventually.of_forall fun d => ?_)
    show c * s ^ 2 * z d ^ 2 - φ (z d * s) ^ 2 = φ (-z d * s) ^ 2
    rw [← hs, neg_mul]; ring
  rw [integral_add hint hint2, h3] at h4
  linarith

/-- If no single value has positive probability, a fresh draw times a non-zero number does not cancel an earlier quantity. -/
theorem no_cancel [NullSingletonClass ν] {R : (ℕ → ℝ) → ℝ} (hR : Measurable R) {i : ℕ}
    (hi : IndepFun R (fun d : ℕ → ℝ => d i) (seqLaw ν)) {c : ℝ} (hc : c ≠ 0) : ∀ᵐ d ∂(seqLaw ν), R d + c * d i ≠ 0 := by
  have h1 := (indepFun_iff_map_prod_eq_prod_map_map hR.aemeasurable (measurable_pi_apply i).aemeasurable).1 hi
  rw [map_eval_seqLaw] at h1
  have hp : IsProbabilityMeasure ((seqLaw ν).map R) := Measure.isProbabilityMeasure_map hR.aemeasurable
  have hs : MeasurableSet {p : ℝ × ℝ | p.1 + c * p.2 = 0} := measurableSet_eq_fun (by fun_prop) (by fun_prop)
  have h2 : ((seqLaw ν).map R).prod ν {p : ℝ × ℝ | p.1 + c * p.2 = 0} = 0 := by
    rw [Measure.prod_apply hs]
    refine (lintegral_congr fun x => ?_).trans lintegral_zero
    have : Prod.mk x ⁻¹' {p : ℝ × ℝ | p.1 + c * p.2 = 0} = {-x / c} := by
      ext y
      simp only [Set.mem_preimage, Set.mem_ofPred_eq, Set.mem_singleton_iff]
      rw [eq_div_iff hc]
      constructor <;> intro h <;> linarith
    rw [this]
    exact measure_singleton _
  rw [← h1, Measure.map_apply (by fun_prop) hs] at h2
  exact (ae_iff.2 (by simpa using h2))

end NN
