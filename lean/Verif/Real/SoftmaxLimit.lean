import Verif.Real.SoftmaxRegression
import Mathlib.Topology.Sequences
import Mathlib.Topology.Order.Compact
import Mathlib.Analysis.SpecialFunctions.Log.Basic
import Mathlib.Analysis.SpecificLimits.Basic
/- Gradient descent for softmax regression, over the reals: the coefficients tend to best ones if there are any, and exceed every bound
if there are none. -/

namespace NN
open Finset Filter Topology

theorem smr_continuous {r c p : Nat} (X : Nat → Nat → ℝ) (l : Nat → Nat) (hl : ∀ i, i < r → l i < c) :
    Continuous (fun θ : Nat → Nat → ℝ => smr r c p X l θ) := by
  have hs : ∀ i j, Continuous fun θ : Nat → Nat → ℝ => score p X θ i j := by
    intro i j
    unfold score
    exact continuous_finsetSum _ fun k _ => continuous_const.mul ((continuous_apply j).comp (continuous_apply k))
  unfold smr lse
  refine Continuous.div_const (continuous_finsetSum _ fun i hi => Continuous.sub (Continuous.log ?_ fun θ => ?_) (hs i _)) _
  · exact continuous_finsetSum _ fun k _ => Real.continuous_exp.comp (hs i k)
  · exact (sumExp_pos (by have := hl i (mem_range.1 hi); omega) _).ne'

theorem smr_same {r c p : Nat} (X : Nat → Nat → ℝ) (l : Nat → Nat) (hl : ∀ i, i < r → l i < c) {θ θ' : Nat → Nat → ℝ}
    (h : ∀ k j, k < p → j < c → θ k j = θ' k j) : smr r c p X l θ = smr r c p X l θ' := by
  have hs : ∀ i j, j < c → score p X θ i j = score p X θ' i j := fun i j hj =>
    sum_congr rfl fun k hk => by rw [h k j (mem_range.1 hk) hj]
  unfold smr lse
  congr 1
  refine sum_congr rfl fun i hi => ?_
  rw [hs i (l i) (hl i (mem_range.1 hi)), sum_congr rfl fun k hk => by rw [hs i k (mem_range.1 hk)]]

/-- If the coefficients come back below a bound again and again, then some of them tend to best ones. -/
theorem smrIter_cluster {r c p : Nat} (hr : 0 < r) (X : Nat → Nat → ℝ) (l : Nat → Nat) (hl : ∀ i, i < r → l i < c) (θ : Nat → Nat → ℝ)
    {lr R : ℝ} (h0 : 0 < lr) (hR : ∀ i, i < r → ∑ k ∈ range p, X i k ^ 2 ≤ R) (hlr : lr * R ≤ 1 / 2) {M : ℝ}
    (hM : ∃ᶠ t in atTop, ∀ k j, k < p → j < c → |smrIter r c p X l lr θ t k j| ≤ M) :
    ∃ a : Nat → Nat → ℝ, (∀ θ', smr r c p X l a ≤ smr r c p X l θ') ∧ ∃ φ : Nat → Nat, StrictMono φ ∧
      ∀ k j, k < p → j < c → Tendsto (fun n => smrIter r c p X l lr θ (φ n) k j) atTop (𝓝 (a k j)) := by
  obtain ⟨φ, hφ, hb⟩ := extraction_of_frequently_atTop hM
  set v : Nat → Nat → Nat → ℝ := fun n k j => if k < p ∧ j < c then smrIter r c p X l lr θ (φ n) k j else 0 with hv
  have hbox : ∀ n, v n ∈ Set.Icc (fun _ _ => -|M| : Nat → Nat → ℝ) (fun _ _ => |M|) := by
    intro n
    have : ∀ k j, |v n k j| ≤ |M| := by
      intro k j
      simp only [hv]
      split
      · next h => exact (hb n k j h.1 h.2).trans (le_abs_self M)
      · simp
    exact ⟨fun k j => (abs_le.1 (this k j)).1, fun k j => (abs_le.1 (this k j)).2⟩
  obtain ⟨a, -, ψ, hψ, ha⟩ := isCompact_Icc.tendsto_subseq hbox
  have hvs : ∀ n k j, k < p → j < c → v n k j = smrIter r c p X l lr θ (φ n) k j := fun n k j hk hj => by simp [hv, hk, hj]
  refine ⟨a, fun θ' => ?_, φ ∘ ψ, hφ.comp hψ, fun k j hk hj => ?_⟩
  · have h1 : Tendsto (fun n => smr r c p X l (v (ψ n))) atTop (𝓝 (smr r c p X l a)) :=
      ((smr_continuous X l hl).tendsto a).comp ha
    have h2 : Tendsto (fun n => smr r c p X l θ' + sqDist c p θ θ' / (2 * lr) * (1 / ((φ (ψ n) : Nat) : ℝ))) atTop
        (𝓝 (smr r c p X l θ' + sqDist c p θ θ' / (2 * lr) * 0)) :=
      tendsto_const_nhds.add (tendsto_const_nhds.mul (tendsto_one_div_atTop_nhds_zero_nat.comp (hφ.comp hψ).tendsto_atTop))
    rw [mul_zero, add_zero] at h2
    refine le_of_tendsto_of_tendsto h1 h2 ?_
    filter_upwards [eventually_ge_atTop 1] with n hn
    have hpos : 0 < φ (ψ n) := by have := (hφ.comp hψ).le_apply (x := n); simp only [Function.comp] at this; omega
    have h3 := smrIter_bound hr X l hl θ h0 hR hlr hpos θ'
    rw [smr_same X l hl (hvs (ψ n))]
    refine h3.trans (le_of_eq ?_)
    have : ((φ (ψ n) : Nat) : ℝ) ≠ 0 := by exact_mod_cast hpos.ne'
    field_simp
  · have h1 := tendsto_pi_nhds.1 (tendsto_pi_nhds.1 ha k) j
    refine h1.congr fun n => ?_
    exact hvs (ψ n) k j hk hj

theorem sq_le_sqDist {c p : Nat} (θ θ' : Nat → Nat → ℝ) {k j : Nat} (hk : k < p) (hj : j < c) : (θ k j - θ' k j) ^ 2 ≤ sqDist c p θ θ' :=
  (single_le_sum (f := fun j => (θ k j - θ' k j) ^ 2) (fun _ _ => sq_nonneg _) (mem_range.2 hj)).trans
    (single_le_sum (f := fun k => ∑ j ∈ range c, (θ k j - θ' k j) ^ 2) (fun _ _ => sum_nonneg fun _ _ => sq_nonneg _) (mem_range.2 hk))

/-- If some coefficients are best, gradient descent tends to best ones. -/
theorem smrIter_limit {r c p : Nat} (hr : 0 < r) (X : Nat → Nat → ℝ) (l : Nat → Nat) (hl : ∀ i, i < r → l i < c) (θ θs : Nat → Nat → ℝ)
    (hmin : ∀ θ', smr r c p X l θs ≤ smr r c p X l θ')
    {lr R : ℝ} (h0 : 0 < lr) (hR : ∀ i, i < r → ∑ k ∈ range p, X i k ^ 2 ≤ R) (hlr : lr * R ≤ 1 / 2) :
    ∃ a : Nat → Nat → ℝ, (∀ θ', smr r c p X l a ≤ smr r c p X l θ') ∧
      Tendsto (fun t => sqDist c p (smrIter r c p X l lr θ t) a) atTop (𝓝 0) := by
  have hdist : ∀ a, (∀ θ', smr r c p X l a ≤ smr r c p X l θ') → Antitone fun t => sqDist c p (smrIter r c p X l lr θ t) a := by
    intro a ha
    refine antitone_nat_of_succ_le fun t => ?_
    have b := (smr_step hr X l hl (smrIter r c p X l lr θ t) h0 hR hlr).2 a
    change sqDist c p (smrIter r c p X l lr θ (t + 1)) a ≤ _ - 2 * lr * (smr r c p X l (smrIter r c p X l lr θ (t + 1)) - _) at b
    have := mul_nonneg (by positivity : 0 ≤ 2 * lr) (sub_nonneg.2 (ha (smrIter r c p X l lr θ (t + 1))))
    linarith
  set D := sqDist c p θ θs with hD
  set N := ∑ k ∈ range p, ∑ j ∈ range c, |θs k j| with hN
  have hbd : ∀ t k j, k < p → j < c → |smrIter r c p X l lr θ t k j| ≤ 1 + D + N := by
    intro t k j hk hj
    have h1 := (sq_le_sqDist (smrIter r c p X l lr θ t) θs hk hj).trans (hdist θs hmin (Nat.zero_le t))
    change _ ≤ D at h1
    have h2 : |θs k j| ≤ N := (single_le_sum (f := fun j => |θs k j|) (fun _ _ => abs_nonneg _) (mem_range.2 hj)).trans
      (single_le_sum (f := fun k => ∑ j ∈ range c, |θs k j|) (fun _ _ => sum_nonneg fun _ _ => abs_nonneg _) (mem_range.2 hk))
    have h3 : |smrIter r c p X l lr θ t k j - θs k j| ≤ 1 + D := by
      refine abs_le_of_sq_le_sq (h1.trans ?_) (by nlinarith [sq_nonneg (smrIter r c p X l lr θ t k j - θs k j)])
      nlinarith [sq_nonneg (smrIter r c p X l lr θ t k j - θs k j), sq_nonneg D]
    have h4 := abs_add_le (smrIter r c p X l lr θ t k j - θs k j) (θs k j)
    rw [sub_add_cancel] at h4
    linarith
  obtain ⟨a, ha, φ, hφ, hlim⟩ := smrIter_cluster hr X l hl θ h0 hR hlr (Eventually.frequently (Eventually.of_forall hbd))
  refine ⟨a, ha, ?_⟩
  have h1 : Tendsto (fun n => sqDist c p (smrIter r c p X l lr θ (φ n)) a) atTop (𝓝 0) := by
    have : Tendsto (fun n => ∑ k ∈ range p, ∑ j ∈ range c, (smrIter r c p X l lr θ (φ n) k j - a k j) ^ 2) atTop
        (𝓝 (∑ k ∈ range p, ∑ j ∈ range c, (a k j - a k j) ^ 2)) :=
      tendsto_finsetSum _ fun k hk => tendsto_finsetSum _ fun j hj =>
        ((hlim k j (mem_range.1 hk) (mem_range.1 hj)).sub tendsto_const_nhds).pow 2
    simpa [sqDist] using this
  exact (tendsto_iff_tendsto_subseq_of_antitone (hdist a ha) hφ.tendsto_atTop).2 h1

end NN
