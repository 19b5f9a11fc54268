import Verif.Real.SoftmaxRegression
import Mathlib.Topology.Order.Compact
import Mathlib.Analysis.SpecialFunctions.Log.Basic
import Mathlib.Topology.Algebra.Module.FiniteDimension
import Mathlib.Analysis.Normed.Module.FiniteDimension
/- Softmax regression, over the reals: best coefficients exist if and only if the classes overlap. -/

namespace NN
open Finset

/-- No coefficients score every sample at least as high in its class as in the others, except those that score it the same everywhere. -/
def Overlap (r c p : Nat) (X : Nat → Nat → ℝ) (l : Nat → Nat) : Prop :=
  ∀ θ, (∀ i j, i < r → j < c → score p X θ i j ≤ score p X θ i (l i)) → ∀ i j, i < r → j < c → score p X θ i j = score p X θ i (l i)

theorem lse_sub {c : Nat} (hc : 0 < c) (z : Nat → ℝ) (y : ℝ) : lse c z - y = Real.log (∑ k ∈ range c, Real.exp (-(y - z k))) := by
  have h : ∑ k ∈ range c, Real.exp (-(y - z k)) = (∑ k ∈ range c, Real.exp (z k)) * Real.exp (-y) := by
    rw [sum_mul]
    refine sum_congr rfl fun k _ => ?_
    rw [← Real.exp_add]
    congr 1
    ring
  rw [h, Real.log_mul (sumExp_pos hc z).ne' (Real.exp_pos _).ne', Real.log_exp]
  unfold lse
  ring

/-- Where there are best coefficients the classes overlap. -/
theorem overlap_of_best {r c p : Nat} (X : Nat → Nat → ℝ) (l : Nat → Nat) (hl : ∀ i, i < r → l i < c) (θs : Nat → Nat → ℝ)
    (hmin : ∀ θ, smr r c p X l θs ≤ smr r c p X l θ) : Overlap r c p X l := by
  intro θ hle
  by_contra hcon
  push Not at hcon
  obtain ⟨i0, j0, hi0, hj0, hne⟩ := hcon
  have hrr : (0 : ℝ) < r := by exact_mod_cast (show 0 < r by omega)
  have h := hmin (fun k j => θs k j + θ k j)
  refine absurd h (not_le.2 ?_)
  unfold smr
  rw [div_lt_div_iff_of_pos_right hrr]
  have hterm : ∀ i, i < r → ∀ j, j < c → Real.exp (-(score p X (fun k j => θs k j + θ k j) i (l i) - score p X (fun k j => θs k j + θ k j) i j)) ≤
      Real.exp (-(score p X θs i (l i) - score p X θs i j)) := by
    intro i hi j hj
    rw [score_add, score_add]
    have := hle i j hi hj
    exact Real.exp_le_exp.2 (by linarith)
  refine sum_lt_sum (fun i hi => ?_) ⟨i0, mem_range.2 hi0, ?_⟩
  · have hi := mem_range.1 hi
    have hc : 0 < c := by have := hl i hi; omega
    rw [lse_sub hc, lse_sub hc]
    exact Real.log_le_log (sum_pos (fun _ _ => Real.exp_pos _) ⟨0, mem_range.2 hc⟩) (sum_le_sum fun j hj => hterm i hi j (mem_range.1 hj))
  · have hc : 0 < c := by have := hl i0 hi0; omega
    rw [lse_sub hc, lse_sub hc]
    refine Real.log_lt_log (sum_pos (fun _ _ => Real.exp_pos _) ⟨0, mem_range.2 hc⟩)
      (sum_lt_sum (fun j hj => hterm i0 hi0 j (mem_range.1 hj)) ⟨j0, mem_range.2 hj0, ?_⟩)
    rw [score_add, score_add]
    have := lt_of_le_of_ne (hle i0 j0 hi0 hj0) hne
    exact Real.exp_lt_exp.2 (by linarith)

/-- By how much the score of a sample in its class exceeds that in another class, as a linear function of the coefficients. -/
noncomputable def marginMap (r c p : Nat) (X : Nat → Nat → ℝ) (l : Nat → Nat) : (Nat → Nat → ℝ) →ₗ[ℝ] (Fin r × Fin c → ℝ) where
  toFun θ x := score p X θ x.1 (l x.1) - score p X θ x.1 x.2
  map_add' θ θ' := by
    funext x
    have h := fun j => score_add p X θ θ' x.1 j
    change score p X (fun k j => θ k j + θ' k j) x.1 (l x.1) - score p X (fun k j => θ k j + θ' k j) x.1 x.2 = _
    rw [h, h]
    simp only [Pi.add_apply]
    ring
  map_smul' a θ := by
    funext x
    have h : ∀ j, score p X (a • θ) x.1 j = a * score p X θ x.1 j := by
      intro j
      unfold score
      rw [mul_sum]
      refine sum_congr rfl fun k _ => ?_
      simp only [Pi.smul_apply, smul_eq_mul]
      ring
    change score p X (a • θ) x.1 (l x.1) - score p X (a • θ) x.1 x.2 = _
    rw [h, h]
    simp only [Pi.smul_apply, smul_eq_mul, RingHom.id_apply]
    ring

/-- r times the cross-entropy, as a function of the margins -/
noncomputable def marginLoss {r c : Nat} (d : Fin r × Fin c → ℝ) : ℝ := ∑ i, Real.log (∑ j, Real.exp (-d (i, j)))

theorem marginLoss_map {r c p : Nat} (X : Nat → Nat → ℝ) (l : Nat → Nat) (hl : ∀ i, i < r → l i < c) (θ : Nat → Nat → ℝ) :
    smr r c p X l θ = marginLoss (marginMap r c p X l θ) / r := by
  unfold smr marginLoss
  congr 1
  rw [sum_range]
  refine sum_congr rfl fun i _ => ?_
  rw [lse_sub (by have := hl i i.2; omega), sum_range]
  rfl

theorem marginLoss_continuous {r c : Nat} (hc : 0 < c) : Continuous (marginLoss (r := r) (c := c)) := by
  unfold marginLoss
  have : Nonempty (Fin c) := ⟨⟨0, hc⟩⟩
  refine continuous_finsetSum _ fun i _ => Continuous.log ?_ fun d => ?_
  · exact continuous_finsetSum _ fun j _ => Real.continuous_exp.comp (continuous_apply (i, j)).neg
  · exact (sum_pos (fun _ _ => Real.exp_pos _) univ_nonempty).ne'

/-- the sum of the negative margins, without sign -/
noncomputable def shortfall {r c : Nat} (d : Fin r × Fin c → ℝ) : ℝ := ∑ x, max (-d x) 0

theorem shortfall_continuous {r c : Nat} : Continuous (shortfall (r := r) (c := c)) :=
  continuous_finsetSum _ fun x _ => (continuous_apply x).neg.max continuous_const

theorem shortfall_smul {r c : Nat} (d : Fin r × Fin c → ℝ) {a : ℝ} (ha : 0 ≤ a) : shortfall (a • d) = a * shortfall d := by
  unfold shortfall
  rw [mul_sum]
  refine sum_congr rfl fun x _ => ?_
  rw [mul_max_of_nonneg _ _ ha, mul_zero, Pi.smul_apply, smul_eq_mul, mul_neg]

/-- Where the classes overlap there are best coefficients. -/
theorem best_of_overlap {r c p : Nat} (hr : 0 < r) (X : Nat → Nat → ℝ) (l : Nat → Nat) (hl : ∀ i, i < r → l i < c) (h : Overlap r c p X l) :
    ∃ θs, ∀ θ, smr r c p X l θs ≤ smr r c p X l θ := by
  have hc : 0 < c := by have := hl 0 hr; omega
  have hrr : (0 : ℝ) < r := by exact_mod_cast hr
  set V : Submodule ℝ (Fin r × Fin c → ℝ) := LinearMap.range (marginMap r c p X l) with hV
  have hclosed : IsClosed (V : Set (Fin r × Fin c → ℝ)) := Submodule.closed_of_finiteDimensional V
  -- a multiple of the size is below the shortfall
  obtain ⟨δ, hδ, hS⟩ : ∃ δ : ℝ, 0 < δ ∧ ∀ u ∈ Metric.sphere (0 : Fin r × Fin c → ℝ) 1 ∩ V, δ ≤ shortfall u := by
    refine IsCompact.exists_forall_le' ((isCompact_sphere _ _).inter_right hclosed) shortfall_continuous.continuousOn ?_
    rintro u ⟨hu, θ, rfl⟩
    have hnn : ∀ x ∈ univ, 0 ≤ max (-(marginMap r c p X l θ) x) 0 := fun x _ => le_max_right _ _
    refine lt_of_le_of_ne (sum_nonneg hnn) fun h0 => ?_
    have hz := (sum_eq_zero_iff_of_nonneg hnn).1 h0.symm
    have hle : ∀ i j, i < r → j < c → score p X θ i j ≤ score p X θ i (l i) := by
      intro i j hi hj
      have h1 := hz (⟨i, hi⟩, ⟨j, hj⟩) (mem_univ _)
      have h2 : -(marginMap r c p X l θ) (⟨i, hi⟩, ⟨j, hj⟩) ≤ 0 := h1 ▸ le_max_left _ _
      change -(score p X θ i (l i) - score p X θ i j) ≤ 0 at h2
      linarith
    have heq := h θ hle
    have : marginMap r c p X l θ = 0 := by
      funext x
      change score p X θ x.1 (l x.1) - score p X θ x.1 x.2 = 0
      rw [heq x.1 x.2 x.1.2 x.2.2, sub_self]
    rw [this] at hu
    simp at hu
  have hsize : ∀ d ∈ V, δ * ‖d‖ ≤ shortfall d := by
    intro d hd
    by_cases h0 : d = 0
    · subst h0
      simp [shortfall]
    have hn : 0 < ‖d‖ := norm_pos_iff.2 h0
    have h1 := hS (‖d‖⁻¹ • d) ⟨by simp [norm_smul, hn.ne'], V.smul_mem _ hd⟩
    rw [shortfall_smul _ (by positivity)] at h1
    rw [mul_comm]
    calc ‖d‖ * δ ≤ ‖d‖ * (‖d‖⁻¹ * shortfall d) := mul_le_mul_of_nonneg_left h1 hn.le
      _ = shortfall d := by rw [← mul_assoc, mul_inv_cancel₀ hn.ne', one_mul]
  set g := marginLoss (0 : Fin r × Fin c → ℝ) with hg
  -- margins with a loss of at most g are bounded
  have hlow : ∀ d ∈ V, marginLoss d ≤ g → ∀ x, -d x ≤ g := by
    rintro d ⟨θ, rfl⟩ hd ⟨i, j⟩
    have hge : ∀ i j, -(marginMap r c p X l θ) (i, j) ≤ Real.log (∑ j, Real.exp (-(marginMap r c p X l θ) (i, j))) := by
      intro i j
      have : Nonempty (Fin c) := ⟨j⟩
      rw [Real.le_log_iff_exp_le (sum_pos (fun _ _ => Real.exp_pos _) univ_nonempty)]
      exact single_le_sum (f := fun j => Real.exp (-(marginMap r c p X l θ) (i, j))) (fun _ _ => (Real.exp_pos _).le) (mem_univ j)
    have hnn : ∀ i ∈ univ, 0 ≤ Real.log (∑ j, Real.exp (-(marginMap r c p X l θ) (i, j))) := by
      intro i _
      refine le_trans (le_of_eq ?_) (hge i ⟨l i, hl i i.2⟩)
      change (0 : ℝ) = -(score p X θ i (l i) - score p X θ i (l i))
      ring
    exact ((hge i j).trans (single_le_sum hnn (mem_univ i))).trans hd
  have hbdd : ∀ d ∈ V, marginLoss d ≤ g → ‖d‖ ≤ (∑ _x : Fin r × Fin c, max g 0) / δ := by
    intro d hd hdg
    rw [le_div_iff₀ hδ, mul_comm]
    exact (hsize d hd).trans (sum_le_sum fun x _ => max_le_max (hlow d hd hdg x) le_rfl)
  have hcomp : IsCompact ((V : Set (Fin r × Fin c → ℝ)) ∩ {d | marginLoss d ≤ g}) := by
    refine Metric.isCompact_of_isClosed_isBounded (hclosed.inter (isClosed_le (marginLoss_continuous hc) continuous_const)) ?_
    refine (Metric.isBounded_closedBall (x := (0 : Fin r × Fin c → ℝ)) (r := (∑ _x : Fin r × Fin c, max g 0) / δ)).subset ?_
    rintro d ⟨h1, h2⟩
    rw [mem_closedBall_zero_iff]
    exact hbdd d h1 h2
  obtain ⟨d, ⟨⟨θs, rfl⟩, hdg⟩, hmin⟩ := hcomp.exists_isMinOn ⟨0, V.zero_mem, le_refl g⟩ (marginLoss_continuous hc).continuousOn
  refine ⟨θs, fun θ => ?_⟩
  rw [marginLoss_map X l hl, marginLoss_map X l hl, div_le_div_iff_of_pos_right hrr]
  rcases le_total (marginLoss (marginMap r c p X l θ)) g with h1 | h1
  · exact hmin ⟨⟨θ, rfl⟩, h1⟩
  · exact le_trans hdg h1

end NN
