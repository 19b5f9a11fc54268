import Verif.Props.C72
import Mathlib.Analysis.Calculus.ContDiff.Basic
import Mathlib.Analysis.Calculus.ContDiff.Operations
import Mathlib.Analysis.Calculus.MeanValue
import Mathlib.Analysis.SpecialFunctions.ExpDeriv
import Mathlib.Analysis.SpecialFunctions.Log.Deriv
/-
The objective as a smooth function of all the parameters, for a fixed pattern of active ReLU units.

The parameters of a network are read from a vector with one place for every (layer, row, column); row N holds the biases.
-/

namespace NN
open Finset

/-- The places of the parameters of s layers of width at most N. -/
abbrev ParIdx (s N : Nat) := Fin s × Fin (N + 1) × Fin N

/-- The parameter at a place. -/
def parRead {s N : Nat} (θ : ParIdx s N → ℝ) (l k j : Nat) : ℝ :=
  if h : l < s ∧ k < N + 1 ∧ j < N then θ (⟨l, h.1⟩, ⟨k, h.2.1⟩, ⟨j, h.2.2⟩) else 0

/-- The vector of given weights and biases of layers of given widths. -/
def parPack (s N : Nat) (n o : Nat → Nat) (W : Nat → Nat → Nat → ℝ) (b : Nat → Nat → ℝ) : ParIdx s N → ℝ := fun p =>
  if p.2.2.1 < o p.1.1 then
    if p.2.1.1 = N then b p.1.1 p.2.2.1 else if p.2.1.1 < n p.1.1 then W p.1.1 p.2.1.1 p.2.2.1 else 0
  else 0

theorem parRead_packW {s N : Nat} {n o : Nat → Nat} (W : Nat → Nat → Nat → ℝ) (b : Nat → Nat → ℝ) {l k j : Nat} (hl : l < s) (hn : n l ≤ N)
    (ho : o l ≤ N) (hk : k < n l) (hj : j < o l) : parRead (parPack s N n o W b) l k j = W l k j := by
  unfold parRead parPack
  rw [dif_pos ⟨hl, by omega, by omega⟩]
  dsimp only
  rw [if_pos hj, if_neg (by omega), if_pos hk]

theorem parRead_packB {s N : Nat} {n o : Nat → Nat} (W : Nat → Nat → Nat → ℝ) (b : Nat → Nat → ℝ) {l j : Nat} (hl : l < s)
    (ho : o l ≤ N) (hj : j < o l) : parRead (parPack s N n o W b) l N j = b l j := by
  unfold parRead parPack
  rw [dif_pos ⟨hl, by omega, by omega⟩]
  dsimp only
  rw [if_pos hj, if_pos rfl]

theorem parPack_congr {s N : Nat} {n o : Nat → Nat} {W W' : Nat → Nat → Nat → ℝ} {b b' : Nat → Nat → ℝ}
    (hW : ∀ l k j, l < s → k < n l → j < o l → W l k j = W' l k j) (hb : ∀ l j, l < s → j < o l → b l j = b' l j) :
    parPack s N n o W b = parPack s N n o W' b' := by
  funext p
  unfold parPack
  split
  · rename_i h
    split
    · exact hb _ _ p.1.2 h
    · split
      · rename_i h2
        exact hW _ _ _ p.1.2 h2 h
      · rfl
  · rfl

theorem parPack_sub {s N : Nat} {n o : Nat → Nat} (W dW : Nat → Nat → Nat → ℝ) (b dB : Nat → Nat → ℝ) (t : ℝ) :
    parPack s N n o (fun l k j => W l k j - dW l k j * t) (fun l j => b l j - dB l j * t) =
      parPack s N n o W b - t • parPack s N n o dW dB := by
  funext p
  simp only [Pi.sub_apply, Pi.smul_apply, smul_eq_mul]
  unfold parPack
  split
  · split
    · ring
    · split
      · ring
      · ring
  · ring

theorem parPack_norm {s N : Nat} {n o : Nat → Nat} {W : Nat → Nat → Nat → ℝ} {b : Nat → Nat → ℝ} {R : ℝ} (hR : 0 ≤ R)
    (hW : ∀ l k j, l < s → k < n l → j < o l → |W l k j| ≤ R) (hb : ∀ l j, l < s → j < o l → |b l j| ≤ R) :
    ‖parPack s N n o W b‖ ≤ R := by
  rw [pi_norm_le_iff_of_nonneg hR]
  intro p
  rw [Real.norm_eq_abs]
  unfold parPack
  split
  · rename_i h
    split
    · exact hb _ _ p.1.2 h
    · split
      · rename_i h2
        exact hW _ _ _ p.1.2 h2 h
      · simpa using hR
  · simpa using hR

theorem contDiff_parRead {s N : Nat} (l k j : Nat) : ContDiff ℝ 2 (fun θ : ParIdx s N → ℝ => parRead θ l k j) := by
  unfold parRead
  split
  · exact contDiff_apply ℝ ℝ _
  · exact contDiff_const

section
variable {s N : Nat} (n o : Nat → Nat) (soft : Nat → Prop) [DecidablePred soft] (M : Nat → Nat → Nat → ℝ) (A : Nat → Nat → ℝ)

/-- One layer with the activations replaced by fixed factors, except in softmax layers. -/
noncomputable def maskPre (θ : ParIdx s N → ℝ) (l : Nat) (V : Nat → Nat → ℝ) (i j : Nat) : ℝ :=
  (∑ k ∈ range (n l), V i k * parRead θ l k j) + parRead θ l N j

/-- The network with the activations replaced by fixed factors, except in softmax layers. -/
noncomputable def maskOut (θ : ParIdx s N → ℝ) : Nat → Nat → Nat → ℝ
  | 0 => A
  | l + 1 => fun i j =>
    if soft l then Real.exp (maskPre n θ l (maskOut θ l) i j) / ∑ q ∈ range (o l), Real.exp (maskPre n θ l (maskOut θ l) i q)
    else maskPre n θ l (maskOut θ l) i j * M l i j

theorem contDiff_maskPre {V : (ParIdx s N → ℝ) → Nat → Nat → ℝ} (hV : ∀ i j, ContDiff ℝ 2 (fun θ => V θ i j)) (l i j : Nat) :
    ContDiff ℝ 2 (fun θ : ParIdx s N → ℝ => maskPre n θ l (V θ) i j) := by
  unfold maskPre
  exact (ContDiff.sum fun k _ => (hV i k).mul (contDiff_parRead l k j)).add (contDiff_parRead l N j)

theorem contDiff_maskOut (ho : ∀ l, soft l → 0 < o l) (l : Nat) : ∀ i j, ContDiff ℝ 2 (fun θ : ParIdx s N → ℝ => maskOut n o soft M A θ l i j) := by
  induction l with
  | zero => exact fun i j => contDiff_const
  | succ l ih =>
    intro i j
    have hp := contDiff_maskPre (s := s) (N := N) n ih l
    show ContDiff ℝ 2 (fun θ => if soft l then _ else _)
    by_cases hs : soft l
    · simp only [if_pos hs]
      refine (hp i j).exp.div (ContDiff.sum fun q _ => (hp i q).exp) fun θ => ?_
      exact (Finset.sum_pos (fun q _ => Real.exp_pos _) ⟨0, mem_range.2 (ho l hs)⟩).ne'
    · simp only [if_neg hs]
      exact (hp i j).mul contDiff_const

end

/-- A smooth function on a ball is below its tangent plane plus a quadratic term, and its derivative is bounded. -/
theorem smooth_ball {E : Type} [NormedAddCommGroup E] [NormedSpace ℝ E] [FiniteDimensional ℝ E] {f : E → ℝ} (hf : ContDiff ℝ 2 f) (R : ℝ) :
    ∃ C > 0, (∀ x y, ‖x‖ ≤ R → ‖y‖ ≤ R → f y ≤ f x + fderiv ℝ f x (y - x) + C * ‖y - x‖ ^ 2) ∧ ∀ x, ‖x‖ ≤ R → ‖fderiv ℝ f x‖ ≤ C := by
  have := FiniteDimensional.proper ℝ E
  have hd : Differentiable ℝ f := hf.differentiable (by norm_num)
  have h1 : ContDiff ℝ 1 (fderiv ℝ f) := hf.fderiv_right (by norm_num)
  have hd1 : Differentiable ℝ (fderiv ℝ f) := h1.differentiable (by norm_num)
  have hc : Continuous (fderiv ℝ (fderiv ℝ f)) := h1.continuous_fderiv (by norm_num)
  obtain ⟨C1, hC1⟩ := (isCompact_closedBall (0 : E) R).exists_bound_of_continuousOn (f := fderiv ℝ (fderiv ℝ f)) hc.continuousOn
  obtain ⟨C2, hC2⟩ := (isCompact_closedBall (0 : E) R).exists_bound_of_continuousOn (f := fderiv ℝ f) h1.continuous.continuousOn
  have hcv : Convex ℝ (Metric.closedBall (0 : E) R) := convex_closedBall _ _
  refine ⟨max (max C1 C2) 1, by positivity, fun x y hx hy => ?_, fun x hx => (hC2 x (by simpa using hx)).trans ((le_max_right _ _).trans (le_max_left _ _))⟩
  have hx' : x ∈ Metric.closedBall (0 : E) R := by simpa using hx
  have hy' : y ∈ Metric.closedBall (0 : E) R := by simpa using hy
  obtain ⟨z, hz, e⟩ := domain_mvt (f := f) (f' := fun x => fderiv ℝ f x) (fun x _ => (hd x).hasFDerivAt.hasFDerivWithinAt) hcv hx' hy'
  have hzb := hcv.segment_subset hx' hy' hz
  have hl := hcv.norm_image_sub_le_of_norm_fderiv_le (𝕜 := ℝ) (f := fderiv ℝ f) (C := C1) (fun x _ => hd1 x) hC1 hx' hzb
  have hzx : ‖z - x‖ ≤ ‖y - x‖ := by
    obtain ⟨a, b, ha, hb, hab, rfl⟩ := hz
    have : a • x + b • y - x = b • (y - x) := by
      rw [smul_sub, show a = 1 - b by linarith, sub_smul, one_smul]; abel
    rw [this, norm_smul, Real.norm_eq_abs, abs_of_nonneg hb]
    exact mul_le_of_le_one_left (norm_nonneg _) (by linarith)
  have hC1' : 0 ≤ C1 := (norm_nonneg _).trans (hC1 x hx')
  have key : (fderiv ℝ f z - fderiv ℝ f x) (y - x) ≤ C1 * ‖y - x‖ ^ 2 := by
    refine (le_abs_self _).trans (((fderiv ℝ f z - fderiv ℝ f x).le_opNorm (y - x)).trans ?_)
    rw [pow_two, ← mul_assoc]
    exact mul_le_mul_of_nonneg_right (hl.trans (mul_le_mul_of_nonneg_left hzx hC1')) (norm_nonneg _)
  have h2 : C1 * ‖y - x‖ ^ 2 ≤ max (max C1 C2) 1 * ‖y - x‖ ^ 2 :=
    mul_le_mul_of_nonneg_right ((le_max_left _ _).trans (le_max_left _ _)) (sq_nonneg _)
  rw [sub_apply] at key
  linarith

end NN
