import Verif.Spec.Grad
import Verif.Lemmas.Back
import Verif.Real.Sum
import Mathlib.Analysis.Calculus.Deriv.Add
import Mathlib.Analysis.Calculus.Deriv.Mul
import Mathlib.Analysis.Calculus.Deriv.Inv
import Mathlib.Analysis.SpecialFunctions.ExpDeriv
import Mathlib.Algebra.BigOperators.Ring.Finset
import Mathlib.Algebra.BigOperators.Field
import Mathlib.Tactic.FieldSimp
/- From the derivative of the activation to the gradients of the layer. -/

set_option linter.unusedSectionVars false

namespace NN
open Finset Go

theorem layerForward_eq_infer {α : Type} [Flt α] {w : World α} {lp : Nat} (h : (w.lay lp).kind ≠ .dropout) (x : Mat) :
    layerForward lp x w = layerInfer lp x w := by
  unfold layerInfer
  symm
  refine (bind_ok (show layGet lp w = .ok (w.lay lp, w) from rfl)).trans ?_
  rw [if_neg h]

theorem computes_infer {L : LayerSpec ℝ} (h : L.kind ≠ .dropout) (r : Nat) (X : Nat → Nat → ℝ) :
    Computes L r X (infer L X) := by
  intro w lp wm bm x hL hX
  unfold wp
  rw [layerForward_eq_infer (by rw [hL.kind]; exact h)]
  exact wp_mono (layerInfer_spec hL hX) fun p w' ⟨h1, h2⟩ => ⟨h1, h2.res.mat⟩

theorem preact_real (L : LayerSpec ℝ) (X : Nat → Nat → ℝ) (i j : Nat) :
    preact L X i j = (∑ k ∈ range L.n, X i k * L.W k j) + L.b j := by
  simp [preact, fsum_real]

/-- The velocity of the pre-activations along a curve. -/
noncomputable def Curve.Z' {L : LayerSpec ℝ} {r : Nat} {X : Nat → Nat → ℝ} (c : Curve L r X) (i j : Nat) : ℝ :=
  (∑ k ∈ range L.n, (c.X' i k * L.W k j + X i k * c.W' k j)) + c.b' j

theorem Curve.hZ {L : LayerSpec ℝ} {r : Nat} {X : Nat → Nat → ℝ} (c : Curve L r X) {i j : Nat} (hi : i < r)
    (hj : j < L.o) : HasDerivAt (fun t => preact (c.at t) (c.Xt t) i j) (c.Z' i j) 0 := by
  simp only [preact_real]
  have h1 : HasDerivAt (fun t => ∑ k ∈ range L.n, c.Xt t i k * c.Wt t k j)
      (∑ k ∈ range L.n, (c.X' i k * L.W k j + X i k * c.W' k j)) 0 := ?_
  · exact h1.add (c.hb j hj)
  refine HasDerivAt.fun_sum fun k hk => ?_
  have hk := mem_range.1 hk
  have := (c.hX i k hi hk).mul (c.hW k j hk hj)
  rw [c.X0 i k hi hk, c.W0 k j hk hj] at this
  exact this

theorem Curve.Z0 {L : LayerSpec ℝ} {r : Nat} {X : Nat → Nat → ℝ} (c : Curve L r X) {i j : Nat} (hi : i < r)
    (hj : j < L.o) : preact (c.at 0) (c.Xt 0) i j = preact L X i j := by
  simp only [preact_real]
  show (∑ k ∈ range L.n, c.Xt 0 i k * c.Wt 0 k j) + c.bt 0 j = _
  rw [c.b0 j hj]
  congr 1
  refine Finset.sum_congr rfl fun k hk => ?_
  rw [c.X0 i k hi (mem_range.1 hk), c.W0 k j (mem_range.1 hk) hj]

/-- <G, Z'> = <XᵀG, W'> + <ΣG, b'> + <GWᵀ, X'>. -/
theorem Curve.pair_eq {L : LayerSpec ℝ} {r : Nat} {X : Nat → Nat → ℝ} (c : Curve L r X) (G : Nat → Nat → ℝ) :
    ∑ i ∈ range r, ∑ j ∈ range L.o, G i j * c.Z' i j =
      c.pair (fun k j => fsum r fun i => X i k *. G i j) (fun j => fsum r fun i => G i j)
        (fun i k => fsum L.o fun j => G i j *. L.W k j) := by
  unfold Curve.pair Curve.Z'
  simp only [fsum_real, real_mul]
  have e1 : ∑ k ∈ range L.n, ∑ j ∈ range L.o, (∑ i ∈ range r, X i k * G i j) * c.W' k j =
      ∑ i ∈ range r, ∑ j ∈ range L.o, ∑ k ∈ range L.n, G i j * (X i k * c.W' k j) := by
    simp only [Finset.sum_mul]
    calc _ = ∑ k ∈ range L.n, ∑ i ∈ range r, ∑ j ∈ range L.o, X i k * G i j * c.W' k j :=
          Finset.sum_congr rfl fun k _ => Finset.sum_comm
      _ = ∑ i ∈ range r, ∑ k ∈ range L.n, ∑ j ∈ range L.o, X i k * G i j * c.W' k j := Finset.sum_comm
      _ = ∑ i ∈ range r, ∑ j ∈ range L.o, ∑ k ∈ range L.n, X i k * G i j * c.W' k j :=
          Finset.sum_congr rfl fun i _ => Finset.sum_comm
      _ = _ := Finset.sum_congr rfl fun i _ => Finset.sum_congr rfl fun j _ =>
          Finset.sum_congr rfl fun k _ => by ring
  have e2 : ∑ j ∈ range L.o, (∑ i ∈ range r, G i j) * c.b' j = ∑ i ∈ range r, ∑ j ∈ range L.o, G i j * c.b' j := by
    simp only [Finset.sum_mul]
    exact Finset.sum_comm
  have e3 : ∑ i ∈ range r, ∑ k ∈ range L.n, (∑ j ∈ range L.o, G i j * L.W k j) * c.X' i k =
      ∑ i ∈ range r, ∑ j ∈ range L.o, ∑ k ∈ range L.n, G i j * (c.X' i k * L.W k j) := by
    simp only [Finset.sum_mul]
    refine Finset.sum_congr rfl fun i _ => ?_
    rw [Finset.sum_comm]
    exact Finset.sum_congr rfl fun j _ => Finset.sum_congr rfl fun k _ => by ring
  rw [e1, e2, e3, ← Finset.sum_add_distrib, ← Finset.sum_add_distrib]
  refine Finset.sum_congr rfl fun i _ => ?_
  rw [← Finset.sum_add_distrib, ← Finset.sum_add_distrib]
  refine Finset.sum_congr rfl fun j _ => ?_
  rw [mul_add, Finset.mul_sum]
  simp only [mul_add]
  rw [Finset.sum_add_distrib]
  ring

/-- The derivative of Σ D·act(Z) along every curve of pre-activations through `Z0` is <G, Z'>. -/
def ActGrad (act : (Nat → ℝ) → Nat → ℝ) (r o : Nat) (Z0 D G : Nat → Nat → ℝ) : Prop :=
  ∀ (Zt : ℝ → Nat → Nat → ℝ) (Z' : Nat → Nat → ℝ),
    (∀ i j, i < r → j < o → HasDerivAt (fun t => Zt t i j) (Z' i j) 0) →
    (∀ i j, i < r → j < o → Zt 0 i j = Z0 i j) →
    HasDerivAt (fun t => ∑ i ∈ range r, ∑ j ∈ range o, D i j * act (Zt t i) j)
      (∑ i ∈ range r, ∑ j ∈ range o, G i j * Z' i j) 0

theorem exactGrad_of_act {L : LayerSpec ℝ} {r : Nat} {X D G : Nat → Nat → ℝ} (hk : L.kind ≠ .dropout)
    (h : ActGrad (actRow L.kind L.slope L.o) r L.o (preact L X) D G) :
    ExactGrad L r X D (fun k j => fsum r fun i => X i k *. G i j) (fun j => fsum r fun i => G i j)
        (fun i k => fsum L.o fun j => G i j *. L.W k j) := by
  intro c
  refine ⟨fun t => infer (c.at t) (c.Xt t), fun t => computes_infer (L := c.at t) hk r _, ?_⟩
  rw [← c.pair_eq G]
  exact h (fun t => preact (c.at t) (c.Xt t)) c.Z' (fun i j hi hj => c.hZ hi hj) (fun i j hi hj => c.Z0 hi hj)

theorem isGrad_of_gradOk {w w' : World ℝ} {g : Grads} {L : LayerSpec ℝ} {r : Nat} {X D G : Nat → Nat → ℝ}
    (hg : GradOk w w' g r L.n L.o X G L.W) (hk : L.kind ≠ .dropout)
    (h : ActGrad (actRow L.kind L.slope L.o) r L.o (preact L X) D G) : IsGrad w' g L r X D :=
  ⟨hg.err, _, _, _, hg.dw.mat, hg.db.mat, hg.dx.mat, exactGrad_of_act hk h⟩

/-- Entrywise activations. -/
theorem actGrad_of_entry {act : (Nat → ℝ) → Nat → ℝ} {φ : ℝ → ℝ} (hact : ∀ z j, act z j = φ (z j)) {r o : Nat}
    {Z0 D G : Nat → Nat → ℝ} (φ' : Nat → Nat → ℝ)
    (hφ : ∀ i j, i < r → j < o → HasDerivAt φ (φ' i j) (Z0 i j))
    (hG : ∀ i j, i < r → j < o → G i j = D i j * φ' i j) : ActGrad act r o Z0 D G := by
  intro Zt Z' hZ h0
  refine HasDerivAt.fun_sum fun i hi => HasDerivAt.fun_sum fun j hj => ?_
  have hi := mem_range.1 hi
  have hj := mem_range.1 hj
  have h1 : HasDerivAt φ (φ' i j) (Zt 0 i j) := by rw [h0 i j hi hj]; exact hφ i j hi hj
  have := (h1.comp (0 : ℝ) (hZ i j hi hj)).const_mul (D i j)
  simp only [hact, hG i j hi hj]
  refine this.congr_deriv ?_
  ring

theorem hasDerivAt_relu {z : ℝ} (h : z ≠ 0) : HasDerivAt (fun x : ℝ => max x 0) (if z ≤ 0 then 0 else 1) z := by
  rcases lt_or_gt_of_ne h with h | h
  · rw [if_pos h.le]
    refine (hasDerivAt_const z (0 : ℝ)).congr_of_eventuallyEq ?_
    filter_upwards [Iio_mem_nhds h] with x hx
    exact max_eq_right (le_of_lt hx)
  · rw [if_neg (by linarith)]
    refine (hasDerivAt_id z).congr_of_eventuallyEq ?_
    filter_upwards [Ioi_mem_nhds h] with x hx
    exact max_eq_left (le_of_lt hx)

theorem hasDerivAt_leaky {z s : ℝ} (h : z ≠ 0) :
    HasDerivAt (fun x : ℝ => if x < 0 then x * s else x) (if z < 0 then s else 1) z := by
  rcases lt_or_gt_of_ne h with h | h
  · rw [if_pos h]
    have : HasDerivAt (fun x : ℝ => x * s) s z := by simpa using (hasDerivAt_id z).mul_const s
    refine this.congr_of_eventuallyEq ?_
    filter_upwards [Iio_mem_nhds h] with x hx
    exact if_pos hx
  · rw [if_neg (by linarith)]
    refine (hasDerivAt_id z).congr_of_eventuallyEq ?_
    filter_upwards [Ioi_mem_nhds h] with x hx
    exact if_neg (not_lt.2 (le_of_lt hx))

theorem hasDerivAt_sigmoid (z : ℝ) :
    HasDerivAt (fun x : ℝ => 1 / (1 + Real.exp (-x))) ((1 / (1 + Real.exp (-z))) * (1 - 1 / (1 + Real.exp (-z)))) z := by
  have hp : (1 + Real.exp (-z)) ≠ 0 := by positivity
  have h1 : HasDerivAt (fun x : ℝ => 1 + Real.exp (-x)) (-Real.exp (-z)) z := by
    have := ((hasDerivAt_id z).neg.exp).const_add 1
    simpa using this
  have h2 := (hasDerivAt_const z (1 : ℝ)).div h1 hp
  refine h2.congr_deriv ?_
  field_simp
  ring

/-- Softmax. -/
theorem actGrad_softmax {r o : Nat} (ho : 0 < o) {Z0 D : Nat → Nat → ℝ} (slope : ℝ) :
    ActGrad (actRow .softmax slope o) r o Z0 D
      (smBack o (fun i j => actRow .softmax slope o (Z0 i) j) D) := by
  intro Zt Z' hZ h0
  refine HasDerivAt.fun_sum fun i hi => ?_
  have hi := mem_range.1 hi
  set S : ℝ := ∑ k ∈ range o, Real.exp (Z0 i k) with hS
  have hSpos : 0 < S := Finset.sum_pos (fun k _ => Real.exp_pos _) ⟨0, mem_range.2 ho⟩
  have hexp : ∀ j, j < o → HasDerivAt (fun t => Real.exp (Zt t i j)) (Real.exp (Z0 i j) * Z' i j) 0 := by
    intro j hj
    have := (hZ i j hi hj).exp
    rwa [h0 i j hi hj] at this
  have hsum : HasDerivAt (fun t => ∑ k ∈ range o, Real.exp (Zt t i k))
      (∑ k ∈ range o, Real.exp (Z0 i k) * Z' i k) 0 :=
    HasDerivAt.fun_sum fun k hk => hexp k (mem_range.1 hk)
  have hS0 : (∑ k ∈ range o, Real.exp (Zt 0 i k)) = S :=
    Finset.sum_congr rfl fun k hk => by rw [h0 i k hi (mem_range.1 hk)]
  set p : Nat → ℝ := fun j => Real.exp (Z0 i j) / S with hp
  have hj : ∀ j ∈ range o, HasDerivAt (fun t => D i j * actRow .softmax slope o (Zt t i) j)
      (D i j * (p j * Z' i j - p j * ∑ k ∈ range o, p k * Z' i k)) 0 := by
    intro j hj
    have hj := mem_range.1 hj
    have h1 := ((hexp j hj).div hsum (by rw [hS0]; exact hSpos.ne')).const_mul (D i j)
    rw [hS0, h0 i j hi hj] at h1
    have e : (fun t => D i j * actRow .softmax slope o (Zt t i) j) =
        fun t => D i j * (Real.exp (Zt t i j) / ∑ k ∈ range o, Real.exp (Zt t i k)) := by
      funext t; simp [actRow, fsum_real]
    rw [e]
    refine h1.congr_deriv ?_
    have e2 : ∑ k ∈ range o, p k * Z' i k = (∑ k ∈ range o, Real.exp (Z0 i k) * Z' i k) / S := by
      rw [Finset.sum_div]
      exact Finset.sum_congr rfl fun k _ => by simp only [hp]; ring
    rw [e2]
    simp only [hp]
    field_simp
  refine (HasDerivAt.fun_sum hj).congr_deriv ?_
  have hpe : ∀ j, actRow .softmax slope o (Z0 i) j = p j := by
    intro j; simp [actRow, fsum_real, hp, hS]
  have hsm : ∀ j ∈ range o, smBack o (fun i j => actRow .softmax slope o (Z0 i) j) D i j =
      p j * D i j - p j * ∑ k ∈ range o, p k * D i k := by
    intro j hj
    simp only [smBack, fsum_real, hpe, real_mul, real_sub, Finset.sum_range_one, sub_mul, Finset.sum_sub_distrib]
    congr 1
    · rw [Finset.sum_eq_single j]
      · simp
      · intro k _ hk
        rw [if_neg (Ne.symm hk)]; simp
      · intro h; exact absurd hj h
    · rw [Finset.mul_sum]
      exact Finset.sum_congr rfl fun k _ => by ring
  have e3 : ∑ j ∈ range o, smBack o (fun i j => actRow .softmax slope o (Z0 i) j) D i j * Z' i j =
      ∑ j ∈ range o, (p j * D i j - p j * ∑ k ∈ range o, p k * D i k) * Z' i j :=
    Finset.sum_congr rfl fun j hj => by rw [hsm j hj]
  rw [e3]
  simp only [mul_sub, sub_mul, Finset.sum_sub_distrib]
  congr 1
  · exact Finset.sum_congr rfl fun j _ => by ring
  · have a1 : ∑ j ∈ range o, D i j * (p j * ∑ k ∈ range o, p k * Z' i k) =
        (∑ j ∈ range o, p j * D i j) * ∑ k ∈ range o, p k * Z' i k := by
      rw [Finset.sum_mul]; exact Finset.sum_congr rfl fun j _ => by ring
    have a2 : ∑ j ∈ range o, p j * (∑ k ∈ range o, p k * D i k) * Z' i j =
        (∑ j ∈ range o, p j * Z' i j) * ∑ k ∈ range o, p k * D i k := by
      rw [Finset.sum_mul]; exact Finset.sum_congr rfl fun j _ => by ring
    rw [a1, a2, mul_comm]

end NN
