import Mathlib.Analysis.InnerProductSpace.PiL2
import Mathlib.Algebra.Order.Chebyshev
import Verif.Real.SoftmaxRegression
import Verif.Real.Incremental
/- Softmax regression with the data divided into batches, over the reals: the cross-entropies of the batches are convex functions of
the coefficients with bounded and Lipschitz-continuous gradients, so the incremental gradient method converges. -/

namespace NN
open Finset RealInnerProductSpace

/-- coefficients as a vector -/
noncomputable def toE (p c : Nat) (θ : Nat → Nat → ℝ) : EuclideanSpace ℝ (Fin p × Fin c) := WithLp.toLp 2 fun q => θ q.1 q.2

/-- the coefficients in a vector -/
noncomputable def ofE {p c : Nat} (v : EuclideanSpace ℝ (Fin p × Fin c)) (k j : Nat) : ℝ := if h : k < p ∧ j < c then v (⟨k, h.1⟩, ⟨j, h.2⟩) else 0

theorem ofE_toE {p c : Nat} (θ : Nat → Nat → ℝ) {k j : Nat} (hk : k < p) (hj : j < c) : ofE (toE p c θ) k j = θ k j := by
  unfold ofE toE
  rw [dif_pos ⟨hk, hj⟩]

theorem toE_ofE {p c : Nat} (v : EuclideanSpace ℝ (Fin p × Fin c)) : toE p c (ofE v) = v := by
  ext q
  unfold ofE toE
  simp

theorem toE_congr {p c : Nat} {θ θ' : Nat → Nat → ℝ} (h : ∀ k j, k < p → j < c → θ k j = θ' k j) : toE p c θ = toE p c θ' := by
  unfold toE
  congr 1
  funext q
  exact h _ _ q.1.2 q.2.2

theorem toE_sub (p c : Nat) (θ θ' : Nat → Nat → ℝ) : toE p c (fun k j => θ k j - θ' k j) = toE p c θ - toE p c θ' := by
  ext q
  simp [toE]

theorem toE_smul (p c : Nat) (a : ℝ) (θ : Nat → Nat → ℝ) : toE p c (fun k j => θ k j * a) = a • toE p c θ := by
  ext q
  simp [toE, mul_comm]

theorem inner_toE (p c : Nat) (θ θ' : Nat → Nat → ℝ) : ⟪toE p c θ, toE p c θ'⟫ = ∑ k ∈ range p, ∑ j ∈ range c, θ k j * θ' k j := by
  rw [PiLp.inner_apply, Fintype.sum_prod_type, Finset.sum_range]
  refine sum_congr rfl fun k _ => ?_
  rw [Finset.sum_range]
  refine sum_congr rfl fun j _ => ?_
  simp [toE, mul_comm]

theorem norm_toE_sq (p c : Nat) (θ : Nat → Nat → ℝ) : ‖toE p c θ‖ ^ 2 = ∑ k ∈ range p, ∑ j ∈ range c, θ k j ^ 2 := by
  rw [← real_inner_self_eq_norm_sq, inner_toE]
  exact sum_congr rfl fun k _ => sum_congr rfl fun j _ => by ring

/-- The softmax changes by at most four times the change of its arguments. -/
theorem smaxP_lip {c : Nat} (hc : 0 < c) (z d : Nat → ℝ) {δ : ℝ} (h : ∀ k, k < c → |d k| ≤ δ) {j : Nat} (hj : j < c) :
    |smaxP c (fun k => z k + d k) j - smaxP c z j| ≤ 4 * δ := by
  have hδ : 0 ≤ δ := (abs_nonneg _).trans (h j hj)
  have hp0 := smaxP_nonneg c z j
  have hp1 := smaxP_le hc z hj
  have hq0 := smaxP_nonneg c (fun k => z k + d k) j
  have hq1 := smaxP_le hc (fun k => z k + d k) hj
  rcases le_or_gt δ (1 / 4) with hs | hs
  · have hZ := sumExp_pos hc z
    have hZ' := sumExp_pos hc fun k => z k + d k
    have e1 : ∑ k ∈ range c, Real.exp (z k + d k) ≤ (∑ k ∈ range c, Real.exp (z k)) * Real.exp δ := by
      rw [sum_mul]
      refine sum_le_sum fun k hk => ?_
      rw [Real.exp_add]
      exact mul_le_mul_of_nonneg_left (Real.exp_le_exp.2 (abs_le.1 (h k (mem_range.1 hk))).2) (Real.exp_pos _).le
    have e2 : (∑ k ∈ range c, Real.exp (z k)) * Real.exp (-δ) ≤ ∑ k ∈ range c, Real.exp (z k + d k) := by
      rw [sum_mul]
      refine sum_le_sum fun k hk => ?_
      rw [Real.exp_add]
      exact mul_le_mul_of_nonneg_left (Real.exp_le_exp.2 (abs_le.1 (h k (mem_range.1 hk))).1) (Real.exp_pos _).le
    set Z := ∑ k ∈ range c, Real.exp (z k) with hZd
    set Z' := ∑ k ∈ range c, Real.exp (z k + d k) with hZd'
    have hdj := abs_le.1 (h j hj)
    have up : smaxP c (fun k => z k + d k) j ≤ smaxP c z j * Real.exp (2 * δ) := by
      unfold smaxP
      rw [← hZd', ← hZd, div_le_iff₀ hZ']
      have : Real.exp (z j) / Z * Real.exp (2 * δ) * (Z * Real.exp (-δ)) ≤ Real.exp (z j) / Z * Real.exp (2 * δ) * Z' :=
        mul_le_mul_of_nonneg_left e2 (mul_pos (div_pos (Real.exp_pos _) hZ) (Real.exp_pos _)).le
      refine le_trans ?_ this
      have e : Real.exp (z j) / Z * Real.exp (2 * δ) * (Z * Real.exp (-δ)) = Real.exp (z j) * Real.exp δ := by
        have : Real.exp (2 * δ) * Real.exp (-δ) = Real.exp δ := by rw [← Real.exp_add]; congr 1; ring
        rw [← this]
        field_simp
      rw [e, Real.exp_add]
      exact mul_le_mul_of_nonneg_left (Real.exp_le_exp.2 hdj.2) (Real.exp_pos _).le
    have lo : smaxP c z j * Real.exp (-(2 * δ)) ≤ smaxP c (fun k => z k + d k) j := by
      unfold smaxP
      rw [← hZd', ← hZd, le_div_iff₀ hZ']
      have : Real.exp (z j) / Z * Real.exp (-(2 * δ)) * Z' ≤ Real.exp (z j) / Z * Real.exp (-(2 * δ)) * (Z * Real.exp δ) :=
        mul_le_mul_of_nonneg_left e1 (mul_pos (div_pos (Real.exp_pos _) hZ) (Real.exp_pos _)).le
      refine this.trans ?_
      have e : Real.exp (z j) / Z * Real.exp (-(2 * δ)) * (Z * Real.exp δ) = Real.exp (z j) * Real.exp (-δ) := by
        have : Real.exp (-(2 * δ)) * Real.exp δ = Real.exp (-δ) := by rw [← Real.exp_add]; congr 1; ring
        rw [← this]
        field_simp
      rw [e, Real.exp_add]
      exact mul_le_mul_of_nonneg_left (Real.exp_le_exp.2 hdj.1) (Real.exp_pos _).le
    have b1 : Real.exp (2 * δ) ≤ 1 + 4 * δ := by
      have := Real.abs_exp_sub_one_sub_id_le (x := 2 * δ) (by rw [abs_of_nonneg (by linarith)]; linarith)
      have := (abs_le.1 this).2
      nlinarith
    have b2 : 1 - 2 * δ ≤ Real.exp (-(2 * δ)) := by
      have := Real.add_one_le_exp (-(2 * δ))
      linarith
    rw [abs_le]
    constructor <;> nlinarith
  · rw [abs_le]
    constructor <;> linarith

theorem score_sq_le {p c : Nat} (X Δ : Nat → Nat → ℝ) {R : ℝ} {i j : Nat} (hR : ∑ k ∈ range p, X i k ^ 2 ≤ R) (hj : j < c) :
    |score p X Δ i j| ≤ Real.sqrt R * ‖toE p c Δ‖ := by
  have hR0 : 0 ≤ R := (sum_nonneg fun _ _ => sq_nonneg _).trans hR
  have h1 : score p X Δ i j ^ 2 ≤ (∑ k ∈ range p, X i k ^ 2) * ∑ k ∈ range p, Δ k j ^ 2 := sum_mul_sq_le_sq_mul_sq _ _ _
  have h2 : ∑ k ∈ range p, Δ k j ^ 2 ≤ ‖toE p c Δ‖ ^ 2 := by
    rw [norm_toE_sq]
    refine sum_le_sum fun k _ => ?_
    exact single_le_sum (f := fun j => Δ k j ^ 2) (fun _ _ => sq_nonneg _) (mem_range.2 hj)
  have h3 : score p X Δ i j ^ 2 ≤ (Real.sqrt R * ‖toE p c Δ‖) ^ 2 := by
    rw [mul_pow, Real.sq_sqrt hR0]
    exact h1.trans (mul_le_mul hR h2 (sum_nonneg fun _ _ => sq_nonneg _) hR0)
  exact abs_le_of_sq_le_sq h3 (mul_nonneg (Real.sqrt_nonneg _) (norm_nonneg _))

theorem grad_norm_le {r c p : Nat} (X e : Nat → Nat → ℝ) {R M : ℝ} (hr : 0 < r) (hM : 0 ≤ M) (hR : ∀ i, i < r → ∑ k ∈ range p, X i k ^ 2 ≤ R)
    (he : ∀ i j, i < r → j < c → |e i j| ≤ M) : ‖toE p c fun k j => ∑ i ∈ range r, X i k * (e i j / r)‖ ≤ Real.sqrt (R * c) * M := by
  have hR0 : 0 ≤ R := (sum_nonneg fun _ _ => sq_nonneg _).trans (hR 0 hr)
  have hrr : (0 : ℝ) < r := by exact_mod_cast hr
  refine abs_le_of_sq_le_sq' ?_ (mul_nonneg (Real.sqrt_nonneg _) hM) |>.2
  rw [norm_toE_sq, mul_pow, Real.sq_sqrt (by positivity)]
  have h1 : ∀ k j, j < c → (∑ i ∈ range r, X i k * (e i j / r)) ^ 2 ≤ (∑ i ∈ range r, X i k ^ 2) * (M ^ 2 / r) := by
    intro k j hj
    refine (sum_mul_sq_le_sq_mul_sq _ _ _).trans (mul_le_mul_of_nonneg_left ?_ (sum_nonneg fun _ _ => sq_nonneg _))
    have : ∑ i ∈ range r, (e i j / r) ^ 2 ≤ ∑ _i ∈ range r, M ^ 2 / (r : ℝ) ^ 2 := by
      refine sum_le_sum fun i hi => ?_
      rw [div_pow, ← sq_abs (e i j)]
      exact div_le_div_of_nonneg_right (pow_le_pow_left₀ (abs_nonneg _) (he i j (mem_range.1 hi) hj) 2) (sq_nonneg _)
    refine this.trans (le_of_eq ?_)
    rw [sum_const, card_range, nsmul_eq_mul]
    field_simp
  have h2 : ∑ k ∈ range p, ∑ j ∈ range c, (∑ i ∈ range r, X i k * (e i j / r)) ^ 2 ≤
      ∑ k ∈ range p, ∑ _j ∈ range c, (∑ i ∈ range r, X i k ^ 2) * (M ^ 2 / r) :=
    sum_le_sum fun k _ => sum_le_sum fun j hj => h1 k j (mem_range.1 hj)
  refine h2.trans ?_
  simp only [sum_const, card_range, nsmul_eq_mul]
  rw [← mul_sum, ← sum_mul, sum_comm]
  have h3 : ∑ i ∈ range r, ∑ k ∈ range p, X i k ^ 2 ≤ r * R := by
    refine (sum_le_sum fun i hi => hR i (mem_range.1 hi)).trans (le_of_eq ?_)
    rw [sum_const, card_range, nsmul_eq_mul]
  have h4 : (∑ i ∈ range r, ∑ k ∈ range p, X i k ^ 2) * (M ^ 2 / r) ≤ r * R * (M ^ 2 / r) :=
    mul_le_mul_of_nonneg_right h3 (by positivity)
  have h5 : (r : ℝ) * R * (M ^ 2 / r) = R * M ^ 2 := by field_simp
  rw [h5] at h4
  refine (mul_le_mul_of_nonneg_left h4 (Nat.cast_nonneg c)).trans (le_of_eq ?_)
  ring

theorem smr_nonneg (r c p : Nat) (X : Nat → Nat → ℝ) (l : Nat → Nat) (hl : ∀ i, i < r → l i < c) (θ : Nat → Nat → ℝ) : 0 ≤ smr r c p X l θ := by
  refine div_nonneg (sum_nonneg fun i hi => ?_) (Nat.cast_nonneg r)
  have hli := hl i (mem_range.1 hi)
  unfold lse
  have h1 := single_le_sum (f := fun k => Real.exp (score p X θ i k)) (fun _ _ => (Real.exp_pos _).le) (mem_range.2 hli)
  have h2 := Real.log_le_log (Real.exp_pos _) h1
  rw [Real.log_exp] at h2
  linarith

theorem smr_ext {r c p : Nat} (X : Nat → Nat → ℝ) (l : Nat → Nat) (hl : ∀ i, i < r → l i < c) {θ θ' : Nat → Nat → ℝ}
    (h : ∀ k j, k < p → j < c → θ k j = θ' k j) : smr r c p X l θ = smr r c p X l θ' := by
  have hs : ∀ i j, j < c → score p X θ i j = score p X θ' i j := fun i j hj =>
    sum_congr rfl fun k hk => by rw [h k j (mem_range.1 hk) hj]
  unfold smr lse
  congr 1
  refine sum_congr rfl fun i hi => ?_
  rw [hs i (l i) (hl i (mem_range.1 hi)), sum_congr rfl fun k hk => by rw [hs i k (mem_range.1 hk)]]

theorem pErr_ext {c p : Nat} (X : Nat → Nat → ℝ) (l : Nat → Nat) {θ θ' : Nat → Nat → ℝ}
    (h : ∀ k j, k < p → j < c → θ k j = θ' k j) (i : Nat) {j : Nat} (hj : j < c) : pErr c p X l θ i j = pErr c p X l θ' i j := by
  have hs : ∀ i j, j < c → score p X θ i j = score p X θ' i j := fun i j hj =>
    sum_congr rfl fun k hk => by rw [h k j (mem_range.1 hk) hj]
  unfold pErr smaxP
  rw [hs i j hj, sum_congr rfl fun k hk => by rw [hs i k (mem_range.1 hk)]]

theorem smrGrad_ext {r c p : Nat} (X : Nat → Nat → ℝ) (l : Nat → Nat) {θ θ' : Nat → Nat → ℝ}
    (h : ∀ k j, k < p → j < c → θ k j = θ' k j) (k : Nat) {j : Nat} (hj : j < c) : smrGrad r c p X l θ k j = smrGrad r c p X l θ' k j :=
  sum_congr rfl fun i _ => by rw [pErr_ext X l h i hj]

/-- a batch: the rows from b.1 on -/
noncomputable def bRows (b : Nat × Nat) (X : Nat → Nat → ℝ) (i k : Nat) : ℝ := X (b.1 + i) k

/-- its cross-entropy -/
noncomputable def bLoss (c p : Nat) (X : Nat → Nat → ℝ) (l : Nat → Nat) (b : Nat × Nat) (θ : Nat → Nat → ℝ) : ℝ :=
  smr b.2 c p (bRows b X) (fun i => l (b.1 + i)) θ

/-- its gradient -/
noncomputable def bGrad (c p : Nat) (X : Nat → Nat → ℝ) (l : Nat → Nat) (b : Nat × Nat) (θ : Nat → Nat → ℝ) : Nat → Nat → ℝ :=
  smrGrad b.2 c p (bRows b X) (fun i => l (b.1 + i)) θ

theorem convexParts_smr {c p : Nat} (X : Nat → Nat → ℝ) (l : Nat → Nat) {r m : Nat} (bs : Nat → Nat × Nat) {R : ℝ} (hc : 0 < c)
    (hb : ∀ s, s < m → 0 < (bs s).2 ∧ (bs s).1 + (bs s).2 ≤ r) (hl : ∀ i, i < r → l i < c)
    (hR : ∀ i, i < r → ∑ k ∈ range p, X i k ^ 2 ≤ R) :
    ConvexParts m (fun s v => bLoss c p X l (bs s) (ofE v)) (fun s v => toE p c (bGrad c p X l (bs s) (ofE v)))
      (Real.sqrt (R * c) * 1) (Real.sqrt (R * c) * (4 * Real.sqrt R)) := by
  refine ⟨fun s v w hs => ?_, fun s v hs => ?_, fun s v hs => ?_, fun s v w hs => ?_, by positivity⟩
  · obtain ⟨-, h2⟩ := hb s hs
    have e : w - v = toE p c (fun k j => ofE w k j - ofE v k j) := by rw [toE_sub, toE_ofE, toE_ofE]
    rw [e, inner_toE]
    have := smr_lower (r := (bs s).2) (c := c) (p := p) (bRows (bs s) X) (fun i => l ((bs s).1 + i)) (fun i hi => hl _ (by omega)) (ofE v)
      (fun k j => ofE w k j - ofE v k j)
    simp only [add_sub_cancel] at this
    exact this
  · obtain ⟨-, h2⟩ := hb s hs
    exact smr_nonneg _ _ _ _ _ (fun i hi => hl _ (by omega)) _
  · obtain ⟨h1, h2⟩ := hb s hs
    exact grad_norm_le (bRows (bs s) X) _ h1 zero_le_one (fun i hi => hR _ (by omega)) fun i j _ hj => pErr_abs _ _ _ hj
  · obtain ⟨h1, h2⟩ := hb s hs
    have e : toE p c (bGrad c p X l (bs s) (ofE v)) - toE p c (bGrad c p X l (bs s) (ofE w)) =
        toE p c fun k j => ∑ i ∈ range (bs s).2, bRows (bs s) X i k *
          ((pErr c p (bRows (bs s) X) (fun i => l ((bs s).1 + i)) (ofE v) i j -
            pErr c p (bRows (bs s) X) (fun i => l ((bs s).1 + i)) (ofE w) i j) / (bs s).2) := by
      rw [← toE_sub]
      congr 1
      funext k j
      unfold bGrad smrGrad
      rw [← sum_sub_distrib]
      exact sum_congr rfl fun i _ => by ring
    rw [e, mul_assoc]
    refine grad_norm_le _ _ h1 (by positivity) (fun i hi => hR _ (by omega)) fun i j hi hj => ?_
    have hvw : v - w = toE p c (fun k j => ofE v k j - ofE w k j) := by rw [toE_sub, toE_ofE, toE_ofE]
    have hsc : ∀ k, k < c → |score p (bRows (bs s) X) (fun k j => ofE v k j - ofE w k j) i k| ≤ Real.sqrt R * ‖v - w‖ := by
      intro k hk
      rw [hvw]
      exact score_sq_le _ _ (hR _ (by omega)) hk
    have := smaxP_lip hc (score p (bRows (bs s) X) (ofE w) i) (score p (bRows (bs s) X) (fun k j => ofE v k j - ofE w k j) i) hsc hj
    have e2 : (fun k => score p (bRows (bs s) X) (ofE w) i k + score p (bRows (bs s) X) (fun k j => ofE v k j - ofE w k j) i k) =
        score p (bRows (bs s) X) (ofE v) i := by
      funext k
      rw [← score_add]
      simp only [add_sub_cancel]
    rw [e2] at this
    unfold pErr
    rw [sub_sub_sub_cancel_right, mul_assoc]
    exact this

/-- Gradient descent over the batches bs 0, ..., bs (m-1) in turn, with the steps a 0, a 1, ... -/
noncomputable def batchIter (c p : Nat) (X : Nat → Nat → ℝ) (l : Nat → Nat) (m : Nat) (bs : Nat → Nat × Nat) (a : Nat → ℝ) (θ : Nat → Nat → ℝ) :
    Nat → Nat → Nat → ℝ
  | 0 => θ
  | t + 1 => fun k j => batchIter c p X l m bs a θ t k j - bGrad c p X l (bs (t % m)) (batchIter c p X l m bs a θ t) k j * a t

theorem batchIter_converge {c p : Nat} (X : Nat → Nat → ℝ) (l : Nat → Nat) {r m : Nat} (bs : Nat → Nat × Nat) {R : ℝ} (hc : 0 < c) (hm : 0 < m)
    (hb : ∀ s, s < m → 0 < (bs s).2 ∧ (bs s).1 + (bs s).2 ≤ r) (hl : ∀ i, i < r → l i < c)
    (hR : ∀ i, i < r → ∑ k ∈ range p, X i k ^ 2 ≤ R) (a : Nat → ℝ) (ha : Antitone a) (h0 : ∀ t, 0 ≤ a t)
    (hsq : Summable fun k => a (k * m) ^ 2) (hdiv : ¬ Summable fun k => a ((k + 1) * m)) (θ θs : Nat → Nat → ℝ) {ε : ℝ} (hε : 0 < ε) :
    ∃ K : Nat, ∀ k, K ≤ k → ∑ s ∈ range m, bLoss c p X l (bs s) (batchIter c p X l m bs a θ (k * m)) ≤
      ∑ s ∈ range m, bLoss c p X l (bs s) θs + ε := by
  have hcp := convexParts_smr X l bs hc hb hl hR
  have hx : Incremental m (fun s v => toE p c (bGrad c p X l (bs s) (ofE v))) a (fun t => toE p c (batchIter c p X l m bs a θ t)) := by
    refine ⟨fun t => ?_, ha, h0⟩
    rw [← toE_smul, ← toE_sub]
    refine toE_congr fun k j hk hj => ?_
    have e : bGrad c p X l (bs (t % m)) (batchIter c p X l m bs a θ t) k j =
        bGrad c p X l (bs (t % m)) (ofE (toE p c (batchIter c p X l m bs a θ t))) k j :=
      smrGrad_ext _ _ (fun k j hk hj => (ofE_toE (batchIter c p X l m bs a θ t) hk hj).symm) k hj
    rw [← e]
    rfl
  obtain ⟨K, hK⟩ := hx.converge hm hcp hsq hdiv (toE p c θs) hε
  refine ⟨K, fun k hk => ?_⟩
  have := hK k hk
  have e : ∀ θ, ∑ s ∈ range m, bLoss c p X l (bs s) (ofE (toE p c θ)) = ∑ s ∈ range m, bLoss c p X l (bs s) θ := by
    intro θ
    refine sum_congr rfl fun s hs => smr_ext _ _ (fun i hi => hl _ ?_) fun k j hk hj => ofE_toE _ hk hj
    have := hb s (mem_range.1 hs)
    omega
  rwa [e, e] at this

end NN
