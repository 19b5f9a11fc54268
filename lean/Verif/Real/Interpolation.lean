import Verif.Real.SoftmaxBatches
/- The incremental gradient method with a constant step, when all functions have a common zero: the distance to every common zero
decreases with each step, and the sum over all passes of the values is bounded, so the values tend to 0.  Applied to least squares with
an exact solution, the data divided into batches. -/

namespace NN
open Finset RealInnerProductSpace

variable {E : Type} [NormedAddCommGroup E] [InnerProductSpace ℝ E]

/-- m functions with gradients g and the common zero z -/
structure ZeroParts (m : Nat) (f : Nat → E → ℝ) (g : Nat → E → E) (ρ : ℝ) (z : E) : Prop where
  nonneg : ∀ i x, i < m → 0 ≤ f i x
  inner : ∀ i x, i < m → 2 * f i x ≤ ⟪g i x, x - z⟫
  grad : ∀ i x, i < m → ‖g i x‖ ^ 2 ≤ 4 * ρ * f i x
  move : ∀ i x y, i < m → f i y ≤ 2 * f i x + 2 * ρ * ‖x - y‖ ^ 2
  rpos : 0 ≤ ρ

variable {m : Nat} {f : Nat → E → ℝ} {g : Nat → E → E} {ρ a : ℝ} {z : E}

/-- One step brings the iterate closer to the zero. -/
theorem ZeroParts.step (h : ZeroParts m f g ρ z) (h0 : 0 < a) (ha : a * ρ ≤ 1 / 2) {i : Nat} (hi : i < m) (x : E) :
    ‖x - a • g i x - z‖ ^ 2 ≤ ‖x - z‖ ^ 2 - 2 * a * f i x := by
  have e : x - a • g i x - z = (x - z) - a • g i x := by abel
  have h1 := h.inner i x hi
  have h2 := h.grad i x hi
  have h3 := h.nonneg i x hi
  rw [e, norm_sub_sq_real, inner_smul_right, norm_smul, Real.norm_of_nonneg h0.le, real_inner_comm]
  have h4 : (a * ‖g i x‖) ^ 2 ≤ 2 * a * f i x := by
    have k1 : (a * ‖g i x‖) ^ 2 = a ^ 2 * ‖g i x‖ ^ 2 := by ring
    have k2 : a ^ 2 * ‖g i x‖ ^ 2 ≤ a ^ 2 * (4 * ρ * f i x) := mul_le_mul_of_nonneg_left h2 (sq_nonneg a)
    have k3 : a ^ 2 * (4 * ρ * f i x) = a * ρ * (4 * a * f i x) := by ring
    have k4 : a * ρ * (4 * a * f i x) ≤ 1 / 2 * (4 * a * f i x) := mul_le_mul_of_nonneg_right ha (by positivity)
    linarith
  have h5 : a * (2 * f i x) ≤ a * ⟪g i x, x - z⟫ := mul_le_mul_of_nonneg_left h1 h0.le
  linarith

/-- A pass over the functions that starts at y 0: the values at the start are bounded by the decrease of the distance. -/
theorem ZeroParts.pass (h : ZeroParts m f g ρ z) (h0 : 0 < a) (ha : a * ρ ≤ 1 / 2) (y : Nat → E)
    (hy : ∀ i, i < m → y (i + 1) = y i - a • g i (y i)) :
    2 * a * ∑ i ∈ range m, f i (y i) ≤ ‖y 0 - z‖ ^ 2 - ‖y m - z‖ ^ 2 ∧
      ∑ i ∈ range m, f i (y 0) ≤ 2 * (1 + m ^ 2) * ∑ i ∈ range m, f i (y i) := by
  have hU : ∀ n, n ≤ m → 2 * a * ∑ i ∈ range n, f i (y i) ≤ ‖y 0 - z‖ ^ 2 - ‖y n - z‖ ^ 2 := by
    intro n hn
    induction n with
    | zero => simp
    | succ n ih =>
      have := ih (by omega)
      have h1 := h.step h0 ha (show n < m by omega) (y n)
      rw [← hy n (by omega)] at h1
      rw [sum_range_succ, mul_add]
      linarith
  refine ⟨hU m le_rfl, ?_⟩
  set U := ∑ i ∈ range m, f i (y i) with hUd
  have hU0 : 0 ≤ U := sum_nonneg fun i hi => h.nonneg i _ (mem_range.1 hi)
  have hdist : ∀ n, n ≤ m → ‖y n - y 0‖ ^ 2 ≤ n * (a ^ 2 * (4 * ρ * ∑ i ∈ range n, f i (y i))) := by
    intro n hn
    have e : y n - y 0 = -∑ i ∈ range n, a • g i (y i) := by
      induction n with
      | zero => simp
      | succ n ih =>
        rw [sum_range_succ, hy n (by omega), neg_add, ← ih (by omega)]
        abel
    rw [e, norm_neg]
    have h1 := norm_sum_le (range n) fun i => a • g i (y i)
    have h2 : ‖∑ i ∈ range n, a • g i (y i)‖ ^ 2 ≤ (∑ i ∈ range n, ‖a • g i (y i)‖) ^ 2 := pow_le_pow_left₀ (norm_nonneg _) h1 2
    have h3 := sq_sum_le_card_mul_sum_sq (s := range n) (f := fun i => ‖a • g i (y i)‖)
    rw [card_range] at h3
    refine h2.trans (h3.trans (mul_le_mul_of_nonneg_left ?_ (Nat.cast_nonneg n)))
    rw [mul_sum, mul_sum]
    refine sum_le_sum fun i hi => ?_
    rw [norm_smul, mul_pow, Real.norm_eq_abs, sq_abs]
    exact mul_le_mul_of_nonneg_left (h.grad i _ (by have := mem_range.1 hi; omega)) (sq_nonneg a)
  have hone : ∀ i, i < m → f i (y 0) ≤ 2 * f i (y i) + 2 * m * U := by
    intro i hi
    have h1 := h.move i (y i) (y 0) hi
    have h2 := hdist i hi.le
    have hρ := h.rpos
    have h3 : ∑ j ∈ range i, f j (y j) ≤ U :=
      sum_le_sum_of_subset_of_nonneg (range_subset_range.2 hi.le) fun j hj _ => h.nonneg j _ (mem_range.1 hj)
    have hs0 : 0 ≤ ∑ j ∈ range i, f j (y j) := sum_nonneg fun j hj => h.nonneg j _ (by have := mem_range.1 hj; omega)
    have him : (i : ℝ) ≤ m := by exact_mod_cast hi.le
    have h4 : 2 * ρ * ‖y i - y 0‖ ^ 2 ≤ 2 * ρ * (m * (a ^ 2 * (4 * ρ * U))) := by
      refine mul_le_mul_of_nonneg_left (h2.trans ?_) (by positivity)
      refine mul_le_mul him ?_ (by positivity) (Nat.cast_nonneg m)
      exact mul_le_mul_of_nonneg_left (mul_le_mul_of_nonneg_left h3 (by positivity)) (sq_nonneg a)
    have h5 : 2 * ρ * (m * (a ^ 2 * (4 * ρ * U))) = (a * ρ) ^ 2 * (8 * (m * U)) := by ring
    have h6 : (a * ρ) ^ 2 ≤ (1 / 2) ^ 2 := pow_le_pow_left₀ (by positivity) ha 2
    have h7 : (a * ρ) ^ 2 * (8 * (m * U)) ≤ (1 / 2) ^ 2 * (8 * (m * U)) := mul_le_mul_of_nonneg_right h6 (by positivity)
    linarith
  refine (sum_le_sum fun i hi => hone i (mem_range.1 hi)).trans ?_
  rw [sum_add_distrib, ← mul_sum, sum_const, card_range, nsmul_eq_mul]
  refine le_of_eq ?_
  rw [← hUd]
  ring

/-- All passes together. -/
theorem ZeroParts.sum_le (h : ZeroParts m f g ρ z) (h0 : 0 < a) (ha : a * ρ ≤ 1 / 2) (hm : 0 < m) (x : Nat → E)
    (hx : ∀ t, x (t + 1) = x t - a • g (t % m) (x t)) (n : Nat) :
    ∑ k ∈ range n, ∑ i ∈ range m, f i (x (k * m)) ≤ (1 + m ^ 2) / a * (‖x 0 - z‖ ^ 2 - ‖x (n * m) - z‖ ^ 2) := by
  induction n with
  | zero => simp
  | succ n ih =>
    have hp := h.pass h0 ha (fun i => x (n * m + i)) fun i hi => by
      have := hx (n * m + i)
      rw [show (n * m + i) % m = i by rw [Nat.mul_comm, Nat.mul_add_mod, Nat.mod_eq_of_lt hi]] at this
      exact this
    obtain ⟨h1, h2⟩ := hp
    rw [show n * m + m = (n + 1) * m by ring, Nat.add_zero] at h1
    rw [Nat.add_zero] at h2
    rw [sum_range_succ]
    have h3 : 2 * (1 + (m : ℝ) ^ 2) * ∑ i ∈ range m, f i (x (n * m + i)) ≤
        (1 + m ^ 2) / a * (‖x (n * m) - z‖ ^ 2 - ‖x ((n + 1) * m) - z‖ ^ 2) := by
      rw [div_mul_eq_mul_div, le_div_iff₀ h0]
      have := mul_le_mul_of_nonneg_left h1 (show (0 : ℝ) ≤ 1 + m ^ 2 by positivity)
      linarith
    have e : (1 + (m : ℝ) ^ 2) / a * (‖x 0 - z‖ ^ 2 - ‖x ((n + 1) * m) - z‖ ^ 2) =
      (1 + m ^ 2) / a * (‖x 0 - z‖ ^ 2 - ‖x (n * m) - z‖ ^ 2) + (1 + m ^ 2) / a * (‖x (n * m) - z‖ ^ 2 - ‖x ((n + 1) * m) - z‖ ^ 2) := by ring
    rw [e]
    linarith

theorem lsq_zero_inner {r c p : Nat} (X Y θ θs : Nat → Nat → ℝ) (hz : ∀ i j, i < r → j < c → resid p X Y θs i j = 0) :
    ∑ k ∈ range p, ∑ j ∈ range c, lsqGrad r c p X Y θ k j * (θ k j - θs k j) = 2 * lsq r c p X Y θ := by
  rw [← lsq_pair r c p X Y θ (fun k j => θ k j - θs k j)]
  unfold lsq
  rw [mul_sum]
  refine sum_congr rfl fun i hi => ?_
  rw [sum_div, mul_sum]
  refine sum_congr rfl fun j hj => ?_
  have h1 := hz i j (mem_range.1 hi) (mem_range.1 hj)
  have : ∑ k ∈ range p, X i k * (θ k j - θs k j) = resid p X Y θ i j := by
    unfold resid at h1 ⊢
    simp only [mul_sub, sum_sub_distrib]
    linarith
  rw [this]
  ring

theorem lsq_grad_sq (r c p : Nat) (X Y θ : Nat → Nat → ℝ) :
    ∑ k ∈ range p, ∑ j ∈ range c, lsqGrad r c p X Y θ k j ^ 2 ≤ 4 * ((∑ i ∈ range r, ∑ k ∈ range p, X i k ^ 2) / c) * lsq r c p X Y θ := by
  have h1 : ∀ k j, lsqGrad r c p X Y θ k j ^ 2 ≤ (∑ i ∈ range r, X i k ^ 2) * ∑ i ∈ range r, (resid p X Y θ i j * (2 / c)) ^ 2 :=
    fun k j => sum_mul_sq_le_sq_mul_sq _ _ _
  refine (sum_le_sum fun k _ => sum_le_sum fun j _ => h1 k j).trans (le_of_eq ?_)
  simp only [← mul_sum]
  rw [← sum_mul, sum_comm]
  have e : ∑ j ∈ range c, ∑ i ∈ range r, (resid p X Y θ i j * (2 / (c : ℝ))) ^ 2 = 4 / c * lsq r c p X Y θ := by
    unfold lsq
    rw [sum_comm, mul_sum]
    refine sum_congr rfl fun i _ => ?_
    rw [sum_div, mul_sum]
    refine sum_congr rfl fun j _ => ?_
    ring
  rw [e]
  ring

theorem lsq_move (r c p : Nat) (X Y θ θ' : Nat → Nat → ℝ) :
    lsq r c p X Y θ' ≤ 2 * lsq r c p X Y θ + 2 * ((∑ i ∈ range r, ∑ k ∈ range p, X i k ^ 2) / c) *
      ∑ k ∈ range p, ∑ j ∈ range c, (θ' k j - θ k j) ^ 2 := by
  have h1 := lsq_quad_le r c p X (fun k j => θ' k j - θ k j)
  have h2 : lsq r c p X Y θ' ≤ 2 * lsq r c p X Y θ + 2 * ∑ i ∈ range r, (∑ j ∈ range c, (∑ k ∈ range p, X i k * (θ' k j - θ k j)) ^ 2) / c := by
    unfold lsq
    rw [mul_sum, mul_sum, ← sum_add_distrib]
    refine sum_le_sum fun i _ => ?_
    rw [← mul_div_assoc, ← mul_div_assoc, ← add_div]
    refine div_le_div_of_nonneg_right ?_ (Nat.cast_nonneg c)
    rw [mul_sum, mul_sum, ← sum_add_distrib]
    refine sum_le_sum fun j _ => ?_
    have : resid p X Y θ' i j = resid p X Y θ i j + ∑ k ∈ range p, X i k * (θ' k j - θ k j) := by
      unfold resid
      simp only [mul_sub, sum_sub_distrib]
      ring
    rw [this]
    nlinarith [sq_nonneg (resid p X Y θ i j - ∑ k ∈ range p, X i k * (θ' k j - θ k j))]
  linarith

theorem resid_ext {c p : Nat} (X Y : Nat → Nat → ℝ) {θ θ' : Nat → Nat → ℝ} (h : ∀ k j, k < p → j < c → θ k j = θ' k j) (i : Nat) {j : Nat}
    (hj : j < c) : resid p X Y θ i j = resid p X Y θ' i j := by
  unfold resid
  rw [sum_congr rfl fun k hk => by rw [h k j (mem_range.1 hk) hj]]

theorem lsq_ext {r c p : Nat} (X Y : Nat → Nat → ℝ) {θ θ' : Nat → Nat → ℝ} (h : ∀ k j, k < p → j < c → θ k j = θ' k j) :
    lsq r c p X Y θ = lsq r c p X Y θ' := by
  unfold lsq
  refine sum_congr rfl fun i _ => ?_
  congr 1
  exact sum_congr rfl fun j hj => by rw [resid_ext X Y h i (mem_range.1 hj)]

theorem lsqGrad_ext {r c p : Nat} (X Y : Nat → Nat → ℝ) {θ θ' : Nat → Nat → ℝ} (h : ∀ k j, k < p → j < c → θ k j = θ' k j) (k : Nat) {j : Nat}
    (hj : j < c) : lsqGrad r c p X Y θ k j = lsqGrad r c p X Y θ' k j :=
  sum_congr rfl fun i _ => by rw [resid_ext X Y h i hj]

/-- squared error of a batch -/
noncomputable def bLsq (c p : Nat) (X Y : Nat → Nat → ℝ) (b : Nat × Nat) (θ : Nat → Nat → ℝ) : ℝ := lsq b.2 c p (bRows b X) (bRows b Y) θ

/-- its gradient -/
noncomputable def bLsqGrad (c p : Nat) (X Y : Nat → Nat → ℝ) (b : Nat × Nat) (θ : Nat → Nat → ℝ) : Nat → Nat → ℝ :=
  lsqGrad b.2 c p (bRows b X) (bRows b Y) θ

theorem lsq_nonneg' (r c p : Nat) (X Y θ : Nat → Nat → ℝ) : 0 ≤ lsq r c p X Y θ :=
  sum_nonneg fun _ _ => div_nonneg (sum_nonneg fun _ _ => sq_nonneg _) (Nat.cast_nonneg c)

theorem zeroParts_lsq {c p : Nat} (X Y θs : Nat → Nat → ℝ) {r m : Nat} (bs : Nat → Nat × Nat) {ρ : ℝ}
    (hb : ∀ s, s < m → (bs s).1 + (bs s).2 ≤ r) (h0 : 0 ≤ ρ)
    (hρ : ∀ s, s < m → (∑ i ∈ range (bs s).2, ∑ k ∈ range p, X ((bs s).1 + i) k ^ 2) / c ≤ ρ)
    (hz : ∀ i j, i < r → j < c → resid p X Y θs i j = 0) :
    ZeroParts m (fun s v => bLsq c p X Y (bs s) (ofE v)) (fun s v => toE p c (bLsqGrad c p X Y (bs s) (ofE v))) ρ (toE p c θs) := by
  refine ⟨fun s v hs => lsq_nonneg' _ _ _ _ _ _, fun s v hs => ?_, fun s v hs => ?_, fun s v w hs => ?_, h0⟩
  · have e : v - toE p c θs = toE p c (fun k j => ofE v k j - θs k j) := by rw [toE_sub, toE_ofE]
    rw [e, inner_toE]
    have hbs := hb s hs
    exact (lsq_zero_inner (bRows (bs s) X) (bRows (bs s) Y) (ofE v) θs fun i j hi hj => hz _ j (by omega) hj).ge
  · rw [norm_toE_sq]
    refine (lsq_grad_sq _ _ _ _ _ _).trans ?_
    have := hρ s hs
    refine mul_le_mul_of_nonneg_right ?_ (lsq_nonneg' _ _ _ _ _ _)
    unfold bRows
    linarith
  · have e : ‖v - w‖ ^ 2 = ∑ k ∈ range p, ∑ j ∈ range c, (ofE w k j - ofE v k j) ^ 2 := by
      rw [norm_sub_rev, show w - v = toE p c (fun k j => ofE w k j - ofE v k j) by rw [toE_sub, toE_ofE, toE_ofE], norm_toE_sq]
    refine (lsq_move _ _ _ _ _ (ofE v) _).trans ?_
    rw [e]
    have := hρ s hs
    have h2 : 2 * ((∑ i ∈ range (bs s).2, ∑ k ∈ range p, bRows (bs s) X i k ^ 2) / (c : ℝ)) ≤ 2 * ρ := by
      unfold bRows
      linarith
    have := mul_le_mul_of_nonneg_right h2 (show 0 ≤ ∑ k ∈ range p, ∑ j ∈ range c, (ofE w k j - ofE v k j) ^ 2 from
      sum_nonneg fun _ _ => sum_nonneg fun _ _ => sq_nonneg _)
    unfold bLsq
    linarith

/-- Gradient descent for least squares over the batches bs 0, ..., bs (m-1) in turn, with a constant step. -/
noncomputable def lsqBatchIter (c p : Nat) (X Y : Nat → Nat → ℝ) (m : Nat) (bs : Nat → Nat × Nat) (a : ℝ) (θ : Nat → Nat → ℝ) :
    Nat → Nat → Nat → ℝ
  | 0 => θ
  | t + 1 => fun k j => lsqBatchIter c p X Y m bs a θ t k j - bLsqGrad c p X Y (bs (t % m)) (lsqBatchIter c p X Y m bs a θ t) k j * a

theorem norm_toE_sub (p c : Nat) (θ θ' : Nat → Nat → ℝ) : ‖toE p c θ - toE p c θ'‖ ^ 2 = sqDist c p θ θ' := by
  rw [← toE_sub, norm_toE_sq]
  rfl

theorem lsqBatchIter_spec {c p : Nat} (X Y θs : Nat → Nat → ℝ) {r m : Nat} (bs : Nat → Nat × Nat) {a : ℝ} (hm : 0 < m)
    (hb : ∀ s, s < m → (bs s).1 + (bs s).2 ≤ r) (h0 : 0 < a)
    (hρ : ∀ s, s < m → a * ((∑ i ∈ range (bs s).2, ∑ k ∈ range p, X ((bs s).1 + i) k ^ 2) / c) ≤ 1 / 2)
    (hz : ∀ i j, i < r → j < c → resid p X Y θs i j = 0) (θ : Nat → Nat → ℝ) :
    (∀ t, sqDist c p (lsqBatchIter c p X Y m bs a θ (t + 1)) θs ≤ sqDist c p (lsqBatchIter c p X Y m bs a θ t) θs) ∧
    ∀ n, ∑ k ∈ range n, ∑ s ∈ range m, bLsq c p X Y (bs s) (lsqBatchIter c p X Y m bs a θ (k * m)) ≤ (1 + m ^ 2) / a * sqDist c p θ θs := by
  have hzp := zeroParts_lsq (c := c) (ρ := 1 / 2 / a) X Y θs bs hb (by positivity)
    (fun s hs => by rw [le_div_iff₀ h0, mul_comm]; exact hρ s hs) hz
  have ha : a * (1 / 2 / a) ≤ 1 / 2 := by rw [mul_div_cancel₀ _ h0.ne']
  have hx : ∀ t, toE p c (lsqBatchIter c p X Y m bs a θ (t + 1)) = toE p c (lsqBatchIter c p X Y m bs a θ t) -
      a • toE p c (bLsqGrad c p X Y (bs (t % m)) (ofE (toE p c (lsqBatchIter c p X Y m bs a θ t)))) := by
    intro t
    rw [← toE_smul, ← toE_sub]
    refine toE_congr fun k j hk hj => ?_
    have e : bLsqGrad c p X Y (bs (t % m)) (lsqBatchIter c p X Y m bs a θ t) k j =
        bLsqGrad c p X Y (bs (t % m)) (ofE (toE p c (lsqBatchIter c p X Y m bs a θ t))) k j :=
      lsqGrad_ext _ _ (fun k j hk hj => (ofE_toE (lsqBatchIter c p X Y m bs a θ t) hk hj).symm) k hj
    rw [← e]
    rfl
  constructor
  · intro t
    have := hzp.step h0 ha (Nat.mod_lt t hm) (toE p c (lsqBatchIter c p X Y m bs a θ t))
    rw [← hx t, norm_toE_sub, norm_toE_sub] at this
    have h2 : 0 ≤ bLsq c p X Y (bs (t % m)) (ofE (toE p c (lsqBatchIter c p X Y m bs a θ t))) := lsq_nonneg' _ _ _ _ _ _
    nlinarith
  · intro n
    have := hzp.sum_le h0 ha hm (fun t => toE p c (lsqBatchIter c p X Y m bs a θ t)) hx n
    have e : ∀ θ, ∑ s ∈ range m, bLsq c p X Y (bs s) (ofE (toE p c θ)) = ∑ s ∈ range m, bLsq c p X Y (bs s) θ := fun θ =>
      sum_congr rfl fun s hs => lsq_ext _ _ fun k j hk hj => ofE_toE _ hk hj
    simp only [e] at this
    rw [norm_toE_sub, norm_toE_sub] at this
    refine this.trans (mul_le_mul_of_nonneg_left ?_ (by positivity))
    have := sqDist_nonneg c p (lsqBatchIter c p X Y m bs a θ (n * m)) θs
    change sqDist c p θ θs - _ ≤ _
    linarith

end NN
