import Verif.Real.NearestRate
/-
Gradient descent on batches for a least-squares problem without an exact solution: two runs never move apart, and after whole passes every run tends to
a limit at a geometric rate.
-/

namespace NN
open Finset Filter Topology

/-- The difference of two runs is a run for outputs 0. -/
theorem lsqBatchIter_diff (c p : Nat) (X Y : Nat → Nat → ℝ) (m : Nat) (bs : Nat → Nat × Nat) (a : ℝ) (θ θ' : Nat → Nat → ℝ) (t : Nat) :
    (fun k j => lsqBatchIter c p X Y m bs a θ t k j - lsqBatchIter c p X Y m bs a θ' t k j) =
      lsqBatchIter c p X (fun _ _ => 0) m bs a (fun k j => θ k j - θ' k j) t := by
  induction t with
  | zero => rfl
  | succ t ih =>
    funext k j
    show _ = lsqBatchIter c p X (fun _ _ => 0) m bs a (fun k j => θ k j - θ' k j) t k j -
      bLsqGrad c p X (fun _ _ => 0) (bs (t % m)) (lsqBatchIter c p X (fun _ _ => 0) m bs a (fun k j => θ k j - θ' k j) t) k j * a
    rw [← ih]
    show (_ - _ * a) - (_ - _ * a) = _
    have : bLsqGrad c p X (fun _ _ => 0) (bs (t % m)) (fun k j => lsqBatchIter c p X Y m bs a θ t k j - lsqBatchIter c p X Y m bs a θ' t k j) k j =
        bLsqGrad c p X Y (bs (t % m)) (lsqBatchIter c p X Y m bs a θ t) k j - bLsqGrad c p X Y (bs (t % m)) (lsqBatchIter c p X Y m bs a θ' t) k j := by
      unfold bLsqGrad lsqGrad resid bRows
      rw [← sum_sub_distrib]
      refine sum_congr rfl fun i _ => ?_
      simp only [mul_sub, sum_sub_distrib]
      ring
    rw [this]
    ring

/-- A run can be interrupted after a whole number of passes. -/
theorem lsqBatchIter_add (c p : Nat) (X Y : Nat → Nat → ℝ) (m : Nat) (bs : Nat → Nat × Nat) (a : ℝ) (θ : Nat → Nat → ℝ) (n t : Nat) :
    lsqBatchIter c p X Y m bs a θ (n * m + t) = lsqBatchIter c p X Y m bs a (lsqBatchIter c p X Y m bs a θ (n * m)) t := by
  induction t with
  | zero => rfl
  | succ t ih =>
    show (fun k j => lsqBatchIter c p X Y m bs a θ (n * m + t) k j -
      bLsqGrad c p X Y (bs ((n * m + t) % m)) (lsqBatchIter c p X Y m bs a θ (n * m + t)) k j * a) = _
    rw [ih, show (n * m + t) % m = t % m by rw [Nat.mul_comm, Nat.mul_add_mod]]
    rfl

theorem sqDist_diff (c p : Nat) (θ θ' : Nat → Nat → ℝ) : sqDist c p θ θ' = sqDist c p (fun k j => θ k j - θ' k j) fun _ _ => 0 := by
  unfold sqDist
  simp only [sub_zero]

theorem sqDist_eq_zero {c p : Nat} {θ θ' : Nat → Nat → ℝ} (h : sqDist c p θ θ' ≤ 0) {k j : Nat} (hk : k < p) (hj : j < c) : θ k j = θ' k j := by
  have h1 := (sum_eq_zero_iff_of_nonneg fun _ _ => sum_nonneg fun _ _ => sq_nonneg _).1 (le_antisymm h (sqDist_nonneg c p θ θ')) k (mem_range.2 hk)
  have h2 := (sum_eq_zero_iff_of_nonneg fun _ _ => sq_nonneg _).1 h1 j (mem_range.2 hj)
  exact sub_eq_zero.1 (pow_eq_zero_iff two_ne_zero |>.1 h2)

theorem sqDist_congr_right {c p : Nat} (θ : Nat → Nat → ℝ) {θ1 θ2 : Nat → Nat → ℝ} (h : ∀ k j, k < p → j < c → θ1 k j = θ2 k j) :
    sqDist c p θ θ1 = sqDist c p θ θ2 :=
  sum_congr rfl fun k hk => sum_congr rfl fun j hj => by rw [h k j (mem_range.1 hk) (mem_range.1 hj)]

/-- Two runs on the same data never move apart. -/
theorem lsqBatchIter_nonexp {c p : Nat} (X Y : Nat → Nat → ℝ) {r m : Nat} (bs : Nat → Nat × Nat) {a : ℝ} (hm : 0 < m)
    (hb : ∀ s, s < m → (bs s).1 + (bs s).2 ≤ r) (h0 : 0 < a)
    (hρ : ∀ s, s < m → a * ((∑ i ∈ range (bs s).2, ∑ k ∈ range p, X ((bs s).1 + i) k ^ 2) / c) ≤ 1 / 2) (θ θ' : Nat → Nat → ℝ) (t : Nat) :
    sqDist c p (lsqBatchIter c p X Y m bs a θ t) (lsqBatchIter c p X Y m bs a θ' t) ≤ sqDist c p θ θ' := by
  rw [sqDist_diff, sqDist_diff c p θ θ', lsqBatchIter_diff]
  have h := (lsqBatchIter_spec (c := c) (p := p) X (fun _ _ => 0) (fun _ _ => 0) bs hm hb h0 hρ (fun i j _ _ => by simp [resid]) fun k j => θ k j - θ' k j).1
  induction t with
  | zero => exact le_rfl
  | succ t ih => exact (h t).trans ih

/-- Two runs whose starts differ only in what shows in the data approach each other, by a constant factor per pass. -/
theorem lsqBatchIter_contract {c p : Nat} (X : Nat → Nat → ℝ) {r m : Nat} (bs : Nat → Nat × Nat) {a : ℝ} (hc : 0 < c) (hm : 0 < m)
    (hb : ∀ s, s < m → (bs s).1 + (bs s).2 ≤ r) (h0 : 0 < a)
    (hcov : ∀ Y θ, ∑ s ∈ range m, bLsq c p X Y (bs s) θ = lsq r c p X Y θ)
    (hρ : ∀ s, s < m → a * ((∑ i ∈ range (bs s).2, ∑ k ∈ range p, X ((bs s).1 + i) k ^ 2) / c) ≤ 1 / 2) :
    ∃ q : ℝ, 0 ≤ q ∧ q < 1 ∧ ∀ Y θ θ' : Nat → Nat → ℝ,
      (∀ Δ : Nat → Nat → ℝ, (∀ i j, i < r → j < c → ∑ k ∈ range p, X i k * Δ k j = 0) →
        ∑ k ∈ range p, ∑ j ∈ range c, (θ k j - θ' k j) * Δ k j = 0) →
      ∀ n, sqDist c p (lsqBatchIter c p X Y m bs a θ (n * m)) (lsqBatchIter c p X Y m bs a θ' (n * m)) ≤ q ^ n * sqDist c p θ θ' := by
  obtain ⟨q, q0, q1, hq⟩ := lsq_rate (c := c) (p := p) X bs hc hm hb h0 hcov hρ
  refine ⟨q, q0, q1, fun Y θ θ' h n => ?_⟩
  rw [sqDist_diff, sqDist_diff c p θ θ', lsqBatchIter_diff]
  exact hq (fun _ _ => 0) _ (fun _ _ => 0) (fun i j _ _ => by simp [resid]) (fun Δ hΔ => by simpa using h Δ hΔ) n

/-- The limit: after whole passes, a run tends to coefficients θl at a geometric rate, which one more pass does not change, and which differ from the
start only in what shows in the data. -/
theorem lsq_limit {c p : Nat} (X : Nat → Nat → ℝ) {r m : Nat} (bs : Nat → Nat × Nat) {a : ℝ} (hc : 0 < c) (hm : 0 < m)
    (hb : ∀ s, s < m → (bs s).1 + (bs s).2 ≤ r) (h0 : 0 < a)
    (hcov : ∀ Y θ, ∑ s ∈ range m, bLsq c p X Y (bs s) θ = lsq r c p X Y θ)
    (hρ : ∀ s, s < m → a * ((∑ i ∈ range (bs s).2, ∑ k ∈ range p, X ((bs s).1 + i) k ^ 2) / c) ≤ 1 / 2) :
    ∃ q : ℝ, 0 ≤ q ∧ q < 1 ∧ ∀ Y θ : Nat → Nat → ℝ, ∃ θl : Nat → Nat → ℝ,
      (∀ k j, k < p → j < c → lsqBatchIter c p X Y m bs a θl m k j = θl k j) ∧
      (∀ Δ : Nat → Nat → ℝ, (∀ i j, i < r → j < c → ∑ k ∈ range p, X i k * Δ k j = 0) →
        ∑ k ∈ range p, ∑ j ∈ range c, (θ k j - θl k j) * Δ k j = 0) ∧
      ∀ n, sqDist c p (lsqBatchIter c p X Y m bs a θ (n * m)) θl ≤ q ^ n * sqDist c p θ θl := by
  obtain ⟨q, q0, q1, hq⟩ := lsqBatchIter_contract (c := c) (p := p) X bs hc hm hb h0 hcov hρ
  refine ⟨q, q0, q1, fun Y θ => ?_⟩
  set it := lsqBatchIter c p X Y m bs a θ with hit
  have hne := lsqBatchIter_nonexp (c := c) (p := p) X Y bs hm hb h0 hρ
  have hadd : ∀ n, lsqBatchIter c p X Y m bs a (it (n * m)) m = it ((n + 1) * m) := fun n => by
    rw [Nat.succ_mul, hit, lsqBatchIter_add]
  have hadd' : ∀ n, lsqBatchIter c p X Y m bs a (it m) (n * m) = it ((n + 1) * m) := fun n => by
    have := lsqBatchIter_add c p X Y m bs a θ 1 (n * m)
    rw [one_mul, ← hit] at this
    rw [← this, Nat.succ_mul, Nat.add_comm]
  have horth : ∀ Δ : Nat → Nat → ℝ, (∀ i j, i < r → j < c → ∑ k ∈ range p, X i k * Δ k j = 0) → ∀ t,
      ∑ k ∈ range p, ∑ j ∈ range c, it t k j * Δ k j = ∑ k ∈ range p, ∑ j ∈ range c, θ k j * Δ k j := fun Δ hΔ t =>
    lsqBatchIter_orth X Y bs a hm hb θ Δ hΔ t
  -- successive passes
  have hstep : ∀ n, sqDist c p (it (n * m)) (it ((n + 1) * m)) ≤ q ^ n * sqDist c p θ (it m) := fun n => by
    have := hq Y θ (it m) (fun Δ hΔ => by
      have h1 := horth Δ hΔ m
      simp only [sub_mul, sum_sub_distrib]
      linarith) n
    rw [hadd'] at this
    exact this
  let x : Nat → EuclideanSpace ℝ (Fin p × Fin c) := fun n => toE p c (it (n * m))
  have hcs : CauchySeq x := by
    refine cauchySeq_of_le_geometric (Real.sqrt q) (Real.sqrt (sqDist c p θ (it m))) ?_ fun n => ?_
    · rw [← Real.sqrt_one]
      exact Real.sqrt_lt_sqrt q0 q1
    · rw [dist_eq_norm]
      refine le_of_sq_le_sq_of_nonneg ?_ (by positivity)
      rw [norm_toE_sub, mul_pow, ← pow_mul, Nat.mul_comm n 2, pow_mul, Real.sq_sqrt (sqDist_nonneg _ _ _ _), Real.sq_sqrt q0, mul_comm (sqDist c p θ (it m))]
      exact hstep n
  obtain ⟨v, hv⟩ := cauchySeq_tendsto_of_complete hcs
  -- distances to the limit tend to 0
  have hd0 : Tendsto (fun n => sqDist c p (it (n * m)) (ofE v)) atTop (𝓝 0) := by
    have h1 : Tendsto (fun n => ‖x n - v‖ ^ 2) atTop (𝓝 0) := by
      have := (tendsto_iff_norm_sub_tendsto_zero.1 hv).pow 2
      rwa [zero_pow two_ne_zero] at this
    refine h1.congr fun n => ?_
    rw [← norm_toE_sub, toE_ofE]
  have hco : ∀ k j, k < p → j < c → Tendsto (fun n => it (n * m) k j) atTop (𝓝 (ofE v k j)) := fun k j hk hj => by
    refine (((continuous_ofE k j).tendsto v).comp hv).congr fun n => ?_
    exact ofE_toE _ hk hj
  -- one more pass
  have hfix : ∀ k j, k < p → j < c → lsqBatchIter c p X Y m bs a (ofE v) m k j = ofE v k j := fun k j hk hj => by
    have h1 : Tendsto (fun n => sqDist c p (it ((n + 1) * m)) (lsqBatchIter c p X Y m bs a (ofE v) m)) atTop (𝓝 0) := by
      refine squeeze_zero (fun _ => sqDist_nonneg _ _ _ _) (fun n => ?_) hd0
      rw [← hadd]
      exact hne (it (n * m)) (ofE v) m
    have h2 : Tendsto (fun n => (it ((n + 1) * m) k j - lsqBatchIter c p X Y m bs a (ofE v) m k j) ^ 2) atTop (𝓝 0) :=
      squeeze_zero (fun _ => sq_nonneg _) (fun n => (single_le_sum (f := fun j => (it ((n + 1) * m) k j - lsqBatchIter c p X Y m bs a (ofE v) m k j) ^ 2)
        (fun _ _ => sq_nonneg _) (mem_range.2 hj)).trans (single_le_sum (f := fun k => ∑ j ∈ range c,
          (it ((n + 1) * m) k j - lsqBatchIter c p X Y m bs a (ofE v) m k j) ^ 2) (fun _ _ => sum_nonneg fun _ _ => sq_nonneg _) (mem_range.2 hk))) h1
    have h3 : Tendsto (fun n => (it ((n + 1) * m) k j - lsqBatchIter c p X Y m bs a (ofE v) m k j) ^ 2) atTop
        (𝓝 ((ofE v k j - lsqBatchIter c p X Y m bs a (ofE v) m k j) ^ 2)) :=
      (((tendsto_add_atTop_iff_nat 1).2 (hco k j hk hj)).sub_const _).pow 2
    exact (sub_eq_zero.1 (pow_eq_zero_iff two_ne_zero |>.1 (tendsto_nhds_unique h3 h2))).symm
  have hor : ∀ Δ : Nat → Nat → ℝ, (∀ i j, i < r → j < c → ∑ k ∈ range p, X i k * Δ k j = 0) →
      ∑ k ∈ range p, ∑ j ∈ range c, (θ k j - ofE v k j) * Δ k j = 0 := fun Δ hΔ => by
    have h1 : Tendsto (fun n => ∑ k ∈ range p, ∑ j ∈ range c, it (n * m) k j * Δ k j) atTop (𝓝 (∑ k ∈ range p, ∑ j ∈ range c, ofE v k j * Δ k j)) :=
      tendsto_finsetSum _ fun k hk => tendsto_finsetSum _ fun j hj => (hco k j (mem_range.1 hk) (mem_range.1 hj)).mul_const _
    simp only [horth Δ hΔ] at h1
    have := tendsto_nhds_unique h1 tendsto_const_nhds
    simp only [sub_mul, sum_sub_distrib]
    linarith
  refine ⟨ofE v, hfix, hor, fun n => ?_⟩
  have hstay : ∀ n, sqDist c p (lsqBatchIter c p X Y m bs a (ofE v) (n * m)) (ofE v) ≤ 0 := fun n => by
    induction n with
    | zero =>
      rw [Nat.zero_mul]
      show sqDist c p (ofE v) (ofE v) ≤ 0
      unfold sqDist
      simp
    | succ n ih =>
      have h1 := hne (lsqBatchIter c p X Y m bs a (ofE v) (n * m)) (ofE v) m
      rw [← lsqBatchIter_add, ← Nat.succ_mul, sqDist_congr_right _ hfix] at h1
      exact h1.trans ih
  have := hq Y θ (ofE v) hor n
  rw [sqDist_congr_right _ fun k j hk hj => sqDist_eq_zero (hstay n) hk hj] at this
  exact this
where
  le_of_sq_le_sq_of_nonneg {a b : ℝ} (h : a ^ 2 ≤ b ^ 2) (hb : 0 ≤ b) : a ≤ b := le_trans (le_abs_self a) (abs_le_of_sq_le_sq h hb)

end NN
