import Mathlib.Analysis.InnerProductSpace.Basic
import Mathlib.Analysis.PSeries
import Mathlib.Topology.Algebra.InfiniteSum.Real
import Mathlib.Tactic.Linarith
import Mathlib.Tactic.Ring
import Mathlib.Tactic.Positivity
/- The incremental gradient method, in a real inner product space: gradient steps for the functions f 0, ..., f (m-1) in turn, over
and over, with decreasing steps.  For convex functions with bounded and Lipschitz-continuous gradients, and steps whose sum diverges
while the sum of their squares converges, the sum of the functions tends to its infimum. -/

namespace NN
open Finset RealInnerProductSpace

variable {E : Type} [NormedAddCommGroup E] [InnerProductSpace ℝ E]

/-- m convex functions with gradients g, bounded by G and Lipschitz-continuous with constant L -/
structure ConvexParts (m : Nat) (f : Nat → E → ℝ) (g : Nat → E → E) (G L : ℝ) : Prop where
  lower : ∀ i x y, i < m → f i x + ⟪g i x, y - x⟫ ≤ f i y
  nonneg : ∀ i x, i < m → 0 ≤ f i x
  bound : ∀ i x, i < m → ‖g i x‖ ≤ G
  lip : ∀ i x y, i < m → ‖g i x - g i y‖ ≤ L * ‖x - y‖
  lpos : 0 ≤ L

/-- one pass over the functions, with steps between B and A -/
structure Pass (m : Nat) (g : Nat → E → E) (A B : ℝ) (α : Nat → ℝ) (y : Nat → E) : Prop where
  step : ∀ i, i < m → y (i + 1) = y i - α i • g i (y i)
  le : ∀ i, i < m → α i ≤ A
  ge : ∀ i, i < m → B ≤ α i
  pos : 0 ≤ B

variable {m : Nat} {f : Nat → E → ℝ} {g : Nat → E → E} {G L A B : ℝ} {α : Nat → ℝ} {y : Nat → E}

theorem ConvexParts.gpos (h : ConvexParts m f g G L) (hm : 0 < m) : 0 ≤ G := (norm_nonneg _).trans (h.bound 0 (0 : E) hm)

theorem Pass.dist (h : ConvexParts m f g G L) (hp : Pass m g A B α y) (n : Nat) (hn : n ≤ m) : ‖y n - y 0‖ ≤ n * (A * G) := by
  induction n with
  | zero => simp
  | succ n ih =>
    have h1 := ih (by omega)
    have hb := h.bound n (y n) (by omega)
    have ha := hp.le n (by omega)
    have hα : 0 ≤ α n := hp.pos.trans (hp.ge n (by omega))
    have e : y (n + 1) - y 0 = (y n - y 0) - α n • g n (y n) := by rw [hp.step n (by omega)]; abel
    rw [e]
    have h2 := norm_sub_le (y n - y 0) (α n • g n (y n))
    rw [norm_smul, Real.norm_of_nonneg hα] at h2
    have h3 : α n * ‖g n (y n)‖ ≤ A * G := mul_le_mul ha hb (norm_nonneg _) (hα.trans ha)
    push_cast
    linarith

theorem Pass.toward (h : ConvexParts m f g G L) (hp : Pass m g A B α y) (z : E) (n : Nat) (hn : n ≤ m) :
    ‖y n - z‖ ^ 2 ≤ ‖y 0 - z‖ ^ 2 - 2 * (B * ∑ i ∈ range n, f i (y 0) - A * ∑ i ∈ range n, f i z) + (n * (A * G)) ^ 2 := by
  induction n with
  | zero => simp
  | succ n ih =>
    have h1 := ih (by omega)
    have hnm : n < m := by omega
    have hd := hp.dist h n (by omega)
    have hb := h.bound n (y n) hnm
    have hb0 := h.bound n (y 0) hnm
    have ha := hp.le n hnm
    have hge := hp.ge n hnm
    have hα : 0 ≤ α n := hp.pos.trans hge
    have hG : 0 ≤ G := (norm_nonneg _).trans hb
    have e : y (n + 1) - z = (y n - z) - α n • g n (y n) := by rw [hp.step n hnm]; abel
    have hl := h.lower n (y n) z hnm
    have hl0 := h.lower n (y 0) (y n) hnm
    have hc := abs_real_inner_le_norm (g n (y 0)) (y n - y 0)
    have hc2 : |⟪g n (y 0), y n - y 0⟫| ≤ G * (n * (A * G)) := hc.trans (mul_le_mul hb0 hd (norm_nonneg _) hG)
    have hc3 := (abs_le.1 hc2).1
    have hi : ⟪g n (y n), z - y n⟫ = -⟪y n - z, g n (y n)⟫ := by
      rw [real_inner_comm, ← neg_sub (y n) z, inner_neg_left]
    rw [hi] at hl
    rw [e, norm_sub_sq_real, inner_smul_right, norm_smul, Real.norm_of_nonneg hα, sum_range_succ, sum_range_succ]
    have hfz := h.nonneg n z hnm
    have hf0 := h.nonneg n (y 0) hnm
    have hsq : (α n * ‖g n (y n)‖) ^ 2 ≤ (A * G) ^ 2 :=
      pow_le_pow_left₀ (mul_nonneg hα (norm_nonneg _)) (mul_le_mul ha hb (norm_nonneg _) (hα.trans ha)) 2
    set I := ⟪y n - z, g n (y n)⟫
    have k1 : α n * (f n (y 0) - G * (n * (A * G)) - f n z) ≤ α n * I := mul_le_mul_of_nonneg_left (by linarith) hα
    have k2 : B * f n (y 0) ≤ α n * f n (y 0) := mul_le_mul_of_nonneg_right hge hf0
    have k3 : α n * f n z ≤ A * f n z := mul_le_mul_of_nonneg_right ha hfz
    have k4 : α n * (G * (n * (A * G))) ≤ A * (G * (n * (A * G))) :=
      mul_le_mul_of_nonneg_right ha (mul_nonneg hG (mul_nonneg (Nat.cast_nonneg n) (mul_nonneg (hα.trans ha) hG)))
    push_cast
    nlinarith

theorem Pass.sum (hp : Pass m g A B α y) (n : Nat) (hn : n ≤ m) : y n - y 0 = -∑ i ∈ range n, α i • g i (y i) := by
  induction n with
  | zero => simp
  | succ n ih =>
    rw [sum_range_succ, hp.step n (by omega), neg_add, ← ih (by omega)]
    abel

theorem Pass.value (h : ConvexParts m f g G L) (hp : Pass m g A B α y) (hm : 0 < m) :
    ∑ i ∈ range m, f i (y m) ≤ ∑ i ∈ range m, f i (y 0) + m ^ 2 * G ^ 2 * (A - B) + 2 * m ^ 3 * L * G ^ 2 * A ^ 2 := by
  have hG := h.gpos hm
  have hAB : B ≤ A := (hp.ge 0 hm).trans (hp.le 0 hm)
  have hA : 0 ≤ A := hp.pos.trans hAB
  set Δ := y m - y 0 with hΔ
  have hd : ‖Δ‖ ≤ m * (A * G) := hp.dist h m le_rfl
  have hLp := h.lpos
  have hm0 : (0 : ℝ) ≤ m := Nat.cast_nonneg m
  set N := ∑ i ∈ range m, g i (y 0) with hN
  have hNn : ‖N‖ ≤ m * G := by
    refine (norm_sum_le _ _).trans ((sum_le_sum fun i hi => h.bound i (y 0) (mem_range.1 hi)).trans ?_)
    rw [sum_const, card_range, nsmul_eq_mul]
  have h1 : ∑ i ∈ range m, f i (y m) ≤ ∑ i ∈ range m, f i (y 0) + ∑ i ∈ range m, ⟪g i (y m), Δ⟫ := by
    rw [← sum_add_distrib]
    refine sum_le_sum fun i hi => ?_
    have := h.lower i (y m) (y 0) (mem_range.1 hi)
    have e : ⟪g i (y m), y 0 - y m⟫ = -⟪g i (y m), Δ⟫ := by rw [← inner_neg_right, hΔ, neg_sub]
    linarith
  have h2 : ∑ i ∈ range m, ⟪g i (y m), Δ⟫ ≤ ⟪N, Δ⟫ + m * (L * ‖Δ‖ ^ 2) := by
    rw [hN, sum_inner]
    have : ∑ _i ∈ range m, L * ‖Δ‖ ^ 2 = m * (L * ‖Δ‖ ^ 2) := by rw [sum_const, card_range, nsmul_eq_mul]
    rw [← this, ← sum_add_distrib]
    refine sum_le_sum fun i hi => ?_
    have k1 := real_inner_le_norm (g i (y m) - g i (y 0)) Δ
    have k2 := mul_le_mul_of_nonneg_right (h.lip i (y m) (y 0) (mem_range.1 hi)) (norm_nonneg Δ)
    rw [inner_sub_left] at k1
    have : L * ‖y m - y 0‖ * ‖Δ‖ = L * ‖Δ‖ ^ 2 := by rw [← hΔ]; ring
    linarith
  have h3 : ‖Δ + A • N‖ ≤ m * ((A - B) * G + A * (L * (m * (A * G)))) := by
    have e : Δ + A • N = ∑ i ∈ range m, (A • g i (y 0) - α i • g i (y i)) := by
      rw [sum_sub_distrib, ← smul_sum, hΔ, hp.sum m le_rfl]
      abel
    rw [e]
    have : ∑ _i ∈ range m, ((A - B) * G + A * (L * (m * (A * G)))) = m * ((A - B) * G + A * (L * (m * (A * G)))) := by
      rw [sum_const, card_range, nsmul_eq_mul]
    rw [← this]
    refine (norm_sum_le _ _).trans (sum_le_sum fun i hi => ?_)
    have hi := mem_range.1 hi
    have e2 : A • g i (y 0) - α i • g i (y i) = (A - α i) • g i (y i) + A • (g i (y 0) - g i (y i)) := by
      rw [sub_smul, smul_sub]; abel
    rw [e2]
    have ha := hp.le i hi
    have hge := hp.ge i hi
    refine (norm_add_le _ _).trans (add_le_add ?_ ?_)
    · rw [norm_smul, Real.norm_of_nonneg (by linarith)]
      exact mul_le_mul (by linarith) (h.bound i _ hi) (norm_nonneg _) (by linarith)
    · rw [norm_smul, Real.norm_of_nonneg hA]
      refine mul_le_mul_of_nonneg_left ((h.lip i _ _ hi).trans (mul_le_mul_of_nonneg_left ?_ hLp)) hA
      rw [norm_sub_rev]
      refine (hp.dist h i hi.le).trans (mul_le_mul_of_nonneg_right ?_ (mul_nonneg hA hG))
      exact_mod_cast hi.le
  have h4 : ⟪N, Δ⟫ ≤ m * G * (m * ((A - B) * G + A * (L * (m * (A * G))))) := by
    have e : ⟪N, Δ⟫ = ⟪N, Δ + A • N⟫ - A * ‖N‖ ^ 2 := by
      rw [inner_add_right, inner_smul_right, real_inner_self_eq_norm_sq]; ring
    have k1 := real_inner_le_norm N (Δ + A • N)
    have k2 : ‖N‖ * ‖Δ + A • N‖ ≤ m * G * (m * ((A - B) * G + A * (L * (m * (A * G))))) :=
      mul_le_mul hNn h3 (norm_nonneg _) (mul_nonneg hm0 hG)
    have k3 : 0 ≤ A * ‖N‖ ^ 2 := by positivity
    linarith
  have h5 : m * (L * ‖Δ‖ ^ 2) ≤ m * (L * (m * (A * G)) ^ 2) := by
    have := pow_le_pow_left₀ (norm_nonneg Δ) hd 2
    exact mul_le_mul_of_nonneg_left (mul_le_mul_of_nonneg_left this hLp) hm0
  have e : (m : ℝ) * G * (m * ((A - B) * G + A * (L * (m * (A * G))))) + m * (L * (m * (A * G)) ^ 2) =
    m ^ 2 * G ^ 2 * (A - B) + 2 * m ^ 3 * L * G ^ 2 * A ^ 2 := by ring
  linarith

/-- The incremental gradient method: x is the sequence of all iterates, a the steps. -/
structure Incremental (m : Nat) (g : Nat → E → E) (a : Nat → ℝ) (x : Nat → E) : Prop where
  step : ∀ t, x (t + 1) = x t - a t • g (t % m) (x t)
  anti : Antitone a
  pos : ∀ t, 0 ≤ a t

theorem Incremental.pass {a : Nat → ℝ} {x : Nat → E} (h : Incremental m g a x) (k : Nat) :
    Pass m g (a (k * m)) (a ((k + 1) * m)) (fun i => a (k * m + i)) (fun i => x (k * m + i)) := by
  refine ⟨fun i hi => ?_, fun i _ => h.anti (by omega), fun i hi => h.anti ?_, h.pos _⟩
  · have := h.step (k * m + i)
    rw [show (k * m + i) % m = i by rw [Nat.mul_comm, Nat.mul_add_mod, Nat.mod_eq_of_lt hi]] at this
    exact this
  · rw [Nat.succ_mul]; omega

theorem Incremental.sum_bound {a : Nat → ℝ} {x : Nat → E} (hc : ConvexParts m f g G L) (h : Incremental m g a x) (z : E) (k0 n : Nat) :
    ∑ k ∈ range n, 2 * a ((k0 + k + 1) * m) * (∑ i ∈ range m, f i (x ((k0 + k) * m)) - ∑ i ∈ range m, f i z) + ‖x ((k0 + n) * m) - z‖ ^ 2 ≤
      ‖x (k0 * m) - z‖ ^ 2 + 2 * (a (k0 * m) - a ((k0 + n) * m)) * (∑ i ∈ range m, f i z) + (m * G) ^ 2 * ∑ k ∈ range n, a ((k0 + k) * m) ^ 2 := by
  induction n with
  | zero => simp
  | succ n ih =>
    have h1 := (h.pass (k0 + n)).toward hc z m le_rfl
    rw [show (k0 + n) * m + m = (k0 + (n + 1)) * m by ring, show (k0 + n) * m + 0 = (k0 + n) * m by ring,
      show (k0 + n + 1) * m = (k0 + (n + 1)) * m by ring] at h1
    rw [sum_range_succ, sum_range_succ, show (k0 + n + 1) * m = (k0 + (n + 1)) * m by ring]
    nlinarith

/-- The sum of the functions comes close to any value it has, and stays so. -/
theorem Incremental.converge {a : Nat → ℝ} {x : Nat → E} (hm : 0 < m) (hc : ConvexParts m f g G L) (h : Incremental m g a x)
    (hsq : Summable fun k => a (k * m) ^ 2) (hdiv : ¬ Summable fun k => a ((k + 1) * m)) (z : E) {ε : ℝ} (hε : 0 < ε) :
    ∃ K : Nat, ∀ k, K ≤ k → ∑ i ∈ range m, f i (x (k * m)) ≤ ∑ i ∈ range m, f i z + ε := by
  have hG := hc.gpos hm
  have hL := hc.lpos
  set F : E → ℝ := fun x => ∑ i ∈ range m, f i x with hF
  -- the value increases by at most C1 (a_k - a_{k+1}) + C2 a_k²
  set C1 : ℝ := m ^ 2 * G ^ 2 with hC1
  set C2 : ℝ := 2 * m ^ 3 * L * G ^ 2 with hC2
  have h1 : 0 ≤ C1 := by positivity
  have h2 : 0 ≤ C2 := by positivity
  have hstep : ∀ k, F (x ((k + 1) * m)) ≤ F (x (k * m)) + C1 * (a (k * m) - a ((k + 1) * m)) + C2 * a (k * m) ^ 2 := by
    intro k
    have := (h.pass k).value hc hm
    rw [show k * m + m = (k + 1) * m by ring] at this
    simpa [hF, hC1, hC2] using this
  -- both are summable, so the tails vanish
  have hconv : Filter.Tendsto (fun k => a (k * m)) Filter.atTop (nhds 0) := by
    have := hsq.tendsto_atTop_zero
    have h3 := this.sqrt
    rw [Real.sqrt_zero] at h3
    refine h3.congr fun k => Real.sqrt_sq (h.pos _)
  set T : Nat → ℝ := fun k => ∑' i, a ((i + k) * m) ^ 2 with hT
  have htail : Filter.Tendsto T Filter.atTop (nhds 0) := tendsto_sum_nat_add fun k => a (k * m) ^ 2
  have hTsum : ∀ k n, ∑ i ∈ range n, a ((k + i) * m) ^ 2 ≤ T k := by
    intro k n
    have hs : Summable fun i => a ((i + k) * m) ^ 2 := (summable_nat_add_iff k).2 hsq
    have := hs.sum_le_tsum (range n) fun i _ => sq_nonneg _
    refine le_trans (le_of_eq ?_) this
    exact sum_congr rfl fun i _ => by rw [add_comm k i]
  have hrise : ∀ k n, F (x ((k + n) * m)) ≤ F (x (k * m)) + C1 * a (k * m) + C2 * T k := by
    intro k n
    have : F (x ((k + n) * m)) ≤ F (x (k * m)) + C1 * (a (k * m) - a ((k + n) * m)) + C2 * ∑ i ∈ range n, a ((k + i) * m) ^ 2 := by
      induction n with
      | zero => simp
      | succ n ih =>
        have := hstep (k + n)
        rw [sum_range_succ, mul_add]
        rw [show k + n + 1 = k + (n + 1) by ring] at this
        nlinarith
    have h4 := mul_le_mul_of_nonneg_left (hTsum k n) h2
    have h5 := mul_nonneg h1 (h.pos ((k + n) * m))
    nlinarith
  obtain ⟨K0, hK0⟩ : ∃ K0, ∀ k, K0 ≤ k → C1 * a (k * m) + C2 * T k < ε / 2 := by
    have : Filter.Tendsto (fun k => C1 * a (k * m) + C2 * T k) Filter.atTop (nhds 0) := by
      simpa using (hconv.const_mul C1).add (htail.const_mul C2)
    have := this.eventually (gt_mem_nhds (show (0 : ℝ) < ε / 2 by linarith))
    exact Filter.eventually_atTop.1 this
  -- some later value is below F z + ε/2
  obtain ⟨k1, hk1, hle⟩ : ∃ k, K0 ≤ k ∧ F (x (k * m)) ≤ F z + ε / 2 := by
    by_contra hno
    push Not at hno
    apply hdiv
    have hs2 : Summable fun k => a ((k + K0 + 1) * m) := by
      refine summable_of_sum_range_le (c := (‖x (K0 * m) - z‖ ^ 2 + 2 * a (K0 * m) * F z + (m * G) ^ 2 * T K0) / ε) (fun _ => h.pos _) fun n => ?_
      rw [le_div_iff₀ hε]
      have hb := h.sum_bound hc z K0 n
      have hz : 0 ≤ F z := sum_nonneg fun i hi => hc.nonneg i z (mem_range.1 hi)
      have h6 : (∑ k ∈ range n, a ((k + K0 + 1) * m)) * ε ≤
          ∑ k ∈ range n, 2 * a ((K0 + k + 1) * m) * (∑ i ∈ range m, f i (x ((K0 + k) * m)) - ∑ i ∈ range m, f i z) := by
        rw [sum_mul]
        refine sum_le_sum fun k _ => ?_
        have := hno (K0 + k) (by omega)
        have hp := h.pos ((K0 + k + 1) * m)
        rw [add_comm k K0]
        change a ((K0 + k + 1) * m) * ε ≤ 2 * a ((K0 + k + 1) * m) * (F (x ((K0 + k) * m)) - F z)
        nlinarith
      have h7 := mul_le_mul_of_nonneg_left (hTsum K0 n) (sq_nonneg (m * G))
      have h8 := mul_nonneg (h.pos ((K0 + n) * m)) hz
      have h9 := sq_nonneg ‖x ((K0 + n) * m) - z‖
      change _ ≤ _ + 2 * (a (K0 * m) - a ((K0 + n) * m)) * F z + _ at hb
      nlinarith
    have := (summable_nat_add_iff (f := fun k => a ((k + 1) * m)) K0).1 hs2
    exact this
  refine ⟨k1, fun k hk => ?_⟩
  obtain ⟨n, rfl⟩ := Nat.exists_eq_add_of_le hk
  have := hrise k1 n
  have := hK0 k1 hk1
  change F _ ≤ F z + ε
  linarith

/-- The steps lr / (1 + d (t₀ + t)): decreasing, with diverging sum and summable squares. -/
theorem decay_steps {lr d : ℝ} (hlr : 0 < lr) (hd : 0 < d) (t0 m : Nat) (hm : 0 < m) :
    Antitone (fun t : Nat => lr * (1 / (1 + d * ((t0 + t : Nat) : ℝ)))) ∧ (∀ t : Nat, 0 < lr * (1 / (1 + d * ((t0 + t : Nat) : ℝ)))) ∧
    (Summable fun k : Nat => (lr * (1 / (1 + d * ((t0 + k * m : Nat) : ℝ)))) ^ 2) ∧
    ¬ Summable fun k : Nat => lr * (1 / (1 + d * ((t0 + (k + 1) * m : Nat) : ℝ))) := by
  have hpos : ∀ t : Nat, 0 < 1 + d * (t : ℝ) := fun t => by positivity
  have hm1 : (1 : ℝ) ≤ m := by exact_mod_cast hm
  refine ⟨fun s t hst => ?_, fun t => mul_pos hlr (one_div_pos.2 (hpos _)), ?_, ?_⟩
  · refine mul_le_mul_of_nonneg_left (one_div_le_one_div_of_le (hpos _) ?_) hlr.le
    have : ((t0 + s : Nat) : ℝ) ≤ ((t0 + t : Nat) : ℝ) := by exact_mod_cast (by omega)
    nlinarith
  · set μ : ℝ := min 1 (d * m) with hμ
    have hμ0 : 0 < μ := lt_min one_pos (by positivity)
    have hbig : Summable fun k : Nat => (lr / μ) ^ 2 * (1 / ((k + 1 : Nat) : ℝ) ^ 2) :=
      ((summable_nat_add_iff (f := fun k : Nat => 1 / (k : ℝ) ^ 2) 1).2 (Real.summable_one_div_nat_pow.2 one_lt_two)).mul_left _
    refine hbig.of_nonneg_of_le (fun _ => sq_nonneg _) fun k => ?_
    have hk : μ * ((k + 1 : Nat) : ℝ) ≤ 1 + d * ((t0 + k * m : Nat) : ℝ) := by
      have h1 : μ ≤ 1 := min_le_left _ _
      have h2 : μ ≤ d * m := min_le_right _ _
      have h3 : μ * k ≤ d * m * k := mul_le_mul_of_nonneg_right h2 (Nat.cast_nonneg k)
      have h4 : (0 : ℝ) ≤ d * t0 := by positivity
      push_cast
      nlinarith
    have hk0 : 0 < μ * ((k + 1 : Nat) : ℝ) := by positivity
    have h5 : lr * (1 / (1 + d * ((t0 + k * m : Nat) : ℝ))) ≤ lr * (1 / (μ * ((k + 1 : Nat) : ℝ))) :=
      mul_le_mul_of_nonneg_left (one_div_le_one_div_of_le hk0 hk) hlr.le
    have h6 := pow_le_pow_left₀ (mul_pos hlr (one_div_pos.2 (hpos _))).le h5 2
    refine h6.trans (le_of_eq ?_)
    rw [mul_one_div, div_pow, div_pow, mul_pow, mul_one_div, div_div]
  · intro hs
    have hc : 0 < 1 + d * t0 + d * m := by positivity
    have hsmall : Summable fun k : Nat => (lr / (1 + d * t0 + d * m)) * (1 / ((k + 1 : Nat) : ℝ)) := by
      refine hs.of_nonneg_of_le (fun k => by positivity) fun k => ?_
      have hk : 1 + d * ((t0 + (k + 1) * m : Nat) : ℝ) ≤ (1 + d * t0 + d * m) * ((k + 1 : Nat) : ℝ) := by
        have h4 : (0 : ℝ) ≤ (1 + d * t0) * k := by positivity
        push_cast
        nlinarith
      have h5 := mul_le_mul_of_nonneg_left (one_div_le_one_div_of_le (hpos _) hk) hlr.le
      refine le_trans (le_of_eq ?_) h5
      rw [mul_one_div, mul_one_div, div_div]
    have h7 := (summable_mul_left_iff (by positivity : lr / (1 + d * t0 + d * m) ≠ 0)).1 hsmall
    exact Real.not_summable_one_div_natCast ((summable_nat_add_iff (f := fun k : Nat => 1 / (k : ℝ)) 1).1 h7)

end NN
