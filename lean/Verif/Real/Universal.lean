import Mathlib.Topology.ContinuousMap.StoneWeierstrass
import Mathlib.Analysis.SpecialFunctions.Exp
import Mathlib.Algebra.BigOperators.Fin
import Mathlib.Algebra.Order.Floor.Defs
import Mathlib.Topology.UniformSpace.HeineCantor
import Mathlib.Tactic.Linarith
import Mathlib.Tactic.FieldSimp
import Mathlib.Tactic.Ring
/- Sums of activated affine functions (ReLU, leaky ReLU, sigmoid) approximate every continuous function on a compact set.  On an interval the
sum of ReLU units interpolates the function at equidistant points, and a sum of steep sigmoid units follows it in steps; on a compact set of
vectors the exponentials of linear forms span a dense algebra (Stone-Weierstrass), and each exponential is a function on an interval composed
with a linear form. -/

namespace NN
open Finset

/-- An affine unit with its coefficient in the sum: `c * φ (∑ k, x k * a k + b)`. -/
structure RUnit (d : Nat) where
  a : Fin d → ℝ
  b : ℝ
  c : ℝ

variable {d : Nat} {φ : ℝ → ℝ}

noncomputable def RUnit.val (φ : ℝ → ℝ) (u : RUnit d) (x : Fin d → ℝ) : ℝ := u.c * φ ((∑ k, x k * u.a k) + u.b)

noncomputable def rsum (φ : ℝ → ℝ) (us : List (RUnit d)) (x : Fin d → ℝ) : ℝ := (us.map fun u => u.val φ x).sum

theorem rsum_append (us vs : List (RUnit d)) (x : Fin d → ℝ) : rsum φ (us ++ vs) x = rsum φ us x + rsum φ vs x := by
  simp [rsum]

theorem rsum_scale (s : ℝ) (us : List (RUnit d)) (x : Fin d → ℝ) :
    rsum φ (us.map fun u => { u with c := s * u.c }) x = s * rsum φ us x := by
  induction us with
  | nil => simp [rsum]
  | cons u us ih =>
    simp only [rsum, List.map_cons, List.sum_cons] at ih ⊢
    rw [ih]
    simp only [RUnit.val]
    ring

/-- `f` is approximated on `K` by sums of units. -/
def Approx (φ : ℝ → ℝ) (K : Set (Fin d → ℝ)) (f : (Fin d → ℝ) → ℝ) : Prop :=
  ∀ ε : ℝ, 0 < ε → ∃ us : List (RUnit d), ∀ x ∈ K, |rsum φ us x - f x| < ε

theorem Approx.add {K : Set (Fin d → ℝ)} {f g : (Fin d → ℝ) → ℝ} (hf : Approx φ K f) (hg : Approx φ K g) : Approx φ K fun x => f x + g x := by
  intro ε hε
  obtain ⟨us, hu⟩ := hf (ε / 2) (by linarith)
  obtain ⟨vs, hv⟩ := hg (ε / 2) (by linarith)
  refine ⟨us ++ vs, fun x hx => ?_⟩
  rw [rsum_append]
  have h1 := abs_lt.mp (hu x hx)
  have h2 := abs_lt.mp (hv x hx)
  rw [abs_lt]
  constructor <;> linarith [h1.1, h1.2, h2.1, h2.2]

theorem Approx.smul {K : Set (Fin d → ℝ)} {f : (Fin d → ℝ) → ℝ} (s : ℝ) (hf : Approx φ K f) : Approx φ K fun x => s * f x := by
  intro ε hε
  obtain ⟨us, hu⟩ := hf (ε / (|s| + 1)) (by positivity)
  refine ⟨us.map fun u => { u with c := s * u.c }, fun x hx => ?_⟩
  rw [rsum_scale, ← mul_sub, abs_mul]
  have h1 := hu x hx
  have h2 : (|s| + 1) * |rsum φ us x - f x| < ε := by
    rw [lt_div_iff₀ (by positivity)] at h1
    linarith
  have h3 := abs_nonneg (rsum φ us x - f x)
  linarith

theorem Approx.zero (φ : ℝ → ℝ) (K : Set (Fin d → ℝ)) : Approx φ K fun _ => 0 := by
  intro ε hε
  exact ⟨[], fun x _ => by simpa [rsum] using hε⟩

theorem Approx.lim {K : Set (Fin d → ℝ)} {f : (Fin d → ℝ) → ℝ} (h : ∀ ε : ℝ, 0 < ε → ∃ g, Approx φ K g ∧ ∀ x ∈ K, |g x - f x| < ε) :
    Approx φ K f := by
  intro ε hε
  obtain ⟨g, hg, hgf⟩ := h (ε / 2) (by linarith)
  obtain ⟨us, hu⟩ := hg (ε / 2) (by linarith)
  refine ⟨us, fun x hx => ?_⟩
  have h1 := abs_lt.mp (hu x hx)
  have h2 := abs_lt.mp (hgf x hx)
  rw [abs_lt]
  constructor <;> linarith [h1.1, h1.2, h2.1, h2.2]

/-! ### One variable -/

/-- The ramp from 0 at s to 1 at s + h. -/
noncomputable def ramp (s h t : ℝ) : ℝ := (max (t - s) 0 - max (t - s - h) 0) / h

theorem ramp_zero {s h t : ℝ} (hh : 0 < h) (ht : t ≤ s) : ramp s h t = 0 := by
  rw [ramp, max_eq_right (by linarith), max_eq_right (by linarith)]; simp

theorem ramp_one {s h t : ℝ} (hh : 0 < h) (ht : s + h ≤ t) : ramp s h t = 1 := by
  rw [ramp, max_eq_left (by linarith), max_eq_left (by linarith)]; field_simp; ring

theorem ramp_between {s h t : ℝ} (hh : 0 < h) (h1 : s ≤ t) (h2 : t ≤ s + h) : 0 ≤ ramp s h t ∧ ramp s h t ≤ 1 := by
  rw [ramp, max_eq_left (by linarith), max_eq_right (by linarith), sub_zero]
  exact ⟨div_nonneg (by linarith) hh.le, (div_le_one hh).mpr (by linarith)⟩

/-- The interpolation of g at a, a + h, ..., a + N h. -/
noncomputable def interp (g : ℝ → ℝ) (a h : ℝ) (N : Nat) (t : ℝ) : ℝ :=
  g a + ∑ k ∈ range N, (g (a + (k + 1 : ℕ) * h) - g (a + k * h)) * ramp (a + k * h) h t

theorem interp_eq (g : ℝ → ℝ) {a h : ℝ} (hh : 0 < h) {N m : Nat} (hm : m < N) {t : ℝ} (h1 : a + m * h ≤ t) (h2 : t ≤ a + (m + 1 : ℕ) * h) :
    interp g a h N t = g (a + m * h) + (g (a + (m + 1 : ℕ) * h) - g (a + m * h)) * ramp (a + m * h) h t := by
  have hN : N = m + 1 + (N - (m + 1)) := by omega
  rw [interp, hN, sum_range_add, sum_range_succ]
  have e1 : ∑ k ∈ range m, (g (a + (k + 1 : ℕ) * h) - g (a + k * h)) * ramp (a + k * h) h t = g (a + m * h) - g a := by
    rw [sum_congr rfl (g := fun k : ℕ => g (a + (k + 1 : ℕ) * h) - g (a + k * h)), sum_range_sub fun k : ℕ => g (a + k * h)]
    · simp
    · intro k hk
      have hk : (k : ℝ) + 1 ≤ m := by exact_mod_cast mem_range.mp hk
      rw [ramp_one hh (by nlinarith), mul_one]
  have e2 : ∑ k ∈ range (N - (m + 1)), (g (a + (m + 1 + k + 1 : ℕ) * h) - g (a + (m + 1 + k : ℕ) * h)) *
      ramp (a + (m + 1 + k : ℕ) * h) h t = 0 := by
    refine sum_eq_zero fun k _ => ?_
    have hk : ((m + 1 : ℕ) : ℝ) ≤ ((m + 1 + k : ℕ) : ℝ) := by exact_mod_cast Nat.le_add_right _ _
    rw [ramp_zero hh (by nlinarith), mul_zero]
  rw [e1, e2]
  ring

/-- Interpolation on a fine grid is close to a uniformly continuous function. -/
theorem interp_close {g : ℝ → ℝ} (hg : Continuous g) {a b : ℝ} (hab : a < b) {ε : ℝ} (hε : 0 < ε) :
    ∃ N : Nat, 0 < N ∧ ∀ t, a ≤ t → t ≤ b → |interp g a ((b - a) / N) N t - g t| < ε := by
  have hu := isCompact_Icc.uniformContinuousOn_of_continuous (s := Set.Icc a b) hg.continuousOn
  rw [Metric.uniformContinuousOn_iff] at hu
  obtain ⟨δ, hδ, hu⟩ := hu (ε / 2) (by linarith)
  obtain ⟨N, hN⟩ := exists_nat_gt ((b - a) / δ)
  have hNp : (0 : ℝ) < N := lt_trans (div_pos (by linarith) hδ) hN
  have hN0 : 0 < N := by exact_mod_cast hNp
  refine ⟨N, hN0, fun t ht1 ht2 => ?_⟩
  generalize hh : (b - a) / N = h
  have hb : (N : ℝ) * h = b - a := by rw [← hh]; field_simp
  have hhp : 0 < h := by rw [← hh]; exact div_pos (by linarith) hNp
  have hhd : h < δ := by
    rw [← hh, div_lt_iff₀ hNp]
    rw [div_lt_iff₀ hδ] at hN
    linarith
  obtain ⟨m, hm, h1, h2⟩ : ∃ m, m < N ∧ a + (m : ℝ) * h ≤ t ∧ t ≤ a + ((m + 1 : ℕ) : ℝ) * h := by
    by_contra hc
    push Not at hc
    have : ∀ m, m ≤ N → a + (m : ℝ) * h ≤ t := by
      intro m
      induction m with
      | zero => intro _; simpa using ht1
      | succ m ih => intro hm; exact (hc m (by omega) (ih (by omega))).le
    have h3 := hc (N - 1) (by omega) (this _ (by omega))
    rw [Nat.sub_add_cancel hN0, hb] at h3
    linarith
  rw [interp_eq g hhp hm h1 h2]
  obtain ⟨r1, r2⟩ := ramp_between (s := a + m * h) (t := t) hhp h1 (by push_cast at h2; linarith)
  have hm' : ((m + 1 : ℕ) : ℝ) ≤ N := by exact_mod_cast hm
  have hmh : ((m + 1 : ℕ) : ℝ) * h ≤ b - a := by rw [← hb]; exact mul_le_mul_of_nonneg_right hm' hhp.le
  have hs : ((m + 1 : ℕ) : ℝ) * h = m * h + h := by push_cast; ring
  have m0 : (0 : ℝ) ≤ m * h := mul_nonneg (Nat.cast_nonneg m) hhp.le
  have d1 := hu (a + m * h) ⟨by linarith, by linarith⟩ t ⟨ht1, ht2⟩ (by rw [Real.dist_eq, abs_lt]; constructor <;> linarith)
  have d2 := hu (a + (m + 1 : ℕ) * h) ⟨by linarith, by linarith⟩ (a + m * h) ⟨by linarith, by linarith⟩
    (by rw [Real.dist_eq, abs_lt]; constructor <;> linarith)
  rw [Real.dist_eq] at d1 d2
  generalize ramp (a + m * h) h t = ρ at r1 r2 ⊢
  generalize g (a + (m + 1 : ℕ) * h) - g (a + m * h) = D at d2 ⊢
  have d3 : |D * ρ| ≤ |D| := by
    rw [abs_mul, abs_of_nonneg r1]
    exact mul_le_of_le_one_right (abs_nonneg _) r2
  calc |g (a + m * h) + D * ρ - g t| = |(g (a + m * h) - g t) + D * ρ| := by congr 1; ring
    _ ≤ |g (a + m * h) - g t| + |D * ρ| := abs_add_le _ _
    _ < ε := by linarith

theorem approx_exact {K : Set (Fin d → ℝ)} {f : (Fin d → ℝ) → ℝ} (us : List (RUnit d)) (h : ∀ x, rsum φ us x = f x) : Approx φ K f :=
  fun ε hε => ⟨us, fun x _ => by rw [h, sub_self, abs_zero]; exact hε⟩

/-- The rectifier. -/
noncomputable def reluFn (t : ℝ) : ℝ := max t 0

/-- The ramp of a linear form as two units, the constant as one unit. -/
theorem approx_interp (K : Set (Fin d → ℝ)) (v : Fin d → ℝ) (g : ℝ → ℝ) {a h : ℝ} (N : Nat) :
    Approx reluFn K fun x => interp g a h N (∑ k, x k * v k) := by
  have hc : Approx reluFn K fun _ => g a := approx_exact [⟨0, 1, g a⟩] fun x => by simp [rsum, RUnit.val, reluFn]
  unfold interp
  refine hc.add ?_
  induction N with
  | zero => simpa using Approx.zero reluFn K
  | succ N ih =>
    simp only [sum_range_succ]
    refine ih.add (Approx.smul _ (approx_exact [⟨v, -(a + N * h), 1 / h⟩, ⟨v, -(a + N * h) - h, -(1 / h)⟩] fun x => ?_))
    simp only [rsum, RUnit.val, List.map_cons, List.map_nil, List.sum_cons, List.sum_nil, ramp, reluFn]
    have e1 : (∑ k, x k * v k) + -(a + N * h) = (∑ k, x k * v k) - (a + N * h) := by ring
    have e2 : (∑ k, x k * v k) + (-(a + N * h) - h) = (∑ k, x k * v k) - (a + N * h) - h := by ring
    rw [e1, e2]
    ring

/-- Every continuous function of a linear form is approximated on compact sets. -/
def Ridges (φ : ℝ → ℝ) : Prop :=
  ∀ (d : Nat) (K : Set (Fin d → ℝ)) (_ : IsCompact K) (v : Fin d → ℝ) (g : ℝ → ℝ) (_ : Continuous g), Approx φ K fun x => g (∑ k, x k * v k)

theorem ridges_of_interval (h : ∀ (d : Nat) (K : Set (Fin d → ℝ)) (v : Fin d → ℝ) (g : ℝ → ℝ) (_ : Continuous g) (a b : ℝ) (_ : a < b)
    (ε : ℝ) (_ : 0 < ε), ∃ p : ℝ → ℝ, Approx φ K (fun x => p (∑ k, x k * v k)) ∧ ∀ t, a ≤ t → t ≤ b → |p t - g t| < ε) : Ridges φ := by
  intro d K hK v g hg
  have hc : Continuous fun x : Fin d → ℝ => ∑ k, x k * v k := by fun_prop
  obtain ⟨M, hM⟩ := (hK.image hc).isBounded.exists_norm_le
  have hb : ∀ x ∈ K, |∑ k, x k * v k| ≤ |M| + 1 := fun x hx => by
    have h1 := hM _ ⟨x, hx, rfl⟩
    rw [Real.norm_eq_abs] at h1
    have := le_abs_self M
    linarith
  refine Approx.lim fun ε hε => ?_
  obtain ⟨p, h1, h2⟩ := h d K v g hg (-(|M| + 1)) (|M| + 1) (by have := abs_nonneg M; linarith) ε hε
  refine ⟨_, h1, fun x hx => ?_⟩
  have h1 := abs_le.mp (hb x hx)
  exact h2 _ h1.1 h1.2

theorem relu_ridges : Ridges reluFn := by
  refine ridges_of_interval fun d K v g hg a b hab ε hε => ?_
  obtain ⟨N, -, hN⟩ := interp_close hg hab hε
  exact ⟨_, approx_interp K v g (a := a) (h := (b - a) / N) N, hN⟩

/-- The leaky rectifier. -/
noncomputable def leakyFn (s t : ℝ) : ℝ := if t < 0 then t * s else t

theorem relu_leaky {s : ℝ} (h1 : s ≠ 1) (h2 : s ≠ -1) (t : ℝ) : reluFn t = 1 / (1 - s ^ 2) * leakyFn s t + s / (1 - s ^ 2) * leakyFn s (-t) := by
  have hs : 1 - s ^ 2 ≠ 0 := by
    intro h
    have : (1 - s) * (1 + s) = 0 := by linear_combination h
    rcases mul_eq_zero.1 this with h | h
    · exact h1 (by linarith)
    · exact h2 (by linarith)
  unfold reluFn leakyFn
  rcases lt_trichotomy t 0 with h | h | h
  · rw [if_pos h, if_neg (by linarith), max_eq_right h.le]
    field_simp
    ring
  · subst h; simp
  · rw [if_neg (by linarith), if_pos (by linarith), max_eq_left h.le]
    field_simp
    ring

theorem Approx.leaky {K : Set (Fin d → ℝ)} {f : (Fin d → ℝ) → ℝ} {s : ℝ} (h1 : s ≠ 1) (h2 : s ≠ -1) (h : Approx reluFn K f) :
    Approx (leakyFn s) K f := by
  intro ε hε
  obtain ⟨us, hus⟩ := h ε hε
  have key : ∀ us : List (RUnit d), ∃ vs : List (RUnit d), ∀ x, rsum (leakyFn s) vs x = rsum reluFn us x := by
    intro us
    induction us with
    | nil => exact ⟨[], fun x => rfl⟩
    | cons u us ih =>
      obtain ⟨vs, hvs⟩ := ih
      refine ⟨⟨u.a, u.b, u.c * (1 / (1 - s ^ 2))⟩ :: ⟨fun k => -u.a k, -u.b, u.c * (s / (1 - s ^ 2))⟩ :: vs, fun x => ?_⟩
      have hvs := hvs x
      simp only [rsum, List.map_cons, List.sum_cons] at hvs ⊢
      rw [hvs]
      simp only [RUnit.val]
      have e : (∑ k, x k * -u.a k) + -u.b = -((∑ k, x k * u.a k) + u.b) := by
        rw [neg_add, ← sum_neg_distrib]
        congr 1
        exact sum_congr rfl fun k _ => by ring
      rw [e, relu_leaky h1 h2 ((∑ k, x k * u.a k) + u.b)]
      ring
  obtain ⟨vs, hvs⟩ := key us
  exact ⟨vs, fun x hx => by rw [hvs]; exact hus x hx⟩

theorem leaky_ridges {s : ℝ} (h1 : s ≠ 1) (h2 : s ≠ -1) : Ridges (leakyFn s) :=
  fun d K hK v g hg => (relu_ridges d K hK v g hg).leaky h1 h2

/-- The logistic function. -/
noncomputable def logistic (t : ℝ) : ℝ := 1 / (1 + Real.exp (-t))

theorem logistic_pos (t : ℝ) : 0 < logistic t := by
  have := Real.exp_pos (-t); unfold logistic; positivity

theorem logistic_lt_one (t : ℝ) : logistic t < 1 := by
  have := Real.exp_pos (-t)
  unfold logistic
  rw [div_lt_one (by positivity)]
  linarith

theorem logistic_le_exp (t : ℝ) : logistic t ≤ Real.exp t := by
  have := Real.exp_pos (-t)
  have h2 := Real.exp_pos t
  unfold logistic
  rw [div_le_iff₀ (by positivity), mul_add, ← Real.exp_add, add_neg_cancel, Real.exp_zero]
  linarith

theorem one_sub_logistic (t : ℝ) : 1 - logistic t = logistic (-t) := by
  have h1 := Real.exp_pos (-t)
  have h2 := Real.exp_pos t
  unfold logistic
  rw [neg_neg]
  have e : Real.exp (-t) = 1 / Real.exp t := by rw [Real.exp_neg, one_div]
  rw [e]
  field_simp
  ring

/-- The step function through g at a, a + h, ..., a + N h, smoothed by logistic functions with the steepness s. -/
noncomputable def steps (g : ℝ → ℝ) (a h s : ℝ) (N : Nat) (t : ℝ) : ℝ :=
  g a + ∑ k ∈ range N, (g (a + (k + 1 : ℕ) * h) - g (a + k * h)) * logistic (s * (t - (a + k * h + h / 2)))

theorem steps_close {g : ℝ → ℝ} (hg : Continuous g) {a b : ℝ} (hab : a < b) {ε : ℝ} (hε : 0 < ε) :
    ∃ (N : Nat) (s : ℝ), ∀ t, a ≤ t → t ≤ b → |steps g a ((b - a) / N) s N t - g t| < ε := by
  have hu := isCompact_Icc.uniformContinuousOn_of_continuous (s := Set.Icc a b) hg.continuousOn
  rw [Metric.uniformContinuousOn_iff] at hu
  obtain ⟨δ, hδ, hu⟩ := hu (ε / 4) (by linarith)
  obtain ⟨N, hN⟩ := exists_nat_gt ((b - a) / δ)
  have hNp : (0 : ℝ) < N := lt_trans (div_pos (by linarith) hδ) hN
  have hN0 : 0 < N := by exact_mod_cast hNp
  generalize hh : (b - a) / N = h
  have hb : (N : ℝ) * h = b - a := by rw [← hh]; field_simp
  have hhp : 0 < h := by rw [← hh]; exact div_pos (by linarith) hNp
  have hhd : h < δ := by
    rw [← hh, div_lt_iff₀ hNp]
    rw [div_lt_iff₀ hδ] at hN
    linarith
  -- the steepness: exp (-s h / 2) ≤ 1 / N
  refine ⟨N, 2 * N / h, fun t ht1 ht2 => ?_⟩
  rw [hh]
  have hsmall : ∀ y, h / 2 ≤ y → logistic (2 * N / h * -y) ≤ 1 / N := by
    intro y hy
    refine (logistic_le_exp _).trans ?_
    have h1 : 2 * N / h * -y ≤ -(N : ℝ) := by
      have : 2 * N / h * (h / 2) ≤ 2 * N / h * y := mul_le_mul_of_nonneg_left hy (by positivity)
      have e : 2 * N / h * (h / 2) = N := by field_simp
      linarith
    refine (Real.exp_le_exp.2 h1).trans ?_
    rw [Real.exp_neg, ← one_div]
    exact one_div_le_one_div_of_le hNp (by have := Real.add_one_le_exp (N : ℝ); linarith)
  obtain ⟨m, hm, h1, h2⟩ : ∃ m, m < N ∧ a + (m : ℝ) * h ≤ t ∧ t ≤ a + ((m + 1 : ℕ) : ℝ) * h := by
    by_contra hc
    push Not at hc
    have : ∀ m, m ≤ N → a + (m : ℝ) * h ≤ t := by
      intro m
      induction m with
      | zero => intro _; simpa using ht1
      | succ m ih => intro hm; exact (hc m (by omega) (ih (by omega))).le
    have h3 := hc (N - 1) (by omega) (this _ (by omega))
    rw [Nat.sub_add_cancel hN0, hb] at h3
    linarith
  have hgrid : ∀ k : ℕ, k ≤ N → a + (k : ℝ) * h ∈ Set.Icc a b := by
    intro k hk
    have hk : (k : ℝ) ≤ N := by exact_mod_cast hk
    have := mul_le_mul_of_nonneg_right hk hhp.le
    have := mul_nonneg (Nat.cast_nonneg (α := ℝ) k) hhp.le
    exact ⟨by linarith, by linarith⟩
  set D : ℕ → ℝ := fun k => g (a + (k + 1 : ℕ) * h) - g (a + k * h) with hD
  have hDs : ∀ k, k < N → |D k| ≤ ε / 4 := by
    intro k hk
    have := hu _ (hgrid (k + 1) hk) _ (hgrid k hk.le) (by
      rw [Real.dist_eq]
      have e : a + ((k + 1 : ℕ) : ℝ) * h - (a + k * h) = h := by push_cast; ring
      rw [e, abs_of_pos hhp]; exact hhd)
    rw [Real.dist_eq] at this
    exact this.le
  -- compare with the sum of the steps before the m-th
  have e1 : g (a + m * h) = g a + ∑ k ∈ range N, D k * (if k < m then 1 else 0) := by
    have : ∑ k ∈ range N, D k * (if k < m then (1 : ℝ) else 0) = ∑ k ∈ range m, D k := by
      rw [show N = m + (N - m) by omega, sum_range_add]
      have k1 : ∑ k ∈ range m, D k * (if k < m then (1 : ℝ) else 0) = ∑ k ∈ range m, D k :=
        sum_congr rfl fun k hk => by rw [if_pos (mem_range.1 hk), mul_one]
      have k2 : ∑ k ∈ range (N - m), D (m + k) * (if m + k < m then (1 : ℝ) else 0) = 0 :=
        sum_eq_zero fun k _ => by rw [if_neg (by omega), mul_zero]
      rw [k1, k2, add_zero]
    rw [this, hD, sum_range_sub fun k : ℕ => g (a + k * h)]
    simp
  have e2 : steps g a h (2 * N / h) N t - g (a + m * h) =
      ∑ k ∈ range N, D k * (logistic (2 * N / h * (t - (a + k * h + h / 2))) - if k < m then 1 else 0) := by
    rw [e1, steps]
    simp only [mul_sub, sum_sub_distrib, hD]
    ring
  have hterm : ∀ k ∈ range N, |D k * (logistic (2 * N / h * (t - (a + k * h + h / 2))) - if k < m then 1 else 0)| ≤
      ε / 4 * (1 / N + if k = m then 1 else 0) := by
    intro k hk
    have hk := mem_range.1 hk
    rw [abs_mul]
    refine mul_le_mul (hDs k hk) ?_ (abs_nonneg _) (by linarith)
    rcases Nat.lt_trichotomy k m with hkm | hkm | hkm
    · rw [if_pos hkm, if_neg (by omega), add_zero, abs_sub_comm, abs_of_pos (by have := logistic_lt_one (2 * N / h * (t - (a + k * h + h / 2))); linarith),
        one_sub_logistic, ← mul_neg]
      refine hsmall _ ?_
      have : ((k : ℝ) + 1) * h ≤ m * h := mul_le_mul_of_nonneg_right (by exact_mod_cast hkm) hhp.le
      linarith
    · rw [if_neg (by omega), if_pos hkm, sub_zero, abs_of_pos (logistic_pos _)]
      have := logistic_lt_one (2 * N / h * (t - (a + k * h + h / 2)))
      have : 0 < 1 / (N : ℝ) := by positivity
      linarith
    · rw [if_neg (by omega), if_neg (by omega), sub_zero, add_zero, abs_of_pos (logistic_pos _)]
      have e : t - (a + k * h + h / 2) = -((a + k * h + h / 2) - t) := by ring
      rw [e]
      refine hsmall _ ?_
      have : ((m + 1 : ℕ) : ℝ) * h ≤ k * h := mul_le_mul_of_nonneg_right (by exact_mod_cast hkm) hhp.le
      linarith
  have e3 : |steps g a h (2 * N / h) N t - g (a + m * h)| ≤ ε / 2 := by
    rw [e2]
    refine (abs_sum_le_sum_abs _ _).trans ((sum_le_sum hterm).trans ?_)
    rw [← mul_sum, sum_add_distrib, sum_const, card_range, nsmul_eq_mul, sum_ite_eq' (range N) m, if_pos (mem_range.2 hm)]
    have : (N : ℝ) * (1 / N) = 1 := by field_simp
    rw [this]
    linarith
  have d1 := hu _ (hgrid m hm.le) t ⟨ht1, ht2⟩ (by rw [Real.dist_eq, abs_lt]; push_cast at h2; constructor <;> linarith)
  rw [Real.dist_eq] at d1
  calc |steps g a h (2 * N / h) N t - g t| = |(steps g a h (2 * N / h) N t - g (a + m * h)) + (g (a + m * h) - g t)| := by congr 1; ring
    _ ≤ _ := abs_add_le _ _
    _ < ε := by linarith

theorem approx_steps (K : Set (Fin d → ℝ)) (v : Fin d → ℝ) (g : ℝ → ℝ) {a h s : ℝ} (N : Nat) :
    Approx logistic K fun x => steps g a h s N (∑ k, x k * v k) := by
  have hc : Approx logistic K fun _ => g a := approx_exact [⟨0, 0, g a * 2⟩] fun x => by
    simp only [rsum, RUnit.val, logistic, List.map_cons, List.map_nil, List.sum_cons, List.sum_nil]
    norm_num
    ring
  unfold steps
  refine hc.add ?_
  induction N with
  | zero => simpa using Approx.zero logistic K
  | succ N ih =>
    simp only [sum_range_succ]
    refine ih.add (Approx.smul _ (approx_exact [⟨fun k => s * v k, -(s * (a + N * h + h / 2)), 1⟩] fun x => ?_))
    simp only [rsum, RUnit.val, List.map_cons, List.map_nil, List.sum_cons, List.sum_nil, one_mul, add_zero]
    congr 1
    rw [mul_sub, mul_sum, ← sub_eq_add_neg]
    congr 1
    exact sum_congr rfl fun k _ => by ring

theorem logistic_ridges : Ridges logistic := by
  refine ridges_of_interval fun d K v g hg a b hab ε hε => ?_
  obtain ⟨N, s, hN⟩ := steps_close hg hab hε
  exact ⟨_, approx_steps K v g (a := a) (h := (b - a) / N) (s := s) N, hN⟩

/-! ### Several variables -/

/-- The exponentials of linear forms on K. -/
noncomputable def expForm (K : Set (Fin d → ℝ)) (v : Fin d → ℝ) : C(K, ℝ) :=
  ⟨fun x => Real.exp (∑ k, x.1 k * v k), Real.continuous_exp.comp (continuous_finsetSum _ fun k _ =>
    ((continuous_apply k).comp continuous_subtype_val).mul continuous_const)⟩

def expForms (K : Set (Fin d → ℝ)) : Submonoid C(K, ℝ) where
  carrier := Set.range (expForm K)
  one_mem' := ⟨0, by ext x; simp [expForm]⟩
  mul_mem' := by
    rintro _ _ ⟨u, rfl⟩ ⟨v, rfl⟩
    refine ⟨u + v, ?_⟩
    ext x
    simp only [expForm, ContinuousMap.coe_mk, ContinuousMap.mul_apply, Pi.add_apply, ← Real.exp_add, ← sum_add_distrib, mul_add]

theorem expForms_separates (K : Set (Fin d → ℝ)) : (Algebra.adjoin ℝ (expForms K : Set C(K, ℝ))).SeparatesPoints := by
  intro x y hxy
  obtain ⟨k, hk⟩ : ∃ k, x.1 k ≠ y.1 k := by
    by_contra hc
    push Not at hc
    exact hxy (Subtype.ext (funext hc))
  refine ⟨_, ⟨expForm K (Pi.single k 1), Algebra.subset_adjoin ⟨_, rfl⟩, rfl⟩, ?_⟩
  simp only [expForm, ContinuousMap.coe_mk]
  intro he
  have he := Real.exp_injective he
  simp [Pi.single_apply] at he
  exact hk he

/-- Every continuous function on a compact set is approximated by a sum of units. -/
theorem approx_continuous (hφ : Ridges φ) {K : Set (Fin d → ℝ)} (hK : IsCompact K) {f : (Fin d → ℝ) → ℝ} (hf : ContinuousOn f K) : Approx φ K f := by
  have : CompactSpace K := isCompact_iff_compactSpace.mp hK
  let F : C(K, ℝ) := ⟨K.domRestrict f, hf.domRestrict⟩
  refine Approx.lim fun ε hε => ?_
  obtain ⟨⟨G, hG⟩, hGF⟩ := ContinuousMap.exists_mem_subalgebra_near_continuousMap_of_separatesPoints
    (Algebra.adjoin ℝ (expForms K : Set C(K, ℝ))) (expForms_separates K) F ε hε
  have hspan : G ∈ Submodule.span ℝ (expForms K : Set C(K, ℝ)) := by
    have h1 : G ∈ Subalgebra.toSubmodule (Algebra.adjoin ℝ (expForms K : Set C(K, ℝ))) := hG
    rwa [Algebra.adjoin_eq_span, Submonoid.closure_eq] at h1
  have key : ∀ H ∈ Submodule.span ℝ (expForms K : Set C(K, ℝ)), ∃ g, Approx φ K g ∧ ∀ x : K, g x.1 = H x := by
    intro H hH
    induction hH using Submodule.span_induction with
    | mem H h =>
      obtain ⟨v, rfl⟩ := h
      exact ⟨_, hφ _ _ hK v _ Real.continuous_exp, fun x => rfl⟩
    | zero => exact ⟨_, Approx.zero φ K, fun x => rfl⟩
    | add H H' _ _ h h' =>
      obtain ⟨g, hg, e⟩ := h
      obtain ⟨g', hg', e'⟩ := h'
      exact ⟨_, hg.add hg', fun x => by simp [e, e']⟩
    | smul s H _ h =>
      obtain ⟨g, hg, e⟩ := h
      exact ⟨_, hg.smul s, fun x => by simp [e]⟩
  obtain ⟨g, hg, e⟩ := key G hspan
  refine ⟨g, hg, fun x hx => ?_⟩
  rw [e ⟨x, hx⟩]
  have h1 := lt_of_le_of_lt (ContinuousMap.norm_coe_le_norm (G - F) ⟨x, hx⟩) hGF
  rw [Real.norm_eq_abs] at h1
  exact h1

end NN
