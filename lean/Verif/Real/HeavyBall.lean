import Verif.Real.SoftmaxRegression
/- Gradient descent with momentum (the heavy-ball method) for a convex function, over the reals, started with velocity 0: with a small
enough constant step the function exceeds its value at any other point by at most a constant over the number of steps. -/

namespace NN
open Finset

/-- inner product of coefficients -/
noncomputable def ip (c p : Nat) (u v : Nat → Nat → ℝ) : ℝ := ∑ k ∈ range p, ∑ j ∈ range c, u k j * v k j

/-- Coefficients and velocity after t steps with momentum β and rate α along the gradient g. -/
noncomputable def ballIter (g : (Nat → Nat → ℝ) → Nat → Nat → ℝ) (α β : ℝ) (θ : Nat → Nat → ℝ) : Nat → (Nat → Nat → ℝ) × (Nat → Nat → ℝ)
  | 0 => (θ, fun _ _ => 0)
  | t + 1 => (fun k j => (ballIter g α β θ t).1 k j + ((ballIter g α β θ t).2 k j * β - g (ballIter g α β θ t).1 k j * α),
      fun k j => (ballIter g α β θ t).2 k j * β - g (ballIter g α β θ t).1 k j * α)

theorem ip_self_nonneg (c p : Nat) (u : Nat → Nat → ℝ) : 0 ≤ ip c p u u :=
  sum_nonneg fun _ _ => sum_nonneg fun _ _ => mul_self_nonneg _

/-- A linear relation between the entries carries over to the inner products. -/
theorem ip_lin (c p : Nat) (u v : Nat → Nat → ℝ) (s t : ℝ) (a b : Nat → Nat → ℝ) :
    ip c p u (fun k j => s * a k j + t * b k j) = s * ip c p u a + t * ip c p u b ∧
      ip c p u v = ip c p v u := by
  unfold ip
  constructor
  · rw [mul_sum, mul_sum, ← sum_add_distrib]
    refine sum_congr rfl fun k _ => ?_
    rw [mul_sum, mul_sum, ← sum_add_distrib]
    exact sum_congr rfl fun j _ => by ring
  · exact sum_congr rfl fun k _ => sum_congr rfl fun j _ => by ring

/-- One step, for a function f with the values f0 (at x), f1 (at x + v'), fp (at x - v) and fs (at θs). -/
theorem ball_step (c p : Nat) (x v g θs : Nat → Nat → ℝ) {α β R f0 f1 fp fs : ℝ} (h0 : 0 < α) (hb0 : 0 ≤ β) (hb1 : β < 1) (hR : α * R ≤ (1 - β) / 2)
    (hup : f1 ≤ f0 + ip c p g (fun k j => v k j * β - g k j * α) +
      R * ip c p (fun k j => v k j * β - g k j * α) (fun k j => v k j * β - g k j * α))
    (hprev : f0 + ip c p g (fun k j => -v k j) ≤ fp) (hcvx : f0 + ip c p g (fun k j => θs k j - x k j) ≤ fs) :
    (f1 + β / (2 * α) * ip c p (fun k j => v k j * β - g k j * α) (fun k j => v k j * β - g k j * α) +
      (1 - β) / (2 * α) * ip c p (fun k j => v k j * β - g k j * α) (fun k j => v k j * β - g k j * α) ≤ f0 + β / (2 * α) * ip c p v v) ∧
    sqDist c p (fun k j => x k j + (v k j * β - g k j * α) + β / (1 - β) * (v k j * β - g k j * α)) θs +
      2 * (α / (1 - β)) * (β / (1 - β)) * f0 + 2 * (α / (1 - β)) * (f0 - fs) ≤
      sqDist c p (fun k j => x k j + β / (1 - β) * v k j) θs + 2 * (α / (1 - β)) * (β / (1 - β)) * fp +
        2 * β ^ 2 / (1 - β) ^ 2 * ip c p v v +
        2 / (1 - β) ^ 2 * ip c p (fun k j => v k j * β - g k j * α) (fun k j => v k j * β - g k j * α) := by
  have h1 : 0 < 1 - β := by linarith
  set v' : Nat → Nat → ℝ := fun k j => v k j * β - g k j * α with hv'
  set P := ip c p g v with hP
  set N := ip c p g g with hN
  set V := ip c p v v with hV
  set D := ip c p g (fun k j => θs k j - x k j) with hD
  have hV0 : 0 ≤ V := ip_self_nonneg c p v
  have hN0 : 0 ≤ N := ip_self_nonneg c p g
  have e1 : ip c p g v' = β * P - α * N := by
    have := (ip_lin c p g v β (-α) v g).1
    rw [show (fun k j => β * v k j + -α * g k j) = v' from by funext k j; rw [hv']; ring] at this
    rw [this]; ring
  have e2 : ip c p v v' = β * V - α * P := by
    have := (ip_lin c p v g β (-α) v g).1
    rw [show (fun k j => β * v k j + -α * g k j) = v' from by funext k j; rw [hv']; ring, (ip_lin c p v g 0 0 v v).2] at this
    rw [this]; ring
  have e3 : ip c p v' v' = β ^ 2 * V - 2 * α * β * P + α ^ 2 * N := by
    have := (ip_lin c p v' v β (-α) v g).1
    rw [show (fun k j => β * v k j + -α * g k j) = v' from by funext k j; rw [hv']; ring, (ip_lin c p v' v 0 0 v v).2, (ip_lin c p v' g 0 0 v v).2,
      e1, e2] at this
    rw [this]; ring
  have e4 : ip c p g (fun k j => -v k j) = -P := by
    have := (ip_lin c p g g (-1) 0 v v).1
    rw [show (fun k j => -1 * v k j + 0 * v k j) = (fun k j => -v k j) from by funext k j; ring] at this
    rw [this]; ring
  rw [e4] at hprev
  have e5 : sqDist c p (fun k j => x k j + v' k j + β / (1 - β) * v' k j) θs = sqDist c p (fun k j => x k j + β / (1 - β) * v k j) θs +
      2 * (α / (1 - β)) * D - 2 * (α / (1 - β)) * (β / (1 - β)) * P + (α / (1 - β)) ^ 2 * N := by
    unfold sqDist
    rw [hD, hP, hN]
    unfold ip
    rw [mul_sum, mul_sum, mul_sum, ← sum_add_distrib, ← sum_sub_distrib, ← sum_add_distrib]
    refine sum_congr rfl fun k _ => ?_
    rw [mul_sum, mul_sum, mul_sum, ← sum_add_distrib, ← sum_sub_distrib, ← sum_add_distrib]
    refine sum_congr rfl fun j _ => ?_
    rw [hv']
    field_simp
    ring
  -- |β v + v'|² ≥ 0
  have e6 : 0 ≤ β ^ 2 * V + 2 * β * ip c p v v' + ip c p v' v' := by
    have h := ip_self_nonneg c p (fun k j => β * v k j + 1 * v' k j)
    rw [(ip_lin c p _ v β 1 v v').1, (ip_lin c p _ v 0 0 v v).2, (ip_lin c p _ v' 0 0 v v).2, (ip_lin c p v v β 1 v v').1,
      (ip_lin c p v' v β 1 v v').1, (ip_lin c p v' v 0 0 v v).2] at h
    nlinarith [h]
  -- |v - v'|² ≥ 0
  have e7 : 0 ≤ V - 2 * ip c p v v' + ip c p v' v' := by
    have h := ip_self_nonneg c p (fun k j => 1 * v k j + (-1) * v' k j)
    rw [(ip_lin c p _ v 1 (-1) v v').1, (ip_lin c p _ v 0 0 v v).2, (ip_lin c p _ v' 0 0 v v).2, (ip_lin c p v v 1 (-1) v v').1,
      (ip_lin c p v' v 1 (-1) v v').1, (ip_lin c p v' v 0 0 v v).2] at h
    nlinarith [h]
  have hW0 : 0 ≤ ip c p v' v' := ip_self_nonneg c p v'
  have e8 : α * ip c p g v' = β * ip c p v v' - ip c p v' v' := by rw [e1, e2, e3]; ring
  have e9 : α ^ 2 * N ≤ 2 * β ^ 2 * V + 2 * ip c p v' v' := by
    have : α ^ 2 * N = β ^ 2 * V - 2 * β * ip c p v v' + ip c p v' v' := by rw [e2, e3]; ring
    rw [this]; linarith
  generalize ip c p v' v' = W at *
  constructor
  · have hm := mul_le_mul_of_nonneg_left hup h0.le
    have hq : α * R * W ≤ (1 - β) / 2 * W := mul_le_mul_of_nonneg_right hR hW0
    have hbv : β * ip c p v v' ≤ β * ((V + W) / 2) := mul_le_mul_of_nonneg_left (by linarith) hb0
    have hfin : α * f1 + β / 2 * W + (1 - β) / 2 * W ≤ α * f0 + β / 2 * V := by
      generalize ip c p v v' = U at *
      generalize ip c p g v' = K at *
      have : α * (f0 + K + R * W) = α * f0 + α * K + α * R * W := by ring
      rw [this, e8] at hm
      linarith
    have h2 : 0 < α⁻¹ := inv_pos.2 h0
    have := mul_le_mul_of_nonneg_left hfin h2.le
    have a1 : α⁻¹ * (α * f1 + β / 2 * W + (1 - β) / 2 * W) = f1 + β / (2 * α) * W + (1 - β) / (2 * α) * W := by field_simp
    have a2 : α⁻¹ * (α * f0 + β / 2 * V) = f0 + β / (2 * α) * V := by field_simp
    rw [a1, a2] at this
    exact this
  · rw [e5]
    have ha : 0 < α / (1 - β) := div_pos h0 h1
    have hbb : 0 ≤ β / (1 - β) := div_nonneg hb0 h1.le
    have n1 : (α / (1 - β)) ^ 2 * N ≤ 2 * β ^ 2 / (1 - β) ^ 2 * V + 2 / (1 - β) ^ 2 * W := by
      have := div_le_div_of_nonneg_right e9 (sq_nonneg (1 - β))
      have a1 : (α / (1 - β)) ^ 2 * N = α ^ 2 * N / (1 - β) ^ 2 := by rw [div_pow]; ring
      have a2 : (2 * β ^ 2 * V + 2 * W) / (1 - β) ^ 2 = 2 * β ^ 2 / (1 - β) ^ 2 * V + 2 / (1 - β) ^ 2 * W := by ring
      rw [a1, ← a2]; exact this
    have n2 : 2 * (α / (1 - β)) * (f0 + D) ≤ 2 * (α / (1 - β)) * fs := mul_le_mul_of_nonneg_left hcvx (by positivity)
    have n3 : 2 * (α / (1 - β)) * (β / (1 - β)) * (f0 + -P) ≤ 2 * (α / (1 - β)) * (β / (1 - β)) * fp :=
      mul_le_mul_of_nonneg_left hprev (by positivity)
    generalize α / (1 - β) = a at *
    generalize β / (1 - β) = b at *
    nlinarith [n1, n2, n3]

/-- The heavy-ball method on a convex function f ≥ 0 that satisfies the quadratic upper estimate along the steps. -/
theorem ball_bound (c p : Nat) (f : (Nat → Nat → ℝ) → ℝ) (g : (Nat → Nat → ℝ) → Nat → Nat → ℝ) (θ : Nat → Nat → ℝ) {α β R : ℝ} (h0 : 0 < α)
    (hb0 : 0 ≤ β) (hb1 : β < 1) (hR : α * R ≤ (1 - β) / 2) (hpos : ∀ x, 0 ≤ f x)
    (hlow : ∀ x Δ, f x + ip c p (g x) Δ ≤ f (fun k j => x k j + Δ k j))
    (hup : ∀ t, f (ballIter g α β θ (t + 1)).1 ≤ f (ballIter g α β θ t).1 + ip c p (g (ballIter g α β θ t).1) (ballIter g α β θ (t + 1)).2 +
      R * ip c p (ballIter g α β θ (t + 1)).2 (ballIter g α β θ (t + 1)).2) (t : Nat) :
    f (ballIter g α β θ t).1 ≤ f θ ∧ ∀ θs, 0 < t → f (ballIter g α β θ t).1 ≤ f θs +
      ((1 - β) / (2 * α) * sqDist c p θ θs + 2 * (1 + β) / (1 - β) ^ 2 * f θ) / t := by
  have h1 : 0 < 1 - β := by linarith
  have hstep : ∀ t θs, _ := fun t θs => ball_step c p (ballIter g α β θ t).1 (ballIter g α β θ t).2 (g (ballIter g α β θ t).1) θs h0 hb0 hb1 hR
    (hup t) (fp := f (fun k j => (ballIter g α β θ t).1 k j - (ballIter g α β θ t).2 k j))
    (hlow _ (fun k j => -(ballIter g α β θ t).2 k j)) (fs := f θs) (by
      have := hlow (ballIter g α β θ t).1 (fun k j => θs k j - (ballIter g α β θ t).1 k j)
      simpa only [add_sub_cancel] using this)
  set E : Nat → ℝ := fun t => f (ballIter g α β θ t).1 + β / (2 * α) * ip c p (ballIter g α β θ t).2 (ballIter g α β θ t).2 with hE
  have hE0 : E 0 = f θ := by
    rw [hE]
    simp [ballIter, ip]
  have hcoef : 0 ≤ β / (2 * α) := by positivity
  have hfE : ∀ t, f (ballIter g α β θ t).1 ≤ E t := fun t => by
    have := mul_nonneg hcoef (ip_self_nonneg c p (ballIter g α β θ t).2)
    show _ ≤ f _ + _
    linarith
  have hEdec : ∀ t, E (t + 1) + (1 - β) / (2 * α) * ip c p (ballIter g α β θ (t + 1)).2 (ballIter g α β θ (t + 1)).2 ≤ E t :=
    fun t => (hstep t θ).1
  have hEle : ∀ t, E (t + 1) ≤ E t := fun t => by
    have := mul_nonneg (by positivity : 0 ≤ (1 - β) / (2 * α)) (ip_self_nonneg c p (ballIter g α β θ (t + 1)).2)
    linarith [hEdec t]
  have hEt : ∀ t, E t ≤ f θ := by
    intro t
    induction t with
    | zero => exact hE0.le
    | succ t ih => exact (hEle t).trans ih
  refine ⟨(hfE t).trans (hEt t), fun θs ht => ?_⟩
  set a := α / (1 - β) with ha
  set b := β / (1 - β) with hb
  set K := 2 * β ^ 2 / (1 - β) ^ 2 + b + 2 / (1 - β) ^ 2 with hK
  have ha0 : 0 < a := div_pos h0 h1
  have hbb : 0 ≤ b := div_nonneg hb0 h1.le
  have hK0 : 0 ≤ K := by positivity
  have hinv : ∀ t : Nat, sqDist c p (fun k j => (ballIter g α β θ t).1 k j + b * (ballIter g α β θ t).2 k j) θs +
      2 * a * b * f (fun k j => (ballIter g α β θ t).1 k j - (ballIter g α β θ t).2 k j) +
      (2 * β ^ 2 / (1 - β) ^ 2 + b) * ip c p (ballIter g α β θ t).2 (ballIter g α β θ t).2 + 2 * a * K * E t + 2 * a * t * (E t - f θs) ≤
      sqDist c p θ θs + 2 * a * b * f θ + 2 * a * K * f θ := by
    intro t
    induction t with
    | zero =>
      rw [hE0]
      simp [ballIter, ip]
    | succ t ih =>
      have s := (hstep t θs).2
      have d := hEdec t
      have l := hEle t
      have eprev : (fun k j => (ballIter g α β θ (t + 1)).1 k j - (ballIter g α β θ (t + 1)).2 k j) = (ballIter g α β θ t).1 := by
        funext k j
        simp [ballIter]
      rw [eprev]
      change sqDist c p (fun k j => (ballIter g α β θ (t + 1)).1 k j + b * (ballIter g α β θ (t + 1)).2 k j) θs + _ + _ ≤
        _ + _ + _ + _ * ip c p (ballIter g α β θ (t + 1)).2 (ballIter g α β θ (t + 1)).2 at s
      have hEt' : E t = f (ballIter g α β θ t).1 + β / (2 * α) * ip c p (ballIter g α β θ t).2 (ballIter g α β θ t).2 := rfl
      have hbV : 2 * a * (β / (2 * α)) = b := by rw [ha, hb]; field_simp
      have hinva : 2 * a * ((1 - β) / (2 * α)) = 1 := by rw [ha]; field_simp
      have hW0 := ip_self_nonneg c p (ballIter g α β θ (t + 1)).2
      generalize ip c p (ballIter g α β θ (t + 1)).2 (ballIter g α β θ (t + 1)).2 = W at *
      generalize ip c p (ballIter g α β θ t).2 (ballIter g α β θ t).2 = V at *
      generalize sqDist c p (fun k j => (ballIter g α β θ (t + 1)).1 k j + b * (ballIter g α β θ (t + 1)).2 k j) θs = Z' at *
      generalize sqDist c p (fun k j => (ballIter g α β θ t).1 k j + b * (ballIter g α β θ t).2 k j) θs = Z at *
      generalize f (ballIter g α β θ t).1 = F at *
      generalize f (fun k j => (ballIter g α β θ t).1 k j - (ballIter g α β θ t).2 k j) = Fp at *
      generalize E (t + 1) = E' at *
      generalize E t = E0 at *
      have w1 : K * W ≤ 2 * a * K * (E0 - E') := by
        have := mul_le_mul_of_nonneg_left d (by positivity : 0 ≤ 2 * a * K)
        have e : 2 * a * K * (E' + (1 - β) / (2 * α) * W) = 2 * a * K * E' + (2 * a * ((1 - β) / (2 * α))) * (K * W) := by ring
        rw [e, hinva] at this
        linarith
      have w2 : 2 * a * (E0 - f θs) = 2 * a * (F - f θs) + b * V := by rw [hEt', ← hbV]; ring
      have w3 : 2 * a * ((t : ℝ) + 1) * (E' - f θs) ≤ 2 * a * ((t : ℝ) + 1) * (E0 - f θs) :=
        mul_le_mul_of_nonneg_left (by linarith) (by positivity)
      have w4 : K * W = (2 * β ^ 2 / (1 - β) ^ 2 + b) * W + 2 / (1 - β) ^ 2 * W := by rw [hK]; ring
      push_cast
      have w5 : 2 * a * ((t : ℝ) + 1) * (E0 - f θs) = 2 * a * t * (E0 - f θs) + 2 * a * (E0 - f θs) := by ring
      have w6 : (2 * β ^ 2 / (1 - β) ^ 2 + b) * V = 2 * β ^ 2 / (1 - β) ^ 2 * V + b * V := by ring
      have w7 : 2 * a * K * (E0 - E') = 2 * a * K * E0 - 2 * a * K * E' := by ring
      linarith
  have hi := hinv t
  have n1 := sqDist_nonneg c p (fun k j => (ballIter g α β θ t).1 k j + b * (ballIter g α β θ t).2 k j) θs
  have n2 := mul_nonneg (by positivity : 0 ≤ 2 * a * b) (hpos (fun k j => (ballIter g α β θ t).1 k j - (ballIter g α β θ t).2 k j))
  have n3 := mul_nonneg (by positivity : 0 ≤ 2 * β ^ 2 / (1 - β) ^ 2 + b) (ip_self_nonneg c p (ballIter g α β θ t).2)
  have n4 : 0 ≤ 2 * a * K * E t := mul_nonneg (by positivity) ((hpos _).trans (hfE t))
  have htt : (0 : ℝ) < t := by exact_mod_cast ht
  have hm : 2 * a * t * (E t - f θs) ≤ sqDist c p θ θs + 2 * a * (b + K) * f θ := by linarith
  have hbK : b + K = 2 * (1 + β) / (1 - β) ^ 2 := by
    rw [hK, hb]
    field_simp
    ring
  rw [hbK] at hm
  refine (hfE t).trans ?_
  rw [← sub_le_iff_le_add', le_div_iff₀ htt]
  have h2a : (1 - β) / (2 * α) * (2 * a) = 1 := by rw [ha]; field_simp
  have := mul_le_mul_of_nonneg_left hm (by positivity : 0 ≤ (1 - β) / (2 * α))
  have e1 : (1 - β) / (2 * α) * (2 * a * t * (E t - f θs)) = (1 - β) / (2 * α) * (2 * a) * ((E t - f θs) * t) := by ring
  have e2 : (1 - β) / (2 * α) * (sqDist c p θ θs + 2 * a * (2 * (1 + β) / (1 - β) ^ 2) * f θ) =
      (1 - β) / (2 * α) * sqDist c p θ θs + (1 - β) / (2 * α) * (2 * a) * (2 * (1 + β) / (1 - β) ^ 2 * f θ) := by ring
  rw [e1, e2, h2a] at this
  linarith

/-- The cross-entropy is not negative. -/
theorem smr_nonneg {r c p : Nat} (X : Nat → Nat → ℝ) (l : Nat → Nat) (hl : ∀ i, i < r → l i < c) (θ : Nat → Nat → ℝ) : 0 ≤ smr r c p X l θ := by
  unfold smr
  refine div_nonneg (sum_nonneg fun i hi => ?_) (Nat.cast_nonneg r)
  have hli := hl i (mem_range.1 hi)
  have h : Real.exp (score p X θ i (l i)) ≤ ∑ k ∈ range c, Real.exp (score p X θ i k) :=
    single_le_sum (f := fun k => Real.exp (score p X θ i k)) (fun _ _ => (Real.exp_pos _).le) (mem_range.2 hli)
  have := Real.log_le_log (Real.exp_pos _) h
  rw [Real.log_exp] at this
  unfold lse
  linarith

/-- Along the steps the velocity changes the scores by at most αR/(1-β). -/
theorem ball_score {r c p : Nat} (X : Nat → Nat → ℝ) (l : Nat → Nat) (θ : Nat → Nat → ℝ) {α β R : ℝ} (h0 : 0 < α) (hb0 : 0 ≤ β) (hb1 : β < 1)
    (hR : ∀ i, i < r → ∑ k ∈ range p, X i k ^ 2 ≤ R) (t : Nat) {i j : Nat} (hi : i < r) (hj : j < c) :
    |score p X (ballIter (smrGrad r c p X l) α β θ t).2 i j| ≤ α * R / (1 - β) := by
  have h1 : 0 < 1 - β := by linarith
  have hR0 : 0 ≤ R := (sum_nonneg fun _ _ => sq_nonneg _).trans (hR i hi)
  induction t with
  | zero =>
    simp only [ballIter, score, mul_zero, sum_const_zero, abs_zero]
    positivity
  | succ t ih =>
    have hg := score_grad (c := c) X l (ballIter (smrGrad r c p X l) α β θ t).1 hR hi hj
    set v := (ballIter (smrGrad r c p X l) α β θ t).2 with hv
    set g := smrGrad r c p X l (ballIter (smrGrad r c p X l) α β θ t).1 with hgd
    have e : score p X (ballIter (smrGrad r c p X l) α β θ (t + 1)).2 i j = β * score p X v i j - α * score p X g i j := by
      unfold score
      rw [mul_sum, mul_sum, ← sum_sub_distrib]
      refine sum_congr rfl fun k _ => ?_
      show X i k * (v k j * β - g k j * α) = _
      ring
    rw [e]
    calc |β * score p X v i j - α * score p X g i j| ≤ |β * score p X v i j| + |α * score p X g i j| := abs_sub _ _
      _ ≤ β * (α * R / (1 - β)) + α * R := by
          rw [abs_mul, abs_mul, abs_of_nonneg hb0, abs_of_pos h0]
          exact add_le_add (mul_le_mul_of_nonneg_left ih hb0) (mul_le_mul_of_nonneg_left hg h0.le)
      _ = α * R / (1 - β) := by field_simp; ring

/-- Softmax regression with momentum. -/
theorem smrBall_bound {r c p : Nat} (hr : 0 < r) (X : Nat → Nat → ℝ) (l : Nat → Nat) (hl : ∀ i, i < r → l i < c) (θ : Nat → Nat → ℝ) {α β R : ℝ}
    (h0 : 0 < α) (hb0 : 0 ≤ β) (hb1 : β < 1) (hX : ∀ i, i < r → ∑ k ∈ range p, X i k ^ 2 ≤ R) (hR : α * R ≤ (1 - β) / 2) (t : Nat) :
    smr r c p X l (ballIter (smrGrad r c p X l) α β θ t).1 ≤ smr r c p X l θ ∧
      ∀ θs, 0 < t → smr r c p X l (ballIter (smrGrad r c p X l) α β θ t).1 ≤ smr r c p X l θs +
        ((1 - β) / (2 * α) * sqDist c p θ θs + 2 * (1 + β) / (1 - β) ^ 2 * smr r c p X l θ) / t := by
  have h1 : 0 < 1 - β := by linarith
  have hrr : (0 : ℝ) < r := by exact_mod_cast hr
  refine ball_bound c p (smr r c p X l) (smrGrad r c p X l) θ h0 hb0 hb1 hR (smr_nonneg X l hl) (smr_lower X l hl) (fun t => ?_) t
  set v := (ballIter (smrGrad r c p X l) α β θ (t + 1)).2 with hv
  have hsc : ∀ i j, i < r → j < c → |score p X v i j| ≤ 1 := by
    intro i j hi hj
    refine (ball_score X l θ h0 hb0 hb1 hX (t + 1) hi hj).trans ?_
    rw [div_le_one h1]
    linarith
  have hu := smr_upper X l hl (ballIter (smrGrad r c p X l) α β θ t).1 v hsc
  have hq : (∑ i ∈ range r, ∑ j ∈ range c, score p X v i j ^ 2) / r ≤ R * ip c p v v := by
    rw [div_le_iff₀ hrr]
    have : ∀ i ∈ range r, ∑ j ∈ range c, score p X v i j ^ 2 ≤ R * ip c p v v := by
      intro i hi
      calc ∑ j ∈ range c, score p X v i j ^ 2 ≤ ∑ j ∈ range c, (∑ k ∈ range p, X i k ^ 2) * ∑ k ∈ range p, v k j ^ 2 :=
            sum_le_sum fun j _ => sum_mul_sq_le_sq_mul_sq _ _ _
        _ = (∑ k ∈ range p, X i k ^ 2) * ip c p v v := by rw [← mul_sum, sum_comm]; simp only [ip, sq]
        _ ≤ R * ip c p v v := mul_le_mul_of_nonneg_right (hX i (mem_range.1 hi)) (ip_self_nonneg c p v)
    calc _ ≤ ∑ _i ∈ range r, R * ip c p v v := sum_le_sum this
      _ = _ := by rw [sum_const, card_range, nsmul_eq_mul, mul_comm]
  exact hu.trans (add_le_add_right hq _)

/-- Least squares with momentum. -/
theorem lsqBall_bound (r c p : Nat) (X Y θ : Nat → Nat → ℝ) {α β : ℝ} (h0 : 0 < α) (hb0 : 0 ≤ β) (hb1 : β < 1)
    (hR : α * ((∑ i ∈ range r, ∑ k ∈ range p, X i k ^ 2) / c) ≤ (1 - β) / 2) (t : Nat) :
    lsq r c p X Y (ballIter (lsqGrad r c p X Y) α β θ t).1 ≤ lsq r c p X Y θ ∧
      ∀ θs, 0 < t → lsq r c p X Y (ballIter (lsqGrad r c p X Y) α β θ t).1 ≤ lsq r c p X Y θs +
        ((1 - β) / (2 * α) * sqDist c p θ θs + 2 * (1 + β) / (1 - β) ^ 2 * lsq r c p X Y θ) / t := by
  refine ball_bound c p (lsq r c p X Y) (lsqGrad r c p X Y) θ h0 hb0 hb1 hR
    (fun x => sum_nonneg fun _ _ => div_nonneg (sum_nonneg fun _ _ => sq_nonneg _) (Nat.cast_nonneg c)) (fun x Δ => ?_) (fun t => ?_) t
  · rw [lsq_add]
    have : 0 ≤ ∑ i ∈ range r, (∑ j ∈ range c, (∑ k ∈ range p, X i k * Δ k j) ^ 2) / (c : ℝ) :=
      sum_nonneg fun _ _ => div_nonneg (sum_nonneg fun _ _ => sq_nonneg _) (Nat.cast_nonneg c)
    unfold ip
    linarith
  · set v := (ballIter (lsqGrad r c p X Y) α β θ (t + 1)).2 with hv
    have e := lsq_add r c p X Y (ballIter (lsqGrad r c p X Y) α β θ t).1 v
    have q := lsq_quad_le r c p X v
    have hs : ∑ k ∈ range p, ∑ j ∈ range c, v k j ^ 2 = ip c p v v := by simp only [ip, sq]
    rw [hs] at q
    exact e.le.trans (add_le_add_right q _)

/-- On separable data gradient descent with momentum reaches any cross-entropy above 0 and stays below it. -/
theorem smrBall_separable {r c p : Nat} (hr : 0 < r) (X : Nat → Nat → ℝ) (l : Nat → Nat) (hl : ∀ i, i < r → l i < c) (θ θs : Nat → Nat → ℝ)
    (hs : ∀ i j, i < r → j < c → j ≠ l i → score p X θs i j + 1 ≤ score p X θs i (l i)) {α β R : ℝ}
    (h0 : 0 < α) (hb0 : 0 ≤ β) (hb1 : β < 1) (hX : ∀ i, i < r → ∑ k ∈ range p, X i k ^ 2 ≤ R) (hR : α * R ≤ (1 - β) / 2) {ε : ℝ} (he : 0 < ε) :
    ∃ T : Nat, ∀ t, T ≤ t → smr r c p X l (ballIter (smrGrad r c p X l) α β θ t).1 < ε := by
  have hc : (1 : ℝ) ≤ c := by exact_mod_cast (show 1 ≤ c by have := hl 0 hr; omega)
  obtain ⟨s, hs0, hs1⟩ : ∃ s : ℝ, 0 ≤ s ∧ (c - 1) * Real.exp (-s) < ε / 2 := by
    refine ⟨2 * c / ε, by positivity, ?_⟩
    have h1 := Real.add_one_le_exp (2 * c / ε)
    have h2 : Real.exp (-(2 * c / ε)) * Real.exp (2 * c / ε) = 1 := by rw [← Real.exp_add, neg_add_cancel, Real.exp_zero]
    have h3 : Real.exp (-(2 * c / ε)) * (2 * c / ε + 1) ≤ 1 := by
      exact (mul_le_mul_of_nonneg_left h1 (Real.exp_pos _).le).trans h2.le
    have h4 := Real.exp_pos (-(2 * c / ε))
    set E := Real.exp (-(2 * c / ε))
    have h5 : E * (2 * c / ε) < 1 := by nlinarith
    have h6 : E * (2 * c) < ε := by
      rw [mul_div_assoc', div_lt_one he] at h5
      exact h5
    nlinarith
  have hsep := smr_separable hr X l hl θs hs hs0
  set D := (1 - β) / (2 * α) * sqDist c p θ (fun k j => s * θs k j) + 2 * (1 + β) / (1 - β) ^ 2 * smr r c p X l θ with hD
  obtain ⟨T, hT⟩ := exists_nat_gt (D / (ε / 2))
  refine ⟨T + 1, fun t ht => ?_⟩
  have htt : (T : ℝ) < t := by exact_mod_cast (show T < t by omega)
  have ht0 : (0 : ℝ) < t := lt_of_le_of_lt (Nat.cast_nonneg T) htt
  have hb := (smrBall_bound hr X l hl θ h0 hb0 hb1 hX hR t).2 (fun k j => s * θs k j) (by omega)
  rw [← hD] at hb
  have hlt : D / t < ε / 2 := by
    rw [div_lt_iff₀ ht0]
    have := hT.trans htt
    rw [div_lt_iff₀ (by positivity)] at this
    linarith
  linarith

end NN
