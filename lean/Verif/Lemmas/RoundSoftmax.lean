import Verif.Lemmas.RoundAct
/- The error of Softmax on float64. -/

set_option linter.unusedSectionVars false

namespace NN
open Finset F64 Go

/-- (1+u)^n - 1 ≤ nu / (1 - nu). -/
theorem gam_le {n : Nat} (h : n * ueps < 1) : gam n ≤ n * ueps / (1 - n * ueps) := by
  have hu := ueps_pos
  have hus := ueps_small
  have h1 : 1 - n * ueps ≤ (1 - ueps) ^ n := by
    have := one_add_mul_le_pow (a := -ueps) (by linarith) n
    rw [← sub_eq_add_neg] at this
    linarith
  have h2 : (1 + ueps) ^ n * (1 - ueps) ^ n ≤ 1 := by
    rw [← mul_pow]
    exact pow_le_one₀ (by nlinarith) (by nlinarith)
  have h3 : 0 ≤ (1 + ueps) ^ n := by positivity
  unfold gam
  rw [le_div_iff₀ (by linarith)]
  have := mul_le_mul_of_nonneg_left h1 h3
  linarith

theorem gam_quarter {n : Nat} (h : n ≤ 2 ^ 14) : gam n ≤ 1 / 4 := by
  have hu := ueps_pos
  have h1 : n * ueps ≤ 1 / 8 := by
    have h2 : (n : ℝ) ≤ 2 ^ 14 := by exact_mod_cast h
    have h3 := ueps_le
    calc n * ueps ≤ 2 ^ 14 * (1 / 2 ^ 53) := mul_le_mul h2 h3 hu.le (by positivity)
      _ ≤ 1 / 8 := by norm_num
  refine (gam_le (by linarith)).trans ?_
  rw [div_le_iff₀ (by linarith)]
  linarith

/-- A sum, computed from left to right. -/
theorem sum_err [Libm] (n : Nat) (a : Nat → F64) (ha : ∀ k, k < n → (a k).Finite) (hs : (1 + ueps) ^ n * ∑ k ∈ range n, |(a k).val| ≤ big) :
    (fsum n a).Finite ∧ |(fsum n a).val - ∑ k ∈ range n, (a k).val| ≤ gam n * ∑ k ∈ range n, |(a k).val| := by
  have hu := ueps_pos
  induction n with
  | zero =>
    refine ⟨zero_f64.2, ?_⟩
    rw [fsum, zero_f64.1]
    simp
  | succ n ih =>
    have hp := one_le_pow_ueps n
    have hA : 0 ≤ ∑ k ∈ range n, |(a k).val| := sum_nonneg fun _ _ => abs_nonneg _
    set A := ∑ k ∈ range n, |(a k).val| with hAdef
    set S := ∑ k ∈ range n, (a k).val with hSdef
    have hSA : |S| ≤ A := abs_sum_le_sum_abs _ _
    rw [sum_range_succ, ← hAdef] at hs
    rw [sum_range_succ, sum_range_succ, ← hAdef, ← hSdef]
    set c := |(a n).val| with hc
    have hc0 : 0 ≤ c := abs_nonneg _
    set q := (1 + ueps) ^ n with hq
    have e1 : (1 + ueps) ^ (n + 1) = q * (1 + ueps) := pow_succ _ _
    rw [e1] at hs
    have g0 : gam n = q - 1 := rfl
    have g1 : gam (n + 1) = q * (1 + ueps) - 1 := by unfold gam; rw [e1]
    rw [g0] at ih
    rw [g1]
    have hqu : q ≤ q * (1 + ueps) := le_mul_of_one_le_right (by linarith) (by linarith)
    have k1 : q * (A + c) ≤ big := (mul_le_mul_of_nonneg_right hqu (by linarith)).trans hs
    have k2 : q * A ≤ q * (A + c) := mul_le_mul_of_nonneg_left (by linarith) (by linarith)
    have k3 : c ≤ q * c := le_mul_of_one_le_left hc0 hp
    obtain ⟨f1, d1⟩ := ih (fun k hk => ha k (by omega)) (by linarith)
    rw [fsum]
    set s := fsum n a with hsdef
    have hx : |s.val + (a n).val - (S + (a n).val)| ≤ (q - 1) * A := by
      rw [show s.val + (a n).val - (S + (a n).val) = s.val - S by ring]; exact d1
    have hSc : |S + (a n).val| ≤ A + c := (abs_add_le _ _).trans (add_le_add hSA le_rfl)
    have hsp : |s.val + (a n).val| ≤ A + c + (q - 1) * A := (abs_le_add_of hx).trans (by linarith)
    obtain ⟨f3, d3⟩ := add_err f1 (ha n (by omega)) (by linarith)
    refine ⟨f3, ?_⟩
    show |(F64.add s (a n)).val - _| ≤ _
    have e : (F64.add s (a n)).val - (S + (a n).val) =
        ((F64.add s (a n)).val - (s.val + (a n).val)) + (s.val + (a n).val - (S + (a n).val)) := by ring
    rw [e]
    have h4 := mul_le_mul_of_nonneg_left hsp hu.le
    refine (abs_add_le _ _).trans ((add_le_add (d3.trans h4) hx).trans ?_)
    have h5 : (1 + ueps) * c ≤ q * (1 + ueps) * c := mul_le_mul_of_nonneg_right (le_mul_of_one_le_left (by linarith) hp) hc0
    linarith

theorem exp_neg700 : (2 : ℝ) ^ (-1022 : ℤ) ≤ Real.exp (-700) := by
  have h2 := Real.log_two_gt_d9
  rw [show (2 : ℝ) ^ (-1022 : ℤ) = Real.exp ((-1022 : ℤ) * Real.log 2) by
    rw [mul_comm, Real.exp_mul, Real.exp_log (by norm_num), Real.rpow_intCast], Real.exp_le_exp]
  push_cast
  linarith

/-- Softmax of a row of float64s against the exact softmax of these numbers. -/
theorem softmax_round [Libm] (o : Nat) (ho : o ≤ 2 ^ 12) (z : Nat → F64) (hz : ∀ k, k < o → (z k).Finite) (hhi : ∀ k, k < o → (z k).val ≤ 700)
    (hlo : ∃ k, k < o ∧ -700 ≤ (z k).val) (j : Nat) (hj : j < o) :
    Near (Flt.exp (z j) /. fsum o fun k => Flt.exp (z k)) (Real.exp (z j).val / ∑ k ∈ range o, Real.exp (z k).val)
      (2 * gam (3 * o + 2) + 10 * ueps) := by
  have hu := ueps_pos
  have hus := ueps_small
  have ht := tiny_pos
  have hoR : (o : ℝ) ≤ 2 ^ 12 := by exact_mod_cast ho
  have ho0 : (0 : ℝ) ≤ o := Nat.cast_nonneg _
  have hE : ∀ k, k < o → Real.exp (z k).val ≤ (2 : ℝ) ^ (1010 : ℤ) := fun k hk => (Real.exp_le_exp.2 (hhi k hk)).trans exp700_le
  have hK : (2 : ℝ) ^ (1010 : ℤ) * 2 ^ 13 ≤ big := by
    refine le_trans (le_of_eq ?_) two_pow_le_big
    rw [show (1023 : ℤ) = 1010 + 13 by norm_num, zpow_add₀ (by norm_num)]
    norm_num
  have hK1 : 1 ≤ (2 : ℝ) ^ (1010 : ℤ) := one_le_zpow₀ (by norm_num) (by norm_num)
  have hK2 : (2 : ℝ) ^ (1010 : ℤ) ≤ 2 ^ (1023 : ℤ) := zpow_le_zpow_right₀ (by norm_num) (by norm_num)
  generalize (2 : ℝ) ^ (1010 : ℤ) = K at hE hK hK1 hK2
  have hex : ∀ k, k < o → (Flt.exp (z k) : F64).Finite ∧ |(Flt.exp (z k) : F64).val - Real.exp (z k).val| ≤ 2 * ueps * Real.exp (z k).val + 2 * tiny :=
    fun k hk => exp_err (hz k hk) ((hE k hk).trans hK2)
  generalize hed : (fun k => (Flt.exp (z k) : F64)) = e
  have hed' : ∀ k, (Flt.exp (z k) : F64) = e k := fun k => by rw [← hed]
  simp only [hed'] at hex ⊢
  set S := ∑ k ∈ range o, Real.exp (z k).val with hS
  have hSj : ∀ k, k < o → Real.exp (z k).val ≤ S := fun k hk =>
    single_le_sum (f := fun k => Real.exp (z k).val) (fun _ _ => (Real.exp_pos _).le) (mem_range.2 hk)
  have htS : tiny ≤ ueps * S := by
    obtain ⟨k, hk, hk7⟩ := hlo
    have h1 : (2 : ℝ) ^ (-1022 : ℤ) ≤ S := exp_neg700.trans ((Real.exp_le_exp.2 hk7).trans (hSj k hk))
    have h2 := mul_le_mul_of_nonneg_left h1 hu.le
    refine le_trans (le_of_eq ?_) h2
    unfold tiny ueps
    rw [← zpow_add₀ (by norm_num)]
    norm_num
  have hS0 : 0 < S := lt_of_lt_of_le (Real.exp_pos (z j).val) (hSj j hj)
  have hSK : S ≤ 2 ^ 12 * K := by
    have h1 := sum_le_card_nsmul (range o) (fun k => Real.exp (z k).val) K fun k hk => hE k (mem_range.1 hk)
    rw [card_range, nsmul_eq_mul] at h1
    exact h1.trans (mul_le_mul_of_nonneg_right hoR (by linarith))
  -- the computed exponentials and their sum
  have hd : ∑ k ∈ range o, |(e k).val - Real.exp (z k).val| ≤ (2 + 2 * o) * ueps * S := by
    refine (sum_le_sum fun k hk => (hex k (mem_range.1 hk)).2).trans ?_
    rw [sum_add_distrib, ← mul_sum, ← hS, sum_const, card_range, nsmul_eq_mul]
    have := mul_le_mul_of_nonneg_left htS ho0
    linarith
  have hsumabs : ∑ k ∈ range o, |(e k).val| ≤ (1 + (2 + 2 * o) * ueps) * S := by
    have h1 : ∑ k ∈ range o, |(e k).val| ≤ ∑ k ∈ range o, (Real.exp (z k).val + |(e k).val - Real.exp (z k).val|) := by
      refine sum_le_sum fun k _ => ?_
      have := abs_le_add_of (a := (e k).val) (b := Real.exp (z k).val) le_rfl
      rwa [abs_of_pos (Real.exp_pos _)] at this
    rw [sum_add_distrib, ← hS] at h1
    linarith
  have hdiff : |∑ k ∈ range o, (e k).val - S| ≤ (2 + 2 * o) * ueps * S := by
    rw [hS, ← sum_sub_distrib]
    exact (abs_sum_le_sum_abs _ _).trans hd
  have hbern : 1 + (2 + 2 * o) * ueps ≤ (1 + ueps) ^ (2 * o + 2) := by
    have := one_add_mul_le_pow (a := ueps) (by linarith) (2 * o + 2)
    push_cast at this
    linarith
  have hg0 := gam_nonneg o
  have hgq : gam o ≤ 1 / 4 := gam_quarter (by omega)
  have hgq2 : gam (3 * o + 2) ≤ 1 / 4 := gam_quarter (by omega)
  have hgam : (1 + gam o) * (1 + (2 + 2 * o) * ueps) ≤ 1 + gam (3 * o + 2) := by
    have e1 : 1 + gam (3 * o + 2) = (1 + ueps) ^ o * (1 + ueps) ^ (2 * o + 2) := by unfold gam; rw [← pow_add]; ring_nf
    have e2 : 1 + gam o = (1 + ueps) ^ o := by unfold gam; ring
    rw [e1, e2]
    exact mul_le_mul_of_nonneg_left hbern (by positivity)
  have hb0 : 0 ≤ (2 + 2 * o) * ueps := by positivity
  have hquart : (2 + 2 * o) * ueps ≤ 1 / 4 := by
    have : 1 + gam o ≥ 1 := by linarith
    nlinarith
  obtain ⟨f1, d1⟩ := sum_err o e (fun k hk => (hex k hk).1) (by
    have e2 : (1 + ueps) ^ o = 1 + gam o := by unfold gam; ring
    rw [e2]
    calc (1 + gam o) * ∑ k ∈ range o, |(e k).val| ≤ (1 + 1 / 4) * ((1 + 1 / 4) * S) := by
          refine mul_le_mul (by linarith) (hsumabs.trans (mul_le_mul_of_nonneg_right (by linarith) hS0.le)) (sum_nonneg fun _ _ => abs_nonneg _) (by norm_num)
      _ ≤ 2 * (2 ^ 12 * K) := by linarith
      _ ≤ big := by linarith)
  generalize fsum o e = s at f1 d1 ⊢
  have hs : |s.val - S| ≤ gam (3 * o + 2) * S := by
    have h1 := abs_add_le (s.val - ∑ k ∈ range o, (e k).val) (∑ k ∈ range o, (e k).val - S)
    rw [show s.val - ∑ k ∈ range o, (e k).val + (∑ k ∈ range o, (e k).val - S) = s.val - S by ring] at h1
    have h2 := mul_le_mul_of_nonneg_left hsumabs hg0
    have h3 := mul_le_mul_of_nonneg_right hgam hS0.le
    linarith
  have hej := hex j hj
  have hEj := hSj j hj
  have hEp := Real.exp_pos (z j).val
  set Ej := Real.exp (z j).val with hEjd
  have hsl : 3 / 4 * S ≤ s.val := by
    have := (abs_le.1 hs).1
    have := mul_le_mul_of_nonneg_right hgq2 hS0.le
    linarith
  have hs0 : 0 < s.val := lt_of_lt_of_le (by positivity) hsl
  have hquot : |(e j).val / s.val - Ej / S| ≤ 4 / 3 * (4 * ueps + gam (3 * o + 2)) := by
    rw [div_sub_div _ _ hs0.ne' hS0.ne', abs_div, abs_of_pos (mul_pos hs0 hS0), div_le_iff₀ (mul_pos hs0 hS0)]
    rw [show (e j).val * S - s.val * Ej = ((e j).val - Ej) * S - Ej * (s.val - S) by ring]
    have h1 := abs_sub (((e j).val - Ej) * S) (Ej * (s.val - S))
    rw [abs_mul, abs_mul, abs_of_pos hS0, abs_of_pos hEp] at h1
    have h2 : |(e j).val - Ej| * S ≤ (4 * ueps * S) * S := by
      refine mul_le_mul_of_nonneg_right (hej.2.trans ?_) hS0.le
      have := mul_le_mul_of_nonneg_left hEj hu.le
      linarith
    have h3 : Ej * |s.val - S| ≤ S * (gam (3 * o + 2) * S) := mul_le_mul hEj hs (abs_nonneg _) hS0.le
    have h4 : 3 / 4 * S * S ≤ s.val * S := mul_le_mul_of_nonneg_right hsl hS0.le
    have hg2 := gam_nonneg (3 * o + 2)
    have h5 : (4 * ueps + gam (3 * o + 2)) * (3 / 4 * S * S) ≤ (4 * ueps + gam (3 * o + 2)) * (s.val * S) :=
      mul_le_mul_of_nonneg_left h4 (by linarith)
    linarith
  have hq1 : |Ej / S| ≤ 1 := by
    rw [abs_of_pos (by positivity), div_le_one hS0]; exact hEj
  have hq2 : |(e j).val / s.val| ≤ 2 := by
    have := abs_le_add_of hquot
    linarith
  obtain ⟨f5, d5⟩ := div_err hej.1 f1 hs0.ne' (hq2.trans (by linarith))
  refine ⟨f5, ?_⟩
  change |(F64.div (e j) s).val - _| ≤ _
  have h6 := abs_add_le ((F64.div (e j) s).val - (e j).val / s.val) ((e j).val / s.val - Ej / S)
  rw [show (F64.div (e j) s).val - (e j).val / s.val + ((e j).val / s.val - Ej / S) = (F64.div (e j) s).val - Ej / S by ring] at h6
  have h7 := mul_le_mul_of_nonneg_left hq2 hu.le
  have h8 := tiny_le_ueps
  have hg2 := gam_nonneg (3 * o + 2)
  linarith

/-- Softmax moves by at most exp(2m) - 1 if every entry moves by at most m. -/
theorem softmax_lip (o : Nat) (x y : Nat → ℝ) (m : ℝ) (h : ∀ k, k < o → |x k - y k| ≤ m) (j : Nat) (hj : j < o) :
    |Real.exp (x j) / (∑ k ∈ range o, Real.exp (x k)) - Real.exp (y j) / (∑ k ∈ range o, Real.exp (y k))| ≤ Real.exp (2 * m) - 1 := by
  have key : ∀ x y : Nat → ℝ, (∀ k, k < o → |x k - y k| ≤ m) →
      Real.exp (x j) / (∑ k ∈ range o, Real.exp (x k)) ≤ Real.exp (2 * m) * (Real.exp (y j) / (∑ k ∈ range o, Real.exp (y k))) := by
    intro x y h
    have hs : ∀ x : Nat → ℝ, 0 < ∑ k ∈ range o, Real.exp (x k) := fun x =>
      sum_pos (fun _ _ => Real.exp_pos _) ⟨j, mem_range.2 hj⟩
    have h1 : Real.exp (x j) ≤ Real.exp m * Real.exp (y j) := by
      rw [← Real.exp_add, Real.exp_le_exp]
      have := (abs_le.1 (h j hj)).2
      linarith
    have h2 : ∑ k ∈ range o, Real.exp (y k) ≤ Real.exp m * ∑ k ∈ range o, Real.exp (x k) := by
      rw [mul_sum]
      refine sum_le_sum fun k hk => ?_
      rw [← Real.exp_add, Real.exp_le_exp]
      have := (abs_le.1 (h k (mem_range.1 hk))).1
      linarith
    rw [div_le_iff₀ (hs x), ← mul_div_assoc, div_mul_eq_mul_div, le_div_iff₀ (hs y)]
    rw [show 2 * m = m + m by ring, Real.exp_add]
    calc Real.exp (x j) * ∑ k ∈ range o, Real.exp (y k) ≤ (Real.exp m * Real.exp (y j)) * (Real.exp m * ∑ k ∈ range o, Real.exp (x k)) :=
          mul_le_mul h1 h2 (hs y).le (by positivity)
      _ = _ := by ring
  have le1 : ∀ x : Nat → ℝ, Real.exp (x j) / (∑ k ∈ range o, Real.exp (x k)) ≤ 1 := by
    intro x
    refine div_le_one_of_le₀ ?_ (sum_nonneg fun _ _ => (Real.exp_pos _).le)
    exact single_le_sum (f := fun k => Real.exp (x k)) (fun _ _ => (Real.exp_pos _).le) (mem_range.2 hj)
  have ge0 : ∀ x : Nat → ℝ, 0 ≤ Real.exp (x j) / (∑ k ∈ range o, Real.exp (x k)) := fun x =>
    div_nonneg (Real.exp_pos _).le (sum_nonneg fun _ _ => (Real.exp_pos _).le)
  have hm0 : 0 ≤ m := (abs_nonneg _).trans (h j hj)
  have hm : 1 ≤ Real.exp (2 * m) := Real.one_le_exp (by linarith)
  have k1 := key x y h
  have k2 := key y x fun k hk => by rw [abs_sub_comm]; exact h k hk
  have m1 := mul_le_mul_of_nonneg_left (le1 y) (by linarith : 0 ≤ Real.exp (2 * m) - 1)
  have m2 := mul_le_mul_of_nonneg_left (le1 x) (by linarith : 0 ≤ Real.exp (2 * m) - 1)
  rw [abs_le]
  constructor <;> linarith

theorem le_maxOf {o : Nat} {e : Nat → ℝ} {j : Nat} (hj : j < o) : e j ≤ maxOf o e := by
  unfold maxOf
  have h := le_sup (f := fun j => (e j).toNNReal) (mem_range.2 hj)
  exact (Real.le_coe_toNNReal _).trans (by exact_mod_cast h)

/-- The error after the activation of any layer type. -/
theorem act_near [Libm] (k : LayerKind) (s : F64) (hs : k = .leaky → s.Finite) (o : Nat) (z : Nat → F64) (Z e : Nat → ℝ)
    (hz : ∀ j, j < o → Near (z j) (Z j) (e j)) (hsafe : ActSafe k s.val o Z e) (j : Nat) (hj : j < o) :
    Near (actRow k s o z j) (actRow k s.val o Z j) (actErr k s.val o Z e j) := by
  have hzero : (Flt.zero : ℝ) = 0 := by simp [Flt.zero]
  have hone : (Flt.one : ℝ) = 1 := by simp [Flt.one]
  cases k with
  | hidden =>
    have := relu_near (hz j hj)
    simpa [actRow, actErr, hzero] using this
  | dropout =>
    have := relu_near (hz j hj)
    simpa [actRow, actErr, hzero] using this
  | linear => exact hz j hj
  | leaky =>
    have := leaky_near (hs rfl) (hz j hj) (hsafe j hj)
    simpa [actRow, actErr, hzero] using this
  | sigmoid =>
    obtain ⟨f, d⟩ := sigmoid_near (hz j hj).1
    refine ⟨f, ?_⟩
    have e1 : actRow .sigmoid s.val o Z j = 1 / (1 + Real.exp (-Z j)) := by simp [actRow, hone]
    have e2 : actErr .sigmoid s.val o Z e j = e j / 4 + 7 * ueps := rfl
    rw [e1, e2]
    have hl := sigmoid_lip (z j).val (Z j)
    have h2 := (hz j hj).2
    change |(Flt.one /. (Flt.one +. Flt.exp (Flt.neg (z j))) : F64).val - _| ≤ _
    generalize (Flt.one /. (Flt.one +. Flt.exp (Flt.neg (z j))) : F64) = r at d
    have := abs_add_le (r.val - 1 / (1 + Real.exp (-(z j).val))) (1 / (1 + Real.exp (-(z j).val)) - 1 / (1 + Real.exp (-Z j)))
    rw [show r.val - 1 / (1 + Real.exp (-(z j).val)) + (1 / (1 + Real.exp (-(z j).val)) - 1 / (1 + Real.exp (-Z j))) =
      r.val - 1 / (1 + Real.exp (-Z j)) by ring] at this
    linarith
  | softmax =>
    obtain ⟨ho, hhi, i, hi, hlo⟩ := hsafe
    have hv : ∀ k, k < o → |(z k).val - Z k| ≤ e k := fun k hk => (hz k hk).2
    obtain ⟨f, d⟩ := softmax_round o ho z (fun k hk => (hz k hk).1)
      (fun k hk => by have := (abs_le.1 (hv k hk)).2; have := hhi k hk; linarith)
      ⟨i, hi, by have := (abs_le.1 (hv i hi)).1; linarith⟩ j hj
    refine ⟨f, ?_⟩
    have e1 : actRow .softmax s.val o Z j = Real.exp (Z j) / ∑ k ∈ range o, Real.exp (Z k) := by simp [actRow, fsum_real]
    have e2 : actErr .softmax s.val o Z e j = (Real.exp (2 * maxOf o e) - 1) + (2 * gam (3 * o + 2) + 10 * ueps) := rfl
    rw [e1, e2]
    have hl := softmax_lip o (fun k => (z k).val) Z (maxOf o e) (fun k hk => (hv k hk).trans (le_maxOf hk)) j hj
    change |(Flt.exp (z j) /. fsum o fun k => Flt.exp (z k) : F64).val - _| ≤ _
    generalize (Flt.exp (z j) /. fsum o fun k => Flt.exp (z k) : F64) = r at d
    generalize Real.exp (z j).val / ∑ k ∈ range o, Real.exp (z k).val = a at d hl
    generalize Real.exp (Z j) / ∑ k ∈ range o, Real.exp (Z k) = b at hl
    have := abs_add_le (r.val - a) (a - b)
    rw [show r.val - a + (a - b) = r.val - b by ring] at this
    linarith

end NN
