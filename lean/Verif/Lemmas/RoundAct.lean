import Verif.Lemmas.Rounding
import Mathlib.Analysis.Calculus.MeanValue
import Mathlib.Analysis.SpecialFunctions.ExpDeriv
/- The error of the activations on float64. -/

set_option linter.unusedSectionVars false

namespace NN
open Finset F64 Go

namespace F64

theorem max_val [Libm] {x y : F64} (hx : x.Finite) (hy : y.Finite) : (max x y).val = Max.max x.val y.val ∧ (max x y).Finite := by
  obtain ⟨x1, x2⟩ := not_special hx
  obtain ⟨y1, y2⟩ := not_special hy
  unfold max
  rw [x1, x2, y1, y2]
  simp only [Bool.false_and, Bool.or_self, Bool.false_eq_true, if_false]
  by_cases hz : x.isZero = true ∧ y.isZero = true
  · rw [if_pos (by simp [hz.1, hz.2]), isZero_iff.1 hz.1, isZero_iff.1 hz.2]
    unfold Finite zero val
    rw [absBits_mk' _ (by norm_num), sign_mk' _ (by norm_num), mag_zero]
    refine ⟨by simp, by unfold infBits; norm_num⟩
  · rw [if_neg (by simpa using hz)]
    by_cases hk : y.key < x.key
    · rw [if_pos (by simpa using hk)]
      exact ⟨(max_eq_left ((val_lt_iff _ _).2 hk).le).symm, hx⟩
    · rw [if_neg (by simpa using hk)]
      refine ⟨(max_eq_right ?_).symm, hy⟩
      rw [← not_lt, val_lt_iff]; exact hk

theorem lt_val [Libm] {x y : F64} (hx : x.Finite) (hy : y.Finite) : lt x y = decide (x.val < y.val) := by
  obtain ⟨x1, -⟩ := not_special hx
  obtain ⟨y1, -⟩ := not_special hy
  unfold lt
  rw [x1, y1]
  simp [val_lt_iff]

end F64

theorem zero_f64 [Libm] : (Flt.zero : F64).val = 0 ∧ (Flt.zero : F64).Finite := by
  obtain ⟨z1, z2⟩ := f64_int (n := 0) (by norm_num) (by norm_num)
  exact ⟨by rw [show (Flt.zero : F64) = Flt.ofInt 0 from rfl, z1]; norm_num, z2⟩

theorem one_f64 [Libm] : (Flt.one : F64).val = 1 ∧ (Flt.one : F64).Finite := by
  obtain ⟨z1, z2⟩ := f64_int (n := 1) (by norm_num) (by norm_num)
  exact ⟨by rw [show (Flt.one : F64) = Flt.ofInt 1 from rfl, z1]; norm_num, z2⟩

theorem relu_near [Libm] {x : F64} {X e : ℝ} (h : Near x X e) : Near (Flt.max x Flt.zero) (max X 0) e := by
  obtain ⟨m1, m2⟩ := F64.max_val h.1 zero_f64.2
  refine ⟨m2, ?_⟩
  change |(F64.max x Flt.zero).val - _| ≤ _
  rw [m1, zero_f64.1]
  exact (abs_max_sub_max_le_abs _ _ _).trans h.2

theorem leaky_lip (s x y : ℝ) : |(if x < 0 then x * s else x) - (if y < 0 then y * s else y)| ≤ max 1 |s| * |x - y| := by
  have h1 : 1 ≤ max 1 |s| := le_max_left _ _
  have h2 : |s| ≤ max 1 |s| := le_max_right _ _
  have key : ∀ x y : ℝ, x < 0 → 0 ≤ y → |x * s - y| ≤ max 1 |s| * |x - y| := by
    intro x y hx hy
    have e1 : |x - y| = -x + y := by rw [abs_of_neg (by linarith)]; ring
    have e2 : |x * s - y| ≤ |x * s| + |y| := abs_sub _ _
    rw [abs_mul, abs_of_neg hx, abs_of_nonneg hy] at e2
    rw [e1]
    have := mul_le_mul_of_nonneg_left h2 (by linarith : 0 ≤ -x)
    have := mul_le_mul_of_nonneg_right h1 hy
    nlinarith
  split_ifs with hx hy hy
  · rw [← sub_mul, abs_mul, mul_comm]
    exact mul_le_mul_of_nonneg_right h2 (abs_nonneg _)
  · exact key x y hx (not_lt.1 hy)
  · rw [abs_sub_comm, abs_sub_comm x]
    exact key y x hy (not_lt.1 hx)
  · exact le_mul_of_one_le_left (abs_nonneg _) h1

theorem leaky_near [Libm] {x s : F64} (hs : s.Finite) {X e : ℝ} (h : Near x X e) (hb : |s.val| * (|X| + e) ≤ big) :
    Near (if Flt.lt x Flt.zero then x *. s else x) (if X < 0 then X * s.val else X)
      (max 1 |s.val| * e + ueps * (|s.val| * (|X| + e)) + tiny) := by
  have hl : Flt.lt x (Flt.zero : F64) = decide (x.val < 0) := by
    change F64.lt _ _ = _
    rw [F64.lt_val h.1 zero_f64.2, zero_f64.1]
  have h1 : 1 ≤ max 1 |s.val| := le_max_left _ _
  have hlip := leaky_lip s.val x.val X
  have hlip' : max 1 |s.val| * |x.val - X| ≤ max 1 |s.val| * e := mul_le_mul_of_nonneg_left h.2 (by linarith)
  have he : 0 ≤ e := (abs_nonneg _).trans h.2
  have hpos : 0 ≤ ueps * (|s.val| * (|X| + e)) := mul_nonneg ueps_pos.le (mul_nonneg (abs_nonneg _) (add_nonneg (abs_nonneg _) he))
  have ht := tiny_pos
  rw [hl]
  by_cases hx : x.val < 0
  · rw [if_pos hx] at hlip
    rw [if_pos (decide_eq_true hx)]
    have hxX := abs_le_add_of h.2
    have hm : |x.val * s.val| ≤ |s.val| * (|X| + e) := by
      rw [abs_mul, mul_comm]
      exact mul_le_mul_of_nonneg_left hxX (abs_nonneg _)
    obtain ⟨f, d⟩ := mul_err h.1 hs (hm.trans hb)
    refine ⟨f, ?_⟩
    change |(F64.mul x s).val - _| ≤ _
    have := mul_le_mul_of_nonneg_left hm ueps_pos.le
    have e1 := abs_add_le ((F64.mul x s).val - x.val * s.val) (x.val * s.val - (if X < 0 then X * s.val else X))
    rw [show (F64.mul x s).val - x.val * s.val + (x.val * s.val - (if X < 0 then X * s.val else X)) =
      (F64.mul x s).val - (if X < 0 then X * s.val else X) by ring] at e1
    linarith
  · rw [if_neg hx] at hlip
    rw [if_neg (by simpa using hx)]
    exact ⟨h.1, by linarith⟩

/-! ### exp -/

theorem two_pow_le_big : (2 : ℝ) ^ (1023 : ℤ) ≤ big := by
  unfold big
  rw [show (1023 : ℤ) = 52 + 971 by norm_num, zpow_add₀ (by norm_num)]
  exact mul_le_mul_of_nonneg_right (by norm_num) (by positivity)

theorem exp_err [Libm] {x : F64} (hx : x.Finite) (h : Real.exp x.val ≤ 2 ^ (1023 : ℤ)) :
    (Flt.exp x : F64).Finite ∧ |(Flt.exp x : F64).val - Real.exp x.val| ≤ 2 * ueps * Real.exp x.val + 2 * tiny := by
  have hf := Libm.exp_fits x hx h
  refine ⟨hf, (Libm.exp_near x hx hf).trans (le_of_eq ?_)⟩
  have e1 : (2 : ℝ) ^ (-52 : ℤ) = 2 * ueps := by
    unfold ueps; rw [show (-52 : ℤ) = 1 + -53 by norm_num, zpow_add₀ (by norm_num)]; norm_num
  have e2 : (2 : ℝ) ^ (-1074 : ℤ) = 2 * tiny := by
    unfold tiny; rw [show (-1074 : ℤ) = 1 + -1075 by norm_num, zpow_add₀ (by norm_num)]; norm_num
  rw [e1, e2]

theorem exp700_le : Real.exp 700 ≤ (2 : ℝ) ^ (1010 : ℤ) := exp800.2.2.1

theorem tiny_le_ueps : tiny ≤ ueps := by
  unfold tiny ueps
  exact zpow_le_zpow_right₀ (by norm_num) (by norm_num)

/-! ### Sigmoid -/

theorem ueps_small : ueps ≤ 1 / 1000 := ueps_le.trans (by norm_num)

/-- 1/d for d close to D ≥ 1. -/
theorem recip_err {d D : ℝ} (hD : 1 ≤ D) (h : |d - D| ≤ 4 * ueps * D) : 0 < d ∧ |1 / d - 1 / D| ≤ 5 * ueps := by
  have hu := ueps_pos
  have hs := ueps_small
  have h1 : (1 - 4 * ueps) * D ≤ d := by have := (abs_le.1 h).1; linarith
  have hd : 0 < d := lt_of_lt_of_le (by nlinarith) h1
  refine ⟨hd, ?_⟩
  have hD0 : 0 < D := by linarith
  rw [div_sub_div _ _ hd.ne' hD0.ne', abs_div, abs_of_pos (mul_pos hd hD0), div_le_iff₀ (mul_pos hd hD0)]
  rw [show (1 * D - d * 1) = -(d - D) by ring, abs_neg]
  refine h.trans ?_
  have h2 : 4 / 5 * D ≤ d := by nlinarith
  have h4 : 4 * D ≤ 5 * (d * D) := by nlinarith
  nlinarith

theorem sigmoid_near_mid [Libm] {x : F64} (hx : x.Finite) (h : -700 ≤ x.val) :
    Near (Flt.one /. (Flt.one +. Flt.exp (Flt.neg x))) (1 / (1 + Real.exp (-x.val))) (7 * ueps) := by
  have hu := ueps_pos
  have hus := ueps_small
  have htu := tiny_le_ueps
  have ht := tiny_pos
  have hnf : (Flt.neg x : F64).Finite := by change (F64.neg _).absBits < _; rw [F64.absBits_neg]; exact hx
  have hnv : (Flt.neg x : F64).val = -x.val := F64.val_neg _
  have hT := Real.exp_pos (-x.val)
  have hT7 : Real.exp (-x.val) ≤ (2 : ℝ) ^ (1010 : ℤ) := (Real.exp_le_exp.2 (by linarith)).trans exp700_le
  have h1010 : (2 : ℝ) ^ (1010 : ℤ) * 2 ^ 13 ≤ big := by
    refine le_trans (le_of_eq ?_) two_pow_le_big
    rw [show (1023 : ℤ) = 1010 + 13 by norm_num, zpow_add₀ (by norm_num)]
    norm_num
  have h1010' : 1 ≤ (2 : ℝ) ^ (1010 : ℤ) := one_le_zpow₀ (by norm_num) (by norm_num)
  have h1023 : (2 : ℝ) ^ (1010 : ℤ) ≤ 2 ^ (1023 : ℤ) := zpow_le_zpow_right₀ (by norm_num) (by norm_num)
  generalize (2 : ℝ) ^ (1010 : ℤ) = K at h1023 hT7 h1010 h1010'
  obtain ⟨f1, d1⟩ := exp_err hnf (by rw [hnv]; exact hT7.trans h1023)
  rw [hnv] at d1
  generalize (Flt.exp (Flt.neg x) : F64) = t at f1 d1 ⊢
  set T := Real.exp (-x.val) with hTd
  obtain ⟨o1, o2⟩ := one_f64
  have d1' : |t.val - T| ≤ 2 * ueps * (1 + T) := by linarith
  have ha : |(Flt.one : F64).val + t.val| ≤ (1 + T) * (1 + 2 * ueps) := by
    rw [o1]
    have := abs_le_add_of (a := 1 + t.val) (b := 1 + T) (d := 2 * ueps * (1 + T)) (by rw [show 1 + t.val - (1 + T) = t.val - T by ring]; exact d1')
    rw [abs_of_pos (by linarith : 0 < 1 + T)] at this
    linarith
  obtain ⟨f2, d2⟩ := add_err o2 f1 (ha.trans (by nlinarith))
  change Near (F64.div Flt.one (F64.add Flt.one t)) _ _
  generalize F64.add Flt.one t = d at f2 d2 ⊢
  have d3 : |d.val - (1 + T)| ≤ 4 * ueps * (1 + T) := by
    have e := abs_add_le (d.val - ((Flt.one : F64).val + t.val)) (t.val - T)
    rw [show d.val - ((Flt.one : F64).val + t.val) + (t.val - T) = d.val - (1 + T) by rw [o1]; ring] at e
    have := mul_le_mul_of_nonneg_left ha hu.le
    have h2 : ueps * ueps ≤ ueps := by nlinarith
    nlinarith [mul_le_mul_of_nonneg_right h2 (by linarith : 0 ≤ 1 + T)]
  obtain ⟨hd, d4⟩ := recip_err (by linarith) d3
  have hq : |(Flt.one : F64).val / d.val| ≤ 2 := by
    rw [o1]
    have := abs_le_add_of d4
    have h1 : |1 / (1 + T)| ≤ 1 := by
      rw [abs_of_pos (by positivity), div_le_one (by linarith)]; linarith
    linarith
  obtain ⟨f5, d5⟩ := div_err o2 f2 hd.ne' (hq.trans (by linarith))
  refine ⟨f5, ?_⟩
  rw [o1] at d5 hq
  have e := abs_add_le ((F64.div Flt.one d).val - 1 / d.val) (1 / d.val - 1 / (1 + T))
  rw [show (F64.div Flt.one d).val - 1 / d.val + (1 / d.val - 1 / (1 + T)) = (F64.div Flt.one d).val - 1 / (1 + T) by ring] at e
  have hq' : |1 / d.val| ≤ 1 + 5 * ueps := by
    have := abs_le_add_of d4
    have h1 : |1 / (1 + T)| ≤ 1 := by
      rw [abs_of_pos (by positivity), div_le_one (by linarith)]; linarith
    linarith
  have h6 := mul_le_mul_of_nonneg_left hq' hu.le
  have h7 : tiny ≤ ueps / 2 := by
    unfold tiny ueps
    rw [show (-1075 : ℤ) = -1022 + -53 by norm_num, zpow_add₀ (by norm_num), div_eq_mul_inv, mul_comm]
    refine mul_le_mul_of_nonneg_left ?_ (by positivity)
    rw [show ((2 : ℝ))⁻¹ = (2 : ℝ) ^ (-1 : ℤ) by norm_num]
    exact zpow_le_zpow_right₀ (by norm_num) (by norm_num)
  nlinarith

/-- A number below -700: the exponential of its negation is at least 2^53, and the result tiny. -/
theorem sigmoid_low [Libm] {x : F64} (hx : x.Finite) (h : x.val ≤ -700) :
    (Flt.one /. (Flt.one +. Flt.exp (Flt.neg x)) : F64).Finite ∧ 0 ≤ (Flt.one /. (Flt.one +. Flt.exp (Flt.neg x)) : F64).val ∧
    (Flt.one /. (Flt.one +. Flt.exp (Flt.neg x)) : F64).val ≤ 3 * ueps := by
  have n1 := (F64.not_special hx).1
  obtain ⟨o1, o2⟩ := one_f64
  have hp : 0 < (Flt.one : F64).key := F64.val_pos.1 (by rw [o1]; norm_num)
  obtain ⟨s1, s2, s3⟩ := sigmoid_ok n1
  have m1 : (x.neg).isNaN = false := by rw [F64.isNaN_neg]; exact n1
  have hnf : (F64.neg x).Finite := by change (F64.neg _).absBits < _; rw [F64.absBits_neg]; exact hx
  obtain ⟨e1, e2⟩ := F64.exp_ok m1
  obtain ⟨a1, a2, a3⟩ := F64.add_ok (F64.not_special o2).1 e1 hp.le e2
  obtain ⟨q1, q2⟩ := f64_int (n := 2 ^ 53) (by norm_num) (by norm_num)
  have hq0 : 0 < (Flt.ofInt (2 ^ 53) : F64).key := F64.val_pos.1 (by rw [q1]; norm_num)
  -- the exponential is at least 2^53
  have hk : (Flt.ofInt (2 ^ 53) : F64).key ≤ (F64.exp x.neg).key := by
    by_cases hfin : (F64.exp x.neg).Finite
    · have hn := (abs_le.1 (Libm.exp_near x.neg hnf hfin)).1
      rw [F64.val_neg] at hn
      have e4 : (2 : ℝ) ^ (54 : ℤ) ≤ Real.exp (-x.val) := by
        have h2 := Real.log_two_lt_d9
        rw [show (2 : ℝ) ^ (54 : ℤ) = Real.exp ((54 : ℤ) * Real.log 2) by
          rw [mul_comm, Real.exp_mul, Real.exp_log (by norm_num), Real.rpow_intCast], Real.exp_le_exp]
        push_cast; linarith
      have hu : (2 : ℝ) ^ (-52 : ℤ) ≤ 1 / 100 := by norm_num
      have ht : (2 : ℝ) ^ (-1074 : ℤ) ≤ 1 / 100 := le_trans (zpow_le_zpow_right₀ (by norm_num) (by norm_num : (-1074 : ℤ) ≤ -52)) hu
      have hm := mul_le_mul_of_nonneg_right hu (Real.exp_pos (-x.val)).le
      rw [← F64.val_le_iff, q1]
      change _ ≤ (Libm.exp x.neg).val
      generalize (2 : ℝ) ^ (-52 : ℤ) * Real.exp (-x.val) = q at hm hn
      generalize (2 : ℝ) ^ (-1074 : ℤ) = t at ht hn
      norm_num at e4
      push_cast
      linarith
    · have h1 := F64.absBits_eq (F64.exp x.neg)
      have h2 := F64.absBits_eq (Flt.ofInt (2 ^ 53) : F64)
      rw [abs_of_nonneg e2] at h1
      rw [abs_of_pos hq0] at h2
      have h3 : ¬ (F64.exp x.neg).absBits < infBits := hfin
      omega
  have hd := F64.div_ok o2 hp.le s2 s1 s3 o2 o1
  have hle : (Flt.one /. (Flt.one +. Flt.exp (Flt.neg x)) : F64).key ≤ (F64.div Flt.one (Flt.ofInt (2 ^ 53))).key :=
    F64.div_anti o2 hp.le (F64.not_special q2).1 s2 hq0 (hk.trans a3)
  have hb : |(Flt.one : F64).val / (Flt.ofInt (2 ^ 53) : F64).val| ≤ big := by
    rw [o1, q1]
    refine le_trans ?_ two_pow_le_big
    refine le_trans ?_ (one_le_zpow₀ (by norm_num) (by norm_num))
    norm_num
  obtain ⟨g1, g2⟩ := div_err o2 q2 (by rw [q1]; norm_num) hb
  refine ⟨F64.fin_of_key g1 hd.2.1 hle, F64.val_nonneg.2 hd.2.1, ((F64.val_le_iff _ _).2 hle).trans ?_⟩
  have hu := ueps_pos
  have hus := ueps_small
  have htu := tiny_le_ueps
  have e5 : (Flt.one : F64).val / (Flt.ofInt (2 ^ 53) : F64).val = ueps := by
    rw [o1, q1]; unfold ueps; norm_num
  rw [e5, abs_of_pos hu] at g2
  have := (abs_le.1 g2).2
  nlinarith

theorem sigmoid_near [Libm] {x : F64} (hx : x.Finite) :
    Near (Flt.one /. (Flt.one +. Flt.exp (Flt.neg x))) (1 / (1 + Real.exp (-x.val))) (7 * ueps) := by
  have hu := ueps_pos
  by_cases h : -700 ≤ x.val
  · exact sigmoid_near_mid hx h
  · obtain ⟨f, v1, v2⟩ := sigmoid_low hx (by linarith)
    refine ⟨f, ?_⟩
    have h700 : Real.exp x.val ≤ ueps := by
      have h1 : x.val ≤ (-53 : ℤ) * Real.log 2 := by have := Real.log_two_lt_d9; push_cast; linarith
      refine (Real.exp_le_exp.2 h1).trans (le_of_eq ?_)
      unfold ueps
      rw [mul_comm, Real.exp_mul, Real.exp_log (by norm_num), Real.rpow_intCast]
    have hs2 : 1 / (1 + Real.exp (-x.val)) ≤ ueps := by
      refine le_trans ?_ h700
      rw [Real.exp_neg, div_le_iff₀ (by positivity), mul_add, mul_inv_cancel₀ (Real.exp_pos _).ne']
      have := Real.exp_pos x.val
      linarith
    have hs3 : 0 < 1 / (1 + Real.exp (-x.val)) := by positivity
    rw [abs_le]
    constructor <;> linarith

theorem sigmoid_lip (x y : ℝ) : |1 / (1 + Real.exp (-x)) - 1 / (1 + Real.exp (-y))| ≤ |x - y| / 4 := by
  have hd : ∀ t : ℝ, HasDerivAt (fun t => 1 / (1 + Real.exp (-t))) (Real.exp (-t) / (1 + Real.exp (-t)) ^ 2) t := by
    intro t
    have h0 : 1 + Real.exp (-t) ≠ 0 := by have := Real.exp_pos (-t); linarith
    have h1 : HasDerivAt (fun t : ℝ => 1 + Real.exp (-t)) (-Real.exp (-t)) t := by
      have := ((hasDerivAt_neg t).exp).const_add 1
      simpa using this
    have h2 := h1.fun_inv h0
    rw [neg_neg] at h2
    simp only [one_div]
    exact h2
  have hb : ∀ t ∈ (Set.univ : Set ℝ), ‖Real.exp (-t) / (1 + Real.exp (-t)) ^ 2‖ ≤ 1 / 4 := by
    intro t _
    have hp := Real.exp_pos (-t)
    rw [Real.norm_eq_abs, abs_of_pos (by positivity), div_le_div_iff₀ (by positivity) (by norm_num)]
    nlinarith [sq_nonneg (1 - Real.exp (-t))]
  have := Convex.norm_image_sub_le_of_norm_hasDerivWithin_le (fun t _ => (hd t).hasDerivWithinAt) hb convex_univ (Set.mem_univ y) (Set.mem_univ x)
  rw [Real.norm_eq_abs, Real.norm_eq_abs] at this
  linarith

end NN
