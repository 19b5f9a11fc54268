import Verif.IEEE.Error
import Mathlib.Analysis.Complex.ExponentialBounds
/-
The laws of `Libm` can be met: correctly rounded functions meet them, and their exponential is monotone.  So the theorems on float64 are
not empty.
-/

namespace NN
namespace F64

theorem mk'_self (x : F64) : mk' x.sign x.absBits = x := by
  obtain ⟨b⟩ := x
  unfold mk' sign absBits
  congr 1
  apply BitVec.eq_of_toNat_eq
  have hb := b.isLt
  dsimp only
  rw [BitVec.msb_eq_decide, BitVec.toNat_ofNat]
  simp only [decide_eq_true_eq]
  split <;> omega

/-- Two float64s with the same value that is not 0 are equal. -/
theorem eq_of_val {x y : F64} (h : x.val = y.val) (h0 : x.val ≠ 0) : x = y := by
  have hk : x.key = y.key := le_antisymm ((val_le_iff _ _).1 h.le) ((val_le_iff _ _).1 h.ge)
  have hz : x.key ≠ 0 := fun hc => h0 (le_antisymm (not_lt.1 fun h1 => by have := val_pos.1 h1; omega) (val_nonneg.2 hc.ge))
  have a1 := absBits_eq x
  have a2 := absBits_eq y
  have ha : x.absBits = y.absBits := by rw [hk] at a1; omega
  have hs : x.sign = y.sign := by
    unfold key at hk hz
    cases h1 : x.sign <;> cases h2 : y.sign <;> rw [h1] at hk hz <;> rw [h2] at hk <;> simp at hk hz ⊢ <;> omega
  rw [← mk'_self x, ← mk'_self y, ha, hs]

theorem expR_fin {x : F64} (hx : x.absBits < infBits) : expR x = round false (Real.exp x.val) := by
  obtain ⟨s1, s2⟩ := not_special hx
  unfold expR
  rw [s1, s2]; simp

theorem pow_two_exp (k : ℤ) : (2 : ℝ) ^ k = Real.exp (k * Real.log 2) := by
  rw [mul_comm, Real.exp_mul, Real.exp_log (by norm_num), Real.rpow_intCast]

/-- A float64 is its own rounding. -/
theorem round_self {z : F64} (hz : z.absBits < infBits) (s : Bool) : (round s z.val).absBits < infBits ∧ (round s z.val).val = z.val := by
  have h1 : (round s z.val).key ≤ z.key := round_le hz le_rfl
  have h2 : z.key ≤ (round s z.val).key := le_round hz le_rfl
  have hk : (round s z.val).key = z.key := le_antisymm h1 h2
  have a1 := absBits_eq (round s z.val)
  have a2 := absBits_eq z
  rw [hk] at a1
  exact ⟨by omega, le_antisymm ((val_le_iff _ _).2 h1) ((val_le_iff _ _).2 h2)⟩

/-- The relative error of one rounding above the subnormal numbers. -/
theorem round_rel {s : Bool} {y : ℝ} (h : (round s y).Finite) (hy : (2 : ℝ) ^ (-1000 : ℤ) ≤ |y|) : |(round s y).val - y| ≤ ueps * |y| := by
  have hp : (0 : ℝ) < |y| := lt_of_lt_of_le (by positivity) hy
  have h0 : y ≠ 0 := abs_pos.1 hp
  refine (round_dist h h0).trans ?_
  rcases half_ulp hp with h1 | h1
  · exact h1
  · exfalso
    have h2 : Int.log 2 |y| - 52 ≤ -1074 := by have := le_max_left (Int.log 2 |y| - 52) (-1074); unfold ulpExp at h1; omega
    have h3 : -1000 ≤ Int.log 2 |y| := by rw [← Int.zpow_le_iff_le_log (by norm_num) hp]; exact_mod_cast hy
    omega

theorem mag_one : mag 0x3FF0000000000000 = 1 := by
  unfold mag
  rw [if_neg (by decide)]
  norm_num

/-- A positive float64 is 1 or differs from 1 by at least 2^-53. -/
theorem near_one {x : F64} (h0 : 0 < x.val) : x.val = 1 ∨ x.val ≤ 1 - 2 ^ (-53 : ℤ) ∨ 1 + 2 ^ (-52 : ℤ) ≤ x.val := by
  have hs : x.val = mag x.absBits := by
    unfold val at h0 ⊢
    by_cases hs : x.sign = true
    · rw [if_pos hs] at h0
      have := mag_nonneg x.absBits
      linarith
    · rw [if_neg hs]
  rw [hs]
  rcases lt_trichotomy x.absBits 0x3FF0000000000000 with h | h | h
  · refine .inr (.inl ?_)
    have h1 : x.absBits ≤ 0x3FEFFFFFFFFFFFFF := by omega
    refine (mag_strictMono.monotone h1).trans (le_of_eq ?_)
    unfold mag
    rw [if_neg (by decide)]
    norm_num
  · exact .inl (by rw [h, mag_one])
  · refine .inr (.inr ?_)
    have h1 : 0x3FF0000000000001 ≤ x.absBits := by omega
    refine le_trans (le_of_eq ?_) (mag_strictMono.monotone h1)
    unfold mag
    rw [if_neg (by decide)]
    norm_num

theorem log_size {x : F64} (h0 : 0 < x.val) (h1 : x.val ≠ 1) : (2 : ℝ) ^ (-54 : ℤ) ≤ |Real.log x.val| := by
  rcases near_one h0 with h | h | h
  · exact absurd h h1
  · have h2 := Real.log_le_sub_one_of_pos h0
    have h3 : (2 : ℝ) ^ (-54 : ℤ) ≤ 2 ^ (-53 : ℤ) := zpow_le_zpow_right₀ (by norm_num) (by norm_num)
    have h4 := neg_le_abs (Real.log x.val)
    linarith
  · have h2 := Real.one_sub_inv_le_log_of_pos h0
    have h4 := le_abs_self (Real.log x.val)
    have h5 : (x.val)⁻¹ ≤ 1 - 2 ^ (-54 : ℤ) := by
      rw [inv_le_comm₀ h0 (by norm_num)]
      refine le_trans ?_ h
      rw [inv_le_comm₀ (by norm_num) (by positivity), inv_eq_one_div, div_le_iff₀ (by positivity)]
      norm_num
    generalize (2 : ℝ) ^ (-54 : ℤ) = t at *
    linarith

theorem log_bound {x : F64} (hx : x.absBits < infBits) (h0 : 0 < x.val) : |Real.log x.val| ≤ 1000 := by
  have h2 := Real.log_two_lt_d9
  obtain ⟨n, hn⟩ := val_grid x
  have hn1 : 1 ≤ n := by
    by_contra hc
    have : (n : ℝ) ≤ 0 := by exact_mod_cast (by omega : n ≤ 0)
    have := mul_nonpos_of_nonpos_of_nonneg this (by positivity : (0 : ℝ) ≤ (2 : ℝ) ^ (-1074 : ℤ))
    linarith
  have hlo : (2 : ℝ) ^ (-1074 : ℤ) ≤ x.val := by
    rw [hn]
    exact le_mul_of_one_le_left (by positivity) (by exact_mod_cast hn1)
  have hhi : x.val ≤ (2 : ℝ) ^ (1024 : ℤ) := by
    refine (le_abs_self _).trans ((abs_val_le hx).trans ?_)
    unfold big
    rw [show (1024 : ℤ) = 53 + 971 by norm_num, zpow_add₀ (by norm_num) 53]
    exact mul_le_mul_of_nonneg_right (by norm_num) (by positivity)
  have l1 := Real.log_le_log (by positivity) hlo
  have l2 := Real.log_le_log h0 hhi
  rw [Real.log_zpow] at l1 l2
  push_cast at l1 l2
  rw [abs_le]
  constructor <;> linarith

theorem logR_fin {x : F64} (hx : x.absBits < infBits) (h0 : 0 < x.val) : logR x = round false (Real.log x.val) := by
  obtain ⟨s1, s2⟩ := not_special hx
  have hs : x.sign = false := by
    by_contra hc
    have : x.val ≤ 0 := by unfold val; rw [if_pos (by simpa using hc)]; have := mag_nonneg x.absBits; linarith
    linarith
  have hz : x.isZero = false := by
    rw [← Bool.not_eq_true, isZero_iff]; exact h0.ne'
  unfold logR
  rw [s1, s2, hs, hz]; simp

theorem val_two_facts {y : F64} (h : y.val = 2) :
    y.isZero = false ∧ y.sign = false ∧ y.isOdd = false ∧ y.isInt = true := by
  refine ⟨?_, ?_, ?_, ?_⟩
  · rw [← Bool.not_eq_true, isZero_iff, h]; norm_num
  · by_contra hc
    have : y.val ≤ 0 := by unfold val; rw [if_pos (by simpa using hc)]; have := mag_nonneg y.absBits; linarith
    linarith
  · unfold isOdd
    rw [decide_eq_false_iff_not, h]
    rintro ⟨k, hk⟩
    have : (2 : ℤ) = 2 * k + 1 := by exact_mod_cast hk
    omega
  · unfold isInt
    simp only [decide_eq_true_eq]
    exact ⟨2, by rw [h]; norm_num⟩

theorem expR_ok {x : F64} (h : x.isNaN = false) : (expR x).isNaN = false ∧ 0 ≤ (expR x).key := by
  unfold expR
  rw [h]
  simp only [Bool.false_eq_true, if_false]
  by_cases hi : x.isInf = true
  · rw [if_pos hi]
    by_cases hs : x.sign = true
    · rw [if_pos hs]; exact ⟨zero_not_nan _, (key_zero _).ge⟩
    · rw [if_neg hs]
      refine ⟨h, ?_⟩
      unfold key; rw [if_neg hs]; omega
  · rw [if_neg hi]
    exact ⟨round_not_nan _ _, round_nonneg (Real.exp_pos _).le⟩

theorem expR_mono {x y : F64} (hx : x.isNaN = false) (hy : y.isNaN = false) (h : x.key ≤ y.key) : (expR x).key ≤ (expR y).key := by
  by_cases iy : y.isInf = true
  · by_cases sy : y.sign = true
    · -- both -Inf
      have e : y.key = -(infBits : ℤ) := by
        unfold isInf at iy; simp at iy; unfold key; rw [if_pos sy, iy]
      have ex : x.key = -(infBits : ℤ) := le_antisymm (by omega) (key_le_inf hx).2
      have ix : x.isInf = true := by
        have := absBits_eq x
        rw [ex, abs_neg, Nat.abs_cast] at this
        unfold isInf; simpa using this
      have sx : x.sign = true := by
        by_contra hc
        unfold key at ex
        rw [if_neg hc] at ex
        unfold infBits at ex; omega
      unfold expR
      rw [hx, hy, ix, iy, sx, sy]
      simp
    · have e : (expR y).key = infBits := by
        unfold expR
        rw [hy, iy, if_neg (by simp), if_pos rfl, if_neg sy]
        unfold isInf at iy; simp at iy
        unfold key; rw [if_neg sy, iy]
      rw [e]
      exact (key_le_inf (expR_ok hx).1).1
  · by_cases ix : x.isInf = true
    · by_cases sx : x.sign = true
      · have e : (expR x).key = 0 := by
          unfold expR
          rw [hx, ix, if_neg (by simp), if_pos rfl, if_pos sx, key_zero]
        rw [e]; exact (expR_ok hy).2
      · exfalso
        have e : x.key = infBits := by
          unfold isInf at ix; simp at ix; unfold key; rw [if_neg sx, ix]
        have := not_inf hy (by simpa using iy)
        have := absBits_eq y
        have := le_abs_self y.key
        omega
    · unfold expR
      rw [hx, hy, if_neg (by simp), if_neg ix, if_neg (by simp), if_neg iy]
      exact round_mono (Real.exp_le_exp.2 ((val_le_iff _ _).2 h))

end F64

open F64

theorem thousand_big : (1000 : ℝ) ≤ big := by
  unfold big
  have h : (1 : ℝ) ≤ 2 ^ (971 : ℤ) := one_le_zpow₀ (by norm_num) (by norm_num)
  generalize (2 : ℝ) ^ (971 : ℤ) = K at h
  linarith

/-- Correctly rounded functions. -/
@[instance_reducible] noncomputable def Libm.rounded : Libm where
  exp := expR
  log := logR
  pow := powR
  exp_nan x h := by unfold expR; rw [if_pos h]; unfold isNaN nan; rw [absBits_mk' _ (by unfold infBits; norm_num)]; unfold infBits; norm_num
  exp_inf x h := by
    have hn : x.isNaN = false := by unfold isInf at h; unfold isNaN; simp at h ⊢; omega
    unfold expR
    rw [if_neg (by rw [hn]; simp), if_pos h]
    by_cases hs : x.sign = true
    · rw [if_pos hs, if_pos hs]
    · rw [if_neg hs, if_neg hs]
      unfold isInf at h
      simp at h
      unfold inf
      rw [← h, ← (by simpa using hs : x.sign = false)]
      exact (mk'_self x).symm
  exp_num x h := by rw [expR_fin h]; exact ⟨round_not_nan _ _, round_nonneg (Real.exp_pos _).le⟩
  exp_near x h h' := by
    rw [expR_fin h] at h' ⊢
    have e := round_err h'
    have hp := Real.exp_pos x.val
    rw [abs_of_pos hp] at e
    refine e.trans ?_
    have h1 : ueps ≤ (2 : ℝ) ^ (-52 : ℤ) := zpow_le_zpow_right₀ (by norm_num) (by norm_num)
    have h2 : tiny ≤ (2 : ℝ) ^ (-1074 : ℤ) := zpow_le_zpow_right₀ (by norm_num) (by norm_num)
    have := mul_le_mul_of_nonneg_right h1 hp.le
    linarith
  exp_fits x h h' := by
    rw [expR_fin h]
    refine round_finite ?_
    rw [abs_of_pos (Real.exp_pos _)]
    refine h'.trans ?_
    unfold big
    rw [show (1023 : ℤ) = 52 + 971 by norm_num, zpow_add₀ (by norm_num)]
    exact mul_le_mul_of_nonneg_right (by norm_num) (by positivity)
  exp_over x hx h := by
    rw [expR_fin hx]
    have hp := Real.exp_pos x.val
    have h2 := Real.log_two_lt_d9
    unfold F64.round F64.inf
    rw [if_neg hp.ne', abs_of_pos hp, F64.roundBits_big (by rw [pow_two_exp, Real.exp_le_exp]; push_cast; linarith), decide_eq_false (not_lt.2 hp.le)]
  exp_under x hx h := by
    rw [expR_fin hx]
    have hp := Real.exp_pos x.val
    have h2 := Real.log_two_lt_d9
    unfold F64.round F64.zero
    rw [if_neg hp.ne', abs_of_pos hp, F64.roundBits_small hp (by rw [pow_two_exp, Real.exp_lt_exp]; push_cast; linarith), decide_eq_false (not_lt.2 hp.le)]
  log_nan x h := by unfold logR; rw [if_pos h]; unfold isNaN nan; rw [absBits_mk' _ (by unfold infBits; norm_num)]; unfold infBits; norm_num
  log_zero x h := by
    have hf : x.absBits < infBits := by unfold isZero at h; simp at h; rw [h]; unfold infBits; norm_num
    unfold logR
    rw [(not_special hf).1, h]; simp
  log_near x hx h0 := by
    rw [logR_fin hx h0]
    have hf : (F64.round false (Real.log x.val)).Finite := round_finite ((log_bound hx h0).trans thousand_big)
    refine ⟨hf, ?_⟩
    by_cases h1 : x.val = 1
    · rw [h1, Real.log_one, round_val_zero]; simp
    · refine (round_rel hf (le_trans (zpow_le_zpow_right₀ (by norm_num) (by norm_num)) (log_size h0 h1))).trans ?_
      exact mul_le_mul_of_nonneg_right (zpow_le_zpow_right₀ (by norm_num) (by norm_num)) (abs_nonneg _)
  pow_one y := by
    generalize hx : mk' false 0x3FF0000000000000 = x
    have ha : x.absBits = 0x3FF0000000000000 := by rw [← hx, absBits_mk' _ (by norm_num)]
    have hs : x.sign = false := by rw [← hx, sign_mk' _ (by norm_num)]
    have hv : x.val = 1 := by unfold val; rw [hs, ha, mag_one]; simp
    have hf : x.absBits < infBits := by rw [ha]; unfold infBits; norm_num
    have hz : x.isZero = false := by rw [← Bool.not_eq_true, isZero_iff, hv]; norm_num
    have hb : x.bits = 0x3FF0000000000000#64 := by rw [← hx]; decide
    have h1 : F64.round false 1 = x := by
      have e := roundBits_mag (b := 0x3FF0000000000000) (by norm_num) (by unfold infBits; norm_num)
      rw [mag_one] at e
      unfold F64.round
      rw [if_neg (by norm_num), abs_one, e, ← hx, decide_eq_false (by norm_num)]
    unfold powR
    rw [hx, hz, hb, ha, hs, hv, (not_special hf).2]
    split
    · rfl
    · split
      · rw [if_pos rfl]
      · simp only [Bool.false_eq_true, if_false, Bool.false_and, abs_one, Real.one_rpow, if_true]
        split
        · rfl
        · exact h1
  pow_nan x y h hy := by
    have hb : x.bits ≠ 0x3FF0000000000000#64 := fun hc => by
      unfold isNaN absBits at h
      rw [hc] at h
      revert h
      decide
    unfold powR
    rw [hy, h, if_neg (by simp), if_pos (by simp), if_neg hb]
    unfold isNaN nan; rw [absBits_mk' _ (by unfold infBits; norm_num)]; unfold infBits; norm_num
  pow_zero_two x y h hy h2 := by
    obtain ⟨y1, y2, y3, -⟩ := val_two_facts h2
    have hf : x.absBits < infBits := by unfold isZero at h; simp at h; rw [h]; unfold infBits; norm_num
    unfold powR
    rw [y1, (not_special hf).1, (not_special hy).1, h, y2, y3]
    simp
  pow_two x y z hx hy hz h2 hv := by
    obtain ⟨y1, y2, y3, y4⟩ := val_two_facts h2
    by_cases h0 : x.isZero = true
    · have e : powR x y = zero false := by
        unfold powR
        rw [y1, (not_special hx).1, (not_special hy).1, h0, y2, y3]
        simp
      rw [e, hv, isZero_iff.1 h0]
      unfold zero val
      rw [absBits_mk' _ (by norm_num), sign_mk' _ (by norm_num), mag_zero]
      exact ⟨by unfold infBits; norm_num, by simp⟩
    · have e : powR x y = F64.round false z.val := by
        unfold powR
        rw [y1, (not_special hx).1, (not_special hy).1, (by simpa using h0 : x.isZero = false), y3, y4, (not_special hx).2, (not_special hy).2]
        simp only [Bool.or_self, Bool.false_eq_true, if_false, Bool.not_true, Bool.and_false]
        rw [h2, hv]
        congr 1
        rw [show (2 : ℝ) = ((2 : ℕ) : ℝ) by norm_num, Real.rpow_natCast, sq_abs]
      rw [e]
      exact round_self hz false

/-- Correctly rounded functions are monotone. -/
theorem expMono_rounded : @ExpMono Libm.rounded := fun _ _ hx hy h => expR_mono hx hy h

/-- A library meets the laws, and one whose exponential is monotone. -/
example : ∃ _ : Libm, ExpMono := ⟨Libm.rounded, expMono_rounded⟩

end NN
