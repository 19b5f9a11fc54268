import Verif.Lemmas.Tests
import Verif.Lemmas.Rounding
import Verif.IEEE.IntArith
import Verif.IEEE.Libm
/- Facts about the numbers in the test programs, as float64. -/

namespace NN
open F64

/-- The float64 constant m / 10^e. -/
noncomputable def flit [Libm] (m : Int) (e : Nat) : F64 := F64.round false ((m : ℝ) / 10 ^ e)

theorem thousand_le_big : (1000 : ℝ) ≤ big := by
  unfold big
  have : (1 : ℝ) ≤ (2 : ℝ) ^ (971 : ℤ) := one_le_zpow₀ (by norm_num) (by norm_num)
  generalize (2 : ℝ) ^ (971 : ℤ) = t at *
  nlinarith

theorem tiny_le : tiny ≤ 1 / 10 ^ 10 := by
  unfold tiny
  have h : (2 : ℝ) ^ (-1075 : ℤ) ≤ (2 : ℝ) ^ (-40 : ℤ) := zpow_le_zpow_right₀ (by norm_num) (by norm_num)
  refine h.trans ?_
  norm_num

theorem near_round [Libm] {s : Bool} {y : ℝ} (h : |y| ≤ 1000) : Near (F64.round s y) y (1 / 10 ^ 9) := by
  have hf : (F64.round s y).Finite := round_finite (h.trans thousand_le_big)
  refine ⟨hf, (round_err hf).trans ?_⟩
  have h1 := ueps_le
  have h2 := tiny_le
  have h0 := abs_nonneg y
  have : ueps * |y| ≤ 1 / 2 ^ 53 * 1000 := mul_le_mul h1 h h0 (by positivity)
  norm_num at *
  linarith

theorem near_flit [Libm] {m : Int} {e : Nat} (h : |(m : ℝ) / 10 ^ e| ≤ 1000) : Near (flit m e) ((m : ℝ) / 10 ^ e) (1 / 10 ^ 9) := near_round h

theorem near_add [Libm] {x y : F64} {X Y : ℝ} (hx : Near x X (1 / 10 ^ 9)) (hy : Near y Y (1 / 10 ^ 9)) (hX : |X| ≤ 100) (hY : |Y| ≤ 100) :
    Near (Flt.add x y) (X + Y) (3 / 10 ^ 9) := by
  have h1 : |x.val + y.val - (X + Y)| ≤ 2 / 10 ^ 9 := by
    rw [show x.val + y.val - (X + Y) = (x.val - X) + (y.val - Y) by ring]
    refine (abs_add_le _ _).trans ?_
    have := hx.2
    have := hy.2
    linarith
  have h2 : |x.val + y.val| ≤ 1000 := by
    have h3 := abs_add_le (x.val + y.val - (X + Y)) (X + Y)
    rw [show x.val + y.val - (X + Y) + (X + Y) = x.val + y.val by ring] at h3
    have h4 := abs_add_le X Y
    norm_num at *
    linarith
  have h3 : Flt.add x y = F64.round (x.sign && y.sign) (x.val + y.val) := add_fin hx.1 hy.1
  rw [h3]
  have h4 := near_round (s := x.sign && y.sign) h2
  refine ⟨h4.1, ?_⟩
  have h5 := h4.2
  generalize (F64.round (x.sign && y.sign) (x.val + y.val)).val = v at *
  rw [show v - (X + Y) = (v - (x.val + y.val)) + (x.val + y.val - (X + Y)) by ring]
  refine (abs_add_le _ _).trans ?_
  norm_num at *
  linarith

theorem near_sub [Libm] {x y : F64} {X Y : ℝ} (hx : Near x X (1 / 10 ^ 9)) (hy : Near y Y (1 / 10 ^ 9)) (hX : |X| ≤ 100) (hY : |Y| ≤ 100) :
    Near (Flt.sub x y) (X - Y) (3 / 10 ^ 9) := by
  have hy' : Near y.neg (-Y) (1 / 10 ^ 9) := by
    refine ⟨?_, ?_⟩
    · have := hy.1
      unfold F64.Finite at this ⊢
      rw [absBits_neg]; exact this
    · rw [val_neg, show -y.val - -Y = -(y.val - Y) by ring, abs_neg]; exact hy.2
  exact near_add hx hy' hX (by rw [abs_neg]; exact hY)

theorem near_abs [Libm] {x : F64} {X e : ℝ} (hx : Near x X e) : Near (Flt.abs x) |X| e := by
  have hb : (F64.abs x).absBits = x.absBits := absBits_mk' _ (Nat.mod_lt _ (by norm_num))
  have hv : (F64.abs x).val = |x.val| := by
    have hs : (F64.abs x).sign = false := sign_mk' _ (Nat.mod_lt _ (by norm_num))
    have h0 := mag_nonneg x.absBits
    unfold val
    rw [hs, hb]
    by_cases h : x.sign = true
    · simp [h, abs_of_nonneg h0]
    · simp [h, abs_of_nonneg h0]
  refine ⟨?_, ?_⟩
  · have := hx.1
    unfold F64.Finite at this ⊢
    show (F64.abs x).absBits < _
    rw [hb]; exact this
  · show |(F64.abs x).val - _| ≤ e
    rw [hv]
    exact (abs_abs_sub_abs_le _ _).trans hx.2

theorem near_lt [Libm] {x y : F64} {X Y e e' : ℝ} (hx : Near x X e) (hy : Near y Y e') (h : X + e < Y - e') : Flt.lt x y = true := by
  show F64.lt x y = true
  unfold F64.lt
  rw [(not_special hx.1).1, (not_special hy.1).1]
  simp only [Bool.not_false, Bool.true_and, decide_eq_true_eq]
  rw [← val_lt_iff]
  have h1 := abs_le.1 hx.2
  have h2 := abs_le.1 hy.2
  linarith

theorem near_not_lt [Libm] {x y : F64} {X Y e e' : ℝ} (hx : Near x X e) (hy : Near y Y e') (h : Y + e' ≤ X - e) : Flt.lt x y = false := by
  show F64.lt x y = false
  unfold F64.lt
  rw [(not_special hx.1).1, (not_special hy.1).1]
  simp only [Bool.not_false, Bool.true_and, decide_eq_false_iff_not]
  rw [← val_lt_iff]
  have h1 := abs_le.1 hx.2
  have h2 := abs_le.1 hy.2
  linarith

/-- A whole number. -/
theorem near_int [Libm] (n : Int) (h : |(n : ℝ)| ≤ 1000) : Near (Flt.ofInt n : F64) n (1 / 10 ^ 9) := near_round h

theorem round_eq_self [Libm] (s : Bool) (y : ℝ) : Flt.eq (F64.round s y) (F64.round s y) = true := by
  show F64.eq _ _ = true
  unfold F64.eq
  rw [round_not_nan]
  simp

/-- math.Pow(n, 2) for a whole number. -/
theorem f64_sq [Libm] (n : Int) (h0 : 0 ≤ n) (h1 : n ≤ 2 ^ 26) : Flt.pow (Flt.ofInt n : F64) (Flt.ofInt 2) = Flt.ofInt (n ^ 2) := by
  have hn2 : n ^ 2 ≤ 2 ^ 53 := by nlinarith
  have hx : IsInt (Flt.ofInt n : F64) n := isInt_round (by omega) (by omega)
  have hy : IsInt (Flt.ofInt 2 : F64) 2 := isInt_round (by norm_num) (by norm_num)
  have hz : IsInt (Flt.ofInt (n ^ 2) : F64) (n ^ 2) := isInt_round (by nlinarith) hn2
  have y2 : (Flt.ofInt 2 : F64).val = 2 := by rw [hy.val]; norm_num
  by_cases hn : n = 0
  · subst hn
    refine (Libm.pow_zero_two _ _ (by rw [isZero_iff, hx.val]; norm_num) hy.fin y2).trans ?_
    show F64.zero false = F64.round false (((0 : Int) ^ 2 : Int) : ℝ)
    unfold F64.round
    rw [if_pos (by norm_num)]
  · obtain ⟨-, p2⟩ := Libm.pow_two _ _ _ hx.fin hy.fin hz.fin y2 (by rw [hz.val, hx.val]; push_cast; rfl)
    exact eq_of_val p2 (by rw [show (Flt.pow (Flt.ofInt n : F64) (Flt.ofInt 2)).val = _ from p2, hz.val]; exact_mod_cast pow_ne_zero 2 hn)

end NN
