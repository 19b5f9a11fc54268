import Verif.IEEE.Round
/- The error of one float64 operation. -/

namespace NN
namespace F64

/-- Neither infinite nor NaN. -/
abbrev Finite (x : F64) : Prop := x.absBits < infBits

/-- Half the distance from 1 to the next float64: the relative error of one rounding. -/
noncomputable def ueps : ℝ := (2 : ℝ) ^ (-53 : ℤ)

/-- Half the smallest positive float64: the absolute error of an underflow. -/
noncomputable def tiny : ℝ := (2 : ℝ) ^ (-1075 : ℤ)

/-- The largest float64. -/
noncomputable def big : ℝ := (2 ^ 53 - 1) * (2 : ℝ) ^ (971 : ℤ)

theorem ueps_pos : 0 < ueps := by unfold ueps; positivity
theorem tiny_pos : 0 < tiny := by unfold tiny; positivity
theorem big_pos : 0 < big := by unfold big; refine mul_pos (by norm_num) (by positivity)

theorem roundEven_dist (y : ℝ) : |(roundEven y : ℝ) - y| ≤ 1 / 2 := by
  have h1 := Int.floor_le y
  have h2 := Int.lt_floor_add_one y
  unfold roundEven
  split_ifs <;> push_cast <;> rw [abs_le] <;> constructor <;> linarith

/-- The value of a rounded number that does not overflow. -/
theorem mag_round {y : ℝ} (hy : 0 < y) (h : roundBits y < infBits) :
    mag (roundBits y) = roundEven (y / (2 : ℝ) ^ ulpExp y) * (2 : ℝ) ^ ulpExp y := by
  have hk := ulpExp_ge y
  have hn0 : 0 ≤ roundEven (y / (2 : ℝ) ^ ulpExp y) := int_le_roundEven (by push_cast; positivity)
  have hn53 : roundEven (y / (2 : ℝ) ^ ulpExp y) ≤ 2 ^ 53 := roundEven_le_int (by exact_mod_cast scaled_lt.le)
  have h52 : ulpExp y = -1074 ∨ (2 : ℤ) ^ 52 ≤ roundEven (y / (2 : ℝ) ^ ulpExp y) := by
    by_cases hc : ulpExp y = -1074
    · exact .inl hc
    · exact .inr (int_le_roundEven (by exact_mod_cast le_scaled hy hc))
  have hb : roundBits y = ((ulpExp y + 1074) * 2 ^ 52 + roundEven (y / (2 : ℝ) ^ ulpExp y)).toNat := by
    unfold roundBits at h ⊢
    dsimp only at h ⊢
    split_ifs at h ⊢ with hc
    · exact absurd h (lt_irrefl _)
    · rfl
  obtain ⟨m, hm⟩ : ∃ m : Nat, roundEven (y / (2 : ℝ) ^ ulpExp y) = m := ⟨(roundEven (y / (2 : ℝ) ^ ulpExp y)).toNat, by omega⟩
  rw [hb]
  rw [hm] at hn0 hn53 h52 ⊢
  rcases hn53.lt_or_eq with hlt | heq
  · rw [show Int.toNat ((ulpExp y + 1074) * 2 ^ 52 + (m : ℤ)) = (ulpExp y + 1074).toNat * 2 ^ 52 + m by omega, mag_encode hk (by omega) (by omega)]
    push_cast; rfl
  · have hm53 : m = 2 ^ 53 := by exact_mod_cast heq
    subst hm53
    rw [show Int.toNat ((ulpExp y + 1074) * 2 ^ 52 + ((2 ^ 53 : ℕ) : ℤ)) = ((ulpExp y + 1) + 1074).toNat * 2 ^ 52 + 2 ^ 52 by push_cast; omega,
      mag_encode (by omega) (by norm_num) (.inr le_rfl), zpow_add₀ (by norm_num)]
    push_cast
    norm_num
    ring

theorem val_round {s : Bool} {y : ℝ} (h : (round s y).Finite) (hy : y ≠ 0) :
    (round s y).val = (if y < 0 then -1 else 1) * (roundEven (|y| / (2 : ℝ) ^ ulpExp |y|) * (2 : ℝ) ^ ulpExp |y|) := by
  unfold Finite at h
  unfold round at h ⊢
  rw [if_neg hy] at h ⊢
  rw [absBits_mk' _ (roundBits_lt _)] at h
  unfold val
  rw [absBits_mk' _ (roundBits_lt _), sign_mk' _ (roundBits_lt _), mag_round (abs_pos.2 hy) h]
  by_cases hn : y < 0 <;> simp [hn]

theorem round_val_zero (s : Bool) : (round s 0).val = 0 := by
  unfold round zero val
  rw [if_pos rfl, absBits_mk' _ (by norm_num), sign_mk' _ (by norm_num), mag_zero]
  simp

theorem half_ulp {y : ℝ} (hy : 0 < y) : (2 : ℝ) ^ ulpExp y / 2 ≤ ueps * y ∨ ulpExp y = -1074 := by
  by_cases hc : ulpExp y = -1074
  · exact .inr hc
  · left
    have h := le_scaled hy hc
    have hp : (0 : ℝ) < (2 : ℝ) ^ ulpExp y := by positivity
    rw [le_div_iff₀ hp] at h
    unfold ueps
    rw [show (-53 : ℤ) = -(53 : ℕ) by norm_num, zpow_neg, zpow_natCast]
    norm_num at h ⊢
    linarith

theorem abs_sgn (y a : ℝ) : |(if y < 0 then -1 else 1) * a - y| = _root_.abs (a - |y|) := by
  by_cases h : y < 0
  · rw [if_pos h, abs_of_neg h, ← abs_neg]
    congr 1
    ring
  · rw [if_neg h, abs_of_nonneg (not_lt.1 h)]
    congr 1
    ring

theorem round_dist {s : Bool} {y : ℝ} (h : (round s y).Finite) (hy : y ≠ 0) : |(round s y).val - y| ≤ (2 : ℝ) ^ ulpExp |y| / 2 := by
  have hp : (0 : ℝ) < (2 : ℝ) ^ ulpExp |y| := by positivity
  rw [val_round h hy, abs_sgn _ _]
  have := roundEven_dist (|y| / (2 : ℝ) ^ ulpExp |y|)
  have e : |y| = |y| / (2 : ℝ) ^ ulpExp |y| * (2 : ℝ) ^ ulpExp |y| := by field_simp
  calc _root_.abs (roundEven (|y| / (2 : ℝ) ^ ulpExp |y|) * (2 : ℝ) ^ ulpExp |y| - |y|)
      = _root_.abs ((roundEven (|y| / (2 : ℝ) ^ ulpExp |y|) - |y| / (2 : ℝ) ^ ulpExp |y|) * (2 : ℝ) ^ ulpExp |y|) := by
        rw [sub_mul, ← e]
    _ = _root_.abs ((roundEven (|y| / (2 : ℝ) ^ ulpExp |y|) : ℝ) - |y| / (2 : ℝ) ^ ulpExp |y|) * (2 : ℝ) ^ ulpExp |y| := by rw [abs_mul, abs_of_pos hp]
    _ ≤ 1 / 2 * (2 : ℝ) ^ ulpExp |y| := mul_le_mul_of_nonneg_right this hp.le
    _ = _ := by ring

/-- The error of one rounding. -/
theorem round_err {s : Bool} {y : ℝ} (h : (round s y).Finite) : |(round s y).val - y| ≤ ueps * |y| + tiny := by
  by_cases hy : y = 0
  · subst hy
    rw [round_val_zero]
    have := tiny_pos
    simp only [sub_zero, abs_zero, mul_zero, zero_add]
    exact this.le
  · refine (round_dist h hy).trans ?_
    have ha := abs_pos.2 hy
    rcases half_ulp ha with h1 | h1
    · have := tiny_pos; linarith
    · rw [h1]
      have : (2 : ℝ) ^ (-1074 : ℤ) / 2 = tiny := by
        unfold tiny
        rw [show (-1074 : ℤ) = -1075 + 1 by norm_num, zpow_add₀ (by norm_num)]
        norm_num
      rw [this]
      have := mul_pos ueps_pos ha
      linarith

/-- Numbers that are multiples of the smallest float64 do not underflow. -/
theorem round_err_grid {s : Bool} {y : ℝ} (h : (round s y).Finite) {n : ℤ} (hn : y = n * (2 : ℝ) ^ (-1074 : ℤ)) :
    |(round s y).val - y| ≤ ueps * |y| := by
  by_cases hy : y = 0
  · subst hy
    rw [round_val_zero]
    simp
  · have ha := abs_pos.2 hy
    rcases half_ulp ha with h1 | h1
    · exact (round_dist h hy).trans h1
    · have e : |y| / (2 : ℝ) ^ ulpExp |y| = (((n.natAbs : ℕ) : ℤ) : ℝ) := by
        rw [h1, div_eq_iff (by positivity), hn, abs_mul, abs_of_pos (by positivity : (0 : ℝ) < (2 : ℝ) ^ (-1074 : ℤ))]
        simp
      have e2 : |y| = (((n.natAbs : ℕ) : ℤ) : ℝ) * (2 : ℝ) ^ ulpExp |y| := by rw [← e]; field_simp
      rw [val_round h hy, abs_sgn _ _, e, roundEven_int, ← e2, sub_self, abs_zero]
      exact mul_nonneg ueps_pos.le ha.le

/-- Every finite float64 is a multiple of the smallest one. -/
theorem val_grid (x : F64) : ∃ n : ℤ, x.val = n * (2 : ℝ) ^ (-1074 : ℤ) := by
  have hm : ∀ b : Nat, ∃ n : ℤ, mag b = n * (2 : ℝ) ^ (-1074 : ℤ) := by
    intro b
    unfold mag
    split
    · exact ⟨(b % 2 ^ 52 : ℕ), by push_cast; rfl⟩
    · rename_i h
      obtain ⟨k, hk⟩ : ∃ k : Nat, b / 2 ^ 52 = k + 1 := ⟨b / 2 ^ 52 - 1, by omega⟩
      generalize b % 2 ^ 52 = m
      refine ⟨((2 ^ 52 + m : ℕ) : ℤ) * 2 ^ k, ?_⟩
      rw [hk, show (((k + 1 : ℕ) : ℤ) - 1075) = k + -1074 by push_cast; ring, zpow_add₀ (by norm_num), zpow_natCast]
      push_cast
      ring
  obtain ⟨n, hn⟩ := hm x.absBits
  unfold val
  split
  · exact ⟨-n, by rw [hn]; push_cast; ring⟩
  · exact ⟨n, hn⟩

/-- No overflow. -/
theorem round_finite {s : Bool} {y : ℝ} (h : |y| ≤ big) : (round s y).Finite := by
  have hb : (mk' false (infBits - 1)).val = big := by
    have h1 : infBits - 1 < 2 ^ 63 := by unfold infBits; norm_num
    unfold val
    rw [sign_mk' _ h1, absBits_mk' _ h1]
    simp only [Bool.false_eq_true, if_false]
    unfold mag big infBits
    norm_num
  have hf : (mk' false (infBits - 1)).absBits < infBits := by
    rw [absBits_mk' _ (by unfold infBits; norm_num)]
    unfold infBits; norm_num
  have h1 : (round s y).key ≤ (mk' false (infBits - 1)).key := round_le hf (by rw [hb]; exact (abs_le.1 h).2)
  have h2 : (mk' false (infBits - 1)).neg.key ≤ (round s y).key :=
    le_round (by rw [absBits_neg]; exact hf) (by rw [val_neg, hb]; exact (abs_le.1 h).1)
  rw [key_neg] at h2
  have h3 := absBits_eq (round s y)
  have h4 : (mk' false (infBits - 1)).key = ((infBits - 1 : ℕ) : ℤ) := by
    rw [key_mk' _ (by unfold infBits; norm_num)]; simp
  have h5 : |(round s y).key| ≤ ((infBits - 1 : ℕ) : ℤ) := by rw [abs_le]; omega
  show (round s y).absBits < infBits
  have : 0 < infBits := by unfold infBits; norm_num
  omega

theorem abs_val_le {x : F64} (h : x.Finite) : |x.val| ≤ big := by
  have hb : mag (infBits - 1) = big := by
    unfold mag big infBits
    norm_num
  have : mag x.absBits ≤ mag (infBits - 1) := mag_strictMono.monotone (by unfold Finite at h; omega)
  unfold val
  rw [← hb]
  split
  · rw [abs_neg, abs_of_nonneg (mag_nonneg _)]; exact this
  · rw [abs_of_nonneg (mag_nonneg _)]; exact this

theorem add_err {x y : F64} (hx : x.Finite) (hy : y.Finite) (h : |x.val + y.val| ≤ big) :
    (add x y).Finite ∧ |(add x y).val - (x.val + y.val)| ≤ ueps * |x.val + y.val| := by
  rw [add_fin hx hy]
  have hf := round_finite (s := x.sign && y.sign) h
  obtain ⟨n, hn⟩ := val_grid x
  obtain ⟨m, hm⟩ := val_grid y
  exact ⟨hf, round_err_grid hf (n := n + m) (by rw [hn, hm]; push_cast; ring)⟩

theorem mul_err {x y : F64} (hx : x.Finite) (hy : y.Finite) (h : |x.val * y.val| ≤ big) :
    (mul x y).Finite ∧ |(mul x y).val - x.val * y.val| ≤ ueps * |x.val * y.val| + tiny := by
  rw [mul_fin hx hy]
  have hf := round_finite (s := x.sign != y.sign) h
  exact ⟨hf, round_err hf⟩

theorem div_err {x y : F64} (hx : x.Finite) (hy : y.Finite) (h0 : y.val ≠ 0) (h : |x.val / y.val| ≤ big) :
    (div x y).Finite ∧ |(div x y).val - x.val / y.val| ≤ ueps * |x.val / y.val| + tiny := by
  rw [div_fin hx hy h0]
  have hf := round_finite (s := x.sign != y.sign) h
  exact ⟨hf, round_err hf⟩

end F64
end NN
