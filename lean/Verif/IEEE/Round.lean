import Verif.IEEE.IntArith
/- Rounding to binary64 is monotone and keeps what is representable. -/

namespace NN
namespace F64

theorem roundEven_le (y : ℝ) : roundEven y ≤ ⌊y⌋ + 1 := by
  unfold roundEven
  split_ifs <;> omega

theorem le_roundEven (y : ℝ) : ⌊y⌋ ≤ roundEven y := by
  unfold roundEven
  split_ifs <;> omega

theorem roundEven_mono {y y' : ℝ} (h : y ≤ y') : roundEven y ≤ roundEven y' := by
  rcases (Int.floor_mono h).lt_or_eq with hf | hf
  · have := roundEven_le y
    have := le_roundEven y'
    omega
  · unfold roundEven
    rw [hf]
    split_ifs <;> first | omega | (exfalso; linarith)

/-- An integer bound on y is a bound on the rounded y. -/
theorem roundEven_le_int {y : ℝ} {n : ℤ} (h : y ≤ n) : roundEven y ≤ n := by
  rw [← roundEven_int n]; exact roundEven_mono h

theorem int_le_roundEven {y : ℝ} {n : ℤ} (h : (n : ℝ) ≤ y) : n ≤ roundEven y := by
  rw [← roundEven_int n]; exact roundEven_mono h

theorem ulpExp_mono {y y' : ℝ} (h0 : 0 < y) (h : y ≤ y') : ulpExp y ≤ ulpExp y' := by
  unfold ulpExp
  have := Int.log_mono_right (b := 2) h0 h
  omega

theorem ulpExp_ge (y : ℝ) : -1074 ≤ ulpExp y := le_max_right _ _

/-- The scaled number lies below 2^53. -/
theorem scaled_lt {y : ℝ} : y / (2 : ℝ) ^ ulpExp y < 2 ^ 53 := by
  have hp : (0 : ℝ) < (2 : ℝ) ^ ulpExp y := by positivity
  have h1 : y < (2 : ℝ) ^ (Int.log 2 y + 1) := by exact_mod_cast Int.lt_zpow_succ_log_self (b := 2) (by norm_num) y
  have hlog : Int.log 2 y ≤ ulpExp y + 52 := by have := le_max_left (Int.log 2 y - 52) (-1074); unfold ulpExp; omega
  have h2 : (2 : ℝ) ^ (Int.log 2 y + 1) ≤ (2 : ℝ) ^ (53 + ulpExp y) := zpow_le_zpow_right₀ (by norm_num) (by omega)
  rw [zpow_add₀ (by norm_num) 53] at h2
  rw [div_lt_iff₀ hp]
  calc y < _ := h1
    _ ≤ _ := h2
    _ = _ := by norm_num

/-- Outside the smallest binade it is at least 2^52. -/
theorem le_scaled {y : ℝ} (hy : 0 < y) (hc : ulpExp y ≠ -1074) : 2 ^ 52 ≤ y / (2 : ℝ) ^ ulpExp y := by
  have hp : (0 : ℝ) < (2 : ℝ) ^ ulpExp y := by positivity
  have he : ulpExp y = Int.log 2 y - 52 := by
    unfold ulpExp at hc ⊢
    rcases max_choice (Int.log 2 y - 52) (-1074) with h | h
    · exact h
    · exact absurd h hc
  have h1 : (2 : ℝ) ^ (Int.log 2 y) ≤ y := by exact_mod_cast Int.zpow_log_le_self (b := 2) (by norm_num) hy
  rw [le_div_iff₀ hp]
  calc (2 : ℝ) ^ 52 * (2 : ℝ) ^ ulpExp y = (2 : ℝ) ^ (52 + ulpExp y) := by rw [zpow_add₀ (by norm_num)]; norm_num
    _ = (2 : ℝ) ^ (Int.log 2 y) := by rw [he]; congr 1; ring
    _ ≤ y := h1

/-- Rounding is monotone on positive numbers. -/
theorem roundBits_mono {y y' : ℝ} (h0 : 0 < y) (h : y ≤ y') : roundBits y ≤ roundBits y' := by
  have hle : (ulpExp y + 1074) * 2 ^ 52 + roundEven (y / (2 : ℝ) ^ ulpExp y) ≤
      (ulpExp y' + 1074) * 2 ^ 52 + roundEven (y' / (2 : ℝ) ^ ulpExp y') := by
    rcases (ulpExp_mono h0 h).lt_or_eq with he | he
    · have h1 : roundEven (y / (2 : ℝ) ^ ulpExp y) ≤ 2 ^ 53 := roundEven_le_int (by exact_mod_cast scaled_lt.le)
      have h2 : 2 ^ 52 ≤ roundEven (y' / (2 : ℝ) ^ ulpExp y') :=
        int_le_roundEven (by exact_mod_cast le_scaled (h0.trans_le h) (by have := ulpExp_ge y; omega))
      omega
    · rw [he]
      have := roundEven_mono (div_le_div_of_nonneg_right h (by positivity : (0 : ℝ) ≤ (2 : ℝ) ^ ulpExp y'))
      omega
  unfold roundBits
  dsimp only
  split_ifs <;> omega

theorem key_mk' (s : Bool) {n : Nat} (h : n < 2 ^ 63) : (mk' s n).key = if s then -(n : ℤ) else n := by
  unfold key
  rw [sign_mk' s h, absBits_mk' s h]

theorem roundBits_lt (y : ℝ) : roundBits y < 2 ^ 63 := lt_of_le_of_lt (roundBits_le _) infBits_lt

theorem key_round_zero (s : Bool) : (round s 0).key = 0 := by
  unfold round zero
  rw [if_pos rfl, key_mk' _ (by norm_num)]
  simp

theorem key_round_pos {s : Bool} {y : ℝ} (h : 0 < y) : (round s y).key = roundBits y := by
  unfold round
  rw [if_neg h.ne', key_mk' _ (roundBits_lt _), abs_of_pos h]
  simp [h.le]

theorem key_round_neg {s : Bool} {y : ℝ} (h : y < 0) : (round s y).key = -(roundBits (-y) : ℤ) := by
  unfold round
  rw [if_neg h.ne, key_mk' _ (roundBits_lt _), abs_of_neg h]
  simp [h]

/-- Rounding is monotone. -/
theorem round_mono {s s' : Bool} {y y' : ℝ} (h : y ≤ y') : (round s y).key ≤ (round s' y').key := by
  rcases lt_trichotomy y 0 with h1 | rfl | h1
  · rw [key_round_neg h1]
    rcases lt_trichotomy y' 0 with h2 | rfl | h2
    · rw [key_round_neg h2]
      have := roundBits_mono (y := -y') (y' := -y) (by linarith) (by linarith)
      omega
    · rw [key_round_zero]; omega
    · rw [key_round_pos h2]; omega
  · rw [key_round_zero]
    rcases h.lt_or_eq with h2 | rfl
    · rw [key_round_pos h2]; omega
    · rw [key_round_zero]
  · rw [key_round_pos h1, key_round_pos (h1.trans_le h)]
    exact_mod_cast roundBits_mono h1 h

/-- A rounded number is not NaN. -/
theorem absBits_round_le (s : Bool) (y : ℝ) : (round s y).absBits ≤ infBits := by
  unfold round
  split_ifs
  · unfold zero; rw [absBits_mk' _ (by norm_num)]; omega
  · rw [absBits_mk' _ (roundBits_lt _)]; exact roundBits_le _

theorem round_not_nan (s : Bool) (y : ℝ) : (round s y).isNaN = false := by
  have := absBits_round_le s y
  unfold isNaN
  simp; omega

theorem mag_pos {b : Nat} (h : 0 < b) : 0 < mag b := by
  rw [← mag_zero]; exact mag_strictMono h

/-- The exponent of the last place of a decoded number. -/
theorem ulpExp_mag {b : Nat} (h0 : 0 < b) : ulpExp (mag b) = if b / 2 ^ 52 = 0 then -1074 else ((b / 2 ^ 52 : ℕ) : ℤ) - 1075 := by
  have hpos := mag_pos h0
  unfold ulpExp
  by_cases h : b / 2 ^ 52 = 0
  · rw [if_pos h]
    have : Int.log 2 (mag b) < -1022 := by
      rw [← Int.lt_zpow_iff_log_lt (by norm_num) hpos]
      unfold mag
      rw [if_pos h]
      have e : (2 : ℝ) ^ (-1022 : ℤ) = 2 ^ 52 * (2 : ℝ) ^ (-1074 : ℤ) := by
        rw [show (-1022 : ℤ) = 52 + -1074 by norm_num, zpow_add₀ (by norm_num)]; norm_num
      have hl : ((b % 2 ^ 52 : ℕ) : ℝ) < 2 ^ 52 := by exact_mod_cast Nat.mod_lt _ (by norm_num)
      have hp : (0 : ℝ) < (2 : ℝ) ^ (-1074 : ℤ) := by positivity
      push_cast
      push_cast at hl
      rw [e]
      exact mul_lt_mul_of_pos_right hl hp
    omega
  · rw [if_neg h]
    have hp : (0 : ℝ) < (2 : ℝ) ^ (((b / 2 ^ 52 : ℕ) : ℤ) - 1075) := by positivity
    have hm : mag b = ((2 ^ 52 + b % 2 ^ 52 : ℕ) : ℝ) * (2 : ℝ) ^ (((b / 2 ^ 52 : ℕ) : ℤ) - 1075) := by
      unfold mag; rw [if_neg h]
    have hlt : b % 2 ^ 52 < 2 ^ 52 := Nat.mod_lt _ (by norm_num)
    have h1 : ((b / 2 ^ 52 : ℕ) : ℤ) - 1075 + 52 ≤ Int.log 2 (mag b) := by
      rw [← Int.zpow_le_iff_le_log (by norm_num) hpos, hm, Nat.cast_ofNat, add_comm, zpow_add₀ (by norm_num)]
      refine mul_le_mul_of_nonneg_right ?_ hp.le
      have : ((2 ^ 52 : ℕ) : ℝ) ≤ ((2 ^ 52 + b % 2 ^ 52 : ℕ) : ℝ) := by exact_mod_cast Nat.le_add_right _ _
      calc (2 : ℝ) ^ (52 : ℤ) = ((2 ^ 52 : ℕ) : ℝ) := by norm_num
        _ ≤ _ := this
    have h2 : Int.log 2 (mag b) < ((b / 2 ^ 52 : ℕ) : ℤ) - 1075 + 53 := by
      rw [← Int.lt_zpow_iff_log_lt (by norm_num) hpos, hm, Nat.cast_ofNat, add_comm _ (53 : ℤ), zpow_add₀ (by norm_num)]
      refine mul_lt_mul_of_pos_right ?_ hp
      have : ((2 ^ 52 + b % 2 ^ 52 : ℕ) : ℝ) < ((2 ^ 53 : ℕ) : ℝ) := by exact_mod_cast (by omega)
      calc _ < ((2 ^ 53 : ℕ) : ℝ) := this
        _ = _ := by norm_num
    omega

/-- Representable numbers are not changed by rounding. -/
theorem roundBits_mag {b : Nat} (h0 : 0 < b) (h : b < infBits) : roundBits (mag b) = b := by
  have hu := ulpExp_mag h0
  have hq : mag b / (2 : ℝ) ^ ulpExp (mag b) =
      ((if b / 2 ^ 52 = 0 then ((b % 2 ^ 52 : ℕ) : ℤ) else ((2 ^ 52 + b % 2 ^ 52 : ℕ) : ℤ) : ℤ) : ℝ) := by
    rw [div_eq_iff (by positivity), hu]
    conv_lhs => unfold mag
    by_cases h1 : b / 2 ^ 52 = 0
    · rw [if_pos h1, if_pos h1, if_pos h1, Int.cast_natCast]
    · rw [if_neg h1, if_neg h1, if_neg h1, Int.cast_natCast]
  unfold roundBits
  rw [hq, roundEven_int, hu]
  dsimp only
  unfold infBits at h ⊢
  by_cases h1 : b / 2 ^ 52 = 0
  · rw [if_pos h1, if_pos h1, if_neg (by push_cast; omega)]
    omega
  · rw [if_neg h1, if_neg h1, if_neg (by push_cast; omega)]
    push_cast
    omega

theorem key_round_val {s : Bool} {x : F64} (h : x.absBits < infBits) : (round s x.val).key = x.key := by
  unfold val key
  rcases Nat.eq_zero_or_pos x.absBits with h0 | h0
  · rw [h0, mag_zero]
    have := key_round_zero s
    unfold key at this
    simpa using this
  · have hp := mag_pos h0
    change (round s _).key = _
    cases x.sign
    · simp only [Bool.false_eq_true, if_false]
      rw [key_round_pos hp, roundBits_mag h0 h]
    · simp only [if_true]
      rw [key_round_neg (by linarith), neg_neg, roundBits_mag h0 h]

/-- A representable bound on y is a bound on the rounded y. -/
theorem round_le {s : Bool} {y : ℝ} {z : F64} (hz : z.absBits < infBits) (h : y ≤ z.val) : (round s y).key ≤ z.key := by
  rw [← key_round_val (s := s) hz]; exact round_mono h

theorem le_round {s : Bool} {y : ℝ} {z : F64} (hz : z.absBits < infBits) (h : z.val ≤ y) : z.key ≤ (round s y).key := by
  rw [← key_round_val (s := s) hz]; exact round_mono h

theorem val_le_iff (x y : F64) : x.val ≤ y.val ↔ x.key ≤ y.key := by
  rw [← not_lt, ← not_lt, val_lt_iff]

theorem absBits_eq (x : F64) : (x.absBits : ℤ) = |x.key| := by
  unfold key
  cases x.sign <;> simp

theorem not_nan_iff {x : F64} : x.isNaN = false ↔ x.absBits ≤ infBits := by
  unfold isNaN
  simp

theorem not_inf {x : F64} (h : x.isNaN = false) (hi : x.isInf = false) : x.absBits < infBits := by
  rw [not_nan_iff] at h
  unfold isInf at hi
  simp at hi
  omega

theorem key_le_inf {x : F64} (h : x.isNaN = false) : x.key ≤ infBits ∧ -(infBits : ℤ) ≤ x.key := by
  rw [not_nan_iff] at h
  have := absBits_eq x
  rcases abs_cases x.key with ⟨e, -⟩ | ⟨e, -⟩ <;> omega

theorem isInf_pos {x : F64} (hi : x.isInf = true) (h : 0 ≤ x.key) : x.sign = false ∧ x.key = infBits := by
  unfold isInf at hi
  simp at hi
  unfold key at h ⊢
  rw [hi] at h ⊢
  cases hs : x.sign
  · simp
  · rw [hs] at h; unfold infBits at h; simp at h

/-- Numbers between finite bounds are finite. -/
theorem fin_of_key {x z : F64} (hz : z.absBits < infBits) (h0 : 0 ≤ x.key) (h : x.key ≤ z.key) : x.absBits < infBits := by
  have h1 := absBits_eq x
  have h2 := absBits_eq z
  rw [abs_of_nonneg h0] at h1
  rw [abs_of_nonneg (h0.trans h)] at h2
  omega

theorem val_nonneg {x : F64} : 0 ≤ x.val ↔ 0 ≤ x.key := by
  have h := val_le_iff (zero false) x
  have hz : (zero false).val = 0 := by unfold zero val; rw [absBits_mk' _ (by norm_num), sign_mk' _ (by norm_num), mag_zero]; simp
  have hk : (zero false).key = 0 := by unfold zero; rw [key_mk' _ (by norm_num)]; simp
  rwa [hz, hk] at h

theorem val_pos {x : F64} : 0 < x.val ↔ 0 < x.key := by
  have h := val_lt_iff (zero false) x
  have hz : (zero false).val = 0 := by unfold zero val; rw [absBits_mk' _ (by norm_num), sign_mk' _ (by norm_num), mag_zero]; simp
  have hk : (zero false).key = 0 := by unfold zero; rw [key_mk' _ (by norm_num)]; simp
  rwa [hz, hk] at h

theorem key_zero (s : Bool) : (zero s).key = 0 := by unfold zero; rw [key_mk' _ (by norm_num)]; simp

theorem zero_not_nan (s : Bool) : (zero s).isNaN = false := by
  rw [not_nan_iff]; unfold zero; rw [absBits_mk' _ (by norm_num)]; omega

theorem round_nonneg {s : Bool} {y : ℝ} (h : 0 ≤ y) : 0 ≤ (round s y).key := by
  rw [← key_round_zero s]; exact round_mono h

theorem inf_key : (inf false).isNaN = false ∧ (inf false).key = infBits := by
  refine ⟨?_, by unfold inf; rw [key_mk' _ infBits_lt]; simp⟩
  rw [not_nan_iff]; unfold inf; rw [absBits_mk' _ infBits_lt]

/-- The exponential is not NaN and not negative. -/
theorem exp_ok [Libm] {x : F64} (h : x.isNaN = false) : (exp x).isNaN = false ∧ 0 ≤ (exp x).key := by
  by_cases hi : x.isInf = true
  · rw [show exp x = _ from Libm.exp_inf x hi]
    by_cases hs : x.sign = true
    · rw [if_pos hs]; exact ⟨zero_not_nan _, (key_zero _).ge⟩
    · rw [if_neg hs]
      exact ⟨inf_key.1, by rw [inf_key.2]; omega⟩
  · exact Libm.exp_num x (not_inf h (by simpa using hi))

/-- Sums of numbers that are not negative. -/
theorem add_ok {x y : F64} (hx : x.isNaN = false) (hy : y.isNaN = false) (h0 : 0 ≤ x.key) (h1 : 0 ≤ y.key) :
    (add x y).isNaN = false ∧ x.key ≤ (add x y).key ∧ y.key ≤ (add x y).key := by
  by_cases ix : x.isInf = true
  · have e : add x y = x := by
      unfold add
      rw [hx, hy, ix]
      by_cases iy : y.isInf = true
      · rw [iy, (isInf_pos ix h0).1, (isInf_pos iy h1).1]; simp
      · simp [iy]
    rw [e]
    refine ⟨hx, le_rfl, ?_⟩
    rw [(isInf_pos ix h0).2]; exact (key_le_inf hy).1
  · by_cases iy : y.isInf = true
    · have e : add x y = y := by
        unfold add
        rw [hx, hy, iy]; simp [ix]
      rw [e]
      refine ⟨hy, ?_, le_rfl⟩
      rw [(isInf_pos iy h1).2]; exact (key_le_inf hx).1
    · have fx := not_inf hx (by simpa using ix)
      have fy := not_inf hy (by simpa using iy)
      rw [add_fin fx fy]
      have := val_nonneg.2 h0
      have := val_nonneg.2 h1
      exact ⟨round_not_nan _ _, le_round fx (by linarith), le_round fy (by linarith)⟩

theorem add_mono {x y x' y' : F64} (hx : x.isNaN = false) (hy : y.isNaN = false) (hx' : x'.isNaN = false) (hy' : y'.isNaN = false)
    (h0 : 0 ≤ x.key) (h1 : 0 ≤ y.key) (h : x.key ≤ x'.key) (h' : y.key ≤ y'.key) : (add x y).key ≤ (add x' y').key := by
  obtain ⟨n1, n2, n3⟩ := add_ok hx' hy' (h0.trans h) (h1.trans h')
  have hb := (key_le_inf (add_ok hx hy h0 h1).1).1
  by_cases ix : x'.isInf = true
  · rw [(isInf_pos ix (h0.trans h)).2] at n2; omega
  by_cases iy : y'.isInf = true
  · rw [(isInf_pos iy (h1.trans h')).2] at n3; omega
  have fx' := not_inf hx' (by simpa using ix)
  have fy' := not_inf hy' (by simpa using iy)
  have fx := fin_of_key fx' h0 h
  have fy := fin_of_key fy' h1 h'
  rw [add_fin fx fy, add_fin fx' fy']
  exact round_mono (add_le_add ((val_le_iff _ _).2 h) ((val_le_iff _ _).2 h'))

/-- Dividing a finite number by one that is at least as large. -/
theorem div_ok {x d : F64} (hx : x.absBits < infBits) (h0 : 0 ≤ x.key) (hd : d.isNaN = false) (hp : 0 < d.key) (hle : x.key ≤ d.key)
    {one : F64} (ho : one.absBits < infBits) (h1 : one.val = 1) :
    (div x d).isNaN = false ∧ 0 ≤ (div x d).key ∧ (div x d).key ≤ one.key := by
  have hok : 0 ≤ one.key := val_nonneg.1 (by rw [h1]; norm_num)
  obtain ⟨x1, x2⟩ := not_special hx
  by_cases id : d.isInf = true
  · have hz : d.isZero = false := by
      unfold isInf at id; unfold isZero; simp at id ⊢; rw [id]; unfold infBits; norm_num
    have e : div x d = zero (x.sign != d.sign) := by
      unfold div
      rw [x1, x2, hd, id, hz]; simp
    rw [e, key_zero]
    exact ⟨zero_not_nan _, le_rfl, hok⟩
  · have fd := not_inf hd (by simpa using id)
    have hdp := val_pos.2 hp
    have hxn := val_nonneg.2 h0
    rw [div_fin hx fd hdp.ne']
    refine ⟨round_not_nan _ _, round_nonneg (by positivity), round_le ho ?_⟩
    rw [h1, div_le_one hdp]
    exact (val_le_iff _ _).2 hle

/-- Division is monotone in the numerator. -/
theorem div_mono {x y d : F64} (hx : x.absBits < infBits) (hy : y.absBits < infBits) (hd : d.absBits < infBits) (hp : 0 < d.key)
    (h : x.key ≤ y.key) : (div x d).key ≤ (div y d).key := by
  have hdp := val_pos.2 hp
  rw [div_fin hx hd hdp.ne', div_fin hy hd hdp.ne']
  exact round_mono (div_le_div_of_nonneg_right ((val_le_iff _ _).2 h) hdp.le)

/-- Division is antitone in the denominator. -/
theorem div_anti {x d e : F64} (hx : x.absBits < infBits) (h0 : 0 ≤ x.key) (hd : d.isNaN = false) (he : e.isNaN = false) (hp : 0 < d.key)
    (h : d.key ≤ e.key) : (div x e).key ≤ (div x d).key := by
  have hxn := val_nonneg.2 h0
  obtain ⟨x1, x2⟩ := not_special hx
  by_cases ie : e.isInf = true
  · have hz : e.isZero = false := by
      unfold isInf at ie; unfold isZero; simp at ie ⊢; rw [ie]; unfold infBits; norm_num
    have ee : div x e = zero (x.sign != e.sign) := by
      unfold div
      rw [x1, x2, he, ie, hz]; simp
    rw [ee, key_zero]
    by_cases id : d.isInf = true
    · have hz : d.isZero = false := by
        unfold isInf at id; unfold isZero; simp at id ⊢; rw [id]; unfold infBits; norm_num
      have : div x d = zero (x.sign != d.sign) := by
        unfold div
        rw [x1, x2, hd, id, hz]; simp
      rw [this, key_zero]
    · have fd := not_inf hd (by simpa using id)
      have hdp := val_pos.2 hp
      rw [div_fin hx fd hdp.ne']
      exact round_nonneg (by positivity)
  · have fe := not_inf he (by simpa using ie)
    have fd := fin_of_key fe hp.le h
    have hdp := val_pos.2 hp
    have hep := val_pos.2 (hp.trans_le h)
    rw [div_fin hx fd hdp.ne', div_fin hx fe hep.ne']
    exact round_mono (div_le_div_of_nonneg_left hxn hdp ((val_le_iff _ _).2 h))

theorem key_neg (x : F64) : x.neg.key = -x.key := by
  unfold key
  rw [absBits_neg, sign_neg]
  cases x.sign <;> simp

theorem isNaN_neg (x : F64) : x.neg.isNaN = x.isNaN := by unfold isNaN; rw [absBits_neg]

/-- Overflow. -/
theorem roundBits_big {y : ℝ} (h : (2 : ℝ) ^ (1024 : ℤ) ≤ y) : roundBits y = infBits := by
  have hy : 0 < y := lt_of_lt_of_le (by positivity) h
  have hl : 1024 ≤ Int.log 2 y := by
    rw [← Int.zpow_le_iff_le_log (by norm_num) hy]; exact_mod_cast h
  have hu : 972 ≤ ulpExp y := by unfold ulpExp; omega
  have h2 : 2 ^ 52 ≤ roundEven (y / (2 : ℝ) ^ ulpExp y) :=
    int_le_roundEven (by exact_mod_cast le_scaled hy (by omega))
  unfold roundBits
  dsimp only
  rw [if_pos (by unfold infBits; push_cast; omega)]

/-- Underflow. -/
theorem roundBits_small {y : ℝ} (hy : 0 < y) (h : y < (2 : ℝ) ^ (-1075 : ℤ)) : roundBits y = 0 := by
  have hl : Int.log 2 y < -1075 := by
    rw [← Int.lt_zpow_iff_log_lt (by norm_num) hy]; exact_mod_cast h
  have hu : ulpExp y = -1074 := by unfold ulpExp; omega
  have hs : y / (2 : ℝ) ^ ulpExp y < 1 / 2 := by
    rw [hu, div_lt_iff₀ (by positivity)]
    calc y < _ := h
      _ = _ := by rw [show (-1075 : ℤ) = -1 + -1074 by norm_num, zpow_add₀ (by norm_num)]; norm_num
  have hs0 : 0 ≤ y / (2 : ℝ) ^ ulpExp y := by positivity
  have hf : ⌊y / (2 : ℝ) ^ ulpExp y⌋ = 0 := by
    rw [Int.floor_eq_zero_iff]; exact ⟨hs0, by linarith⟩
  unfold roundBits
  dsimp only
  have hr : roundEven (y / (2 : ℝ) ^ ulpExp y) = 0 := by
    unfold roundEven
    rw [hf, if_pos (by simpa using hs)]
  rw [hr, hu]
  unfold infBits
  norm_num

/-- n 2^e is a float64 if n has at most 53 bits and the exponent is in range. -/
theorem scaled_exact {n : Nat} {e : ℤ} (h0 : 0 < n) (hn : n < 2 ^ 53) (he : -1074 ≤ e) (hb : (n : ℝ) * 2 ^ e < (2 : ℝ) ^ (1023 : ℤ)) :
    (round false ((n : ℝ) * 2 ^ e)).val = (n : ℝ) * 2 ^ e ∧ (round false ((n : ℝ) * 2 ^ e)).absBits < infBits := by
  have hnp : (0 : ℝ) < n := by exact_mod_cast h0
  have hp : (0 : ℝ) < (n : ℝ) * 2 ^ e := by positivity
  have hl : Int.log 2 ((n : ℝ) * 2 ^ e) < e + 53 := by
    rw [← Int.lt_zpow_iff_log_lt (by norm_num) hp, Nat.cast_ofNat, add_comm, zpow_add₀ (by norm_num)]
    refine mul_lt_mul_of_pos_right ?_ (by positivity)
    exact_mod_cast hn
  have hl' : Int.log 2 ((n : ℝ) * 2 ^ e) < 1023 := by
    rw [← Int.lt_zpow_iff_log_lt (by norm_num) hp]; exact_mod_cast hb
  have hu : ulpExp ((n : ℝ) * 2 ^ e) ≤ e := by unfold ulpExp; omega
  have hu' : ulpExp ((n : ℝ) * 2 ^ e) < 971 := by unfold ulpExp; omega
  obtain ⟨d, hd⟩ : ∃ d : Nat, e = d + ulpExp ((n : ℝ) * 2 ^ e) := ⟨(e - ulpExp ((n : ℝ) * 2 ^ e)).toNat, by omega⟩
  obtain ⟨e1, e2⟩ := mag_roundBits hp (n := n * 2 ^ d) (by
    conv_lhs => rw [hd]
    rw [zpow_add₀ (by norm_num), zpow_natCast]
    push_cast
    ring) hu'
  unfold round
  rw [if_neg hp.ne', abs_of_pos hp]
  unfold val
  rw [absBits_mk' _ (roundBits_lt _), sign_mk' _ (roundBits_lt _), e1]
  refine ⟨?_, e2⟩
  rw [if_neg (by simpa using hp.le)]

end F64
end NN
