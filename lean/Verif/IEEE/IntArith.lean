import Verif.IEEE.Exact
/- Arithmetic on small integers is exact in binary64. -/

namespace NN
namespace F64

theorem infBits_lt : infBits < 2 ^ 63 := by unfold infBits; norm_num

theorem roundBits_le (y : ℝ) : roundBits y ≤ infBits := by
  unfold roundBits
  dsimp only
  split
  · exact le_rfl
  · omega

theorem sign_round {s : Bool} {y : ℝ} (h : y ≠ 0) : (round s y).sign = decide (y < 0) := by
  unfold round
  rw [if_neg h, sign_mk' _ (lt_of_le_of_lt (roundBits_le _) infBits_lt)]

theorem round_zero_sign (s : Bool) : (round s 0).sign = s := by
  unfold round zero
  rw [if_pos rfl, sign_mk' _ (by norm_num)]

theorem round_ne {s s' : Bool} {y : ℝ} (h : y ≠ 0) : round s y = round s' y := by
  unfold round
  rw [if_neg h, if_neg h]

/-- What float64(n) is. -/
structure IsInt (x : F64) (n : Int) : Prop where
  val : x.val = n
  fin : x.absBits < infBits
  sign : x.sign = decide (n < 0)

theorem isInt_round {n : Int} (h1 : -(2 ^ 53) ≤ n) (h2 : n ≤ 2 ^ 53) : IsInt (round false (n : ℝ)) n := by
  obtain ⟨e1, e2⟩ := ofInt_exact n h1 h2
  refine ⟨e1, e2, ?_⟩
  by_cases h0 : n = 0
  · subst h0
    rw [Int.cast_zero, round_zero_sign]; rfl
  · rw [sign_round (by exact_mod_cast h0)]
    simp

theorem val_neg (x : F64) : x.neg.val = -x.val := by
  unfold neg val
  have h : x.absBits < 2 ^ 63 := Nat.mod_lt _ (by norm_num)
  rw [absBits_mk' _ h, sign_mk' _ h]
  cases x.sign <;> simp

theorem absBits_neg (x : F64) : x.neg.absBits = x.absBits := absBits_mk' _ (Nat.mod_lt _ (by norm_num))

theorem sign_neg (x : F64) : x.neg.sign = !x.sign := sign_mk' _ (Nat.mod_lt _ (by norm_num))

/-- Addition of finite numbers. -/
theorem add_fin {x y : F64} (hx : x.absBits < infBits) (hy : y.absBits < infBits) : add x y = round (x.sign && y.sign) (x.val + y.val) := by
  obtain ⟨x1, x2⟩ := not_special hx
  obtain ⟨y1, y2⟩ := not_special hy
  unfold add
  rw [x1, x2, y1, y2]
  simp

/-- Multiplication of finite numbers. -/
theorem mul_fin {x y : F64} (hx : x.absBits < infBits) (hy : y.absBits < infBits) : mul x y = round (x.sign != y.sign) (x.val * y.val) := by
  obtain ⟨x1, x2⟩ := not_special hx
  obtain ⟨y1, y2⟩ := not_special hy
  unfold mul
  rw [x1, x2, y1, y2]
  simp

/-- Division of finite numbers. -/
theorem div_fin {x y : F64} (hx : x.absBits < infBits) (hy : y.absBits < infBits) (h0 : y.val ≠ 0) :
    div x y = round (x.sign != y.sign) (x.val / y.val) := by
  obtain ⟨x1, x2⟩ := not_special hx
  obtain ⟨y1, y2⟩ := not_special hy
  have hz : y.isZero = false := by
    rw [← Bool.not_eq_true, isZero_iff]; exact h0
  unfold div
  rw [x1, x2, y1, y2, hz]
  simp

end F64

open F64
variable [Libm]

theorem f64_add (a b : Int) (ha : -(2 ^ 52) ≤ a ∧ a ≤ 2 ^ 52) (hb : -(2 ^ 52) ≤ b ∧ b ≤ 2 ^ 52) :
    (Flt.ofInt a : F64) +. Flt.ofInt b = Flt.ofInt (a + b) := by
  have h1 := isInt_round (n := a) (by omega) (by omega)
  have h2 := isInt_round (n := b) (by omega) (by omega)
  show F64.add (F64.round false a) (F64.round false b) = F64.round false ((a + b : Int) : ℝ)
  rw [add_fin h1.fin h2.fin, h1.val, h2.val, ← Int.cast_add]
  by_cases h0 : a + b = 0
  · rw [h1.sign, h2.sign, show (decide (a < 0) && decide (b < 0)) = false by
      rw [← Bool.not_eq_true, Bool.and_eq_true, decide_eq_true_eq, decide_eq_true_eq]; omega]
  · exact round_ne (by exact_mod_cast h0)

theorem f64_neg (a : Int) (h0 : a ≠ 0) : Flt.neg (Flt.ofInt a : F64) = Flt.ofInt (-a) := by
  show F64.neg (F64.round false a) = F64.round false ((-a : Int) : ℝ)
  unfold F64.round
  have hb := lt_of_le_of_lt (roundBits_le |(a : ℝ)|) infBits_lt
  rw [if_neg (by exact_mod_cast h0), if_neg (by exact_mod_cast (neg_ne_zero.2 h0))]
  unfold F64.neg
  rw [absBits_mk' _ hb, sign_mk' _ hb, Int.cast_neg, abs_neg]
  congr 1
  have : (a : ℝ) ≠ 0 := by exact_mod_cast h0
  rcases lt_or_gt_of_ne this with h | h
  · have : a < 0 := by exact_mod_cast h
    simp [this, this.le]
  · have : 0 < a := by exact_mod_cast h
    simp [this, not_lt.2 this.le]

theorem f64_sub (a b : Int) (ha : -(2 ^ 52) ≤ a ∧ a ≤ 2 ^ 52) (hb : -(2 ^ 52) ≤ b ∧ b ≤ 2 ^ 52) :
    (Flt.ofInt a : F64) -. Flt.ofInt b = Flt.ofInt (a - b) := by
  have h1 := isInt_round (n := a) (by omega) (by omega)
  have h2 := isInt_round (n := b) (by omega) (by omega)
  show F64.add (F64.round false a) (F64.neg (F64.round false b)) = F64.round false ((a - b : Int) : ℝ)
  rw [add_fin h1.fin (by rw [absBits_neg]; exact h2.fin), h1.val, val_neg, h2.val, ← sub_eq_add_neg, ← Int.cast_sub]
  by_cases h0 : a - b = 0
  · rw [h1.sign, sign_neg, h2.sign, show (decide (a < 0) && !decide (b < 0)) = false by
      rw [← Bool.not_eq_true, Bool.and_eq_true, Bool.not_eq_true', decide_eq_true_eq, decide_eq_false_iff_not]; omega]
  · exact round_ne (by exact_mod_cast h0)

theorem f64_mul (a b : Int) (ha : -(2 ^ 53) ≤ a ∧ a ≤ 2 ^ 53) (hb : -(2 ^ 53) ≤ b ∧ b ≤ 2 ^ 53) (h : a * b ≠ 0 ∨ 0 ≤ a ∧ 0 ≤ b) :
    (Flt.ofInt a : F64) *. Flt.ofInt b = Flt.ofInt (a * b) := by
  have h1 := isInt_round (n := a) (by omega) (by omega)
  have h2 := isInt_round (n := b) (by omega) (by omega)
  show F64.mul (F64.round false a) (F64.round false b) = F64.round false ((a * b : Int) : ℝ)
  rw [mul_fin h1.fin h2.fin, h1.val, h2.val, ← Int.cast_mul]
  rcases h with h | ⟨h3, h4⟩
  · exact round_ne (by exact_mod_cast h)
  · rw [h1.sign, h2.sign, decide_eq_false (not_lt.2 h3), decide_eq_false (not_lt.2 h4)]; rfl

theorem f64_div (a b : Int) (ha : -(2 ^ 53) ≤ a ∧ a ≤ 2 ^ 53) (hb : 0 < b ∧ b ≤ 2 ^ 53) (h0 : 0 ≤ a ∨ a ≠ 0) (hd : b ∣ a) :
    (Flt.ofInt a : F64) /. Flt.ofInt b = Flt.ofInt (a / b) := by
  have h1 := isInt_round (n := a) (by omega) (by omega)
  have h2 := isInt_round (n := b) (by omega) (by omega)
  obtain ⟨c, rfl⟩ := hd
  have hb0 : (b : ℝ) ≠ 0 := by exact_mod_cast hb.1.ne'
  show F64.div (F64.round false (b * c : Int)) (F64.round false b) = F64.round false ((b * c / b : Int) : ℝ)
  rw [div_fin h1.fin h2.fin (by rw [h2.val]; exact hb0), h1.val, h2.val, Int.mul_ediv_cancel_left _ hb.1.ne', Int.cast_mul,
    mul_div_cancel_left₀ _ hb0]
  rcases eq_or_ne c 0 with rfl | hc
  · rw [h2.sign, decide_eq_false (not_lt.2 hb.1.le), Int.cast_zero, mul_zero, round_zero_sign]
    rfl
  · exact round_ne (by exact_mod_cast hc)

theorem f64_eq_int (a b : Int) (ha : -(2 ^ 53) ≤ a ∧ a ≤ 2 ^ 53) (hb : -(2 ^ 53) ≤ b ∧ b ≤ 2 ^ 53) :
    Flt.eq (Flt.ofInt a : F64) (Flt.ofInt b) = decide (a = b) := by
  have h1 := isInt_round (n := a) (by omega) (by omega)
  have h2 := isInt_round (n := b) (by omega) (by omega)
  show F64.eq (F64.round false a) (F64.round false b) = _
  unfold F64.eq
  rw [(not_special h1.fin).1, (not_special h2.fin).1]
  have : (F64.round false (a : ℝ)).key = (F64.round false (b : ℝ)).key ↔ a = b := by
    have l1 := val_lt_iff (F64.round false (a : ℝ)) (F64.round false (b : ℝ))
    have l2 := val_lt_iff (F64.round false (b : ℝ)) (F64.round false (a : ℝ))
    rw [h1.val, h2.val, Int.cast_lt] at l1 l2
    omega
  simp [this]

theorem f64_lt_int (a b : Int) (ha : -(2 ^ 53) ≤ a ∧ a ≤ 2 ^ 53) (hb : -(2 ^ 53) ≤ b ∧ b ≤ 2 ^ 53) :
    Flt.lt (Flt.ofInt a : F64) (Flt.ofInt b) = decide (a < b) := by
  have h1 := isInt_round (n := a) (by omega) (by omega)
  have h2 := isInt_round (n := b) (by omega) (by omega)
  show F64.lt (F64.round false a) (F64.round false b) = _
  unfold F64.lt
  rw [(not_special h1.fin).1, (not_special h2.fin).1]
  have : (F64.round false (a : ℝ)).key < (F64.round false (b : ℝ)).key ↔ a < b := by
    rw [← val_lt_iff, h1.val, h2.val, Int.cast_lt]
  simp [this]

theorem f64_ofInt_inj {a b : Int} (ha : -(2 ^ 53) ≤ a ∧ a ≤ 2 ^ 53) (hb : -(2 ^ 53) ≤ b ∧ b ≤ 2 ^ 53) (h : (Flt.ofInt a : F64) = Flt.ofInt b) :
    a = b := by
  have h1 := (isInt_round (n := a) (by omega) (by omega)).val
  have h2 := (isInt_round (n := b) (by omega) (by omega)).val
  rw [show F64.round false (a : ℝ) = F64.round false (b : ℝ) from h, h2] at h1
  exact_mod_cast h1.symm

end NN
