import Verif.Props.C83_C84
import Verif.IEEE.Error
import Verif.Lemmas.Loss
import Verif.Props.C81_C82
/- C85, C86, C87: binary cross-entropy and cross-entropy on float64. -/

set_option linter.unusedSectionVars false

namespace NN
open Go F64
variable [Libm]

namespace F64

/-- Numbers between finite numbers are finite. -/
theorem fin_between {x lo hi : F64} (hl : lo.absBits < infBits) (hh : hi.absBits < infBits) (h1 : lo.key ≤ x.key) (h2 : x.key ≤ hi.key) :
    x.absBits < infBits := by
  have e1 := absBits_eq x
  have e2 := absBits_eq lo
  have e3 := absBits_eq hi
  have := neg_abs_le lo.key
  have := le_abs_self hi.key
  rcases abs_cases x.key with ⟨h, -⟩ | ⟨h, -⟩ <;> omega

theorem nan_nan : nan.isNaN = true := by
  unfold isNaN nan
  rw [absBits_mk' _ (by unfold infBits; norm_num)]
  unfold infBits; norm_num

theorem add_nan {x y : F64} (h : x.isNaN = true ∨ y.isNaN = true) : (add x y).isNaN = true := by
  have e : add x y = nan := by
    unfold add
    rw [if_pos (by rcases h with h | h <;> simp [h])]
  rw [e, nan_nan]

theorem div_nan {x y : F64} (h : x.isNaN = true ∨ y.isNaN = true) : (div x y).isNaN = true := by
  have e : div x y = nan := by
    unfold div
    rw [if_pos (by rcases h with h | h <;> simp [h])]
  rw [e, nan_nan]

/-- The logarithm of a positive number up to 1 lies between -1000 and 0. -/
theorem log_unit' {x : F64} (hx : x.absBits < infBits) (h0 : 0 < x.val) (h1 : x.val ≤ 1) :
    (log x).absBits < infBits ∧ (log x).key ≤ 0 ∧ -1000 ≤ (log x).val := by
  obtain ⟨l1, l2⟩ := Libm.log_near x hx h0
  have hle := Real.log_nonpos h0.le h1
  have hu : (2 : ℝ) ^ (-52 : ℤ) ≤ 1 / 100 := by norm_num
  have hb : -745 ≤ Real.log x.val := by
    obtain ⟨n, hn⟩ := val_grid x
    have hn1 : 1 ≤ n := by
      by_contra hc
      have : (n : ℝ) ≤ 0 := by exact_mod_cast (by omega : n ≤ 0)
      have := mul_nonpos_of_nonpos_of_nonneg this (by positivity : (0 : ℝ) ≤ (2 : ℝ) ^ (-1074 : ℤ))
      linarith
    have hlo : (2 : ℝ) ^ (-1074 : ℤ) ≤ x.val := by
      rw [hn]
      exact le_mul_of_one_le_left (by positivity) (by exact_mod_cast hn1)
    have h2 := Real.log_le_log (by positivity) hlo
    rw [Real.log_zpow] at h2
    have := Real.log_two_lt_d9
    push_cast at h2
    linarith
  have hm := mul_le_mul_of_nonneg_right hu (abs_nonneg (Real.log x.val))
  rw [abs_of_nonpos hle] at l2 hm
  obtain ⟨a1, a2⟩ := abs_le.1 l2
  refine ⟨l1, ?_, ?_⟩
  · refine not_lt.1 fun hc => ?_
    have hp := val_pos.2 hc
    change 0 < (Libm.log x).val at hp
    generalize (2 : ℝ) ^ (-52 : ℤ) * -Real.log x.val = q at *
    linarith
  · change -1000 ≤ (Libm.log x).val
    generalize (2 : ℝ) ^ (-52 : ℤ) * -Real.log x.val = q at *
    linarith

theorem log_unit {x : F64} (hx : x.absBits < infBits) (h0 : 0 < x.val) (h1 : x.val ≤ 1) : (log x).absBits < infBits ∧ (log x).key ≤ 0 :=
  ⟨(log_unit' hx h0 h1).1, (log_unit' hx h0 h1).2.1⟩

/-- All float64s are multiples of 2^-1074. -/
theorem mag_multiple (b : Nat) : ∃ N : Nat, mag b = N * (2 : ℝ) ^ (-1074 : ℤ) := by
  unfold mag
  by_cases h : b / 2 ^ 52 = 0
  · exact ⟨_, by rw [if_pos h]⟩
  · refine ⟨(2 ^ 52 + b % 2 ^ 52) * 2 ^ (b / 2 ^ 52 - 1), ?_⟩
    have e : ((b / 2 ^ 52 : ℕ) : ℤ) - 1075 = ((b / 2 ^ 52 - 1 : ℕ) : ℤ) + -1074 := by omega
    rw [if_neg h, e, zpow_add₀ (by norm_num), zpow_natCast, Nat.cast_mul, Nat.cast_pow]
    push_cast
    ring

theorem key_of_val_zero {x : F64} (h : x.val = 0) : x.key = 0 :=
  le_antisymm (not_lt.1 fun hc => by have := val_pos.2 hc; linarith) (val_nonneg.1 h.ge)

/-- 1 - x for 0 < x < 1 lies in (0,1]. -/
theorem one_sub {one x : F64} (ho : one.absBits < infBits) (h1 : one.val = 1) (hx : x.absBits < infBits) (h0 : 0 < x.val) (hlt : x.val < 1) :
    (add one x.neg).absBits < infBits ∧ 0 < (add one x.neg).val ∧ (add one x.neg).val ≤ 1 := by
  have e : add one x.neg = round (one.sign && x.neg.sign) (1 - x.val) := by
    rw [add_fin ho (by rw [absBits_neg]; exact hx), val_neg, h1, sub_eq_add_neg]
  have hm : (2 : ℝ) ^ (-1074 : ℤ) ≤ 1 - x.val := by
    have hs : x.val = mag x.absBits := by
      unfold val
      by_cases hs : x.sign = true
      · have := mag_nonneg x.absBits
        unfold val at h0
        rw [if_pos hs] at h0
        linarith
      · rw [if_neg hs]
    obtain ⟨N, hN⟩ := mag_multiple x.absBits
    have hp : (0 : ℝ) < (2 : ℝ) ^ (-1074 : ℤ) := by positivity
    have e1 : (1 : ℝ) = ((2 ^ 1074 : ℕ) : ℝ) * (2 : ℝ) ^ (-1074 : ℤ) := by
      rw [zpow_neg, Nat.cast_pow, Nat.cast_ofNat, show (2 : ℝ) ^ (1074 : ℤ) = 2 ^ 1074 from zpow_natCast 2 1074, mul_inv_cancel₀ (by positivity)]
    rw [hs, hN, e1] at hlt
    have hNlt : N < 2 ^ 1074 := by
      have := lt_of_mul_lt_mul_right hlt hp.le
      exact_mod_cast this
    have h2 : ((N + 1 : ℕ) : ℝ) ≤ ((2 ^ 1074 : ℕ) : ℝ) := by exact_mod_cast hNlt
    have h3 := mul_le_mul_of_nonneg_right h2 hp.le
    rw [← e1] at h3
    rw [hs, hN]
    push_cast at h3
    linarith
  obtain ⟨t1, t2⟩ := scaled_exact (n := 1) (e := -1074) (by norm_num) (by norm_num) (by norm_num) (by
    rw [Nat.cast_one, one_mul]; exact zpow_lt_zpow_right₀ (by norm_num) (by norm_num))
  rw [Nat.cast_one, one_mul] at t1 t2
  have hlo : (round false ((2 : ℝ) ^ (-1074 : ℤ))).key ≤ (add one x.neg).key := by rw [e]; exact round_mono hm
  have hhi : (add one x.neg).key ≤ one.key := by rw [e]; exact round_le ho (by rw [h1]; linarith)
  refine ⟨fin_between t2 ho hlo hhi, ?_, by rw [← h1]; exact (val_le_iff _ _).2 hhi⟩
  have := (val_le_iff _ _).2 hlo
  rw [t1] at this
  exact lt_of_lt_of_le (by positivity) this

theorem round_zero_val (s : Bool) : (round s 0).val = 0 ∧ (round s 0).absBits < infBits := by
  have := absBits_eq (round s 0)
  rw [key_round_zero] at this
  have h0 : (round s 0).absBits = 0 := by simpa using this
  exact ⟨isZero_iff.1 (by unfold isZero; simp [h0]), by rw [h0]; unfold infBits; norm_num⟩

theorem round_val {x : F64} (hx : x.absBits < infBits) (s : Bool) : (round s x.val).val = x.val ∧ (round s x.val).absBits < infBits := by
  have hk := key_round_val (s := s) hx
  refine ⟨le_antisymm ((val_le_iff _ _).2 hk.le) ((val_le_iff _ _).2 hk.ge), ?_⟩
  have e1 := absBits_eq (round s x.val)
  have e2 := absBits_eq x
  rw [hk] at e1
  omega

/-- Finite, not negative, at most 2048 k. -/
def Upto (k : Nat) (x : F64) : Prop := x.absBits < infBits ∧ 0 ≤ x.val ∧ x.val ≤ k * 2048

theorem upto_add {k : Nat} {x y : F64} (hk : k + 1 < 2 ^ 53) (hx : Upto k x) (hy : Upto 1 y) : Upto (k + 1) (add x y) := by
  obtain ⟨x1, x2, x3⟩ := hx
  obtain ⟨y1, y2, y3⟩ := hy
  have e11 : (2 : ℝ) ^ (11 : ℤ) = 2048 := by norm_num
  obtain ⟨s1, s2⟩ := scaled_exact (n := k + 1) (e := 11) (by omega) hk (by norm_num) (by
    have h1 : ((k + 1 : ℕ) : ℝ) ≤ (2 : ℝ) ^ (53 : ℤ) := by exact_mod_cast hk.le
    refine (mul_le_mul_of_nonneg_right h1 (by positivity)).trans_lt ?_
    rw [← zpow_add₀ (by norm_num)]
    exact zpow_lt_zpow_right₀ (by norm_num) (by norm_num))
  rw [e11] at s1 s2
  rw [add_fin x1 y1]
  have hlo : 0 ≤ (round (x.sign && y.sign) (x.val + y.val)).key := round_nonneg (by linarith)
  have hhi : (round (x.sign && y.sign) (x.val + y.val)).key ≤ (round false (((k + 1 : ℕ) : ℝ) * 2048)).key :=
    round_le s2 (by rw [s1]; push_cast at y3 ⊢; linarith)
  exact ⟨fin_of_key s2 hlo hhi, val_nonneg.2 hlo, by rw [← s1]; exact (val_le_iff _ _).2 hhi⟩

/-- Dividing by a number that is at least 1. -/
theorem upto_div {x d : F64} (hx : Upto 1 x) (hd : d.absBits < infBits) (h1 : 1 ≤ d.val) : Upto 1 (div x d) := by
  obtain ⟨x1, x2, x3⟩ := hx
  rw [div_fin x1 hd (by linarith)]
  have hlo : 0 ≤ (round (x.sign != d.sign) (x.val / d.val)).key := round_nonneg (div_nonneg x2 (by linarith))
  have hhi : (round (x.sign != d.sign) (x.val / d.val)).key ≤ x.key := round_le x1 (div_le_self x2 h1)
  exact ⟨fin_of_key x1 hlo hhi, val_nonneg.2 hlo, ((val_le_iff _ _).2 hhi).trans x3⟩

/-- t y for t = 0 or t = 1. -/
theorem mul_bit {t y : F64} (ht : t.absBits < infBits) (hb : t.val = 0 ∨ t.val = 1) (hy : y.absBits < infBits) :
    (mul t y).absBits < infBits ∧ (mul t y).val = t.val * y.val := by
  rw [mul_fin ht hy]
  rcases hb with hb | hb
  · rw [hb, zero_mul]; exact ⟨(round_zero_val _).2, (round_zero_val _).1⟩
  · rw [hb, one_mul]; exact ⟨(round_val hy _).2, (round_val hy _).1⟩

theorem mul_bit' {t y : F64} (ht : t.absBits < infBits) (hb : t.val = 0 ∨ t.val = 1) (hy : y.absBits < infBits) :
    (mul y t).absBits < infBits ∧ (mul y t).val = y.val * t.val := by
  rw [mul_fin hy ht]
  rcases hb with hb | hb
  · rw [hb, mul_zero]; exact ⟨(round_zero_val _).2, (round_zero_val _).1⟩
  · rw [hb, mul_one]; exact ⟨(round_val hy _).2, (round_val hy _).1⟩

theorem inf_not_nan (s : Bool) : (inf s).isNaN = false := by
  rw [not_nan_iff]; unfold inf; rw [absBits_mk' _ infBits_lt]

/-- Dividing by a finite positive number. -/
theorem div_notnan {x d : F64} (hx : x.isNaN = false) (hd : d.absBits < infBits) (hp : 0 < d.val) :
    (div x d).isNaN = false ∧ (0 ≤ x.key → 0 ≤ (div x d).key) := by
  obtain ⟨d1, d2⟩ := not_special hd
  have hz : d.isZero = false := by rw [← Bool.not_eq_true, isZero_iff]; exact hp.ne'
  by_cases ix : x.isInf = true
  · have e : div x d = inf (x.sign != d.sign) := by
      unfold div
      rw [hx, d1, d2, ix, hz]; simp
    rw [e]
    refine ⟨inf_not_nan _, fun h0 => ?_⟩
    have hs : d.sign = false := by
      by_contra hc
      unfold val at hp
      rw [if_pos (by simpa using hc)] at hp
      have := mag_nonneg d.absBits
      linarith
    rw [(isInf_pos ix h0).1, hs]
    unfold inf
    rw [key_mk' _ infBits_lt]; simp
  · have fx := not_inf hx (by simpa using ix)
    rw [div_fin fx hd hp.ne']
    exact ⟨round_not_nan _ _, fun h0 => round_nonneg (div_nonneg (val_nonneg.2 h0) hp.le)⟩

theorem add_notnan {x y : F64} (hx : x.isNaN = false) (hy : y.isNaN = false) (h : x.isInf = false ∨ y.isInf = false) : (add x y).isNaN = false := by
  unfold add
  rw [hx, hy]
  by_cases ix : x.isInf = true
  · rcases h with h | h
    · rw [h] at ix; cases ix
    · rw [ix, h]; simp [hx]
  · by_cases iy : y.isInf = true
    · simp [ix, iy, hy]
    · simp [ix, iy, round_not_nan]

/-- 0 times infinity. -/
theorem zero_mul_log_zero {x y : F64} (hx : x.absBits < infBits) (h0 : x.val = 0) (_hy : y.absBits < infBits) (h1 : y.val = 0) :
    (mul x (log y)).isNaN = true := by
  have hl : log y = inf true := Libm.log_zero y (isZero_iff.2 h1)
  have hi : (inf true).isInf = true := by unfold inf isInf; rw [absBits_mk' _ infBits_lt]; simp
  have e : mul x (inf true) = nan := by
    unfold mul
    rw [(not_special hx).1, inf_not_nan, isZero_iff.2 h0, hi]; simp
  rw [hl, e, nan_nan]

theorem div_zero_zero {x y : F64} (hx : x.absBits < infBits) (h0 : x.val = 0) (hy : y.absBits < infBits) (h1 : y.val = 0) :
    (div x y).isNaN = true := by
  have e : div x y = nan := by
    unfold div
    rw [(not_special hx).1, (not_special hy).1, isZero_iff.2 h0, isZero_iff.2 h1]; simp
  rw [e, nan_nan]

/-- 1 - x for x = 0 and x = 1. -/
theorem one_sub_bit {one x : F64} (ho : one.absBits < infBits) (h1 : one.val = 1) (hx : x.absBits < infBits) (hb : x.val = 0 ∨ x.val = 1) :
    (add one x.neg).absBits < infBits ∧ (add one x.neg).val = 1 - x.val := by
  rw [add_fin ho (by rw [absBits_neg]; exact hx), val_neg, h1, ← sub_eq_add_neg]
  rcases hb with hb | hb
  · rw [hb, sub_zero, round_ne (s' := false) (by norm_num)]
    have := ofInt_exact 1 (by norm_num) (by norm_num)
    rw [Int.cast_one] at this
    exact ⟨this.2, this.1⟩
  · rw [hb, sub_self]
    exact ⟨(round_zero_val _).2, (round_zero_val _).1⟩

end F64

theorem clipV_unit {p : F64} (hp : p.absBits < infBits) (h0 : 0 ≤ p.val) (h1 : p.val ≤ 1) : clipV p = p := by
  obtain ⟨o1, o2⟩ := f64_int (n := 1) (by norm_num) (by norm_num)
  obtain ⟨z1, z2⟩ := f64_int (n := 0) (by norm_num) (by norm_num)
  unfold clipV
  have a : Flt.lt p (Flt.zero : F64) = false := by
    change F64.lt _ _ = _
    unfold F64.lt
    rw [decide_eq_false (by rw [← F64.val_lt_iff, z1]; push_cast; linarith)]; simp
  have b : Flt.lt (Flt.one : F64) p = false := by
    change F64.lt _ _ = _
    unfold F64.lt
    rw [decide_eq_false (by rw [← F64.val_lt_iff, o1]; push_cast; linarith)]; simp
  rw [a, b]; simp

/-- A target: 0 or 1. -/
def IsBit (t : F64) : Prop := t.absBits < infBits ∧ (t.val = 0 ∨ t.val = 1)

/-- The contribution of one position is NaN if the prediction is right and certain. -/
theorem bceTerm_nan {r c : Int} {p t : F64} (ht : IsBit t) (hp : p.absBits < infBits) (he : p.val = t.val) : (bceTerm c r p t).isNaN = true := by
  obtain ⟨o1, o2⟩ := f64_int (n := 1) (by norm_num) (by norm_num)
  rw [Int.cast_one] at o1
  obtain ⟨tf, tb⟩ := ht
  unfold bceTerm
  refine F64.div_nan (.inl (F64.div_nan (.inl ?_)))
  change (F64.neg _).isNaN = true
  rw [F64.isNaN_neg]
  rcases tb with h | h
  · exact F64.add_nan (.inl (F64.zero_mul_log_zero tf h hp (by rw [he, h])))
  · obtain ⟨a1, a2⟩ := F64.one_sub_bit o2 o1 tf (.inr h)
    obtain ⟨b1, b2⟩ := F64.one_sub_bit o2 o1 hp (.inr (by rw [he, h]))
    rw [h, sub_self] at a2
    rw [he, h, sub_self] at b2
    exact F64.add_nan (.inr (F64.zero_mul_log_zero a1 a2 b1 b2))

theorem bceTerm_ok {r c : Nat} (hr : 0 < r) (hr' : r ≤ 2 ^ 53) (hc : 0 < c) (hc' : c ≤ 2 ^ 53) {p t : F64} (ht : IsBit t) (hp : p.absBits < infBits)
    (h0 : 0 < p.val) (h1 : p.val < 1) : F64.Upto 1 (bceTerm (c : Int) (r : Int) p t) := by
  obtain ⟨o1, o2⟩ := f64_int (n := 1) (by norm_num) (by norm_num)
  rw [Int.cast_one] at o1
  obtain ⟨r1, r2⟩ := f64_int (n := (r : Int)) (by omega) (by omega)
  obtain ⟨c1, c2⟩ := f64_int (n := (c : Int)) (by omega) (by omega)
  obtain ⟨tf, tb⟩ := ht
  obtain ⟨q1, q2, q3⟩ := F64.one_sub o2 o1 hp h0 h1
  obtain ⟨u1, u2⟩ := F64.one_sub_bit o2 o1 tf tb
  obtain ⟨l1, l2, l3⟩ := F64.log_unit' hp h0 h1.le
  obtain ⟨k1, k2, k3⟩ := F64.log_unit' q1 q2 q3
  obtain ⟨m1, m2⟩ := F64.mul_bit tf tb l1
  obtain ⟨n1, n2⟩ := F64.mul_bit u1 (by rcases tb with h | h <;> rw [u2, h] <;> norm_num) k1
  have lv : (F64.log p).val ≤ 0 := not_lt.1 fun hc => by have := F64.val_pos.1 hc; omega
  have kv : (F64.log (F64.add Flt.one p.neg)).val ≤ 0 := not_lt.1 fun hc => absurd (F64.val_pos.1 hc) (not_lt.2 k2)
  have hs : F64.Upto 1 (F64.neg (F64.add (F64.mul t (F64.log p)) (F64.mul (F64.add Flt.one t.neg) (F64.log (F64.add Flt.one p.neg))))) := by
    unfold F64.Upto
    rw [F64.absBits_neg, F64.val_neg, F64.add_fin m1 n1, m2, n2, u2]
    rcases tb with h | h
    · rw [h, zero_mul, zero_add, sub_zero, one_mul, (F64.round_val k1 _).1]
      exact ⟨(F64.round_val k1 _).2, by linarith, by push_cast; linarith⟩
    · rw [h, sub_self, zero_mul, add_zero, one_mul, (F64.round_val l1 _).1]
      exact ⟨(F64.round_val l1 _).2, by linarith, by push_cast; linarith⟩
  exact F64.upto_div (F64.upto_div hs r2 (by rw [r1]; exact_mod_cast hr)) c2 (by rw [c1]; exact_mod_cast hc)

/-- Sums with a NaN are NaN. -/
theorem fsum2_nan {r c i j : Nat} {f : Nat → Nat → F64} (hi : i < r) (hj : j < c) (h : (f i j).isNaN = true) : (fsum2 r c f).isNaN = true := by
  have keep : ∀ (n k : Nat) (s : F64), s.isNaN = true → (accN n (fun j s => s +. f k j) s).isNaN = true := fun n k s hs => by
    induction n with
    | zero => exact hs
    | succ n ih => exact F64.add_nan (.inl ih)
  have hit : ∀ (n : Nat) (s : F64), j < n → (accN n (fun j s => s +. f i j) s).isNaN = true := fun n s => by
    induction n with
    | zero => intro hn; omega
    | succ n ih =>
      intro hn
      rcases Nat.lt_succ_iff_lt_or_eq.1 hn with h' | rfl
      · exact F64.add_nan (.inl (ih h'))
      · exact F64.add_nan (.inr h)
  unfold fsum2
  induction r with
  | zero => omega
  | succ r ih =>
    rcases Nat.lt_succ_iff_lt_or_eq.1 hi with h' | rfl
    · exact keep c r _ (ih h')
    · exact hit c _ hj

theorem upto_zero : F64.Upto 0 Flt.zero := by
  obtain ⟨z1, z2⟩ := f64_int (n := 0) (by norm_num) (by norm_num)
  exact ⟨z2, by rw [z1]; norm_num, by rw [z1]; norm_num⟩

theorem fsum2_ok {r c : Nat} (hrc : r * c < 2 ^ 53) {f : Nat → Nat → F64} (h : ∀ i j, i < r → j < c → F64.Upto 1 (f i j)) :
    F64.Upto (r * c) (fsum2 r c f) := by
  have row : ∀ (n k q : Nat) (s : F64), k < r → n ≤ c → q + c < 2 ^ 53 → F64.Upto q s → F64.Upto (q + n) (accN n (fun j s => s +. f k j) s) :=
      fun n k q s hk hn hq hs => by
    induction n with
    | zero => exact hs
    | succ n ih => exact F64.upto_add (k := q + n) (by omega) (ih (by omega)) (h k n hk (by omega))
  have all : ∀ n, n ≤ r → F64.Upto (n * c) (accN n (fun i s => accN c (fun j s => s +. f i j) s) (Flt.zero : F64)) := fun n => by
    induction n with
    | zero => intro _; rw [Nat.zero_mul]; exact upto_zero
    | succ n ih =>
      intro hn
      have h1 : n * c + c ≤ r * c := by rw [← Nat.succ_mul]; exact Nat.mul_le_mul_right _ hn
      rw [Nat.succ_mul]
      exact row c n (n * c) _ (by omega) le_rfl (by omega) (ih (by omega))
  exact all r le_rfl

/-- C85, the claim: for predictions in [0,1] and targets 0 or 1 neither the binary cross-entropy nor any entry of its gradient is NaN. -/
def C85_claim : Prop := ∀ (w : World F64) (a b : Mat) (r c : Nat) (A B : Nat → Nat → F64), IsMat w a r c A → DistinctRows w a r → IsMat w b r c B →
  (∀ x, w.IsRow b r x → ¬ w.IsRow a r x) → r * c < 2 ^ 53 →
  (∀ i j, i < r → j < c → (A i j).absBits < infBits ∧ 0 ≤ (A i j).val ∧ (A i j).val ≤ 1 ∧ IsBit (B i j)) →
  wp (Loss.forward ⟨.bce, c⟩ a b) w (fun p _ => p.2 = none ∧ p.1.isNaN = false) ∧
  wp (Loss.backward ⟨.bce, c⟩ a b) w (fun p w' => p.2 = none ∧ ∃ V, IsMat w' p.1 r c V ∧ ∀ i j, i < r → j < c → (V i j).isNaN = false)

/-- C85, what holds: the claim for predictions strictly between 0 and 1; the loss is also finite and not negative.  Missing: the predictions 0 and 1. -/
theorem C85_bce_partial (w : World F64) (a b : Mat) (r c : Nat) (A B : Nat → Nat → F64) (hA : IsMat w a r c A) (hd : DistinctRows w a r)
    (hB : IsMat w b r c B) (hdis : ∀ x, w.IsRow b r x → ¬ w.IsRow a r x) (hrc : r * c < 2 ^ 53)
    (hin : ∀ i j, i < r → j < c → (A i j).absBits < infBits ∧ 0 < (A i j).val ∧ (A i j).val < 1 ∧ IsBit (B i j)) :
    wp (Loss.forward ⟨.bce, c⟩ a b) w (fun p _ => p.2 = none ∧ p.1.absBits < infBits ∧ 0 ≤ p.1.val) ∧
    wp (Loss.backward ⟨.bce, c⟩ a b) w (fun p w' => p.2 = none ∧ ∃ V, IsMat w' p.1 r c V ∧ ∀ i j, i < r → j < c → (V i j).isNaN = false) := by
  have hr : r ≤ 2 ^ 53 := (Nat.le_mul_of_pos_right r hA.cpos).trans hrc.le
  have hc : c ≤ 2 ^ 53 := (Nat.le_mul_of_pos_left c hA.rpos).trans hrc.le
  obtain ⟨z1, z2⟩ := f64_int (n := 0) (by norm_num) (by norm_num)
  obtain ⟨o1, o2⟩ := f64_int (n := 1) (by norm_num) (by norm_num)
  rw [Int.cast_one] at o1
  obtain ⟨r1, r2⟩ := f64_int (n := (r : Int)) (by omega) (by omega)
  obtain ⟨c1, c2⟩ := f64_int (n := (c : Int)) (by omega) (by omega)
  have rp : 0 < (Flt.ofInt (r : Int) : F64).val := by rw [r1]; exact_mod_cast hA.rpos
  have cp : 0 < (Flt.ofInt (c : Int) : F64).val := by rw [c1]; exact_mod_cast hA.cpos
  constructor
  · refine wp_mono (bceForward_spec hA hd hB (Nat.le_refl _) hdis) ?_
    rintro ⟨v, e⟩ w' ⟨he, -, hv⟩
    dsimp only at he hv ⊢
    refine ⟨he, ?_⟩
    rw [hv]
    obtain ⟨s1, s2, -⟩ := fsum2_ok (r := r) (c := c) hrc (f := fun i j => bceTerm (c : Int) (r : Int) (clipV (A i j)) (B i j)) fun i j hi hj => by
      obtain ⟨h1, h2, h3, h4⟩ := hin i j hi hj
      rw [clipV_unit h1 h2.le h3.le]
      exact bceTerm_ok hA.rpos hr hA.cpos hc h4 h1 h2 h3
    exact ⟨s1, s2⟩
  · refine wp_mono (bceBackward_spec hA hd hB (Nat.le_refl _) hdis) ?_
    rintro ⟨p, e⟩ w' ⟨he, -, -, -, w0, -, h⟩
    refine ⟨he, _, h.mat, fun i j hi hj => ?_⟩
    obtain ⟨h1, h2, h3, h4f, h4b⟩ := hin i j hi hj
    rw [clipV_unit h1 h2.le h3.le]
    obtain ⟨q1, q2, q3⟩ := F64.one_sub o2 o1 h1 h2 h3
    obtain ⟨u1, u2⟩ := F64.one_sub_bit o2 o1 h4f h4b
    have x1 := (F64.div_notnan (F64.not_special h4f).1 h1 h2).1
    have y1 := (F64.div_notnan (F64.not_special u1).1 q1 q2).1
    have hzero : ∀ x d : F64, x.absBits < infBits → x.val = 0 → d.absBits < infBits → 0 < d.val → (F64.div x d).isInf = false := fun x d hx h0 hd hp => by
      rw [F64.div_fin hx hd hp.ne', h0, zero_div]
      have := F64.absBits_eq (F64.round (x.sign != d.sign) 0)
      rw [F64.key_round_zero] at this
      unfold F64.isInf infBits; simp at this ⊢; omega
    have hs : (F64.add (F64.div (B i j) (A i j)) (F64.neg (F64.div (F64.add Flt.one (F64.neg (B i j))) (F64.add Flt.one (F64.neg (A i j)))))).isNaN = false := by
      refine F64.add_notnan x1 (by rw [F64.isNaN_neg]; exact y1) ?_
      rcases h4b with hb | hb
      · exact .inl (hzero _ _ h4f hb h1 h2)
      · right
        have : (F64.neg (F64.div (F64.add Flt.one (F64.neg (B i j))) (F64.add Flt.one (F64.neg (A i j))))).isInf =
            (F64.div (F64.add Flt.one (F64.neg (B i j))) (F64.add Flt.one (F64.neg (A i j)))).isInf := by
          unfold F64.isInf; rw [F64.absBits_neg]
        rw [this]
        exact hzero _ _ u1 (by rw [u2, hb, sub_self]) q1 q2
    exact (F64.div_notnan (F64.div_notnan (x := F64.neg _) (by rw [F64.isNaN_neg]; exact hs) c2 cp).1 r2 rp).1

/-- C85: one prediction that is right and certain (0 for the target 0 or 1 for the target 1) makes the whole loss NaN, and its entry of the
gradient too; the other predictions may be anything. -/
theorem C85_certain (w : World F64) (a b : Mat) (r c : Nat) (A B : Nat → Nat → F64) (hA : IsMat w a r c A) (hd : DistinctRows w a r)
    (hB : IsMat w b r c B) (hdis : ∀ x, w.IsRow b r x → ¬ w.IsRow a r x) (i j : Nat) (hi : i < r) (hj : j < c)
    (hp : (A i j).absBits < infBits) (ht : IsBit (B i j)) (he : (A i j).val = (B i j).val) :
    wp (Loss.forward ⟨.bce, c⟩ a b) w (fun p _ => p.2 = none ∧ p.1.isNaN = true) ∧
    wp (Loss.backward ⟨.bce, c⟩ a b) w (fun p w' => p.2 = none ∧ ∃ V, IsMat w' p.1 r c V ∧ (V i j).isNaN = true) := by
  obtain ⟨o1, o2⟩ := f64_int (n := 1) (by norm_num) (by norm_num)
  rw [Int.cast_one] at o1
  have hclip : clipV (A i j) = A i j := clipV_unit hp (by rcases ht.2 with h | h <;> rw [he, h]; norm_num) (by rcases ht.2 with h | h <;> rw [he, h]; norm_num)
  constructor
  · refine wp_mono (bceForward_spec hA hd hB (Nat.le_refl _) hdis) ?_
    rintro ⟨v, e⟩ w' ⟨he', -, hv⟩
    dsimp only at he' hv ⊢
    refine ⟨he', ?_⟩
    rw [hv]
    refine fsum2_nan hi hj ?_
    rw [hclip]
    exact bceTerm_nan ht hp he
  · refine wp_mono (bceBackward_spec hA hd hB (Nat.le_refl _) hdis) ?_
    rintro ⟨p, e⟩ w' ⟨he', -, -, -, w0, -, h⟩
    refine ⟨he', _, h.mat, ?_⟩
    rw [hclip]
    refine F64.div_nan (.inl (F64.div_nan (.inl ?_)))
    change (F64.neg _).isNaN = true
    rw [F64.isNaN_neg]
    obtain ⟨tf, tb⟩ := ht
    rcases tb with hb | hb
    · exact F64.add_nan (.inl (F64.div_zero_zero tf hb hp (by rw [he, hb])))
    · refine F64.add_nan (.inr ?_)
      change (F64.neg _).isNaN = true
      rw [F64.isNaN_neg]
      obtain ⟨a1, a2⟩ := F64.one_sub_bit o2 o1 tf (.inr hb)
      obtain ⟨b1, b2⟩ := F64.one_sub_bit o2 o1 hp (.inr (by rw [he, hb]))
      rw [hb, sub_self] at a2
      rw [he, hb, sub_self] at b2
      exact F64.div_zero_zero a1 a2 b1 b2

theorem C85_false : ¬ C85_claim := by
  intro h
  obtain ⟨o1, o2⟩ := f64_int (n := 1) (by norm_num) (by norm_num)
  rw [Int.cast_one] at o1
  obtain ⟨w, a, b, hA, hd, hB, -, hdis⟩ := exists_mat2 (α := F64) (r := 1) (c := 1) (r' := 1) (c' := 1) (by decide) (by decide) (by decide) (by decide)
    (fun _ _ => Flt.one) (fun _ _ => Flt.one)
  have h1 := (h w a b 1 1 _ _ hA hd hB (fun x hx hy => hdis x hy hx) (by norm_num) fun _ _ _ _ =>
    ⟨o2, by rw [o1]; norm_num, o1.le, o2, .inr o1⟩).1
  have h2 := (C85_certain w a b 1 1 _ _ hA hd hB (fun x hx hy => hdis x hy hx) 0 0 (by decide) (by decide) o2 ⟨o2, .inr o1⟩ rfl).1
  obtain ⟨p, w', -, ⟨-, e1⟩, -, e2⟩ := wp_iff.1 (wp_and h1 h2)
  rw [e1] at e2
  cases e2

/-- two predictions 1/2 for the targets 0 and 1 -/
example : ∃ (w : World F64) (a b : Mat) (A B : Nat → Nat → F64), IsMat w a 1 2 A ∧ DistinctRows w a 1 ∧ IsMat w b 1 2 B ∧
    (∀ x, w.IsRow b 1 x → ¬ w.IsRow a 1 x) ∧
    ∀ i j, i < 1 → j < 2 → (A i j).absBits < infBits ∧ 0 < (A i j).val ∧ (A i j).val < 1 ∧ IsBit (B i j) := by
  obtain ⟨s1, s2⟩ := F64.scaled_exact (n := 1) (e := -1) (by norm_num) (by norm_num) (by norm_num) (by
    rw [Nat.cast_one, one_mul]; exact zpow_lt_zpow_right₀ (by norm_num) (by norm_num))
  obtain ⟨w, a, b, hA, hd, hB, -, hdis⟩ := exists_mat2 (α := F64) (r := 1) (c := 2) (r' := 1) (c' := 2) (by decide) (by decide) (by decide) (by decide)
    (fun _ _ => F64.round false (((1 : ℕ) : ℝ) * 2 ^ (-1 : ℤ))) (fun _ j => Flt.ofInt (j : Int))
  refine ⟨w, a, b, _, _, hA, hd, hB, fun x hx hy => hdis x hy hx, fun i j _ hj => ⟨s2, by rw [s1]; norm_num, by rw [s1]; norm_num, ?_⟩⟩
  obtain ⟨j1, j2⟩ := f64_int (n := (j : Int)) (by omega) (by omega)
  refine ⟨j2, ?_⟩
  rw [j1]
  rcases (by omega : j = 0 ∨ j = 1) with rfl | rfl
  · left; norm_num
  · right; norm_num

/-- C85 for whole models: the last layer is a sigmoid layer, the loss the binary cross-entropy.  If for one sample the pre-activation is at
least 800 and the target 1 - the network is right and very sure - CalculateLoss returns NaN and no error. -/
theorem C85_model (w : World F64) (m : Model F64) (net : Net F64) (hN : IsNet w m net) (k : Nat) (hk : net.size = k + 1)
    (hl : m.loss = some ⟨.bce, (net.dim net.size : Nat)⟩) (hs : (net.L k).kind = .sigmoid) (x y : Mat) (d : DataSet F64)
    (hX : IsMat w x d.rows (net.dim 0) d.X) (hY : IsMat w y d.rows (net.dim net.size) d.Y) (i j : Nat) (hi : i < d.rows) (hj : j < net.dim net.size)
    (hf : (preact (net.L k) (netOut net d.X k) i j).absBits < infBits) (hbig : 800 ≤ (preact (net.L k) (netOut net d.X k) i j).val)
    (ht : (d.Y i j).absBits < infBits ∧ (d.Y i j).val = 1) :
    wp (calculateLoss m x y) w fun p _ => p.2 = none ∧ p.1.isNaN = true := by
  refine wp_mono (C81_loss w m net hN (by omega) _ hl rfl x y d hX hY) ?_
  rintro p w' ⟨rfl, -⟩
  refine ⟨rfl, ?_⟩
  obtain ⟨o1, o2⟩ := f64_int (n := 1) (by norm_num) (by norm_num)
  rw [Int.cast_one] at o1
  obtain ⟨v1, v2⟩ := sigmoid_one hf hbig
  have hout : netOut net d.X net.size i j = Flt.one /. (Flt.one +. Flt.exp (Flt.neg (preact (net.L k) (netOut net d.X k) i j))) := by
    rw [hk]
    change infer (net.L k) (netOut net d.X k) i j = _
    unfold infer actRow
    rw [hs]
  have hsum := fsum2_nan (r := d.rows) (c := net.dim net.size)
    (f := fun i j => bceTerm ((net.dim net.size : Nat) : Int) (d.rows : Int) (clipV (netOut net d.X net.size i j)) (d.Y i j)) hi hj (by
      rw [hout, clipV_unit v2 (by rw [v1]; norm_num) v1.le]
      exact bceTerm_nan ⟨ht.1, .inr ht.2⟩ v2 (by rw [v1, ht.2]))
  rw [fsum2_sum2] at hsum
  exact hsum

/-- Weight 800, bias 0, input 1, target 1. -/
example : ∃ (w : World F64) (m : Model F64) (net : Net F64) (x y : Mat) (d : DataSet F64), IsNet w m net ∧ net.size = 1 ∧
    m.loss = some ⟨.bce, (net.dim net.size : Nat)⟩ ∧ (net.L 0).kind = .sigmoid ∧ IsMat w x d.rows (net.dim 0) d.X ∧
    IsMat w y d.rows (net.dim net.size) d.Y ∧ d.rows = 1 ∧ net.dim net.size = 1 ∧
    (preact (net.L 0) (netOut net d.X 0) 0 0).absBits < infBits ∧ 800 ≤ (preact (net.L 0) (netOut net d.X 0) 0 0).val ∧
    (d.Y 0 0).absBits < infBits ∧ (d.Y 0 0).val = 1 := by
  obtain ⟨w, net, x, h1, h2, h3, h4, -, h6, -⟩ := exists_net (α := F64) 1
    (fun _ => ⟨.sigmoid, 1, 1, fun _ _ => Flt.ofInt 800, fun _ => Flt.ofInt 0, Flt.zero, Flt.zero⟩)
    (fun _ => ⟨Nat.one_pos, Nat.one_pos⟩) (fun _ => rfl) { newModel with loss := some ⟨.bce, 1⟩ } Nat.one_pos (fun _ _ => Flt.ofInt 1)
  have hd : ∀ k, net.dim k = 1 := fun k => by rw [h3]
  obtain ⟨o1, o2⟩ := f64_int (n := 1) (by norm_num) (by norm_num)
  obtain ⟨e1, e2⟩ := f64_int (n := 800) (by norm_num) (by norm_num)
  have hp : preact (net.L 0) (netOut net (fun _ _ => Flt.ofInt 1) 0) 0 0 = Flt.ofInt 800 := by
    rw [h2]
    change ((Flt.ofInt 0 +. (Flt.ofInt 1 *. Flt.ofInt 800)) +. Flt.ofInt 0 : F64) = _
    rw [f64_mul _ _ (by norm_num) (by norm_num) (by norm_num), f64_add _ _ (by norm_num) (by norm_num), f64_add _ _ (by norm_num) (by norm_num)]
    rfl
  refine ⟨w, _, net, x, x, ⟨1, fun _ _ => Flt.ofInt 1, fun _ _ => Flt.ofInt 1⟩, h4, h1, ?_, by rw [h2], h6, ?_, rfl, hd _, ?_, ?_, o2, ?_⟩
  · rw [hd]; rfl
  · have e : net.dim net.size = net.dim 0 := by rw [hd, hd]
    rw [e]; exact h6
  · rw [hp]; exact e2
  · rw [hp, e1]; norm_num
  · rw [o1]; norm_num

/-! ## Cross-entropy -/

/-- A one-hot row of length c: a 1 in column k, 0 elsewhere. -/
def OneHotRow (c k : Nat) (b : Nat → F64) : Prop := k < c ∧ ∀ j, j < c → (b j).absBits < infBits ∧ (b j).val = if j = k then 1 else 0

/-- The inner product with a one-hot row is exact. -/
theorem fsum_onehot {c k : Nat} {p b : Nat → F64} (hb : OneHotRow c k b) (hp : ∀ j, j < c → (p j).absBits < infBits) :
    (fsum c fun j => p j *. b j).absBits < infBits ∧ (fsum c fun j => p j *. b j).val = (p k).val := by
  have all : ∀ n, n ≤ c → (fsum n fun j => p j *. b j).absBits < infBits ∧ (fsum n fun j => p j *. b j).val = if k < n then (p k).val else 0 := fun n => by
    induction n with
    | zero =>
      intro _
      obtain ⟨z1, z2⟩ := f64_int (n := 0) (by norm_num) (by norm_num)
      exact ⟨z2, by change (Flt.ofInt 0 : F64).val = _; rw [z1]; simp⟩
    | succ n ih =>
      intro hn
      obtain ⟨i1, i2⟩ := ih (by omega)
      obtain ⟨b1, b2⟩ := hb.2 n (by omega)
      obtain ⟨m1, m2⟩ := F64.mul_bit' (y := p n) b1 (by rw [b2]; split_ifs <;> simp) (hp n (by omega))
      change (F64.add _ (F64.mul (p n) (b n))).absBits < _ ∧ (F64.add _ (F64.mul (p n) (b n))).val = _
      rw [F64.add_fin i1 m1, i2, m2, b2]
      rcases lt_trichotomy k n with h | rfl | h
      · rw [if_pos h, if_neg (by omega), if_pos (by omega), mul_zero, add_zero]
        exact ⟨(F64.round_val (hp k (by omega)) _).2, (F64.round_val (hp k (by omega)) _).1⟩
      · rw [if_neg (lt_irrefl _), if_pos rfl, if_pos (by omega), mul_one, zero_add]
        exact ⟨(F64.round_val (hp k (by omega)) _).2, (F64.round_val (hp k (by omega)) _).1⟩
      · rw [if_neg (by omega), if_neg (by omega), if_neg (by omega), mul_zero, add_zero]
        exact ⟨(F64.round_zero_val _).2, (F64.round_zero_val _).1⟩
  have := all c le_rfl
  rwa [if_pos hb.1] at this

/-- Minus the logarithm of 0 is plus infinity, also after a division. -/
theorem neglog_zero {x d : F64} (_hx : x.absBits < infBits) (h0 : x.val = 0) (hd : d.absBits < infBits) (hp : 0 < d.val) :
    (F64.div (F64.neg (F64.log x)) d).isNaN = false ∧ (F64.div (F64.neg (F64.log x)) d).key = infBits := by
  have hl : F64.log x = F64.inf true := Libm.log_zero x (F64.isZero_iff.2 h0)
  obtain ⟨d1, d2⟩ := F64.not_special hd
  have hs : d.sign = false := by
    by_contra hc
    unfold F64.val at hp
    rw [if_pos (by simpa using hc)] at hp
    have := F64.mag_nonneg d.absBits
    linarith
  have hz : d.isZero = false := by rw [← Bool.not_eq_true, F64.isZero_iff]; exact hp.ne'
  have hi : (F64.neg (F64.inf true)).isInf = true := by
    unfold F64.isInf; rw [F64.absBits_neg]; unfold F64.inf; rw [F64.absBits_mk' _ F64.infBits_lt]; simp
  have hsg : (F64.neg (F64.inf true)).sign = false := by
    rw [F64.sign_neg]; unfold F64.inf; rw [F64.sign_mk' _ F64.infBits_lt]; simp
  have e : F64.div (F64.neg (F64.log x)) d = F64.inf false := by
    rw [hl]
    unfold F64.div
    rw [F64.isNaN_neg, F64.inf_not_nan, d1, d2, hi, hsg, hs, hz]; simp
  rw [e]
  refine ⟨F64.inf_not_nan _, ?_⟩
  unfold F64.inf
  rw [F64.key_mk' _ F64.infBits_lt]; simp

/-- C86: cross-entropy for predictions in [0,1] and one-hot targets: no error, never NaN, never negative, and infinite exactly if some
sample gives probability 0 to its class - whatever the clipping. -/
theorem C86_ce_loss (w : World F64) (a b : Mat) (r c : Nat) (A B : Nat → Nat → F64) (hA : IsMat w a r c A) (hd : DistinctRows w a r)
    (hB : IsMat w b r c B) (hdis : ∀ x, w.IsRow b r x → ¬ w.IsRow a r x) (hr : r < 2 ^ 53) (cls : Nat → Nat)
    (hp : ∀ i j, i < r → j < c → (A i j).absBits < infBits ∧ 0 ≤ (A i j).val ∧ (A i j).val ≤ 1) (ht : ∀ i, i < r → OneHotRow c (cls i) (B i)) :
    wp (Loss.forward ⟨.ce, c⟩ a b) w (fun p _ => p.2 = none ∧ Flt.le Flt.zero p.1 = true ∧
      (p.1.isInf = true ↔ ∃ i, i < r ∧ (A i (cls i)).val = 0)) := by
  obtain ⟨z1, z2⟩ := f64_int (n := 0) (by norm_num) (by norm_num)
  obtain ⟨r1, r2⟩ := f64_int (n := (r : Int)) (by omega) (by omega)
  have rp : 1 ≤ (Flt.ofInt (r : Int) : F64).val := by rw [r1]; exact_mod_cast hA.rpos
  refine wp_mono (ceForward_spec hA hd hB (Nat.le_refl _) hdis) ?_
  rintro ⟨v, e⟩ w' ⟨he, -, -, hv⟩
  dsimp only at he hv ⊢
  refine ⟨he, ?_⟩
  have hrow : ∀ i, i < r → (fsum c fun j => clipV (A i j) *. B i j).absBits < infBits ∧ (fsum c fun j => clipV (A i j) *. B i j).val = (A i (cls i)).val :=
      fun i hi => by
    have := fsum_onehot (p := fun j => clipV (A i j)) (ht i hi) fun j hj => by
      obtain ⟨h1, h2, h3⟩ := hp i j hi hj
      rw [clipV_unit h1 h2 h3]; exact h1
    obtain ⟨h1, h2, h3⟩ := hp i _ hi (ht i hi).1
    rwa [clipV_unit h1 h2 h3] at this
  -- the terms
  have hzero : ∀ i, i < r → (A i (cls i)).val = 0 →
      (Flt.neg (Flt.log (fsum c fun j => clipV (A i j) *. B i j)) /. Flt.ofInt (r : Int) : F64).isNaN = false ∧
      (Flt.neg (Flt.log (fsum c fun j => clipV (A i j) *. B i j)) /. Flt.ofInt (r : Int) : F64).key = infBits := fun i hi h0 =>
    neglog_zero (hrow i hi).1 ((hrow i hi).2.trans h0) r2 (by linarith)
  have hpos : ∀ i, i < r → (A i (cls i)).val ≠ 0 →
      F64.Upto 1 (Flt.neg (Flt.log (fsum c fun j => clipV (A i j) *. B i j)) /. Flt.ofInt (r : Int) : F64) := fun i hi h0 => by
    obtain ⟨h1, h2, h3⟩ := hp i _ hi (ht i hi).1
    obtain ⟨l1, l2, l3⟩ := F64.log_unit' (hrow i hi).1 (by rw [(hrow i hi).2]; exact lt_of_le_of_ne h2 (Ne.symm h0)) (by rw [(hrow i hi).2]; exact h3)
    have lv := not_lt.1 fun hc => absurd (F64.val_pos.1 hc) (not_lt.2 l2)
    refine F64.upto_div (x := F64.neg (F64.log _)) ⟨by rw [F64.absBits_neg]; exact l1, ?_, ?_⟩ r2 rp
    · rw [F64.val_neg]; linarith
    · rw [F64.val_neg]; push_cast; linarith
  have hok : ∀ i, i < r → (Flt.neg (Flt.log (fsum c fun j => clipV (A i j) *. B i j)) /. Flt.ofInt (r : Int) : F64).isNaN = false ∧
      0 ≤ (Flt.neg (Flt.log (fsum c fun j => clipV (A i j) *. B i j)) /. Flt.ofInt (r : Int) : F64).key := fun i hi => by
    by_cases h0 : (A i (cls i)).val = 0
    · exact ⟨(hzero i hi h0).1, by rw [(hzero i hi h0).2]; positivity⟩
    · obtain ⟨u1, u2, -⟩ := hpos i hi h0
      exact ⟨(F64.not_special u1).1, F64.val_nonneg.1 u2⟩
  generalize hg : (fun i => (Flt.neg (Flt.log (fsum c fun j => clipV (A i j) *. B i j)) /. Flt.ofInt (r : Int) : F64)) = g at hv
  have eg : ∀ i, (Flt.neg (Flt.log (fsum c fun j => clipV (A i j) *. B i j)) /. Flt.ofInt (r : Int) : F64) = g i := fun i => congrFun hg i
  simp only [eg] at hzero hpos hok
  -- the sum
  have hsum : ∀ n, n ≤ r → (fsum n g).isNaN = false ∧ 0 ≤ (fsum n g).key ∧ ∀ i, i < n → (g i).key ≤ (fsum n g).key := fun n => by
    induction n with
    | zero => exact fun _ => ⟨(F64.not_special z2).1, F64.val_nonneg.1 (by change 0 ≤ (Flt.ofInt 0 : F64).val; rw [z1]; norm_num), fun i hi => by omega⟩
    | succ n ih =>
      intro hn
      obtain ⟨i1, i2, i3⟩ := ih (by omega)
      obtain ⟨f1, f2⟩ := hok n (by omega)
      obtain ⟨a1, a2, a3⟩ := F64.add_ok i1 f1 i2 f2
      refine ⟨a1, i2.trans a2, fun i hi => ?_⟩
      rcases Nat.lt_succ_iff_lt_or_eq.1 hi with h | rfl
      · exact (i3 i h).trans a2
      · exact a3
  obtain ⟨s1, s2, s3⟩ := hsum r le_rfl
  rw [hv]
  refine ⟨le_iff.2 ⟨(F64.not_special z2).1, s1, by rw [F64.key_of_val_zero (x := Flt.zero) (by rw [z1]; norm_num)]; exact s2⟩, fun hi => ?_, ?_⟩
  · by_contra hc
    push Not at hc
    have hfin : ∀ n, n ≤ r → F64.Upto n (fsum n g) := fun n => by
      induction n with
      | zero => exact fun _ => upto_zero
      | succ n ih => exact fun hn => F64.upto_add (by omega) (ih (by omega)) (hpos n (by omega) (hc n (by omega)))
    rw [(F64.not_special (hfin r le_rfl).1).2] at hi
    cases hi
  · rintro ⟨i, hi, h0⟩
    have h1 := s3 i hi
    rw [(hzero i hi h0).2] at h1
    have h2 := (F64.key_le_inf s1).1
    have h3 := F64.absBits_eq (fsum r g)
    rw [abs_of_nonneg s2] at h3
    unfold F64.isInf
    simp
    omega

/-- two samples with three classes, predictions 0, 1, 0 -/
example : ∃ (w : World F64) (a b : Mat) (A B : Nat → Nat → F64) (cls : Nat → Nat), IsMat w a 2 3 A ∧ DistinctRows w a 2 ∧ IsMat w b 2 3 B ∧
    (∀ x, w.IsRow b 2 x → ¬ w.IsRow a 2 x) ∧ (∀ i j, i < 2 → j < 3 → (A i j).absBits < infBits ∧ 0 ≤ (A i j).val ∧ (A i j).val ≤ 1) ∧
    (∀ i, i < 2 → OneHotRow 3 (cls i) (B i)) ∧ (∃ i, i < 2 ∧ (A i (cls i)).val = 0) ∧ ∃ i, i < 2 ∧ (A i (cls i)).val ≠ 0 := by
  obtain ⟨w, a, b, hA, hd, hB, -, hdis⟩ := exists_mat2 (α := F64) (r := 2) (c := 3) (r' := 2) (c' := 3) (by decide) (by decide) (by decide) (by decide)
    (fun _ j => Flt.ofInt (if j = 1 then 1 else 0)) (fun i j => Flt.ofInt (if j = i then 1 else 0))
  have hv : ∀ P : Prop, [Decidable P] → (Flt.ofInt (if P then 1 else 0) : F64).absBits < infBits ∧ (Flt.ofInt (if P then 1 else 0) : F64).val = if P then 1 else 0 := by
    intro P _
    obtain ⟨v1, v2⟩ := f64_int (n := if P then 1 else 0) (by split_ifs <;> norm_num) (by split_ifs <;> norm_num)
    exact ⟨v2, by rw [v1]; split_ifs <;> norm_num⟩
  refine ⟨w, a, b, _, _, fun i => i, hA, hd, hB, fun x hx hy => hdis x hy hx, fun i j _ _ => ⟨(hv _).1, ?_, ?_⟩, fun i hi => ⟨hi.trans (by decide), fun j _ => hv _⟩,
    ⟨0, by decide, ?_⟩, ⟨1, by decide, ?_⟩⟩
  · rw [(hv _).2]; split_ifs <;> norm_num
  · rw [(hv _).2]; split_ifs <;> norm_num
  · rw [(hv _).2]; norm_num
  · rw [(hv _).2]; norm_num

/-- C87, the claim: for predictions in [0,1] and one-hot targets no entry of the gradient of the cross-entropy is NaN. -/
def C87_claim : Prop := ∀ (w : World F64) (a b : Mat) (r c : Nat) (A B : Nat → Nat → F64) (cls : Nat → Nat), IsMat w a r c A → IsMat w b r c B → r < 2 ^ 53 →
  (∀ i j, i < r → j < c → (A i j).absBits < infBits ∧ 0 ≤ (A i j).val ∧ (A i j).val ≤ 1) → (∀ i, i < r → OneHotRow c (cls i) (B i)) →
  wp (Loss.backward ⟨.ce, c⟩ a b) w (fun p w' => p.2 = none ∧ ∃ V, IsMat w' p.1 r c V ∧ ∀ i j, i < r → j < c → (V i j).isNaN = false)

/-- C87: a prediction 0 for a class that is not the target's - a right answer - has the gradient 0/0, NaN. -/
theorem C87_zero (w : World F64) (a b : Mat) (r c : Nat) (A B : Nat → Nat → F64) (hA : IsMat w a r c A) (hB : IsMat w b r c B) (i j : Nat)
    (hp : (A i j).absBits < infBits ∧ (A i j).val = 0) (ht : (B i j).absBits < infBits ∧ (B i j).val = 0) :
    wp (Loss.backward ⟨.ce, c⟩ a b) w (fun p w' => p.2 = none ∧ ∃ V, IsMat w' p.1 r c V ∧ (V i j).isNaN = true) := by
  refine wp_mono (ceBackward_spec hA hB (Nat.le_refl _)) ?_
  rintro ⟨p, e⟩ w' ⟨he, h⟩
  refine ⟨he, _, h.mat, F64.div_nan (.inl (F64.div_zero_zero (x := F64.neg _) ?_ ?_ hp.1 hp.2))⟩
  · rw [F64.absBits_neg]; exact ht.1
  · rw [F64.val_neg, ht.2, neg_zero]

/-- C87, what holds: the entry of every positive prediction is not NaN; it is 0 for the classes that are not the target's.  Missing:
predictions that are 0. -/
theorem C87_ce_gradient_partial (w : World F64) (a b : Mat) (r c : Nat) (A B : Nat → Nat → F64) (cls : Nat → Nat) (hA : IsMat w a r c A)
    (hB : IsMat w b r c B) (hr : r < 2 ^ 53) (hp : ∀ i j, i < r → j < c → (A i j).absBits < infBits) (ht : ∀ i, i < r → OneHotRow c (cls i) (B i)) :
    wp (Loss.backward ⟨.ce, c⟩ a b) w (fun p w' => p.2 = none ∧ ∃ V, IsMat w' p.1 r c V ∧ ∀ i j, i < r → j < c → 0 < (A i j).val →
      (V i j).isNaN = false ∧ (j ≠ cls i → (V i j).val = 0) ∧ (j = cls i → (V i j).key ≤ 0)) := by
  obtain ⟨r1, r2⟩ := f64_int (n := (r : Int)) (by omega) (by omega)
  have rp : 0 < (Flt.ofInt (r : Int) : F64).val := by rw [r1]; exact_mod_cast hA.rpos
  refine wp_mono (ceBackward_spec hA hB (Nat.le_refl _)) ?_
  rintro ⟨p, e⟩ w' ⟨he, h⟩
  refine ⟨he, _, h.mat, fun i j hi hj h0 => ?_⟩
  obtain ⟨b1, b2⟩ := (ht i hi).2 j hj
  have nb : (F64.neg (B i j)).absBits < infBits := by rw [F64.absBits_neg]; exact b1
  have d1 := (F64.div_notnan (F64.not_special nb).1 (hp i j hi hj) h0).1
  refine ⟨(F64.div_notnan d1 r2 rp).1, fun hne => ?_, fun he' => ?_⟩
  · have e1 : F64.div (F64.neg (B i j)) (A i j) = F64.round ((F64.neg (B i j)).sign != (A i j).sign) 0 := by
      rw [F64.div_fin nb (hp i j hi hj) h0.ne', F64.val_neg, b2, if_neg hne, neg_zero, zero_div]
    change (F64.div (F64.div (F64.neg (B i j)) (A i j)) _).val = 0
    rw [e1, F64.div_fin (F64.round_zero_val _).2 r2 rp.ne', (F64.round_zero_val _).1, zero_div, (F64.round_zero_val _).1]
  · have key0 : ∀ x : F64, x.isNaN = false → x.key ≤ 0 → ∀ d : F64, d.absBits < infBits → 0 < d.val → (F64.div x d).key ≤ 0 := fun x hx hk d hd hdp => by
      by_cases ix : x.isInf = true
      · obtain ⟨q1, q2⟩ := F64.not_special hd
        have hs : d.sign = false := by
          by_contra hc
          unfold F64.val at hdp
          rw [if_pos (by simpa using hc)] at hdp
          have := F64.mag_nonneg d.absBits
          linarith
        have hxs : x.sign = true := by
          by_contra hc
          have hc' : x.sign = false := by simpa using hc
          unfold F64.isInf at ix
          unfold F64.key at hk
          rw [hc'] at hk
          unfold infBits at ix
          simp at ix hk
          omega
        have e1 : F64.div x d = F64.inf true := by
          unfold F64.div
          rw [hx, q1, q2, ix, hxs, hs, (by rw [← Bool.not_eq_true, F64.isZero_iff]; exact hdp.ne' : d.isZero = false)]; simp
        rw [e1]
        unfold F64.inf
        rw [F64.key_mk' _ F64.infBits_lt]; simp
      · have fx := F64.not_inf hx (by simpa using ix)
        rw [F64.div_fin fx hd hdp.ne', ← F64.key_round_zero (x.sign != d.sign)]
        refine F64.round_mono ?_
        have : x.val ≤ 0 := not_lt.1 fun hc => absurd (F64.val_pos.1 hc) (not_lt.2 hk)
        exact div_nonpos_of_nonpos_of_nonneg this hdp.le
    refine key0 _ d1 (key0 _ (F64.not_special nb).1 ?_ _ (hp i j hi hj) h0) _ r2 rp
    rw [F64.key_neg]
    have : 0 ≤ (B i j).key := F64.val_nonneg.1 (by rw [b2]; split_ifs <;> norm_num)
    omega

theorem C87_false : ¬ C87_claim := by
  intro h
  have hv : ∀ P : Prop, [Decidable P] → (Flt.ofInt (if P then 1 else 0) : F64).absBits < infBits ∧ (Flt.ofInt (if P then 1 else 0) : F64).val = if P then 1 else 0 := by
    intro P _
    obtain ⟨v1, v2⟩ := f64_int (n := if P then 1 else 0) (by split_ifs <;> norm_num) (by split_ifs <;> norm_num)
    exact ⟨v2, by rw [v1]; split_ifs <;> norm_num⟩
  obtain ⟨w, a, b, hA, -, hB, -, -⟩ := exists_mat2 (α := F64) (r := 1) (c := 2) (r' := 1) (c' := 2) (by decide) (by decide) (by decide) (by decide)
    (fun _ j => Flt.ofInt (if j = 0 then 1 else 0)) (fun _ j => Flt.ofInt (if j = 0 then 1 else 0))
  have h1 := h w a b 1 2 _ _ (fun _ => 0) hA hB (by norm_num) (fun i j _ _ => ⟨(hv _).1, by rw [(hv _).2]; split_ifs <;> norm_num,
    by rw [(hv _).2]; split_ifs <;> norm_num⟩) (fun i _ => ⟨by decide, fun j _ => hv _⟩)
  have h2 := C87_zero w a b 1 2 _ _ hA hB 0 1 ⟨(hv _).1, by rw [(hv _).2]; norm_num⟩ ⟨(hv _).1, by rw [(hv _).2]; norm_num⟩
  obtain ⟨p, w', -, ⟨-, V, m1, e1⟩, -, V', m2, e2⟩ := wp_iff.1 (wp_and h1 h2)
  rw [← m1.entries_unique m2 (i := 0) (j := 1) (by decide) (by decide), e1 0 1 (by decide) (by decide)] at e2
  cases e2

end NN
