import Verif.Spec.ErrBound
import Verif.Spec.Rounding
import Verif.Lemmas.RoundAct
import Verif.IEEE.Libm
/- Every operation on float64 stays within the bounds of `Iv`. -/

set_option linter.unusedSectionVars false

namespace NN
open Classical F64

/-- The float64 x is within the bounds of t, if t's condition is met. -/
def InIv (x : F64) (t : Iv) : Prop := t.ok → Near x t.X t.e

theorem InIv.exact (x : F64) : InIv x x.iv := fun h => ⟨h, by simp [F64.iv]⟩

theorem Near.nonneg {x : F64} {X e : ℝ} (h : Near x X e) : 0 ≤ e := (abs_nonneg _).trans h.2

theorem Near.size {x : F64} {X e : ℝ} (h : Near x X e) : |x.val| ≤ |X| + e := by
  have := abs_add_le (x.val - X) X
  rw [sub_add_cancel] at this
  linarith [h.2]

theorem within_round {x : F64} {s : Bool} {z X h : ℝ} {p : Prop} (hz : p → x = F64.round s z ∧ |z - X| ≤ h) : InIv x (Iv.rnd X h p) := by
  rintro ⟨hp, hb⟩
  replace hz := hz hp
  obtain ⟨rfl, hz⟩ := hz
  have h0 : 0 ≤ h := (abs_nonneg _).trans hz
  have hs : |z| ≤ |X| + h := by
    have := abs_add_le (z - X) X
    rw [sub_add_cancel] at this
    linarith
  have hf := round_finite (s := s) (hs.trans hb)
  unfold Iv.rnd
  dsimp only
  split
  · rename_i hc
    obtain ⟨hc, f, f1, rfl⟩ := hc
    have : z = f.val := by
      rw [hc] at hz
      have := abs_nonpos_iff.1 hz
      linarith
    subst this
    obtain ⟨g1, g2⟩ := round_self f1 s
    exact ⟨g1, by rw [g2]; simp⟩
  · refine ⟨hf, ?_⟩
    have e1 := round_err hf
    have e2 := abs_add_le ((F64.round s z).val - z) (z - X)
    rw [sub_add_sub_cancel] at e2
    have e3 := mul_le_mul_of_nonneg_left hs ueps_pos.le
    linarith



section Ops
variable [Libm] [PowErr]

theorem within_ofInt (n : Int) : InIv (Flt.ofInt n : F64) (Flt.ofInt n) :=
  within_round (s := false) (z := n) fun _ => ⟨rfl, by simp⟩

theorem within_half : InIv (Flt.half : F64) Flt.half := within_round (s := false) (z := 1 / 2) fun _ => ⟨rfl, by simp⟩
theorem within_eps7 : InIv (Flt.eps7 : F64) Flt.eps7 := within_round (s := false) (z := 1 / 10 ^ 7) fun _ => ⟨rfl, by simp⟩
theorem within_oneSubEps7 : InIv (Flt.oneSubEps7 : F64) Flt.oneSubEps7 :=
  within_round (s := false) (z := 1 - 1 / 10 ^ 7) fun _ => ⟨rfl, by simp⟩

theorem within_neg {x : F64} {a : Iv} (h : InIv x a) : InIv (Flt.neg x) (Flt.neg a) := fun ha => by
  obtain ⟨h1, h2⟩ := h ha
  refine ⟨?_, ?_⟩
  · show x.neg.absBits < infBits
    rw [absBits_neg]; exact h1
  · change |(F64.neg x).val - -a.X| ≤ a.e
    rw [val_neg, ← neg_sub', abs_neg]
    exact h2

theorem within_add {x y : F64} {a b : Iv} (hx : InIv x a) (hy : InIv y b) : InIv (x +. y) (a +. b) :=
  within_round (s := x.sign && y.sign) (z := x.val + y.val) fun ⟨h1, h2⟩ => by
    obtain ⟨f1, e1⟩ := hx h1
    obtain ⟨f2, e2⟩ := hy h2
    refine ⟨add_fin f1 f2, ?_⟩
    have := abs_add_le (x.val - a.X) (y.val - b.X)
    rw [show x.val + y.val - (a.X + b.X) = x.val - a.X + (y.val - b.X) by ring]
    linarith

theorem within_sub {x y : F64} {a b : Iv} (hx : InIv x a) (hy : InIv y b) : InIv (x -. y) (a -. b) := by
  have := within_add hx (within_neg hy)
  exact this

theorem within_mul {x y : F64} {a b : Iv} (hx : InIv x a) (hy : InIv y b) : InIv (x *. y) (a *. b) :=
  within_round (s := x.sign != y.sign) (z := x.val * y.val) fun ⟨h1, h2⟩ => by
    obtain ⟨f1, e1⟩ := hx h1
    obtain ⟨f2, e2⟩ := hy h2
    refine ⟨mul_fin f1 f2, ?_⟩
    rw [show x.val * y.val - a.X * b.X = a.X * (y.val - b.X) + b.X * (x.val - a.X) + (x.val - a.X) * (y.val - b.X) by ring]
    refine (abs_add_le _ _).trans (add_le_add ((abs_add_le _ _).trans (add_le_add ?_ ?_)) ?_)
    · rw [abs_mul]; exact mul_le_mul_of_nonneg_left e2 (abs_nonneg _)
    · rw [abs_mul]; exact mul_le_mul_of_nonneg_left e1 (abs_nonneg _)
    · rw [abs_mul]; exact mul_le_mul e1 e2 (abs_nonneg _) ((abs_nonneg _).trans e1)

theorem within_div {x y : F64} {a b : Iv} (hx : InIv x a) (hy : InIv y b) : InIv (x /. y) (a /. b) :=
  within_round (s := x.sign != y.sign) (z := x.val / y.val) fun ⟨h1, h2, h3⟩ => by
    obtain ⟨f1, e1⟩ := hx h1
    obtain ⟨f2, e2⟩ := hy h2
    have hb : 0 < |b.X| := (((abs_nonneg _).trans e2)).trans_lt h3
    have hb0 : b.X ≠ 0 := abs_pos.1 hb
    have hy1 : |b.X| - b.e ≤ |y.val| := by
      have := abs_sub_abs_le_abs_sub b.X y.val
      rw [abs_sub_comm] at this
      linarith
    have hy0 : y.val ≠ 0 := abs_pos.1 (by linarith)
    refine ⟨div_fin f1 f2 hy0, ?_⟩
    rw [show x.val / y.val - a.X / b.X = ((x.val - a.X) * b.X - a.X * (y.val - b.X)) / (y.val * b.X) by field_simp; ring, abs_div, abs_mul y.val]
    refine div_le_div₀ ?_ ?_ (mul_pos (by linarith) hb) (mul_le_mul_of_nonneg_right hy1 hb.le)
    · exact add_nonneg (mul_nonneg ((abs_nonneg _).trans e1) hb.le) (mul_nonneg (abs_nonneg _) ((abs_nonneg _).trans e2))
    · refine (abs_sub _ _).trans (add_le_add ?_ ?_)
      · rw [abs_mul]; exact mul_le_mul_of_nonneg_right e1 hb.le
      · rw [abs_mul]; exact mul_le_mul_of_nonneg_left e2 (abs_nonneg _)

theorem within_sqrt {x : F64} {a : Iv} (hx : InIv x a) : InIv (Flt.sqrt x) (Flt.sqrt a) :=
  within_round (s := x.sign) (z := Real.sqrt x.val) fun ⟨h1, h2⟩ => by
    obtain ⟨f1, e1⟩ := hx h1
    have h0 := (abs_nonneg _).trans e1
    obtain ⟨l, u⟩ := abs_le.1 e1
    have hx0 : 0 ≤ x.val := by linarith
    obtain ⟨n1, n2⟩ := not_special f1
    constructor
    · change F64.sqrt x = _
      unfold F64.sqrt
      rw [n1, n2]
      simp only [Bool.false_eq_true, if_false]
      by_cases hz : x.isZero = true
      · rw [if_pos hz]
        have hz' := isZero_iff.1 hz
        rw [hz', Real.sqrt_zero]
        unfold F64.round
        rw [if_pos rfl]
        have h5 : x.absBits = 0 := by unfold F64.isZero at hz; simpa using hz
        unfold F64.zero
        rw [← h5]
        exact (mk'_self x).symm
      · rw [if_neg hz]
        by_cases hs : x.sign = true
        · exfalso
          have : x.val = -mag x.absBits := by unfold val; rw [if_pos hs]
          have h5 := mag_nonneg x.absBits
          exact hz (isZero_iff.2 (by linarith))
        · rw [if_neg hs]
          simp [hs]
    · rcases (h0.trans h2).eq_or_lt with ha | ha
      · have : a.e = 0 := by linarith
        have h3 : x.val = 0 := by rw [← ha] at l u; linarith
        rw [h3, ← ha, this]; simp
      · have hs := Real.sqrt_pos.2 ha
        rw [le_div_iff₀ hs]
        refine le_trans ?_ e1
        have := Real.sqrt_nonneg x.val
        have e : x.val - a.X = (Real.sqrt x.val - Real.sqrt a.X) * (Real.sqrt x.val + Real.sqrt a.X) := by
          ring_nf; rw [Real.sq_sqrt hx0, Real.sq_sqrt ha.le]
        rw [e, abs_mul]
        refine mul_le_mul_of_nonneg_left ?_ (abs_nonneg _)
        rw [abs_of_nonneg (by linarith)]; linarith

theorem within_exp {x : F64} {a : Iv} (hx : InIv x a) : InIv (Flt.exp x) (Flt.exp a) := fun ⟨h1, h2⟩ => by
  obtain ⟨f1, e1⟩ := hx h1
  obtain ⟨l, u⟩ := abs_le.1 e1
  have h0 := (abs_nonneg _).trans e1
  have hle : Real.exp x.val ≤ Real.exp (a.X + a.e) := Real.exp_le_exp.2 (by linarith)
  obtain ⟨g1, g2⟩ := exp_err f1 (hle.trans h2)
  refine ⟨g1, ?_⟩
  change _ ≤ Real.exp a.X * (Real.exp a.e - 1) + 2 * ueps * Real.exp (a.X + a.e) + 2 * tiny
  change |_ - Real.exp a.X| ≤ _
  have h3 : |Real.exp x.val - Real.exp a.X| ≤ Real.exp a.X * (Real.exp a.e - 1) := by
    rw [mul_sub, mul_one, ← Real.exp_add, abs_le]
    refine ⟨?_, by linarith⟩
    have e1 : Real.exp (a.X - a.e) ≤ Real.exp x.val := Real.exp_le_exp.2 (by linarith)
    have e2 : 2 * Real.exp a.X ≤ Real.exp (a.X - a.e) + Real.exp (a.X + a.e) := by
      have h4 : Real.exp a.X * Real.exp a.X = Real.exp (a.X - a.e) * Real.exp (a.X + a.e) := by rw [← Real.exp_add, ← Real.exp_add]; ring_nf
      nlinarith [sq_nonneg (Real.exp (a.X - a.e) - Real.exp (a.X + a.e)), Real.exp_pos a.X, Real.exp_pos (a.X - a.e), Real.exp_pos (a.X + a.e)]
    linarith
  have h4 := abs_add_le ((Flt.exp x : F64).val - Real.exp x.val) (Real.exp x.val - Real.exp a.X)
  rw [sub_add_sub_cancel] at h4
  have h5 := mul_le_mul_of_nonneg_left hle (by have := ueps_pos; linarith : 0 ≤ 2 * ueps)
  linarith

theorem within_max {x y : F64} {a b : Iv} (hx : InIv x a) (hy : InIv y b) : InIv (Flt.max x y) (Flt.max a b) := fun ⟨h1, h2⟩ => by
  obtain ⟨f1, e1⟩ := hx h1
  obtain ⟨f2, e2⟩ := hy h2
  obtain ⟨m1, m2⟩ := F64.max_val f1 f2
  refine ⟨m2, ?_⟩
  change |(F64.max x y).val - Max.max a.X b.X| ≤ if a.X + a.e < b.X - b.e then b.e else if b.X + b.e < a.X - a.e then a.e else Max.max a.e b.e
  rw [m1]
  have g1 := (abs_nonneg _).trans e1
  have g2 := (abs_nonneg _).trans e2
  obtain ⟨l1, u1⟩ := abs_le.1 e1
  obtain ⟨l2, u2⟩ := abs_le.1 e2
  split_ifs with c1 c2
  · rw [max_eq_right (by linarith), max_eq_right (by linarith)]; exact e2
  · rw [max_eq_left (by linarith), max_eq_left (by linarith)]; exact e1
  · exact (abs_max_sub_max_le_max _ _ _ _).trans (max_le_max e1 e2)

theorem pow_diff (n : Nat) {x X e : ℝ} (h : |x - X| ≤ e) : |x ^ n - X ^ n| ≤ (|X| + e) ^ n - |X| ^ n := by
  have h0 := (abs_nonneg _).trans h
  induction n with
  | zero => simp
  | succ n ih =>
    have hx : |x| ≤ |X| + e := by
      have := abs_add_le (x - X) X
      rw [sub_add_cancel] at this
      linarith
    rw [show x ^ (n + 1) - X ^ (n + 1) = x * (x ^ n - X ^ n) + X ^ n * (x - X) by ring]
    refine (abs_add_le _ _).trans ?_
    rw [abs_mul, abs_mul, abs_pow]
    have h1 := mul_le_mul hx ih (abs_nonneg _) (add_nonneg (abs_nonneg _) h0)
    have h2 := mul_le_mul_of_nonneg_left h (pow_nonneg (abs_nonneg X) n)
    rw [pow_succ, pow_succ]
    linarith

theorem within_pow (hP : PowAcc) {x y : F64} {a b : Iv} (hx : InIv x a) (hy : InIv y b) : InIv (Flt.pow x y) (Flt.pow a b) :=
    fun ⟨h1, h2, h3, ⟨n, hn⟩, h4⟩ => by
  obtain ⟨f1, e1⟩ := hx h1
  obtain ⟨f2, e2⟩ := hy h2
  have hyn : y.val = n := by
    rw [h3] at e2
    have := abs_nonpos_iff.1 e2
    linarith
  have g0 := (abs_nonneg _).trans e1
  have hs : |x.val| ≤ |a.X| + a.e := Near.size (hx h1)
  rw [hn, Real.rpow_natCast] at h4
  have hp := pow_le_pow_left₀ (abs_nonneg _) hs n
  obtain ⟨p1, p2⟩ := hP.2 x y n f1 f2 hyn (hp.trans h4)
  have hd := pow_diff n e1
  unfold Near
  change (F64.pow x y).Finite ∧ |(F64.pow x y).val - a.X ^ b.X| ≤ if (|a.X| + a.e) ^ b.X - |a.X| ^ b.X = 0 ∧ b.X = 2 ∧ IsF64 (a.X ^ b.X) then 0
    else (|a.X| + a.e) ^ b.X - |a.X| ^ b.X + PowErr.q * (|a.X| + a.e) ^ b.X + 2 * tiny
  rw [hn, Real.rpow_natCast, Real.rpow_natCast, Real.rpow_natCast]
  refine ⟨p1, ?_⟩
  split_ifs with c
  · obtain ⟨c1, c2, f, c3, c4⟩ := c
    rw [c1] at hd
    have hd' : x.val ^ n = a.X ^ n := by have := abs_nonpos_iff.1 hd; linarith
    have hn2 : n = 2 := by exact_mod_cast c2
    subst hn2
    obtain ⟨q1, q2⟩ := Libm.pow_two x y f f1 f2 c3 (by rw [hyn]; norm_num) (by rw [c4, hd'])
    change |(Libm.pow x y).val - _| ≤ _
    rw [q2, c4]; simp
  · have h5 := abs_add_le ((F64.pow x y).val - x.val ^ n) (x.val ^ n - a.X ^ n)
    rw [sub_add_sub_cancel] at h5
    have h6 := mul_le_mul_of_nonneg_left hp hP.1
    linarith

/-! ### Comparisons -/

theorem Sure.symm {a b : Iv} (h : Sure a b) : Sure b a := by
  obtain ⟨h1, h2, h3⟩ := h
  refine ⟨h2, h1, ?_⟩
  rcases h3 with h3 | ⟨h3, h4⟩
  · left; rw [abs_sub_comm]; linarith
  · exact .inr ⟨h4, h3⟩

theorem sure_lt_iff {x y : F64} {a b : Iv} (hx : InIv x a) (hy : InIv y b) (h : Sure a b) : x.val < y.val ↔ a.X < b.X := by
  obtain ⟨h1, h2, h3⟩ := h
  obtain ⟨f1, e1⟩ := hx h1
  obtain ⟨f2, e2⟩ := hy h2
  have g1 := (abs_nonneg _).trans e1
  have g2 := (abs_nonneg _).trans e2
  obtain ⟨l1, u1⟩ := abs_le.1 e1
  obtain ⟨l2, u2⟩ := abs_le.1 e2
  rcases h3 with h3 | ⟨h3, h4⟩
  · rcases le_total a.X b.X with hl | hl
    · rw [abs_of_nonpos (by linarith)] at h3
      exact ⟨fun _ => by linarith, fun _ => by linarith⟩
    · rw [abs_of_nonneg (by linarith)] at h3
      exact ⟨fun _ => by linarith, fun _ => by linarith⟩
  · have : x.val = a.X := by linarith
    have : y.val = b.X := by linarith
    simp [*]

theorem Sure.lt {x y : F64} {a b : Iv} (hx : InIv x a) (hy : InIv y b) (h : Sure a b) : Flt.lt x y = Flt.lt a b := by
  have := sure_lt_iff hx hy h
  obtain ⟨h1, h2, -⟩ := h
  change F64.lt x y = decide (a.X < b.X)
  rw [F64.lt_val (hx h1).1 (hy h2).1]
  simp [this]

theorem Sure.le {x y : F64} {a b : Iv} (hx : InIv x a) (hy : InIv y b) (h : Sure a b) : Flt.le x y = Flt.le a b := by
  have h3 := sure_lt_iff hy hx h.symm
  rw [val_lt_iff, ← not_le, ← not_le, not_iff_not] at h3
  obtain ⟨h1, h2, -⟩ := h
  obtain ⟨n1, -⟩ := not_special (hx h1).1
  obtain ⟨n2, -⟩ := not_special (hy h2).1
  change F64.le x y = decide (a.X ≤ b.X)
  unfold F64.le
  rw [n1, n2]
  simp [h3]

theorem Sure.eq {x y : F64} {a b : Iv} (hx : InIv x a) (hy : InIv y b) (h : Sure a b) : Flt.eq x y = Flt.eq a b := by
  have h3 := sure_lt_iff hy hx h.symm
  have h4 := sure_lt_iff hx hy h
  rw [val_lt_iff] at h3 h4
  obtain ⟨h1, h2, -⟩ := h
  obtain ⟨n1, -⟩ := not_special (hx h1).1
  obtain ⟨n2, -⟩ := not_special (hy h2).1
  change F64.eq x y = decide (a.X = b.X)
  unfold F64.eq
  rw [n1, n2]
  have : x.key = y.key ↔ a.X = b.X := by
    constructor
    · intro he
      exact le_antisymm (not_lt.1 fun hh => by have := h3.2 hh; omega) (not_lt.1 fun hh => by have := h4.2 hh; omega)
    · intro he
      exact le_antisymm (not_lt.1 fun hh => by have := h3.1 hh; linarith) (not_lt.1 fun hh => by have := h4.1 hh; linarith)
  simp [this]

theorem eq_self_f64 {x : F64} (hx : x.Finite) : Flt.eq x x = true := by
  obtain ⟨n1, -⟩ := not_special hx
  change F64.eq x x = true
  unfold F64.eq
  rw [n1]; simp

end Ops

end NN
