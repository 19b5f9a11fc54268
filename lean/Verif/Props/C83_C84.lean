import Verif.IEEE.Round
import Verif.Lemmas.Activation
import Verif.Spec.Place
import Mathlib.Analysis.Complex.ExponentialBounds
/- C83, C84: Sigmoid and Softmax on float64. -/

set_option linter.unusedSectionVars false

namespace NN
open Go F64
variable [Libm]

theorem le_iff {x y : F64} : Flt.le x y = true ↔ x.isNaN = false ∧ y.isNaN = false ∧ x.key ≤ y.key := by
  change F64.le x y = true ↔ _
  unfold F64.le
  simp [and_assoc]

theorem f64_int {n : Int} (h1 : -(2 ^ 53) ≤ n) (h2 : n ≤ 2 ^ 53) :
    (Flt.ofInt n : F64).val = n ∧ (Flt.ofInt n : F64).absBits < infBits := F64.ofInt_exact n h1 h2

/-- 1/(1+exp(-x)) -/
theorem sigmoid_ok {x : F64} (h : x.isNaN = false) :
    0 < (Flt.add (Flt.one : F64) (Flt.exp (Flt.neg x))).key ∧ (Flt.add (Flt.one : F64) (Flt.exp (Flt.neg x))).isNaN = false ∧
    (Flt.one : F64).key ≤ (Flt.add (Flt.one : F64) (Flt.exp (Flt.neg x))).key := by
  obtain ⟨o1, o2⟩ := f64_int (n := 1) (by norm_num) (by norm_num)
  obtain ⟨e1, e2⟩ := F64.exp_ok (x := x.neg) (by rw [F64.isNaN_neg]; exact h)
  have hp : 0 < (Flt.one : F64).key := F64.val_pos.1 (by rw [o1]; norm_num)
  obtain ⟨a1, a2, -⟩ := F64.add_ok (F64.not_special o2).1 e1 hp.le e2
  exact ⟨hp.trans_le a2, a1, a2⟩

omit [Libm] in
theorem exp800 : (2 : ℝ) ^ (1024 : ℤ) ≤ Real.exp 710 ∧ Real.exp (-800) < (2 : ℝ) ^ (-1075 : ℤ) ∧ Real.exp 700 ≤ (2 : ℝ) ^ (1010 : ℤ) ∧
    (2 : ℝ) ^ (-1074 : ℤ) ≤ Real.exp (-700) := by
  have h1 := Real.log_two_gt_d9
  have h2 := Real.log_two_lt_d9
  have e : ∀ k : ℤ, (2 : ℝ) ^ k = Real.exp (k * Real.log 2) := fun k => by
    rw [mul_comm, Real.exp_mul, Real.exp_log (by norm_num), Real.rpow_intCast]
  refine ⟨?_, ?_, ?_, ?_⟩
  · rw [e, Real.exp_le_exp]; push_cast; linarith
  · rw [e, Real.exp_lt_exp]; push_cast; linarith
  · rw [e, Real.exp_le_exp]; push_cast; linarith
  · rw [e, Real.exp_le_exp]; push_cast; linarith

/-- C83: Sigmoid on float64: an entry that is not NaN becomes a number in [0,1]; if math.Exp is monotone, entries stay in the order of the
inputs. -/
theorem C83_sigmoid (w : World F64) (m : Mat) (r c : Nat) (A : Nat → Nat → F64) (hA : IsMat w m r c A) (hd : DistinctRows w m r) :
    wp (sigmoid m) w (fun p w' => p = m ∧ ∃ V, SetMat w w' m r c V ∧
      (∀ i j, i < r → j < c → (A i j).isNaN = false → Flt.le Flt.zero (V i j) = true ∧ Flt.le (V i j) Flt.one = true) ∧
      (ExpMono → ∀ i j k l, i < r → j < c → k < r → l < c → Flt.le (A i j) (A k l) = true → Flt.le (V i j) (V k l) = true)) := by
  refine wp_mono (sigmoid_spec hA hd) ?_
  rintro p w1 ⟨rfl, h1⟩
  obtain ⟨o1, o2⟩ := f64_int (n := 1) (by norm_num) (by norm_num)
  obtain ⟨z1, z2⟩ := f64_int (n := 0) (by norm_num) (by norm_num)
  have hz : (Flt.zero : F64).key = 0 := by
    have := F64.val_nonneg (x := Flt.zero)
    have := F64.val_pos (x := Flt.zero)
    rw [z1] at *
    simp at *
    omega
  have hp : 0 < (Flt.one : F64).key := F64.val_pos.1 (by rw [o1]; norm_num)
  have hr : ∀ x : F64, x.isNaN = false → (Flt.div (Flt.one : F64) (Flt.add Flt.one (Flt.exp (Flt.neg x)))).isNaN = false ∧
      0 ≤ (Flt.div (Flt.one : F64) (Flt.add Flt.one (Flt.exp (Flt.neg x)))).key ∧
      (Flt.div (Flt.one : F64) (Flt.add Flt.one (Flt.exp (Flt.neg x)))).key ≤ (Flt.one : F64).key := fun x hx => by
    obtain ⟨s1, s2, s3⟩ := sigmoid_ok hx
    exact F64.div_ok o2 hp.le s2 s1 s3 o2 (by simpa using o1)
  refine ⟨rfl, _, h1, ?_, ?_⟩
  · intro i j _ _ hn
    obtain ⟨r1, r2, r3⟩ := hr _ hn
    exact ⟨le_iff.2 ⟨(F64.not_special z2).1, r1, by rw [hz]; exact r2⟩, le_iff.2 ⟨r1, (F64.not_special o2).1, r3⟩⟩
  · intro hm i j k l _ _ _ _ hle
    obtain ⟨n1, n2, hk⟩ := le_iff.1 hle
    refine le_iff.2 ⟨(hr _ n1).1, (hr _ n2).1, ?_⟩
    obtain ⟨s1, s2, -⟩ := sigmoid_ok n1
    obtain ⟨t1, t2, -⟩ := sigmoid_ok n2
    have m1 : ((A i j).neg).isNaN = false := by rw [F64.isNaN_neg]; exact n1
    have m2 : ((A k l).neg).isNaN = false := by rw [F64.isNaN_neg]; exact n2
    refine F64.div_anti o2 hp.le t2 s2 t1 ?_
    refine F64.add_mono (F64.not_special o2).1 (F64.exp_ok m2).1 (F64.not_special o2).1 (F64.exp_ok m1).1 hp.le (F64.exp_ok m2).2 le_rfl ?_
    exact hm _ _ m2 m1 (by
      change (F64.neg _).key ≤ (F64.neg _).key
      rw [F64.key_neg, F64.key_neg]; omega)

omit [Libm] in
theorem inf_facts : (F64.inf false).isInf = true ∧ (F64.inf false).isNaN = false ∧ (F64.inf false).isZero = false ∧ (F64.inf false).sign = false := by
  unfold F64.inf F64.isInf F64.isNaN F64.isZero
  rw [F64.absBits_mk' _ F64.infBits_lt, F64.sign_mk' _ F64.infBits_lt]
  unfold F64.infBits; simp

omit [Libm] in
theorem zero_facts : (F64.zero false).val = 0 ∧ (F64.zero false).absBits < infBits := by
  refine ⟨F64.isZero_iff.1 (by unfold F64.zero F64.isZero; rw [F64.absBits_mk' _ (by norm_num)]; rfl), ?_⟩
  unfold F64.zero; rw [F64.absBits_mk' _ (by norm_num)]; unfold infBits; norm_num

/-- exp overflows at 710. -/
theorem exp_over {x : F64} (hx : x.absBits < infBits) (h : 710 ≤ x.val) : (Flt.exp x : F64) = F64.inf false := Libm.exp_over x hx h

/-- exp underflows at -800. -/
theorem exp_under {x : F64} (hx : x.absBits < infBits) (h : x.val ≤ -800) : (Flt.exp x : F64) = F64.zero false := Libm.exp_under x hx h

/-- A number that is at most 700 has an exponential of at most 2^1010. -/
theorem exp_le_700 {x : F64} (h : Flt.le x (Flt.ofInt 700) = true) : (Flt.exp x : F64).isNaN = false ∧ 0 ≤ (Flt.exp x : F64).key ∧
    (Flt.exp x : F64).absBits < infBits ∧ (Flt.exp x : F64).val ≤ (2 : ℝ) ^ (1010 : ℤ) := by
  obtain ⟨n1, n2, hk⟩ := le_iff.1 h
  obtain ⟨x1, x2⟩ := F64.exp_ok n1
  obtain ⟨p1, p2⟩ := f64_int (n := 700) (by norm_num) (by norm_num)
  have hv : x.val ≤ 700 := by have := (F64.val_le_iff _ _).2 hk; rw [p1] at this; exact_mod_cast this
  by_cases hi : x.isInf = true
  · have hs : x.sign = true := by
      by_contra hc
      have e : x.key = infBits := by unfold F64.isInf at hi; simp at hi; unfold F64.key; rw [if_neg hc, hi]
      have := F64.absBits_eq (Flt.ofInt 700 : F64)
      have := le_abs_self (Flt.ofInt 700 : F64).key
      omega
    have e : (Flt.exp x : F64) = F64.zero false := (Libm.exp_inf x hi).trans (if_pos hs)
    rw [e]
    exact ⟨F64.zero_not_nan _, (F64.key_zero _).ge, zero_facts.2, by rw [zero_facts.1]; positivity⟩
  · have hf := F64.not_inf n1 (by simpa using hi)
    have e3 : Real.exp 700 ≤ (2 : ℝ) ^ (1010 : ℤ) * (20 / 21) := by
      have h2 := Real.log_two_gt_d9
      have h3 := Real.add_one_le_exp (1 / 20 : ℝ)
      have h4 : Real.exp 700 * Real.exp (1 / 20) ≤ (2 : ℝ) ^ (1010 : ℤ) := by
        rw [show (2 : ℝ) ^ (1010 : ℤ) = Real.exp ((1010 : ℤ) * Real.log 2) by
          rw [mul_comm, Real.exp_mul, Real.exp_log (by norm_num), Real.rpow_intCast], ← Real.exp_add, Real.exp_le_exp]
        push_cast; linarith
      have h5 := mul_le_mul_of_nonneg_left h3 (Real.exp_pos 700).le
      linarith
    have hK : (1 : ℝ) ≤ (2 : ℝ) ^ (1010 : ℤ) := one_le_zpow₀ (by norm_num) (by norm_num)
    have hlt : (2 : ℝ) ^ (1010 : ℤ) ≤ (2 : ℝ) ^ (1023 : ℤ) := zpow_le_zpow_right₀ (by norm_num) (by norm_num)
    have hu : (2 : ℝ) ^ (-52 : ℤ) ≤ 1 / 100 := by norm_num
    have ht : (2 : ℝ) ^ (-1074 : ℤ) ≤ 1 / 100 := le_trans (zpow_le_zpow_right₀ (by norm_num) (by norm_num : (-1074 : ℤ) ≤ -52)) hu
    have he : Real.exp x.val ≤ Real.exp 700 := Real.exp_le_exp.2 hv
    generalize (2 : ℝ) ^ (1010 : ℤ) = K at *
    have hfit := Libm.exp_fits x hf (he.trans (e3.trans (le_trans (by linarith) hlt)))
    have hn := (abs_le.1 (Libm.exp_near x hf hfit)).2
    refine ⟨x1, x2, hfit, ?_⟩
    change (Libm.exp x).val ≤ K
    have hm := mul_le_mul hu he (Real.exp_pos _).le (by norm_num)
    generalize (2 : ℝ) ^ (-52 : ℤ) * Real.exp x.val = q at hm hn
    generalize (2 : ℝ) ^ (-1074 : ℤ) = t at ht hn
    linarith

/-- A number that is at least -700 has a positive exponential. -/
theorem exp_pos_700 {x : F64} (h : Flt.le (Flt.ofInt (-700)) x = true) : 0 < (Flt.exp x : F64).key := by
  obtain ⟨n1, n2, hk⟩ := le_iff.1 h
  obtain ⟨p1, p2⟩ := f64_int (n := -700) (by norm_num) (by norm_num)
  have hv : -700 ≤ x.val := by have := (F64.val_le_iff _ _).2 hk; rw [p1] at this; exact_mod_cast this
  by_cases hi : x.isInf = true
  · have hs : x.sign ≠ true := by
      intro hc
      have e : x.key = -(infBits : ℤ) := by unfold F64.isInf at hi; simp at hi; unfold F64.key; rw [if_pos hc, hi]
      have := F64.absBits_eq (Flt.ofInt (-700) : F64)
      have := neg_le_abs (Flt.ofInt (-700) : F64).key
      omega
    have e : (Flt.exp x : F64) = F64.inf false := (Libm.exp_inf x hi).trans (if_neg hs)
    rw [e, F64.inf_key.2]
    unfold infBits; norm_num
  · have hf := F64.not_inf n2 (by simpa using hi)
    by_cases hfin : (Libm.exp x).absBits < infBits
    · have hn := (abs_le.1 (Libm.exp_near x hf hfin)).1
      have e4 : (2 : ℝ) ^ (-1073 : ℤ) ≤ Real.exp x.val := by
        have h2 := Real.log_two_gt_d9
        rw [show (2 : ℝ) ^ (-1073 : ℤ) = Real.exp ((-1073 : ℤ) * Real.log 2) by
          rw [mul_comm, Real.exp_mul, Real.exp_log (by norm_num), Real.rpow_intCast], Real.exp_le_exp]
        push_cast; linarith
      have e5 : (2 : ℝ) ^ (-1073 : ℤ) = 2 * (2 : ℝ) ^ (-1074 : ℤ) := by
        rw [show (-1073 : ℤ) = 1 + -1074 by norm_num, zpow_add₀ (by norm_num)]; norm_num
      have hp : (0 : ℝ) < (2 : ℝ) ^ (-1074 : ℤ) := by positivity
      have hu : (2 : ℝ) ^ (-52 : ℤ) ≤ 1 / 100 := by norm_num
      have hm := mul_le_mul_of_nonneg_right hu (Real.exp_pos x.val).le
      refine F64.val_pos.1 ?_
      change 0 < (Libm.exp x).val
      generalize (2 : ℝ) ^ (-52 : ℤ) * Real.exp x.val = q at hm hn
      generalize (2 : ℝ) ^ (-1074 : ℤ) = t at *
      linarith
    · obtain ⟨x1, x2⟩ := F64.exp_ok n2
      change 0 < (Libm.exp x).key
      change 0 ≤ (Libm.exp x).key at x2
      have := F64.absBits_eq (Libm.exp x)
      rw [abs_of_nonneg x2] at this
      have : 0 < infBits := by unfold infBits; norm_num
      omega

/-- Sigmoid is exactly 1 from 800 up. -/
theorem sigmoid_one {x : F64} (hf : x.absBits < infBits) (h : 800 ≤ x.val) :
    (Flt.one /. (Flt.one +. Flt.exp (Flt.neg x)) : F64).val = 1 ∧ (Flt.one /. (Flt.one +. Flt.exp (Flt.neg x)) : F64).absBits < infBits := by
  obtain ⟨o1, o2⟩ := f64_int (n := 1) (by norm_num) (by norm_num)
  have hnf : (Flt.neg x : F64).absBits < infBits := by change (F64.neg _).absBits < _; rw [F64.absBits_neg]; exact hf
  have hnv : (Flt.neg x : F64).val = -x.val := F64.val_neg _
  rw [exp_under hnf (by rw [hnv]; linarith)]
  obtain ⟨z1, z2⟩ := zero_facts
  have h1 := F64.ofInt_exact 1 (by norm_num) (by norm_num)
  rw [Int.cast_one] at h1
  have hs : (Flt.add (Flt.one : F64) (F64.zero false)).val = 1 ∧ (Flt.add (Flt.one : F64) (F64.zero false)).absBits < infBits := by
    change (F64.add _ _).val = _ ∧ (F64.add _ _).absBits < _
    rw [F64.add_fin o2 z2, z1, o1, add_zero, Int.cast_one, F64.round_ne (s' := false) (by norm_num)]
    exact h1
  change (F64.div _ _).val = _ ∧ (F64.div _ _).absBits < _
  rw [F64.div_fin o2 hs.2 (by rw [hs.1]; norm_num), hs.1, o1, div_one, Int.cast_one, F64.round_ne (s' := false) (by norm_num)]
  exact h1

/-- C83: both ends are reached, unlike for real numbers: from -710 down the result is 0, from 800 up it is 1. -/
theorem C83_saturates (w : World F64) (m : Mat) (r c : Nat) (A : Nat → Nat → F64) (hA : IsMat w m r c A) (hd : DistinctRows w m r) :
    wp (sigmoid m) w (fun _ w' => ∃ V, IsMat w' m r c V ∧ ∀ i j, i < r → j < c → (A i j).absBits < infBits →
      ((A i j).val ≤ -710 → (V i j).val = 0) ∧ (800 ≤ (A i j).val → (V i j).val = 1)) := by
  refine wp_mono (sigmoid_spec hA hd) ?_
  rintro p w1 ⟨rfl, h1⟩
  obtain ⟨o1, o2⟩ := f64_int (n := 1) (by norm_num) (by norm_num)
  obtain ⟨o3, o4⟩ := F64.not_special o2
  refine ⟨_, h1.mat, fun i j _ _ hf => ⟨fun h => ?_, fun h => ?_⟩⟩
  all_goals
    have hnf : (Flt.neg (A i j) : F64).absBits < infBits := by change (F64.neg _).absBits < _; rw [F64.absBits_neg]; exact hf
    have hnv : (Flt.neg (A i j) : F64).val = -(A i j).val := F64.val_neg _
  · rw [exp_over hnf (by rw [hnv]; linarith)]
    obtain ⟨i1, i2, i3, i4⟩ := inf_facts
    have ha : (Flt.add (Flt.one : F64) (F64.inf false)) = F64.inf false := by
      change F64.add _ _ = _
      unfold F64.add
      rw [o3, o4, i1, i2]; simp
    rw [ha]
    change (F64.div _ _).val = _
    unfold F64.div
    rw [o3, o4, i1, i2, i3]
    simp only [Bool.false_and, Bool.or_self, Bool.and_false, Bool.false_eq_true, if_false, if_true]
    exact F64.isZero_iff.1 (by unfold F64.zero F64.isZero; rw [F64.absBits_mk' _ (by norm_num)]; rfl)
  · exact (sigmoid_one hf h).1

/-- a matrix with the entries -1000, 0, 1000 -/
example : ∃ (w : World F64) (m : Mat) (A : Nat → Nat → F64), IsMat w m 1 3 A ∧ DistinctRows w m 1 ∧ (∀ j, j < 3 → (A 0 j).absBits < infBits) ∧
    (A 0 0).val ≤ -710 ∧ (A 0 1).val = 0 ∧ 800 ≤ (A 0 2).val := by
  obtain ⟨w, m, h, hd⟩ := exists_mat (α := F64) (r := 1) (c := 3) (by decide) (by decide) (fun _ j => Flt.ofInt ((j : Int) * 1000 - 1000))
  refine ⟨w, m, _, h, hd, fun j hj => (f64_int (by omega) (by omega)).2, ?_, ?_, ?_⟩
  · rw [(f64_int (by norm_num) (by norm_num)).1]; norm_num
  · rw [(f64_int (by norm_num) (by norm_num)).1]; norm_num
  · rw [(f64_int (by norm_num) (by norm_num)).1]; norm_num

/-- The sums of non-negative numbers of bounded size: no overflow, and no term is larger than the sum. -/
theorem fsum_bounds (f : Nat → F64) (hf : ∀ k, (f k).isNaN = false ∧ 0 ≤ (f k).key) (c : Nat)
    (hb : ∀ k, k < c → (f k).absBits < infBits ∧ (f k).val ≤ (2 : ℝ) ^ (1010 : ℤ)) (hc : c < 2 ^ 13) :
    (fsum c f).absBits < infBits ∧ 0 ≤ (fsum c f).key ∧ (fsum c f).val ≤ (c : ℝ) * 2 ^ (1010 : ℤ) ∧ ∀ k, k < c → (f k).key ≤ (fsum c f).key := by
  induction c with
  | zero =>
    obtain ⟨z1, z2⟩ := f64_int (n := 0) (by norm_num) (by norm_num)
    refine ⟨z2, F64.val_nonneg.1 (by unfold fsum; rw [z1]; norm_num), ?_, fun k hk => absurd hk (Nat.not_lt_zero k)⟩
    unfold fsum; rw [z1]; norm_num
  | succ c ih =>
    obtain ⟨i1, i2, i3, i4⟩ := ih (fun k hk => hb k (by omega)) (by omega)
    obtain ⟨b1, b2⟩ := hb c (by omega)
    obtain ⟨a1, a2, a3⟩ := F64.add_ok (F64.not_special i1).1 (hf c).1 i2 (hf c).2
    have hsum : fsum (c + 1) f = F64.add (fsum c f) (f c) := rfl
    have hlt : ((c + 1 : ℕ) : ℝ) * 2 ^ (1010 : ℤ) < (2 : ℝ) ^ (1023 : ℤ) := by
      rw [show (1023 : ℤ) = 13 + 1010 by norm_num, zpow_add₀ (by norm_num) 13]
      refine mul_lt_mul_of_pos_right ?_ (by positivity)
      have : ((c + 1 : ℕ) : ℝ) < ((2 ^ 13 : ℕ) : ℝ) := by exact_mod_cast hc
      calc _ < _ := this
        _ = _ := by norm_num
    obtain ⟨z1, z2⟩ := F64.scaled_exact (n := c + 1) (e := 1010) (by omega) (by omega) (by norm_num) hlt
    have hle : (fsum (c + 1) f).key ≤ (F64.round false (((c + 1 : ℕ) : ℝ) * 2 ^ (1010 : ℤ))).key := by
      rw [hsum, F64.add_fin i1 b1]
      refine F64.round_le z2 ?_
      rw [z1]; push_cast; linarith
    have h0 : 0 ≤ (fsum (c + 1) f).key := by rw [hsum]; exact i2.trans a2
    refine ⟨F64.fin_of_key z2 h0 hle, h0, by rw [← z1]; exact (F64.val_le_iff _ _).2 hle, fun k hk => ?_⟩
    rw [hsum]
    rcases Nat.lt_succ_iff_lt_or_eq.1 hk with h | rfl
    · exact (i4 k h).trans a2
    · exact a3

/-- C84, the claim: Softmax turns finite entries into numbers in [0,1]. -/
def C84_claim : Prop := ∀ (w : World F64) (m : Mat) (r c : Nat) (A : Nat → Nat → F64), IsMat w m r c A → DistinctRows w m r →
  (∀ i j, i < r → j < c → (A i j).absBits < infBits) →
  wp (softmax m) w fun _ w' => ∃ V, IsMat w' m r c V ∧ ∀ i j, i < r → j < c → Flt.le Flt.zero (V i j) = true ∧ Flt.le (V i j) Flt.one = true

/-- C84, what holds: for fewer than 8192 columns, all entries at most 700 and in every row some entry at least -700, Softmax gives numbers in
[0,1], in the order of the inputs if math.Exp is monotone.  Missing from the claim: larger and smaller entries, see `C84_overflow` and `C84_underflow`. -/
theorem C84_softmax_partial (w : World F64) (m : Mat) (r c : Nat) (A : Nat → Nat → F64) (hA : IsMat w m r c A) (hd : DistinctRows w m r)
    (hc : c < 2 ^ 13) (hle : ∀ i j, i < r → j < c → Flt.le (A i j) (Flt.ofInt 700) = true)
    (hge : ∀ i, i < r → ∃ j, j < c ∧ Flt.le (Flt.ofInt (-700)) (A i j) = true) :
    wp (softmax m) w (fun p w' => p = m ∧ ∃ V, SetMat w w' m r c V ∧
      (∀ i j, i < r → j < c → Flt.le Flt.zero (V i j) = true ∧ Flt.le (V i j) Flt.one = true) ∧
      (ExpMono → ∀ i j k, i < r → j < c → k < c → Flt.le (A i j) (A i k) = true → Flt.le (V i j) (V i k) = true)) := by
  refine wp_mono (softmax_spec hA hd) ?_
  rintro p w1 ⟨rfl, h1⟩
  refine ⟨rfl, _, h1, ?_⟩
  obtain ⟨o1, o2⟩ := f64_int (n := 1) (by norm_num) (by norm_num)
  obtain ⟨z1, z2⟩ := f64_int (n := 0) (by norm_num) (by norm_num)
  obtain ⟨p1, p2⟩ := f64_int (n := 700) (by norm_num) (by norm_num)
  obtain ⟨q1, q2⟩ := f64_int (n := -700) (by norm_num) (by norm_num)
  have hz : (Flt.zero : F64).key = 0 := le_antisymm (not_lt.1 fun h => by have := F64.val_pos.2 h; rw [z1] at this; norm_num at this)
    (F64.val_nonneg.1 (by rw [z1]; norm_num))
  have hbig : ∀ x : F64, Flt.le x (Flt.ofInt 700) = true → (Flt.exp x).isNaN = false ∧ 0 ≤ (Flt.exp x).key ∧ (Flt.exp x).absBits < infBits ∧
      (Flt.exp x).val ≤ (2 : ℝ) ^ (1010 : ℤ) := fun x hx => exp_le_700 hx
  have hrow : ∀ i, i < r → (fsum c fun k => Flt.exp (A i k)).absBits < infBits ∧ 0 < (fsum c fun k => Flt.exp (A i k)).key ∧
      ∀ k, k < c → (Flt.exp (A i k)).key ≤ (fsum c fun k => Flt.exp (A i k)).key := fun i hi => by
    -- beyond the last column nothing is known about A, so replace it there
    let f : Nat → F64 := fun k => if k < c then Flt.exp (A i k) else Flt.zero
    have hcong : ∀ n, n ≤ c → fsum n f = fsum n fun k => Flt.exp (A i k) := fun n => by
      induction n with
      | zero => intro _; rfl
      | succ n ih =>
        intro hn
        change F64.add (fsum n f) (f n) = F64.add (fsum n _) (Flt.exp (A i n))
        rw [ih (by omega)]
        congr 1
        exact if_pos (by omega)
    have hfk : ∀ k, k < c → f k = Flt.exp (A i k) := fun k hk => if_pos hk
    obtain ⟨b1, b2, -, b4⟩ := fsum_bounds f (fun k => by
      by_cases hk : k < c
      · rw [hfk k hk]; obtain ⟨u1, u2, -⟩ := hbig _ (hle i k hi hk); exact ⟨u1, u2⟩
      · have e : f k = Flt.zero := if_neg hk
        rw [e]; exact ⟨(F64.not_special z2).1, hz.ge⟩) c (fun k hk => by
      rw [hfk k hk]; obtain ⟨-, -, u3, u4⟩ := hbig _ (hle i k hi hk); exact ⟨u3, u4⟩) hc
    rw [hcong c le_rfl] at b1 b2 b4
    refine ⟨b1, ?_, fun k hk => by rw [← hfk k hk]; exact b4 k hk⟩
    obtain ⟨j, hj, hj'⟩ := hge i hi
    have h2 := exp_pos_700 hj'
    have h3 := b4 j hj
    rw [hfk j hj] at h3
    omega
  refine ⟨fun i j hi hj => ?_, fun hm i j k hi hj hk hjk => ?_⟩
  · obtain ⟨s1, s2, s3⟩ := hrow i hi
    obtain ⟨u1, u2, u3, -⟩ := hbig _ (hle i j hi hj)
    obtain ⟨d1, d2, d3⟩ := F64.div_ok u3 u2 (F64.not_special s1).1 s2 (s3 j hj) o2 (by simpa using o1)
    exact ⟨le_iff.2 ⟨(F64.not_special z2).1, d1, by rw [hz]; exact d2⟩, le_iff.2 ⟨d1, (F64.not_special o2).1, d3⟩⟩
  · obtain ⟨s1, s2, s3⟩ := hrow i hi
    obtain ⟨u1, u2, u3, -⟩ := hbig _ (hle i j hi hj)
    obtain ⟨v1, v2, v3, -⟩ := hbig _ (hle i k hi hk)
    obtain ⟨n1, n2, hkey⟩ := le_iff.1 hjk
    exact le_iff.2 ⟨(F64.div_ok u3 u2 (F64.not_special s1).1 s2 (s3 j hj) o2 (by simpa using o1)).1,
      (F64.div_ok v3 v2 (F64.not_special s1).1 s2 (s3 k hk) o2 (by simpa using o1)).1,
      F64.div_mono u3 v3 s1 s2 (hm _ _ n1 n2 hkey)⟩

/-- a row with the entries -1000, 0, 600 -/
example : ∃ (w : World F64) (m : Mat) (A : Nat → Nat → F64), IsMat w m 1 3 A ∧ DistinctRows w m 1 ∧ 3 < 2 ^ 13 ∧
    (∀ i j, i < 1 → j < 3 → Flt.le (A i j) (Flt.ofInt 700) = true) ∧ ∀ i, i < 1 → ∃ j, j < 3 ∧ Flt.le (Flt.ofInt (-700)) (A i j) = true := by
  obtain ⟨w, m, h, hd⟩ := exists_mat (α := F64) (r := 1) (c := 3) (by decide) (by decide) (fun _ j => Flt.ofInt ((j : Int) * 800 - 1000))
  have key : ∀ a b : Int, -(2 ^ 53) ≤ a → a ≤ b → b ≤ 2 ^ 53 → Flt.le (Flt.ofInt a : F64) (Flt.ofInt b) = true := fun a b h1 h2 h3 => by
    obtain ⟨a1, a2⟩ := f64_int (n := a) h1 (by omega)
    obtain ⟨b1, b2⟩ := f64_int (n := b) (by omega) h3
    exact le_iff.2 ⟨(F64.not_special a2).1, (F64.not_special b2).1, (F64.val_le_iff _ _).1 (by rw [a1, b1]; exact_mod_cast h2)⟩
  exact ⟨w, m, _, h, hd, by norm_num, fun i j _ hj => key _ _ (by omega) (by omega) (by norm_num),
    fun i _ => ⟨1, by norm_num, key _ _ (by norm_num) (by norm_num) (by norm_num)⟩⟩

/-- C84: one large entry and Softmax gives NaN: in a row that contains a finite entry x ≥ 710, x becomes NaN. -/
theorem C84_overflow (w : World F64) (m : Mat) (r c : Nat) (A : Nat → Nat → F64) (hA : IsMat w m r c A) (hd : DistinctRows w m r) :
    wp (softmax m) w (fun _ w' => ∃ V, IsMat w' m r c V ∧ ∀ i j, i < r → j < c → (∀ k, k < c → (A i k).isNaN = false) →
      (A i j).absBits < infBits → 710 ≤ (A i j).val → (V i j).isNaN = true) := by
  refine wp_mono (softmax_spec hA hd) ?_
  rintro p w1 ⟨rfl, h1⟩
  refine ⟨_, h1.mat, fun i j _ hj hn hf h => ?_⟩
  have hsum : ∀ n, n ≤ c → ((fsum n fun k => Flt.exp (A i k)).isNaN = false ∧ 0 ≤ (fsum n fun k => Flt.exp (A i k)).key) ∧
      ∀ k, k < n → (Flt.exp (A i k) : F64).key ≤ (fsum n fun k => Flt.exp (A i k)).key := fun n => by
    induction n with
    | zero =>
      intro _
      obtain ⟨z1, z2⟩ := f64_int (n := 0) (by norm_num) (by norm_num)
      exact ⟨⟨(F64.not_special z2).1, F64.val_nonneg.1 (by unfold fsum; rw [z1]; norm_num)⟩, fun k hk => absurd hk (Nat.not_lt_zero k)⟩
    | succ n ih =>
      intro hnc
      obtain ⟨⟨i1, i2⟩, i3⟩ := ih (by omega)
      obtain ⟨e1, e2⟩ := F64.exp_ok (hn n (by omega))
      obtain ⟨a1, a2, a3⟩ := F64.add_ok i1 e1 i2 e2
      refine ⟨⟨a1, i2.trans a2⟩, fun k hk => ?_⟩
      rcases Nat.lt_succ_iff_lt_or_eq.1 hk with h | rfl
      · exact (i3 k h).trans a2
      · exact a3
  obtain ⟨⟨s1, s2⟩, s3⟩ := hsum c le_rfl
  have hk := s3 j hj
  obtain ⟨i1, i2, i3, i4⟩ := inf_facts
  rw [exp_over hf h] at hk ⊢
  have hki : (F64.inf false).key = infBits := (F64.isInf_pos i1 (by unfold F64.inf; rw [F64.key_mk' _ F64.infBits_lt]; simp)).2
  have hsi : (fsum c fun k => Flt.exp (A i k) : F64).isInf = true := by
    have h1 := F64.absBits_eq (fsum c fun k => Flt.exp (A i k) : F64)
    rw [abs_of_nonneg s2] at h1
    rw [F64.not_nan_iff] at s1
    unfold F64.isInf
    simp only [decide_eq_true_eq]
    omega
  change (F64.div _ _).isNaN = true
  unfold F64.div
  rw [s1, hsi, i1, i2]
  simp only [Bool.or_self, Bool.and_self, Bool.true_or, Bool.false_eq_true, if_false, if_true]
  unfold F64.isNaN F64.nan
  rw [F64.absBits_mk' _ (by unfold infBits; norm_num)]
  unfold infBits; norm_num

/-- C84: if all entries of a row are at most -800, all of them become NaN. -/
theorem C84_underflow (w : World F64) (m : Mat) (r c : Nat) (A : Nat → Nat → F64) (hA : IsMat w m r c A) (hd : DistinctRows w m r) :
    wp (softmax m) w (fun _ w' => ∃ V, IsMat w' m r c V ∧ ∀ i j, i < r → j < c →
      (∀ k, k < c → (A i k).absBits < infBits ∧ (A i k).val ≤ -800) → (V i j).isNaN = true) := by
  refine wp_mono (softmax_spec hA hd) ?_
  rintro p w1 ⟨rfl, h1⟩
  refine ⟨_, h1.mat, fun i j _ hj hn => ?_⟩
  obtain ⟨z1, z2⟩ := zero_facts
  have hsum : ∀ n, n ≤ c → (fsum n fun k => Flt.exp (A i k) : F64).absBits < infBits ∧ (fsum n fun k => Flt.exp (A i k) : F64).val = 0 := fun n => by
    induction n with
    | zero =>
      intro _
      obtain ⟨z1, z2⟩ := f64_int (n := 0) (by norm_num) (by norm_num)
      exact ⟨z2, by simpa [fsum] using z1⟩
    | succ n ih =>
      intro hnc
      obtain ⟨i1, i2⟩ := ih (by omega)
      have e : (fsum (n + 1) fun k => Flt.exp (A i k) : F64) = F64.add (fsum n fun k => Flt.exp (A i k)) (F64.zero false) := by
        rw [← exp_under (hn n (by omega)).1 (hn n (by omega)).2]; rfl
      rw [e, F64.add_fin i1 z2, i2, z1, add_zero]
      unfold F64.round F64.zero
      rw [if_pos rfl]
      refine ⟨?_, F64.isZero_iff.1 ?_⟩
      · rw [F64.absBits_mk' _ (by norm_num)]; unfold infBits; norm_num
      · unfold F64.isZero; rw [F64.absBits_mk' _ (by norm_num)]; rfl
  obtain ⟨s1, s2⟩ := hsum c le_rfl
  rw [exp_under (hn j hj).1 (hn j hj).2]
  obtain ⟨n1, n2⟩ := F64.not_special s1
  obtain ⟨m1, m2⟩ := F64.not_special z2
  change (F64.div _ _).isNaN = true
  unfold F64.div
  rw [n1, n2, m1, m2, F64.isZero_iff.2 s2, F64.isZero_iff.2 z1]
  simp only [Bool.or_self, Bool.and_self, Bool.or_true, Bool.false_eq_true, if_false, if_true]
  unfold F64.isNaN F64.nan
  rw [F64.absBits_mk' _ (by unfold infBits; norm_num)]
  unfold infBits; norm_num

/-- C84: the claim is false. -/
theorem C84_false : ¬ C84_claim := by
  intro hc
  obtain ⟨w, m, h, hd⟩ := exists_mat (α := F64) (r := 1) (c := 1) (by decide) (by decide) (fun _ _ => Flt.ofInt 710)
  obtain ⟨v1, v2⟩ := f64_int (n := 710) (by norm_num) (by norm_num)
  obtain ⟨b, w1, e1, V, hV, hVle⟩ := wp_iff.1 (hc w m 1 1 _ h hd fun _ _ _ _ => v2)
  obtain ⟨b', w1', e1', V', hV', hN⟩ := wp_iff.1 (C84_overflow w m 1 1 _ h hd)
  rw [e1] at e1'
  obtain ⟨rfl, rfl⟩ : b = b' ∧ w1 = w1' := by simpa using e1'
  have hn := hN 0 0 (by decide) (by decide) (fun _ _ => (F64.not_special v2).1) v2 (by rw [v1]; norm_num)
  rw [← hV.entries_unique hV' (i := 0) (j := 0) (by decide) (by decide)] at hn
  have := (le_iff.1 (hVle 0 0 (by decide) (by decide)).1).2.1
  rw [hn] at this
  cases this

end NN
