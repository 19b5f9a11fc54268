import Verif.IEEE.F64
import Mathlib.Tactic.Linarith
import Mathlib.Tactic.Ring
import Mathlib.Tactic.NormNum
import Mathlib.Tactic.Positivity
import Mathlib.Tactic.FieldSimp
import Mathlib.Order.Monotone.Basic
/- Facts about binary64: decoding is strictly monotone, integers up to 2^53 are exact. -/

namespace NN
namespace F64

theorem absBits_mk' (s : Bool) {n : Nat} (h : n < 2 ^ 63) : (mk' s n).absBits = n := by
  unfold absBits mk'
  dsimp only
  rw [BitVec.toNat_ofNat]
  cases s
  · simp; omega
  · simp; omega

theorem sign_mk' (s : Bool) {n : Nat} (h : n < 2 ^ 63) : (mk' s n).sign = s := by
  unfold sign mk'
  dsimp only
  rw [BitVec.msb_eq_decide, BitVec.toNat_ofNat]
  cases s
  · simp; omega
  · simp; omega

theorem mag_lt_succ (b : Nat) : mag b < mag (b + 1) := by
  unfold mag
  have hp : (0 : ℝ) < (2 : ℝ) ^ (-1074 : ℤ) := by positivity
  by_cases h : (b + 1) % 2 ^ 52 = 0
  · -- next binade
    have e1 : (b + 1) / 2 ^ 52 = b / 2 ^ 52 + 1 := by omega
    have e2 : b % 2 ^ 52 = 2 ^ 52 - 1 := by omega
    rw [e1, h, e2, if_neg (Nat.succ_ne_zero (b / 2 ^ 52))]
    by_cases h0 : b / 2 ^ 52 = 0
    · rw [if_pos h0, h0]
      have : ((0 + 1 : ℕ) : ℤ) - 1075 = -1074 := by norm_num
      rw [this]
      have : (((2 ^ 52 - 1 : ℕ)) : ℝ) < ((2 ^ 52 + 0 : ℕ) : ℝ) := by norm_num
      exact mul_lt_mul_of_pos_right this hp
    · rw [if_neg h0]
      have e : (((b / 2 ^ 52 + 1 : ℕ) : ℤ) - 1075) = ((b / 2 ^ 52 : ℕ) - 1075 : ℤ) + 1 := by push_cast; ring
      rw [e, zpow_add_one₀ (by norm_num)]
      have hq : (0 : ℝ) < (2 : ℝ) ^ ((b / 2 ^ 52 : ℕ) - 1075 : ℤ) := by positivity
      have : (((2 ^ 52 + (2 ^ 52 - 1) : ℕ)) : ℝ) < ((2 ^ 52 + 0 : ℕ) : ℝ) * 2 := by norm_num
      calc _ < ((2 ^ 52 + 0 : ℕ) : ℝ) * 2 * (2 : ℝ) ^ ((b / 2 ^ 52 : ℕ) - 1075 : ℤ) := mul_lt_mul_of_pos_right this hq
        _ = _ := by ring
  · have e1 : (b + 1) / 2 ^ 52 = b / 2 ^ 52 := by omega
    have e2 : (b + 1) % 2 ^ 52 = b % 2 ^ 52 + 1 := by omega
    rw [e1, e2]
    by_cases h0 : b / 2 ^ 52 = 0
    · rw [if_pos h0, if_pos h0]
      refine mul_lt_mul_of_pos_right ?_ hp
      exact_mod_cast Nat.lt_succ_self _
    · rw [if_neg h0, if_neg h0]
      refine mul_lt_mul_of_pos_right ?_ (by positivity)
      exact_mod_cast Nat.lt_succ_self _

theorem mag_strictMono : StrictMono mag := strictMono_nat_of_lt_succ mag_lt_succ

theorem mag_zero : mag 0 = 0 := by unfold mag; simp

theorem mag_nonneg (b : Nat) : 0 ≤ mag b := by
  rw [← mag_zero]
  exact mag_strictMono.monotone (Nat.zero_le _)

theorem val_lt_iff (x y : F64) : x.val < y.val ↔ x.key < y.key := by
  unfold val key
  have hx := mag_nonneg x.absBits
  have hy := mag_nonneg y.absBits
  have hm : ∀ a b : Nat, mag a < mag b ↔ a < b := fun a b => mag_strictMono.lt_iff_lt
  have h0 : ∀ a : Nat, mag a = 0 ↔ a = 0 := fun a => by rw [← mag_zero]; exact mag_strictMono.injective.eq_iff
  cases x.sign <;> cases y.sign
  · simp [hm]
  · simp only [Bool.false_eq_true, if_false, if_true]
    constructor
    · intro h; linarith
    · intro h; omega
  · simp only [Bool.false_eq_true, if_false, if_true]
    constructor
    · intro h
      by_contra hc
      have h1 : x.absBits = 0 := by omega
      have h2 : y.absBits = 0 := by omega
      rw [h1, h2, mag_zero] at h
      simp at h
    · intro h
      by_contra hc
      have h1 : mag x.absBits = 0 := by linarith
      have h2 : mag y.absBits = 0 := by linarith
      rw [h0] at h1 h2
      omega
  · simp [hm]

/-- Decoding the bits composed in `roundBits`. -/
theorem mag_encode {k : ℤ} {n : Nat} (hk : -1074 ≤ k) (hn : n < 2 ^ 53) (h : k = -1074 ∨ 2 ^ 52 ≤ n) :
    mag ((k + 1074).toNat * 2 ^ 52 + n) = n * (2 : ℝ) ^ k := by
  obtain ⟨e, he⟩ : ∃ e : Nat, k + 1074 = e := ⟨(k + 1074).toNat, by omega⟩
  have hk' : k = e - 1074 := by omega
  rw [he, Int.toNat_natCast]
  unfold mag
  by_cases hs : n < 2 ^ 52
  · have e0 : e = 0 := by omega
    subst e0
    have : k = -1074 := by omega
    rw [this, if_pos (by omega)]
    congr 2
    omega
  · have e1 : (e * 2 ^ 52 + n) / 2 ^ 52 = e + 1 := by omega
    have e2 : 2 ^ 52 + (e * 2 ^ 52 + n) % 2 ^ 52 = n := by omega
    rw [e1, e2, if_neg (by omega), hk']
    congr 2
    push_cast; ring

theorem roundEven_int (n : ℤ) : roundEven (n : ℝ) = n := by
  unfold roundEven
  simp

/-- Numbers with at most 53 significant bits are exact. -/
theorem mag_roundBits {y : ℝ} (hy : 0 < y) {n : ℤ} (hn : y = n * (2 : ℝ) ^ ulpExp y) (hlt : ulpExp y < 971) :
    mag (roundBits y) = y ∧ roundBits y < infBits := by
  have hp : (0 : ℝ) < (2 : ℝ) ^ ulpExp y := by positivity
  have hq : y / (2 : ℝ) ^ ulpExp y = n := by rw [eq_comm, eq_div_iff hp.ne']; exact hn.symm
  have hk : -1074 ≤ ulpExp y := le_max_right _ _
  have hn0 : 0 < n := by
    have : (0 : ℝ) < n := by rw [← hq]; positivity
    exact_mod_cast this
  have hlog : Int.log 2 y ≤ ulpExp y + 52 := by have := le_max_left (Int.log 2 y - 52) (-1074); unfold ulpExp; omega
  have hn53 : n < 2 ^ 53 := by
    have h1 : y < (2 : ℝ) ^ (Int.log 2 y + 1) := by exact_mod_cast Int.lt_zpow_succ_log_self (b := 2) (by norm_num) y
    have h2 : (2 : ℝ) ^ (Int.log 2 y + 1) ≤ (2 : ℝ) ^ (53 + ulpExp y) := zpow_le_zpow_right₀ (by norm_num) (by omega)
    rw [zpow_add₀ (by norm_num) 53] at h2
    have h3 : (n : ℝ) < 2 ^ 53 := by
      rw [← hq, div_lt_iff₀ hp]
      calc y < _ := h1
        _ ≤ _ := h2
        _ = _ := by norm_num
    exact_mod_cast h3
  have h52 : ulpExp y = -1074 ∨ (2 : ℤ) ^ 52 ≤ n := by
    by_cases hc : ulpExp y = -1074
    · exact .inl hc
    · right
      have he : ulpExp y = Int.log 2 y - 52 := by
        unfold ulpExp at hc ⊢
        rcases max_choice (Int.log 2 y - 52) (-1074) with h | h
        · exact h
        · exact absurd h hc
      have h1 : (2 : ℝ) ^ (Int.log 2 y) ≤ y := by exact_mod_cast Int.zpow_log_le_self (b := 2) (by norm_num) hy
      have h3 : (2 : ℝ) ^ 52 ≤ n := by
        rw [← hq, le_div_iff₀ hp]
        calc (2 : ℝ) ^ 52 * (2 : ℝ) ^ ulpExp y = (2 : ℝ) ^ (52 + ulpExp y) := by rw [zpow_add₀ (by norm_num)]; norm_num
          _ = (2 : ℝ) ^ (Int.log 2 y) := by rw [he]; congr 1; ring
          _ ≤ y := h1
      exact_mod_cast h3
  obtain ⟨m, rfl⟩ : ∃ m : Nat, n = m := ⟨n.toNat, by omega⟩
  have hb : ¬ ((infBits : ℤ) ≤ (ulpExp y + 1074) * 2 ^ 52 + m) := by
    unfold infBits
    push_cast
    omega
  have e : roundBits y = (ulpExp y + 1074).toNat * 2 ^ 52 + m := by
    unfold roundBits
    rw [hq, roundEven_int]
    dsimp only
    rw [if_neg hb]
    omega
  refine ⟨?_, ?_⟩
  · rw [e, mag_encode hk (by omega) (by omega)]
    exact hn.symm
  · rw [e]
    have := hb
    unfold infBits at this ⊢
    push_cast at this
    omega

theorem ulpExp_nat {n : Nat} (hn : n ≤ 2 ^ 53) : ulpExp (n : ℝ) = Nat.log 2 n - 52 ∧ Nat.log 2 n ≤ 53 := by
  have h1 : Nat.log 2 n ≤ 53 := by
    have := Nat.log_mono_right (b := 2) hn
    rwa [Nat.log_pow (by norm_num)] at this
  refine ⟨?_, h1⟩
  unfold ulpExp
  rw [Int.log_natCast]
  omega

/-- Natural numbers up to 2^53 are exact. -/
theorem nat_exact {n : Nat} (h : 0 < n) (hn : n ≤ 2 ^ 53) : mag (roundBits (n : ℝ)) = n ∧ roundBits (n : ℝ) < infBits := by
  obtain ⟨he, hl⟩ := ulpExp_nat hn
  by_cases hc : Nat.log 2 n ≤ 52
  · refine mag_roundBits (by exact_mod_cast h) (n := n * 2 ^ (52 - Nat.log 2 n)) ?_ (by omega)
    rw [he]
    have : ((Nat.log 2 n : ℤ) - 52) = -((52 - Nat.log 2 n : ℕ) : ℤ) := by omega
    rw [this, zpow_neg, zpow_natCast]
    push_cast
    field_simp
  · have hn' : n = 2 ^ 53 := by
      have : 2 ^ Nat.log 2 n ≤ n := Nat.pow_log_le_self 2 h.ne'
      have e : Nat.log 2 n = 53 := by omega
      rw [e] at this
      omega
    refine mag_roundBits (by exact_mod_cast h) (n := 2 ^ 52) ?_ (by omega)
    have e : Nat.log 2 n = 53 := by omega
    rw [he, e, hn']
    norm_num

/-- What float64(n) is for |n| ≤ 2^53. -/
theorem ofInt_exact (n : Int) (h1 : -(2 ^ 53) ≤ n) (h2 : n ≤ 2 ^ 53) :
    (round false (n : ℝ)).val = n ∧ (round false (n : ℝ)).absBits < infBits := by
  have hi : infBits < 2 ^ 63 := by unfold infBits; norm_num
  by_cases h0 : n = 0
  · subst h0
    unfold round
    rw [if_pos (by norm_num)]
    unfold zero val
    rw [absBits_mk' _ (by norm_num), sign_mk' _ (by norm_num), mag_zero]
    exact ⟨by simp, by unfold infBits; norm_num⟩
  · have hr : (n : ℝ) ≠ 0 := by exact_mod_cast h0
    unfold round
    rw [if_neg hr]
    have ha : |(n : ℝ)| = (n.natAbs : ℕ) := by
      exact (Nat.cast_natAbs (α := ℝ) n).symm ▸ (Int.cast_abs).symm
    obtain ⟨e1, e2⟩ := nat_exact (n := n.natAbs) (by omega) (by omega)
    rw [ha]
    have hlt : roundBits (n.natAbs : ℝ) < 2 ^ 63 := by omega
    unfold val
    rw [absBits_mk' _ hlt, sign_mk' _ hlt, e1]
    refine ⟨?_, e2⟩
    by_cases hneg : (n : ℝ) < 0
    · rw [if_pos (by simpa using hneg), ← ha, abs_of_neg hneg]; ring
    · rw [if_neg (by simpa using hneg), ← ha, abs_of_nonneg (not_lt.1 hneg)]

theorem not_special {x : F64} (h : x.absBits < infBits) : x.isNaN = false ∧ x.isInf = false := by
  unfold isNaN isInf
  simp
  omega

theorem toInt_val {x : F64} (h : x.absBits < infBits) {n : Int} (hv : x.val = n) (h1 : -(2 ^ 63) ≤ n) (h2 : n < 2 ^ 63) : x.toInt = n := by
  obtain ⟨e1, e2⟩ := not_special h
  unfold toInt
  rw [e1, e2]
  simp only [Bool.or_self, Bool.false_eq_true, if_false]
  have hn : (if x.sign then -⌊mag x.absBits⌋ else ⌊mag x.absBits⌋) = n := by
    unfold val at hv
    cases hs : x.sign
    · rw [hs] at hv
      simp at hv ⊢
      rw [hv]; simp
    · rw [hs] at hv
      simp at hv ⊢
      have : mag x.absBits = ((-n : ℤ) : ℝ) := by push_cast; linarith
      rw [this, Int.floor_intCast]; ring
  rw [hn, if_pos ⟨h1, h2⟩]

theorem isZero_iff {x : F64} : x.isZero = true ↔ x.val = 0 := by
  unfold isZero val
  have h0 : mag x.absBits = 0 ↔ x.absBits = 0 := by
    constructor
    · intro h
      rw [← mag_zero] at h
      exact mag_strictMono.injective h
    · intro h; rw [h, mag_zero]
  cases x.sign <;> simp [h0]

theorem min_val {x y : F64} (hx : x.absBits < infBits) (hy : y.absBits < infBits) :
    (min x y).val = Min.min x.val y.val ∧ (min x y).absBits < infBits := by
  obtain ⟨x1, x2⟩ := not_special hx
  obtain ⟨y1, y2⟩ := not_special hy
  unfold min
  rw [x1, x2, y1, y2]
  simp only [Bool.false_and, Bool.or_self, Bool.false_eq_true, if_false]
  by_cases hz : x.isZero = true ∧ y.isZero = true
  · rw [if_pos (by simp [hz.1, hz.2]), isZero_iff.1 hz.1, isZero_iff.1 hz.2]
    unfold zero val
    rw [absBits_mk' _ (by norm_num), sign_mk' _ (by norm_num), mag_zero]
    refine ⟨by simp, by unfold infBits; norm_num⟩
  · rw [if_neg (by simpa using hz)]
    by_cases hk : x.key < y.key
    · rw [if_pos (by simpa using hk)]
      exact ⟨(min_eq_left ((val_lt_iff _ _).2 hk).le).symm, hx⟩
    · rw [if_neg (by simpa using hk)]
      refine ⟨(min_eq_right ?_).symm, hy⟩
      rw [← not_lt, val_lt_iff]; exact hk

end F64

instance [Libm] : FltInt F64 where
  toInt_ofInt n h1 h2 := by
    obtain ⟨e1, e2⟩ := F64.ofInt_exact n h1 h2
    exact F64.toInt_val e2 e1 (by omega) (by omega)
  toInt_min a b a1 a2 b1 b2 := by
    obtain ⟨e1, e2⟩ := F64.ofInt_exact a a1 a2
    obtain ⟨f1, f2⟩ := F64.ofInt_exact b b1 b2
    obtain ⟨g1, g2⟩ := F64.min_val e2 f2
    refine F64.toInt_val g2 (n := Min.min a b) ?_ (by omega) (by omega)
    rw [g1, e1, f1]
    push_cast
    rfl

end NN
