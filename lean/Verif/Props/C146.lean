import Verif.Model.LogFile
import Verif.Props.C132
import Verif.Props.C81_C82
import Verif.Lemmas.LoadModel
import Verif.IEEE.Error
/-
C146: what a log file tells: its bytes determine the lines, and the numbers in them to six decimals.
-/

namespace NN

/-! ### Specification -/

/-- Digits as ASCII text. -/
def digitText (ds : List Nat) : Str := ds.map fun d => BitVec.ofNat 8 (48 + d)

/-- The number written with these digits. -/
def numeral (ds : List Nat) : Nat := ds.foldl (fun n d => 10 * n + d) 0

/-- Two float64 that %f may print alike: both NaN, the same infinity, or numbers with the same sign bit less than 10⁻⁶ apart (or just so). -/
def Alike (x y : F64) : Prop :=
  (x.isNaN = true ∧ y.isNaN = true) ∨ (x.isInf = true ∧ y.isInf = true ∧ x.sign = y.sign) ∨
    (x.absBits < F64.infBits ∧ y.absBits < F64.infBits ∧ x.sign = y.sign ∧ |x.val - y.val| ≤ 1 / 10 ^ 6)

/-- Two log lines that agree up to the seventh decimal of the numbers in them. -/
def LineAlike : LogEvent F64 → LogEvent F64 → Prop
  | .info e l a, .info e' l' a' => e = e' ∧ Alike l l' ∧ Alike a a'
  | .valInfo e l a, .valInfo e' l' a' => e = e' ∧ Alike l l' ∧ Alike a a'
  | .error st er, .error st' er' => st = st' ∧ er = er'
  | .warnVersion v, .warnVersion v' => v = v'
  | _, _ => False

/-! ### Digits -/

theorem numeral_eq (ds : List Nat) : numeral ds = Nat.ofDigits 10 ds.reverse := by
  unfold numeral
  induction ds using List.reverseRecOn with
  | nil => rfl
  | append_singleton ds d ih =>
    rw [List.foldl_append, ih, List.reverse_append]
    simp [Nat.ofDigits_cons]
    omega

theorem digitText_inj {ds es : List Nat} (h1 : ∀ d ∈ ds, d < 10) (g1 : ∀ d ∈ es, d < 10) (h : digitText ds = digitText es) : ds = es := by
  induction ds generalizing es with
  | nil => cases es with
    | nil => rfl
    | cons e es => cases h
  | cons d ds ih => cases es with
    | nil => cases h
    | cons e es =>
      simp only [digitText, List.map_cons, List.cons.injEq] at h
      rw [digit_inj (h1 d (by simp)) (g1 e (by simp)) h.1, ih (fun x hx => h1 x (by simp [hx])) (fun x hx => g1 x (by simp [hx])) h.2]

theorem digitText_not_mem {c : Byte} (hc : ∀ d < 10, BitVec.ofNat 8 (48 + d) ≠ c) {ds : List Nat} (h : ∀ d ∈ ds, d < 10) : c ∉ digitText ds := by
  intro hm
  obtain ⟨d, hd, e⟩ := List.mem_map.1 hm
  exact hc d (h d hd) e

theorem numeral_zeros (k : Nat) (ds : List Nat) : numeral (List.replicate k 0 ++ ds) = numeral ds := by
  unfold numeral
  rw [List.foldl_append]
  congr 1
  induction k with
  | zero => rfl
  | succ k ih => rw [List.replicate_succ, List.foldl_cons]; exact ih

theorem decimalNat_digits (n : Nat) : ∃ ds : List Nat, (∀ d ∈ ds, d < 10) ∧ ds ≠ [] ∧ (∀ r, ds = 0 :: r → r = []) ∧ numeral ds = n ∧
    decimalNat n = digitText ds := by
  obtain ⟨ds, h1, h2, h3, h4, h5, h6⟩ := decimalNat_eq n
  refine ⟨ds, h1, h2, fun r hr => ?_, by rw [numeral_eq, h3], h6⟩
  by_cases hn : n = 0
  · rw [h5 hn] at hr
    exact (List.cons.inj hr).2.symm
  · exact absurd rfl (h4 0 (by rw [hr]; rfl) hn)

theorem numeral_lt {ds : List Nat} (h : ∀ d ∈ ds, d < 10) : numeral ds < 10 ^ ds.length := by
  rw [numeral_eq]
  have := Nat.ofDigits_lt_base_pow_length (b := 10) (by decide) (l := ds.reverse) (fun x hx => h x (List.mem_reverse.1 hx))
  rwa [List.length_reverse] at this

theorem padded_digits (wid n : Nat) : ∃ ds : List Nat, (∀ d ∈ ds, d < 10) ∧ ds ≠ [] ∧ numeral ds = n ∧ (n < 10 ^ wid → 0 < wid → ds.length = wid) ∧
    padded wid n = digitText ds := by
  obtain ⟨ds, h1, h2, h3, h4, h5⟩ := decimalNat_digits n
  have hlen : (decimalNat n).length = ds.length := by rw [h5]; simp [digitText]
  refine ⟨List.replicate (wid - ds.length) 0 ++ ds, ?_, by simp [h2], by rw [numeral_zeros, h4], fun hn hw => ?_, ?_⟩
  · intro d hd
    rcases List.mem_append.1 hd with hd | hd
    · rw [(List.mem_replicate.1 hd).2]; decide
    · exact h1 d hd
  · have : ds.length ≤ wid := by
      by_contra hcon
      cases ds with
      | nil => exact h2 rfl
      | cons d ds =>
        by_cases hd : d = 0
        · subst hd
          rw [h3 ds rfl] at hcon
          simp at hcon
          omega
        · have : 10 ^ ds.length ≤ numeral (d :: ds) := by
            rw [numeral_eq, List.reverse_cons, Nat.ofDigits_append, List.length_reverse]
            have : 1 ≤ d := Nat.pos_of_ne_zero hd
            simp only [Nat.ofDigits_singleton]
            exact (Nat.le_mul_of_pos_right _ this).trans (Nat.le_add_left _ _)
          have h10 : 10 ^ wid ≤ 10 ^ ds.length := Nat.pow_le_pow_right (by decide) (by simp at hcon; omega)
          omega
    simp
    omega
  · unfold padded
    rw [hlen, h5]
    simp [digitText]

theorem padded_inj {wid m n : Nat} (h : padded wid m = padded wid n) : m = n := by
  obtain ⟨ds, h1, -, h2, -, h3⟩ := padded_digits wid m
  obtain ⟨es, g1, -, g2, -, g3⟩ := padded_digits wid n
  rw [← h2, ← g2, digitText_inj h1 g1 (by rw [← h3, ← g3, h])]

theorem padded_not_mem {c : Byte} (hc : ∀ d < 10, BitVec.ofNat 8 (48 + d) ≠ c) (wid n : Nat) : c ∉ padded wid n := by
  obtain ⟨ds, h1, -, -, -, h3⟩ := padded_digits wid n
  rw [h3]
  exact digitText_not_mem hc h1

theorem decimalNat_not_mem {c : Byte} (hc : ∀ d < 10, BitVec.ofNat 8 (48 + d) ≠ c) (n : Nat) : c ∉ decimalNat n := by
  obtain ⟨ds, h1, -, -, -, h3⟩ := decimalNat_digits n
  rw [h3]
  exact digitText_not_mem hc h1

theorem decimal_not_mem {c : Byte} (hc : ∀ d < 10, BitVec.ofNat 8 (48 + d) ≠ c) (h45 : c ≠ 45) (n : Int) : c ∉ decimal n := by
  unfold decimal
  split
  · rw [List.mem_cons, not_or]
    exact ⟨h45, decimalNat_not_mem hc _⟩
  · exact decimalNat_not_mem hc _

/-! ### Numbers printed by %f -/

/-- The millionths that %f prints. -/
noncomputable def micros (x : F64) : Nat := (F64.roundEven (F64.mag x.absBits * 10 ^ 6)).toNat

theorem mag_nonneg' (b : Nat) : 0 ≤ F64.mag b := by
  unfold F64.mag
  split <;> positivity

theorem abs_val (x : F64) : |x.val| = F64.mag x.absBits := by
  unfold F64.val
  split
  · rw [abs_neg, abs_of_nonneg (mag_nonneg' _)]
  · rw [abs_of_nonneg (mag_nonneg' _)]

theorem micros_dist (x : F64) : |(micros x : ℝ) / 10 ^ 6 - abs x.val| ≤ 1 / (2 * 10 ^ 6) := by
  have h := F64.roundEven_dist (F64.mag x.absBits * 10 ^ 6)
  have h0 : 0 ≤ F64.roundEven (F64.mag x.absBits * 10 ^ 6) := F64.int_le_roundEven (by push_cast; have := mag_nonneg' x.absBits; positivity)
  have e : ((micros x : Nat) : ℝ) = (F64.roundEven (F64.mag x.absBits * 10 ^ 6) : ℝ) := by
    unfold micros
    rw [← Int.cast_natCast, Int.toNat_of_nonneg h0]
  rw [← e] at h
  rw [abs_val, show (micros x : ℝ) / 10 ^ 6 - F64.mag x.absBits = ((micros x : ℝ) - F64.mag x.absBits * 10 ^ 6) / 10 ^ 6 by ring, abs_div,
    abs_of_pos (show (0 : ℝ) < 10 ^ 6 by norm_num)]
  rw [div_le_iff₀ (by norm_num)]
  linarith

theorem fmtF_fin {x : F64} (h : x.absBits < F64.infBits) :
    fmtF x = (if x.sign then [45] else []) ++ decimalNat (micros x / 10 ^ 6) ++ [46] ++ padded 6 (micros x % 10 ^ 6) := by
  have h1 : x.isNaN = false := by unfold F64.isNaN; exact decide_eq_false (by omega)
  have h2 : x.isInf = false := by unfold F64.isInf; exact decide_eq_false (by omega)
  unfold fmtF
  rw [h1, h2]
  rfl

theorem F64.cases_fin (x : F64) : x.isNaN = true ∨ (x.isNaN = false ∧ x.isInf = true) ∨ x.absBits < F64.infBits := by
  unfold F64.isNaN F64.isInf
  simp only [decide_eq_true_eq, decide_eq_false_iff_not]
  omega

/-- C146: a finite float64 is printed by %f as a numeral with six decimals, without needless zeros in front and with a minus sign if its sign
bit is set; the numeral is as near to it as six decimals can be.  NaN and the infinities are printed as words. -/
theorem C146_float (x : F64) :
    (x.isNaN = true → fmtF x = str "NaN") ∧ (x.isInf = true → fmtF x = if x.sign then str "-Inf" else str "+Inf") ∧
    (x.absBits < F64.infBits → ∃ ip fp : List Nat, (∀ d ∈ ip ++ fp, d < 10) ∧ ip ≠ [] ∧ (∀ r, ip = 0 :: r → r = []) ∧ fp.length = 6 ∧
      fmtF x = (if x.sign then str "-" else []) ++ digitText ip ++ str "." ++ digitText fp ∧
      |(numeral (ip ++ fp) : ℝ) / 10 ^ 6 - abs x.val| ≤ 1 / (2 * 10 ^ 6)) := by
  refine ⟨fun h => by unfold fmtF; rw [h]; rfl, fun h => ?_, fun h => ?_⟩
  · have : x.isNaN = false := by
      unfold F64.isNaN; unfold F64.isInf at h
      simp only [decide_eq_true_eq] at h
      exact decide_eq_false (by omega)
    unfold fmtF; rw [h, this]; rfl
  · obtain ⟨ip, h1, h2, h3, h4, h5⟩ := decimalNat_digits (micros x / 10 ^ 6)
    obtain ⟨fp, g1, g2, g3, g4, g5⟩ := padded_digits 6 (micros x % 10 ^ 6)
    have hl : fp.length = 6 := g4 (Nat.mod_lt _ (by decide)) (by decide)
    refine ⟨ip, fp, fun d hd => (List.mem_append.1 hd).elim (h1 d) (g1 d), h2, h3, hl, ?_, ?_⟩
    · rw [fmtF_fin h, h5, g5]; rfl
    · have : numeral (ip ++ fp) = micros x := by
        rw [numeral_eq, List.reverse_append, Nat.ofDigits_append, List.length_reverse, ← numeral_eq, ← numeral_eq, h4, g3, hl]
        exact Nat.mod_add_div _ _
      rw [this]
      exact micros_dist x

theorem fmtF_not_mem {c : Byte} (hc : ∀ d < 10, BitVec.ofNat 8 (48 + d) ≠ c) (hw : c ∉ str "NaN-Inf+Inf.") (x : F64) : c ∉ fmtF x := by
  have hs : ∀ s : Str, (∀ b ∈ s, b ∈ str "NaN-Inf+Inf.") → c ∉ s := fun s h hm => hw (h c hm)
  rcases x.cases_fin with h | ⟨h, h'⟩ | h
  · rw [(C146_float x).1 h]; exact hs _ (by decide)
  · rw [(C146_float x).2.1 h']
    split <;> exact hs _ (by decide)
  · rw [fmtF_fin h]
    simp only [List.mem_append, not_or]
    refine ⟨⟨⟨?_, decimalNat_not_mem hc _⟩, hs _ (by decide)⟩, padded_not_mem hc _ _⟩
    split
    · exact hs _ (by decide)
    · simp

theorem fmtF_head {x : F64} (h : x.absBits < F64.infBits) : ∃ d r, d < 10 ∧ fmtF x = (if x.sign then [45] else []) ++ BitVec.ofNat 8 (48 + d) :: r := by
  obtain ⟨d, r, hd, e⟩ := decimalNat_head (micros x / 10 ^ 6)
  refine ⟨d, r ++ [46] ++ padded 6 (micros x % 10 ^ 6), hd, ?_⟩
  rw [fmtF_fin h, e]
  simp

theorem digit_word {d : Nat} (hd : d < 10) : BitVec.ofNat 8 (48 + d) ≠ (78 : Byte) ∧ BitVec.ofNat 8 (48 + d) ≠ (43 : Byte) ∧
    BitVec.ofNat 8 (48 + d) ≠ (73 : Byte) ∧ BitVec.ofNat 8 (48 + d) ≠ (45 : Byte) ∧ BitVec.ofNat 8 (48 + d) ≠ (44 : Byte) ∧
    BitVec.ofNat 8 (48 + d) ≠ (46 : Byte) ∧ BitVec.ofNat 8 (48 + d) ≠ (10 : Byte) ∧ BitVec.ofNat 8 (48 + d) ≠ (47 : Byte) ∧
    BitVec.ofNat 8 (48 + d) ≠ (32 : Byte) ∧ BitVec.ofNat 8 (48 + d) ≠ (58 : Byte) := by
  interval_cases d <;> decide

/-- Numbers that %f prints alike are alike. -/
theorem fmtF_alike {x y : F64} (h : fmtF x = fmtF y) : Alike x y := by
  have words : ∀ (z : F64) (hz : z.absBits < F64.infBits) (s : Str), (s = str "NaN" ∨ s = str "-Inf" ∨ s = str "+Inf") → fmtF z ≠ s := by
    intro z hz s hs e
    obtain ⟨d, r, hd, e'⟩ := fmtF_head hz
    obtain ⟨n1, n2, n3, n4, -⟩ := digit_word hd
    rw [e'] at e
    rcases hs with rfl | rfl | rfl
    · have c : str "NaN" = [78, 97, 78] := rfl
      rw [c] at e
      split at e
      · exact absurd (List.cons.inj e).1 (by decide)
      · exact n1 (List.cons.inj e).1
    · have c : str "-Inf" = [45, 73, 110, 102] := rfl
      rw [c] at e
      split at e
      · exact n3 (List.cons.inj (List.cons.inj e).2).1
      · exact n4 (List.cons.inj e).1
    · have c : str "+Inf" = [43, 73, 110, 102] := rfl
      rw [c] at e
      split at e
      · exact absurd (List.cons.inj e).1 (by decide)
      · exact n2 (List.cons.inj e).1
  have infw : ∀ z : F64, (if z.sign then str "-Inf" else str "+Inf") = str "NaN" ∨ (if z.sign then str "-Inf" else str "+Inf") = str "-Inf" ∨
      (if z.sign then str "-Inf" else str "+Inf") = str "+Inf" := fun z => by split <;> simp
  rcases x.cases_fin with hx | ⟨hx, hx'⟩ | hx <;> rcases y.cases_fin with hy | ⟨hy, hy'⟩ | hy
  · exact .inl ⟨hx, hy⟩
  · rw [(C146_float x).1 hx, (C146_float y).2.1 hy'] at h
    split at h <;> exact absurd h (by decide)
  · exact absurd (h.symm.trans ((C146_float x).1 hx)) (words y hy _ (.inl rfl))
  · rw [(C146_float y).1 hy, (C146_float x).2.1 hx'] at h
    split at h <;> exact absurd h (by decide)
  · refine .inr (.inl ⟨hx', hy', ?_⟩)
    rw [(C146_float x).2.1 hx', (C146_float y).2.1 hy'] at h
    cases hs : x.sign <;> cases hs' : y.sign <;> rw [hs, hs'] at h <;> first | rfl | exact absurd h (by decide)
  · exact absurd (h.symm.trans ((C146_float x).2.1 hx')) (words y hy _ (infw x))
  · exact absurd (h.trans ((C146_float y).1 hy)) (words x hx _ (.inl rfl))
  · exact absurd (h.trans ((C146_float y).2.1 hy')) (words x hx _ (infw y))
  · have hsign : x.sign = y.sign := by
      obtain ⟨d, r, hd, e⟩ := fmtF_head hx
      obtain ⟨d', r', hd', e'⟩ := fmtF_head hy
      rw [e, e'] at h
      cases hs : x.sign <;> cases hs' : y.sign <;> rw [hs, hs'] at h
      · exact absurd (List.cons.inj h).1 (digit_word hd).2.2.2.1
      · exact absurd (List.cons.inj h).1.symm (digit_word hd').2.2.2.1
    have hk : micros x = micros y := by
      rw [fmtF_fin hx, fmtF_fin hy, hsign, List.append_assoc, List.append_assoc, List.append_assoc, List.append_assoc] at h
      have h1 := List.append_cancel_left h
      have hdot : ∀ d < 10, BitVec.ofNat 8 (48 + d) ≠ (46 : Byte) := fun d hd => (digit_word hd).2.2.2.2.2.1
      obtain ⟨h2, h3⟩ := split_at (decimalNat_not_mem hdot _) (decimalNat_not_mem hdot _) h1
      have := decimalNat_inj h2
      have := padded_inj h3
      omega
    refine .inr (.inr ⟨hx, hy, hsign, ?_⟩)
    have a := micros_dist x
    have b := micros_dist y
    rw [hk] at a
    have e : |x.val - y.val| = |abs x.val - abs y.val| := by
      rw [abs_val, abs_val]
      unfold F64.val
      rw [hsign]
      split
      · rw [← abs_neg]; congr 1; ring
      · rfl
    rw [e]
    rw [abs_le] at a b ⊢
    constructor <;> linarith [a.1, a.2, b.1, b.2]

/-- C146: what a log cannot tell: every number from 0 to 5·10⁻⁷ is printed as 0.000000, and every negative one down to -5·10⁻⁷ as -0.000000. -/
theorem C146_zero (x : F64) (hf : x.absBits < F64.infBits) (h : |x.val| ≤ 5 / 10 ^ 7) :
    fmtF x = if x.sign then str "-0.000000" else str "0.000000" := by
  have hm : micros x = 0 := by
    unfold micros
    rw [← abs_val]
    have h0 : 0 ≤ |x.val| * 10 ^ 6 := by positivity
    have h1 : |x.val| * 10 ^ 6 ≤ 1 / 2 := by linarith
    have hfl : ⌊|x.val| * 10 ^ 6⌋ = 0 := Int.floor_eq_zero_iff.2 ⟨h0, by linarith⟩
    unfold F64.roundEven
    rw [hfl]
    split
    · rfl
    · rw [if_neg (by push_cast; linarith), if_pos (by decide)]
      rfl
  rw [fmtF_fin hf, hm]
  have d0 : decimalNat 0 = [48] := rfl
  show _ ++ decimalNat 0 ++ [46] ++ padded 6 0 = _
  unfold padded
  rw [d0]
  split <;> decide

/-! ### Lines -/

theorem Err.Exact.text {e : Err} {t : Str} (h : e.Exact t) : e.Tail t := h.1

theorem LogEvent.Exact.text {l : LogEvent F64} {s : Str} (h : l.Exact s) : l.Text s := by
  cases l with
  | info e a b => exact ⟨_, ⟨_, _, rfl⟩, by rw [h]; simp only [List.append_assoc]; rfl⟩
  | valInfo e a b => exact ⟨_, ⟨_, _, rfl⟩, by rw [h]; simp only [List.append_assoc]; rfl⟩
  | error st er =>
    obtain ⟨p, t, h1, h2, rfl⟩ := h
    exact ⟨_, ⟨p, t, h1, h2.1, rfl⟩, rfl⟩
  | warnVersion v => exact ⟨_, rfl, h⟩

theorem newline_digit : ∀ d < 10, BitVec.ofNat 8 (48 + d) ≠ (10 : Byte) := fun _ hd => (digit_word hd).2.2.2.2.2.2.1
theorem comma_digit : ∀ d < 10, BitVec.ofNat 8 (48 + d) ≠ (44 : Byte) := fun _ hd => (digit_word hd).2.2.2.2.1
theorem slash_digit : ∀ d < 10, BitVec.ofNat 8 (48 + d) ≠ (47 : Byte) := fun _ hd => (digit_word hd).2.2.2.2.2.2.2.1
theorem space_digit : ∀ d < 10, BitVec.ofNat 8 (48 + d) ≠ (32 : Byte) := fun _ hd => (digit_word hd).2.2.2.2.2.2.2.2.1
theorem colon_digit : ∀ d < 10, BitVec.ofNat 8 (48 + d) ≠ (58 : Byte) := fun _ hd => (digit_word hd).2.2.2.2.2.2.2.2.2

theorem Err.Exact.newline {e : Err} {h t : Str} (hh : e.head = some h) (ht : e.Exact t) : (10 : Byte) ∉ h ++ t := by
  have hf : ∀ x, (10 : Byte) ∉ fmtF x := fmtF_not_mem newline_digit (by decide)
  have hd : ∀ i, (10 : Byte) ∉ decimal i := decimal_not_mem newline_digit (by decide)
  have hc : (10 : Byte) ∉ str ", " := by decide
  rw [List.mem_append, not_or]
  obtain ⟨h1, h2⟩ := ht
  constructor
  · cases e <;> first | (obtain rfl := Option.some.inj hh; decide) | cases hh
  · cases e <;> first
      | (obtain rfl : t = [] := h1; simp)
      | (obtain rfl : t = _ := h1; simp only [List.mem_append, not_or]; exact ⟨⟨hd _, hc⟩, hd _⟩)
      | (obtain rfl : t = _ := h1; exact hd _)
      | (obtain ⟨x, rfl⟩ := h2 (by simp); exact hf x)

/-- A line about an epoch or an error has no newline in its text. -/
theorem LogEvent.Exact.newline {l : LogEvent F64} {s : Str} (h : l.Exact s) (hl : ∀ v, l ≠ .warnVersion v) : (10 : Byte) ∉ s := by
  have hf : ∀ x, (10 : Byte) ∉ fmtF x := fmtF_not_mem newline_digit (by decide)
  have hd : ∀ i, (10 : Byte) ∉ decimal i := decimal_not_mem newline_digit (by decide)
  cases l with
  | info e a b =>
    obtain rfl : s = _ := h
    simp only [List.mem_append, not_or]
    exact ⟨⟨⟨⟨⟨by decide, hd _⟩, by decide⟩, hf _⟩, by decide⟩, hf _⟩
  | valInfo e a b =>
    obtain rfl : s = _ := h
    simp only [List.mem_append, not_or]
    exact ⟨⟨⟨⟨⟨by decide, hd _⟩, by decide⟩, hf _⟩, by decide⟩, hf _⟩
  | error st er =>
    obtain ⟨p, t, h1, h2, rfl⟩ := h
    rw [List.mem_append, not_or]
    exact ⟨by cases st <;> decide, h2.newline h1⟩
  | warnVersion v => exact absurd rfl (hl v)

theorem exact_alike {l l' : LogEvent F64} {s : Str} (h : l.Exact s) (h' : l'.Exact s) : LineAlike l l' := by
  have hk := C132_line l l' s h.text h'.text
  have hf : ∀ x, (44 : Byte) ∉ fmtF x := fmtF_not_mem comma_digit (by decide)
  cases l with
  | info e a b =>
    cases l' with
    | info e' a' b' =>
      obtain rfl := LineKind.training.inj hk
      have g := h.symm.trans h'
      simp only [List.append_assoc] at g
      have g1 := List.append_cancel_left (List.append_cancel_left (List.append_cancel_left g))
      have c : ∀ x, str ", Accuracy: " ++ x = 44 :: (str " Accuracy: " ++ x) := fun _ => rfl
      rw [c, c] at g1
      obtain ⟨g2, g3⟩ := split_at (hf _) (hf _) g1
      exact ⟨rfl, fmtF_alike g2, fmtF_alike (List.append_cancel_left g3)⟩
    | _ => cases hk
  | valInfo e a b =>
    cases l' with
    | valInfo e' a' b' =>
      obtain rfl := LineKind.validation.inj hk
      have g := h.symm.trans h'
      simp only [List.append_assoc] at g
      have g1 := List.append_cancel_left (List.append_cancel_left (List.append_cancel_left g))
      have c : ∀ x, str ", Validation Accuracy: " ++ x = 44 :: (str " Validation Accuracy: " ++ x) := fun _ => rfl
      rw [c, c] at g1
      obtain ⟨g2, g3⟩ := split_at (hf _) (hf _) g1
      exact ⟨rfl, fmtF_alike g2, fmtF_alike (List.append_cancel_left g3)⟩
    | _ => cases hk
  | error st er =>
    cases l' with
    | error st' er' => exact LineKind.failure.inj hk
    | _ => cases hk
  | warnVersion v =>
    cases l' with
    | warnVersion v' => exact LineKind.version.inj hk
    | _ => cases hk

theorem Stamp.split {t t' : Stamp} {u u' : Str} (h : t.text ++ u = t'.text ++ u') : t = t' ∧ u = u' := by
  unfold Stamp.text at h
  have c1 : ∀ x, str "/" ++ x = 47 :: x := fun _ => rfl
  have c2 : ∀ x, str " " ++ x = 32 :: x := fun _ => rfl
  have c3 : ∀ x, str ":" ++ x = 58 :: x := fun _ => rfl
  simp only [List.append_assoc, c1, c2, c3] at h
  obtain ⟨a1, h⟩ := split_at (padded_not_mem slash_digit _ _) (padded_not_mem slash_digit _ _) h
  obtain ⟨a2, h⟩ := split_at (padded_not_mem slash_digit _ _) (padded_not_mem slash_digit _ _) h
  obtain ⟨a3, h⟩ := split_at (padded_not_mem space_digit _ _) (padded_not_mem space_digit _ _) h
  obtain ⟨a4, h⟩ := split_at (padded_not_mem colon_digit _ _) (padded_not_mem colon_digit _ _) h
  obtain ⟨a5, h⟩ := split_at (padded_not_mem colon_digit _ _) (padded_not_mem colon_digit _ _) h
  obtain ⟨a6, h⟩ := split_at (padded_not_mem space_digit _ _) (padded_not_mem space_digit _ _) h
  refine ⟨?_, h⟩
  cases t; cases t'
  simp only [Stamp.mk.injEq]
  exact ⟨padded_inj a1, padded_inj a2, padded_inj a3, padded_inj a4, padded_inj a5, padded_inj a6⟩

/-- The prefixes of the loggers. -/
def prefixTable : List Str := [str "[info]: ", str "[error]: ", str "[warning]: "]

theorem prefixTable_apart : prefixTable.Pairwise fun a b => ¬ a <+: b ∧ ¬ b <+: a := by
  unfold prefixTable
  decide +kernel

/-- The place of a prefix in the table. -/
def LogEvent.level : LogEvent F64 → Nat
  | .info _ _ _ => 0 | .valInfo _ _ _ => 0 | .error _ _ => 1 | .warnVersion _ => 2

theorem prefixTable_get (l : LogEvent F64) : prefixTable[l.level]? = some l.prefix := by cases l <;> rfl

/-- C146: the bytes written to a log tell how many lines there are and what they say: the time, whether it is about the training data, the
validation data, an error or a version, which epoch, which stage and error or which version, and the loss and the accuracy up to the sixth
decimal.  This holds although the five bytes of a version are copied from the file and may contain newlines. -/
theorem C146_file (a b : List (Stamp × LogEvent F64)) (s : Str) (hva : ∀ p ∈ a, ∀ v, p.2 = .warnVersion v → v.length = 5)
    (hvb : ∀ p ∈ b, ∀ v, p.2 = .warnVersion v → v.length = 5) (ha : LogText a s) (hb : LogText b s) :
    List.Forall₂ (fun p q => p.1 = q.1 ∧ LineAlike p.2 q.2) a b := by
  have hne : ∀ (l : LogEvent F64) (u : Str), l.prefix ++ u ≠ [] := fun l u h => by
    have : l.prefix = [] := (List.append_eq_nil_iff.1 h).1
    cases l <;> cases this
  induction a generalizing b s with
  | nil =>
    cases b with
    | nil => exact .nil
    | cons q b =>
      obtain ⟨x, u, -, -, e⟩ := hb
      exact absurd (e.symm.trans ha) (hne _ _)
  | cons p a ih =>
    cases b with
    | nil =>
      obtain ⟨x, u, -, -, e⟩ := ha
      exact absurd (e.symm.trans hb) (hne _ _)
    | cons q b =>
      obtain ⟨t, l⟩ := p
      obtain ⟨t', l'⟩ := q
      obtain ⟨x, u, h1, h2, e⟩ := ha
      obtain ⟨x', u', h1', h2', e'⟩ := hb
      have h := e.symm.trans e'
      have hlev : l.level = l'.level := apart_of_pairwise (f := id) prefixTable_apart (prefixTable_get l) (prefixTable_get l') h
      have hpre : l.prefix = l'.prefix := by
        have := prefixTable_get l
        rw [hlev, prefixTable_get l'] at this
        exact (Option.some.inj this).symm
      rw [hpre] at h
      obtain ⟨rfl, h3⟩ := Stamp.split (List.append_cancel_left h)
      clear h
      have hx : x = x' ∧ u = u' := by
        by_cases hw : l.level = 2
        · cases l with
          | warnVersion v =>
            cases l' with
            | warnVersion v' =>
              have l1 := hva _ (List.mem_cons_self ..) v rfl
              have l2 := hvb _ (List.mem_cons_self ..) v' rfl
              obtain rfl : x = _ := h1
              obtain rfl : x' = _ := h1'
              have := List.append_inj h3 (by simp only [List.length_append, l1, l2])
              exact ⟨this.1, (List.cons.inj this.2).2⟩
            | _ => cases hlev
          | _ => cases hw
        · have n1 : ∀ v, l ≠ .warnVersion v := fun v e => hw (by rw [e]; rfl)
          have n2 : ∀ v, l' ≠ .warnVersion v := fun v e => hw (by rw [hlev, e]; rfl)
          exact split_at (h1.newline n1) (h1'.newline n2) h3
      obtain ⟨rfl, rfl⟩ := hx
      exact .cons ⟨rfl, exact_alike h1 h1'⟩ (ih b u (fun p hp => hva p (List.mem_cons_of_mem _ hp)) (fun p hp => hvb p (List.mem_cons_of_mem _ hp)) h2 h2')

theorem one_le_big : (1 : ℝ) ≤ F64.big := by
  unfold F64.big
  exact one_le_mul_of_one_le_of_one_le (by norm_num) (one_le_zpow₀ (by norm_num) (by norm_num))

/-- C146: from the accuracy in a log the number of right answers can be told, if there are at most half a million. -/
theorem C146_accuracy [Libm] (n k k' : Nat) (hn : 0 < n) (hle : n ≤ 500000) (hk : k ≤ n) (hk' : k' ≤ n)
    (h : fmtF ((Flt.ofInt (k : Int) : F64) /. Flt.ofInt (n : Int)) = fmtF ((Flt.ofInt (k' : Int) : F64) /. Flt.ofInt (n : Int))) : k = k' := by
  have hn' : (0 : ℝ) < n := by exact_mod_cast hn
  obtain ⟨vn, fn⟩ := F64.ofInt_exact (n : Int) (by omega) (by omega)
  have hz : (F64.round false ((n : Int) : ℝ)).val ≠ 0 := by rw [vn]; exact_mod_cast hn.ne'
  have key : ∀ q : Nat, q ≤ n → ((Flt.ofInt (q : Int) : F64) /. Flt.ofInt (n : Int)).absBits < F64.infBits ∧
      |((Flt.ofInt (q : Int) : F64) /. Flt.ofInt (n : Int)).val - q / n| ≤ 1 / 10 ^ 8 := by
    intro q hq
    obtain ⟨vq, fq⟩ := F64.ofInt_exact (q : Int) (by omega) (by omega)
    have hqn : |(F64.round false ((q : Int) : ℝ)).val / (F64.round false ((n : Int) : ℝ)).val| ≤ 1 := by
      rw [vq, vn, abs_of_nonneg (by positivity)]
      push_cast
      rw [div_le_one hn']
      exact_mod_cast hq
    obtain ⟨a, b⟩ := F64.div_err fq fn hz (hqn.trans one_le_big)
    refine ⟨a, ?_⟩
    rw [vq, vn] at b hqn
    push_cast at b hqn
    refine b.trans ?_
    have h1 : F64.ueps ≤ 1 / 10 ^ 9 := by unfold F64.ueps; norm_num
    have h2 : F64.tiny ≤ F64.ueps := by unfold F64.tiny F64.ueps; exact zpow_le_zpow_right₀ (by norm_num) (by norm_num)
    nlinarith [F64.ueps_pos]
  obtain ⟨f1, d1⟩ := key k hk
  obtain ⟨f2, d2⟩ := key k' hk'
  have hal : |((Flt.ofInt (k : Int) : F64) /. Flt.ofInt (n : Int)).val - ((Flt.ofInt (k' : Int) : F64) /. Flt.ofInt (n : Int)).val| ≤ 1 / 10 ^ 6 := by
    rcases fmtF_alike h with h | h | h
    · have := h.1; unfold F64.isNaN at this; simp only [decide_eq_true_eq] at this; omega
    · have := h.1; unfold F64.isInf at this; simp only [decide_eq_true_eq] at this; omega
    · exact h.2.2.2
  have hd : |(k : ℝ) / n - k' / n| < 2 / 10 ^ 6 := by
    rw [abs_le] at d1 d2 hal
    rw [abs_lt]
    constructor <;> linarith [d1.1, d1.2, d2.1, d2.2, hal.1, hal.2]
  have hd2 : |(k : ℝ) - k'| < 1 := by
    have e : (k : ℝ) / n - k' / n = (k - k') / n := by ring
    rw [e, abs_div, abs_of_pos hn', div_lt_iff₀ hn'] at hd
    have : (n : ℝ) ≤ 500000 := by exact_mod_cast hle
    linarith
  have hd3 : |(k : ℤ) - k'| < 1 := by exact_mod_cast hd2
  have := Int.abs_lt_one_iff.1 hd3
  omega

/-! ### What Fit writes -/

/-- C146: the line for the end of an epoch, on the training data and on the validation data. -/
theorem C146_lines (t : Stamp) (e : Int) (l a : F64) (s : Str) :
    (LogText [(t, .info e l a)] s ↔
      s = str "[info]: " ++ t.text ++ str "Epoch: " ++ decimal e ++ str ", Loss: " ++ fmtF l ++ str ", Accuracy: " ++ fmtF a ++ str "\n") ∧
    (LogText [(t, .valInfo e l a)] s ↔
      s = str "[info]: " ++ t.text ++ str "Epoch: " ++ decimal e ++ str ", Validation Loss: " ++ fmtF l ++ str ", Validation Accuracy: " ++ fmtF a ++ str "\n") := by
  constructor
  · constructor
    · rintro ⟨x, u, rfl, rfl, rfl⟩
      simp only [List.append_assoc]
      rfl
    · rintro rfl
      refine ⟨_, [], rfl, rfl, ?_⟩
      simp only [List.append_assoc]
      rfl
  · constructor
    · rintro ⟨x, u, rfl, rfl, rfl⟩
      simp only [List.append_assoc]
      rfl
    · rintro rfl
      refine ⟨_, [], rfl, rfl, ?_⟩
      simp only [List.append_assoc]
      rfl

/-- C146: a time stamp. -/
example : (⟨2009, 1, 23, 1, 23, 5⟩ : Stamp).text = str "2009/01/23 01:23:05 " := by decide +kernel

/-- Lines with the times at which they are written. -/
def stamped (time : Nat → Stamp) (lines : List (LogEvent F64)) : List (Stamp × LogEvent F64) := lines.mapIdx fun i l => (time i, l)

/-- A line about an epoch. -/
def LogEvent.isEpoch : LogEvent F64 → Prop
  | .info _ _ _ => True | .valInfo _ _ _ => True | _ => False

theorem logText_exists {l : List (Stamp × LogEvent F64)} (h : ∀ p ∈ l, p.2.isEpoch) : ∃ s, LogText l s ∧ ∀ s', LogText l s' → s' = s := by
  induction l with
  | nil => exact ⟨[], rfl, fun s h => h⟩
  | cons p l ih =>
    obtain ⟨u, hu, hu'⟩ := ih fun q hq => h q (List.mem_cons_of_mem _ hq)
    obtain ⟨t, e⟩ := p
    have := h _ (List.mem_cons_self ..)
    cases e with
    | info a b c => exact ⟨_, ⟨_, u, rfl, hu, rfl⟩, fun s ⟨x, v, h1, h2, h3⟩ => by rw [h3, h1, hu' v h2]⟩
    | valInfo a b c => exact ⟨_, ⟨_, u, rfl, hu, rfl⟩, fun s ⟨x, v, h1, h2, h3⟩ => by rw [h3, h1, hu' v h2]⟩
    | _ => exact this.elim

theorem Epochs.isEpoch [Libm] {m : Model F64} {l : LossKind} {u : Nat → F64} {train : DataSet F64} {val : Option (DataSet F64)} {k : Int} {b : Nat}
    {net : Net F64} {S : Nat → OptSpec F64} {p e : Nat} {net' : Net F64} {S' : Nat → OptSpec F64} {p' : Nat} {lines : List (LogEvent F64)}
    (h : Epochs m l u train val k b net S p e net' S' p' lines) : ∀ x ∈ lines, x.isEpoch := by
  induction h with
  | start => intro x hx; cases hx
  | next h hd ih =>
    intro x hx
    rcases List.mem_append.1 hx with hx | hx
    · exact ih x hx
    · unfold epochLines at hx
      split at hx
      · rcases List.mem_cons.1 hx with rfl | hx
        · trivial
        · split at hx
          · cases hx
          · rw [List.mem_singleton.1 hx]; trivial
      · cases hx

/-- C146: what Fit writes to a log file.  Under the hypotheses of C82, the loggers write one text, whatever the times; it consists of the lines of
`Epochs` (the loss and the accuracy at the end of the epochs to be logged), and every other log with the same text has the same number of lines,
the same times and epochs, and the same losses and accuracies up to the sixth decimal. -/
theorem C146_fit [Libm] (w : World F64) (m : Model F64) (net : Net F64) (op : Nat → Nat) (S : Nat → OptSpec F64)
    (hT : IsTask w m net op S) (hns : ∀ k, k < net.size → (net.L k).kind ≠ .sigmoid) (loss : Loss) (hl : m.loss = some loss)
    (hls : loss.size = net.dim net.size) (hdim : net.dim net.size ≤ 2 ^ 53) (ht : m.accType = 0 ∨ m.accType = 1 ∨ m.accType = 2)
    (hlog : w.logger = true) (X Y xv yv : Mat) (train : DataSet F64) (val : Option (DataSet F64))
    (hX : IsData w net X train.rows (net.dim 0) train.X) (hY : IsData w net Y train.rows (net.dim net.size) train.Y)
    (hv : IsVal w net xv yv val) (epochs k : Int) (b : Nat) (hbig : train.rows + b ≤ 2 ^ 53) (time : Nat → Stamp) :
    wp (fit m X Y epochs b xv yv k) w (fun e w' => e = none ∧ ∃ net' S' lines s,
      Epochs m loss.kind w.unif train val k b net S w.unifPos epochs.toNat net' S' w'.unifPos lines ∧ w'.log = w.log ++ lines ∧
      (∀ s', LogText (stamped time lines) s' ↔ s' = s) ∧
      ∀ other : List (Stamp × LogEvent F64), (∀ p ∈ other, ∀ v, p.2 = .warnVersion v → v.length = 5) → LogText other s →
        List.Forall₂ (fun p q => p.1 = q.1 ∧ LineAlike p.2 q.2) (stamped time lines) other) := by
  refine wp_mono (C82_fit w m net op S hT hns loss hl hls hdim ht hlog X Y xv yv train val hX hY hv epochs k b hbig) ?_
  rintro e w1 ⟨he, net1, S1, lines, hE, h1, -⟩
  have hi : ∀ p ∈ stamped time lines, p.2.isEpoch := by
    intro p hp
    obtain ⟨i, hi, rfl⟩ := List.mem_mapIdx.1 hp
    exact hE.isEpoch _ (List.getElem_mem hi)
  obtain ⟨s, hs, hs'⟩ := logText_exists hi
  refine ⟨he, net1, S1, lines, s, hE, h1, fun s' => ⟨hs' s', fun e => e ▸ hs⟩, fun other ho ht => C146_file _ _ s ?_ ho hs ht⟩
  intro p hp v e
  have := hi p hp
  rw [e] at this
  exact this.elim

/-! ### Where it is written -/

/-- C146: InitLogger with a file adds to what is in the file, creates it if there is none, and writes nothing to stdout whatever `verbose` says;
without a file the lines go to stdout if `verbose` is set and nowhere otherwise.  No other file changes.  If the file cannot be opened the
loggers stay as they were. -/
theorem C146_dest (verbose : Bool) (file : Str) (o : LogOut) (lines : List Str) :
    (lines.foldl LogOut.write (openLog verbose true file false o)).files file = some ((o.files file).getD [] ++ lines.flatten) ∧
    (∀ n, n ≠ file → (lines.foldl LogOut.write (openLog verbose true file false o)).files n = o.files n) ∧
    (lines.foldl LogOut.write (openLog verbose true file false o)).stdout = o.stdout ∧
    openLog verbose true file true o = o ∧
    (lines.foldl LogOut.write (openLog true false file false o)).stdout = o.stdout ++ lines.flatten ∧
    (lines.foldl LogOut.write (openLog true false file false o)).files = o.files ∧
    (lines.foldl LogOut.write (openLog false false file false o)) = { o with dest := some .discard } := by
  have hf : ∀ (lines : List Str) (o1 : LogOut), o1.dest = some (.file file) → o1.files file ≠ none →
      (lines.foldl LogOut.write o1).files file = some ((o1.files file).getD [] ++ lines.flatten) ∧
      (∀ n, n ≠ file → (lines.foldl LogOut.write o1).files n = o1.files n) ∧ (lines.foldl LogOut.write o1).stdout = o1.stdout := by
    intro lines
    induction lines with
    | nil =>
      intro o1 _ h
      obtain ⟨c, hc⟩ := Option.ne_none_iff_exists'.1 h
      refine ⟨?_, fun _ _ => rfl, rfl⟩
      show o1.files file = _
      rw [hc]
      simp
    | cons s r ih =>
      intro o1 h h'
      have e : o1.write s = { o1 with files := fun n => if n = file then some ((o1.files file).getD [] ++ s) else o1.files n } := by
        unfold LogOut.write; rw [h]
      obtain ⟨a, b, c⟩ := ih (o1.write s) (by rw [e]; exact h) (by rw [e]; simp)
      refine ⟨?_, fun n hn => ?_, ?_⟩
      · rw [List.foldl_cons, a, e]; simp
      · rw [List.foldl_cons, b n hn, e]; simp [hn]
      · rw [List.foldl_cons, c, e]
  have hstd : ∀ (lines : List Str) (o1 : LogOut), o1.dest = some .stdout →
      (lines.foldl LogOut.write o1).stdout = o1.stdout ++ lines.flatten ∧ (lines.foldl LogOut.write o1).files = o1.files := by
    intro lines
    induction lines with
    | nil => intro o1 _; simp
    | cons s r ih =>
      intro o1 h
      have e : o1.write s = { o1 with stdout := o1.stdout ++ s } := by unfold LogOut.write; rw [h]
      obtain ⟨a, b⟩ := ih (o1.write s) (by rw [e]; exact h)
      rw [List.foldl_cons, a, b, e]
      simp
  have hdis : ∀ (lines : List Str) (o1 : LogOut), o1.dest = some .discard → lines.foldl LogOut.write o1 = o1 := by
    intro lines
    induction lines with
    | nil => intro o1 _; rfl
    | cons s r ih =>
      intro o1 h
      have e : o1.write s = o1 := by unfold LogOut.write; rw [h]
      rw [List.foldl_cons, e, ih o1 h]
  obtain ⟨a, b, c⟩ := hf lines (openLog verbose true file false o) rfl (by unfold openLog; simp)
  obtain ⟨d, e⟩ := hstd lines (openLog true false file false o) rfl
  refine ⟨?_, fun n hn => ?_, c, rfl, d, e, hdis lines _ rfl⟩
  · rw [a]; unfold openLog; simp
  · rw [b n hn]; unfold openLog; simp [hn]

/-! ### Examples -/

/-- The number 1 is printed as 1.000000. -/
theorem fmtF_one [Libm] : fmtF (Flt.ofInt 1 : F64) = str "1.000000" := by
  obtain ⟨v, f⟩ := F64.ofInt_exact 1 (by norm_num) (by norm_num)
  have hs : (F64.round false ((1 : Int) : ℝ)).sign = false := by
    cases h : (F64.round false ((1 : Int) : ℝ)).sign
    · rfl
    · unfold F64.val at v
      rw [h] at v
      have := mag_nonneg' (F64.round false ((1 : Int) : ℝ)).absBits
      simp only [if_true, Int.cast_one] at v
      rw [Int.cast_one] at this
      linarith
  have hm : micros (F64.round false ((1 : Int) : ℝ)) = 1000000 := by
    have e : F64.mag (F64.round false ((1 : Int) : ℝ)).absBits * 10 ^ 6 = ((1000000 : ℤ) : ℝ) := by
      rw [← abs_val, v]; norm_num
    unfold micros
    rw [e, F64.roundEven_int]
    rfl
  show fmtF (F64.round false ((1 : Int) : ℝ)) = _
  rw [fmtF_fin f, hs, hm]
  have d1 : decimalNat 1 = [49] := by unfold decimalNat; norm_num; rfl
  have d0 : decimalNat 0 = [48] := rfl
  show [] ++ decimalNat 1 ++ [46] ++ padded 6 0 = _
  unfold padded
  rw [d1, d0]
  decide

/-- A log of two lines, one of them with a newline in the version. -/
example [Libm] : ∃ s, LogText [(⟨2026, 11, 16, 18, 40, 5⟩, .info 100 (Flt.ofInt 1) (Flt.ofInt 1)), (⟨2026, 11, 16, 18, 40, 6⟩, .warnVersion [10, 10, 10, 10, 10])] s ∧
    str "[info]: " ++ Stamp.text ⟨2026, 11, 16, 18, 40, 5⟩ ++ str "Epoch: " ++ decimal 100 ++ str ", Loss: 1.000000, Accuracy: 1.000000\n" <+: s := by
  refine ⟨_, ⟨_, _, rfl, ⟨_, _, rfl, rfl, rfl⟩, rfl⟩, ?_⟩
  rw [fmtF_one]
  have e : str ", Loss: 1.000000, Accuracy: 1.000000\n" = str ", Loss: " ++ (str "1.000000" ++ (str ", Accuracy: " ++ (str "1.000000" ++ [10]))) := by decide
  rw [e]
  show _ <+: str "[info]: " ++ _
  simp only [List.append_assoc, List.prefix_append_right_inj]
  exact ⟨_, rfl⟩

/-- Hypotheses of C146_fit: three layers on float64, 5 training rows, 2 validation rows, loggers. -/
example [Libm] : ∃ (w : World F64) (m : Model F64) (net : Net F64) (op : Nat → Nat) (S : Nat → OptSpec F64) (X Y xv yv : Mat) (train v : DataSet F64),
    IsTask w m net op S ∧ net.size = 3 ∧ m.loss = some ⟨.mse, net.dim net.size⟩ ∧ net.dim net.size ≤ 2 ^ 53 ∧ m.accType = 0 ∧
    (∀ k, (net.L k).kind ≠ .sigmoid) ∧ IsData w net X train.rows (net.dim 0) train.X ∧ IsData w net Y train.rows (net.dim net.size) train.Y ∧
    IsVal w net xv yv (some v) ∧ train.rows = 5 ∧ v.rows = 2 ∧ w.logger = true := by
  let o : Optim F64 := { (Optim.zero .sgd : Optim F64) with learningRate := Flt.ofInt 1, decay := Flt.ofInt 0, momentum := Flt.ofInt 0 }
  obtain ⟨w, net, op, XM, YM, xM, yM, hf, hs, hL, hdim, hT, dX, dY, dx, dy⟩ := exists_task (emptyWorld : World F64) 3 (by decide)
    demoT demoT_pos demoT_chain { newModel with loss := some ⟨.mse, 5⟩, accType := 0 } (optFrom o) (OptSpec.fresh (optFrom o)) rfl
    (fun w p i hlt e => isOpt_from _ _ _ _ hlt e) (r := 5) (r' := 2) (by decide) (by decide)
    (fun i j => Flt.ofInt (i + j : Int)) (fun i j => Flt.ofInt (i - j : Int)) (fun _ _ => Flt.ofInt 1) (fun _ _ => Flt.ofInt 1)
  have d0 : net.dim 0 = (demoT 0 : LayerSpec F64).n := by rw [hdim]
  have d1 : net.dim net.size = (demoT 3 : LayerSpec F64).n := by rw [hdim, hs]
  refine ⟨w, _, net, op, _, XM, YM, xM, yM, ⟨5, _, _⟩, ⟨2, _, _⟩, hT, hs, ?_, ?_, rfl, ?_, d0 ▸ dX, d1 ▸ dY,
    ⟨(d0 ▸ dx.mat), (d1 ▸ dy.mat), fun a ha => ⟨dx.sep a ha, dy.sep a ha⟩⟩, rfl, rfl, hf.logger⟩
  · rw [d1]; rfl
  · rw [d1]; show 5 ≤ 2 ^ 53; decide
  · rw [hL]; exact demoT_kind

end NN
