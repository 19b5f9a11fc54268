import Verif.Model.Texts
import Mathlib.Data.Nat.Digits.Lemmas
import Mathlib.Tactic.Common
/-
C132: the texts of errors and log lines tell which error or line it is.
-/

namespace NN

/-! ### Decimal numbers -/

theorem digit_inj {d e : Nat} (hd : d < 10) (he : e < 10) (h : BitVec.ofNat 8 (48 + d) = BitVec.ofNat 8 (48 + e)) : d = e := by
  have := congrArg BitVec.toNat h
  simp only [BitVec.toNat_ofNat] at this
  omega

theorem digit_ne_minus {d : Nat} (hd : d < 10) : BitVec.ofNat 8 (48 + d) ≠ (45 : Byte) := by
  intro h
  have := congrArg BitVec.toNat h
  simp only [BitVec.toNat_ofNat] at this
  have : (45 : Byte).toNat = 45 := rfl
  omega

theorem digit_ne_comma {d : Nat} (hd : d < 10) : BitVec.ofNat 8 (48 + d) ≠ (44 : Byte) := by
  intro h
  have := congrArg BitVec.toNat h
  simp only [BitVec.toNat_ofNat] at this
  have : (44 : Byte).toNat = 44 := rfl
  omega

theorem decimalNat_eq (n : Nat) : ∃ ds : List Nat, (∀ d ∈ ds, d < 10) ∧ ds ≠ [] ∧ Nat.ofDigits 10 ds.reverse = n ∧ (∀ d ∈ ds.head?, n ≠ 0 → d ≠ 0) ∧
    (n = 0 → ds = [0]) ∧ decimalNat n = ds.map fun d => BitVec.ofNat 8 (48 + d) := by
  unfold decimalNat
  by_cases hn : n = 0
  · subst hn
    exact ⟨[0], by simp, by simp, rfl, by simp, fun _ => rfl, rfl⟩
  · refine ⟨(Nat.digits 10 n).reverse, fun d hd => Nat.digits_lt_base (by decide) (List.mem_reverse.1 hd), ?_, ?_, ?_, fun h => absurd h hn,
      by rw [if_neg hn]⟩
    · simpa using Nat.digits_ne_nil_iff_ne_zero.2 hn
    · rw [List.reverse_reverse, Nat.ofDigits_digits]
    · intro d hd _ h0
      subst h0
      have hne := Nat.digits_ne_nil_iff_ne_zero (b := 10).2 hn
      have := Nat.getLast_digit_ne_zero 10 hn
      rw [List.head?_reverse, List.getLast?_eq_getLast_of_ne_nil hne] at hd
      exact this (by simpa using hd)

theorem decimalNat_inj {m n : Nat} (h : decimalNat m = decimalNat n) : m = n := by
  obtain ⟨ds, h1, -, h2, -, -, h3⟩ := decimalNat_eq m
  obtain ⟨es, g1, -, g2, -, -, g3⟩ := decimalNat_eq n
  rw [h3, g3] at h
  have : ds = es := by
    clear h2 g2 h3 g3
    induction ds generalizing es with
    | nil => cases es with
      | nil => rfl
      | cons e es => cases h
    | cons d ds ih => cases es with
      | nil => cases h
      | cons e es =>
        simp only [List.map_cons, List.cons.injEq] at h
        rw [digit_inj (h1 d (by simp)) (g1 e (by simp)) h.1, ih (fun x hx => h1 x (by simp [hx])) es h.2 (fun x hx => g1 x (by simp [hx]))]
  rw [← h2, ← g2, this]

theorem decimalNat_head (n : Nat) : ∃ d rest, d < 10 ∧ decimalNat n = BitVec.ofNat 8 (48 + d) :: rest := by
  obtain ⟨ds, h1, h0, -, -, -, h3⟩ := decimalNat_eq n
  cases ds with
  | nil => exact absurd rfl h0
  | cons d ds => exact ⟨d, _, h1 d (by simp), h3⟩

/-- `%d` prints different numbers differently. -/
theorem decimal_inj {i j : Int} (h : decimal i = decimal j) : i = j := by
  have sep : ∀ a b : Nat, (45 : Byte) :: decimalNat a ≠ decimalNat b := by
    intro a b e
    obtain ⟨d, rest, hd, hb⟩ := decimalNat_head b
    rw [hb] at e
    exact digit_ne_minus hd (List.cons.inj e).1.symm
  unfold decimal at h
  split at h <;> split at h
  · have := decimalNat_inj (List.cons.inj h).2; omega
  · exact absurd h (sep _ _)
  · exact absurd h.symm (sep _ _)
  · have := decimalNat_inj h; omega

theorem decimal_no_comma (i : Int) : (44 : Byte) ∉ decimal i := by
  have key : ∀ n, (44 : Byte) ∉ decimalNat n := by
    intro n hm
    obtain ⟨ds, h1, -, -, -, -, h3⟩ := decimalNat_eq n
    rw [h3] at hm
    obtain ⟨d, hd, e⟩ := List.mem_map.1 hm
    exact digit_ne_comma (h1 d hd) e
  unfold decimal
  split
  · intro h
    rcases List.mem_cons.1 h with h | h
    · revert h; decide
    · exact key _ h
  · exact key _

/-- What comes before the first separator determines both parts. -/
theorem split_at {c : Byte} {x y s t : Str} (hx : c ∉ x) (hy : c ∉ y) (h : x ++ c :: s = y ++ c :: t) : x = y ∧ s = t := by
  induction x generalizing y with
  | nil =>
    cases y with
    | nil => exact ⟨rfl, (List.cons.inj h).2⟩
    | cons b y => exact absurd (by rw [← (List.cons.inj h).1]; simp) hy
  | cons a x ih =>
    cases y with
    | nil => exact absurd (by rw [(List.cons.inj h).1]; simp) hx
    | cons b y =>
      obtain ⟨h1, h2⟩ := List.cons.inj h
      obtain ⟨h3, h4⟩ := ih (fun h => hx (by simp [h])) (y := y) (fun h => hy (by simp [h])) h2
      exact ⟨by rw [h1, h3], h4⟩

theorem comma_pair {a b c d : Int} (h : decimal a ++ str ", " ++ decimal b = decimal c ++ str ", " ++ decimal d) : a = c ∧ b = d := by
  have e : str ", " = [44, 32] := rfl
  rw [e, List.append_assoc, List.append_assoc] at h
  obtain ⟨h1, h2⟩ := split_at (decimal_no_comma a) (decimal_no_comma c) h
  exact ⟨decimal_inj h1, decimal_inj (List.cons.inj h2).2⟩

/-! ### Heads -/

/-- The errors of the package, up to the values printed. -/
def Err.code : Err → Nat
  | .matrixDims _ _ => 0 | .matrixIndex _ _ => 1 | .sliceDims _ => 2 | .layerDims _ _ => 3 | .badSlope => 4 | .badDropout => 5
  | .lossSize _ => 6 | .oneHotSize => 7 | .sgdRate => 8 | .sgdDecay => 9 | .sgdMomentum => 10 | .adamRate => 11 | .adamDecay => 12
  | .optType => 13 | .addLayer => 14 | .finalizeLoss => 15 | .finalizePrecision => 16 | .accType => 17 | .modelMagic => 18
  | .layerMagic => 19 | .loadLossType => 20 | .loadOptType => 21 | .layerType => 22 | .eof => 23 | .os => 24

/-- One error for each head. -/
def errTable : List Err := [.matrixDims 0 0, .matrixIndex 0 0, .sliceDims 0, .layerDims 0 0, .badSlope, .badDropout, .lossSize 0, .oneHotSize,
  .sgdRate, .sgdDecay, .sgdMomentum, .adamRate, .adamDecay, .optType, .addLayer, .finalizeLoss, .finalizePrecision, .accType, .modelMagic,
  .layerMagic, .loadLossType, .loadOptType, .layerType]

/-- No head is the beginning of another one. -/
theorem errTable_apart : errTable.Pairwise fun a b => ¬ a.head.getD [] <+: b.head.getD [] ∧ ¬ b.head.getD [] <+: a.head.getD [] := by
  unfold errTable
  decide +kernel

theorem errTable_get (e : Err) (h : Str) (hh : e.head = some h) :
    ∃ a, errTable[e.code]? = some a ∧ a.head = some h := by
  cases e <;> first | exact ⟨_, rfl, hh⟩ | cases hh

theorem apart_of_pairwise {β : Type} {T : List β} {f : β → Str} (hT : T.Pairwise fun a b => ¬ f a <+: f b ∧ ¬ f b <+: f a)
    {i j : Nat} {a b : β} (ha : T[i]? = some a) (hb : T[j]? = some b) {s t : Str} (h : f a ++ s = f b ++ t) : i = j := by
  have hp : f a <+: f b ∨ f b <+: f a := List.prefix_or_prefix_of_prefix ⟨s, rfl⟩ ⟨t, h.symm⟩
  obtain ⟨hi, rfl⟩ := List.getElem?_eq_some_iff.1 ha
  obtain ⟨hj, rfl⟩ := List.getElem?_eq_some_iff.1 hb
  rcases Nat.lt_trichotomy i j with hl | hl | hl
  · have := List.pairwise_iff_getElem.1 hT i j hi hj hl
    exact hp.elim (fun h => absurd h this.1) (fun h => absurd h this.2)
  · exact hl
  · have := List.pairwise_iff_getElem.1 hT j i hj hi hl
    exact hp.elim (fun h => absurd h this.2) (fun h => absurd h this.1)

theorem Err.code_of_text {e e' : Err} {h h' s t : Str} (he : e.head = some h) (he' : e'.head = some h') (hs : h ++ s = h' ++ t) :
    e.code = e'.code := by
  obtain ⟨a, ha, ha'⟩ := errTable_get e h he
  obtain ⟨b, hb, hb'⟩ := errTable_get e' h' he'
  exact apart_of_pairwise errTable_apart ha hb (s := s) (t := t) (by rw [ha', hb']; exact hs)

theorem Err.head_of_code {e e' : Err} (h : e.code = e'.code) : e.head = e'.head := by
  cases e <;> cases e' <;> first | exact absurd h (Nat.ne_of_beq_eq_false rfl) | rfl

/-- C132: the text of an error of the package tells which error it is, with the dimensions or the index printed in it. -/
theorem C132_error (e e' : Err) (s : Str) (h : e.Text s) (h' : e'.Text s) : e = e' := by
  obtain ⟨p, t, h1, h2, rfl⟩ := h
  obtain ⟨p', t', g1, g2, g3⟩ := h'
  have hc := Err.code_of_text h1 g1 g3
  have : p = p' := by
    have := Err.head_of_code hc
    rw [h1, g1] at this
    exact Option.some.inj this
  subst this
  have ht : t = t' := List.append_cancel_left g3
  subst ht
  cases e <;> cases e' <;> first
    | exact absurd hc (Nat.ne_of_beq_eq_false rfl)
    | rfl
    | (obtain ⟨rfl, rfl⟩ := comma_pair (h2.symm.trans g2); rfl)
    | (obtain rfl := decimal_inj (h2.symm.trans g2); rfl)

/-! ### Log lines -/

/-- The stages. -/
def LogStage.code : LogStage → Nat
  | .forward => 0 | .update => 1 | .loss => 2 | .accuracy => 3 | .valLoss => 4 | .valAccuracy => 5

/-- The beginnings of log lines. -/
def lineTable : List Str := [LogStage.forward.head, LogStage.update.head, LogStage.loss.head, LogStage.accuracy.head, LogStage.valLoss.head,
  LogStage.valAccuracy.head, str "Epoch: ", str "Model version "]

theorem lineTable_apart : lineTable.Pairwise fun a b => ¬ a <+: b ∧ ¬ b <+: a := by
  unfold lineTable
  decide +kernel

/-- The place of a line in the table. -/
def LogEvent.code {α : Type} : LogEvent α → Nat
  | .error st _ => st.code
  | .info _ _ _ => 6
  | .valInfo _ _ _ => 6
  | .warnVersion _ => 7

theorem lineTable_get {α : Type} (l : LogEvent α) : lineTable[l.code]? = some l.head := by
  cases l with
  | error st e => cases st <;> rfl
  | _ => rfl

/-- A log line without the two numbers printed with %f. -/
inductive LineKind where
  | training (epoch : Int) | validation (epoch : Int) | failure (at_ : LogStage) (e : Err) | version (v : Str)

/-- What kind of line it is. -/
def LogEvent.lineKind {α : Type} : LogEvent α → LineKind
  | .info e _ _ => .training e
  | .valInfo e _ _ => .validation e
  | .error st er => .failure st er
  | .warnVersion v => .version v

/-- C132: the text of a log line tells whether it is about the training data, the validation data, a failure or a version, and which
epoch, which stage and error, or which version it is about. -/
theorem C132_line {α : Type} (l l' : LogEvent α) (s : Str) (h : l.Text s) (h' : l'.Text s) : l.lineKind = l'.lineKind := by
  obtain ⟨t, h1, rfl⟩ := h
  obtain ⟨t', g1, g3⟩ := h'
  have hc : l.code = l'.code := apart_of_pairwise (f := id) lineTable_apart (lineTable_get l) (lineTable_get l') g3
  have hh : l.head = l'.head := by
    have := lineTable_get l
    rw [hc, lineTable_get l'] at this
    exact (Option.some.inj this).symm
  rw [hh] at g3
  obtain rfl := List.append_cancel_left g3
  have ep : ∀ (i j : Int) (x y : Str), decimal i ++ (44 : Byte) :: x = decimal j ++ (44 : Byte) :: y → i = j ∧ x = y := fun i j x y e => by
    obtain ⟨e1, e2⟩ := split_at (decimal_no_comma i) (decimal_no_comma j) e
    exact ⟨decimal_inj e1, e2⟩
  have c1 : ∀ (x : Str), str ", Loss: " ++ x = 44 :: 32 :: 76 :: (str "oss: " ++ x) := fun _ => rfl
  have c2 : ∀ (x : Str), str ", Validation Loss: " ++ x = 44 :: 32 :: 86 :: (str "alidation Loss: " ++ x) := fun _ => rfl
  cases l with
  | info e _ _ =>
    obtain ⟨x, y, rfl⟩ := h1
    cases l' with
    | info e' _ _ =>
      obtain ⟨x', y', g1⟩ := g1
      simp only [List.append_assoc, c1] at g1
      obtain ⟨rfl, -⟩ := ep _ _ _ _ g1
      rfl
    | valInfo e' _ _ =>
      obtain ⟨x', y', g1⟩ := g1
      simp only [List.append_assoc, c1, c2] at g1
      obtain ⟨-, g2⟩ := ep _ _ _ _ g1
      have := (List.cons.inj (List.cons.inj g2).2).1
      exact absurd this (by decide)
    | error st er => cases st <;> cases hc
    | warnVersion v => cases hc
  | valInfo e _ _ =>
    obtain ⟨x, y, rfl⟩ := h1
    cases l' with
    | info e' _ _ =>
      obtain ⟨x', y', g1⟩ := g1
      simp only [List.append_assoc, c1, c2] at g1
      obtain ⟨-, g2⟩ := ep _ _ _ _ g1
      have := (List.cons.inj (List.cons.inj g2).2).1
      exact absurd this (by decide)
    | valInfo e' _ _ =>
      obtain ⟨x', y', g1⟩ := g1
      simp only [List.append_assoc, c2] at g1
      obtain ⟨rfl, -⟩ := ep _ _ _ _ g1
      rfl
    | error st er => cases st <;> cases hc
    | warnVersion v => cases hc
  | error st er =>
    cases l' with
    | error st' er' =>
      have hst : st = st' := by cases st <;> cases st' <;> first | rfl | cases hc
      rw [hst, C132_error er er' t h1 g1]
    | info e' _ _ => cases st <;> cases hc
    | valInfo e' _ _ => cases st <;> cases hc
    | warnVersion v => cases st <;> cases hc
  | warnVersion v =>
    cases l' with
    | error st er => cases st <;> cases hc
    | info e' _ _ => cases hc
    | valInfo e' _ _ => cases hc
    | warnVersion v' =>
      have : v ++ _ = v' ++ _ := h1.symm.trans g1
      rw [List.append_cancel_right this]

/-- Every error of the package has a text. -/
theorem C132_text (e : Err) (h1 : e ≠ .eof) (h2 : e ≠ .os) : ∃ s, e.Text s := by
  cases e <;> first
    | exact absurd rfl h1
    | exact absurd rfl h2
    | exact ⟨_, _, _, rfl, rfl, rfl⟩
    | exact ⟨_, _, [], rfl, trivial, rfl⟩

/-- C132: the numbers of an error stand in its text in the order rows, columns (matrix.go:15), row, column (matrix.go:20), inputs, outputs
(network.go:27), and alone for a slice (matrix.go:25) and a loss (loss.go:23). -/
theorem C132_numbers (a b : Int) (s : Str) :
    ((Err.matrixDims a b).Text s ↔ s = str "nn.Matrix: Invalid matrix dimensions: " ++ (decimal a ++ str ", " ++ decimal b)) ∧
    ((Err.matrixIndex a b).Text s ↔ s = str "nn.Matrix: Invalid index for matrix: " ++ (decimal a ++ str ", " ++ decimal b)) ∧
    ((Err.sliceDims a).Text s ↔ s = str "nn.Matrix: Invalid slice dimensions: " ++ decimal a) ∧
    ((Err.layerDims a b).Text s ↔ s = str "nn.Layer: Invalid layer dimensions: " ++ (decimal a ++ str ", " ++ decimal b)) ∧
    ((Err.lossSize a).Text s ↔ s = str "nn.Loss: Invalid loss input size: " ++ decimal a) := by
  refine ⟨⟨?_, ?_⟩, ⟨?_, ?_⟩, ⟨?_, ?_⟩, ⟨?_, ?_⟩, ⟨?_, ?_⟩⟩ <;> first
    | (rintro ⟨h, t, h1, h2, rfl⟩; obtain rfl := Option.some.inj h1; rw [show t = _ from h2])
    | exact fun h => ⟨_, _, rfl, rfl, h⟩

/-- The text of the error about a matrix of -1 rows and 20 columns. -/
example : (Err.matrixDims (-1) 20).Text (str "nn.Matrix: Invalid matrix dimensions: -1, 20") := by
  refine ⟨_, str "-1, 20", rfl, ?_, by decide +kernel⟩
  show _ = decimal (-1) ++ str ", " ++ decimal 20
  unfold decimal decimalNat
  norm_num
  decide +kernel

/-- The line of a failed backward pass. -/
example : (LogEvent.error .forward (.matrixDims 1 2) : LogEvent Nat).Text
    (str "Failed to perform forward pass: nn.Matrix: Invalid matrix dimensions: 1, 2") := by
  refine ⟨str "nn.Matrix: Invalid matrix dimensions: 1, 2", ⟨_, str "1, 2", rfl, ?_, by decide +kernel⟩, by decide +kernel⟩
  show _ = decimal 1 ++ str ", " ++ decimal 2
  unfold decimal decimalNat
  norm_num
  decide +kernel

end NN
