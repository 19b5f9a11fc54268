import Verif.Model.Csv
import Verif.Props.C109
import Verif.Props.C146
/-
C147: what examples/iris_test.go makes of its data file.
-/

set_option linter.unusedSectionVars false
set_option Elab.async false

namespace NN

/-! ### Specification -/

/-- A field that can be written in a CSV file as it is: no comma, no quote, no \n and no \r in it. -/
def PlainField (f : Str) : Prop := ∀ b ∈ f, b ≠ 34 ∧ b ≠ 44 ∧ b ≠ 10 ∧ b ≠ 13

/-- A record as text: its fields with commas between them. -/
def recordText : List Str → Str
  | [] => []
  | [f] => f
  | f :: g :: r => f ++ [44] ++ recordText (g :: r)

/-- Lines, each with what ends it. -/
def linesText (ls : List (List Str × Str)) : Str := ls.flatMap fun p => recordText p.1 ++ p.2

/-- A sign in front of a number: none, + or -; true for minus. -/
def SignText (t : Str) (neg : Bool) : Prop := t = [] ∧ neg = false ∨ t = str "+" ∧ neg = false ∨ t = str "-" ∧ neg = true

/-- An exponent after a number (none, or e or E, a sign and digits, less than 100000) and its value. -/
def ExpText (t : Str) (e : Int) : Prop :=
  t = [] ∧ e = 0 ∨ ∃ (c : Byte) (sg : Str) (neg : Bool) (ds : List Nat), (c = 101 ∨ c = 69) ∧ SignText sg neg ∧ ds ≠ [] ∧ (∀ d ∈ ds, d < 10) ∧
    numeral ds < 100000 ∧ t = c :: (sg ++ digitText ds) ∧ e = if neg then -(numeral ds : Int) else numeral ds

/-- The numbers of /repo/examples/iris.data, in tenths. -/
def irisTenths : List (List Nat) := [
  [51, 35, 14, 2], [49, 30, 14, 2], [47, 32, 13, 2], [46, 31, 15, 2], [50, 36, 14, 2], [54, 39, 17, 4], [46, 34, 14, 3], [50, 34, 15, 2],
  [44, 29, 14, 2], [49, 31, 15, 1], [54, 37, 15, 2], [48, 34, 16, 2], [48, 30, 14, 1], [43, 30, 11, 1], [58, 40, 12, 2], [57, 44, 15, 4],
  [54, 39, 13, 4], [51, 35, 14, 3], [57, 38, 17, 3], [51, 38, 15, 3], [54, 34, 17, 2], [51, 37, 15, 4], [46, 36, 10, 2], [51, 33, 17, 5],
  [48, 34, 19, 2], [50, 30, 16, 2], [50, 34, 16, 4], [52, 35, 15, 2], [52, 34, 14, 2], [47, 32, 16, 2], [48, 31, 16, 2], [54, 34, 15, 4],
  [52, 41, 15, 1], [55, 42, 14, 2], [49, 31, 15, 1], [50, 32, 12, 2], [55, 35, 13, 2], [49, 31, 15, 1], [44, 30, 13, 2], [51, 34, 15, 2],
  [50, 35, 13, 3], [45, 23, 13, 3], [44, 32, 13, 2], [50, 35, 16, 6], [51, 38, 19, 4], [48, 30, 14, 3], [51, 38, 16, 2], [46, 32, 14, 2],
  [53, 37, 15, 2], [50, 33, 14, 2], [70, 32, 47, 14], [64, 32, 45, 15], [69, 31, 49, 15], [55, 23, 40, 13], [65, 28, 46, 15], [57, 28, 45, 13],
  [63, 33, 47, 16], [49, 24, 33, 10], [66, 29, 46, 13], [52, 27, 39, 14], [50, 20, 35, 10], [59, 30, 42, 15], [60, 22, 40, 10],
  [61, 29, 47, 14], [56, 29, 36, 13], [67, 31, 44, 14], [56, 30, 45, 15], [58, 27, 41, 10], [62, 22, 45, 15], [56, 25, 39, 11],
  [59, 32, 48, 18], [61, 28, 40, 13], [63, 25, 49, 15], [61, 28, 47, 12], [64, 29, 43, 13], [66, 30, 44, 14], [68, 28, 48, 14],
  [67, 30, 50, 17], [60, 29, 45, 15], [57, 26, 35, 10], [55, 24, 38, 11], [55, 24, 37, 10], [58, 27, 39, 12], [60, 27, 51, 16],
  [54, 30, 45, 15], [60, 34, 45, 16], [67, 31, 47, 15], [63, 23, 44, 13], [56, 30, 41, 13], [55, 25, 40, 13], [55, 26, 44, 12],
  [61, 30, 46, 14], [58, 26, 40, 12], [50, 23, 33, 10], [56, 27, 42, 13], [57, 30, 42, 12], [57, 29, 42, 13], [62, 29, 43, 13],
  [51, 25, 30, 11], [57, 28, 41, 13], [63, 33, 60, 25], [58, 27, 51, 19], [71, 30, 59, 21], [63, 29, 56, 18], [65, 30, 58, 22],
  [76, 30, 66, 21], [49, 25, 45, 17], [73, 29, 63, 18], [67, 25, 58, 18], [72, 36, 61, 25], [65, 32, 51, 20], [64, 27, 53, 19],
  [68, 30, 55, 21], [57, 25, 50, 20], [58, 28, 51, 24], [64, 32, 53, 23], [65, 30, 55, 18], [77, 38, 67, 22], [77, 26, 69, 23],
  [60, 22, 50, 15], [69, 32, 57, 23], [56, 28, 49, 20], [77, 28, 67, 20], [63, 27, 49, 18], [67, 33, 57, 21], [72, 32, 60, 18],
  [62, 28, 48, 18], [61, 30, 49, 18], [64, 28, 56, 21], [72, 30, 58, 16], [74, 28, 61, 19], [79, 38, 64, 20], [64, 28, 56, 22],
  [63, 28, 51, 15], [61, 26, 56, 14], [77, 30, 61, 23], [63, 34, 56, 24], [64, 31, 55, 18], [60, 30, 48, 18], [69, 31, 54, 21],
  [67, 31, 56, 24], [69, 31, 51, 23], [58, 27, 51, 19], [68, 32, 59, 23], [67, 33, 57, 25], [67, 30, 52, 23], [63, 25, 50, 19],
  [65, 30, 52, 20], [62, 34, 54, 23], [59, 30, 51, 18]]

/-- A number of tenths as text. -/
def tenthsText (k : Nat) : Str := digitText [k / 10] ++ str "." ++ digitText [k % 10]

/-- The names of the three classes. -/
def irisName (c : Nat) : Str := str (["Iris-setosa", "Iris-versicolor", "Iris-virginica"].getD c "")

/-- The records of the file: the four numbers and the name of the class, fifty records each. -/
def irisRecords : List (List Str) := (List.range 150).map fun i => (irisTenths.getD i []).map tenthsText ++ [irisName (i / 50)]

/-! ### Lines and fields -/

theorem rawLines_line {l : Str} (h : (10 : Byte) ∉ l) (s : Str) : rawLines (l ++ [10] ++ s) = (l ++ [10]) :: rawLines s := by
  induction l with
  | nil => rfl
  | cons b l ih =>
    have hb : b ≠ 10 := fun e => h (e ▸ List.mem_cons_self)
    have := ih fun hm => h (List.mem_cons_of_mem _ hm)
    show rawLines (b :: (l ++ [10] ++ s)) = _
    rw [rawLines, if_neg hb, this]
    rfl

theorem rawLines_last {l : Str} (h : (10 : Byte) ∉ l) (hl : l ≠ []) : rawLines l = [l] := by
  induction l with
  | nil => exact absurd rfl hl
  | cons b l ih =>
    have hb : b ≠ 10 := fun e => h (e ▸ List.mem_cons_self)
    unfold rawLines
    rw [if_neg hb]
    cases l with
    | nil => rfl
    | cons c l => rw [ih (fun hm => h (List.mem_cons_of_mem _ hm)) (by simp)]

theorem csvLine_lf {l : Str} (h : (13 : Byte) ∉ l) : csvLine (l ++ [10]) = l ++ [10] := by
  unfold csvLine
  rw [List.reverse_append]
  show (match 10 :: l.reverse with | 10 :: 13 :: r => (10 :: r).reverse | 13 :: r => r.reverse | _ => l ++ [10]) = _
  split
  · rename_i r e
    have : (13 : Byte) ∈ l.reverse := by rw [(List.cons.inj e).2]; exact List.mem_cons_self
    exact absurd (List.mem_reverse.1 this) h
  · rename_i r _ e
    exact absurd (List.cons.inj e).1 (by decide)
  · rfl

theorem csvLine_crlf (l : Str) : csvLine (l ++ [13, 10]) = l ++ [10] := by
  unfold csvLine
  rw [List.reverse_append]
  show (10 :: l.reverse).reverse = _
  simp

theorem csvLine_last {l : Str} (h : (13 : Byte) ∉ l) (h' : (10 : Byte) ∉ l) : csvLine l = l := by
  unfold csvLine
  split
  · rename_i r e
    have : (10 : Byte) ∈ l.reverse := by rw [e]; exact List.mem_cons_self
    exact absurd (List.mem_reverse.1 this) h'
  · rename_i r _ e
    have : (13 : Byte) ∈ l.reverse := by rw [e]; exact List.mem_cons_self
    exact absurd (List.mem_reverse.1 this) h
  · rfl

theorem cutAt_append {c : Byte} {a : Str} (h : c ∉ a) (b : Str) : cutAt c (a ++ [c] ++ b) = some (a, b) := by
  induction a with
  | nil => show cutAt c (c :: b) = _; unfold cutAt; rw [if_pos rfl]
  | cons x a ih =>
    have hx : x ≠ c := fun e => h (e ▸ List.mem_cons_self)
    show cutAt c (x :: (a ++ [c] ++ b)) = _
    unfold cutAt
    rw [if_neg hx, ih fun hm => h (List.mem_cons_of_mem _ hm)]
    rfl

theorem cutAt_none {c : Byte} {a : Str} (h : c ∉ a) : cutAt c a = none := by
  induction a with
  | nil => rfl
  | cons x a ih =>
    have hx : x ≠ c := fun e => h (e ▸ List.mem_cons_self)
    unfold cutAt
    rw [if_neg hx, ih fun hm => h (List.mem_cons_of_mem _ hm)]
    rfl

theorem chomp_lf (l : Str) : chomp (l ++ [10]) = l := by
  unfold chomp
  rw [if_pos (by simp), List.dropLast_concat]

theorem chomp_last {l : Str} (h : (10 : Byte) ∉ l) : chomp l = l := by
  unfold chomp
  refine if_neg fun e => h (List.mem_of_getLast? e)

theorem PlainField.not_mem {f : Str} (h : PlainField f) : (34 : Byte) ∉ f ∧ (44 : Byte) ∉ f ∧ (10 : Byte) ∉ f ∧ (13 : Byte) ∉ f :=
  ⟨fun hm => (h _ hm).1 rfl, fun hm => (h _ hm).2.1 rfl, fun hm => (h _ hm).2.2.1 rfl, fun hm => (h _ hm).2.2.2 rfl⟩

theorem recordText_not_mem {c : Byte} (hc : c ≠ 44) {r : List Str} (h : ∀ f ∈ r, c ∉ f) : c ∉ recordText r := by
  induction r with
  | nil => exact List.not_mem_nil
  | cons f r ih =>
    cases r with
    | nil => exact h f List.mem_cons_self
    | cons g r =>
      unfold recordText
      simp only [List.mem_append, List.mem_singleton, not_or]
      exact ⟨⟨h f List.mem_cons_self, hc⟩, ih fun x hx => h x (List.mem_cons_of_mem _ hx)⟩

theorem recordText_plain {r : List Str} (h : ∀ f ∈ r, PlainField f) : (10 : Byte) ∉ recordText r ∧ (13 : Byte) ∉ recordText r :=
  ⟨recordText_not_mem (by decide) fun f hf => (h f hf).not_mem.2.2.1, recordText_not_mem (by decide) fun f hf => (h f hf).not_mem.2.2.2⟩

theorem head_ne_quote {f s : Str} (h : (34 : Byte) ∉ f) (hs : s.head? ≠ some 34) : (f ++ s).head? ≠ some 34 := by
  cases f with
  | nil => exact hs
  | cons b f => exact fun e => h (Option.some.inj e ▸ List.mem_cons_self)

theorem csvFields_plain {r : List Str} (hr : r ≠ []) (h : ∀ f ∈ r, PlainField f) {nl : Str} (hn : nl = [] ∨ nl = [10]) (ls : List Str) :
    csvFields (recordText r ++ nl) ls = some (r, ls) := by
  induction r with
  | nil => exact absurd rfl hr
  | cons f r ih =>
    obtain ⟨h1, h2, h3, -⟩ := (h f List.mem_cons_self).not_mem
    cases r with
    | nil =>
      show csvFields (f ++ nl) ls = _
      have hch : chomp (f ++ nl) = f := by
        rcases hn with rfl | rfl
        · rw [List.append_nil]; exact chomp_last h3
        · exact chomp_lf f
      have hcut : cutAt 44 (f ++ nl) = none := cutAt_none (by
        rcases hn with rfl | rfl
        · rwa [List.append_nil]
        · simp only [List.mem_append, List.mem_singleton, not_or]; exact ⟨h2, by decide⟩)
      unfold csvFields
      rw [dif_neg (head_ne_quote h1 (by rcases hn with rfl | rfl <;> decide))]
      split
      · rename_i a b hc; rw [hcut] at hc; cases hc
      · rw [hch, if_neg h1]
    | cons g r =>
      have ih' := ih (by simp) fun x hx => h x (List.mem_cons_of_mem _ hx)
      have e : recordText (f :: g :: r) ++ nl = f ++ [44] ++ (recordText (g :: r) ++ nl) := by
        show f ++ [44] ++ recordText (g :: r) ++ nl = _
        simp
      rw [e]
      have hcut := cutAt_append h2 (recordText (g :: r) ++ nl)
      unfold csvFields
      rw [dif_neg (by rw [List.append_assoc]; exact head_ne_quote h1 (fun e => absurd (Option.some.inj e) (by decide)))]
      split
      · rename_i a b hc
        rw [hcut] at hc
        obtain ⟨rfl, rfl⟩ := Prod.mk.inj (Option.some.inj hc)
        rw [if_neg h1, ih']
        rfl
      · rename_i hc; rw [hcut] at hc; cases hc

/-- The records in such lines. -/
def recordsOf (ls : List (List Str × Str)) : List (List Str) := (ls.map Prod.fst).filter fun r => recordText r ≠ []

theorem csvRecords_step {p : List Str × Str} {ls : List (List Str × Str)} (hp : ∀ f ∈ p.1, PlainField f) (hn : p.2 = [] ∨ p.2 = [10]) (n : Nat) :
    csvRecords n ((p :: ls).map fun p => recordText p.1 ++ p.2) =
      if recordText p.1 = [] then csvRecords n (ls.map fun p => recordText p.1 ++ p.2)
      else if 0 < n ∧ p.1.length ≠ n then none
      else (csvRecords (if n = 0 then p.1.length else n) (ls.map fun p => recordText p.1 ++ p.2)).map (p.1 :: ·) := by
  have hch : chomp (recordText p.1 ++ p.2) = recordText p.1 := by
    rcases hn with e | e
    · rw [e, List.append_nil]; exact chomp_last (recordText_plain hp).1
    · rw [e]; exact chomp_lf _
  rw [List.map_cons, csvRecords, hch]
  by_cases he : recordText p.1 = []
  · rw [if_pos he, if_pos he]
  · rw [if_neg he, if_neg he]
    have hr : p.1 ≠ [] := fun e => he (by rw [e]; rfl)
    have hf := csvFields_plain hr hp hn (ls.map fun p => recordText p.1 ++ p.2)
    split
    · rename_i hc; rw [hf] at hc; cases hc
    · rename_i r rest hc
      rw [hf] at hc
      obtain ⟨rfl, rfl⟩ := Prod.mk.inj (Option.some.inj hc)
      rfl

/-- ReadAll on lines that hold plain records, once the number of fields is known. -/
theorem csvRecords_known (ls : List (List Str × Str)) (h : ∀ p ∈ ls, (∀ f ∈ p.1, PlainField f) ∧ (p.2 = [] ∨ p.2 = [10])) {n : Nat} (hn : 0 < n) :
    csvRecords n (ls.map fun p => recordText p.1 ++ p.2) = if ∀ r ∈ recordsOf ls, r.length = n then some (recordsOf ls) else none := by
  induction ls with
  | nil => rw [List.map_nil]; unfold csvRecords; simp [recordsOf]
  | cons p ls ih =>
    obtain ⟨hp, hnl⟩ := h p List.mem_cons_self
    rw [csvRecords_step hp hnl, ih fun q hq => h q (List.mem_cons_of_mem _ hq), if_neg (show ¬ n = 0 by omega),
      ih fun q hq => h q (List.mem_cons_of_mem _ hq)]
    by_cases he : recordText p.1 = []
    · have : recordsOf (p :: ls) = recordsOf ls := by unfold recordsOf; rw [List.map_cons, List.filter_cons_of_neg (by simp [he])]
      rw [if_pos he, this]
    · have : recordsOf (p :: ls) = p.1 :: recordsOf ls := by unfold recordsOf; rw [List.map_cons, List.filter_cons_of_pos (by simp [he])]
      rw [if_neg he, this]
      by_cases hl : p.1.length = n
      · rw [if_neg fun e => e.2 hl]
        by_cases hall : ∀ r ∈ recordsOf ls, r.length = n
        · rw [if_pos hall, if_pos (List.forall_mem_cons (p := fun r : List Str => r.length = n) |>.2 ⟨hl, hall⟩)]; rfl
        · rw [if_neg hall, if_neg fun e => hall fun r hr => e r (List.mem_cons_of_mem _ hr)]; rfl
      · rw [if_pos ⟨hn, hl⟩, if_neg fun e => hl (e p.1 List.mem_cons_self)]

/-- ReadAll on lines that hold plain records. -/
theorem csvRecords_plain (ls : List (List Str × Str)) (h : ∀ p ∈ ls, (∀ f ∈ p.1, PlainField f) ∧ (p.2 = [] ∨ p.2 = [10])) :
    csvRecords 0 (ls.map fun p => recordText p.1 ++ p.2) =
      if ∀ r ∈ recordsOf ls, r.length = ((recordsOf ls).headD []).length then some (recordsOf ls) else none := by
  induction ls with
  | nil => rw [List.map_nil]; unfold csvRecords; simp [recordsOf]
  | cons p ls ih =>
    obtain ⟨hp, hnl⟩ := h p List.mem_cons_self
    have h' := fun q hq => h q (List.mem_cons_of_mem p hq)
    rw [csvRecords_step hp hnl, ih h', if_neg (show ¬ (0 < 0 ∧ p.1.length ≠ 0) from fun e => absurd e.1 (by omega)), if_pos (show 0 = 0 from rfl)]
    by_cases he : recordText p.1 = []
    · have : recordsOf (p :: ls) = recordsOf ls := by unfold recordsOf; rw [List.map_cons, List.filter_cons_of_neg (by simp [he])]
      rw [if_pos he, this]
    · have : recordsOf (p :: ls) = p.1 :: recordsOf ls := by unfold recordsOf; rw [List.map_cons, List.filter_cons_of_pos (by simp [he])]
      have hlen : 0 < p.1.length := List.length_pos_iff.2 fun e => he (by rw [e]; rfl)
      rw [if_neg he, this, csvRecords_known ls h' hlen, List.headD_cons]
      by_cases hall : ∀ r ∈ recordsOf ls, r.length = p.1.length
      · rw [if_pos hall, if_pos (List.forall_mem_cons (p := fun r : List Str => r.length = p.1.length) |>.2 ⟨rfl, hall⟩)]; rfl
      · rw [if_neg hall, if_neg fun e => hall fun r hr => e r (List.mem_cons_of_mem _ hr)]; rfl

theorem rawLines_text (ls : List (List Str × Str)) (h : ∀ p ∈ ls, (∀ f ∈ p.1, PlainField f) ∧ (p.2 = [10] ∨ p.2 = [13, 10])) (s : Str) :
    (rawLines (linesText ls ++ s)).map csvLine = (ls.map fun p => recordText p.1 ++ [10]) ++ (rawLines s).map csvLine := by
  induction ls with
  | nil => rfl
  | cons p ls ih =>
    obtain ⟨hp, hn⟩ := h p List.mem_cons_self
    obtain ⟨h10, h13⟩ := recordText_plain hp
    rw [List.map_cons, List.cons_append, ← ih fun q hq => h q (List.mem_cons_of_mem _ hq)]
    show (rawLines (recordText p.1 ++ p.2 ++ linesText ls ++ s)).map csvLine = _
    rcases hn with e | e
    · rw [e, List.append_assoc _ (linesText ls), rawLines_line h10, List.map_cons, csvLine_lf h13]
    · rw [e, show recordText p.1 ++ [13, 10] ++ linesText ls ++ s = (recordText p.1 ++ [13]) ++ [10] ++ (linesText ls ++ s) by simp,
        rawLines_line (by simp only [List.mem_append, List.mem_singleton, not_or]; exact ⟨h10, by decide⟩), List.map_cons,
        show recordText p.1 ++ [13] ++ [10] = recordText p.1 ++ [13, 10] by simp, csvLine_crlf]

/-- C147: ReadAll of encoding/csv on a file of plain records, one per line, the lines ended by \n or \r\n, the last one perhaps not ended,
perhaps with blank lines among them: the records as they are, or an error if two of them do not have as many fields. -/
theorem C147_csv (ls : List (List Str × Str)) (last : List Str) (h : ∀ p ∈ ls, (∀ f ∈ p.1, PlainField f) ∧ (p.2 = [10] ∨ p.2 = [13, 10]))
    (hl : ∀ f ∈ last, PlainField f) (recs : List (List Str)) (hrec : recs = (ls.map Prod.fst ++ [last]).filter fun r => recordText r ≠ []) :
    ((∀ r ∈ recs, ∀ r' ∈ recs, r.length = r'.length) → csvReadAll (linesText ls ++ recordText last) = some recs) ∧
    ((∃ r ∈ recs, ∃ r' ∈ recs, r.length ≠ r'.length) → csvReadAll (linesText ls ++ recordText last) = none) := by
  have key : csvReadAll (linesText ls ++ recordText last) =
      if (∀ r ∈ recs, r.length = (recs.headD []).length) then some recs else none := by
    have hmap : (rawLines (linesText ls ++ recordText last)).map csvLine =
        (ls.map fun p => recordText p.1 ++ [10]) ++ if recordText last = [] then [] else [recordText last] := by
      rw [rawLines_text ls h]
      congr 1
      by_cases e : recordText last = []
      · rw [if_pos e, e]; rfl
      · obtain ⟨h10, h13⟩ := recordText_plain hl
        rw [if_neg e, rawLines_last h10 e, List.map_cons, csvLine_last h13 h10]; rfl
    unfold csvReadAll
    rw [hmap]
    have e1 : (ls.map fun p => recordText p.1 ++ [10]) = (ls.map fun p => (p.1, ([10] : Str))).map fun p => recordText p.1 ++ p.2 := by
      rw [List.map_map]; rfl
    have e2 : (ls.map fun p => (p.1, ([10] : Str))).map Prod.fst = ls.map Prod.fst := by rw [List.map_map]; rfl
    have hcov : ∀ p ∈ ls.map (fun p => (p.1, ([10] : Str))), (∀ f ∈ p.1, PlainField f) ∧ (p.2 = [] ∨ p.2 = [10]) := by
      intro p hp
      obtain ⟨q, hq, rfl⟩ := List.mem_map.1 hp
      exact ⟨(h q hq).1, .inr rfl⟩
    by_cases e : recordText last = []
    · rw [if_pos e, List.append_nil, e1, csvRecords_plain _ hcov]
      unfold recordsOf
      rw [e2]
      have : recs = (ls.map Prod.fst).filter fun r => recordText r ≠ [] := by
        rw [hrec, List.filter_append, List.filter_cons_of_neg (by simp [e])]; simp
      rw [this]
    · rw [if_neg e, e1, show [recordText last] = [(last, ([] : Str))].map (fun p => recordText p.1 ++ p.2) by simp, ← List.map_append,
        csvRecords_plain _ (by
          intro p hp
          rcases List.mem_append.1 hp with hp | hp
          · exact hcov p hp
          · rw [List.mem_singleton.1 hp]; exact ⟨hl, .inl rfl⟩)]
      unfold recordsOf
      rw [List.map_append, e2, hrec]
      rfl
  rw [key]
  constructor
  · intro hall
    refine if_pos fun r hr => ?_
    cases recs with
    | nil => cases hr
    | cons r0 recs => exact hall r hr r0 List.mem_cons_self
  · rintro ⟨r, hr, r', hr', hne⟩
    exact if_neg fun hall => hne ((hall r hr).trans (hall r' hr').symm)

/-! ### Numbers -/

theorem takeDigits_digits {ds : List Nat} (h : ∀ d ∈ ds, d < 10) {s : Str} (hs : ∀ b, s.head? = some b → ¬ (48 ≤ b.toNat ∧ b.toNat ≤ 57)) :
    takeDigits (digitText ds ++ s) = (ds, s) := by
  induction ds with
  | nil =>
    show takeDigits s = _
    cases s with
    | nil => rfl
    | cons b s => unfold takeDigits; rw [if_neg (hs b rfl)]
  | cons d ds ih =>
    have hd := h d List.mem_cons_self
    have e : (BitVec.ofNat 8 (48 + d)).toNat = 48 + d := by rw [BitVec.toNat_ofNat]; omega
    show takeDigits (BitVec.ofNat 8 (48 + d) :: (digitText ds ++ s)) = _
    unfold takeDigits
    rw [ih fun x hx => h x (List.mem_cons_of_mem _ hx), if_pos (by rw [e]; omega), e, Nat.add_sub_cancel_left]

theorem takeSign_text {t : Str} {neg : Bool} (ht : SignText t neg) {s : Str} (hs : s.head? ≠ some 43) (hs' : s.head? ≠ some 45) :
    takeSign (t ++ s) = (neg, s) := by
  rcases ht with ⟨rfl, rfl⟩ | ⟨rfl, rfl⟩ | ⟨rfl, rfl⟩
  · show takeSign s = _
    unfold takeSign
    split
    · exact absurd rfl hs
    · exact absurd rfl hs'
    · rfl
  · rfl
  · rfl

theorem digits_head {ds : List Nat} (h : ∀ d ∈ ds, d < 10) {s : Str} {c : Byte} (hc : ∀ d < 10, BitVec.ofNat 8 (48 + d) ≠ c) (hs : s.head? ≠ some c) :
    (digitText ds ++ s).head? ≠ some c := by
  cases ds with
  | nil => exact hs
  | cons d ds => exact fun e => hc d (h d List.mem_cons_self) (Option.some.inj e)

theorem takeDigits_all {ds : List Nat} (h : ∀ d ∈ ds, d < 10) : takeDigits (digitText ds) = (ds, []) := by
  have := takeDigits_digits h (s := []) (fun b e => by cases e)
  rwa [List.append_nil] at this

theorem clamped_eq {ds : List Nat} (h : numeral ds < 100000) : ds.foldl (fun n d => if n < 10000 then 10 * n + d else n) 0 = numeral ds := by
  induction ds using List.reverseRecOn with
  | nil => rfl
  | append_singleton ds d ih =>
    have e : numeral (ds ++ [d]) = 10 * numeral ds + d := by unfold numeral; rw [List.foldl_append]; rfl
    rw [e] at h
    rw [List.foldl_append, ih (by omega), e]
    show (if numeral ds < 10000 then 10 * numeral ds + d else numeral ds) = _
    rw [if_pos (by omega)]

theorem readExponent_text {t : Str} {e : Int} (h : ExpText t e) : readExponent t = some e := by
  rcases h with ⟨rfl, rfl⟩ | ⟨c, sg, neg, ds, hc, hsg, hne, hd, hlt, rfl, rfl⟩
  · rfl
  · have hs : takeSign (sg ++ digitText ds) = (neg, digitText ds) :=
      takeSign_text hsg (by have := digits_head hd (s := []) (c := 43) (by decide) (by decide); rwa [List.append_nil] at this)
        (by have := digits_head hd (s := []) (c := 45) (by decide) (by decide); rwa [List.append_nil] at this)
    unfold readExponent
    dsimp only
    rw [if_pos hc, hs]
    dsimp only
    rw [takeDigits_all hd, if_neg (by simp [hne]), clamped_eq hlt]

theorem expText_head {t : Str} {e : Int} (h : ExpText t e) : ∀ b, t.head? = some b → b = 101 ∨ b = 69 := by
  rcases h with ⟨rfl, rfl⟩ | ⟨c, sg, neg, ds, hc, -, -, -, -, rfl, -⟩
  · intro b hb; cases hb
  · intro b hb
    obtain rfl := Option.some.inj hb
    exact hc

theorem readDecimal_text {sg : Str} {neg : Bool} (hsg : SignText sg neg) {ip fp : List Nat} (h : ∀ d ∈ ip ++ fp, d < 10) (hne : ip ++ fp ≠ [])
    {pt : Str} (hpt : pt = str "." ∨ pt = [] ∧ fp = []) {ex : Str} {e : Int} (hex : ExpText ex e) :
    readDecimal (sg ++ digitText ip ++ pt ++ digitText fp ++ ex) = some (neg, numeral (ip ++ fp), e - (fp.length : Int)) := by
  have hi : ∀ d ∈ ip, d < 10 := fun d hd => h d (List.mem_append_left _ hd)
  have hf : ∀ d ∈ fp, d < 10 := fun d hd => h d (List.mem_append_right _ hd)
  have hexd : ∀ b, ex.head? = some b → ¬ (48 ≤ b.toNat ∧ b.toNat ≤ 57) := by
    intro b hb
    rcases expText_head hex b hb with rfl | rfl <;> decide
  have hexc : ∀ c : Byte, c ≠ 101 → c ≠ 69 → ex.head? ≠ some c := fun c h1 h2 hb => (expText_head hex c hb).elim h1 h2
  rw [List.append_assoc, List.append_assoc, List.append_assoc]
  rcases hpt with rfl | ⟨rfl, rfl⟩
  · have hsg' : takeSign (sg ++ (digitText ip ++ (46 :: (digitText fp ++ ex)))) = (neg, digitText ip ++ (46 :: (digitText fp ++ ex))) :=
      takeSign_text hsg (digits_head hi (by decide) (fun e => absurd (Option.some.inj e) (by decide)))
        (digits_head hi (by decide) (fun e => absurd (Option.some.inj e) (by decide)))
    have h1 : takeDigits (digitText ip ++ (46 :: (digitText fp ++ ex))) = (ip, 46 :: (digitText fp ++ ex)) :=
      takeDigits_digits hi fun b e => by obtain rfl := Option.some.inj e; decide
    have h2 : takeDigits (digitText fp ++ ex) = (fp, ex) := takeDigits_digits hf hexd
    unfold readDecimal
    rw [show str "." ++ (digitText fp ++ ex) = 46 :: (digitText fp ++ ex) from rfl, hsg']
    dsimp only
    rw [h1]
    show (if ip = [] ∧ (takeDigits (digitText fp ++ ex)).1 = [] then none else (readExponent (takeDigits (digitText fp ++ ex)).2).map
      fun e : Int => (neg, digitsValue (ip ++ (takeDigits (digitText fp ++ ex)).1), e - ((takeDigits (digitText fp ++ ex)).1.length : Int))) = _
    rw [h2, if_neg (fun e => hne (List.append_eq_nil_iff.2 e)), readExponent_text hex]
    rfl
  · have hsg' : takeSign (sg ++ (digitText ip ++ ex)) = (neg, digitText ip ++ ex) :=
      takeSign_text hsg (digits_head hi (by decide) (hexc _ (by decide) (by decide))) (digits_head hi (by decide) (hexc _ (by decide) (by decide)))
    have h1 : takeDigits (digitText ip ++ ex) = (ip, ex) := takeDigits_digits hi hexd
    have hm : takeFraction ex = ([], ex) := by
      unfold takeFraction
      split
      · exact absurd rfl (hexc 46 (by decide) (by decide))
      · rfl
    unfold readDecimal
    rw [show ([] : Str) ++ (digitText [] ++ ex) = ex from rfl, hsg']
    dsimp only
    rw [h1]
    dsimp only
    rw [hm, if_neg (fun e => hne (List.append_eq_nil_iff.2 e)), readExponent_text hex]
    rfl

/-- C147: what ParseFloat makes of a decimal number, with or without sign, point and exponent: the float64 nearest to it. -/
theorem C147_numeral (other : Str → F64) (sg : Str) (neg : Bool) (hsg : SignText sg neg) (ip fp : List Nat) (h : ∀ d ∈ ip ++ fp, d < 10)
    (hne : ip ++ fp ≠ []) (pt : Str) (hpt : pt = str "." ∨ pt = [] ∧ fp = []) (ex : Str) (e : Int) (hex : ExpText ex e) :
    parseFloat other (sg ++ digitText ip ++ pt ++ digitText fp ++ ex) =
      F64.round neg ((if neg then -1 else 1) * (numeral (ip ++ fp) * (10 : ℝ) ^ (e - (fp.length : Int)))) := by
  unfold parseFloat
  rw [readDecimal_text hsg h hne hpt hex]

/-- C147: what ParseFloat makes of a numeral with a decimal point: the float64 nearest to the number written. -/
theorem C147_value (other : Str → F64) (neg : Bool) (ip fp : List Nat) (h : ∀ d ∈ ip ++ fp, d < 10) (hne : ip ++ fp ≠ []) :
    let y : ℝ := (if neg then -1 else 1) * (numeral (ip ++ fp) / 10 ^ fp.length)
    let x := parseFloat other ((if neg then str "-" else []) ++ digitText ip ++ str "." ++ digitText fp)
    x = F64.round neg y ∧ (|y| ≤ F64.big → x.Finite ∧ |x.val - y| ≤ F64.ueps * |y| + F64.tiny) := by
  dsimp only
  have e : parseFloat other ((if neg then str "-" else []) ++ digitText ip ++ str "." ++ digitText fp) =
      F64.round neg ((if neg then -1 else 1) * (numeral (ip ++ fp) / 10 ^ fp.length)) := by
    have hsg : SignText (if neg then str "-" else []) neg := by cases neg <;> simp [SignText]
    have := C147_numeral other _ neg hsg ip fp h hne (str ".") (.inl rfl) [] 0 (.inl ⟨rfl, rfl⟩)
    rw [List.append_nil, zero_sub, zpow_neg, zpow_natCast, ← div_eq_mul_inv] at this
    exact this
  rw [e]
  exact ⟨rfl, fun hb => ⟨F64.round_finite hb, F64.round_err (F64.round_finite hb)⟩⟩

/-- C147: reading back a number that %f printed into a log file: the number up to half of the sixth decimal and a rounding. -/
theorem C147_readBack (other : Str → F64) (x : F64) (hx : x.absBits < F64.infBits) (hb : |x.val| ≤ F64.big - 1) :
    |(parseFloat other (fmtF x)).val - x.val| ≤ 1 / (2 * 10 ^ 6) + (F64.ueps * (|x.val| + 1) + F64.tiny) := by
  obtain ⟨ip, fp, h1, h2, -, h4, h5, h6⟩ := (C146_float x).2.2 hx
  have hv := C147_value other x.sign ip fp h1 (by simp [h2])
  dsimp only at hv
  rw [h5]
  rw [h4] at hv
  obtain ⟨-, hv⟩ := hv
  set q : ℝ := (numeral (ip ++ fp) : ℝ) / 10 ^ 6 with hq
  have hq0 : 0 ≤ q := by positivity
  have habs : ∀ s : Bool, |(if s then (-1 : ℝ) else 1) * q| = q := by
    intro s; cases s <;> simp [abs_of_nonneg hq0]
  have hd := abs_le.1 h6
  have hq1 : q ≤ abs x.val + 1 := by
    have : (1 : ℝ) / (2 * 10 ^ 6) ≤ 1 := by norm_num
    linarith [hd.2]
  have hv' := (hv (by rw [habs]; linarith)).2
  rw [habs] at hv'
  have hsgn : |(if x.sign then (-1 : ℝ) else 1) * q - x.val| ≤ 1 / (2 * 10 ^ 6) := by
    have hm := mag_nonneg' x.absBits
    rw [abs_val] at h6
    unfold F64.val
    split
    · rename_i hs
      rw [show (-1 : ℝ) * q - -F64.mag x.absBits = -(q - F64.mag x.absBits) by ring, abs_neg]
      exact h6
    · rename_i hs
      rw [one_mul]
      exact h6
  have hu := F64.ueps_pos
  calc _ ≤ _ := abs_sub_le _ ((if x.sign then (-1 : ℝ) else 1) * q) _
    _ ≤ (F64.ueps * q + F64.tiny) + 1 / (2 * 10 ^ 6) := add_le_add hv' hsgn
    _ ≤ _ := by nlinarith

theorem ten_le_big : (10 : ℝ) ≤ F64.big := by
  unfold F64.big
  have h := mul_le_mul_of_nonneg_left (show (1 : ℝ) ≤ (2 : ℝ) ^ (971 : ℤ) from one_le_zpow₀ (by norm_num) (by norm_num))
    (show (0 : ℝ) ≤ 2 ^ 53 - 1 by norm_num)
  refine le_trans ?_ h
  norm_num

theorem tenths_value (other : Str → F64) {k : Nat} (hk : k < 100) :
    parseFloat other (tenthsText k) = F64.round false ((k : ℝ) / 10) ∧
      |(parseFloat other (tenthsText k)).val - (k : ℝ) / 10| ≤ 10 * F64.ueps + F64.tiny := by
  have hv := C147_value other false [k / 10] [k % 10] (by
    intro d hd
    rcases List.mem_cons.1 hd with rfl | hd
    · omega
    · rw [List.mem_singleton.1 hd]; omega) (by simp)
  have hnum : ((numeral ([k / 10] ++ [k % 10]) : Nat) : ℝ) = k := by
    have : numeral ([k / 10] ++ [k % 10]) = k := by simp [numeral]; omega
    rw [this]
  dsimp only at hv
  rw [hnum] at hv
  simp only [Bool.false_eq_true, if_false, one_mul, List.nil_append, List.length_singleton, pow_one] at hv
  have hy0 : (0 : ℝ) ≤ (k : ℝ) / 10 := by positivity
  have hy : (k : ℝ) / 10 ≤ 10 := by
    have : (k : ℝ) ≤ 100 := by exact_mod_cast hk.le
    linarith
  refine ⟨hv.1, (hv.2 (by rw [abs_of_nonneg hy0]; linarith [ten_le_big])).2.trans ?_⟩
  rw [abs_of_nonneg hy0]
  nlinarith [F64.ueps_pos]

/-! ### The program -/

section
open Go
variable [Libm]

attribute [local irreducible] wp

theorem f64_zero_lt : Flt.lt (Flt.zero : F64) Flt.zero = false := by rw [f64_lt_int 0 0 (by norm_num) (by norm_num)]; rfl

/-- C147: TestIris on any file that ReadAll accepts, if it has records and they have five fields at least: it reports nothing and trains on one
sample per record, in some order, with the four numbers as inputs and class 0 for Iris-setosa, 1 for Iris-versicolor and 2 for whatever else. -/
theorem C147_train (w : World F64) (o : Optim F64) (other : Str → F64) (draw : Nat → Nat) (s : Str) (recs : List (List Str))
    (hs : csvReadAll s = some recs) (hne : recs ≠ []) (h5 : ∀ r ∈ recs, 5 ≤ r.length) (hb : recs.length ≤ 2 ^ 53)
    (hdraw : ∀ i, 1 ≤ i → i < recs.length → draw i ≤ i) :
    wp (testIrisFile o other draw false (some s)) w (fun r w' => r = (none, none) ∧ ∃ cell : Nat → Nat → F64, ∃ cls : Nat → Nat,
      (∀ (i : Nat) (r : List Str), recs[i]? = some r → (∀ (j : Nat) (f : Str), j < 4 → r[j]? = some f → cell i j = parseFloat other f) ∧
        (r[4]? = some (str "Iris-setosa") → cls i = 0) ∧ (r[4]? = some (str "Iris-versicolor") → cls i = 1) ∧
        (r[4]? ≠ some (str "Iris-setosa") → r[4]? ≠ some (str "Iris-versicolor") → cls i = 2)) ∧
      ∃ σ : Equiv.Perm Nat, (∀ i, i < recs.length ↔ σ i < recs.length) ∧
        TrainsAs w w' (fun i => w.norm (w.normPos + i)) (plainArgs (fun i => if i = 2 then .softmax else .hidden) (fun i => [4, 16, 16, 3].getD i 3)) 3 ⟨.ce, 3⟩ o 1 Flt.zero
          ⟨recs.length, fun i => cell (σ i), fun i => irisY cls (σ i)⟩ 100 0 500) := by
  unfold testIrisFile
  dsimp only
  rw [hs]
  dsimp only [Option.getD_some]
  rw [if_pos (show false = true ∨ ∀ r ∈ recs, 5 ≤ r.length from .inr h5)]
  refine wp_mono (C109_iris f64_zero_lt w o recs.length (List.length_pos_iff.2 hne) hb _ _ draw hdraw) ?_
  rintro r w' ⟨hr, hσ⟩
  refine ⟨hr, fun i j => parseFloat other ((recs.getD i []).getD j []), fun i => irisClass ((recs.getD i []).getD 4 []), ?_, hσ⟩
  intro i r hi
  have hi' : recs.getD i [] = r := by rw [List.getD_eq_getElem?_getD, hi]; rfl
  refine ⟨fun j f _ hj => ?_, fun h => ?_, fun h => ?_, fun h h' => ?_⟩
  · dsimp only
    rw [hi', List.getD_eq_getElem?_getD, hj]; rfl
  · dsimp only
    rw [hi', List.getD_eq_getElem?_getD, h]; rfl
  · dsimp only
    rw [hi', List.getD_eq_getElem?_getD, h]; rfl
  · dsimp only
    rw [hi', List.getD_eq_getElem?_getD]
    have hlen := h5 r (List.mem_of_getElem? hi)
    have e : r[4]? = some r[4] := List.getElem?_eq_getElem hlen
    rw [e] at h h' ⊢
    rw [Option.getD_some]
    unfold irisClass
    rw [if_neg (fun e => h (congrArg some e)), if_neg (fun e => h' (congrArg some e))]

/-- C147: if ReadAll fails, TestIris does not notice, for it looks at the wrong error (iris_test.go:33).  It goes on with no records, reports
nothing, and all that is logged is that Fit could not do a forward pass. -/
theorem C147_unnoticed (w : World F64) (o : Optim F64) (other : Str → F64) (draw : Nat → Nat) (s : Str) (hs : csvReadAll s = none) :
    wp (testIrisFile o other draw false (some s)) w (fun r w' => ∃ er, r = (none, some er) ∧ w'.log = w.log ++ [.error .forward er]) := by
  unfold testIrisFile
  dsimp only
  rw [hs]
  dsimp only [Option.getD_none]
  rw [if_pos (show false = true ∨ ∀ r ∈ ([] : List (List Str)), 5 ≤ r.length from .inr fun r hr => by cases hr)]
  refine C109_iris_empty f64_zero_lt w o _ _ draw

/-- C147: TestIris panics on records with fewer than five fields. -/
theorem C147_short (w : World F64) (o : Optim F64) (other : Str → F64) (draw : Nat → Nat) (s : Str) (recs : List (List Str))
    (hs : csvReadAll s = some recs) (h5 : ∃ r ∈ recs, r.length < 5) : testIrisFile o other draw false (some s) w = .error .index := by
  obtain ⟨r, hr, hl⟩ := h5
  unfold testIrisFile
  dsimp only
  rw [hs]
  dsimp only [Option.getD_some]
  refine congrFun (if_neg ?_) w
  rintro (h | h)
  · cases h
  · have := h r hr; omega

theorem eq_of_chunks {β : Type} {a b : List β} (n : Nat) (ha : a.length ≤ 10 * n) (hb : b.length ≤ 10 * n)
    (h : ∀ k < n, (a.drop (10 * k)).take 10 = (b.drop (10 * k)).take 10) : a = b := by
  refine List.ext_getElem? fun i => ?_
  by_cases hi : i < 10 * n
  · have e : ∀ l : List β, ((l.drop (10 * (i / 10))).take 10)[i % 10]? = l[i]? := by
      intro l
      rw [List.getElem?_take_of_lt (Nat.mod_lt _ (by decide)), List.getElem?_drop, Nat.div_add_mod]
    rw [← e a, ← e b, h (i / 10) (by omega)]
  · rw [List.getElem?_eq_none (by omega), List.getElem?_eq_none (by omega)]

/-! The lines of the file, ten at a time (all at once takes the kernel too much memory). -/

theorem irisLines_0 : ((irisLines.map str).drop (10 * 0)).take 10 = ((irisRecords.map recordText ++ [[]]).drop (10 * 0)).take 10 := by decide +kernel
theorem irisLines_1 : ((irisLines.map str).drop (10 * 1)).take 10 = ((irisRecords.map recordText ++ [[]]).drop (10 * 1)).take 10 := by decide +kernel
theorem irisLines_2 : ((irisLines.map str).drop (10 * 2)).take 10 = ((irisRecords.map recordText ++ [[]]).drop (10 * 2)).take 10 := by decide +kernel
theorem irisLines_3 : ((irisLines.map str).drop (10 * 3)).take 10 = ((irisRecords.map recordText ++ [[]]).drop (10 * 3)).take 10 := by decide +kernel
theorem irisLines_4 : ((irisLines.map str).drop (10 * 4)).take 10 = ((irisRecords.map recordText ++ [[]]).drop (10 * 4)).take 10 := by decide +kernel
theorem irisLines_5 : ((irisLines.map str).drop (10 * 5)).take 10 = ((irisRecords.map recordText ++ [[]]).drop (10 * 5)).take 10 := by decide +kernel
theorem irisLines_6 : ((irisLines.map str).drop (10 * 6)).take 10 = ((irisRecords.map recordText ++ [[]]).drop (10 * 6)).take 10 := by decide +kernel
theorem irisLines_7 : ((irisLines.map str).drop (10 * 7)).take 10 = ((irisRecords.map recordText ++ [[]]).drop (10 * 7)).take 10 := by decide +kernel
theorem irisLines_8 : ((irisLines.map str).drop (10 * 8)).take 10 = ((irisRecords.map recordText ++ [[]]).drop (10 * 8)).take 10 := by decide +kernel
theorem irisLines_9 : ((irisLines.map str).drop (10 * 9)).take 10 = ((irisRecords.map recordText ++ [[]]).drop (10 * 9)).take 10 := by decide +kernel
theorem irisLines_10 : ((irisLines.map str).drop (10 * 10)).take 10 = ((irisRecords.map recordText ++ [[]]).drop (10 * 10)).take 10 := by decide +kernel
theorem irisLines_11 : ((irisLines.map str).drop (10 * 11)).take 10 = ((irisRecords.map recordText ++ [[]]).drop (10 * 11)).take 10 := by decide +kernel
theorem irisLines_12 : ((irisLines.map str).drop (10 * 12)).take 10 = ((irisRecords.map recordText ++ [[]]).drop (10 * 12)).take 10 := by decide +kernel
theorem irisLines_13 : ((irisLines.map str).drop (10 * 13)).take 10 = ((irisRecords.map recordText ++ [[]]).drop (10 * 13)).take 10 := by decide +kernel
theorem irisLines_14 : ((irisLines.map str).drop (10 * 14)).take 10 = ((irisRecords.map recordText ++ [[]]).drop (10 * 14)).take 10 := by decide +kernel
theorem irisLines_15 : ((irisLines.map str).drop (10 * 15)).take 10 = ((irisRecords.map recordText ++ [[]]).drop (10 * 15)).take 10 := by decide +kernel

theorem irisLines_eq : irisLines.map str = irisRecords.map recordText ++ [[]] := by
  refine eq_of_chunks 16 (by rw [List.length_map]; decide +kernel)
    (by rw [List.length_append, List.length_map]; unfold irisRecords; rw [List.length_map, List.length_range]; decide) fun k hk => ?_
  match k, hk with
  | 0, _ => exact irisLines_0
  | 1, _ => exact irisLines_1
  | 2, _ => exact irisLines_2
  | 3, _ => exact irisLines_3
  | 4, _ => exact irisLines_4
  | 5, _ => exact irisLines_5
  | 6, _ => exact irisLines_6
  | 7, _ => exact irisLines_7
  | 8, _ => exact irisLines_8
  | 9, _ => exact irisLines_9
  | 10, _ => exact irisLines_10
  | 11, _ => exact irisLines_11
  | 12, _ => exact irisLines_12
  | 13, _ => exact irisLines_13
  | 14, _ => exact irisLines_14
  | 15, _ => exact irisLines_15
  | k + 16, h => exact absurd h (by omega)

theorem linesText_map (l : List (List Str)) :
    (l.map recordText ++ [[]]).flatMap (fun l => l ++ [(10 : Byte)]) = linesText ((l ++ [[]]).map fun r => (r, [10])) ++ recordText [] := by
  unfold linesText
  rw [List.flatMap_map, List.flatMap_append, List.flatMap_append, List.flatMap_map]
  show _ = _ ++ []
  rw [List.append_nil]
  rfl

theorem irisFile_eq : irisFile = linesText ((irisRecords ++ [[]]).map fun r => (r, [10])) ++ recordText [] := by
  have e1 : ∀ l : List String, (l.flatMap fun l => str l ++ [10]) = (l.map str).flatMap fun l => l ++ [10] := fun l => by rw [List.flatMap_map]
  unfold irisFile
  rw [e1, irisLines_eq, linesText_map]

theorem irisTenths_facts : irisTenths.length = 150 ∧ (∀ r ∈ irisTenths, r.length = 4) ∧ ∀ r ∈ irisTenths, ∀ k ∈ r, k < 100 := by
  decide +kernel

theorem irisName_plain (c : Nat) : PlainField (irisName c) := by
  have h : ∀ c < 3, ∀ b ∈ irisName c, b ≠ 34 ∧ b ≠ 44 ∧ b ≠ 10 ∧ b ≠ 13 := by decide +kernel
  by_cases hc : c < 3
  · exact h c hc
  · have : irisName c = [] := by
      unfold irisName
      rw [List.getD_eq_default _ _ (by simpa using hc)]
      rfl
    rw [this]
    exact fun b hb => by cases hb

theorem tenthsText_plain {k : Nat} (hk : k < 100) : PlainField (tenthsText k) := by
  have hd : ∀ d < 10, ∀ b : Byte, b = BitVec.ofNat 8 (48 + d) → b ≠ 34 ∧ b ≠ 44 ∧ b ≠ 10 ∧ b ≠ 13 := by
    rintro d hd b rfl
    revert d
    decide
  intro b hb
  unfold tenthsText at hb
  rcases List.mem_append.1 hb with hb | hb
  · rcases List.mem_append.1 hb with hb | hb
    · exact hd (k / 10) (by omega) b (List.mem_singleton.1 hb)
    · have : b = 46 := List.mem_singleton.1 hb
      rw [this]
      decide
  · exact hd (k % 10) (by omega) b (List.mem_singleton.1 hb)

theorem irisRecords_some {i : Nat} {row : List Nat} (h : irisTenths[i]? = some row) :
    irisRecords[i]? = some (row.map tenthsText ++ [irisName (i / 50)]) := by
  have hi : i < 150 := by rw [← irisTenths_facts.1]; exact (List.getElem?_eq_some_iff.1 h).1
  unfold irisRecords
  rw [List.getElem?_map, List.getElem?_range hi]
  show some ((irisTenths.getD i []).map tenthsText ++ [irisName (i / 50)]) = _
  rw [List.getD_eq_getElem?_getD, h]
  rfl

theorem irisRecords_get {i : Nat} {r : List Str} (h : irisRecords[i]? = some r) :
    ∃ row, irisTenths[i]? = some row ∧ r = row.map tenthsText ++ [irisName (i / 50)] := by
  have hi : i < 150 := by
    have := (List.getElem?_eq_some_iff.1 h).1
    unfold irisRecords at this
    rwa [List.length_map, List.length_range] at this
  obtain ⟨row, hrow⟩ : ∃ row, irisTenths[i]? = some row := ⟨_, List.getElem?_eq_getElem (by rw [irisTenths_facts.1]; exact hi)⟩
  refine ⟨row, hrow, ?_⟩
  rw [irisRecords_some hrow] at h
  exact (Option.some.inj h).symm

theorem irisRecords_facts : irisRecords.length = 150 ∧ (∀ r ∈ irisRecords, r.length = 5) ∧ ∀ r ∈ irisRecords, ∀ f ∈ r, PlainField f := by
  obtain ⟨h1, h2, h3⟩ := irisTenths_facts
  refine ⟨by unfold irisRecords; rw [List.length_map, List.length_range], fun r hr => ?_, fun r hr f hf => ?_⟩
  · obtain ⟨i, hi⟩ := List.mem_iff_getElem?.1 hr
    obtain ⟨row, hrow, rfl⟩ := irisRecords_get hi
    rw [List.length_append, List.length_map, h2 row (List.mem_of_getElem? hrow)]
    rfl
  · obtain ⟨i, hi⟩ := List.mem_iff_getElem?.1 hr
    obtain ⟨row, hrow, rfl⟩ := irisRecords_get hi
    rcases List.mem_append.1 hf with hf | hf
    · obtain ⟨k, hk, rfl⟩ := List.mem_map.1 hf
      exact tenthsText_plain (h3 row (List.mem_of_getElem? hrow) k hk)
    · rw [List.mem_singleton.1 hf]
      exact irisName_plain _

theorem irisFile_read : csvReadAll irisFile = some irisRecords := by
  obtain ⟨h1, h2, h3⟩ := irisRecords_facts
  rw [irisFile_eq]
  refine (C147_csv _ [] ?_ (fun f hf => by cases hf) irisRecords ?_).1 fun r hr r' hr' => (h2 r hr).trans (h2 r' hr').symm
  · intro p hp
    obtain ⟨r, hr, rfl⟩ := List.mem_map.1 hp
    refine ⟨fun f hf => ?_, .inl rfl⟩
    rcases List.mem_append.1 hr with hr | hr
    · exact h3 r hr f hf
    · rw [List.mem_singleton.1 hr] at hf; cases hf
  · have hfil : irisRecords.filter (fun r => recordText r ≠ []) = irisRecords := by
      refine List.filter_eq_self.2 fun r hr => decide_eq_true ?_
      obtain ⟨i, hi⟩ := List.mem_iff_getElem?.1 hr
      have h5 := h2 r hr
      match r, h5 with
      | f :: g :: r, _ => unfold recordText; simp
    have e : ∀ l : List (List Str), l.filter (fun r => recordText r ≠ []) = l →
        l = (((l ++ [[]]).map fun r => (r, ([10] : Str))).map Prod.fst ++ [[]]).filter fun r => recordText r ≠ [] := by
      intro l hl
      rw [List.map_map, show (Prod.fst ∘ fun r : List Str => (r, ([10] : Str))) = id from rfl, List.map_id, List.filter_append, List.filter_append, hl]
      simp [recordText]
    exact e _ hfil

/-- C147: TestIris with the file of the repository reports nothing and trains on its 150 records: the inputs are the numbers in the file,
rounded to float64, and the first, second and third fifty records are of the classes 0, 1 and 2. -/
theorem C147_iris (w : World F64) (o : Optim F64) (other : Str → F64) (draw : Nat → Nat) (hdraw : ∀ i, 1 ≤ i → i < 150 → draw i ≤ i) :
    wp (testIrisFile o other draw false (some irisFile)) w (fun r w' => r = (none, none) ∧ ∃ cell : Nat → Nat → F64, ∃ cls : Nat → Nat,
      (∀ (i : Nat) (row : List Nat) (j k : Nat), irisTenths[i]? = some row → row[j]? = some k →
        cell i j = F64.round false ((k : ℝ) / 10) ∧ |(cell i j).val - (k : ℝ) / 10| ≤ 10 * F64.ueps + F64.tiny) ∧
      (∀ i < 150, cls i = i / 50) ∧
      ∃ σ : Equiv.Perm Nat, (∀ i, i < 150 ↔ σ i < 150) ∧
        TrainsAs w w' (fun i => w.norm (w.normPos + i)) (plainArgs (fun i => if i = 2 then .softmax else .hidden) (fun i => [4, 16, 16, 3].getD i 3)) 3 ⟨.ce, 3⟩ o 1 Flt.zero
          ⟨150, fun i => cell (σ i), fun i => irisY cls (σ i)⟩ 100 0 500) := by
  obtain ⟨h1, h2, h3⟩ := irisRecords_facts
  obtain ⟨t1, t2, t3⟩ := irisTenths_facts
  have key := C147_train w o other draw irisFile irisRecords irisFile_read (fun e => by rw [e] at h1; cases h1) (fun r hr => (h2 r hr).ge)
    (by rw [h1]; norm_num) (by rw [h1]; exact hdraw)
  rw [h1] at key
  refine wp_mono key ?_
  rintro r w' ⟨hr, cell, cls, hc, hσ⟩
  refine ⟨hr, cell, cls, ?_, ?_, hσ⟩
  · intro i row j k hrow hj
    have hlen := t2 row (List.mem_of_getElem? hrow)
    have hj4 : j < 4 := by rw [← hlen]; exact (List.getElem?_eq_some_iff.1 hj).1
    have hk := t3 row (List.mem_of_getElem? hrow) k (List.mem_of_getElem? hj)
    have e := (hc i _ (irisRecords_some hrow)).1 j (tenthsText k) hj4 (by
      rw [List.getElem?_append_left (by rw [List.length_map, hlen]; exact hj4), List.getElem?_map, hj]; rfl)
    rw [e]
    exact tenths_value other hk
  · intro i hi
    obtain ⟨row, hrow⟩ : ∃ row, irisTenths[i]? = some row := ⟨_, List.getElem?_eq_getElem (by rw [t1]; exact hi)⟩
    have hlen := t2 row (List.mem_of_getElem? hrow)
    have e4 : (row.map tenthsText ++ [irisName (i / 50)])[4]? = some (irisName (i / 50)) := by
      rw [List.getElem?_append_right (by rw [List.length_map, hlen]), List.length_map, hlen]; rfl
    obtain ⟨-, c0, c1, c2⟩ := hc i _ (irisRecords_some hrow)
    rw [e4] at c0 c1 c2
    have h3' : i / 50 < 3 := by omega
    obtain h | h | h : i / 50 = 0 ∨ i / 50 = 1 ∨ i / 50 = 2 := by omega
    · rw [h] at c0 ⊢; exact c0 rfl
    · rw [h] at c1 ⊢; exact c1 rfl
    · rw [h] at c2 ⊢; exact c2 (by decide +kernel) (by decide +kernel)

end

/-! ### Examples -/

/-- C147: a file with a blank line, \r\n and a last line without end; it is read as three records of two fields. -/
example : csvReadAll (str "1.5,a\n\n2,b\r\n-3,") = some [[str "1.5", str "a"], [str "2", str "b"], [str "-3", []]] := by
  have := (C147_csv [([str "1.5", str "a"], [10]), ([], [10]), ([str "2", str "b"], [13, 10])] [str "-3", []]
    (by unfold PlainField; decide +kernel) (by unfold PlainField; decide +kernel) [[str "1.5", str "a"], [str "2", str "b"], [str "-3", []]] (by decide +kernel)).1 (by decide +kernel)
  exact this

/-- C147: one record is longer than the other: ReadAll fails, and TestIris goes on with no records. -/
example [Libm] (w : World F64) (o : Optim F64) (other : Str → F64) (draw : Nat → Nat) :
    wp (testIrisFile o other draw false (some (str "5.1,3.5,1.4,0.2,Iris-setosa\n4.9,3.0,1.4,0.2,Iris-setosa,\n"))) w
      (fun r w' => ∃ er, r = (none, some er) ∧ w'.log = w.log ++ [.error .forward er]) := by
  refine C147_unnoticed w o other draw _ ?_
  have := (C147_csv [([str "5.1", str "3.5", str "1.4", str "0.2", str "Iris-setosa"], [10]),
    ([str "4.9", str "3.0", str "1.4", str "0.2", str "Iris-setosa", []], [10])] []
    (by unfold PlainField; decide +kernel) (by unfold PlainField; decide +kernel) _ rfl).2 (by decide +kernel)
  exact this

/-- C147: records without a class: TestIris panics. -/
example [Libm] (w : World F64) (o : Optim F64) (other : Str → F64) (draw : Nat → Nat) :
    testIrisFile o other draw false (some (str "5.1,3.5,1.4,0.2\n")) w = .error .index := by
  refine C147_short w o other draw _ [[str "5.1", str "3.5", str "1.4", str "0.2"]] ?_ ⟨_, List.mem_cons_self, by decide⟩
  exact (C147_csv [([str "5.1", str "3.5", str "1.4", str "0.2"], [10])] [] (by unfold PlainField; decide +kernel) (by unfold PlainField; decide +kernel) _ (by decide +kernel)).1
    (by decide +kernel)

/-- C147: the text 5.1 is read as the float64 nearest to 51/10; the first number of the file. -/
example (other : Str → F64) : parseFloat other (str "5.1") = F64.round false (51 / 10) ∧ irisTenths[0]? = some [51, 35, 14, 2] := by
  refine ⟨?_, rfl⟩
  have := (C147_value other false [5] [1] (by decide +kernel) (by decide +kernel)).1
  have e : numeral ([5] ++ [1]) = 51 := rfl
  rw [e] at this
  rw [show str "5.1" = (if false then str "-" else []) ++ digitText [5] ++ str "." ++ digitText [1] by decide +kernel, this]
  simp

/-- C147: +12E-3 is read as the float64 nearest to 12/1000. -/
example (other : Str → F64) : parseFloat other (str "+12E-3") = F64.round false (12 / 1000) := by
  have := C147_numeral other (str "+") false (.inr (.inl ⟨rfl, rfl⟩)) [1, 2] [] (by decide) (by decide) [] (.inr ⟨rfl, rfl⟩) (str "E-3") (-3)
    (.inr ⟨69, str "-", true, [3], .inr rfl, .inr (.inr ⟨rfl, rfl⟩), by decide, by decide, by decide, by decide +kernel, by decide⟩)
  rw [show str "+12E-3" = str "+" ++ digitText [1, 2] ++ [] ++ digitText [] ++ str "E-3" by decide +kernel, this]
  rw [show numeral ([1, 2] ++ []) = 12 from rfl]
  norm_num

/-- C147: a shuffle that the file of the repository can be read and trained with. -/
example [Libm] (w : World F64) (o : Optim F64) (other : Str → F64) :
    wp (testIrisFile o other (fun _ => 0) false (some irisFile)) w (fun r _ => r = (none, none)) :=
  wp_mono (C147_iris w o other (fun _ => 0) fun _ _ _ => Nat.zero_le _) fun _ _ h => h.1

/-- C147: a number that can be printed and read back. -/
example : (F64.round false 1).absBits < F64.infBits ∧ |(F64.round false 1).val| ≤ F64.big - 1 := by
  obtain ⟨h1, h2⟩ := F64.ofInt_exact 1 (by norm_num) (by norm_num)
  rw [Int.cast_one] at h1 h2
  refine ⟨h2, ?_⟩
  rw [h1, abs_one]
  linarith [ten_le_big]

end NN
