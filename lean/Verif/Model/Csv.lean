import Verif.Model.ExamplesFit
import Verif.IEEE.F64
/-
Reading the data file of examples/iris_test.go: `csv.NewReader(f).ReadAll()` of package encoding/csv with the default settings (comma, no
comments, quotes as in RFC 4180, no trimming, every record as long as the first one), `strconv.ParseFloat` for decimal numbers, and the
file /repo/examples/iris.data itself.

Simplifications: reading the file does not fail once it is open; `ParseFloat` of a text that is not a plain decimal number (inf, nan,
hexadecimal numbers, underscores, anything malformed) is left open.
-/

set_option linter.unusedVariables false

namespace NN

/-- What comes before and after the first `c`. -/
def cutAt (c : Byte) : Str → Option (Str × Str)
  | [] => none
  | b :: s => if b = c then some ([], s) else (cutAt c s).map fun p => (b :: p.1, p.2)

/-- The lines of a text, each with the newline that ends it (`bufio.Reader.ReadSlice('\n')`). -/
def rawLines : Str → List Str
  | [] => []
  | b :: s =>
    if b = 10 then [b] :: rawLines s
    else match rawLines s with
      | [] => [[b]]
      | l :: ls => (b :: l) :: ls

/-- `csv.Reader.readLine`: \r\n at the end of a line becomes \n; a \r at the end of a last line without newline is dropped. -/
def csvLine (l : Str) : Str :=
  match l.reverse with
  | 10 :: 13 :: r => (10 :: r).reverse
  | 13 :: r => r.reverse
  | _ => l

/-- A line without its newline (`csv.lengthNL`). -/
def chomp (l : Str) : Str := if l.getLast? = some 10 then l.dropLast else l

theorem cutAt_length {c : Byte} {s : Str} {p : Str × Str} (h : cutAt c s = some p) : p.1.length + p.2.length + 1 = s.length := by
  induction s generalizing p with
  | nil => cases h
  | cons b s ih =>
    unfold cutAt at h
    split at h
    · obtain rfl := Option.some.inj h
      simp
    · cases hc : cutAt c s with
      | none => rw [hc] at h; cases h
      | some q =>
        rw [hc] at h
        obtain rfl := Option.some.inj h
        have := ih hc
        simp only [List.length_cons]
        omega

mutual
/-- `csv.Reader.readRecord`, label parseField: the fields of the record that starts (or goes on) with `line`; `ls` are the lines that follow.  The
result is none for ErrBareQuote and ErrQuote, otherwise the fields and the lines that are left. -/
def csvFields (line : Str) (ls : List Str) : Option (List Str × List Str) :=
  if hq : line.head? = some 34 then csvQuoted [] line.tail ls
  else match hc : cutAt 44 line with
    | some (a, b) => if 34 ∈ a then none else (csvFields b ls).map fun p => (a :: p.1, p.2)
    | none => if 34 ∈ chomp line then none else some ([chomp line], ls)
termination_by line.length + (ls.map List.length).sum
decreasing_by
  · cases line with
    | nil => cases hq
    | cons b r => simp
  · have := cutAt_length hc; dsimp only at this; omega
/-- The same inside a quoted field of which `buf` has been read. -/
def csvQuoted (buf line : Str) (ls : List Str) : Option (List Str × List Str) :=
  match hc : cutAt 34 line with
  | some (a, b) =>
    if b.head? = some 34 then csvQuoted (buf ++ a ++ [34]) b.tail ls
    else if b.head? = some 44 then (csvFields b.tail ls).map fun p => ((buf ++ a) :: p.1, p.2)
    else if chomp b = [] then some ([buf ++ a], ls)
    else none
  | none =>
    if hne : line = [] then none
    else match ls with
      | [] => csvQuoted (buf ++ line) [] []
      | l :: ls => csvQuoted (buf ++ line) l ls
termination_by line.length + (ls.map List.length).sum
decreasing_by
  · have := cutAt_length hc; dsimp only at this; rw [List.length_tail]; omega
  · have := cutAt_length hc; dsimp only at this; rw [List.length_tail]; omega
  · have := List.length_pos_iff.2 hne
    simp only [List.length_nil, List.map_nil, List.sum_nil]
    omega
  · have := List.length_pos_iff.2 hne
    simp only [List.map_cons, List.sum_cons]
    omega
end

theorem csv_left (n : Nat) :
    (∀ (line : Str) (ls : List Str) (p : List Str × List Str), line.length + (ls.map List.length).sum < n → csvFields line ls = some p → p.2.length ≤ ls.length) ∧
    (∀ (buf line : Str) (ls : List Str) (p : List Str × List Str), line.length + (ls.map List.length).sum < n → csvQuoted buf line ls = some p →
      p.2.length ≤ ls.length) := by
  induction n with
  | zero => exact ⟨fun _ _ _ h => absurd h (Nat.not_lt_zero _), fun _ _ _ _ h => absurd h (Nat.not_lt_zero _)⟩
  | succ n ih =>
    constructor
    · intro line ls p hn h
      unfold csvFields at h
      split at h
      · rename_i hq
        refine ih.2 [] line.tail ls p ?_ h
        cases line with
        | nil => cases hq
        | cons b r => rw [List.length_cons] at hn; rw [List.tail_cons]; omega
      · split at h
        · rename_i a b hc
          split at h
          · cases h
          · obtain ⟨q, hq, rfl⟩ := Option.map_eq_some_iff.1 h
            refine ih.1 b ls q ?_ hq
            have := cutAt_length hc
            dsimp only at this
            omega
        · split at h
          · cases h
          · obtain rfl := Option.some.inj h
            exact le_rfl
    · intro buf line ls p hn h
      unfold csvQuoted at h
      split at h
      · rename_i a b hc
        have := cutAt_length hc
        dsimp only at this
        have ht : b.tail.length + (ls.map List.length).sum < n := by rw [List.length_tail]; omega
        split at h
        · exact ih.2 _ _ ls p ht h
        · split at h
          · obtain ⟨q, hq, rfl⟩ := Option.map_eq_some_iff.1 h
            exact ih.1 b.tail ls q ht hq
          · split at h
            · obtain rfl := Option.some.inj h
              exact le_rfl
            · cases h
      · split at h
        · cases h
        · rename_i hne
          have := List.length_pos_iff.2 hne
          split at h
          · exact ih.2 _ _ _ p (by simp only [List.length_nil, List.map_nil, List.sum_nil] at hn ⊢; omega) h
          · refine (ih.2 _ _ _ p ?_ h).trans (by simp)
            simp only [List.map_cons, List.sum_cons] at hn
            omega

theorem csvFields_left {line : Str} {ls : List Str} {p : List Str × List Str} (h : csvFields line ls = some p) : p.2.length ≤ ls.length :=
  (csv_left _).1 line ls p (Nat.lt_succ_self _) h

/-- `csv.Reader.ReadAll` on the lines that are left: empty lines are skipped, every record must have as many fields as the first one (`n`, 0
before the first record: ErrFieldCount otherwise).  None for an error: ReadAll returns no records then. -/
def csvRecords (n : Nat) (ls : List Str) : Option (List (List Str)) :=
  match ls with
  | [] => some []
  | l :: ls =>
    if chomp l = [] then csvRecords n ls
    else match hp : csvFields l ls with
      | none => none
      | some (r, rest) =>
        if 0 < n ∧ r.length ≠ n then none
        else (csvRecords (if n = 0 then r.length else n) rest).map (r :: ·)
termination_by ls.length
decreasing_by
  · simp
  · have := csvFields_left hp; dsimp only at this
    simp only [List.length_cons]
    omega

/-- `csv.NewReader(f).ReadAll()` on a file with these bytes. -/
def csvReadAll (s : Str) : Option (List (List Str)) := csvRecords 0 ((rawLines s).map csvLine)

/-! ### strconv.ParseFloat -/

/-- The digits at the beginning of a text, and the rest. -/
def takeDigits : Str → List Nat × Str
  | [] => ([], [])
  | b :: s => if 48 ≤ b.toNat ∧ b.toNat ≤ 57 then ((b.toNat - 48) :: (takeDigits s).1, (takeDigits s).2) else ([], b :: s)

/-- The number written with these digits. -/
def digitsValue (ds : List Nat) : Nat := ds.foldl (fun n d => 10 * n + d) 0

/-- A sign at the beginning of a text: true for minus. -/
def takeSign : Str → Bool × Str
  | 43 :: s => (false, s)
  | 45 :: s => (true, s)
  | s => (false, s)

/-- The exponent at the end of a decimal number; 0 if there is none.  `strconv.readFloat` stops counting at 10000. -/
def readExponent (s : Str) : Option Int :=
  match s with
  | [] => some 0
  | b :: s =>
    if b = 101 ∨ b = 69 then
      let p := takeSign s
      let q := takeDigits p.2
      if q.1 = [] ∨ q.2 ≠ [] then none
      else
        let e : Nat := q.1.foldl (fun n d => if n < 10000 then 10 * n + d else n) 0
        some (if p.1 then -e else e)
    else none

/-- The digits after a decimal point, if there is one. -/
def takeFraction : Str → List Nat × Str
  | 46 :: s => takeDigits s
  | s => ([], s)

/-- A decimal number: sign, digits (at least one) with at most one point among them, exponent.  The result is the sign, the number made of all
digits, and the power of ten it is multiplied with. -/
def readDecimal (s : Str) : Option (Bool × Nat × Int) :=
  let p := takeSign s
  let q := takeDigits p.2
  let f := takeFraction q.2
  if q.1 = [] ∧ f.1 = [] then none
  else (readExponent f.2).map fun e => (p.1, digitsValue (q.1 ++ f.1), e - f.1.length)

/-- The first result of `strconv.ParseFloat(s, 8)` (iris_test.go:44-47; a size that is not 32 means 64): the float64 nearest to the decimal number, ±Inf if
it is too large.  `other` is what it returns for texts that are not decimal numbers. -/
noncomputable def parseFloat (other : Str → F64) (s : Str) : F64 :=
  match readDecimal s with
  | some (neg, n, e) => F64.round neg ((if neg then -1 else 1) * (n * (10 : ℝ) ^ e))
  | none => other s

/-! ### The program and its file -/

/-- iris_test.go:49-55: the class of a record, from the text of its fifth field. -/
def irisClass (s : Str) : Nat := if s = str "Iris-setosa" then 0 else if s = str "Iris-versicolor" then 1 else 2

/-- examples/iris_test.go:14-80 `TestIris` with a given file iris.data (none: it cannot be opened).  If ReadAll fails its records are nil
(line 33 tests the wrong error).  `records[i][4]` (line 49) panics if the records have fewer than five fields. -/
noncomputable def testIrisFile [Libm] (o : Optim F64) (other : Str → F64) (draw : Nat → Nat) (openFails : Bool) (file : Option Str) :
    Go F64 (Option Err × Option Err) :=
  match file with
  | none => testIris o 0 (fun _ _ => other []) (fun _ => 0) draw openFails true
  | some s =>
    let recs := (csvReadAll s).getD []
    if openFails = true ∨ ∀ r ∈ recs, 5 ≤ r.length then
      testIris o recs.length (fun i j => parseFloat other ((recs.getD i []).getD j [])) (fun i => irisClass ((recs.getD i []).getD 4 [])) draw openFails false
    else Go.panic .index

/-- The lines of /repo/examples/iris.data. -/
def irisLines : List String := [
  "5.1,3.5,1.4,0.2,Iris-setosa", "4.9,3.0,1.4,0.2,Iris-setosa", "4.7,3.2,1.3,0.2,Iris-setosa", "4.6,3.1,1.5,0.2,Iris-setosa",
  "5.0,3.6,1.4,0.2,Iris-setosa", "5.4,3.9,1.7,0.4,Iris-setosa", "4.6,3.4,1.4,0.3,Iris-setosa", "5.0,3.4,1.5,0.2,Iris-setosa",
  "4.4,2.9,1.4,0.2,Iris-setosa", "4.9,3.1,1.5,0.1,Iris-setosa", "5.4,3.7,1.5,0.2,Iris-setosa", "4.8,3.4,1.6,0.2,Iris-setosa",
  "4.8,3.0,1.4,0.1,Iris-setosa", "4.3,3.0,1.1,0.1,Iris-setosa", "5.8,4.0,1.2,0.2,Iris-setosa", "5.7,4.4,1.5,0.4,Iris-setosa",
  "5.4,3.9,1.3,0.4,Iris-setosa", "5.1,3.5,1.4,0.3,Iris-setosa", "5.7,3.8,1.7,0.3,Iris-setosa", "5.1,3.8,1.5,0.3,Iris-setosa",
  "5.4,3.4,1.7,0.2,Iris-setosa", "5.1,3.7,1.5,0.4,Iris-setosa", "4.6,3.6,1.0,0.2,Iris-setosa", "5.1,3.3,1.7,0.5,Iris-setosa",
  "4.8,3.4,1.9,0.2,Iris-setosa", "5.0,3.0,1.6,0.2,Iris-setosa", "5.0,3.4,1.6,0.4,Iris-setosa", "5.2,3.5,1.5,0.2,Iris-setosa",
  "5.2,3.4,1.4,0.2,Iris-setosa", "4.7,3.2,1.6,0.2,Iris-setosa", "4.8,3.1,1.6,0.2,Iris-setosa", "5.4,3.4,1.5,0.4,Iris-setosa",
  "5.2,4.1,1.5,0.1,Iris-setosa", "5.5,4.2,1.4,0.2,Iris-setosa", "4.9,3.1,1.5,0.1,Iris-setosa", "5.0,3.2,1.2,0.2,Iris-setosa",
  "5.5,3.5,1.3,0.2,Iris-setosa", "4.9,3.1,1.5,0.1,Iris-setosa", "4.4,3.0,1.3,0.2,Iris-setosa", "5.1,3.4,1.5,0.2,Iris-setosa",
  "5.0,3.5,1.3,0.3,Iris-setosa", "4.5,2.3,1.3,0.3,Iris-setosa", "4.4,3.2,1.3,0.2,Iris-setosa", "5.0,3.5,1.6,0.6,Iris-setosa",
  "5.1,3.8,1.9,0.4,Iris-setosa", "4.8,3.0,1.4,0.3,Iris-setosa", "5.1,3.8,1.6,0.2,Iris-setosa", "4.6,3.2,1.4,0.2,Iris-setosa",
  "5.3,3.7,1.5,0.2,Iris-setosa", "5.0,3.3,1.4,0.2,Iris-setosa", "7.0,3.2,4.7,1.4,Iris-versicolor", "6.4,3.2,4.5,1.5,Iris-versicolor",
  "6.9,3.1,4.9,1.5,Iris-versicolor", "5.5,2.3,4.0,1.3,Iris-versicolor", "6.5,2.8,4.6,1.5,Iris-versicolor", "5.7,2.8,4.5,1.3,Iris-versicolor",
  "6.3,3.3,4.7,1.6,Iris-versicolor", "4.9,2.4,3.3,1.0,Iris-versicolor", "6.6,2.9,4.6,1.3,Iris-versicolor", "5.2,2.7,3.9,1.4,Iris-versicolor",
  "5.0,2.0,3.5,1.0,Iris-versicolor", "5.9,3.0,4.2,1.5,Iris-versicolor", "6.0,2.2,4.0,1.0,Iris-versicolor", "6.1,2.9,4.7,1.4,Iris-versicolor",
  "5.6,2.9,3.6,1.3,Iris-versicolor", "6.7,3.1,4.4,1.4,Iris-versicolor", "5.6,3.0,4.5,1.5,Iris-versicolor", "5.8,2.7,4.1,1.0,Iris-versicolor",
  "6.2,2.2,4.5,1.5,Iris-versicolor", "5.6,2.5,3.9,1.1,Iris-versicolor", "5.9,3.2,4.8,1.8,Iris-versicolor", "6.1,2.8,4.0,1.3,Iris-versicolor",
  "6.3,2.5,4.9,1.5,Iris-versicolor", "6.1,2.8,4.7,1.2,Iris-versicolor", "6.4,2.9,4.3,1.3,Iris-versicolor", "6.6,3.0,4.4,1.4,Iris-versicolor",
  "6.8,2.8,4.8,1.4,Iris-versicolor", "6.7,3.0,5.0,1.7,Iris-versicolor", "6.0,2.9,4.5,1.5,Iris-versicolor", "5.7,2.6,3.5,1.0,Iris-versicolor",
  "5.5,2.4,3.8,1.1,Iris-versicolor", "5.5,2.4,3.7,1.0,Iris-versicolor", "5.8,2.7,3.9,1.2,Iris-versicolor", "6.0,2.7,5.1,1.6,Iris-versicolor",
  "5.4,3.0,4.5,1.5,Iris-versicolor", "6.0,3.4,4.5,1.6,Iris-versicolor", "6.7,3.1,4.7,1.5,Iris-versicolor", "6.3,2.3,4.4,1.3,Iris-versicolor",
  "5.6,3.0,4.1,1.3,Iris-versicolor", "5.5,2.5,4.0,1.3,Iris-versicolor", "5.5,2.6,4.4,1.2,Iris-versicolor", "6.1,3.0,4.6,1.4,Iris-versicolor",
  "5.8,2.6,4.0,1.2,Iris-versicolor", "5.0,2.3,3.3,1.0,Iris-versicolor", "5.6,2.7,4.2,1.3,Iris-versicolor", "5.7,3.0,4.2,1.2,Iris-versicolor",
  "5.7,2.9,4.2,1.3,Iris-versicolor", "6.2,2.9,4.3,1.3,Iris-versicolor", "5.1,2.5,3.0,1.1,Iris-versicolor", "5.7,2.8,4.1,1.3,Iris-versicolor",
  "6.3,3.3,6.0,2.5,Iris-virginica", "5.8,2.7,5.1,1.9,Iris-virginica", "7.1,3.0,5.9,2.1,Iris-virginica", "6.3,2.9,5.6,1.8,Iris-virginica",
  "6.5,3.0,5.8,2.2,Iris-virginica", "7.6,3.0,6.6,2.1,Iris-virginica", "4.9,2.5,4.5,1.7,Iris-virginica", "7.3,2.9,6.3,1.8,Iris-virginica",
  "6.7,2.5,5.8,1.8,Iris-virginica", "7.2,3.6,6.1,2.5,Iris-virginica", "6.5,3.2,5.1,2.0,Iris-virginica", "6.4,2.7,5.3,1.9,Iris-virginica",
  "6.8,3.0,5.5,2.1,Iris-virginica", "5.7,2.5,5.0,2.0,Iris-virginica", "5.8,2.8,5.1,2.4,Iris-virginica", "6.4,3.2,5.3,2.3,Iris-virginica",
  "6.5,3.0,5.5,1.8,Iris-virginica", "7.7,3.8,6.7,2.2,Iris-virginica", "7.7,2.6,6.9,2.3,Iris-virginica", "6.0,2.2,5.0,1.5,Iris-virginica",
  "6.9,3.2,5.7,2.3,Iris-virginica", "5.6,2.8,4.9,2.0,Iris-virginica", "7.7,2.8,6.7,2.0,Iris-virginica", "6.3,2.7,4.9,1.8,Iris-virginica",
  "6.7,3.3,5.7,2.1,Iris-virginica", "7.2,3.2,6.0,1.8,Iris-virginica", "6.2,2.8,4.8,1.8,Iris-virginica", "6.1,3.0,4.9,1.8,Iris-virginica",
  "6.4,2.8,5.6,2.1,Iris-virginica", "7.2,3.0,5.8,1.6,Iris-virginica", "7.4,2.8,6.1,1.9,Iris-virginica", "7.9,3.8,6.4,2.0,Iris-virginica",
  "6.4,2.8,5.6,2.2,Iris-virginica", "6.3,2.8,5.1,1.5,Iris-virginica", "6.1,2.6,5.6,1.4,Iris-virginica", "7.7,3.0,6.1,2.3,Iris-virginica",
  "6.3,3.4,5.6,2.4,Iris-virginica", "6.4,3.1,5.5,1.8,Iris-virginica", "6.0,3.0,4.8,1.8,Iris-virginica", "6.9,3.1,5.4,2.1,Iris-virginica",
  "6.7,3.1,5.6,2.4,Iris-virginica", "6.9,3.1,5.1,2.3,Iris-virginica", "5.8,2.7,5.1,1.9,Iris-virginica", "6.8,3.2,5.9,2.3,Iris-virginica",
  "6.7,3.3,5.7,2.5,Iris-virginica", "6.7,3.0,5.2,2.3,Iris-virginica", "6.3,2.5,5.0,1.9,Iris-virginica", "6.5,3.0,5.2,2.0,Iris-virginica",
  "6.2,3.4,5.4,2.3,Iris-virginica", "5.9,3.0,5.1,1.8,Iris-virginica", ""]

/-- The file /repo/examples/iris.data. -/
def irisFile : Str := irisLines.flatMap fun l => str l ++ [10]

end NN
