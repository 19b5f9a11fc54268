import Verif.Lemmas.Matrix
import Verif.Spec.Place
/- C01-C04: constructing matrices and accessing entries. -/

set_option linter.unusedSectionVars false

namespace NN
variable {α : Type} [Flt α]
open Go

/-! ## C01 NewMatrix -/

/-- Non-positive dimensions: an error, the zero Matrix, no state change. -/
theorem C01_newMatrix_rejects (rows cols : Int) (h : rows < 1 ∨ cols < 1) (w : World α) :
    newMatrix rows cols w = .ok ((Mat.zero, some (.matrixDims rows cols)), w) := newMatrix_bad h w

example : (0 : Int) < 1 ∨ (5 : Int) < 1 := by decide

/-- Positive dimensions: no error, a fresh, unshared, all-zero matrix of that size. -/
theorem C01_newMatrix_accepts (rows cols : Int) (hr : 1 ≤ rows) (hc : 1 ≤ cols) (w : World α) :
    wp (newMatrix rows cols) w (fun p w' =>
      p.2 = none ∧ p.1.rows = rows ∧ p.1.cols = cols ∧
      NewMat w w' p.1 rows.toNat cols.toNat (fun _ _ => Flt.zero)) := by
  obtain ⟨r, rfl⟩ := Int.eq_ofNat_of_zero_le (by omega : 0 ≤ rows)
  obtain ⟨c, rfl⟩ := Int.eq_ofNat_of_zero_le (by omega : 0 ≤ cols)
  refine wp_mono (newMatrix_spec (by omega) (by omega)) ?_
  rintro ⟨m, e⟩ w' ⟨he, h⟩
  exact ⟨he, h.mat.rows, h.mat.cols, h⟩

example : (1 : Int) ≤ 2 ∧ (1 : Int) ≤ 3 := by decide

/-- An error is returned exactly for non-positive dimensions. -/
theorem C01_newMatrix_error_iff (rows cols : Int) (w : World α) :
    wp (newMatrix rows cols) w (fun p _ => p.2 ≠ none ↔ (rows < 1 ∨ cols < 1)) := by
  by_cases h : rows < 1 ∨ cols < 1
  · rw [wp_iff]
    exact ⟨_, _, newMatrix_bad h w, by simp [h]⟩
  · refine wp_mono (C01_newMatrix_accepts rows cols (by omega) (by omega) w) ?_
    rintro p w' ⟨he, _⟩
    simp [he, h]

/-! ## C02 Set and Get -/

/-- After `Set(i,j,v)`: no error, the table has v at (i,j) and is otherwise as before, no other storage changed. -/
theorem C02_set (w : World α) (m : Mat) (r c : Nat) (A : Nat → Nat → α) (hA : IsMat w m r c A)
    (hd : DistinctRows w m r) (i j : Nat) (hi : i < r) (hj : j < c) (v : α) :
    wp (m.set i j v) w (fun e w' => e = none ∧
      (∀ i' j', i' < r → j' < c →
        m.get i' j' w' = .ok ((if i' = i ∧ j' = j then v else A i' j', none), w')) ∧
      (∀ m2 r2 c2 B, IsMat w m2 r2 c2 B → (∀ a, w.IsRow m2 r2 a → ¬ w.IsRow m r a) → IsMat w' m2 r2 c2 B) ∧
      Frame { flt := w.IsRow m r } w w') := by
  refine wp_mono (set_spec hA hd hi hj v) ?_
  rintro e w' ⟨rfl, h⟩
  refine ⟨rfl, ?_, ?_, h.frame⟩
  · intro i' j' hi' hj'
    exact get_spec h.mat hi' hj'
  · intro m2 r2 c2 B hB hdis
    exact hB.frame h.frame (fun h => h) hdis

/-- A successful `Get` returns the entry and changes nothing. -/
theorem C02_get (w : World α) (m : Mat) (r c : Nat) (A : Nat → Nat → α) (hA : IsMat w m r c A) (i j : Nat)
    (hi : i < r) (hj : j < c) : m.get i j w = .ok ((A i j, none), w) := get_spec hA hi hj

/-- Too large indices: an error, no change. -/
theorem C02_too_large (m : Mat) (row col : Int) (h : m.rows ≤ row ∨ m.cols ≤ col) (v : α) (w : World α) :
    m.get row col w = .ok ((Flt.zero, some (.matrixIndex row col)), w) ∧
    m.set row col v w = .ok (some (.matrixIndex row col), w) := ⟨get_bad h w, set_bad h v w⟩

/-- A history of `Set` calls (errors ignored by the caller). -/
def runSets (m : Mat) : List (Nat × Nat × α) → Go α Unit
  | [] => pure ()
  | (i, j, v) :: rest => do
    let _ ← m.set i j v
    runSets m rest

/-- A table updated by a history: the last write to a cell wins. -/
def tableAfter (A : Nat → Nat → α) (hist : List (Nat × Nat × α)) (i j : Nat) : α :=
  match hist.reverse.find? (fun p => p.1 = i ∧ p.2.1 = j) with
  | some p => p.2.2
  | none => A i j

theorem tableAfter_cons (A : Nat → Nat → α) (p : Nat × Nat × α) (rest : List (Nat × Nat × α)) (i j : Nat) :
    tableAfter A (p :: rest) i j = tableAfter (upd2 A p.1 p.2.1 p.2.2) rest i j := by
  unfold tableAfter
  rw [List.reverse_cons, List.find?_append]
  cases hf : List.find? (fun p => decide (p.1 = i ∧ p.2.1 = j)) rest.reverse with
  | some q => rfl
  | none =>
    simp only [Option.none_or, List.find?_cons, List.find?_nil, upd2]
    by_cases h : p.1 = i ∧ p.2.1 = j
    · simp [h]
    · have : ¬ (i = p.1 ∧ j = p.2.1) := fun hh => h ⟨hh.1.symm, hh.2.symm⟩
      simp [h, this]

/-- Any history of `Set` calls, in or beyond range, reads back like the updated table. -/
theorem C02_history (m : Mat) (r c : Nat) (hist : List (Nat × Nat × α)) :
    ∀ (w : World α) (A : Nat → Nat → α), IsMat w m r c A → DistinctRows w m r →
    wp (runSets m hist) w (fun _ w' =>
      (∀ i j, i < r → j < c → m.get i j w' = .ok ((tableAfter A hist i j, none), w')) ∧
      (∀ m2 r2 c2 B, IsMat w m2 r2 c2 B → (∀ a, w.IsRow m2 r2 a → ¬ w.IsRow m r a) → IsMat w' m2 r2 c2 B)) := by
  induction hist with
  | nil =>
    intro w A hA hd
    exact ⟨fun i j hi hj => get_spec hA hi hj, fun _ _ _ _ h _ => h⟩
  | cons p rest ih =>
    intro w A hA hd
    obtain ⟨i, j, v⟩ := p
    unfold runSets
    by_cases hin : i < r ∧ j < c
    · refine wp_bind_mono (set_spec hA hd hin.1 hin.2 v) ?_
      rintro e w1 ⟨-, h1⟩
      refine wp_mono (ih w1 _ h1.mat ((h1.distinct _ _).2 hd)) ?_
      rintro _ w2 ⟨hg, ho⟩
      refine ⟨?_, ?_⟩
      · intro i' j' hi' hj'
        rw [hg i' j' hi' hj', tableAfter_cons]
      · intro m2 r2 c2 B hB hdis
        refine ho m2 r2 c2 B (hB.frame h1.frame (fun h => h) hdis) ?_
        intro a ha hb
        exact hdis a ((h1.isRow' _ _ _).1 ha) ((h1.isRow a).1 hb)
    · have hbad : (i : Int) ≥ m.rows ∨ (j : Int) ≥ m.cols := by rw [hA.rows, hA.cols]; omega
      rw [wp_bind]
      have : wp (m.set (i : Int) (j : Int) v) w (fun _ w1 => w1 = w) := by
        rw [wp_iff]; exact ⟨_, _, set_bad hbad v w, rfl⟩
      refine wp_mono this ?_
      rintro _ w1 rfl
      refine wp_mono (ih w1 A hA hd) ?_
      rintro _ w2 ⟨hg, ho⟩
      refine ⟨?_, ho⟩
      intro i' j' hi' hj'
      rw [hg i' j' hi' hj', tableAfter_cons]
      congr 3
      unfold tableAfter
      have : upd2 A i j v i' j' = A i' j' := by
        unfold upd2
        rw [if_neg]
        rintro ⟨rfl, rfl⟩
        exact hin ⟨hi', hj'⟩
      rw [this]

example (A : Nat → Nat → α) : ∃ w : World α, ∃ m, IsMat w m 2 3 A ∧ DistinctRows w m 2 :=
  exists_mat (by decide) (by decide) A

/-! ## C03 Out-of-range indices

The claim is false of the code: every accessor tests only the upper bound (matrix.go:82, 95, 110, 123, 142, 162),
so a negative index reaches the Go index expression and panics. -/

/-- The full claim, for one accessor call: an index outside the matrix gives an error, not a panic. -/
def C03_claim_get (α : Type) [Flt α] : Prop :=
  ∀ (w : World α) (m : Mat) (r c : Nat) (A : Nat → Nat → α) (row col : Int), IsMat w m r c A →
    ¬ (0 ≤ row ∧ row < r ∧ 0 ≤ col ∧ col < c) → wp (m.get row col) w (fun p _ => p.2 ≠ none)

theorem rowRef_neg {s : Slice} {i : Int} (h : i < 0) (w : World α) : rowRef s i w = .error .index := by
  unfold rowRef; rw [if_neg (by omega)]

theorem setRowRef_neg {s : Slice} {i : Int} {r : Nat} (h : i < 0) (w : World α) :
    setRowRef s i r w = .error .index := by
  unfold setRowRef; rw [if_neg (by omega)]

/-- Every negative row index makes Get, Set, GetRow and (with a slice of the right length) SetRow panic. -/
theorem C03_negative_row_panics (w : World α) (m : Mat) (r c : Nat) (A : Nat → Nat → α) (hA : IsMat w m r c A)
    (row : Int) (hrow : row < 0) (col : Int) (hcol : col < c) (v : α) (s : Nat) (hs : (w.flt s).length = c) :
    Panics (m.get row col) w ∧ Panics (m.set row col v) w ∧ Panics (m.getRow row) w ∧ Panics (m.setRow row s) w := by
  have h1 : ¬ (row ≥ m.rows ∨ col ≥ m.cols) := by rw [hA.rows, hA.cols]; omega
  have h2 : ¬ (row ≥ m.rows) := by rw [hA.rows]; omega
  refine ⟨⟨.index, ?_⟩, ⟨.index, ?_⟩, ⟨.index, ?_⟩, ⟨.index, ?_⟩⟩
  · unfold Mat.get; rw [if_neg h1]; exact bind_error (bind_error (rowRef_neg hrow w))
  · unfold Mat.set; rw [if_neg h1]; exact bind_error (bind_error (rowRef_neg hrow w))
  · unfold Mat.getRow; rw [if_neg h2]; exact bind_error (rowRef_neg hrow w)
  · unfold Mat.setRow; rw [if_neg h2]
    have : rowLen s w = .ok ((c : Int), w) := by simp [rowLen, hs]
    rw [bind_ok this, if_neg (by rw [hA.cols]; simp)]
    exact bind_error (setRowRef_neg hrow w)

/-- Every negative column index makes Get, Set, GetColumn and (with a slice of the right length) SetColumn panic. -/
theorem C03_negative_col_panics (w : World α) (m : Mat) (r c : Nat) (A : Nat → Nat → α) (hA : IsMat w m r c A)
    (col : Int) (hcol : col < 0) (row : Nat) (hrow : row < r) (v : α) (s : Nat) (hs : (w.flt s).length = r) :
    Panics (m.get row col) w ∧ Panics (m.set row col v) w ∧ Panics (m.getColumn col) w ∧
    Panics (m.setColumn col s) w := by
  have hr := hA.rpos
  have h1 : ¬ ((row : Int) ≥ m.rows ∨ col ≥ m.cols) := by rw [hA.rows, hA.cols]; omega
  have h2 : ¬ (col ≥ m.cols) := by rw [hA.cols]; omega
  have hat : ∀ (w' : World α) (i : Nat), IsMat w' m r c A → i < r → Mat.at m i col w' = .error .index := by
    intro w' i hA' hi
    obtain ⟨a, e, _⟩ := hA'.row i hi
    unfold Mat.at
    rw [bind_ok (rowRef_ok hA' hi e)]
    unfold rowGet; rw [if_neg (by omega)]
  have hset : ∀ (w' : World α) (i : Nat) v, IsMat w' m r c A → i < r → Mat.setAt m i col v w' = .error .index := by
    intro w' i v hA' hi
    obtain ⟨a, e, _⟩ := hA'.row i hi
    unfold Mat.setAt
    rw [bind_ok (rowRef_ok hA' hi e)]
    unfold rowSet; rw [if_neg (by omega)]
  -- a loop whose first iteration panics panics
  have hloop : ∀ (n : Nat) (body : Nat → Go α Unit) (w' : World α) p, 0 < n → body 0 w' = .error p →
      forN n body w' = .error p := by
    intro n body w' p hn hb
    induction n with
    | zero => omega
    | succ n ih =>
      unfold forN
      by_cases h0 : n = 0
      · subst h0
        have : forN 0 body w' = .ok ((), w') := rfl
        rw [bind_ok this]; exact hb
      · exact bind_error (ih (by omega))
  refine ⟨⟨.index, ?_⟩, ⟨.index, ?_⟩, ⟨.index, ?_⟩, ⟨.index, ?_⟩⟩
  · unfold Mat.get; rw [if_neg h1]; exact bind_error (hat w row hA hrow)
  · unfold Mat.set; rw [if_neg h1]; exact bind_error (hset w row v hA hrow)
  · unfold Mat.getColumn
    rw [if_neg h2, if_neg (by rw [hA.rows]; omega), hA.rows, Int.toNat_natCast]
    have e : allocRow r w = .ok (w.next, { w with next := w.next + 1, flt := upd w.flt w.next (List.replicate r (Flt.zero : α)) }) := rfl
    refine (bind_ok e).trans ?_
    refine bind_error (hloop r _ _ _ hr (bind_error (hat _ 0 ?_ hr)))
    refine hA.frame (f := {}) ?_ (fun h => h) (fun _ _ h => h)
    refine { Frame.refl _ _ with next_le := by simp, flt := ?_ }
    intro a ha _
    exact upd_ne (by omega)
  · unfold Mat.setColumn
    rw [if_neg h2]
    have e : rowLen s w = .ok ((r : Int), w) := by simp [rowLen, hs]
    rw [bind_ok e, if_neg (by rw [hA.rows]; simp), hA.rows, Int.toNat_natCast]
    refine bind_error (hloop r _ _ _ hr ?_)
    have : rowGet s ((0 : Nat) : Int) w = .ok ((w.flt s)[0]'(by omega), w) := by
      unfold rowGet
      simp [List.getElem?_eq_getElem (by omega : 0 < (w.flt s).length)]
    rw [bind_ok this]
    exact hset w 0 _ hA hr

/-- The claim is false: on a 1×1 matrix `Get(-1, 0)` panics. -/
theorem C03_false : ¬ C03_claim_get α := by
  intro h
  obtain ⟨w, m, hA, _⟩ := exists_mat (α := α) (r := 1) (c := 1) (by decide) (by decide) (fun _ _ => Flt.zero)
  have h1 := h w m 1 1 _ (-1) 0 hA (by omega)
  obtain ⟨a, _, _, ha⟩ := hA.row 0 (by decide)
  obtain ⟨hp, _⟩ := C03_negative_row_panics w m 1 1 _ hA (-1) (by omega) 0 (by omega) Flt.zero a (by rw [ha]; simp)
  exact wp_not_panics h1 hp

/-- What does hold: indices at or beyond the upper bound are reported as errors and change nothing (all six
accessors, any matrix).  Missing from the full claim: negative indices. -/
theorem C03_upper_bounds_partial (m : Mat) (row col : Int) (v : α) (s : Nat) (w : World α) :
    (m.rows ≤ row ∨ m.cols ≤ col →
      m.get row col w = .ok ((Flt.zero, some (.matrixIndex row col)), w) ∧
      m.set row col v w = .ok (some (.matrixIndex row col), w)) ∧
    (m.rows ≤ row →
      m.getRow row w = .ok ((none, some (.matrixIndex row (-1))), w) ∧
      m.setRow row s w = .ok (some (.matrixIndex row (-1)), w)) ∧
    (m.cols ≤ col →
      m.getColumn col w = .ok ((none, some (.matrixIndex (-1) col)), w) ∧
      m.setColumn col s w = .ok (some (.matrixIndex (-1) col), w)) := by
  refine ⟨fun h => ⟨get_bad h w, set_bad h v w⟩, fun h => ⟨?_, ?_⟩, fun h => ⟨?_, ?_⟩⟩
  · unfold Mat.getRow; rw [if_pos h]; rfl
  · unfold Mat.setRow; rw [if_pos h]; rfl
  · unfold Mat.getColumn; rw [if_pos h]; rfl
  · unfold Mat.setColumn; rw [if_pos h]; rfl

example (A : Nat → Nat → α) : ∃ w : World α, ∃ m, IsMat w m 2 3 A ∧ m.rows ≤ 2 ∧ ¬ (m.rows ≤ 1) := by
  obtain ⟨w, m, h, _⟩ := exists_mat (α := α) (r := 2) (c := 3) (by decide) (by decide) A
  exact ⟨w, m, h, by rw [h.rows]; decide, by rw [h.rows]; decide⟩

/-! ## C04 NewMatrixFromSlice

The claim is false of the code: only the first row's length is inspected (matrix.go:62-67). -/

/-- The full claim: an accepted slice is rectangular, so every position can be read. -/
def C04_claim (α : Type) [Flt α] : Prop :=
  ∀ (w : World α) (s : Slice) (m : Mat) (w' : World α), newMatrixFromSlice s w = .ok ((m, none), w') →
    ∀ i j : Nat, (i : Int) < m.rows → (j : Int) < m.cols → ∃ v, m.get i j w' = .ok ((v, none), w')

/-- A ragged slice: row 0 has two entries, row 1 has one. -/
def raggedWorld : World α :=
  { (emptyWorld : World α) with
    next := 4
    outs := fun a => if a = 1 then [2, 3] else []
    flt := fun a => if a = 2 then [Flt.zero, Flt.one] else if a = 3 then [Flt.zero] else [] }

theorem C04_ragged_accepted_then_panics :
    newMatrixFromSlice ⟨1, 0, 2, 2⟩ (raggedWorld : World α) = .ok ((⟨2, 2, ⟨1, 0, 2, 2⟩⟩, none), raggedWorld) ∧
    Panics (Mat.get ⟨2, 2, ⟨1, 0, 2, 2⟩⟩ 1 1) (raggedWorld : World α) := by
  constructor
  · rfl
  · exact ⟨.index, rfl⟩

theorem C04_false : ¬ C04_claim α := by
  intro h
  obtain ⟨h1, p, h2⟩ := C04_ragged_accepted_then_panics (α := α)
  obtain ⟨v, h3⟩ := h _ _ _ _ h1 1 1 (by decide) (by decide)
  have : Mat.get ⟨2, 2, ⟨1, 0, 2, 2⟩⟩ ((1 : Nat) : Int) ((1 : Nat) : Int) (raggedWorld : World α) = .error p := h2
  rw [h3] at this
  cases this

/-- What does hold (missing: rejection of ragged slices): a rectangular non-empty slice is accepted as the matrix on
that very storage, nothing is allocated or changed, and every entry can be read. -/
theorem C04_rectangular_partial (w : World α) (s : Slice) (c : Nat) (A : Nat → Nat → α) (hs : s.addr < w.next)
    (hlen : 0 < s.len) (hc : 0 < c)
    (hrows : ∀ i, i < s.len → ∃ a, (w.outs s.addr)[s.off + i]? = some a ∧ a < w.next ∧
      w.flt a = (List.range c).map (A i)) :
    newMatrixFromSlice s w = .ok ((⟨s.len, c, s⟩, none), w) ∧ IsMat w ⟨s.len, c, s⟩ s.len c A := by
  have hM : IsMat w ⟨s.len, c, s⟩ s.len c A := ⟨rfl, rfl, rfl, hlen, hc, hs, hrows⟩
  exact ⟨newMatrixFromSlice_spec hM, hM⟩

/-- Storage is shared: whatever slice is accepted, the matrix uses that slice itself and the state is unchanged. -/
theorem C04_shares_storage (w w' : World α) (s : Slice) (m : Mat)
    (h : newMatrixFromSlice s w = .ok ((m, none), w')) :
    m.m = s ∧ m.rows = s.len ∧ w' = w ∧ ∃ a, (w.outs s.addr)[s.off]? = some a ∧ m.cols = (w.flt a).length := by
  unfold newMatrixFromSlice at h
  split at h
  · cases h
  · rename_i hl
    cases hr : rowRef s 0 w with
    | error p => rw [bind_error hr] at h; cases h
    | ok q =>
      obtain ⟨a, w1⟩ := q
      rw [bind_ok hr] at h
      have hl2 : rowLen a w1 = .ok (((w1.flt a).length : Int), w1) := rfl
      rw [bind_ok hl2] at h
      unfold rowRef at hr
      rw [if_pos (by omega)] at hr
      cases hoo : (w.outs s.addr)[s.off + (0 : Int).toNat]? with
      | none => rw [hoo] at hr; cases hr
      | some b =>
        rw [hoo] at hr
        cases hr
        split at h
        · cases h
        · cases h
          exact ⟨rfl, rfl, rfl, a, by simpa using hoo, rfl⟩

/-- Hence a write through the slice's owner is seen by the matrix and vice versa: two matrices made from one slice
read each other's writes. -/
theorem C04_writes_visible (w : World α) (m : Mat) (r c : Nat) (A : Nat → Nat → α) (hA : IsMat w m r c A)
    (hd : DistinctRows w m r) (i j : Nat) (hi : i < r) (hj : j < c) (v : α) :
    wp (do
      let (m', _) ← newMatrixFromSlice m.m
      let _ ← m'.set i j v
      m.get i j) w (fun p _ => p = (v, none)) := by
  have h0 : wp (newMatrixFromSlice m.m) w (fun p w1 => p = (m, none) ∧ w1 = w) := by
    rw [wp_iff]; exact ⟨_, _, newMatrixFromSlice_spec hA, rfl, rfl⟩
  refine wp_bind_mono h0 ?_
  rintro _ w1 ⟨rfl, rfl⟩
  refine wp_bind_mono (set_spec hA hd hi hj v) ?_
  rintro e w2 ⟨-, h2⟩
  rw [wp_iff]
  refine ⟨_, _, get_spec h2.mat hi hj, ?_⟩
  simp [upd2]

example (A : Nat → Nat → α) : ∃ w : World α, ∃ m, IsMat w m 2 3 A ∧ DistinctRows w m 2 :=
  exists_mat (by decide) (by decide) A

end NN
