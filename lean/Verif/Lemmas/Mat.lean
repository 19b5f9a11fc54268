import Verif.Lemmas.Wp
import Verif.Spec.State
import Verif.Model.Matrix
/- Execution lemmas for matrices: reading, writing, allocating, filling. -/

namespace NN
variable {α : Type}
open Go

/-! ### Frames -/

theorem Frame.refl (f : Foot) (w : World α) : Frame f w w :=
  ⟨Nat.le_refl _, fun _ _ _ => rfl, fun _ _ _ => rfl, fun _ _ _ => rfl, fun _ _ _ => rfl, rfl, rfl,
    fun _ => rfl, fun _ => rfl, fun _ => rfl, rfl⟩

/-- Two changes in sequence: the second one's footprint matters only for things that existed at the start. -/
theorem Frame.trans {f g h : Foot} {w w1 w2 : World α} (h1 : Frame f w w1) (h2 : Frame g w1 w2)
    (fh : ∀ a, a < w.next → f.flt a → h.flt a) (gh : ∀ a, a < w.next → g.flt a → h.flt a)
    (fo : ∀ a, a < w.next → f.outs a → h.outs a) (go : ∀ a, a < w.next → g.outs a → h.outs a)
    (fl : ∀ a, a < w.next → f.lay a → h.lay a) (gl : ∀ a, a < w.next → g.lay a → h.lay a)
    (fp : ∀ a, a < w.next → f.opt a → h.opt a) (gp : ∀ a, a < w.next → g.opt a → h.opt a)
    (fu : f.unif → h.unif) (gu : g.unif → h.unif) (fn : f.norm → h.norm) (gn : g.norm → h.norm)
    (flg : f.log → h.log) (glg : g.log → h.log) : Frame h w w2 := by
  have hn := h1.next_le
  refine ⟨hn.trans h2.next_le, ?_, ?_, ?_, ?_, h2.norm.trans h1.norm, h2.unif.trans h1.unif, ?_, ?_, ?_,
    h2.logger.trans h1.logger⟩
  · intro a ha hf
    rw [h2.flt a (by omega) (fun hg => hf (gh a ha hg)), h1.flt a ha (fun hg => hf (fh a ha hg))]
  · intro a ha hf
    rw [h2.outs a (by omega) (fun hg => hf (go a ha hg)), h1.outs a ha (fun hg => hf (fo a ha hg))]
  · intro a ha hf
    rw [h2.lay a (by omega) (fun hg => hf (gl a ha hg)), h1.lay a ha (fun hg => hf (fl a ha hg))]
  · intro a ha hf
    rw [h2.opt a (by omega) (fun hg => hf (gp a ha hg)), h1.opt a ha (fun hg => hf (fp a ha hg))]
  · intro hf
    rw [h2.normPos (fun hg => hf (gn hg)), h1.normPos (fun hg => hf (fn hg))]
  · intro hf
    rw [h2.unifPos (fun hg => hf (gu hg)), h1.unifPos (fun hg => hf (fu hg))]
  · intro hf
    rw [h2.log (fun hg => hf (glg hg)), h1.log (fun hg => hf (flg hg))]

theorem Frame.trans_same {f : Foot} {w w1 w2 : World α} (h1 : Frame f w w1) (h2 : Frame f w1 w2) :
    Frame f w w2 :=
  h1.trans h2 (fun _ _ h => h) (fun _ _ h => h) (fun _ _ h => h) (fun _ _ h => h) (fun _ _ h => h)
    (fun _ _ h => h) (fun _ _ h => h) (fun _ _ h => h) id id id id id id

/-- Weakening the footprint. -/
structure Foot.Le (f g : Foot) : Prop where
  flt : ∀ a, f.flt a → g.flt a
  outs : ∀ a, f.outs a → g.outs a
  lay : ∀ a, f.lay a → g.lay a
  opt : ∀ a, f.opt a → g.opt a
  unif : f.unif → g.unif
  norm : f.norm → g.norm
  log : f.log → g.log

theorem Foot.Le.refl (f : Foot) : f.Le f :=
  ⟨fun _ h => h, fun _ h => h, fun _ h => h, fun _ h => h, id, id, id⟩

theorem Foot.Le.empty (f : Foot) : Foot.Le {} f :=
  ⟨fun _ h => h.elim, fun _ h => h.elim, fun _ h => h.elim, fun _ h => h.elim, False.elim, False.elim, False.elim⟩

theorem Frame.mono {f g : Foot} {w w' : World α} (h : Frame f w w') (hfg : f.Le g) : Frame g w w' :=
  h.trans (Frame.refl {} w') (fun a _ => hfg.flt a) (fun _ _ h => h.elim) (fun a _ => hfg.outs a)
    (fun _ _ h => h.elim) (fun a _ => hfg.lay a) (fun _ _ h => h.elim) (fun a _ => hfg.opt a)
    (fun _ _ h => h.elim) hfg.unif False.elim hfg.norm False.elim hfg.log False.elim

/-- Changes after allocations: footprints that only mention new addresses vanish. -/
theorem OnlyAllocs.then_flt {g : Nat → Prop} {w w1 w2 : World α} (h1 : OnlyAllocs w w1)
    (h2 : Frame { flt := g } w1 w2) (hg : ∀ a, g a → w.next ≤ a) : OnlyAllocs w w2 := by
  refine Frame.trans (f := {}) (g := { flt := g }) h1 h2 ?_ ?_ ?_ ?_ ?_ ?_ ?_ ?_ ?_ ?_ ?_ ?_ ?_ ?_ <;>
    first | exact False.elim | exact fun _ _ h => h.elim | skip
  intro a ha hga
  have := hg a hga
  omega

theorem OnlyAllocs.trans {w w1 w2 : World α} (h1 : OnlyAllocs w w1) (h2 : OnlyAllocs w1 w2) : OnlyAllocs w w2 :=
  Frame.trans_same h1 h2

theorem OnlyAllocs.refl (w : World α) : OnlyAllocs w w := Frame.refl _ _

/-! ### Matrices under state change -/

theorem IsMat.congr {w : World α} {m : Mat} {r c : Nat} {A B : Nat → Nat → α} (h : IsMat w m r c A)
    (hAB : ∀ i j, i < r → j < c → A i j = B i j) : IsMat w m r c B := by
  refine { h with row := ?_ }
  intro i hi
  obtain ⟨a, h1, h2, h3⟩ := h.row i hi
  refine ⟨a, h1, h2, h3.trans ?_⟩
  apply List.map_congr_left
  intro j hj
  exact hAB i j hi (List.mem_range.1 hj)

theorem IsMat.isRow_lt {w : World α} {m : Mat} {r c : Nat} {A} (h : IsMat w m r c A) {a : Nat}
    (ha : w.IsRow m r a) : a < w.next := by
  obtain ⟨i, hi, e⟩ := ha
  obtain ⟨b, h1, h2, _⟩ := h.row i hi
  rw [h1] at e; cases e; exact h2

theorem rowAddr_eq {w w' : World α} {m : Mat} (h : w'.outs m.m.addr = w.outs m.m.addr) (i : Nat) :
    w'.rowAddr m i = w.rowAddr m i := by simp [World.rowAddr, h]

theorem isRow_eq {w w' : World α} {m : Mat} (h : w'.outs m.m.addr = w.outs m.m.addr) (r a : Nat) :
    w'.IsRow m r a ↔ w.IsRow m r a := by simp [World.IsRow, rowAddr_eq h]

theorem distinctRows_eq {w w' : World α} {m : Mat} {r : Nat} (h : w'.outs m.m.addr = w.outs m.m.addr) :
    DistinctRows w' m r ↔ DistinctRows w m r := by simp [DistinctRows, rowAddr_eq h]

theorem IsMat.frame {f : Foot} {w w' : World α} {m : Mat} {r c : Nat} {A} (h : IsMat w m r c A)
    (hf : Frame f w w') (ho : ¬ f.outs m.m.addr) (hr : ∀ a, w.IsRow m r a → ¬ f.flt a) : IsMat w' m r c A := by
  have hn := hf.next_le
  refine { h with addr_lt := by have := h.addr_lt; omega, row := ?_ }
  intro i hi
  obtain ⟨a, h1, h2, h3⟩ := h.row i hi
  refine ⟨a, ?_, by omega, ?_⟩
  · rw [rowAddr_eq (hf.outs _ h.addr_lt ho)]; exact h1
  · rw [hf.flt a h2 (hr a ⟨i, hi, h1⟩)]; exact h3

theorem IsMat.allocs {w w' : World α} {m : Mat} {r c : Nat} {A} (h : IsMat w m r c A)
    (hf : OnlyAllocs w w') : IsMat w' m r c A := h.frame hf (fun h => h) (fun _ _ h => h)

theorem DistinctRows.frame {f : Foot} {w w' : World α} {m : Mat} {r : Nat} (h : DistinctRows w m r)
    (hf : Frame f w w') (hm : m.m.addr < w.next) (ho : ¬ f.outs m.m.addr) : DistinctRows w' m r :=
  (distinctRows_eq (hf.outs _ hm ho)).2 h

theorem IsMat.isRow_frame {f : Foot} {w w' : World α} {m : Mat} {r c : Nat} {A} (h : IsMat w m r c A)
    (hf : Frame f w w') (ho : ¬ f.outs m.m.addr) (a : Nat) : w'.IsRow m r a ↔ w.IsRow m r a :=
  isRow_eq (hf.outs _ h.addr_lt ho) _ _

/-- The entries are determined by the state. -/
theorem IsMat.entries_unique {w : World α} {m : Mat} {r c : Nat} {A B} (hA : IsMat w m r c A)
    (hB : IsMat w m r c B) {i j : Nat} (hi : i < r) (hj : j < c) : A i j = B i j := by
  obtain ⟨a, h1, _, h3⟩ := hA.row i hi
  obtain ⟨b, h1', _, h3'⟩ := hB.row i hi
  rw [h1] at h1'; cases h1'
  have := h3.symm.trans h3'
  exact (List.map_inj_left.1 this) j (List.mem_range.2 hj)

theorem SetMat.isRow {w w' : World α} {m : Mat} {r c : Nat} {V} (h : SetMat w w' m r c V) (a : Nat) :
    w'.IsRow m r a ↔ w.IsRow m r a := isRow_eq (by rw [h.outs]) _ _

theorem SetMat.isRow' {w w' : World α} {m : Mat} {r c : Nat} {V} (h : SetMat w w' m r c V) (m' : Mat) (r' a : Nat) :
    w'.IsRow m' r' a ↔ w.IsRow m' r' a := isRow_eq (by rw [h.outs]) _ _

theorem SetMat.distinct {w w' : World α} {m : Mat} {r c : Nat} {V} (h : SetMat w w' m r c V) (m' : Mat) (r' : Nat) :
    DistinctRows w' m' r' ↔ DistinctRows w m' r' := distinctRows_eq (by rw [h.outs])

theorem SetMat.refl {w : World α} {m : Mat} {r c : Nat} {A} (h : IsMat w m r c A) : SetMat w w m r c A :=
  ⟨h, Frame.refl _ _, rfl, rfl⟩

theorem SetMat.trans {w w1 w2 : World α} {m : Mat} {r c : Nat} {A B} (h1 : SetMat w w1 m r c A)
    (h2 : SetMat w1 w2 m r c B) : SetMat w w2 m r c B := by
  refine ⟨h2.mat, ?_, h2.next.trans h1.next, h2.outs.trans h1.outs⟩
  refine h1.frame.trans_same (h2.frame.mono ?_)
  exact ⟨fun a h => (h1.isRow a).1 h, fun _ h => h, fun _ h => h, fun _ h => h, id, id, id⟩

theorem SetMat.congr {w w' : World α} {m : Mat} {r c : Nat} {A B} (h : SetMat w w' m r c A)
    (hAB : ∀ i j, i < r → j < c → A i j = B i j) : SetMat w w' m r c B :=
  { h with mat := h.mat.congr hAB }

theorem NewMat.congr {w w' : World α} {m : Mat} {r c : Nat} {A B} (h : NewMat w w' m r c A)
    (hAB : ∀ i j, i < r → j < c → A i j = B i j) : NewMat w w' m r c B :=
  { h with mat := h.mat.congr hAB }

/-- Overwriting a matrix allocated just before is the same as allocating it with the new entries. -/
theorem NewMat.set {w w1 w2 : World α} {m : Mat} {r c : Nat} {A V} (h : NewMat w w1 m r c A)
    (hs : SetMat w1 w2 m r c V) : NewMat w w2 m r c V :=
  { mat := hs.mat
    frame := h.frame.then_flt hs.frame h.fresh
    fresh_outer := h.fresh_outer
    fresh := fun a ha => h.fresh a ((hs.isRow a).1 ha)
    distinct := (hs.distinct _ _).2 h.distinct
    off := h.off
    cap := h.cap }

/-- A matrix that existed before is not affected by overwriting a newly allocated one. -/
theorem NewMat.old {w w1 w2 : World α} {m x : Mat} {r c r' c' : Nat} {A V X} (h : NewMat w w1 m r c A)
    (hs : SetMat w1 w2 m r c V) (hx : IsMat w x r' c' X) : IsMat w2 x r' c' X :=
  hx.allocs (h.set hs).frame

/-- Allocations followed by a newly allocated matrix. -/
theorem NewMat.of_allocs {w w1 w2 : World α} {m : Mat} {r c : Nat} {A} (h : OnlyAllocs w w1)
    (hm : NewMat w1 w2 m r c A) : NewMat w w2 m r c A :=
  { hm with
    frame := h.trans hm.frame
    fresh_outer := h.next_le.trans hm.fresh_outer
    fresh := fun a ha => h.next_le.trans (hm.fresh a ha) }

/-- A newly allocated matrix followed by further allocations. -/
theorem NewMat.then_allocs {w w1 w2 : World α} {m : Mat} {r c : Nat} {A} (hm : NewMat w w1 m r c A)
    (h : OnlyAllocs w1 w2) : NewMat w w2 m r c A :=
  { hm with
    mat := hm.mat.allocs h
    frame := hm.frame.trans h
    fresh := fun a ha => hm.fresh a ((hm.mat.isRow_frame h (fun h => h) a).1 ha)
    distinct := hm.distinct.frame h hm.mat.addr_lt (fun h => h) }

/-- Change one entry. -/
def upd2 (A : Nat → Nat → α) (i j : Nat) (v : α) : Nat → Nat → α :=
  fun i' j' => if i' = i ∧ j' = j then v else A i' j'

/-! ### Reading and writing entries -/

theorem rowRef_ok {w : World α} {m : Mat} {r c : Nat} {A} (h : IsMat w m r c A) {i : Nat} (hi : i < r) {a : Nat}
    (ha : w.rowAddr m i = some a) : rowRef m.m (i : Int) w = .ok (a, w) := by
  unfold rowRef
  have hl := h.len
  rw [if_pos (by omega)]
  unfold World.rowAddr at ha
  simp [ha]

theorem wp_at {w : World α} {m : Mat} {r c : Nat} {A : Nat → Nat → α} (h : IsMat w m r c A) {i j : Nat} (hi : i < r)
    (hj : j < c) {Q : α → World α → Prop} : wp (m.at (i : Int) (j : Int)) w Q ↔ Q (A i j) w := by
  obtain ⟨a, h1, h2, h3⟩ := h.row i hi
  unfold Mat.at
  rw [wp_bind]
  simp only [wp, rowRef_ok h hi h1, rowGet, h3]
  simp [hj]

theorem at_ok {w : World α} {m : Mat} {r c : Nat} {A : Nat → Nat → α} (h : IsMat w m r c A) {i j : Nat} (hi : i < r)
    (hj : j < c) : m.at (i : Int) (j : Int) w = .ok (A i j, w) := by
  have := (wp_at h hi hj (Q := fun b w' => b = A i j ∧ w' = w)).2 ⟨rfl, rfl⟩
  rw [wp_iff] at this
  obtain ⟨b, w', e, rfl, rfl⟩ := this
  exact e

theorem wp_setAt {w : World α} {m : Mat} {r c : Nat} {A : Nat → Nat → α} (h : IsMat w m r c A)
    (hd : DistinctRows w m r) {i j : Nat} (hi : i < r) (hj : j < c) (v : α) :
    wp (m.setAt (i : Int) (j : Int) v) w (fun _ w' => SetMat w w' m r c (upd2 A i j v)) := by
  obtain ⟨a, h1, h2, h3⟩ := h.row i hi
  unfold Mat.setAt
  rw [wp_bind]
  have hl : ((j : Int) < ((w.flt a).length : Int)) := by simp [h3, hj]
  simp only [wp, rowRef_ok h hi h1, rowSet, if_pos (And.intro (Int.natCast_nonneg j) hl)]
  refine ⟨{ h with row := ?_ }, ?_, rfl, rfl⟩
  · intro i' hi'
    obtain ⟨a', h1', h2', h3'⟩ := h.row i' hi'
    refine ⟨a', h1', h2', ?_⟩
    by_cases e : a' = a
    · subst e
      have : i' = i := hd _ _ _ hi' hi h1' h1
      subst this
      simp only [upd_same, h3']
      apply List.ext_getElem
      · simp
      · intro n hn hn'
        simp only [List.length_map, List.length_range] at hn'
        rw [List.getElem_set]
        simp only [List.getElem_map, List.getElem_range, Int.toNat_natCast, upd2]
        by_cases e : j = n
        · simp [e]
        · simp [e, Ne.symm e]
    · simp only [upd_ne e, h3']
      apply List.map_congr_left
      intro n _
      have : i' ≠ i := by
        rintro rfl; rw [h1] at h1'; cases h1'; exact e rfl
      simp [upd2, this]
  · refine { Frame.refl _ _ with flt := ?_ }
    intro b hb hnb
    simp only
    rw [upd_ne]
    rintro rfl
    exact hnb ⟨i, hi, h1⟩

/-! ### Filling a matrix -/

/-- Cells before (i, j) in row-major order have been processed (entries V), the others not (entries A). -/
def mix (A V : Nat → Nat → α) (i j : Nat) : Nat → Nat → α :=
  fun i' j' => if i' < i ∨ (i' = i ∧ j' < j) then V i' j' else A i' j'

theorem mix_self (A V : Nat → Nat → α) (i j : Nat) : mix A V i j i j = A i j := by simp [mix]

/-- Writing outside the columns panics. -/
theorem setAt_bad {w : World α} {m : Mat} {r c : Nat} {A : Nat → Nat → α} (h : IsMat w m r c A) {i : Nat} (hi : i < r)
    {j : Int} (hj : ¬ (0 ≤ j ∧ j < c)) (v : α) : m.setAt (i : Int) j v w = .error .index := by
  obtain ⟨a, h1, h2, h3⟩ := h.row i hi
  unfold Mat.setAt
  refine (bind_ok (rowRef_ok h hi h1)).trans ?_
  unfold rowSet
  rw [if_neg (by rw [h3]; simpa using hj)]

/-- Reading outside the columns panics. -/
theorem at_bad {w : World α} {m : Mat} {r c : Nat} {A : Nat → Nat → α} (h : IsMat w m r c A) {i : Nat} (hi : i < r)
    {j : Int} (hj : ¬ (0 ≤ j ∧ j < c)) : m.at (i : Int) j w = .error .index := by
  obtain ⟨a, h1, h2, h3⟩ := h.row i hi
  unfold Mat.at
  refine (bind_ok (rowRef_ok h hi h1)).trans ?_
  unfold rowGet
  split
  · rw [h3, List.getElem?_eq_none (by simp; omega)]
  · rfl

/-- The body of a fill loop writes V i j at (i, j). -/
theorem SetMat.put {w w1 : World α} {m : Mat} {r c : Nat} {A V : Nat → Nat → α} {i j : Nat}
    (hw : SetMat w w1 m r c (mix A V i j)) (hd : DistinctRows w m r) (hi : i < r) (hj : j < c) {v : α}
    (hv : v = V i j) : wp (m.setAt (i : Int) (j : Int) v) w1 (fun _ w' => SetMat w w' m r c (mix A V i (j + 1))) := by
  refine wp_mono (wp_setAt hw.mat ((hw.distinct _ _).2 hd) hi hj v) ?_
  intro _ w2 h2
  refine (hw.trans h2).congr ?_
  intro i' j' hi' hj'
  simp only [upd2, mix]
  by_cases e : i' = i ∧ j' = j
  · obtain ⟨rfl, rfl⟩ := e
    simp [hv]
  · have : (i' < i ∨ (i' = i ∧ j' < j + 1)) ↔ (i' < i ∨ (i' = i ∧ j' < j)) := by omega
    simp [e, this]

/-- The body of a fill loop that leaves (i, j) as it is. -/
theorem SetMat.keep {w w1 : World α} {m : Mat} {r c : Nat} {A V : Nat → Nat → α} {i j : Nat}
    (hw : SetMat w w1 m r c (mix A V i j)) (hv : A i j = V i j) :
    SetMat w w1 m r c (mix A V i (j + 1)) := by
  refine hw.congr ?_
  intro i' j' hi' hj'
  simp only [mix]
  by_cases e : i' = i ∧ j' = j
  · obtain ⟨rfl, rfl⟩ := e
    simp [hv]
  · have : (i' < i ∨ (i' = i ∧ j' < j + 1)) ↔ (i' < i ∨ (i' = i ∧ j' < j)) := by omega
    simp [this]

/-- One row of a fill loop, as a row-major process. -/
theorem wp_fillRow {w w0 : World α} {m : Mat} {r c : Nat} {A V : Nat → Nat → α} {i : Nat} {body : Nat → Go α Unit}
    (h : SetMat w w0 m r c (mix A V i 0))
    (hb : ∀ j w1, j < c → SetMat w w1 m r c (mix A V i j) →
      wp (body j) w1 (fun _ w2 => SetMat w w2 m r c (mix A V i (j + 1)))) :
    wp (forN c body) w0 (fun _ w' => SetMat w w' m r c (mix A V (i + 1) 0)) := by
  refine wp_mono (wp_forN (fun j w1 => SetMat w w1 m r c (mix A V i j)) h ?_) ?_
  · intro j w1 hj hw1; exact hb j w1 hj hw1
  · intro _ w' h'
    refine h'.congr ?_
    intro i' j' hi' hj'
    have : (i' < i ∨ (i' = i ∧ j' < c)) ↔ (i' < i + 1 ∨ (i' = i + 1 ∧ j' < 0)) := by omega
    simp [mix, this]

/-- The nested loop `for i { for j { ... m.M[i][j] = V(i,j) ... } }`. -/
theorem wp_fill {w : World α} {m : Mat} {r c : Nat} {A V : Nat → Nat → α} {body : Nat → Nat → Go α Unit}
    (h : IsMat w m r c A)
    (hb : ∀ i j w1, i < r → j < c → SetMat w w1 m r c (mix A V i j) →
      wp (body i j) w1 (fun _ w2 => SetMat w w2 m r c (mix A V i (j + 1)))) :
    wp (forN r fun i => forN c fun j => body i j) w (fun _ w' => SetMat w w' m r c V) := by
  refine wp_mono (wp_forN (fun i w1 => SetMat w w1 m r c (mix A V i 0)) ?_ ?_) ?_
  · exact (SetMat.refl h).congr (by intro i j _ _; simp [mix])
  · intro i w1 hi hw1
    exact wp_fillRow hw1 fun j w2 hj hw2 => hb i j w2 hi hj hw2
  · intro _ w' h'
    refine h'.congr ?_
    intro i' j' hi' hj'
    simp [mix, hi']

/-! ### Allocation -/

variable [Flt α]

theorem newMatrix_spec {w : World α} {r c : Nat} (hr : 0 < r) (hc : 0 < c) :
    wp (newMatrix (r : Int) (c : Int)) w (fun p w' => p.2 = none ∧ NewMat w w' p.1 r c (fun _ _ => Flt.zero)) := by
  unfold newMatrix
  rw [if_neg (by omega)]
  simp only [wp_bind, Int.toNat_natCast]
  simp only [wp, allocOuter]
  refine wp_mono (wp_forN (fun k w1 =>
    (∀ a, a < w.next → w1.flt a = w.flt a) ∧ (∀ a, a ≠ w.next → w1.outs a = w.outs a) ∧
    w1.lay = w.lay ∧ w1.opt = w.opt ∧ w1.norm = w.norm ∧ w1.normPos = w.normPos ∧ w1.unif = w.unif ∧
    w1.unifPos = w.unifPos ∧ w1.log = w.log ∧ w1.logger = w.logger ∧ w1.next = w.next + 1 + k ∧
    (w1.outs w.next).length = r ∧
    (∀ i, i < k → (w1.outs w.next)[i]? = some (w.next + 1 + i)) ∧
    (∀ i, i < k → w1.flt (w.next + 1 + i) = List.replicate c Flt.zero)) ?_ ?_) ?_
  · refine ⟨fun _ _ => rfl, fun a ha => ?_, rfl, rfl, rfl, rfl, rfl, rfl, rfl, rfl, rfl, ?_, ?_, ?_⟩
    · exact upd_ne ha
    · simp
    · intro i hi; omega
    · intro i hi; omega
  · rintro k w1 hk ⟨h1, h2, h3, h4, h5, h6, h7, h8, h9, h10, h11, h12, h13, h14⟩
    simp only [wp_bind]
    simp only [wp, allocRow, setRowRef]
    rw [if_pos (by simp; omega)]
    simp only [Nat.zero_add, Int.toNat_natCast]
    refine ⟨?_, ?_, h3, h4, h5, h6, h7, h8, h9, h10, by simp only [h11]; omega, ?_, ?_, ?_⟩
    · intro a ha
      rw [upd_ne (by omega)]; exact h1 a ha
    · intro a ha
      rw [upd_ne ha]; exact h2 a ha
    · simp [h12]
    · intro i hi
      simp only [upd_same, h11]
      rw [List.getElem?_set]
      by_cases e : k = i
      · subst e; simp [h12, hk]
      · rw [if_neg e]; exact h13 i (by omega)
    · intro i hi
      by_cases e : i = k
      · subst e; rw [← h11]; simp
      · rw [upd_ne (by omega)]; exact h14 i (by omega)
  · rintro _ w1 ⟨h1, h2, h3, h4, h5, h6, h7, h8, h9, h10, h11, h12, h13, h14⟩
    refine ⟨rfl, ?_⟩
    refine ⟨⟨rfl, rfl, rfl, hr, hc, by simp only [h11]; omega, ?_⟩, ?_, Nat.le_refl _, ?_, ?_, rfl, rfl⟩
    · intro i hi
      refine ⟨w.next + 1 + i, ?_, by omega, ?_⟩
      · simp only [World.rowAddr, Nat.zero_add]; exact h13 i hi
      · rw [h14 i hi]
        exact (List.eq_replicate_iff.2 ⟨by simp, by simp⟩).symm
    · refine ⟨by omega, fun a ha _ => h1 a ha, fun a ha _ => h2 a (by omega), fun _ _ _ => by rw [h3],
        fun _ _ _ => by rw [h4], h5, h7, fun _ => h6, fun _ => h8, fun _ => h9, h10⟩
    · rintro a ⟨i, hi, e⟩
      simp only [World.rowAddr, Nat.zero_add, h13 i hi, Option.some.injEq] at e
      omega
    · intro i j a hi hj e1 e2
      simp only [World.rowAddr, Nat.zero_add, h13 i hi, h13 j hj, Option.some.injEq] at e1 e2
      omega

/-- The pattern `ans := NewMatrix(..); for i,j { ans.M[i][j] = V(i,j) }`. -/
theorem wp_newFill {β : Type} {w : World α} {r c : Nat} {V : Nat → Nat → α} {body : Mat → Nat → Nat → Go α Unit}
    {k : Mat → Go α β} {Q : β → World α → Prop} (hr : 0 < r) (hc : 0 < c)
    (hb : ∀ m w0 w1 i j, i < r → j < c → NewMat w w0 m r c (fun _ _ => Flt.zero) →
      NewMat w w1 m r c (mix (fun _ _ => Flt.zero) V i j) → SetMat w0 w1 m r c (mix (fun _ _ => Flt.zero) V i j) →
      wp (body m i j) w1 (fun _ w2 => SetMat w0 w2 m r c (mix (fun _ _ => Flt.zero) V i (j + 1))))
    (hk : ∀ m w', NewMat w w' m r c V → wp (k m) w' Q) :
    wp (newMatrix (r : Int) (c : Int) >>= fun p =>
      (forN r fun i => forN c fun j => body p.1 i j) >>= fun _ => k p.1) w Q := by
  refine wp_bind_mono (newMatrix_spec hr hc) ?_
  rintro ⟨m, e⟩ w0 ⟨_, hm⟩
  refine wp_bind_mono (wp_fill (V := V) hm.mat fun i j w1 hi hj hw1 => ?_) fun _ w' hw' => hk m w' (hm.set hw')
  exact hb m w0 w1 i j hi hj hm (hm.set hw1) hw1

end NN
