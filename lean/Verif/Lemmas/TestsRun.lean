import Verif.Lemmas.TestsF64
import Verif.Lemmas.Misc
import Mathlib.Tactic.IntervalCases
/- The tests of matrix_test.go, misc_test.go and accuracy_test.go with float64. -/

set_option linter.unusedSimpArgs false

namespace NN
open Go F64

attribute [local irreducible] wp

/-- `reflect.DeepEqual` of a row of a matrix and a literal. -/
theorem deepEqual_spec {α : Type} [Flt α] {w : World α} {a c : Nat} {R : Nat → α} {l : List α} (ha : w.flt a = (List.range c).map R) (hl : l.length = c)
    (he : ∀ j, j < c → Flt.eq (R j) (l[j]?.getD Flt.zero) = true) : deepEqual (some a) l w = .ok (true, w) := by
  show Except.ok _ = _
  have h1 : decide ((w.flt a).length = l.length) = true := by simp [ha, hl]
  have h2 : ((w.flt a).zip l).all (fun p => Flt.eq p.1 p.2) = true := by
    rw [List.all_eq_true]
    intro p hp
    obtain ⟨j, hj, rfl⟩ := List.getElem_of_mem hp
    have hj' : j < c := by
      have := List.length_zip ▸ hj
      simp [ha, hl] at this; exact this
    have h3 := he j hj'
    have h4 : j < l.length := by omega
    simp only [List.getElem_zip, ha, List.getElem_map, List.getElem_range]
    simpa [h4] using h3
  rw [h1, h2]; rfl

/-- The whole numbers in the tests. -/
theorem int_eq [Libm] (a : Int) : Flt.eq (Flt.ofInt a : F64) (Flt.ofInt a) = true := round_eq_self _ _

theorem testMatrix_run [Libm] (w : World F64) : wp (testMatrix flit) w fun f w' => f = [] ∧ OnlyAllocs w w' := by
  unfold testMatrix
  refine wp_bind_mono (newMatrix_spec (r := 3) (c := 3) (by omega) (by omega)) ?_
  rintro ⟨m, e⟩ w1 ⟨-, h1⟩
  dsimp only at h1 ⊢
  refine wp_bind_mono (set_spec (i := 0) (j := 0) h1.mat h1.distinct (by omega) (by omega) _) ?_
  rintro _ w2 ⟨-, h2⟩
  replace h2 := h1.set h2
  refine wp_bind_mono (set_spec (i := 1) (j := 2) h2.mat h2.distinct (by omega) (by omega) _) ?_
  rintro _ w3 ⟨-, h3⟩
  replace h3 := h2.set h3
  refine wp_bind_mono (set_spec (i := 2) (j := 0) h3.mat h3.distinct (by omega) (by omega) _) ?_
  rintro _ w4 ⟨-, h4⟩
  replace h4 := h3.set h4
  refine wp_bind_mono (set_spec (i := 1) (j := 1) h4.mat h4.distinct (by omega) (by omega) _) ?_
  rintro _ w5 ⟨-, h5⟩
  replace h5 := h4.set h5
  refine wp_bind_ok (get_spec (i := 0) (j := 0) h5.mat (by omega) (by omega)) ?_
  refine wp_bind_ok (get_spec (i := 1) (j := 2) h5.mat (by omega) (by omega)) ?_
  refine wp_bind_ok (get_spec (i := 2) (j := 0) h5.mat (by omega) (by omega)) ?_
  refine wp_bind_ok (get_spec (i := 1) (j := 1) h5.mat (by omega) (by omega)) ?_
  dsimp only
  have e1 : Flt.eq (flit 314 2) (flit 314 2) = true := round_eq_self _ _
  have e2 := int_eq 6
  have e3 := int_eq 623
  have e4 := int_eq 0
  simp only [upd2]
  norm_num [e1, e2, e3, e4]
  exact h5.frame

theorem testMatrixFromSlice_run [Libm] (w : World F64) : wp testMatrixFromSlice w fun f w' => f = [] ∧ OnlyAllocs w w' := by
  unfold testMatrixFromSlice
  refine wp_bind_mono (matLit_spec 3 (by simp) (by omega) (by simp [ints])) ?_
  rintro ⟨m, e⟩ w1 ⟨he, h1⟩
  obtain rfl : e = none := he
  dsimp only at h1 ⊢
  refine wp_bind_ok (get_spec (i := 0) (j := 0) h1.mat (by simp) (by omega)) ?_
  obtain ⟨a, ha, -, hv⟩ := h1.mat.row 1 (by simp)
  have e1 : Flt.eq (entry [ints (α := F64) [1, 2, 3], ints [4, 5, 6]] 0 0) (Flt.ofInt 1) = true := int_eq 1
  rw [e1]
  rw [if_neg (by simp)]
  refine wp_bind_ok (getRow_spec (i := 1) h1.mat (by simp) ha) ?_
  refine wp_bind_ok (deepEqual_spec hv (by simp [ints]) ?_) ?_
  · intro j hj
    interval_cases j <;> exact int_eq _
  · exact wp_pure.2 ⟨rfl, h1.frame⟩

theorem rowLit_spec {α : Type} [Flt α] (w : World α) (l : List α) :
    wp (rowLit l) w fun a w' => a = w.next ∧ w'.next = w.next + 1 ∧ w'.flt a = l ∧ w'.outs = w.outs ∧ OnlyAllocs w w' := by
  unfold wp
  refine ⟨rfl, rfl, upd_same, rfl, by simp, fun a ha _ => upd_ne (by omega), fun _ _ _ => rfl, fun _ _ _ => rfl, fun _ _ _ => rfl, rfl, rfl, fun _ => rfl,
    fun _ => rfl, fun _ => rfl, rfl⟩

theorem testMatrixRowsCols_run [Libm] (w : World F64) : wp testMatrixRowsCols w fun f w' => f = [] ∧ OnlyAllocs w w' := by
  unfold testMatrixRowsCols
  refine wp_bind_mono (newMatrix_spec (r := 3) (c := 3) (by omega) (by omega)) ?_
  rintro ⟨m, e⟩ w1 ⟨-, h1⟩
  dsimp only at h1 ⊢
  refine wp_bind_mono (rowLit_spec _ _) ?_
  rintro r w2 ⟨hr, n2, v2, o2, f2⟩
  have m2 := h1.then_allocs f2
  refine wp_bind_mono (setRow_spec (i := 0) (B := fun j => (ints (α := F64) [1, 2, 3])[j]?.getD Flt.zero) m2.mat (by omega) (by omega) (by rw [v2]; rfl)) ?_
  rintro _ w3 ⟨rfl, e3, r3, k3, m3⟩
  have n3 : w3.next = w2.next := by rw [e3]
  have f3 : Frame { outs := fun a => a = m.m.addr } w2 w3 := by
    rw [e3]
    exact ⟨Nat.le_refl _, fun _ _ _ => rfl, fun a _ h => upd_ne h, fun _ _ _ => rfl, fun _ _ _ => rfl, rfl, rfl, fun _ => rfl, fun _ => rfl, fun _ => rfl, rfl⟩
  have old : ∀ i a, i ≠ 0 → w3.rowAddr m i = some a → i < 3 → a < w1.next := by
    intro i a hi ha h3
    rw [k3 i hi] at ha
    exact h1.mat.isRow_lt ((h1.mat.isRow_frame f2 (fun h => h) a).1 ⟨i, h3, ha⟩)
  have d3 : DistinctRows w3 m 3 := by
    intro i j a hi hj ea eb
    by_cases i0 : i = 0
    · subst i0
      by_cases j0 : j = 0
      · exact j0.symm
      · rw [r3] at ea
        have := old j a j0 eb hj
        cases ea
        omega
    · by_cases j0 : j = 0
      · subst j0
        rw [r3] at eb
        have := old i a i0 ea hi
        cases eb
        omega
      · rw [k3 i i0] at ea
        rw [k3 j j0] at eb
        exact m2.distinct i j a hi hj ea eb
  have f13 : OnlyAllocs w w3 := by
    have h0 := m2.frame
    have := h1.fresh_outer
    frames h0 f3
    intro a ha hb
    have : a = m.m.addr := hb
    omega
  dsimp only
  refine wp_bind_mono (rowLit_spec _ _) ?_
  rintro c w4 ⟨hc, n4, v4, o4, f4⟩
  have m4 := m3.allocs f4
  have d4 := d3.frame f4 m3.addr_lt (fun h => h)
  have ir : ∀ a, w4.IsRow m 3 a ↔ w3.IsRow m 3 a := m3.isRow_frame f4 (fun h => h)
  refine wp_bind_mono (setColumn_spec (j := 1) (B := fun j => (ints (α := F64) [1, 2, 3])[j]?.getD Flt.zero) m4 d4 (by omega) (by omega) ?_ (by rw [v4]; rfl)) ?_
  · intro hh
    have := m3.isRow_lt ((ir _).1 hh)
    omega
  rintro _ w5 ⟨rfl, h5⟩
  dsimp only
  obtain ⟨a, ha, -, hv⟩ := h5.mat.row 1 (by omega)
  refine wp_bind_ok (getRow_spec (i := 1) h5.mat (by omega) ha) ?_
  refine wp_bind_ok (deepEqual_spec hv (by simp [ints]) ?_) ?_
  · intro j hj
    interval_cases j <;> exact int_eq _
  · refine wp_pure.2 ⟨rfl, (f13.trans f4).then_flt h5.frame ?_⟩
    rintro x hx
    obtain ⟨i, hi, hx⟩ := (ir x).1 hx
    by_cases i0 : i = 0
    · subst i0
      rw [r3] at hx
      cases hx
      have := h1.frame.next_le
      omega
    · rw [k3 i i0] at hx
      exact m2.fresh x ⟨i, hi, hx⟩

theorem testMatrixOperations_run [Libm] (w : World F64) : wp testMatrixOperations w fun p w' => p.1 = [] ∧ OnlyAllocs w w' := by
  unfold testMatrixOperations
  refine wp_bind_mono (matLit_spec 3 (by simp) (by omega) (by simp [ints])) ?_
  rintro ⟨a, e⟩ w1 ⟨-, h1⟩
  refine wp_bind_mono (matLit_spec 3 (by simp) (by omega) (by simp [ints])) ?_
  rintro ⟨b, e⟩ w2 ⟨-, h2⟩
  refine wp_bind_mono (matLit_spec 3 (by simp) (by omega) (by simp [ints])) ?_
  rintro ⟨c, e⟩ w3 ⟨-, h3⟩
  dsimp only at h1 h2 h3 ⊢
  refine wp_bind_mono (add_spec ((h1.mat.allocs h2.frame).allocs h3.frame) (h2.mat.allocs h3.frame)) ?_
  rintro ⟨s, e⟩ w4 ⟨he, h4⟩
  obtain rfl : e = none := he
  dsimp only at h4 ⊢
  refine wp_bind_mono (neg_spec (h3.mat.allocs h4.frame)) ?_
  rintro n w5 h5
  refine wp_bind_mono (sub_spec (h4.mat.allocs h5.frame) h5.mat) ?_
  rintro ⟨d, e⟩ w6 ⟨he, h6⟩
  obtain rfl : e = none := he
  dsimp only at h6 ⊢
  refine wp_bind_mono (matLit_spec 3 (by simp) (by omega) (by simp [ints])) ?_
  rintro ⟨g, e⟩ w7 ⟨-, h7⟩
  dsimp only at h7 ⊢
  refine wp_bind_mono (equals_spec (h6.mat.allocs h7.frame) h7.mat) ?_
  rintro v w8 ⟨rfl, hv⟩
  have : v = true := by
    refine hv.2 ⟨rfl, rfl, ?_⟩
    intro i j hi hj
    simp only [List.length_cons, List.length_nil] at hi
    interval_cases i <;> interval_cases j <;>
      · simp (disch := norm_num) only [entry, ints, List.map_cons, List.map_nil, List.getElem?_cons_zero, List.getElem?_cons_succ, Option.getD_some,
          f64_neg, f64_add, f64_sub]
        norm_num [int_eq]
  subst this
  exact wp_pure.2 ⟨rfl, (((((h1.frame.trans h2.frame).trans h3.frame).trans h4.frame).trans h5.frame).trans h6.frame).trans h7.frame⟩

theorem testMatrixScalarOperations_run [Libm] (w : World F64) :
    wp (testMatrixScalarOperations flit) w fun p w' => p.1 = [] ∧ p.2 = Flt.ofInt 0 ∧ OnlyAllocs w w' := by
  unfold testMatrixScalarOperations
  refine wp_bind_mono (newMatrix_spec (r := 3) (c := 3) (by omega) (by omega)) ?_
  rintro ⟨m, e⟩ w1 ⟨-, h1⟩
  dsimp only at h1 ⊢
  refine wp_bind_mono (addScalar_spec h1.mat _) ?_
  rintro m2 w2 h2
  refine wp_bind_mono (mulScalar_spec h2.mat _) ?_
  rintro m3 w3 h3
  refine wp_bind_mono (powScalar_spec h3.mat _) ?_
  rintro m4 w4 h4
  refine wp_bind_ok (get_spec (i := 0) (j := 0) h4.mat (by omega) (by omega)) ?_
  have ev : Flt.pow (((Flt.zero : F64) +. Flt.ofInt 10) *. Flt.ofInt (1 / 3)) (Flt.ofInt 2) = Flt.ofInt 0 := by
    rw [show (1 / 3 : Int) = 0 by norm_num, f64_add 0 10 (by norm_num) (by norm_num), f64_mul _ _ (by norm_num) (by norm_num) (by norm_num),
      show ((0 + 10) * 0 : Int) = 0 by norm_num, f64_sq 0 (by norm_num) (by norm_num)]
    rfl
  have e9 : Flt.pow (Flt.ofInt (10 / 3) : F64) (Flt.ofInt 2) = Flt.ofInt 9 := by
    rw [show (10 / 3 : Int) = 3 by norm_num, f64_sq 3 (by norm_num) (by norm_num)]
    rfl
  dsimp only
  rw [ev, e9, f64_sub 0 9 (by norm_num) (by norm_num)]
  have hlt : Flt.lt (flit 1 1) (Flt.ofInt (0 - 9)) = false := by
    refine near_not_lt (near_flit (by norm_num)) (near_int (0 - 9) (by norm_num [abs_of_neg])) ?_
    norm_num
  rw [hlt]
  exact wp_pure.2 ⟨rfl, rfl, ((h1.frame.trans h2.frame).trans h3.frame).trans h4.frame⟩

theorem testMatrixDotProduct_run [Libm] (w : World F64) : wp testMatrixDotProduct w fun f w' => f = [] ∧ OnlyAllocs w w' := by
  unfold testMatrixDotProduct
  refine wp_bind_mono (matLit_spec 3 (by simp) (by omega) (by simp [ints])) ?_
  rintro ⟨a, e⟩ w1 ⟨-, h1⟩
  refine wp_bind_mono (matLit_spec 3 (by simp) (by omega) (by simp [ints])) ?_
  rintro ⟨b, e⟩ w2 ⟨-, h2⟩
  dsimp only at h1 h2 ⊢
  refine wp_bind_mono (dot_spec (n := 3) (h1.mat.allocs h2.frame) h2.mat) ?_
  rintro ⟨d, e⟩ w3 ⟨he, h3⟩
  obtain rfl : e = none := he
  dsimp only at h3 ⊢
  refine wp_bind_mono (equals_spec h3.mat ((h1.mat.allocs h2.frame).allocs h3.frame)) ?_
  rintro v w4 ⟨rfl, hv⟩
  have : v = true := by
    refine hv.2 ⟨rfl, rfl, ?_⟩
    intro i j hi hj
    simp only [List.length_cons, List.length_nil] at hi
    interval_cases i <;> interval_cases j <;>
      · simp (disch := norm_num) only [fsum, entry, ints, List.map_cons, List.map_nil, List.getElem?_cons_zero, List.getElem?_cons_succ, Option.getD_some, zero_add,
          f64_mul, f64_add]
        norm_num [int_eq]
  subst this
  exact wp_pure.2 ⟨rfl, (h1.frame.trans h2.frame).trans h3.frame⟩

theorem testMatrixTranspose_run [Libm] (w : World F64) : wp testMatrixTranspose w fun f w' => f = [] ∧ OnlyAllocs w w' := by
  unfold testMatrixTranspose
  refine wp_bind_mono (matLit_spec 3 (by simp) (by omega) (by simp [ints])) ?_
  rintro ⟨a, e⟩ w1 ⟨-, h1⟩
  dsimp only at h1 ⊢
  refine wp_bind_mono (t_spec h1.mat) ?_
  rintro t w2 h2
  rw [if_neg (by rw [h2.mat.rows, h2.mat.cols]; simp)]
  refine wp_bind_ok (get_spec (i := 2) (j := 1) h2.mat (by omega) (by simp)) ?_
  have e1 : Flt.eq (entry [ints (α := F64) [1, 2, 3], ints [4, 5, 6]] 1 2) (Flt.ofInt 6) = true := int_eq 6
  dsimp only
  rw [e1]
  exact wp_pure.2 ⟨rfl, h1.frame.trans h2.frame⟩

theorem testMatrixSum_run [Libm] (w : World F64) : wp testMatrixSum w fun f w' => f = [] ∧ OnlyAllocs w w' := by
  unfold testMatrixSum
  refine wp_bind_mono (matLit_spec 3 (by simp) (by omega) (by simp [ints])) ?_
  rintro ⟨a, e⟩ w1 ⟨-, h1⟩
  dsimp only at h1 ⊢
  refine wp_bind_mono (sum0_spec h1.mat) ?_
  rintro s0 w2 h2
  refine wp_bind_mono (sum1_spec (h1.mat.allocs h2.frame)) ?_
  rintro s1 w3 h3
  refine wp_bind_mono (matLit_spec 3 (by simp) (by omega) (by simp [ints])) ?_
  rintro ⟨c0, e⟩ w4 ⟨-, h4⟩
  dsimp only at h4 ⊢
  refine wp_bind_mono (equals_spec ((h2.mat.allocs h3.frame).allocs h4.frame) h4.mat) ?_
  rintro v0 w5 ⟨rfl, hv0⟩
  refine wp_bind_mono (matLit_spec 2 (by simp) (by omega) (by simp [ints])) ?_
  rintro ⟨c1, e⟩ w6 ⟨-, h6⟩
  dsimp only at h6 ⊢
  refine wp_bind_mono (equals_spec ((h3.mat.allocs h4.frame).allocs h6.frame) h6.mat) ?_
  rintro v1 w7 ⟨rfl, hv1⟩
  have t0 : v0 = true := by
    refine hv0.2 ⟨rfl, rfl, ?_⟩
    intro i j hi hj
    interval_cases i
    interval_cases j <;>
      · simp (disch := norm_num) only [fsum, entry, ints, List.length_cons, List.length_nil, List.map_cons, List.map_nil, List.getElem?_cons_zero,
          List.getElem?_cons_succ, Option.getD_some, zero_add, Nat.zero_add, f64_add]
        norm_num [int_eq]
  have t1 : v1 = true := by
    refine hv1.2 ⟨rfl, rfl, ?_⟩
    intro i j hi hj
    simp only [List.length_cons, List.length_nil] at hj
    interval_cases i
    interval_cases j <;>
      · simp (disch := norm_num) only [fsum, entry, ints, List.length_cons, List.length_nil, List.map_cons, List.map_nil, List.getElem?_cons_zero,
          List.getElem?_cons_succ, Option.getD_some, zero_add, Nat.zero_add, f64_add]
        norm_num [int_eq]
  subst t0 t1
  exact wp_pure.2 ⟨rfl, (((h1.frame.trans h2.frame).trans h3.frame).trans h4.frame).trans h6.frame⟩

end NN
