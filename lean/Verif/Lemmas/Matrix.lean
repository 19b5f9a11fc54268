import Verif.Lemmas.Mat
import Verif.Spec.Arith
/- Execution lemmas for matrix.go. -/

set_option linter.unusedSectionVars false

namespace NN
variable {α : Type} [Flt α]
open Go

theorem accN_fsum (n : Nat) (f : Nat → α) : accN n (fun k s => s +. f k) Flt.zero = fsum n f := by
  induction n with
  | zero => rfl
  | succ n ih => simp [accN, fsum, ih]

theorem fsum_congr {n : Nat} {f g : Nat → α} (h : ∀ k < n, f k = g k) : fsum n f = fsum n g := by
  induction n with
  | zero => rfl
  | succ n ih => simp only [fsum]; rw [ih fun k hk => h k (by omega), h n (by omega)]

theorem newMatrix_bad {rows cols : Int} (h : rows < 1 ∨ cols < 1) (w : World α) :
    newMatrix rows cols w = .ok ((Mat.zero, some (.matrixDims rows cols)), w) := by
  unfold newMatrix; rw [if_pos h]; rfl

/-! ### Get, Set -/

theorem get_spec {w : World α} {m : Mat} {r c : Nat} {A : Nat → Nat → α} (h : IsMat w m r c A) {i j : Nat}
    (hi : i < r) (hj : j < c) : m.get (i : Int) (j : Int) w = .ok ((A i j, none), w) := by
  unfold Mat.get
  rw [if_neg (by rw [h.rows, h.cols]; omega)]
  rw [bind_ok (at_ok h hi hj)]
  rfl

theorem get_bad {m : Mat} {row col : Int} (h : row ≥ m.rows ∨ col ≥ m.cols) (w : World α) :
    m.get row col w = .ok ((Flt.zero, some (.matrixIndex row col)), w) := by
  unfold Mat.get; rw [if_pos h]; rfl

theorem set_spec {w : World α} {m : Mat} {r c : Nat} {A : Nat → Nat → α} (h : IsMat w m r c A)
    (hd : DistinctRows w m r) {i j : Nat} (hi : i < r) (hj : j < c) (v : α) :
    wp (m.set (i : Int) (j : Int) v) w (fun e w' => e = none ∧ SetMat w w' m r c (upd2 A i j v)) := by
  unfold Mat.set
  rw [if_neg (by rw [h.rows, h.cols]; omega)]
  refine wp_bind_mono (wp_setAt h hd hi hj v) ?_
  intro _ w' hw'
  exact ⟨rfl, hw'⟩

theorem set_bad {m : Mat} {row col : Int} (h : row ≥ m.rows ∨ col ≥ m.cols) (v : α) (w : World α) :
    m.set row col v w = .ok (some (.matrixIndex row col), w) := by
  unfold Mat.set; rw [if_pos h]; rfl

/-! ### Element-wise operations -/

theorem add_spec {w : World α} {m b : Mat} {r c : Nat} {A B : Nat → Nat → α} (hA : IsMat w m r c A)
    (hB : IsMat w b r c B) :
    wp (m.add b) w (fun p w' => p.2 = none ∧ NewMat w w' p.1 r c (fun i j => A i j +. B i j)) := by
  unfold Mat.add
  rw [if_neg (by rw [hA.rows, hA.cols, hB.rows, hB.cols]; simp)]
  rw [hA.rows, hA.cols, Int.toNat_natCast, Int.toNat_natCast]
  refine wp_bind_mono (newMatrix_spec hA.rpos hA.cpos) ?_
  rintro ⟨ans, e⟩ w0 ⟨_, hm⟩
  refine wp_bind_mono (wp_fill (V := fun i j => A i j +. B i j) hm.mat ?_) fun _ w' hw' => ⟨rfl, hm.set hw'⟩
  intro i j w1 hi hj hw1
  rw [wp_bind, wp_at (hm.old hw1 hA) hi hj, wp_bind, wp_at (hm.old hw1 hB) hi hj]
  exact hw1.put hm.distinct hi hj rfl

theorem sub_spec {w : World α} {m b : Mat} {r c : Nat} {A B : Nat → Nat → α} (hA : IsMat w m r c A)
    (hB : IsMat w b r c B) :
    wp (m.sub b) w (fun p w' => p.2 = none ∧ NewMat w w' p.1 r c (fun i j => A i j -. B i j)) := by
  unfold Mat.sub
  rw [if_neg (by rw [hA.rows, hA.cols, hB.rows, hB.cols]; simp)]
  rw [hA.rows, hA.cols, Int.toNat_natCast, Int.toNat_natCast]
  refine wp_bind_mono (newMatrix_spec hA.rpos hA.cpos) ?_
  rintro ⟨ans, e⟩ w0 ⟨_, hm⟩
  refine wp_bind_mono (wp_fill (V := fun i j => A i j -. B i j) hm.mat ?_) fun _ w' hw' => ⟨rfl, hm.set hw'⟩
  intro i j w1 hi hj hw1
  rw [wp_bind, wp_at (hm.old hw1 hA) hi hj, wp_bind, wp_at (hm.old hw1 hB) hi hj]
  exact hw1.put hm.distinct hi hj rfl

theorem add_bad {m b : Mat} (h : m.rows ≠ b.rows ∨ m.cols ≠ b.cols) (w : World α) :
    m.add b w = .ok ((Mat.zero, some (.matrixDims b.rows b.cols)), w) := by
  unfold Mat.add; rw [if_pos h]; rfl

theorem sub_bad {m b : Mat} (h : m.rows ≠ b.rows ∨ m.cols ≠ b.cols) (w : World α) :
    m.sub b w = .ok ((Mat.zero, some (.matrixDims b.rows b.cols)), w) := by
  unfold Mat.sub; rw [if_pos h]; rfl

/-- The four operations that map a function over one matrix. -/
theorem map_spec {w : World α} {m : Mat} {r c : Nat} {A : Nat → Nat → α} (f : α → α) (op : Go α Mat)
    (hop : op = do
      let (ans, _) ← newMatrix m.rows m.cols
      forN m.rows.toNat fun i => forN m.cols.toNat fun j => do
        let x ← m.at i j
        ans.setAt i j (f x)
      return ans) (hA : IsMat w m r c A) :
    wp op w (fun p w' => NewMat w w' p r c (fun i j => f (A i j))) := by
  subst hop
  rw [hA.rows, hA.cols, Int.toNat_natCast, Int.toNat_natCast]
  refine wp_bind_mono (newMatrix_spec hA.rpos hA.cpos) ?_
  rintro ⟨ans, e⟩ w0 ⟨_, hm⟩
  refine wp_bind_mono (wp_fill (V := fun i j => f (A i j)) hm.mat ?_) fun _ w' hw' => hm.set hw'
  intro i j w1 hi hj hw1
  rw [wp_bind, wp_at (hm.old hw1 hA) hi hj]
  exact hw1.put hm.distinct hi hj rfl

theorem neg_spec {w : World α} {m : Mat} {r c : Nat} {A : Nat → Nat → α} (hA : IsMat w m r c A) :
    wp m.neg w (fun p w' => NewMat w w' p r c (fun i j => Flt.neg (A i j))) := map_spec _ _ rfl hA

theorem addScalar_spec {w : World α} {m : Mat} {r c : Nat} {A : Nat → Nat → α} (hA : IsMat w m r c A) (x : α) :
    wp (m.addScalar x) w (fun p w' => NewMat w w' p r c (fun i j => A i j +. x)) :=
  map_spec (fun y => y +. x) _ rfl hA

theorem mulScalar_spec {w : World α} {m : Mat} {r c : Nat} {A : Nat → Nat → α} (hA : IsMat w m r c A) (x : α) :
    wp (m.mulScalar x) w (fun p w' => NewMat w w' p r c (fun i j => A i j *. x)) :=
  map_spec (fun y => y *. x) _ rfl hA

theorem powScalar_spec {w : World α} {m : Mat} {r c : Nat} {A : Nat → Nat → α} (hA : IsMat w m r c A) (x : α) :
    wp (m.powScalar x) w (fun p w' => NewMat w w' p r c (fun i j => Flt.pow (A i j) x)) :=
  map_spec (fun y => Flt.pow y x) _ rfl hA

/-! ### Dot, T, Sum -/

theorem dot_spec {w : World α} {m b : Mat} {r n c : Nat} {A B : Nat → Nat → α} (hA : IsMat w m r n A)
    (hB : IsMat w b n c B) :
    wp (m.dot b) w (fun p w' => p.2 = none ∧ NewMat w w' p.1 r c (fun i j => fsum n fun k => A i k *. B k j)) := by
  unfold Mat.dot
  rw [if_neg (by rw [hA.cols, hB.rows]; simp)]
  rw [hA.rows, hA.cols, hB.cols, Int.toNat_natCast, Int.toNat_natCast, Int.toNat_natCast]
  refine wp_bind_mono (newMatrix_spec hA.rpos hB.cpos) ?_
  rintro ⟨ans, e⟩ w0 ⟨_, hm⟩
  refine wp_bind_mono (wp_fill (V := fun i j => fsum n fun k => A i k *. B k j) hm.mat ?_)
    fun _ w' hw' => ⟨rfl, hm.set hw'⟩
  intro i j w1 hi hj hw1
  refine wp_bind_mono (wp_foldN_read (fun k s => s +. A i k *. B k j) ?_) ?_
  · intro k s hk
    rw [wp_bind, wp_at (hm.old hw1 hA) hi hk, wp_bind, wp_at (hm.old hw1 hB) hk hj]
    exact ⟨rfl, rfl⟩
  · rintro s w2 ⟨rfl, rfl⟩
    exact hw1.put hm.distinct hi hj (accN_fsum _ _)

theorem dot_bad {m b : Mat} (h : m.cols ≠ b.rows) (w : World α) :
    m.dot b w = .ok ((Mat.zero, some (.matrixDims b.rows b.cols)), w) := by
  unfold Mat.dot; rw [if_pos h]; rfl

theorem t_spec {w : World α} {m : Mat} {r c : Nat} {A : Nat → Nat → α} (hA : IsMat w m r c A) :
    wp m.t w (fun p w' => NewMat w w' p c r (fun i j => A j i)) := by
  unfold Mat.t
  rw [hA.rows, hA.cols, Int.toNat_natCast]
  refine wp_bind_mono (newMatrix_spec hA.cpos hA.rpos) ?_
  rintro ⟨ans, e⟩ w0 ⟨_, hm⟩
  refine wp_bind_mono (wp_forN (fun i w1 => SetMat w0 w1 ans c r (fun i' j' => if j' < i then A j' i' else Flt.zero))
    ?_ ?_) ?_
  · exact (SetMat.refl hm.mat).congr (by simp)
  · intro i w1 hi hw1
    obtain ⟨a, h1, h2, h3⟩ := (hm.old hw1 hA).row i hi
    have hg : m.getRow (i : Int) w1 = .ok ((some a, none), w1) := by
      unfold Mat.getRow
      rw [if_neg (by rw [hA.rows]; omega), bind_ok (rowRef_ok (hm.old hw1 hA) hi h1)]
      rfl
    refine wp_bind_mono (R := fun p w2 => p = (some a, none) ∧ w2 = w1) ?_ ?_
    · rw [wp_iff]; exact ⟨_, _, hg, rfl, rfl⟩
    rintro _ w1 ⟨rfl, rfl⟩
    simp only [Mat.setColumnOpt, Mat.setColumn]
    rw [if_neg (by rw [hm.mat.cols]; omega)]
    simp only [wp_bind]
    simp only [wp, rowLen, h3, List.length_map, List.length_range]
    rw [if_neg (by rw [hm.mat.rows]; simp), hm.mat.rows, Int.toNat_natCast]
    refine wp_bind_mono (wp_forN (fun k w2 => SetMat w0 w2 ans c r
      (fun i' j' => if j' < i ∨ (j' = i ∧ i' < k) then A j' i' else Flt.zero)) ?_ ?_) ?_
    · exact hw1.congr (by simp)
    · intro k w2 hk hw2
      have ha : w2.flt a = (List.range c).map (A i) := by
        obtain ⟨a', h1', h2', h3'⟩ := (hm.old hw2 hA).row i hi
        have : w2.rowAddr m i = some a := by
          rw [rowAddr_eq (w := w1) (by rw [hw2.outs, hw1.outs])]; exact h1
        rw [this] at h1'; cases h1'; exact h3'
      rw [wp_bind]
      have : wp (rowGet a (k : Int)) w2 (fun v w3 => v = A i k ∧ w3 = w2) := by
        simp [wp, rowGet, ha, hk]
      refine wp_mono this ?_
      rintro _ _ ⟨rfl, rfl⟩
      refine wp_mono (wp_setAt hw2.mat ((hw2.distinct _ _).2 hm.distinct) hk hi _) ?_
      intro _ w3 hw3
      refine (hw2.trans hw3).congr ?_
      intro i' j' hi' hj'
      simp only [upd2]
      by_cases e : i' = k ∧ j' = i
      · obtain ⟨rfl, rfl⟩ := e
        simp
      · have : (j' < i ∨ (j' = i ∧ i' < k + 1)) ↔ (j' < i ∨ (j' = i ∧ i' < k)) := by omega
        simp [e, this]
    · intro _ w2 hw2
      rw [wp_pure]
      show SetMat w0 w2 ans c r _
      refine hw2.congr ?_
      intro i' j' hi' hj'
      have : (j' < i ∨ (j' = i ∧ i' < c)) ↔ j' < i + 1 := by omega
      simp [this]
  · intro _ w1 hw1
    refine (hm.set hw1).congr ?_
    intro i' j' hi' hj'
    simp [hj']

/-- `for i < c { ans.M[0][i] = V i }` on a 1-row matrix. -/
theorem wp_fillRow0 {w : World α} {m : Mat} {c : Nat} {A : Nat → Nat → α} {V : Nat → α} {body : Nat → Go α Unit}
    (h : IsMat w m 1 c A)
    (hb : ∀ j w1, j < c → SetMat w w1 m 1 c (mix A (fun _ => V) 0 j) →
      wp (body j) w1 (fun _ w2 => SetMat w w2 m 1 c (mix A (fun _ => V) 0 (j + 1)))) :
    wp (forN c body) w (fun _ w' => SetMat w w' m 1 c (fun _ => V)) := by
  refine wp_mono (wp_fillRow (i := 0) ((SetMat.refl h).congr (by simp [mix])) hb) ?_
  intro _ w' h'
  refine h'.congr ?_
  intro i j hi hj
  have : i = 0 := by omega
  simp [mix, this]

theorem sum0_spec {w : World α} {m : Mat} {r c : Nat} {A : Nat → Nat → α} (hA : IsMat w m r c A) :
    wp (m.sum 0) w (fun p w' => NewMat w w' p 1 c (fun _ j => fsum r fun i => A i j)) := by
  unfold Mat.sum
  rw [if_neg (by simp), if_pos rfl]
  rw [hA.rows, hA.cols, Int.toNat_natCast, Int.toNat_natCast]
  refine wp_bind_mono (newMatrix_spec (r := 1) Nat.one_pos hA.cpos) ?_
  rintro ⟨ans, e⟩ w0 ⟨_, hm⟩
  refine wp_bind_mono (wp_fillRow0 (V := fun j => fsum r fun i => A i j) hm.mat ?_) fun _ w' hw' => hm.set hw'
  intro j w1 hj hw1
  refine wp_bind_mono (wp_foldN_read (fun k s => s +. A k j) ?_) ?_
  · intro k s hk
    rw [wp_bind, wp_at (hm.old hw1 hA) hk hj]
    exact ⟨rfl, rfl⟩
  · rintro s w2 ⟨rfl, rfl⟩
    exact hw1.put hm.distinct (i := 0) Nat.one_pos hj (accN_fsum _ _)

theorem sum1_spec {w : World α} {m : Mat} {r c : Nat} {A : Nat → Nat → α} (hA : IsMat w m r c A) :
    wp (m.sum 1) w (fun p w' => NewMat w w' p 1 r (fun _ j => fsum c fun i => A j i)) := by
  unfold Mat.sum
  rw [if_neg (by simp), if_neg (by simp)]
  rw [hA.rows, hA.cols, Int.toNat_natCast, Int.toNat_natCast]
  refine wp_bind_mono (newMatrix_spec (r := 1) Nat.one_pos hA.rpos) ?_
  rintro ⟨ans, e⟩ w0 ⟨_, hm⟩
  refine wp_bind_mono (wp_fillRow0 (V := fun j => fsum c fun i => A j i) hm.mat ?_) fun _ w' hw' => hm.set hw'
  intro j w1 hj hw1
  refine wp_bind_mono (wp_foldN_read (fun k s => s +. A j k) ?_) ?_
  · intro k s hk
    rw [wp_bind, wp_at (hm.old hw1 hA) hj hk]
    exact ⟨rfl, rfl⟩
  · rintro s w2 ⟨rfl, rfl⟩
    exact hw1.put hm.distinct (i := 0) Nat.one_pos hj (accN_fsum _ _)

/-! ### Clip -/

theorem clip_spec {w : World α} {m : Mat} {r c : Nat} {A : Nat → Nat → α} (hA : IsMat w m r c A)
    (hd : DistinctRows w m r) :
    wp (clip m) w (fun p w' => p = m ∧ SetMat w w' m r c (fun i j =>
      if Flt.lt (A i j) Flt.zero then Flt.eps7 else if Flt.lt Flt.one (A i j) then Flt.oneSubEps7 else A i j)) := by
  unfold clip
  rw [hA.rows, hA.cols, Int.toNat_natCast, Int.toNat_natCast]
  refine wp_bind_mono (wp_fill (V := fun i j => if Flt.lt (A i j) Flt.zero then Flt.eps7
    else if Flt.lt Flt.one (A i j) then Flt.oneSubEps7 else A i j) hA ?_) fun _ w' hw' => ⟨rfl, hw'⟩
  intro i j w1 hi hj hw1
  rw [wp_bind, wp_at hw1.mat hi hj, mix_self]
  split
  · exact hw1.put hd hi hj (by simp [*])
  · rw [wp_bind, wp_at hw1.mat hi hj, mix_self]
    split
    · exact hw1.put hd hi hj (by simp [*])
    · exact hw1.keep (by simp [*])

/-! ### NewMatrixFromSlice -/

theorem newMatrixFromSlice_spec {w : World α} {m : Mat} {r c : Nat} {A : Nat → Nat → α} (h : IsMat w m r c A) :
    newMatrixFromSlice m.m w = .ok ((m, none), w) := by
  obtain ⟨a, h1, h2, h3⟩ := h.row 0 h.rpos
  have hr := h.rpos
  have hc := h.cpos
  unfold newMatrixFromSlice
  simp only [h.len]
  rw [if_neg (by omega)]
  have h0 : rowRef m.m 0 w = .ok (a, w) := rowRef_ok h h.rpos h1
  rw [bind_ok h0]
  have : rowLen a w = .ok ((c : Int), w) := by simp [rowLen, h3]
  rw [bind_ok this, if_neg (by omega)]
  have : (⟨(r : Int), (c : Int), m.m⟩ : Mat) = m := by rw [← h.rows, ← h.cols]
  rw [this]; rfl

/-! ### Equals -/

theorem equals_spec {w : World α} {m b : Mat} {r c r' c' : Nat} {A B : Nat → Nat → α} (hA : IsMat w m r c A)
    (hB : IsMat w b r' c' B) :
    wp (m.equals b) w (fun v w' => w' = w ∧
      (v = true ↔ (r = r' ∧ c = c' ∧ ∀ i j, i < r → j < c → Flt.eq (A i j) (B i j) = true))) := by
  unfold Mat.equals
  by_cases hs : m.rows ≠ b.rows ∨ m.cols ≠ b.cols
  · rw [if_pos hs]
    rw [hA.rows, hA.cols, hB.rows, hB.cols] at hs
    refine ⟨rfl, ?_⟩
    simp only [Bool.false_eq_true, false_iff]
    rintro ⟨h1, h2, _⟩
    subst h1 h2
    simp at hs
  · rw [if_neg hs]
    rw [hA.rows, hA.cols, hB.rows, hB.cols] at hs
    have h1 : r = r' := by omega
    have h2 : c = c' := by omega
    subst h1 h2
    rw [hA.rows, hA.cols, Int.toNat_natCast, Int.toNat_natCast]
    refine wp_bind_mono (wp_forRet
      (fun k w1 => w1 = w ∧ ∀ i j, i < k → j < c → Flt.eq (A i j) (B i j) = true)
      (fun v w1 => v = false ∧ w1 = w ∧ ∃ i j, i < r ∧ j < c ∧ ¬ Flt.eq (A i j) (B i j) = true)
      ⟨rfl, by intro i j hi; omega⟩ ?_) ?_
    · rintro i w1 hi ⟨rfl, hprev⟩
      refine wp_mono (wp_forRet
        (fun k w2 => w2 = w1 ∧ ∀ j, j < k → Flt.eq (A i j) (B i j) = true)
        (fun v w2 => v = false ∧ w2 = w1 ∧ ∃ i j, i < r ∧ j < c ∧ ¬ Flt.eq (A i j) (B i j) = true)
        ⟨rfl, by intro j hj; omega⟩ ?_) ?_
      · rintro j w2 hj ⟨rfl, hrow⟩
        rw [wp_bind, wp_at hA hi hj, wp_bind, wp_at hB hi hj]
        by_cases he : Flt.eq (A i j) (B i j) = true
        · simp only [he, Bool.not_true, Bool.false_eq_true, if_false, wp_pure]
          refine ⟨trivial, ?_⟩
          intro j' hj'
          by_cases e : j' = j
          · rw [e]; exact he
          · exact hrow j' (by omega)
        · simp only [Bool.not_eq_true] at he
          simp only [he, Bool.not_false, if_true, wp_pure]
          exact ⟨trivial, trivial, i, j, hi, hj, by simp [he]⟩
      · intro v w2 h
        cases v with
        | none =>
          obtain ⟨rfl, h⟩ := h
          refine ⟨rfl, ?_⟩
          intro i' j' hi' hj'
          by_cases e : i' = i
          · rw [e]; exact h j' hj'
          · exact hprev i' j' (by omega) hj'
        | some v => exact h
    · intro v w1 h
      cases v with
      | none =>
        obtain ⟨rfl, h⟩ := h
        exact ⟨rfl, by simpa using h⟩
      | some v =>
        obtain ⟨rfl, rfl, i, j, hi, hj, he⟩ := h
        refine ⟨rfl, ?_⟩
        simp only [Bool.false_eq_true, false_iff]
        rintro ⟨_, _, h⟩
        exact he (h i j hi hj)

/-! ### Rows and columns -/

theorem getRow_spec {w : World α} {m : Mat} {r c : Nat} {A : Nat → Nat → α} (hA : IsMat w m r c A) {i a : Nat}
    (hi : i < r) (ha : w.rowAddr m i = some a) : m.getRow (i : Int) w = .ok ((some a, none), w) := by
  unfold Mat.getRow
  rw [if_neg (by rw [hA.rows]; omega), bind_ok (rowRef_ok hA hi ha)]
  rfl

/-- Replace row `i`. -/
def updRow (A : Nat → Nat → α) (i : Nat) (B : Nat → α) : Nat → Nat → α := fun i' => if i' = i then B else A i'

theorem setRow_spec {w : World α} {m : Mat} {r c : Nat} {A : Nat → Nat → α} {B : Nat → α} (hA : IsMat w m r c A)
    {i s : Nat} (hi : i < r) (hs : s < w.next) (hB : w.flt s = (List.range c).map B) :
    wp (m.setRow (i : Int) s) w (fun e w' => e = none ∧
      w' = { w with outs := upd w.outs m.m.addr ((w.outs m.m.addr).set (m.m.off + i) s) } ∧
      w'.rowAddr m i = some s ∧ (∀ i', i' ≠ i → w'.rowAddr m i' = w.rowAddr m i') ∧
      IsMat w' m r c (updRow A i B)) := by
  unfold Mat.setRow
  rw [if_neg (by rw [hA.rows]; omega)]
  have e : rowLen s w = .ok ((c : Int), w) := by simp [rowLen, hB]
  rw [wp_iff]
  refine ⟨none, _, ?_, rfl, rfl, ?_⟩
  · rw [bind_ok e, if_neg (by rw [hA.cols]; simp)]
    have : setRowRef m.m (i : Int) s w = .ok ((), { w with outs := upd w.outs m.m.addr ((w.outs m.m.addr).set (m.m.off + i) s) }) := by
      unfold setRowRef
      have := hA.len
      rw [if_pos (by omega), Int.toNat_natCast]
    rw [bind_ok this]
    rfl
  obtain ⟨a, h1, h2, h3⟩ := hA.row i hi
  have hlt : m.m.off + i < (w.outs m.m.addr).length := by
    unfold World.rowAddr at h1
    exact (List.getElem?_eq_some_iff.1 h1).1
  have hsame : ∀ i', i' ≠ i →
      World.rowAddr { w with outs := upd w.outs m.m.addr ((w.outs m.m.addr).set (m.m.off + i) s) } m i' =
        w.rowAddr m i' := by
    intro i' hne
    simp only [World.rowAddr, upd_same]
    rw [List.getElem?_set_ne (by omega)]
  have hi' : World.rowAddr { w with outs := upd w.outs m.m.addr ((w.outs m.m.addr).set (m.m.off + i) s) } m i =
      some s := by
    simp only [World.rowAddr, upd_same]
    rw [List.getElem?_set_self hlt]
  refine ⟨hi', hsame, { hA with row := ?_ }⟩
  intro i' hi2
  by_cases e : i' = i
  · subst e
    exact ⟨s, hi', hs, by simp [updRow, hB]⟩
  · obtain ⟨a', h1', h2', h3'⟩ := hA.row i' hi2
    exact ⟨a', by rw [hsame i' e]; exact h1', h2', by simp [updRow, e, h3']⟩

theorem getColumn_spec {w : World α} {m : Mat} {r c : Nat} {A : Nat → Nat → α} (hA : IsMat w m r c A) {j : Nat}
    (hj : j < c) :
    wp (m.getColumn (j : Int)) w (fun p w' => p = (some w.next, none) ∧ OnlyAllocs w w' ∧
      w'.next = w.next + 1 ∧ w'.flt w.next = (List.range r).map (fun i => A i j)) := by
  unfold Mat.getColumn
  rw [if_neg (by rw [hA.cols]; omega), if_neg (by rw [hA.rows]; omega), hA.rows, Int.toNat_natCast]
  have e : allocRow r w = .ok (w.next, { w with next := w.next + 1, flt := upd w.flt w.next (List.replicate r (Flt.zero : α)) }) := rfl
  show wp (allocRow r >>= _) w _
  rw [wp_bind]
  simp only [wp, e]
  refine wp_bind_mono (wp_forN (fun k w1 => OnlyAllocs w w1 ∧ w1.next = w.next + 1 ∧
    w1.flt w.next = (List.range r).map (fun i => if i < k then A i j else Flt.zero)) ?_ ?_) ?_
  · refine ⟨?_, rfl, ?_⟩
    · refine { Frame.refl _ _ with next_le := by simp, flt := ?_ }
      intro a ha _
      exact upd_ne (by omega)
    · simp only [upd_same]
      exact (List.eq_replicate_iff.2 ⟨by simp, by simp⟩).symm
  · rintro k w1 hk ⟨h1, h2, h3⟩
    rw [wp_bind, wp_at (hA.allocs h1) hk hj]
    have hs : rowSet w.next (k : Int) (A k j) w1 = .ok ((), { w1 with flt := upd w1.flt w.next ((w1.flt w.next).set k (A k j)) }) := by
      unfold rowSet
      rw [if_pos (by rw [h3]; simp; omega), Int.toNat_natCast]
    rw [wp_iff]
    refine ⟨_, _, hs, ?_, h2, ?_⟩
    · refine h1.then_flt (g := fun a => a = w.next) ?_ (by rintro a rfl; exact Nat.le_refl _)
      refine { Frame.refl _ _ with flt := ?_ }
      intro a _ ha
      exact upd_ne ha
    · simp only [upd_same, h3]
      apply List.ext_getElem
      · simp
      · intro n hn hn'
        rw [List.getElem_set]
        simp only [List.getElem_map, List.getElem_range]
        by_cases e : k = n
        · simp [e]
        · have : n < k + 1 ↔ n < k := by omega
          simp [e, this]
  · rintro _ w1 ⟨h1, h2, h3⟩
    refine ⟨rfl, h1, h2, h3.trans ?_⟩
    apply List.map_congr_left
    intro i hi
    simp [List.mem_range.1 hi]

/-- Replace column `j`. -/
def updCol (A : Nat → Nat → α) (j : Nat) (B : Nat → α) : Nat → Nat → α := fun i' j' => if j' = j then B i' else A i' j'

theorem setColumn_spec {w : World α} {m : Mat} {r c : Nat} {A : Nat → Nat → α} {B : Nat → α} (hA : IsMat w m r c A)
    (hd : DistinctRows w m r) {j s : Nat} (hj : j < c) (hs : s < w.next) (hns : ¬ w.IsRow m r s)
    (hB : w.flt s = (List.range r).map B) :
    wp (m.setColumn (j : Int) s) w (fun e w' => e = none ∧ SetMat w w' m r c (updCol A j B)) := by
  unfold Mat.setColumn
  rw [if_neg (by rw [hA.cols]; omega)]
  have e : rowLen s w = .ok ((r : Int), w) := by simp [rowLen, hB]
  rw [wp_bind]
  simp only [wp, e]
  rw [if_neg (by rw [hA.rows]; simp), hA.rows, Int.toNat_natCast]
  refine wp_bind_mono (wp_forN (fun k w1 => SetMat w w1 m r c
    (fun i' j' => if j' = j ∧ i' < k then B i' else A i' j')) ?_ ?_) ?_
  · exact (SetMat.refl hA).congr (by simp)
  · intro k w1 hk h1
    have hg : wp (rowGet s (k : Int)) w1 (fun v w2 => v = B k ∧ w2 = w1) := by
      have : w1.flt s = (List.range r).map B := by rw [h1.frame.flt s hs hns]; exact hB
      simp [wp, rowGet, this, hk]
    refine wp_bind_mono hg ?_
    rintro _ w1 ⟨rfl, rfl⟩
    refine wp_mono (wp_setAt h1.mat ((h1.distinct _ _).2 hd) hk hj _) ?_
    intro _ w2 h2
    refine (h1.trans h2).congr ?_
    intro i' j' hi' hj'
    simp only [upd2]
    by_cases e : i' = k ∧ j' = j
    · obtain ⟨rfl, rfl⟩ := e; simp
    · have : (j' = j ∧ i' < k + 1) ↔ (j' = j ∧ i' < k) := by omega
      simp [e, this]
  · intro _ w1 h1
    refine ⟨rfl, h1.congr ?_⟩
    intro i' j' hi' hj'
    simp [updCol, hi']

end NN
