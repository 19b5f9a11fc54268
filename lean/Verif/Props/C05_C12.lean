import Verif.Lemmas.Matrix
import Verif.Spec.Place
import Verif.Real.Sum
import Mathlib.Data.Matrix.Mul
/- C05-C12: matrix arithmetic, transposition, sums, comparison, accessors, clipping. -/

set_option linter.unusedSectionVars false

namespace NN
variable {α : Type} [Flt α]
open Go

/-! ## C05 Element-wise arithmetic -/

/-- Add: entry-wise float sum in new storage, operands (which may coincide or share rows) untouched. -/
theorem C05_add (w : World α) (m b : Mat) (r c : Nat) (A B : Nat → Nat → α) (hA : IsMat w m r c A)
    (hB : IsMat w b r c B) :
    wp (m.add b) w (fun p w' => p.2 = none ∧ NewMat w w' p.1 r c (fun i j => Flt.add (A i j) (B i j)) ∧
      IsMat w' m r c A ∧ IsMat w' b r c B) := by
  refine wp_mono (add_spec hA hB) ?_
  rintro ⟨p, e⟩ w' ⟨rfl, h⟩
  exact ⟨rfl, h, hA.allocs h.frame, hB.allocs h.frame⟩

theorem C05_sub (w : World α) (m b : Mat) (r c : Nat) (A B : Nat → Nat → α) (hA : IsMat w m r c A)
    (hB : IsMat w b r c B) :
    wp (m.sub b) w (fun p w' => p.2 = none ∧ NewMat w w' p.1 r c (fun i j => Flt.sub (A i j) (B i j)) ∧
      IsMat w' m r c A ∧ IsMat w' b r c B) := by
  refine wp_mono (sub_spec hA hB) ?_
  rintro ⟨p, e⟩ w' ⟨rfl, h⟩
  exact ⟨rfl, h, hA.allocs h.frame, hB.allocs h.frame⟩

theorem C05_neg (w : World α) (m : Mat) (r c : Nat) (A : Nat → Nat → α) (hA : IsMat w m r c A) :
    wp m.neg w (fun p w' => NewMat w w' p r c (fun i j => Flt.neg (A i j)) ∧ IsMat w' m r c A) :=
  wp_mono (neg_spec hA) fun _ _ h => ⟨h, hA.allocs h.frame⟩

theorem C05_addScalar (w : World α) (m : Mat) (r c : Nat) (A : Nat → Nat → α) (hA : IsMat w m r c A) (x : α) :
    wp (m.addScalar x) w (fun p w' => NewMat w w' p r c (fun i j => Flt.add (A i j) x) ∧ IsMat w' m r c A) :=
  wp_mono (addScalar_spec hA x) fun _ _ h => ⟨h, hA.allocs h.frame⟩

theorem C05_mulScalar (w : World α) (m : Mat) (r c : Nat) (A : Nat → Nat → α) (hA : IsMat w m r c A) (x : α) :
    wp (m.mulScalar x) w (fun p w' => NewMat w w' p r c (fun i j => Flt.mul (A i j) x) ∧ IsMat w' m r c A) :=
  wp_mono (mulScalar_spec hA x) fun _ _ h => ⟨h, hA.allocs h.frame⟩

theorem C05_powScalar (w : World α) (m : Mat) (r c : Nat) (A : Nat → Nat → α) (hA : IsMat w m r c A) (x : α) :
    wp (m.powScalar x) w (fun p w' => NewMat w w' p r c (fun i j => Flt.pow (A i j) x) ∧ IsMat w' m r c A) :=
  wp_mono (powScalar_spec hA x) fun _ _ h => ⟨h, hA.allocs h.frame⟩

example (A B : Nat → Nat → α) : ∃ w : World α, ∃ m b, IsMat w m 2 3 A ∧ IsMat w b 2 3 B := by
  obtain ⟨w, m, b, h1, _, h2, _⟩ := exists_mat2 (α := α) (r := 2) (c := 3) (r' := 2) (c' := 3)
    (by decide) (by decide) (by decide) (by decide) A B
  exact ⟨w, m, b, h1, h2⟩
/-- the operands may be the same matrix -/
example (A : Nat → Nat → α) : ∃ w : World α, ∃ m, IsMat w m 2 3 A ∧ IsMat w m 2 3 A := by
  obtain ⟨w, m, h, _⟩ := exists_mat (α := α) (r := 2) (c := 3) (by decide) (by decide) A
  exact ⟨w, m, h, h⟩

/-! ## C06 Shape rejection -/

/-- Add and Sub: an error exactly when the shapes differ; on error the zero Matrix and no state change. -/
theorem C06_add_sub (w : World α) (m b : Mat) (r c r' c' : Nat) (A B : Nat → Nat → α) (hA : IsMat w m r c A)
    (hB : IsMat w b r' c' B) :
    (wp (m.add b) w (fun p w' => (p.2 ≠ none ↔ ¬ (r = r' ∧ c = c')) ∧ (p.2 ≠ none → p.1 = Mat.zero ∧ w' = w))) ∧
    (wp (m.sub b) w (fun p w' => (p.2 ≠ none ↔ ¬ (r = r' ∧ c = c')) ∧ (p.2 ≠ none → p.1 = Mat.zero ∧ w' = w))) := by
  by_cases h : r = r' ∧ c = c'
  · obtain ⟨rfl, rfl⟩ := h
    constructor
    · refine wp_mono (add_spec hA hB) ?_
      rintro ⟨p, e⟩ w' ⟨rfl, h⟩
      simp
    · refine wp_mono (sub_spec hA hB) ?_
      rintro ⟨p, e⟩ w' ⟨rfl, h⟩
      simp
  · have hb : m.rows ≠ b.rows ∨ m.cols ≠ b.cols := by rw [hA.rows, hA.cols, hB.rows, hB.cols]; omega
    constructor
    · rw [wp_iff]; exact ⟨_, _, add_bad hb w, by simp [h]⟩
    · rw [wp_iff]; exact ⟨_, _, sub_bad hb w, by simp [h]⟩

/-- Dot: an error exactly when the inner dimensions differ. -/
theorem C06_dot (w : World α) (m b : Mat) (r n n' c : Nat) (A B : Nat → Nat → α) (hA : IsMat w m r n A)
    (hB : IsMat w b n' c B) :
    wp (m.dot b) w (fun p w' => (p.2 ≠ none ↔ n ≠ n') ∧ (p.2 ≠ none → p.1 = Mat.zero ∧ w' = w)) := by
  by_cases h : n = n'
  · subst h
    refine wp_mono (dot_spec hA hB) ?_
    rintro ⟨p, e⟩ w' ⟨rfl, h⟩
    simp
  · have hb : m.cols ≠ b.rows := by rw [hA.cols, hB.rows]; omega
    rw [wp_iff]; exact ⟨_, _, dot_bad hb w, by simp [h]⟩

example (A B : Nat → Nat → α) : ∃ w : World α, ∃ m b, IsMat w m 2 3 A ∧ IsMat w b 3 2 B := by
  obtain ⟨w, m, b, h1, _, h2, _⟩ := exists_mat2 (α := α) (r := 2) (c := 3) (r' := 3) (c' := 2)
    (by decide) (by decide) (by decide) (by decide) A B
  exact ⟨w, m, b, h1, h2⟩

/-! ## C07 Dot -/

/-- For every float64 semantics: the entries of the product are the in-order sums of products; fresh storage. -/
theorem C07_dot (w : World α) (m b : Mat) (r n c : Nat) (A B : Nat → Nat → α) (hA : IsMat w m r n A)
    (hB : IsMat w b n c B) :
    wp (m.dot b) w (fun p w' => p.2 = none ∧
      NewMat w w' p.1 r c (fun i j => fsum n fun k => Flt.mul (A i k) (B k j))) := dot_spec hA hB

/-- The Mathlib matrix with the given entries. -/
def toMatrix (r c : Nat) (A : Nat → Nat → ℝ) : Matrix (Fin r) (Fin c) ℝ := Matrix.of fun i j => A i j

theorem toMatrix_dot (r n c : Nat) (A B : Nat → Nat → ℝ) :
    toMatrix r c (fun i j => fsum n fun k => A i k *. B k j) = toMatrix r n A * toMatrix n c B := by
  ext i j
  simp only [toMatrix, Matrix.of_apply, Matrix.mul_apply, fsum_real, real_mul]
  rw [Finset.sum_range (fun k => A i k * B k j)]

/-- Over ℝ, Dot is Mathlib's matrix product. -/
theorem C07_dot_is_product (w : World ℝ) (m b : Mat) (r n c : Nat) (A B : Nat → Nat → ℝ) (hA : IsMat w m r n A)
    (hB : IsMat w b n c B) :
    wp (m.dot b) w (fun p w' => p.2 = none ∧
      ∃ V, IsMat w' p.1 r c V ∧ toMatrix r c V = toMatrix r n A * toMatrix n c B) := by
  refine wp_mono (dot_spec hA hB) ?_
  rintro ⟨p, e⟩ w' ⟨rfl, h⟩
  exact ⟨rfl, _, h.mat, toMatrix_dot r n c A B⟩

theorem toMatrix_inj {r c : Nat} {A B : Nat → Nat → ℝ} (h : toMatrix r c A = toMatrix r c B) {i j : Nat} (hi : i < r)
    (hj : j < c) : A i j = B i j := by
  have := congrFun (congrFun h ⟨i, hi⟩) ⟨j, hj⟩
  simpa [toMatrix] using this

/-- Over ℝ: `a.Dot(b).Dot(d)` and `a.Dot(b.Dot(d))` have the same entries. -/
theorem C07_dot_assoc (w : World ℝ) (a b d : Mat) (r n k c : Nat) (A B D : Nat → Nat → ℝ) (hA : IsMat w a r n A)
    (hB : IsMat w b n k B) (hD : IsMat w d k c D) :
    wp (do
      let (ab, _) ← a.dot b
      let (abd, _) ← ab.dot d
      let (bd, _) ← b.dot d
      let (abd', _) ← a.dot bd
      return (abd, abd')) w (fun p w' => ∃ V, IsMat w' p.1 r c V ∧ IsMat w' p.2 r c V) := by
  refine wp_bind_mono (dot_spec hA hB) ?_
  rintro ⟨ab, e⟩ w1 ⟨-, h1⟩
  refine wp_bind_mono (dot_spec h1.mat (hD.allocs h1.frame)) ?_
  rintro ⟨abd, e⟩ w2 ⟨-, h2⟩
  have f2 := h1.frame.trans h2.frame
  refine wp_bind_mono (dot_spec (hB.allocs f2) (hD.allocs f2)) ?_
  rintro ⟨bd, e⟩ w3 ⟨-, h3⟩
  have f3 := f2.trans h3.frame
  refine wp_bind_mono (dot_spec (hA.allocs f3) h3.mat) ?_
  rintro ⟨abd', e⟩ w4 ⟨-, h4⟩
  refine ⟨_, (h2.mat.allocs h3.frame).allocs h4.frame, h4.mat.congr ?_⟩
  intro i j hi hj
  refine toMatrix_inj (r := r) (c := c) (A := fun i j => fsum n fun l => A i l *. fsum k fun p => B l p *. D p j)
    (B := fun i j => fsum k fun p => (fsum n fun l => A i l *. B l p) *. D p j) ?_ hi hj
  rw [toMatrix_dot r n c A (fun l j => fsum k fun p => B l p *. D p j),
    toMatrix_dot r k c (fun i p => fsum n fun l => A i l *. B l p) D, toMatrix_dot, toMatrix_dot, Matrix.mul_assoc]

/-- Over ℝ: `a.Dot(b + d)` and `a.Dot(b) + a.Dot(d)` have the same entries. -/
theorem C07_dot_distrib (w : World ℝ) (a b d : Mat) (r n c : Nat) (A B D : Nat → Nat → ℝ) (hA : IsMat w a r n A)
    (hB : IsMat w b n c B) (hD : IsMat w d n c D) :
    wp (do
      let (bd, _) ← b.add d
      let (x, _) ← a.dot bd
      let (ab, _) ← a.dot b
      let (ad, _) ← a.dot d
      let (y, _) ← ab.add ad
      return (x, y)) w (fun p w' => ∃ V, IsMat w' p.1 r c V ∧ IsMat w' p.2 r c V) := by
  refine wp_bind_mono (add_spec hB hD) ?_
  rintro ⟨bd, e⟩ w1 ⟨-, h1⟩
  refine wp_bind_mono (dot_spec (hA.allocs h1.frame) h1.mat) ?_
  rintro ⟨x, e⟩ w2 ⟨-, h2⟩
  have f2 := h1.frame.trans h2.frame
  refine wp_bind_mono (dot_spec (hA.allocs f2) (hB.allocs f2)) ?_
  rintro ⟨ab, e⟩ w3 ⟨-, h3⟩
  have f3 := f2.trans h3.frame
  refine wp_bind_mono (dot_spec (hA.allocs f3) (hD.allocs f3)) ?_
  rintro ⟨ad, e⟩ w4 ⟨-, h4⟩
  refine wp_bind_mono (add_spec (h3.mat.allocs h4.frame) h4.mat) ?_
  rintro ⟨y, e⟩ w5 ⟨-, h5⟩
  refine ⟨_, ((h2.mat.allocs h3.frame).allocs h4.frame).allocs h5.frame, h5.mat.congr ?_⟩
  intro i j hi hj
  simp only [fsum_real, real_add, real_mul, mul_add, Finset.sum_add_distrib]

/-- Over ℝ: `(a.Dot(b)).T()` and `b.T().Dot(a.T())` have the same entries. -/
theorem C07_dot_transpose (w : World ℝ) (a b : Mat) (r n c : Nat) (A B : Nat → Nat → ℝ) (hA : IsMat w a r n A)
    (hB : IsMat w b n c B) :
    wp (do
      let (ab, _) ← a.dot b
      let x ← ab.t
      let bt ← b.t
      let at' ← a.t
      let (y, _) ← bt.dot at'
      return (x, y)) w (fun p w' => ∃ V, IsMat w' p.1 c r V ∧ IsMat w' p.2 c r V) := by
  refine wp_bind_mono (dot_spec hA hB) ?_
  rintro ⟨ab, e⟩ w1 ⟨-, h1⟩
  refine wp_bind_mono (t_spec h1.mat) ?_
  rintro x w2 h2
  have f2 := h1.frame.trans h2.frame
  refine wp_bind_mono (t_spec (hB.allocs f2)) ?_
  rintro bt w3 h3
  have f3 := f2.trans h3.frame
  refine wp_bind_mono (t_spec (hA.allocs f3)) ?_
  rintro at' w4 h4
  refine wp_bind_mono (dot_spec (h3.mat.allocs h4.frame) h4.mat) ?_
  rintro ⟨y, e⟩ w5 ⟨-, h5⟩
  refine ⟨_, ((h2.mat.allocs h3.frame).allocs h4.frame).allocs h5.frame, h5.mat.congr ?_⟩
  intro i j hi hj
  simp only [fsum_real, real_mul, mul_comm]

example (A B D : Nat → Nat → ℝ) : ∃ w : World ℝ, ∃ a b d, IsMat w a 2 3 A ∧ IsMat w b 3 2 B ∧ IsMat w d 2 4 D :=
  exists_mat3 (by decide) (by decide) (by decide) (by decide) (by decide) (by decide) A B D
example (A B D : Nat → Nat → ℝ) : ∃ w : World ℝ, ∃ a b d, IsMat w a 2 3 A ∧ IsMat w b 3 2 B ∧ IsMat w d 3 2 D :=
  exists_mat3 (by decide) (by decide) (by decide) (by decide) (by decide) (by decide) A B D

/-! ## C08 Transpose -/

theorem C08_transpose (w : World α) (m : Mat) (r c : Nat) (A : Nat → Nat → α) (hA : IsMat w m r c A) :
    wp m.t w (fun p w' => NewMat w w' p c r (fun i j => A j i) ∧ IsMat w' m r c A ∧
      (∀ a, w'.IsRow p c a → ¬ w'.IsRow m r a)) := by
  refine wp_mono (t_spec hA) ?_
  intro p w' h
  refine ⟨h, hA.allocs h.frame, ?_⟩
  intro a ha hb
  have h1 := h.fresh a ha
  have h2 := hA.isRow_lt ((hA.isRow_frame h.frame (fun h => h) a).1 hb)
  omega

theorem C08_involutive (w : World α) (m : Mat) (r c : Nat) (A : Nat → Nat → α) (hA : IsMat w m r c A) :
    wp (do let p ← m.t; p.t) w (fun q w' => NewMat w w' q r c A) := by
  refine wp_bind_mono (t_spec hA) ?_
  intro p w1 h1
  refine wp_mono (t_spec h1.mat) ?_
  intro q w2 h2
  exact NewMat.of_allocs h1.frame h2

example (A : Nat → Nat → α) : ∃ w : World α, ∃ m, IsMat w m 2 3 A := by
  obtain ⟨w, m, h, _⟩ := exists_mat (α := α) (r := 2) (c := 3) (by decide) (by decide) A
  exact ⟨w, m, h⟩

/-! ## C09 Sum -/

theorem C09_sum_axis0 (w : World α) (m : Mat) (r c : Nat) (A : Nat → Nat → α) (hA : IsMat w m r c A) :
    wp (m.sum 0) w (fun p w' => NewMat w w' p 1 c (fun _ j => fsum r fun i => A i j)) := sum0_spec hA

theorem C09_sum_axis1 (w : World α) (m : Mat) (r c : Nat) (A : Nat → Nat → α) (hA : IsMat w m r c A) :
    wp (m.sum 1) w (fun p w' => NewMat w w' p 1 r (fun _ i => fsum c fun j => A i j)) := sum1_spec hA

theorem C09_other_axis_panics (w : World α) (m : Mat) (axis : Int) (h0 : axis ≠ 0) (h1 : axis ≠ 1) :
    Panics (m.sum axis) w := by
  unfold Mat.sum
  rw [if_pos ⟨h0, h1⟩]
  exact ⟨.axis, rfl⟩

/-- Over ℝ both ways of summing give the same grand total. -/
theorem C09_grand_total (w : World ℝ) (m : Mat) (r c : Nat) (A : Nat → Nat → ℝ) (hA : IsMat w m r c A) :
    wp (do
      let s0 ← m.sum 0
      let t0 ← s0.sum 1
      let s1 ← m.sum 1
      let t1 ← s1.sum 1
      let (x, _) ← t0.get 0 0
      let (y, _) ← t1.get 0 0
      return (x, y)) w (fun p _ => p.1 = p.2 ∧ p.1 = ∑ i ∈ Finset.range r, ∑ j ∈ Finset.range c, A i j) := by
  refine wp_bind_mono (sum0_spec hA) ?_
  intro s0 w1 h1
  refine wp_bind_mono (sum1_spec h1.mat) ?_
  intro t0 w2 h2
  refine wp_bind_mono (sum1_spec ((hA.allocs h1.frame).allocs h2.frame)) ?_
  intro s1 w3 h3
  refine wp_bind_mono (sum1_spec h3.mat) ?_
  intro t1 w4 h4
  have g0 : t0.get 0 0 w4 = _ := get_spec ((h2.mat.allocs h3.frame).allocs h4.frame) (i := 0) (j := 0) (by decide) (by decide)
  have g1 : t1.get 0 0 w4 = _ := get_spec h4.mat (i := 0) (j := 0) (by decide) (by decide)
  refine wp_bind_ok g0 (wp_bind_ok g1 ?_)
  rw [wp_pure]
  simp only [fsum_real]
  rw [Finset.sum_comm]
  exact ⟨rfl, rfl⟩

example (A : Nat → Nat → ℝ) : ∃ w : World ℝ, ∃ m, IsMat w m 2 3 A := by
  obtain ⟨w, m, h, _⟩ := exists_mat (α := ℝ) (r := 2) (c := 3) (by decide) (by decide) A
  exact ⟨w, m, h⟩

/-! ## C10 Equals -/

theorem C10_equals (w : World α) (m b : Mat) (r c r' c' : Nat) (A B : Nat → Nat → α) (hA : IsMat w m r c A)
    (hB : IsMat w b r' c' B) :
    wp (m.equals b) w (fun v w' => w' = w ∧
      (v = true ↔ (r = r' ∧ c = c' ∧ ∀ i j, i < r → j < c → Flt.eq (A i j) (B i j) = true))) := equals_spec hA hB

/-- Over ℝ: equality of shape and entries. -/
theorem C10_equals_real (w : World ℝ) (m b : Mat) (r c r' c' : Nat) (A B : Nat → Nat → ℝ) (hA : IsMat w m r c A)
    (hB : IsMat w b r' c' B) :
    wp (m.equals b) w (fun v w' => w' = w ∧
      (v = true ↔ (r = r' ∧ c = c' ∧ ∀ i j, i < r → j < c → A i j = B i j))) := by
  simpa using equals_spec hA hB

/-- Over ℝ Equals is an equivalence relation on well-formed matrices. -/
theorem C10_equivalence (w : World ℝ) (a b d : Mat) (ra ca rb cb rd cd : Nat) (A B D : Nat → Nat → ℝ)
    (hA : IsMat w a ra ca A) (hB : IsMat w b rb cb B) (hD : IsMat w d rd cd D) :
    wp (a.equals a) w (fun v _ => v = true) ∧
    wp (do let x ← a.equals b; let y ← b.equals a; return (x, y)) w (fun p _ => p.1 = p.2) ∧
    wp (do let x ← a.equals b; let y ← b.equals d; let z ← a.equals d; return (x, y, z)) w
      (fun p _ => p.1 = true → p.2.1 = true → p.2.2 = true) := by
  refine ⟨?_, ?_, ?_⟩
  · refine wp_mono (C10_equals_real w a a _ _ _ _ A A hA hA) ?_
    rintro v w' ⟨rfl, h⟩
    exact h.2 ⟨rfl, rfl, fun _ _ _ _ => rfl⟩
  · refine wp_bind_mono (C10_equals_real w a b _ _ _ _ A B hA hB) ?_
    rintro x w1 ⟨rfl, h1⟩
    refine wp_bind_mono (C10_equals_real w1 b a _ _ _ _ B A hB hA) ?_
    rintro y w2 ⟨rfl, h2⟩
    rw [wp_pure]
    rw [Bool.eq_iff_iff, h1, h2]
    constructor
    · rintro ⟨rfl, rfl, h⟩
      exact ⟨rfl, rfl, fun i j hi hj => (h i j hi hj).symm⟩
    · rintro ⟨rfl, rfl, h⟩
      exact ⟨rfl, rfl, fun i j hi hj => (h i j hi hj).symm⟩
  · refine wp_bind_mono (C10_equals_real w a b _ _ _ _ A B hA hB) ?_
    rintro x w1 ⟨rfl, h1⟩
    refine wp_bind_mono (C10_equals_real w1 b d _ _ _ _ B D hB hD) ?_
    rintro y w2 ⟨rfl, h2⟩
    refine wp_bind_mono (C10_equals_real w2 a d _ _ _ _ A D hA hD) ?_
    rintro z w3 ⟨rfl, h3⟩
    rw [wp_pure]
    simp only
    rw [h1, h2, h3]
    rintro ⟨rfl, rfl, h⟩ ⟨rfl, rfl, h'⟩
    exact ⟨rfl, rfl, fun i j hi hj => (h i j hi hj).trans (h' i j hi hj)⟩

example (A B D : Nat → Nat → ℝ) : ∃ w : World ℝ, ∃ a b d, IsMat w a 2 3 A ∧ IsMat w b 2 3 B ∧ IsMat w d 2 3 D :=
  exists_mat3 (by decide) (by decide) (by decide) (by decide) (by decide) (by decide) A B D

/-! ## C11 Accessors -/

/-- GetRow returns the matrix's own row: a write through the returned slice is a write to the matrix. -/
theorem C11_getRow_shares (w : World α) (m : Mat) (r c : Nat) (A : Nat → Nat → α) (hA : IsMat w m r c A)
    (i : Nat) (hi : i < r) :
    wp (m.getRow i) w (fun p w' => w' = w ∧ p.2 = none ∧ ∃ a, p.1 = some a ∧ w.rowAddr m i = some a) ∧
    ∀ (j : Nat), j < c → ∀ v : α,
      wp (do
        let (p, _) ← m.getRow i
        let a ← deref p
        rowSet a j v
        m.get i j) w (fun p _ => p = (v, none)) := by
  obtain ⟨a, h1, h2, h3⟩ := hA.row i hi
  constructor
  · rw [wp_iff]
    exact ⟨_, _, getRow_spec hA hi h1, rfl, rfl, a, rfl, h1⟩
  · intro j hj v
    have e1 : rowSet a (j : Int) v w = .ok ((), { w with flt := upd w.flt a ((w.flt a).set j v) }) := by
      unfold rowSet
      rw [if_pos (by rw [h3]; simp; omega), Int.toNat_natCast]
    rw [wp_bind]
    have e0 : wp (m.getRow (i : Int)) w (fun p w' => p = (some a, none) ∧ w' = w) := by
      rw [wp_iff]; exact ⟨_, _, getRow_spec hA hi h1, rfl, rfl⟩
    refine wp_mono e0 ?_
    rintro _ w ⟨rfl, rfl⟩
    simp only [wp_bind, wp_deref_some]
    simp only [wp, e1]
    unfold Mat.get
    rw [if_neg (by rw [hA.rows, hA.cols]; omega)]
    have hl := hA.len
    have e2 : rowRef m.m (i : Int) { w with flt := upd w.flt a ((w.flt a).set j v) } =
        .ok (a, { w with flt := upd w.flt a ((w.flt a).set j v) }) := by
      unfold rowRef
      rw [if_pos (by omega), Int.toNat_natCast]
      unfold World.rowAddr at h1
      simp only [h1]
    have e3 : rowGet a (j : Int) { w with flt := upd w.flt a ((w.flt a).set j v) } =
        .ok (v, { w with flt := upd w.flt a ((w.flt a).set j v) }) := by
      unfold rowGet
      simp [h3, hj]
    have e4 : m.at (i : Int) (j : Int) { w with flt := upd w.flt a ((w.flt a).set j v) } =
        .ok (v, { w with flt := upd w.flt a ((w.flt a).set j v) }) := by
      unfold Mat.at
      rw [bind_ok e2]; exact e3
    rw [bind_ok e4]
    rfl

/-- SetRow installs the given slice itself, replaces exactly that row, and allocates or copies nothing. -/
theorem C11_setRow_installs (w : World α) (m : Mat) (r c : Nat) (A : Nat → Nat → α) (B : Nat → α)
    (hA : IsMat w m r c A) (i s : Nat) (hi : i < r) (hs : s < w.next) (hB : w.flt s = (List.range c).map B) :
    wp (m.setRow i s) w (fun e w' => e = none ∧ w'.rowAddr m i = some s ∧
      (∀ i', i' ≠ i → w'.rowAddr m i' = w.rowAddr m i') ∧ w'.flt = w.flt ∧ w'.next = w.next ∧
      (∀ a, a ≠ m.m.addr → w'.outs a = w.outs a) ∧
      IsMat w' m r c (fun i' j' => if i' = i then B j' else A i' j')) := by
  refine wp_mono (setRow_spec hA hi hs hB) ?_
  rintro e w' ⟨rfl, rfl, h1, h2, h3⟩
  refine ⟨rfl, h1, h2, rfl, rfl, fun a ha => upd_ne ha, h3.congr ?_⟩
  intro i' j' _ _
  simp only [updRow]
  split <;> rfl

/-- GetColumn returns a new slice holding the column; nothing else changes. -/
theorem C11_getColumn_copies (w : World α) (m : Mat) (r c : Nat) (A : Nat → Nat → α) (hA : IsMat w m r c A)
    (j : Nat) (hj : j < c) :
    wp (m.getColumn j) w (fun p w' => p.2 = none ∧ ∃ a, p.1 = some a ∧ w.next ≤ a ∧
      w'.flt a = (List.range r).map (fun i => A i j) ∧ OnlyAllocs w w') := by
  refine wp_mono (getColumn_spec hA hj) ?_
  rintro p w' ⟨rfl, h1, _, h3⟩
  exact ⟨rfl, _, rfl, Nat.le_refl _, h3, h1⟩

/-- SetColumn copies the values into exactly that column; the slice itself is not installed (row addresses are
unchanged) and no other storage changes. -/
theorem C11_setColumn_copies (w : World α) (m : Mat) (r c : Nat) (A : Nat → Nat → α) (B : Nat → α)
    (hA : IsMat w m r c A) (hd : DistinctRows w m r) (j s : Nat) (hj : j < c) (hs : s < w.next)
    (hns : ¬ w.IsRow m r s) (hB : w.flt s = (List.range r).map B) :
    wp (m.setColumn j s) w (fun e w' => e = none ∧
      SetMat w w' m r c (fun i' j' => if j' = j then B i' else A i' j')) := setColumn_spec hA hd hj hs hns hB

/-- Slices of the wrong length are rejected without any change. -/
theorem C11_wrong_length (w : World α) (m : Mat) (r c : Nat) (A : Nat → Nat → α) (hA : IsMat w m r c A)
    (i j s : Nat) (hi : i < r) (hj : j < c) :
    ((w.flt s).length ≠ c → m.setRow i s w = .ok (some (.sliceDims (w.flt s).length), w)) ∧
    ((w.flt s).length ≠ r → m.setColumn j s w = .ok (some (.sliceDims (w.flt s).length), w)) := by
  have e : rowLen s w = .ok (((w.flt s).length : Int), w) := rfl
  constructor
  · intro h
    unfold Mat.setRow
    rw [if_neg (by rw [hA.rows]; omega), bind_ok e, if_pos (by rw [hA.cols]; omega)]
    rfl
  · intro h
    unfold Mat.setColumn
    rw [if_neg (by rw [hA.cols]; omega), bind_ok e, if_pos (by rw [hA.rows]; omega)]
    rfl

/-- a 2×3 matrix and a separate slice of 3 (the single row of another matrix) -/
example (A : Nat → Nat → α) (B : Nat → α) : ∃ w : World α, ∃ m s, IsMat w m 2 3 A ∧ DistinctRows w m 2 ∧ s < w.next ∧
    w.flt s = (List.range 3).map B := by
  obtain ⟨w, m, b, h1, hd, h2, _⟩ := exists_mat2 (α := α) (r := 2) (c := 3) (r' := 1) (c' := 3)
    (by decide) (by decide) (by decide) (by decide) A (fun _ => B)
  obtain ⟨s, _, h3, h4⟩ := h2.row 0 (by decide)
  exact ⟨w, m, s, h1, hd, h3, h4⟩
/-- a 2×3 matrix and a separate slice of 2 that is not one of its rows -/
example (A : Nat → Nat → α) (B : Nat → α) : ∃ w : World α, ∃ m s, IsMat w m 2 3 A ∧ DistinctRows w m 2 ∧ s < w.next ∧
    ¬ w.IsRow m 2 s ∧ w.flt s = (List.range 2).map B := by
  obtain ⟨w, m, b, h1, hd, h2, _, hdis⟩ := exists_mat2 (α := α) (r := 2) (c := 3) (r' := 1) (c' := 2)
    (by decide) (by decide) (by decide) (by decide) A (fun _ => B)
  obtain ⟨s, hs, h3, h4⟩ := h2.row 0 (by decide)
  exact ⟨w, m, s, h1, hd, h3, fun h => hdis s h ⟨0, by decide, hs⟩, h4⟩

/-! ## C12 Clip -/

theorem C12_clip (w : World α) (m : Mat) (r c : Nat) (A : Nat → Nat → α) (hA : IsMat w m r c A)
    (hd : DistinctRows w m r) :
    wp (clip m) w (fun p w' => p = m ∧ SetMat w w' m r c (fun i j =>
      if Flt.lt (A i j) Flt.zero then Flt.eps7 else if Flt.lt Flt.one (A i j) then Flt.oneSubEps7 else A i j)) :=
  clip_spec hA hd

/-- Over ℝ: the result lies in [0,1], entries of [0,1] are kept, and clipping again changes nothing. -/
theorem C12_clip_range_idempotent (w : World ℝ) (m : Mat) (r c : Nat) (A : Nat → Nat → ℝ) (hA : IsMat w m r c A)
    (hd : DistinctRows w m r) :
    wp (clip m) w (fun p w1 => p = m ∧ ∃ V, SetMat w w1 m r c V ∧
      (∀ i j, i < r → j < c → 0 ≤ V i j ∧ V i j ≤ 1 ∧ (0 ≤ A i j → A i j ≤ 1 → V i j = A i j)) ∧
      wp (clip m) w1 (fun p' w2 => p' = m ∧ SetMat w1 w2 m r c V)) := by
  refine wp_mono (clip_spec hA hd) ?_
  rintro p w1 ⟨rfl, h⟩
  have hr : ∀ x : ℝ, 0 ≤ (if Flt.lt x Flt.zero then Flt.eps7 else if Flt.lt Flt.one x then Flt.oneSubEps7 else x) ∧
      (if Flt.lt x Flt.zero then Flt.eps7 else if Flt.lt Flt.one x then Flt.oneSubEps7 else x) ≤ 1 := by
    intro x
    simp only [real_lt, real_ofInt, real_eps7, real_oneSubEps7, decide_eq_true_eq, Int.cast_zero, Int.cast_one]
    split
    · norm_num
    · split
      · norm_num
      · constructor <;> linarith
  refine ⟨rfl, _, h, ?_, ?_⟩
  · intro i j hi hj
    refine ⟨(hr _).1, (hr _).2, ?_⟩
    intro h0 h1
    simp [not_lt.2 h0, not_lt.2 h1]
  · refine wp_mono (clip_spec h.mat ((h.distinct _ _).2 hd)) ?_
    rintro p' w2 ⟨rfl, h2⟩
    refine ⟨rfl, h2.congr ?_⟩
    intro i j hi hj
    have := hr (A i j)
    generalize (if Flt.lt (A i j) Flt.zero then Flt.eps7 else if Flt.lt Flt.one (A i j) then Flt.oneSubEps7 else A i j) = y at *
    simp [not_lt.2 this.1, not_lt.2 this.2]

example (A : Nat → Nat → ℝ) : ∃ w : World ℝ, ∃ m, IsMat w m 2 3 A ∧ DistinctRows w m 2 :=
  exists_mat (by decide) (by decide) A

end NN
