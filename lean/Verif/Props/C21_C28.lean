import Verif.Lemmas.Loss
import Verif.Spec.Place
import Verif.Real.Sum
import Verif.Real.Deriv
import Mathlib.Analysis.SpecialFunctions.Log.Deriv
import Mathlib.Analysis.Calculus.Deriv.Pow
import Mathlib.Analysis.Calculus.Deriv.Abs
/- C21-C28: loss functions. -/

set_option linter.unusedSectionVars false

namespace NN
variable {α : Type} [Flt α]
open Go Finset

/-! ## C21 Mean squared loss

False of the code: only row 0 is squared and only row 0 of the sums is returned (loss.go:72-77). -/

/-- The mean of `f` over all entries of an r × c matrix. -/
noncomputable def meanOver (r c : Nat) (f : Nat → Nat → ℝ) : ℝ := (∑ i ∈ range r, ∑ j ∈ range c, f i j) / ((r : ℝ) * c)

/-- The full claim. -/
def C21_claim : Prop :=
  ∀ (w : World ℝ) (a b : Mat) (r c : Nat) (A B : Nat → Nat → ℝ), IsMat w a r c A → IsMat w b r c B →
    wp (Loss.forward ⟨.mse, c⟩ a b) w (fun p _ => p = (meanOver r c fun i j => (A i j - B i j) ^ 2, none))

/-- What the code computes for any number of rows: the mean squared error of row 0. -/
theorem C21_row0 (w : World ℝ) (a b : Mat) (r c : Nat) (A B : Nat → Nat → ℝ) (hA : IsMat w a r c A)
    (hB : IsMat w b r c B) :
    wp (Loss.forward ⟨.mse, c⟩ a b) w (fun p w' => OnlyAllocs w w' ∧
      p = ((∑ j ∈ range c, (A 0 j - B 0 j) ^ 2) / c, none)) := by
  refine wp_mono (mseForward_spec hA hB) ?_
  rintro ⟨v, e⟩ w' ⟨rfl, h, rfl⟩
  refine ⟨h, ?_⟩
  rw [fsum_real]
  simp

/-- The claim for one-row batches.  Missing: batches with more than one row. -/
theorem C21_mean_partial (w : World ℝ) (a b : Mat) (c : Nat) (A B : Nat → Nat → ℝ) (hA : IsMat w a 1 c A)
    (hB : IsMat w b 1 c B) :
    wp (Loss.forward ⟨.mse, c⟩ a b) w (fun p _ => p = (meanOver 1 c fun i j => (A i j - B i j) ^ 2, none)) := by
  refine wp_mono (C21_row0 w a b 1 c A B hA hB) ?_
  rintro p w' ⟨-, rfl⟩
  simp [meanOver]

theorem C21_false : ¬ C21_claim := by
  intro h
  obtain ⟨w, a, b, h1, _, h3, _, _⟩ := exists_mat2 (α := ℝ) (r := 2) (c := 1) (r' := 2) (c' := 1)
    (by decide) (by decide) (by decide) (by decide) (fun i _ => (i : ℝ)) (fun _ _ => (0 : ℝ))
  have hh := wp_and (h w a b 2 1 _ _ h1 h3) (C21_row0 w a b 2 1 _ _ h1 h3)
  rw [wp_iff] at hh
  obtain ⟨p, w', -, e1, -, e2⟩ := hh
  have := (Prod.mk.inj (e1.symm.trans e2)).1
  simp only [meanOver, Finset.sum_range_succ, Finset.sum_range_zero] at this
  norm_num at this

example (A B : Nat → Nat → ℝ) : ∃ w : World ℝ, ∃ a b, IsMat w a 1 3 A ∧ IsMat w b 1 3 B := by
  obtain ⟨w, a, b, h1, _, h3, _⟩ := exists_mat2 (α := ℝ) (r := 1) (c := 3) (r' := 1) (c' := 3)
    (by decide) (by decide) (by decide) (by decide) A B
  exact ⟨w, a, b, h1, h3⟩

/-! ## C22 Gradient of the mean squared loss -/

/-- `A` with entry (i, j) replaced by x. -/
def withEntry (A : Nat → Nat → ℝ) (i j : Nat) (x : ℝ) : Nat → Nat → ℝ :=
  fun i' j' => if i' = i ∧ j' = j then x else A i' j'

/-- Backward is the gradient of the sum over the samples of the per-sample mean squared error. -/
theorem C22_gradient (w : World ℝ) (a b : Mat) (r c : Nat) (A B : Nat → Nat → ℝ) (hA : IsMat w a r c A)
    (hB : IsMat w b r c B) :
    wp (Loss.backward ⟨.mse, c⟩ a b) w (fun p w' => p.2 = none ∧ ∃ V, NewMat w w' p.1 r c V ∧
      ∀ i j, i < r → j < c → HasDerivAt
        (fun x => ∑ s ∈ range r, (∑ k ∈ range c, (withEntry A i j x s k - B s k) ^ 2) / c) (V i j) (A i j)) := by
  refine wp_mono (mseBackward_spec hA hB) ?_
  rintro ⟨p, e⟩ w' ⟨rfl, h⟩
  refine ⟨rfl, _, h, ?_⟩
  intro i j hi hj
  have hd : HasDerivAt (fun x : ℝ => (x - B i j) ^ 2 / c) ((A i j - B i j) * (2 / c)) (A i j) := by
    have := (((hasDerivAt_id (A i j)).sub_const (B i j)).pow 2).div_const (c : ℝ)
    refine this.congr_deriv ?_
    simp only [id, Nat.cast_ofNat]
    ring
  have := hasDerivAt_sum2_upd (fun i j x => (x - B i j) ^ 2 / c) A hi hj hd
  simp only [real_sub, real_mul, real_div, real_ofInt, Int.cast_ofNat, Int.cast_natCast]
  refine this.congr_of_eventuallyEq (Filter.Eventually.of_forall fun x => ?_)
  exact Finset.sum_congr rfl fun s _ => by rw [Finset.sum_div]; rfl

/-- For one-row batches Backward is the gradient of what Forward returns. -/
theorem C22_gradient_of_forward (w : World ℝ) (a b : Mat) (c : Nat) (A B : Nat → Nat → ℝ) (hA : IsMat w a 1 c A)
    (hB : IsMat w b 1 c B) :
    wp (Loss.backward ⟨.mse, c⟩ a b) w (fun p w' => p.2 = none ∧ ∃ V, NewMat w w' p.1 1 c V ∧
      ∀ j, j < c → ∃ F : ℝ → ℝ, HasDerivAt F (V 0 j) (A 0 j) ∧
        ∀ x w1 a1 b1, IsMat w1 a1 1 c (withEntry A 0 j x) → IsMat w1 b1 1 c B →
          wp (Loss.forward ⟨.mse, c⟩ a1 b1) w1 (fun q _ => q = (F x, none))) := by
  refine wp_mono (C22_gradient w a b 1 c A B hA hB) ?_
  rintro p w' ⟨h1, V, hV, hd⟩
  refine ⟨h1, V, hV, ?_⟩
  intro j hj
  refine ⟨_, hd 0 j (by decide) hj, ?_⟩
  intro x w1 a1 b1 ha hb
  refine wp_mono (C21_row0 w1 a1 b1 1 c _ B ha hb) ?_
  rintro q w2 ⟨-, rfl⟩
  simp

example (A B : Nat → Nat → ℝ) : ∃ w : World ℝ, ∃ a b, IsMat w a 4 3 A ∧ IsMat w b 4 3 B := by
  obtain ⟨w, a, b, h1, _, h3, _⟩ := exists_mat2 (α := ℝ) (r := 4) (c := 3) (r' := 4) (c' := 3)
    (by decide) (by decide) (by decide) (by decide) A B
  exact ⟨w, a, b, h1, h3⟩

/-! ## C23 Mean absolute loss

False of the code: like the squared loss it looks at row 0 only, and Backward divides the *integers* 1 and -1 by the
size (loss.go:178-181), so every gradient is 0 once Size ≥ 2. -/

/-- The full claim about Backward: the partial derivative of the per-sample mean absolute error. -/
def C23_claim_backward : Prop :=
  ∀ (w : World ℝ) (a b : Mat) (r c : Nat) (A B : Nat → Nat → ℝ), IsMat w a r c A → IsMat w b r c B →
    (∀ i j, i < r → j < c → A i j ≠ B i j) →
    wp (Loss.backward ⟨.mae, c⟩ a b) w (fun p w' => p.2 = none ∧ ∃ V, IsMat w' p.1 r c V ∧
      ∀ i j, i < r → j < c → HasDerivAt
        (fun x => ∑ s ∈ range r, (∑ k ∈ range c, |withEntry A i j x s k - B s k|) / c) (V i j) (A i j))

/-- The full claim about Forward. -/
def C23_claim_forward : Prop :=
  ∀ (w : World ℝ) (a b : Mat) (r c : Nat) (A B : Nat → Nat → ℝ), IsMat w a r c A → IsMat w b r c B →
    wp (Loss.forward ⟨.mae, c⟩ a b) w (fun p _ => p = (meanOver r c fun i j => |A i j - B i j|, none))

/-- What Forward computes: the mean absolute error of row 0. -/
theorem C23_forward_row0 (w : World ℝ) (a b : Mat) (r c : Nat) (A B : Nat → Nat → ℝ) (hA : IsMat w a r c A)
    (hB : IsMat w b r c B) :
    wp (Loss.forward ⟨.mae, c⟩ a b) w (fun p w' => OnlyAllocs w w' ∧
      p = ((∑ j ∈ range c, |A 0 j - B 0 j|) / c, none)) := by
  refine wp_mono (maeForward_spec hA hB) ?_
  rintro ⟨v, e⟩ w' ⟨rfl, h, rfl⟩
  refine ⟨h, ?_⟩
  rw [fsum_real]
  simp

/-- The claim about Forward for one-row batches.  Missing: more rows. -/
theorem C23_forward_partial (w : World ℝ) (a b : Mat) (c : Nat) (A B : Nat → Nat → ℝ) (hA : IsMat w a 1 c A)
    (hB : IsMat w b 1 c B) :
    wp (Loss.forward ⟨.mae, c⟩ a b) w (fun p _ => p = (meanOver 1 c fun i j => |A i j - B i j|, none)) := by
  refine wp_mono (C23_forward_row0 w a b 1 c A B hA hB) ?_
  rintro p w' ⟨-, rfl⟩
  simp [meanOver]

/-- For every size above 1 the gradient is zero everywhere, in every float64 semantics. -/
theorem C23_backward_zero (w : World α) (a b : Mat) (r c : Nat) (A B : Nat → Nat → α) (hA : IsMat w a r c A)
    (hB : IsMat w b r c B) (hc : 1 < c) :
    wp (Loss.backward ⟨.mae, c⟩ a b) w (fun p w' => p.2 = none ∧ NewMat w w' p.1 r c (fun _ _ => Flt.zero)) := by
  refine wp_mono (maeBackward_spec hA hB) ?_
  rintro ⟨p, e⟩ w' ⟨rfl, h⟩
  refine ⟨rfl, h.congr ?_⟩
  intro i j _ _
  have e1 : Int.tdiv 1 (c : Int) = 0 := Int.tdiv_eq_zero_of_lt (by omega) (by omega)
  have e2 : Int.tdiv (-1) (c : Int) = 0 := by rw [Int.neg_tdiv, e1]; rfl
  rw [e1, e2]
  split
  · rfl
  · split <;> rfl

/-- The claim about Backward for Size = 1.  Missing: every other size (there it fails, see `C23_backward_zero`). -/
theorem C23_backward_partial (w : World ℝ) (a b : Mat) (r : Nat) (A B : Nat → Nat → ℝ) (hA : IsMat w a r 1 A)
    (hB : IsMat w b r 1 B) (hne : ∀ i, i < r → A i 0 ≠ B i 0) :
    wp (Loss.backward ⟨.mae, (1 : Nat)⟩ a b) w (fun p w' => p.2 = none ∧ ∃ V, NewMat w w' p.1 r 1 V ∧
      ∀ i j, i < r → j < 1 → HasDerivAt
        (fun x => ∑ s ∈ range r, (∑ k ∈ range 1, |withEntry A i j x s k - B s k|) / (1 : Nat)) (V i j) (A i j)) := by
  refine wp_mono (maeBackward_spec hA hB) ?_
  rintro ⟨p, e⟩ w' ⟨rfl, h⟩
  refine ⟨rfl, _, h, ?_⟩
  intro i j hi hj
  obtain rfl : j = 0 := by omega
  have hd : HasDerivAt (fun x : ℝ => |x - B i 0|) (if B i 0 < A i 0 then 1 else -1) (A i 0) := by
    have h1 : HasDerivAt (fun x : ℝ => x - B i 0) 1 (A i 0) := (hasDerivAt_id (A i 0)).sub_const (B i 0)
    by_cases hlt : B i 0 < A i 0
    · rw [if_pos hlt]
      have := (hasDerivAt_abs_pos (sub_pos.2 hlt)).comp (A i 0) h1
      rw [one_mul] at this
      exact this
    · rw [if_neg hlt]
      have hlt' : A i 0 - B i 0 < 0 := sub_neg.2 (lt_of_le_of_ne (not_lt.1 hlt) (hne i hi))
      have := (hasDerivAt_abs_neg hlt').comp (A i 0) h1
      rw [mul_one] at this
      exact this
  have := hasDerivAt_sum2_upd (fun i j x => |x - B i j|) A hi hj hd
  have e1 : (if Flt.lt Flt.zero (A i 0 -. B i 0) = true then (Flt.ofInt (Int.tdiv 1 (1 : Nat)) : ℝ)
      else if Flt.lt (A i 0 -. B i 0) Flt.zero = true then Flt.ofInt (Int.tdiv (-1) (1 : Nat)) else Flt.zero) =
      if B i 0 < A i 0 then 1 else -1 := by
    have hn := hne i hi
    simp only [real_lt, real_sub, real_ofInt, Int.cast_zero, sub_pos, sub_neg, decide_eq_true_eq]
    by_cases hlt : B i 0 < A i 0
    · rw [if_pos hlt, if_pos hlt]; simp
    · rw [if_neg hlt, if_neg hlt, if_pos (lt_of_le_of_ne (not_lt.1 hlt) hn)]; simp
  rw [e1]
  refine this.congr_of_eventuallyEq (Filter.Eventually.of_forall fun x => ?_)
  exact Finset.sum_congr rfl fun s _ => by rw [Nat.cast_one, div_one]; rfl

theorem C23_backward_false : ¬ C23_claim_backward := by
  intro h
  obtain ⟨w, a, b, h1, _, h3, _, _⟩ := exists_mat2 (α := ℝ) (r := 1) (c := 2) (r' := 1) (c' := 2)
    (by decide) (by decide) (by decide) (by decide) (fun _ _ => (1 : ℝ)) (fun _ _ => (0 : ℝ))
  have hh := wp_and (h w a b 1 2 _ _ h1 h3 (fun _ _ _ _ => one_ne_zero)) (C23_backward_zero w a b 1 2 _ _ h1 h3 (by decide))
  rw [wp_iff] at hh
  obtain ⟨p, w', -, ⟨-, V, hV, hd⟩, -, hz⟩ := hh
  have hv : V 0 0 = 0 := by
    rw [hV.entries_unique hz.mat (i := 0) (j := 0) (by decide) (by decide)]; simp
  have hd0 := hd 0 0 (by decide) (by decide)
  rw [hv] at hd0
  have h1 : HasDerivAt (fun x : ℝ => |x|) 1 1 := by simpa using hasDerivAt_abs_pos (x := (1 : ℝ)) one_pos
  have h2 : HasDerivAt (fun x : ℝ => (|x| + 1) / 2) (1 / 2) 1 := (h1.add_const 1).div_const 2
  have h3 : HasDerivAt (fun x : ℝ => (|x| + 1) / 2) 0 1 := by
    refine hd0.congr_of_eventuallyEq (Filter.Eventually.of_forall fun x => ?_)
    simp [withEntry, Finset.sum_range_succ]
  have := h2.unique h3
  norm_num at this

theorem C23_forward_false : ¬ C23_claim_forward := by
  intro h
  obtain ⟨w, a, b, h1, _, h3, _, _⟩ := exists_mat2 (α := ℝ) (r := 2) (c := 1) (r' := 2) (c' := 1)
    (by decide) (by decide) (by decide) (by decide) (fun i _ => (i : ℝ)) (fun _ _ => (0 : ℝ))
  have hh := wp_and (h w a b 2 1 _ _ h1 h3) (C23_forward_row0 w a b 2 1 _ _ h1 h3)
  rw [wp_iff] at hh
  obtain ⟨p, w', -, e1, -, e2⟩ := hh
  have := (Prod.mk.inj (e1.symm.trans e2)).1
  simp only [meanOver, Finset.sum_range_succ, Finset.sum_range_zero] at this
  norm_num at this

example : ∃ w : World ℝ, ∃ a b, IsMat w a 2 1 (fun i _ => (i : ℝ)) ∧ IsMat w b 2 1 (fun _ _ => (-1 : ℝ)) ∧
    ∀ i : Nat, i < 2 → (i : ℝ) ≠ -1 := by
  obtain ⟨w, a, b, h1, _, h3, _⟩ := exists_mat2 (α := ℝ) (r := 2) (c := 1) (r' := 2) (c' := 1)
    (by decide) (by decide) (by decide) (by decide) (fun i _ => (i : ℝ)) (fun _ _ => (-1 : ℝ))
  refine ⟨w, a, b, h1, h3, fun i _ h => ?_⟩
  have : (0 : ℝ) ≤ (i : ℝ) := Nat.cast_nonneg i
  linarith

/-! ## C24 Cross-entropy value -/

/-- Over ℝ Clip leaves values in [0,1] alone. -/
theorem clipV_id {x : ℝ} (h0 : 0 ≤ x) (h1 : x ≤ 1) : clipV x = x := by
  unfold clipV
  rw [if_neg (by simpa using h0), if_neg (by simpa using h1)]

/-- `B` holds one-hot rows with the labels `lab`. -/
def OneHot (r c : Nat) (lab : Nat → Nat) (B : Nat → Nat → ℝ) : Prop :=
  ∀ i, i < r → lab i < c ∧ ∀ j, j < c → B i j = if j = lab i then 1 else 0

theorem oneHot_sum {r c : Nat} {lab : Nat → Nat} {B : Nat → Nat → ℝ} (h : OneHot r c lab B) (P : Nat → ℝ) {i : Nat}
    (hi : i < r) : ∑ j ∈ range c, P j * B i j = P (lab i) := by
  obtain ⟨h1, h2⟩ := h i hi
  rw [Finset.sum_eq_single (lab i)]
  · rw [h2 _ h1, if_pos rfl, mul_one]
  · intro j hj hne; rw [h2 j (mem_range.1 hj), if_neg hne, mul_zero]
  · intro h; exact absurd (mem_range.2 h1) h

theorem ceForward_real (w : World ℝ) (a b : Mat) (r c : Nat) (A B : Nat → Nat → ℝ) (hA : IsMat w a r c A)
    (hd : DistinctRows w a r) (hB : IsMat w b r c B) (hdis : ∀ x, w.IsRow b r x → ¬ w.IsRow a r x)
    (hin : ∀ i j, i < r → j < c → 0 ≤ A i j ∧ A i j ≤ 1) :
    wp (Loss.forward ⟨.ce, c⟩ a b) w (fun p w' => IsMat w' a r c A ∧ IsMat w' b r c B ∧
      p = (∑ i ∈ range r, -Real.log (∑ j ∈ range c, A i j * B i j) / r, none)) := by
  refine wp_mono (ceForward_spec hA hd hB (Nat.le_refl _) hdis) ?_
  rintro ⟨v, e⟩ w' ⟨rfl, hf, hm, rfl⟩
  have hcl : ∀ i j, i < r → j < c → clipV (A i j) = A i j := fun i j hi hj => clipV_id (hin i j hi hj).1 (hin i j hi hj).2
  refine ⟨hm.congr hcl, hB.frame hf (fun h => h) hdis, ?_⟩
  rw [fsum_real]
  refine congrArg (·, none) (Finset.sum_congr rfl fun i hi => ?_)
  rw [fsum_real]
  simp only [real_div, real_neg, real_log, real_ofInt, Int.cast_natCast, real_mul]
  rw [Finset.sum_congr rfl fun j hj => by rw [hcl i j (mem_range.1 hi) (mem_range.1 hj)]]

/-- Mean over the rows of -log (probability of the true class); non-negative. -/
theorem C24_value (w : World ℝ) (a b : Mat) (r c : Nat) (A B : Nat → Nat → ℝ) (lab : Nat → Nat) (hA : IsMat w a r c A)
    (hd : DistinctRows w a r) (hB : IsMat w b r c B) (hdis : ∀ x, w.IsRow b r x → ¬ w.IsRow a r x)
    (hin : ∀ i j, i < r → j < c → 0 ≤ A i j ∧ A i j ≤ 1) (hlab : OneHot r c lab B)
    (hpos : ∀ i, i < r → 0 < A i (lab i)) :
    wp (Loss.forward ⟨.ce, c⟩ a b) w (fun p _ => p.2 = none ∧
      p.1 = (∑ i ∈ range r, -Real.log (A i (lab i))) / r ∧ 0 ≤ p.1) := by
  refine wp_mono (ceForward_real w a b r c A B hA hd hB hdis hin) ?_
  rintro p w' ⟨-, -, rfl⟩
  have e : ∑ i ∈ range r, -Real.log (∑ j ∈ range c, A i j * B i j) / r = (∑ i ∈ range r, -Real.log (A i (lab i))) / r := by
    rw [Finset.sum_div]
    exact Finset.sum_congr rfl fun i hi => by rw [oneHot_sum hlab (A i) (mem_range.1 hi)]
  refine ⟨rfl, e, ?_⟩
  dsimp only
  rw [e]
  refine div_nonneg (Finset.sum_nonneg fun i hi => ?_) (Nat.cast_nonneg r)
  have hi := mem_range.1 hi
  have h1 := (hlab i hi).1
  rw [neg_nonneg]
  exact Real.log_nonpos (hpos i hi).le (hin i _ hi h1).2

/-- probabilities 1/2, labels 0 and 1 -/
example : ∃ w : World ℝ, ∃ a b, ∃ B : Nat → Nat → ℝ, ∃ lab : Nat → Nat, IsMat w a 2 2 (fun _ _ => (1 / 2 : ℝ)) ∧
    DistinctRows w a 2 ∧ IsMat w b 2 2 B ∧ (∀ x, w.IsRow b 2 x → ¬ w.IsRow a 2 x) ∧ OneHot 2 2 lab B := by
  obtain ⟨w, a, b, h1, h2, h3, _, h5⟩ := exists_mat2 (α := ℝ) (r := 2) (c := 2) (r' := 2) (c' := 2)
    (by decide) (by decide) (by decide) (by decide) (fun _ _ => (1 / 2 : ℝ)) (fun i j => if j = i then (1 : ℝ) else 0)
  exact ⟨w, a, b, _, fun i => i, h1, h2, h3, fun x hb ha => h5 x ha hb, fun i hi => ⟨hi, fun j _ => rfl⟩⟩

/-! ## C25 Gradient of the cross-entropy -/

/-- Each entry of Backward is the derivative, with respect to that entry of the predictions, of the number that
Forward returns: `F x` is what Forward returns, in any state, when the entry is x (for x near its value). -/
theorem C25_gradient (w : World ℝ) (a b : Mat) (r c : Nat) (A B : Nat → Nat → ℝ) (lab : Nat → Nat)
    (hA : IsMat w a r c A) (hB : IsMat w b r c B) (hin : ∀ i j, i < r → j < c → 0 < A i j ∧ A i j < 1)
    (hlab : OneHot r c lab B) :
    wp (Loss.backward ⟨.ce, c⟩ a b) w (fun p w' => p.2 = none ∧ ∃ V, NewMat w w' p.1 r c V ∧
      ∀ i j, i < r → j < c → ∃ F : ℝ → ℝ, HasDerivAt F (V i j) (A i j) ∧
        ∀ᶠ x in nhds (A i j), ∀ w1 a1 b1, IsMat w1 a1 r c (withEntry A i j x) → DistinctRows w1 a1 r →
          IsMat w1 b1 r c B → (∀ y, w1.IsRow b1 r y → ¬ w1.IsRow a1 r y) →
          wp (Loss.forward ⟨.ce, c⟩ a1 b1) w1 (fun q _ => q = (F x, none))) := by
  refine wp_mono (ceBackward_spec hA hB (Nat.le_refl _)) ?_
  rintro ⟨p, e⟩ w' ⟨rfl, h⟩
  refine ⟨rfl, _, h, ?_⟩
  intro i j hi hj
  refine ⟨fun x => ∑ s ∈ range r, -Real.log (∑ k ∈ range c, withEntry A i j x s k * B s k) / r, ?_, ?_⟩
  · have hsum : ∑ k ∈ range c, upd2 A i j (A i j) i k * B i k = A i (lab i) := by
      rw [← oneHot_sum hlab (A i) hi]
      refine Finset.sum_congr rfl fun k _ => ?_
      unfold upd2; split
      · next h => rw [h.2]
      · rfl
    have hp := hin i (lab i) hi (hlab i hi).1
    have hrow := hasDerivAt_row_upd A B (i0 := i) hj
    have hlog := (hrow.log (by rw [hsum]; exact hp.1.ne')).neg.div_const (r : ℝ)
    rw [hsum] at hlog
    have hB' := (hlab i hi).2 j hj
    have hval : -(B i j / A i (lab i)) / (r : ℝ) = -B i j / A i j / r := by
      rw [hB']
      by_cases hjl : j = lab i
      · subst hjl; simp [neg_div]
      · simp [hjl]
    rw [hval] at hlog
    have key : HasDerivAt (fun x => ∑ s ∈ range r, -Real.log (∑ k ∈ range c, withEntry A i j x s k * B s k) / r)
        (∑ s ∈ range r, if s = i then -B i j / A i j / r else 0) (A i j) := by
      refine HasDerivAt.fun_sum fun s _ => ?_
      by_cases hs : s = i
      · subst hs
        rw [if_pos rfl]
        exact hlog
      · rw [if_neg hs]
        simp only [withEntry, hs, false_and, if_false]
        exact hasDerivAt_const _ _
    rw [Finset.sum_ite_eq' (range r) i, if_pos (mem_range.2 hi)] at key
    simpa using key
  · have hev : ∀ᶠ x in nhds (A i j), 0 < x ∧ x < 1 :=
      (lt_mem_nhds (hin i j hi hj).1).and (gt_mem_nhds (hin i j hi hj).2)
    filter_upwards [hev] with x hx w1 a1 b1 ha1 hd1 hb1 hdis1
    refine wp_mono (ceForward_real w1 a1 b1 r c _ B ha1 hd1 hb1 hdis1 ?_) ?_
    · intro s k hs hk
      unfold withEntry
      split
      · exact ⟨hx.1.le, hx.2.le⟩
      · exact ⟨(hin s k hs hk).1.le, (hin s k hs hk).2.le⟩
    · rintro q w2 ⟨-, -, rfl⟩
      rfl

example : ∃ w : World ℝ, ∃ a b, ∃ A B : Nat → Nat → ℝ, ∃ lab : Nat → Nat, IsMat w a 2 2 A ∧
    IsMat w b 2 2 B ∧ (∀ i j, i < 2 → j < 2 → 0 < A i j ∧ A i j < 1) ∧ OneHot 2 2 lab B := by
  obtain ⟨w, a, b, h1, h2, h3, _, h5⟩ := exists_mat2 (α := ℝ) (r := 2) (c := 2) (r' := 2) (c' := 2)
    (by decide) (by decide) (by decide) (by decide) (fun _ _ => (1 / 2 : ℝ)) (fun i j => if j = i then (1 : ℝ) else 0)
  exact ⟨w, a, b, _, _, fun i => i, h1, h3, fun _ _ _ _ => by norm_num, fun i hi => ⟨hi, fun j _ => rfl⟩⟩

/-! ## C26 Gradient of the binary cross-entropy -/

theorem fsum2_real (r c : Nat) (f : Nat → Nat → ℝ) : fsum2 r c f = ∑ i ∈ range r, ∑ j ∈ range c, f i j := by
  have inner : ∀ (g : Nat → ℝ) (s : ℝ) n, accN n (fun j s => s +. g j) s = s + ∑ j ∈ range n, g j := by
    intro g s n
    induction n with
    | zero => simp [accN]
    | succ n ih => simp only [accN]; rw [ih, Finset.sum_range_succ, real_add]; ring
  unfold fsum2
  induction r with
  | zero => simp [accN]
  | succ n ih => simp only [accN]; rw [inner, ih, Finset.sum_range_succ]

/-- The binary cross-entropy of one probability. -/
noncomputable def bce (t p : ℝ) : ℝ := -(t * Real.log p + (1 - t) * Real.log (1 - p))

/-- Over ℝ, for predictions in [0,1], Forward returns the mean binary cross-entropy (and leaves the values). -/
theorem bceForward_real (w : World ℝ) (a b : Mat) (r c : Nat) (A B : Nat → Nat → ℝ) (hA : IsMat w a r c A)
    (hd : DistinctRows w a r) (hB : IsMat w b r c B) (hdis : ∀ x, w.IsRow b r x → ¬ w.IsRow a r x)
    (hin : ∀ i j, i < r → j < c → 0 ≤ A i j ∧ A i j ≤ 1) :
    wp (Loss.forward ⟨.bce, c⟩ a b) w (fun p w' => IsMat w' a r c A ∧ IsMat w' b r c B ∧
      p = (∑ i ∈ range r, ∑ j ∈ range c, bce (B i j) (A i j) / r / c, none)) := by
  refine wp_mono (bceForward_spec hA hd hB (Nat.le_refl _) hdis) ?_
  rintro ⟨v, e⟩ w' ⟨rfl, hm, rfl⟩
  have hcl : ∀ i j, i < r → j < c → clipV (A i j) = A i j := fun i j hi hj => clipV_id (hin i j hi hj).1 (hin i j hi hj).2
  refine ⟨hm.mat.congr hcl, hB.frame hm.frame (fun h => h) hdis, ?_⟩
  rw [fsum2_real]
  refine congrArg (·, none) (Finset.sum_congr rfl fun i hi => Finset.sum_congr rfl fun j hj => ?_)
  rw [hcl i j (mem_range.1 hi) (mem_range.1 hj)]
  simp [bceTerm, bce]

/-- The value: the mean over all entries. -/
theorem C26_value (w : World ℝ) (a b : Mat) (r c : Nat) (A B : Nat → Nat → ℝ) (hA : IsMat w a r c A)
    (hd : DistinctRows w a r) (hB : IsMat w b r c B) (hdis : ∀ x, w.IsRow b r x → ¬ w.IsRow a r x)
    (hin : ∀ i j, i < r → j < c → 0 < A i j ∧ A i j < 1) :
    wp (Loss.forward ⟨.bce, c⟩ a b) w (fun p _ => p = (meanOver r c fun i j => bce (B i j) (A i j), none)) := by
  refine wp_mono (bceForward_real w a b r c A B hA hd hB hdis fun i j hi hj =>
    ⟨(hin i j hi hj).1.le, (hin i j hi hj).2.le⟩) ?_
  rintro p w' ⟨-, -, rfl⟩
  unfold meanOver
  simp only [div_div]
  rw [Finset.sum_div]
  refine congrArg (·, none) (Finset.sum_congr rfl fun i _ => ?_)
  rw [Finset.sum_div]

/-- Each entry of Backward is the derivative of what Forward returns with respect to that entry. -/
theorem C26_gradient (w : World ℝ) (a b : Mat) (r c : Nat) (A B : Nat → Nat → ℝ) (hA : IsMat w a r c A)
    (hd : DistinctRows w a r) (hB : IsMat w b r c B) (hdis : ∀ x, w.IsRow b r x → ¬ w.IsRow a r x)
    (hin : ∀ i j, i < r → j < c → 0 < A i j ∧ A i j < 1) :
    wp (Loss.backward ⟨.bce, c⟩ a b) w (fun p w' => p.2 = none ∧ ∃ V, IsMat w' p.1 r c V ∧
      ∀ i j, i < r → j < c → ∃ F : ℝ → ℝ, HasDerivAt F (V i j) (A i j) ∧
        ∀ᶠ x in nhds (A i j), ∀ w1 a1 b1, IsMat w1 a1 r c (withEntry A i j x) → DistinctRows w1 a1 r →
          IsMat w1 b1 r c B → (∀ y, w1.IsRow b1 r y → ¬ w1.IsRow a1 r y) →
          wp (Loss.forward ⟨.bce, c⟩ a1 b1) w1 (fun q _ => q = (F x, none))) := by
  refine wp_mono (bceBackward_spec hA hd hB (Nat.le_refl _) hdis) ?_
  rintro ⟨p, e⟩ w' ⟨rfl, -, -, -, w0, -, h⟩
  refine ⟨rfl, _, h.mat, ?_⟩
  intro i j hi hj
  have hij := hin i j hi hj
  refine ⟨fun x => ∑ s ∈ range r, ∑ k ∈ range c, bce (B s k) (withEntry A i j x s k) / r / c, ?_, ?_⟩
  · have h1 : HasDerivAt (fun x : ℝ => Real.log x) (A i j)⁻¹ (A i j) := Real.hasDerivAt_log hij.1.ne'
    have h2 : HasDerivAt (fun x : ℝ => Real.log (1 - x)) (-1 / (1 - A i j)) (A i j) :=
      ((hasDerivAt_id (A i j)).const_sub 1).log (by simp only [id]; linarith)
    have h3 := ((((h1.const_mul (B i j)).add (h2.const_mul (1 - B i j))).neg).div_const (r : ℝ)).div_const (c : ℝ)
    have hdv : HasDerivAt (fun x : ℝ => bce (B i j) x / r / c)
        (-(B i j / A i j - (1 - B i j) / (1 - A i j)) / c / r) (A i j) := by
      refine h3.congr_deriv ?_
      rw [div_div, div_div, mul_comm (r : ℝ) c]
      congr 1
      rw [div_eq_mul_inv (B i j)]
      ring
    have key := hasDerivAt_sum2_upd (fun s k x => bce (B s k) x / r / c) A hi hj hdv
    rw [clipV_id hij.1.le hij.2.le]
    simp only [real_neg, real_sub, real_div, real_ofInt, Int.cast_one, Int.cast_natCast]
    exact key
  · have hev : ∀ᶠ x in nhds (A i j), 0 < x ∧ x < 1 := (lt_mem_nhds hij.1).and (gt_mem_nhds hij.2)
    filter_upwards [hev] with x hx w1 a1 b1 ha1 hd1 hb1 hdis1
    refine wp_mono (bceForward_real w1 a1 b1 r c _ B ha1 hd1 hb1 hdis1 ?_) ?_
    · intro s k hs hk
      unfold withEntry
      split
      · exact ⟨hx.1.le, hx.2.le⟩
      · exact ⟨(hin s k hs hk).1.le, (hin s k hs hk).2.le⟩
    · rintro q w2 ⟨-, -, rfl⟩
      rfl

example (B : Nat → Nat → ℝ) : ∃ w : World ℝ, ∃ a b, ∃ A : Nat → Nat → ℝ, IsMat w a 2 3 A ∧ DistinctRows w a 2 ∧
    IsMat w b 2 3 B ∧ (∀ x, w.IsRow b 2 x → ¬ w.IsRow a 2 x) ∧ ∀ i j, i < 2 → j < 3 → 0 < A i j ∧ A i j < 1 := by
  obtain ⟨w, a, b, h1, h2, h3, _, h5⟩ := exists_mat2 (α := ℝ) (r := 2) (c := 3) (r' := 2) (c' := 3)
    (by decide) (by decide) (by decide) (by decide) (fun _ _ => (1 / 4 : ℝ)) B
  exact ⟨w, a, b, _, h1, h2, h3, fun x hb ha => h5 x ha hb, fun _ _ _ _ => by norm_num⟩

/-! ## C27 Losses do not modify their arguments

False of the code: both cross-entropies call Clip on the predictions, which works in place (loss.go:230, 317, 344;
matrix.go:386-400). -/

/-- The full claim for Forward. -/
def C27_claim_forward : Prop :=
  ∀ (w : World ℝ) (k : LossKind) (a b : Mat) (r c : Nat) (A B : Nat → Nat → ℝ), IsMat w a r c A → DistinctRows w a r →
    IsMat w b r c B → (∀ x, w.IsRow b r x → ¬ w.IsRow a r x) →
    wp (Loss.forward ⟨k, c⟩ a b) w (fun _ w' => IsMat w' a r c A ∧ IsMat w' b r c B)

/-- The full claim for Backward. -/
def C27_claim_backward : Prop :=
  ∀ (w : World ℝ) (k : LossKind) (a b : Mat) (r c : Nat) (A B : Nat → Nat → ℝ), IsMat w a r c A → DistinctRows w a r →
    IsMat w b r c B → (∀ x, w.IsRow b r x → ¬ w.IsRow a r x) →
    wp (Loss.backward ⟨k, c⟩ a b) w (fun _ w' => IsMat w' a r c A ∧ IsMat w' b r c B)

/-- What holds over ℝ: nothing but the rows of the predictions may change; the targets never change; with predictions
in [0,1] the predictions keep their values too.  For the squared and the absolute loss (and the Backward of the
cross-entropy) nothing that existed changes.  Missing: predictions outside [0,1] with a cross-entropy. -/
theorem C27_readonly_partial (w : World ℝ) (k : LossKind) (a b : Mat) (r c : Nat) (A B : Nat → Nat → ℝ)
    (hA : IsMat w a r c A) (hd : DistinctRows w a r) (hB : IsMat w b r c B)
    (hdis : ∀ x, w.IsRow b r x → ¬ w.IsRow a r x) :
    wp (Loss.forward ⟨k, c⟩ a b) w (fun _ w' => Frame { flt := w.IsRow a r } w w' ∧ IsMat w' b r c B ∧
      ((∀ i j, i < r → j < c → 0 ≤ A i j ∧ A i j ≤ 1) → IsMat w' a r c A) ∧
      (k = .mse ∨ k = .mae → OnlyAllocs w w' ∧ IsMat w' a r c A)) ∧
    wp (Loss.backward ⟨k, c⟩ a b) w (fun _ w' => Frame { flt := w.IsRow a r } w w' ∧ IsMat w' b r c B ∧
      ((∀ i j, i < r → j < c → 0 ≤ A i j ∧ A i j ≤ 1) → IsMat w' a r c A) ∧
      (k ≠ .bce → OnlyAllocs w w' ∧ IsMat w' a r c A)) := by
  have easy : ∀ w', OnlyAllocs w w' → Frame { flt := w.IsRow a r } w w' ∧ IsMat w' b r c B ∧ IsMat w' a r c A :=
    fun w' h => ⟨h.mono (Foot.Le.empty _), hB.allocs h, hA.allocs h⟩
  constructor
  · cases k
    · refine wp_mono (mseForward_spec hA hB) ?_
      rintro p w' ⟨-, h, -⟩
      obtain ⟨h1, h2, h3⟩ := easy w' h
      exact ⟨h1, h2, fun _ => h3, fun _ => ⟨h, h3⟩⟩
    · refine wp_mono (maeForward_spec hA hB) ?_
      rintro p w' ⟨-, h, -⟩
      obtain ⟨h1, h2, h3⟩ := easy w' h
      exact ⟨h1, h2, fun _ => h3, fun _ => ⟨h, h3⟩⟩
    · refine wp_mono (ceForward_spec hA hd hB (Nat.le_refl _) hdis) ?_
      rintro p w' ⟨-, h, hm, -⟩
      refine ⟨h, hB.frame h (fun h => h) hdis, fun hin => hm.congr fun i j hi hj => ?_, by rintro (h | h) <;> cases h⟩
      exact clipV_id (hin i j hi hj).1 (hin i j hi hj).2
    · refine wp_mono (bceForward_spec hA hd hB (Nat.le_refl _) hdis) ?_
      rintro p w' ⟨-, h, -⟩
      refine ⟨h.frame, hB.frame h.frame (fun h => h) hdis, fun hin => h.mat.congr fun i j hi hj => ?_,
        by rintro (h | h) <;> cases h⟩
      exact clipV_id (hin i j hi hj).1 (hin i j hi hj).2
  · cases k
    · refine wp_mono (mseBackward_spec hA hB) ?_
      rintro p w' ⟨-, h⟩
      obtain ⟨h1, h2, h3⟩ := easy w' h.frame
      exact ⟨h1, h2, fun _ => h3, fun _ => ⟨h.frame, h3⟩⟩
    · refine wp_mono (maeBackward_spec hA hB) ?_
      rintro p w' ⟨-, h⟩
      obtain ⟨h1, h2, h3⟩ := easy w' h.frame
      exact ⟨h1, h2, fun _ => h3, fun _ => ⟨h.frame, h3⟩⟩
    · refine wp_mono (ceBackward_spec hA hB (Nat.le_refl _)) ?_
      rintro p w' ⟨-, h⟩
      obtain ⟨h1, h2, h3⟩ := easy w' h.frame
      exact ⟨h1, h2, fun _ => h3, fun _ => ⟨h.frame, h3⟩⟩
    · refine wp_mono (bceBackward_spec hA hd hB (Nat.le_refl _) hdis) ?_
      rintro p w' ⟨-, h, hm, hb, -⟩
      refine ⟨h, hb, fun hin => hm.congr fun i j hi hj => ?_, fun h => absurd rfl h⟩
      exact clipV_id (hin i j hi hj).1 (hin i j hi hj).2

theorem C27_forward_false : ¬ C27_claim_forward := by
  intro h
  obtain ⟨w, a, b, h1, h2, h3, _, h5⟩ := exists_mat2 (α := ℝ) (r := 1) (c := 1) (r' := 1) (c' := 1)
    (by decide) (by decide) (by decide) (by decide) (fun _ _ => (2 : ℝ)) (fun _ _ => (1 : ℝ))
  have hdis : ∀ x, w.IsRow b 1 x → ¬ w.IsRow a 1 x := fun x hb ha => h5 x ha hb
  have hh := wp_and (h w .ce a b 1 1 _ _ h1 h2 h3 hdis) (ceForward_spec h1 h2 h3 (Nat.le_refl _) hdis)
  rw [wp_iff] at hh
  obtain ⟨v, w', -, ⟨ha, -⟩, -, -, hs, -⟩ := hh
  have := ha.entries_unique hs (i := 0) (j := 0) (by decide) (by decide)
  simp only [clipV, real_lt, real_ofInt, Int.cast_zero, Int.cast_one, real_oneSubEps7, real_eps7] at this
  norm_num at this

theorem C27_backward_false : ¬ C27_claim_backward := by
  intro h
  obtain ⟨w, a, b, h1, h2, h3, _, h5⟩ := exists_mat2 (α := ℝ) (r := 1) (c := 1) (r' := 1) (c' := 1)
    (by decide) (by decide) (by decide) (by decide) (fun _ _ => (2 : ℝ)) (fun _ _ => (1 : ℝ))
  have hdis : ∀ x, w.IsRow b 1 x → ¬ w.IsRow a 1 x := fun x hb ha => h5 x ha hb
  have hh := wp_and (h w .bce a b 1 1 _ _ h1 h2 h3 hdis) (bceBackward_spec h1 h2 h3 (Nat.le_refl _) hdis)
  rw [wp_iff] at hh
  obtain ⟨v, w', -, ⟨ha, -⟩, -, -, hs, -⟩ := hh
  have := ha.entries_unique hs (i := 0) (j := 0) (by decide) (by decide)
  simp only [clipV, real_lt, real_ofInt, Int.cast_zero, Int.cast_one, real_oneSubEps7, real_eps7] at this
  norm_num at this

/-! ## C28 Widths and constructors -/

/-- Every loss, Forward and Backward: an error and no state change whatsoever if a width differs from Size. -/
theorem C28_bad_width (w : World α) (l : Loss) (a b : Mat) (h : a.cols ≠ l.size ∨ b.cols ≠ l.size) :
    (∃ v e, l.forward a b w = .ok ((v, some e), w)) ∧ ∃ e, l.backward a b w = .ok ((Mat.zero, some e), w) := by
  have hc : ∃ e, lossCheck l.size a b = some e := by
    unfold lossCheck
    rw [if_pos h]
    by_cases h1 : a.cols ≠ l.size
    · exact ⟨_, if_pos h1⟩
    · exact ⟨_, by rw [if_neg h1, if_pos (h.resolve_left h1)]⟩
  obtain ⟨e, he⟩ := hc
  obtain ⟨k, size⟩ := l
  dsimp only at he
  constructor
  · refine ⟨Flt.zero, e, ?_⟩
    cases k <;> simp only [Loss.forward, mseForward, maeForward, ceForward, bceForward, he] <;> rfl
  · refine ⟨e, ?_⟩
    cases k <;> simp only [Loss.backward, mseBackward, maeBackward, ceBackward, bceBackward, he] <;> rfl

/-- With the right widths and equal row counts no loss returns an error. -/
theorem C28_accepts (w : World α) (k : LossKind) (a b : Mat) (r c : Nat) (A B : Nat → Nat → α)
    (hA : IsMat w a r c A) (hd : DistinctRows w a r) (hB : IsMat w b r c B)
    (hdis : ∀ x, w.IsRow b r x → ¬ w.IsRow a r x) :
    wp (Loss.forward ⟨k, c⟩ a b) w (fun p _ => p.2 = none) ∧
    wp (Loss.backward ⟨k, c⟩ a b) w (fun p w' => p.2 = none ∧ ∃ V, IsMat w' p.1 r c V) := by
  constructor
  · cases k
    · exact wp_mono (mseForward_spec hA hB) fun _ _ h => h.1
    · exact wp_mono (maeForward_spec hA hB) fun _ _ h => h.1
    · exact wp_mono (ceForward_spec hA hd hB (Nat.le_refl _) hdis) fun _ _ h => h.1
    · exact wp_mono (bceForward_spec hA hd hB (Nat.le_refl _) hdis) fun _ _ h => h.1
  · cases k
    · exact wp_mono (mseBackward_spec hA hB) fun _ _ h => ⟨h.1, _, h.2.mat⟩
    · exact wp_mono (maeBackward_spec hA hB) fun _ _ h => ⟨h.1, _, h.2.mat⟩
    · exact wp_mono (ceBackward_spec hA hB (Nat.le_refl _)) fun _ _ h => ⟨h.1, _, h.2.mat⟩
    · refine wp_mono (bceBackward_spec hA hd hB (Nat.le_refl _) hdis) ?_
      rintro _ _ ⟨h1, _, _, _, _, _, h⟩
      exact ⟨h1, _, h.mat⟩

/-- The constructors accept exactly the sizes ≥ 1 and record kind and size. -/
theorem C28_constructors (k : LossKind) (size : Int) :
    ((newLoss k size).2 = none ↔ 1 ≤ size) ∧ (1 ≤ size → (newLoss k size).1 = ⟨k, size⟩) := by
  unfold newLoss
  split
  · exact ⟨by simp; omega, fun h => by omega⟩
  · exact ⟨by simp; omega, fun _ => rfl⟩

example (A B : Nat → Nat → α) : ∃ w : World α, ∃ a b, IsMat w a 2 2 A ∧ DistinctRows w a 2 ∧ IsMat w b 2 2 B ∧
    (∀ x, w.IsRow b 2 x → ¬ w.IsRow a 2 x) ∧ (a.cols ≠ (⟨.ce, 3⟩ : Loss).size) := by
  obtain ⟨w, a, b, h1, h2, h3, _, h5⟩ := exists_mat2 (α := α) (r := 2) (c := 2) (r' := 2) (c' := 2)
    (by decide) (by decide) (by decide) (by decide) A B
  exact ⟨w, a, b, h1, h2, h3, fun x hb ha => h5 x ha hb, by rw [h1.cols]; decide⟩

end NN
