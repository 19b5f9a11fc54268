import Verif.Lemmas.Activation
import Verif.Lemmas.Misc
import Verif.Spec.Place
import Verif.Real.Sum
import Mathlib.Algebra.BigOperators.Field
/- C13-C20: activation functions, encodings, shuffling, accuracies. -/

set_option linter.unusedSectionVars false

namespace NN
variable {α : Type} [Flt α]
open Go

/-! ## C13 Activations -/

theorem C13_relu (w : World α) (m : Mat) (r c : Nat) (A : Nat → Nat → α) (hA : IsMat w m r c A)
    (hd : DistinctRows w m r) :
    wp (relu m) w (fun p w' => p = m ∧ SetMat w w' m r c (fun i j => Flt.max (A i j) Flt.zero)) := relu_spec hA hd

theorem C13_leakyRelu (w : World α) (m : Mat) (r c : Nat) (A : Nat → Nat → α) (slope : α) (hA : IsMat w m r c A)
    (hd : DistinctRows w m r) :
    wp (leakyRelu m slope) w (fun p w' => p = m ∧
      SetMat w w' m r c (fun i j => if Flt.lt (A i j) Flt.zero then Flt.mul (A i j) slope else A i j)) :=
  leakyRelu_spec slope hA hd

theorem C13_sigmoid (w : World α) (m : Mat) (r c : Nat) (A : Nat → Nat → α) (hA : IsMat w m r c A)
    (hd : DistinctRows w m r) :
    wp (sigmoid m) w (fun p w' => p = m ∧
      SetMat w w' m r c (fun i j => Flt.div Flt.one (Flt.add Flt.one (Flt.exp (Flt.neg (A i j)))))) :=
  sigmoid_spec hA hd

/-- Over ℝ: RELU gives non-negative entries, keeps the non-negative ones, and a second RELU changes nothing. -/
theorem C13_relu_real (w : World ℝ) (m : Mat) (r c : Nat) (A : Nat → Nat → ℝ) (hA : IsMat w m r c A)
    (hd : DistinctRows w m r) :
    wp (relu m) w (fun _ w1 => ∃ V, IsMat w1 m r c V ∧
      (∀ i j, i < r → j < c → 0 ≤ V i j ∧ (0 ≤ A i j → V i j = A i j) ∧ (A i j < 0 → V i j = 0)) ∧
      wp (relu m) w1 (fun _ w2 => IsMat w2 m r c V)) := by
  refine wp_mono (relu_spec hA hd) ?_
  rintro p w1 ⟨rfl, h1⟩
  refine ⟨_, h1.mat, ?_, ?_⟩
  · intro i j _ _
    simp only [real_max, real_ofInt, Int.cast_zero]
    exact ⟨le_max_right _ _, fun h => max_eq_left h, fun h => max_eq_right h.le⟩
  · refine wp_mono (relu_spec h1.mat ((h1.distinct _ _).2 hd)) ?_
    rintro q w2 ⟨rfl, h2⟩
    refine h2.mat.congr ?_
    intro i j _ _
    simp

/-- Over ℝ: sigmoid lies strictly between 0 and 1, is strictly increasing, and sends 0 to 1/2. -/
theorem C13_sigmoid_real (w : World ℝ) (m : Mat) (r c : Nat) (A : Nat → Nat → ℝ) (hA : IsMat w m r c A)
    (hd : DistinctRows w m r) :
    wp (sigmoid m) w (fun _ w' => ∃ V, IsMat w' m r c V ∧
      (∀ i j, i < r → j < c → 0 < V i j ∧ V i j < 1 ∧ (A i j = 0 → V i j = 1 / 2)) ∧
      (∀ i j k l, i < r → j < c → k < r → l < c → (A i j < A k l ↔ V i j < V k l))) := by
  refine wp_mono (sigmoid_spec hA hd) ?_
  rintro p w1 ⟨rfl, h1⟩
  refine ⟨_, h1.mat, ?_, ?_⟩
  · intro i j _ _
    simp only [real_div, real_add, real_exp, real_neg, real_ofInt, Int.cast_one]
    have := Real.exp_pos (-(A i j))
    refine ⟨by positivity, ?_, ?_⟩
    · rw [div_lt_one (by positivity)]; linarith
    · intro h; rw [h]; norm_num
  · intro i j k l _ _ _ _
    simp only [real_div, real_add, real_exp, real_neg, real_ofInt, Int.cast_one]
    rw [one_div_lt_one_div (by positivity) (by positivity), add_lt_add_iff_left, Real.exp_lt_exp, neg_lt_neg_iff]

example (A : Nat → Nat → α) : ∃ w : World α, ∃ m, IsMat w m 2 3 A ∧ DistinctRows w m 2 :=
  exists_mat (by decide) (by decide) A

/-! ## C14 Softmax -/

/-- For every float64 semantics: exp of each entry divided by the in-order sum of the exps of its row. -/
theorem C14_softmax (w : World α) (m : Mat) (r c : Nat) (A : Nat → Nat → α) (hA : IsMat w m r c A)
    (hd : DistinctRows w m r) :
    wp (softmax m) w (fun p w' => p = m ∧
      SetMat w w' m r c (fun i j => Flt.div (Flt.exp (A i j)) (fsum c fun k => Flt.exp (A i k)))) :=
  softmax_spec hA hd

open Finset in
/-- Over ℝ: positive rows that sum to 1, in the order of the inputs. -/
theorem C14_probabilities (w : World ℝ) (m : Mat) (r c : Nat) (A : Nat → Nat → ℝ) (hA : IsMat w m r c A)
    (hd : DistinctRows w m r) :
    wp (softmax m) w (fun p w' => p = m ∧ ∃ V, SetMat w w' m r c V ∧
      (∀ i j, i < r → j < c → 0 < V i j) ∧ (∀ i, i < r → ∑ j ∈ range c, V i j = 1) ∧
      (∀ i j k, i < r → j < c → k < c → (A i j < A i k ↔ V i j < V i k))) := by
  have hpos : ∀ i, 0 < ∑ k ∈ range c, Real.exp (A i k) := fun i =>
    Finset.sum_pos (fun _ _ => Real.exp_pos _) ⟨0, mem_range.2 hA.cpos⟩
  refine wp_mono (softmax_spec hA hd) ?_
  rintro p w1 ⟨rfl, h1⟩
  refine ⟨rfl, fun i j => Real.exp (A i j) / ∑ k ∈ range c, Real.exp (A i k), ?_, ?_, ?_, ?_⟩
  · refine h1.congr ?_
    intro i j _ _
    rw [fsum_real]; rfl
  · intro i j _ _
    exact div_pos (Real.exp_pos _) (hpos i)
  · intro i _
    rw [← Finset.sum_div, div_self (hpos i).ne']
  · intro i j k _ _ _
    rw [div_lt_div_iff_of_pos_right (hpos i), Real.exp_lt_exp]

/-- Over ℝ: two runs, on any two matrices in any states, give the same result row wherever the argument rows differ
by a constant (in particular where they agree, so the rows are independent of each other). -/
theorem C14_shift (w w2 : World ℝ) (m m2 : Mat) (r r2 c : Nat) (A A2 : Nat → Nat → ℝ) (hA : IsMat w m r c A)
    (hd : DistinctRows w m r) (hA2 : IsMat w2 m2 r2 c A2) (hd2 : DistinctRows w2 m2 r2) :
    wp (softmax m) w (fun _ w' => wp (softmax m2) w2 (fun _ w2' =>
      ∃ V V2, IsMat w' m r c V ∧ IsMat w2' m2 r2 c V2 ∧ ∀ i i2 t, i < r → i2 < r2 →
        (∀ j, j < c → A2 i2 j = A i j + t) → ∀ j, j < c → V i j = V2 i2 j)) := by
  refine wp_mono (softmax_spec hA hd) ?_
  rintro p w1 ⟨rfl, h1⟩
  refine wp_mono (softmax_spec hA2 hd2) ?_
  rintro q w3 ⟨rfl, h2⟩
  refine ⟨_, _, h1.mat, h2.mat, ?_⟩
  intro i i2 t _ _ ht j hj
  simp only [fsum_real, real_exp, real_div]
  have hs : ∑ k ∈ Finset.range c, Real.exp (A2 i2 k) = (∑ k ∈ Finset.range c, Real.exp (A i k)) * Real.exp t := by
    rw [Finset.sum_mul]
    exact Finset.sum_congr rfl fun k hk => by rw [ht k (Finset.mem_range.1 hk), Real.exp_add]
  rw [hs, ht j hj, Real.exp_add, mul_div_mul_right _ _ (Real.exp_pos t).ne']

example : ∃ w : World ℝ, ∃ m, IsMat w m 1 2 (fun _ j => (j : ℝ)) ∧ DistinctRows w m 1 :=
  exists_mat (by decide) (by decide) _
example : ∃ t : ℝ, ∀ j : Nat, j < 2 → ((j : ℝ) + 5) = (j : ℝ) + t := ⟨5, fun _ _ => rfl⟩

/-! ## C15 SparseToOneHot and RowMax -/

/-- Labels in range: the one-hot matrix, in new storage. -/
theorem C15_encode (w : World α) (x : Mat) (r c size : Nat) (X : Nat → Nat → α) (hX : IsMat w x r c X)
    (hs : 0 < size) (lab : Nat → Nat) (hlab : ∀ i, i < r → Flt.toInt (X i 0) = lab i ∧ lab i < size) :
    wp (sparseToOneHot x (size : Int)) w (fun p w' => p.2 = none ∧
      NewMat w w' p.1 r size (fun i j => if j = lab i then Flt.one else Flt.zero)) :=
  sparseToOneHot_spec hX hs lab hlab

/-- A size below 1 is an error without any effect. -/
theorem C15_bad_size (w : World α) (x : Mat) (size : Int) (h : size ≤ 0) :
    sparseToOneHot x size w = .ok ((Mat.zero, some .oneHotSize), w) := by
  unfold sparseToOneHot; rw [if_pos h]; rfl

/-- A label outside [0, size) panics. -/
theorem C15_bad_label (w : World α) (x : Mat) (r c size : Nat) (X : Nat → Nat → α) (hX : IsMat w x r c X)
    (hs : 0 < size) (i : Nat) (hi : i < r) (hbad : ¬ (0 ≤ Flt.toInt (X i 0) ∧ Flt.toInt (X i 0) < size)) :
    Panics (sparseToOneHot x (size : Int)) w := by
  unfold sparseToOneHot
  rw [if_neg (by omega), hX.rows, Int.toNat_natCast]
  have hnew := newMatrix_spec (α := α) (w := w) hX.rpos hs
  rw [wp_iff] at hnew
  obtain ⟨⟨ans, e⟩, w0, he, -, hm⟩ := hnew
  have key : Panics (forN r fun i => do
      let v ← x.at i 0
      ans.setAt i (Flt.toInt v) Flt.one) w0 := by
    have hread : ∀ (k : Nat) (w1 : World α) V, k < r → SetMat w0 w1 ans r size V → x.at (k : Int) 0 w1 = .ok (X k 0, w1) :=
      fun k w1 V hk h => at_ok (j := 0) (hm.old h hX) hk hX.cpos
    refine forN_panics (fun _ w1 => ∃ V, SetMat w0 w1 ans r size V) ⟨_, SetMat.refl hm.mat⟩ ?_ ⟨i, hi, ?_⟩
    · rintro k w1 hk ⟨V, h1⟩
      by_cases hin : 0 ≤ Flt.toInt (X k 0) ∧ Flt.toInt (X k 0) < size
      · left
        refine wp_bind_ok (hread k w1 V hk h1) ?_
        have e1 : Flt.toInt (X k 0) = ((Flt.toInt (X k 0)).toNat : Int) := by omega
        rw [e1]
        refine wp_mono (wp_setAt h1.mat ((h1.distinct _ _).2 hm.distinct) hk (by omega) _) ?_
        intro _ w2 h2
        exact ⟨_, h1.trans h2⟩
      · right
        exact ⟨.index, (bind_ok (hread k w1 V hk h1)).trans (setAt_bad h1.mat hk hin _)⟩
    · rintro w1 ⟨V, h1⟩
      exact ⟨.index, (bind_ok (hread i w1 V hi h1)).trans (setAt_bad h1.mat hi hbad _)⟩
  obtain ⟨p, hp⟩ := key
  exact ⟨p, (bind_ok he).trans (bind_error hp)⟩

/-- Scanning a one-hot row finds the label. -/
theorem scanMax_oneHot (h01 : Flt.lt (Flt.zero : α) Flt.one = true) (h00 : Flt.lt (Flt.zero : α) Flt.zero = false)
    (h10 : Flt.lt (Flt.one : α) Flt.zero = false) (n l : Nat) :
    scanMax n (fun j => if j = l then (Flt.one : α) else Flt.zero) =
      if l < n then ((l : Int), (Flt.one : α)) else (0, Flt.zero) := by
  unfold scanMax
  induction n with
  | zero => rfl
  | succ n ih =>
    simp only [accN]
    rw [ih]
    by_cases h1 : l < n
    · rw [if_pos h1, if_pos (show l < n + 1 by omega), if_neg (show ¬ (n = l) by omega), if_neg (by rw [h10]; simp)]
    · rw [if_neg h1]
      by_cases h2 : n = l
      · subst h2; simp only [if_true]; rw [if_pos h01, if_pos (by omega)]
      · rw [if_neg h2, if_neg (by rw [h00]; simp), if_neg (show ¬ l < n + 1 by omega)]

/-- RowMax inverts SparseToOneHot on class labels, for every float64 semantics in which 0 < 1, not 0 < 0, not 1 < 0
and small integers survive the conversion to float64 and back. -/
theorem C15_roundtrip [FltInt α] (h01 : Flt.lt (Flt.zero : α) Flt.one = true)
    (h00 : Flt.lt (Flt.zero : α) Flt.zero = false) (h10 : Flt.lt (Flt.one : α) Flt.zero = false) (w : World α) (x : Mat)
    (r c size : Nat) (lab : Nat → Nat) (X : Nat → Nat → α) (hX : IsMat w x r c X)
    (hsize : size ≤ 2 ^ 53) (hlab : ∀ i, i < r → X i 0 = Flt.ofInt (lab i) ∧ lab i < size) :
    wp (do let p ← sparseToOneHot x (size : Int); rowMax p.1) w (fun q w' =>
      IsMat w' q r 1 (fun i _ => Flt.ofInt (lab i)) ∧ OnlyAllocs w w') := by
  have hs : 0 < size := by have := hlab 0 hX.rpos; omega
  refine wp_bind_mono (sparseToOneHot_spec hX hs lab fun i hi => ⟨?_, (hlab i hi).2⟩) ?_
  · have := (hlab i hi).2
    rw [(hlab i hi).1, FltInt.toInt_ofInt _ (by omega) (by omega)]
  · rintro ⟨p, e⟩ w1 ⟨-, h1⟩
    refine wp_mono (rowMax_spec h1.mat) ?_
    intro q w2 h2
    refine ⟨h2.mat.congr ?_, h1.frame.trans h2.frame⟩
    intro i j hi hj
    rw [scanMax_oneHot h01 h00 h10, if_pos (hlab i hi).2]

/-- In particular over ℝ. -/
theorem C15_roundtrip_real (w : World ℝ) (x : Mat) (r c size : Nat) (lab : Nat → Nat) (X : Nat → Nat → ℝ)
    (hX : IsMat w x r c X) (hsize : size ≤ 2 ^ 53) (hlab : ∀ i, i < r → X i 0 = (lab i : ℝ) ∧ lab i < size) :
    wp (do let p ← sparseToOneHot x (size : Int); rowMax p.1) w (fun q w' =>
      IsMat w' q r 1 (fun i _ => (lab i : ℝ)) ∧ OnlyAllocs w w') := by
  refine wp_mono (C15_roundtrip (by simp) (by simp) (by simp) w x r c size lab X hX hsize
    (fun i hi => ⟨by rw [(hlab i hi).1]; simp, (hlab i hi).2⟩)) ?_
  rintro q w' ⟨h1, h2⟩
  exact ⟨h1.congr (by simp), h2⟩

/-- labels 2, 0 of three classes -/
example : ∃ w : World ℝ, ∃ x, ∃ lab : Nat → Nat, IsMat w x 2 1 (fun i _ => (lab i : ℝ)) ∧ ∀ i, i < 2 → lab i < 3 := by
  obtain ⟨w, x, h, _⟩ := exists_mat (α := ℝ) (r := 2) (c := 1) (by decide) (by decide)
    (fun i _ => (((if i = 0 then 2 else 0) : Nat) : ℝ))
  exact ⟨w, x, fun i => if i = 0 then 2 else 0, h, by intro i _; dsimp only; split <;> omega⟩

/-! ## C16 RowMax as argmax

False of the code for rows without a positive entry: the scan starts with the value 0 (misc.go:39-41), so such a row
always yields index 0. -/

/-- The full claim (over ℝ). -/
def C16_claim : Prop :=
  ∀ (w : World ℝ) (m : Mat) (r c : Nat) (A : Nat → Nat → ℝ), IsMat w m r c A →
    wp (rowMax m) w (fun p w' => ∃ V, IsMat w' p r 1 V ∧ ∀ i, i < r → ∃ j, j < c ∧ V i 0 = (j : ℝ) ∧
      (∀ k, k < c → A i k ≤ A i j) ∧ (∀ k, k < j → A i k < A i j))

theorem scanMax_real (n : Nat) (f : Nat → ℝ) :
    ((scanMax n f).1 = 0 ∧ (scanMax n f).2 = 0 ∧ ∀ k, k < n → f k ≤ 0) ∨
    (∃ j : Nat, j < n ∧ (scanMax n f).1 = j ∧ (scanMax n f).2 = f j ∧ 0 < f j ∧ (∀ k, k < n → f k ≤ f j) ∧
      ∀ k, k < j → f k < f j) := by
  unfold scanMax
  induction n with
  | zero => left; simp [accN]
  | succ n ih =>
    simp only [accN]
    set p := accN n (fun j p => if Flt.lt p.2 (f j) = true then ((j : Int), f j) else p) ((0 : Int), (Flt.zero : ℝ)) with hp
    rw [real_lt]
    by_cases h : p.2 < f n
    · rw [if_pos (by simpa using h)]
      right
      refine ⟨n, by omega, rfl, rfl, ?_, ?_, ?_⟩
      · rcases ih with ⟨_, h2, _⟩ | ⟨j, _, _, h3, h4, _⟩ <;> linarith
      · intro k hk
        rcases Nat.lt_succ_iff_lt_or_eq.1 hk with hk | rfl
        · rcases ih with ⟨_, h2, h3⟩ | ⟨j, _, _, h3, h4, h5, _⟩
          · have := h3 k hk; linarith
          · have := h5 k hk; linarith
        · exact le_refl _
      · intro k hk
        rcases ih with ⟨_, h2, h3⟩ | ⟨j, _, _, h3, h4, h5, _⟩
        · have := h3 k hk; linarith
        · have := h5 k hk; linarith
    · rw [if_neg (by simpa using h)]
      rcases ih with ⟨h1, h2, h3⟩ | ⟨j, h1, h2, h3, h4, h5, h6⟩
      · left
        refine ⟨h1, h2, ?_⟩
        intro k hk
        rcases Nat.lt_succ_iff_lt_or_eq.1 hk with hk | rfl
        · exact h3 k hk
        · linarith
      · right
        refine ⟨j, by omega, h2, h3, h4, ?_, h6⟩
        intro k hk
        rcases Nat.lt_succ_iff_lt_or_eq.1 hk with hk | rfl
        · exact h5 k hk
        · linarith

/-- What RowMax computes over ℝ, for all matrices: the first index of the largest entry where a positive entry exists
(the full claim for these rows), 0 otherwise.  Missing from the full claim: rows without a positive entry. -/
theorem C16_rowMax_partial (w : World ℝ) (m : Mat) (r c : Nat) (A : Nat → Nat → ℝ) (hA : IsMat w m r c A) :
    wp (rowMax m) w (fun p w' => ∃ V, NewMat w w' p r 1 V ∧ ∀ i, i < r →
      ((∃ k, k < c ∧ 0 < A i k) → ∃ j, j < c ∧ V i 0 = (j : ℝ) ∧
        (∀ k, k < c → A i k ≤ A i j) ∧ (∀ k, k < j → A i k < A i j)) ∧
      ((∀ k, k < c → A i k ≤ 0) → V i 0 = 0)) := by
  refine wp_mono (rowMax_spec hA) ?_
  intro p w1 h1
  refine ⟨_, h1, ?_⟩
  intro i hi
  constructor
  · rintro ⟨k, hk, hpos⟩
    rcases scanMax_real c (A i) with ⟨_, _, h⟩ | ⟨j, h1, h2, h3, h4, h5, h6⟩
    · exact absurd (h k hk) (not_le.2 hpos)
    · exact ⟨j, h1, by rw [h2]; simp, h5, h6⟩
  · intro hneg
    rcases scanMax_real c (A i) with ⟨h, _, _⟩ | ⟨j, h1, h2, h3, h4, h5, h6⟩
    · rw [h]; simp
    · exact absurd (hneg j h1) (not_le.2 h4)

theorem C16_false : ¬ C16_claim := by
  intro h
  obtain ⟨w, m, hA, -⟩ := exists_mat (α := ℝ) (r := 1) (c := 2) (by decide) (by decide) (fun _ j => (j : ℝ) - 2)
  have h1 := wp_and (h w m 1 2 _ hA) (C16_rowMax_partial w m 1 2 _ hA)
  rw [wp_iff] at h1
  obtain ⟨p, w', -, ⟨V, hV, hc⟩, V', hV', hc'⟩ := h1
  obtain ⟨j, hj, hv, hmax, -⟩ := hc 0 (by decide)
  have h0 : V' 0 0 = 0 := (hc' 0 (by decide)).2 (by
    intro k hk
    have : (k : ℝ) < 2 := by exact_mod_cast hk
    linarith)
  rw [hV.entries_unique hV'.mat (by decide) (by decide), h0] at hv
  have hj0 : j = 0 := by exact_mod_cast hv.symm
  have := hmax 1 (by decide)
  rw [hj0] at this
  norm_num at this

/-- rows with a positive entry exist -/
example : ∃ w : World ℝ, ∃ m, IsMat w m 2 3 (fun _ j => (j : ℝ)) ∧ ∃ k : Nat, k < 3 ∧ (0 : ℝ) < (k : ℝ) := by
  obtain ⟨w, m, h, _⟩ := exists_mat (α := ℝ) (r := 2) (c := 3) (by decide) (by decide) (fun _ j => (j : ℝ))
  exact ⟨w, m, h, 1, by decide, by norm_num⟩

/-! ## C17 OutputBinaryValues -/

theorem C17_threshold (w : World α) (m : Mat) (r c : Nat) (A : Nat → Nat → α) (hA : IsMat w m r c A)
    (hd : DistinctRows w m r) :
    wp (outputBinaryValues m) w (fun p w' => p = m ∧
      SetMat w w' m r c (fun i j => if Flt.lt (A i j) Flt.half then Flt.zero else Flt.one)) :=
  outputBinaryValues_spec hA hd

/-- Over ℝ the result is 0/1-valued and a second application changes nothing. -/
theorem C17_idempotent (w : World ℝ) (m : Mat) (r c : Nat) (A : Nat → Nat → ℝ) (hA : IsMat w m r c A)
    (hd : DistinctRows w m r) :
    wp (outputBinaryValues m) w (fun p w1 => p = m ∧ ∃ V, IsMat w1 m r c V ∧
      (∀ i j, i < r → j < c → (A i j < 1 / 2 → V i j = 0) ∧ (1 / 2 ≤ A i j → V i j = 1)) ∧
      wp (outputBinaryValues m) w1 (fun q w2 => q = m ∧ IsMat w2 m r c V)) := by
  refine wp_mono (outputBinaryValues_spec hA hd) ?_
  rintro p w1 ⟨rfl, h1⟩
  refine ⟨rfl, _, h1.mat, ?_, ?_⟩
  · intro i j _ _
    constructor
    · intro h; rw [if_pos (by simpa using h)]; simp
    · intro h; rw [if_neg (by simpa using h)]; simp
  · refine wp_mono (outputBinaryValues_spec h1.mat ((h1.distinct _ _).2 hd)) ?_
    rintro q w2 ⟨rfl, h2⟩
    refine ⟨rfl, h2.mat.congr ?_⟩
    intro i j _ _
    by_cases h : Flt.lt (A i j) Flt.half = true
    · rw [if_pos h, if_pos]; simp
    · rw [if_neg h, if_neg]; norm_num [Flt.one]

example (A : Nat → Nat → ℝ) : ∃ w : World ℝ, ∃ m, IsMat w m 2 3 A ∧ DistinctRows w m 2 :=
  exists_mat (by decide) (by decide) A

/-! ## C18 ShuffleDataset -/

/-- One permutation `σ` of the row numbers is applied to X and to Y; rows are moved, not copied: row i of the result
is the row (the storage) that was at σ i, and the contents of all rows, and all other matrices, are untouched. -/
theorem C18_shuffle (draw : Nat → Nat) (w : World α) (X Y : Mat) (r c c' : Nat) (A B : Nat → Nat → α)
    (hX : IsMat w X r c A) (hY : IsMat w Y r c' B) (hne : X.m.addr ≠ Y.m.addr)
    (hdraw : ∀ i, 1 ≤ i → i < r → draw i ≤ i) :
    wp (shuffleDataset draw X Y) w (fun p w' => p = (X, Y) ∧ ∃ σ : Equiv.Perm Nat, (∀ i, i < r ↔ σ i < r) ∧
      IsMat w' X r c (fun i => A (σ i)) ∧ IsMat w' Y r c' (fun i => B (σ i)) ∧
      (∀ i, i < r → w'.rowAddr X i = w.rowAddr X (σ i)) ∧ (∀ i, i < r → w'.rowAddr Y i = w.rowAddr Y (σ i)) ∧
      w'.flt = w.flt ∧ Frame { outs := fun a => a = X.m.addr ∨ a = Y.m.addr } w w') := by
  unfold shuffleDataset
  have hr := hX.rpos
  rw [if_neg (by rw [hX.rows]; omega), hX.rows, Int.toNat_natCast]
  refine wp_bind_mono (shuffleFrom_spec draw hne (r - 1) (by omega)
    (fun i h1 h2 => hdraw i h1 (by omega)) w A B hX hY) ?_
  rintro _ w1 ⟨σ, hσ, e, o, pX, pY, -⟩
  have hσr : ∀ i, i < r ↔ σ i < r := by
    intro i
    constructor
    · intro hi
      by_contra h
      have := σ.injective (hσ (σ i) (by omega))
      omega
    · intro hi
      by_contra h
      rw [hσ i (by omega)] at hi
      exact h hi
  have hn : w1.next = w.next := by rw [e]
  have hf : w1.flt = w.flt := by rw [e]
  refine ⟨rfl, σ, hσr, ?_, ?_, pX, pY, hf, ?_⟩
  · refine ⟨hX.rows, hX.cols, hX.len, hX.rpos, hX.cpos, by rw [hn]; exact hX.addr_lt, ?_⟩
    intro i hi
    rw [pX i hi, hn, hf]
    exact hX.row _ ((hσr i).1 hi)
  · refine ⟨hY.rows, hY.cols, hY.len, hY.rpos, hY.cpos, by rw [hn]; exact hY.addr_lt, ?_⟩
    intro i hi
    rw [pY i hi, hn, hf]
    exact hY.row _ ((hσr i).1 hi)
  · refine ⟨by omega, fun a _ _ => by rw [hf], ?_, fun a _ _ => by rw [e], fun a _ _ => by rw [e], by rw [e], by rw [e],
      fun _ => by rw [e], fun _ => by rw [e], fun _ => by rw [e], by rw [e]⟩
    intro a _ h
    exact o a (fun h' => h (.inl h')) (fun h' => h (.inr h'))

/-- three samples and labels, every draw 0 -/
example (A B : Nat → Nat → α) : ∃ w : World α, ∃ X Y, IsMat w X 3 2 A ∧ IsMat w Y 3 1 B ∧ X.m.addr ≠ Y.m.addr ∧
    ∀ i, 1 ≤ i → i < 3 → (fun _ => 0 : Nat → Nat) i ≤ i := by
  have h1 := place_spec (emptyWorld (α := α)) A (r := 3) (c := 2) (by decide) (by decide)
  have h2 := place_spec (placeW (emptyWorld (α := α)) 3 2 A) B (r := 3) (c := 1) (by decide) (by decide)
  refine ⟨_, _, _, h1.mat.allocs h2.frame, h2.mat, ?_, fun _ _ _ => Nat.zero_le _⟩
  have := h1.mat.addr_lt
  have := h2.fresh_outer
  omega

/-! ## C19 Accuracies -/

open Finset

/-- Number of (row, column) positions satisfying `p`. -/
def positions (r c : Nat) (p : Nat → Nat → Bool) : Nat := ((range r ×ˢ range c).filter fun q => p q.1 q.2).card

theorem C19_regression (w : World α) (a b : Mat) (r c : Nat) (A B : Nat → Nat → α) (hA : IsMat w a r c A)
    (hB : IsMat w b r c B) (prec : α) :
    wp (regressionAccuracy a b prec) w (fun v _ =>
      v = Flt.div (Flt.ofInt (positions r c fun i j => Flt.lt (Flt.abs (Flt.sub (A i j) (B i j))) prec))
        (Flt.ofInt ((r : Int) * c))) := by
  refine wp_mono (regressionAccuracy_spec hA hB prec) ?_
  rintro v w' ⟨-, rfl⟩
  rw [count2_card]; rfl

theorem C19_binary (w : World α) (a b : Mat) (r c : Nat) (A B : Nat → Nat → α) (hA : IsMat w a r c A)
    (hd : DistinctRows w a r) (hB : IsMat w b r c B) (hdis : ∀ x, w.IsRow b r x → ¬ w.IsRow a r x) :
    wp (binaryCategoricalAccuracy a b) w (fun v _ =>
      v = Flt.div (Flt.ofInt (positions r c fun i j =>
          Flt.eq (if Flt.lt (A i j) Flt.half then Flt.zero else Flt.one) (B i j)))
        (Flt.ofInt ((r : Int) * c))) := by
  refine wp_mono (binaryAccuracy_spec hA hd hB hdis) ?_
  rintro v w' ⟨-, rfl⟩
  rw [count2_card]; rfl

/-- CategoricalAccuracy: the rows where the target holds a 1 in the column computed by RowMax. -/
theorem C19_categorical [FltInt α] (w : World α) (a b : Mat) (r c : Nat) (A B : Nat → Nat → α)
    (hA : IsMat w a r c A) (hB : IsMat w b r c B) (hc : c ≤ 2 ^ 53) :
    wp (rowMax a) w (fun p w1 => ∃ am : Nat → Nat, (∀ i, i < r → am i < c) ∧
      IsMat w1 p r 1 (fun i _ => Flt.ofInt (am i)) ∧
      wp (categoricalAccuracy a b) w (fun v _ =>
        v = Flt.div (Flt.ofInt (((range r).filter fun i => Flt.eq (B i (am i)) Flt.one = true).card : Nat))
          (Flt.ofInt (r : Int)))) := by
  refine wp_mono (rowMax_spec hA) ?_
  intro p w1 h1
  refine ⟨fun i => (scanMax c (A i)).1.toNat, ?_, h1.mat.congr ?_, ?_⟩
  · intro i _
    have := scanMax_range c (A i) hA.cpos
    dsimp only
    omega
  · intro i j _ _
    have := scanMax_range c (A i) hA.cpos
    rw [show (((scanMax c (A i)).1.toNat : Nat) : Int) = (scanMax c (A i)).1 by omega]
  · refine wp_mono (categoricalAccuracy_spec hA hB hc) ?_
    rintro v w' ⟨-, rfl⟩
    rw [accN_count_card r (fun i => Flt.eq (B i (scanMax c (A i)).1.toNat) Flt.one) 0, Nat.zero_add]

/-- A fraction of positions is in [0,1] and is 1 exactly when all positions count. -/
theorem fraction_real (r c : Nat) (hr : 0 < r) (hc : 0 < c) (p : Nat → Nat → Bool) :
    (0 : ℝ) ≤ (positions r c p : ℝ) / ((r : ℝ) * c) ∧ (positions r c p : ℝ) / ((r : ℝ) * c) ≤ 1 ∧
    ((positions r c p : ℝ) / ((r : ℝ) * c) = 1 ↔ ∀ i j, i < r → j < c → p i j = true) := by
  have hrc : (0 : ℝ) < (r : ℝ) * c := by positivity
  have hcard : (range r ×ˢ range c).card = r * c := by rw [card_product, card_range, card_range]
  have hle : positions r c p ≤ r * c := hcard ▸ card_filter_le _ _
  refine ⟨by positivity, ?_, ?_⟩
  · rw [div_le_one hrc]; exact_mod_cast hle
  · rw [div_eq_one_iff_eq hrc.ne']
    have : ((positions r c p : ℝ) = (r : ℝ) * c) ↔ positions r c p = r * c := by norm_cast
    rw [this]
    unfold positions
    rw [← hcard, card_filter_eq_iff]
    simp only [mem_product, mem_range, Prod.forall]
    exact ⟨fun h i j hi hj => h i j ⟨hi, hj⟩, fun h i j hij => h i j hij.1 hij.2⟩

/-- Over ℝ: RegressionAccuracy is in [0,1] and is 1 iff every prediction is within the precision. -/
theorem C19_regression_real (w : World ℝ) (a b : Mat) (r c : Nat) (A B : Nat → Nat → ℝ) (hA : IsMat w a r c A)
    (hB : IsMat w b r c B) (prec : ℝ) :
    wp (regressionAccuracy a b prec) w (fun v _ => 0 ≤ v ∧ v ≤ 1 ∧
      (v = 1 ↔ ∀ i j, i < r → j < c → |A i j - B i j| < prec)) := by
  refine wp_mono (C19_regression w a b r c A B hA hB prec) ?_
  rintro v w' rfl
  have := fraction_real r c hA.rpos hA.cpos (fun i j => Flt.lt (Flt.abs (Flt.sub (A i j) (B i j))) prec)
  simpa using this

/-- Over ℝ: BinaryCategoricalAccuracy is in [0,1] and is 1 iff every thresholded prediction equals its target. -/
theorem C19_binary_real (w : World ℝ) (a b : Mat) (r c : Nat) (A B : Nat → Nat → ℝ) (hA : IsMat w a r c A)
    (hd : DistinctRows w a r) (hB : IsMat w b r c B) (hdis : ∀ x, w.IsRow b r x → ¬ w.IsRow a r x) :
    wp (binaryCategoricalAccuracy a b) w (fun v _ => 0 ≤ v ∧ v ≤ 1 ∧
      (v = 1 ↔ ∀ i j, i < r → j < c → (if A i j < 1 / 2 then 0 else 1) = B i j)) := by
  refine wp_mono (C19_binary w a b r c A B hA hd hB hdis) ?_
  rintro v w' rfl
  have := fraction_real r c hA.rpos hA.cpos
    (fun i j => Flt.eq (if Flt.lt (A i j) Flt.half then Flt.zero else Flt.one) (B i j))
  simpa using this

/-- Over ℝ: CategoricalAccuracy is in [0,1] and, if every row has a positive prediction, it is 1 iff in every row the
target is 1 at the first largest prediction. -/
theorem C19_categorical_real (w : World ℝ) (a b : Mat) (r c : Nat) (A B : Nat → Nat → ℝ) (hA : IsMat w a r c A)
    (hB : IsMat w b r c B) (hc : c ≤ 2 ^ 53) (hpos : ∀ i, i < r → ∃ k, k < c ∧ 0 < A i k) :
    wp (categoricalAccuracy a b) w (fun v _ => 0 ≤ v ∧ v ≤ 1 ∧
      (v = 1 ↔ ∀ i, i < r → ∃ j, j < c ∧ B i j = 1 ∧ (∀ k, k < c → A i k ≤ A i j) ∧ ∀ k, k < j → A i k < A i j)) := by
  refine wp_mono (categoricalAccuracy_spec hA hB hc) ?_
  rintro v w' ⟨-, rfl⟩
  rw [accN_count_card r (fun i => Flt.eq (B i (scanMax c (A i)).1.toNat) Flt.one) 0, Nat.zero_add]
  have hr : (0 : ℝ) < r := by exact_mod_cast hA.rpos
  have hle : ((range r).filter fun i => Flt.eq (B i (scanMax c (A i)).1.toNat) Flt.one = true).card ≤ r := by
    have := card_filter_le (range r) (fun i => Flt.eq (B i (scanMax c (A i)).1.toNat) Flt.one = true)
    rwa [card_range] at this
  rw [real_div, real_ofInt, real_ofInt, Int.cast_natCast, Int.cast_natCast]
  refine ⟨by positivity, ?_, ?_⟩
  · rw [div_le_one hr]; exact_mod_cast hle
  · rw [div_eq_one_iff_eq hr.ne', Nat.cast_inj]
    have e : (((range r).filter fun i => Flt.eq (B i (scanMax c (A i)).1.toNat) Flt.one = true).card = r) ↔
        ∀ i ∈ range r, Flt.eq (B i (scanMax c (A i)).1.toNat) Flt.one = true := by
      conv_lhs => rhs; rw [← card_range r]
      exact card_filter_eq_iff
    rw [e]
    simp only [mem_range, real_eq, decide_eq_true_eq, real_ofInt, Int.cast_one]
    refine forall_congr' fun i => forall_congr' fun hi => ?_
    rcases scanMax_real c (A i) with ⟨_, _, h⟩ | ⟨j, h1, h2, h3, h4, h5, h6⟩
    · obtain ⟨k, hk, hp⟩ := hpos i hi
      exact absurd (h k hk) (not_le.2 hp)
    · rw [h2, Int.toNat_natCast]
      constructor
      · intro h; exact ⟨j, h1, h, h5, h6⟩
      · rintro ⟨l, hl, hb, hmax, hfirst⟩
        have : l = j := by
          rcases Nat.lt_trichotomy l j with h | h | h
          · have := h6 l h; have := hmax j h1; linarith
          · exact h
          · have := hfirst j h; have := h5 l hl; linarith
        rw [← this]; exact hb

/-- two samples, two outputs, separate storage, positive predictions -/
example : ∃ w : World ℝ, ∃ a b, IsMat w a 2 2 (fun _ j => (j : ℝ)) ∧ DistinctRows w a 2 ∧
    IsMat w b 2 2 (fun _ j => (j : ℝ)) ∧ (∀ x, w.IsRow b 2 x → ¬ w.IsRow a 2 x) ∧
    ∀ i : Nat, i < 2 → ∃ k : Nat, k < 2 ∧ (0 : ℝ) < (k : ℝ) := by
  obtain ⟨w, a, b, h1, h2, h3, _, h5⟩ := exists_mat2 (α := ℝ) (r := 2) (c := 2) (r' := 2) (c' := 2)
    (by decide) (by decide) (by decide) (by decide) (fun _ j => (j : ℝ)) (fun _ j => (j : ℝ))
  exact ⟨w, a, b, h1, h2, h3, fun x hb ha => h5 x ha hb, fun _ _ => ⟨1, by decide, by norm_num⟩⟩

/-! ## C20 Accuracies do not modify their arguments

False of the code: BinaryCategoricalAccuracy thresholds the predictions in place (accuracy.go:54). -/

/-- The full claim for BinaryCategoricalAccuracy over ℝ. -/
def C20_claim_binary : Prop :=
  ∀ (w : World ℝ) (a b : Mat) (r c : Nat) (A B : Nat → Nat → ℝ), IsMat w a r c A → DistinctRows w a r →
    IsMat w b r c B → (∀ x, w.IsRow b r x → ¬ w.IsRow a r x) →
    wp (binaryCategoricalAccuracy a b) w (fun _ w' => IsMat w' a r c A ∧ IsMat w' b r c B)

/-- What holds: Regression- and CategoricalAccuracy change nothing that existed; BinaryCategoricalAccuracy changes
nothing but the predictions, and leaves in them exactly the thresholded values.  Missing: predictions unchanged in
the binary case. -/
theorem C20_readonly_partial [FltInt α] (w : World α) (a b : Mat) (r c : Nat) (A B : Nat → Nat → α)
    (hA : IsMat w a r c A) (hB : IsMat w b r c B) (hc : c ≤ 2 ^ 53) (prec : α) :
    wp (regressionAccuracy a b prec) w (fun _ w' => w' = w) ∧
    wp (categoricalAccuracy a b) w (fun _ w' => OnlyAllocs w w' ∧ IsMat w' a r c A ∧ IsMat w' b r c B) ∧
    (DistinctRows w a r → (∀ x, w.IsRow b r x → ¬ w.IsRow a r x) →
      wp (binaryCategoricalAccuracy a b) w (fun _ w' => IsMat w' b r c B ∧
        SetMat w w' a r c (fun i j => if Flt.lt (A i j) Flt.half then Flt.zero else Flt.one))) := by
  refine ⟨?_, ?_, ?_⟩
  · exact wp_mono (regressionAccuracy_spec hA hB prec) fun _ _ h => h.1
  · refine wp_mono (categoricalAccuracy_spec hA hB hc) ?_
    rintro _ w' ⟨h, -⟩
    exact ⟨h, hA.allocs h, hB.allocs h⟩
  · intro hd hdis
    refine wp_mono (binaryAccuracy_spec hA hd hB hdis) ?_
    rintro _ w' ⟨h, -⟩
    exact ⟨hB.frame h.frame (fun h => h) hdis, h⟩

theorem C20_false : ¬ C20_claim_binary := by
  intro h
  obtain ⟨w, a, b, h1, h2, h3, _, h5⟩ := exists_mat2 (α := ℝ) (r := 1) (c := 1) (r' := 1) (c' := 1)
    (by decide) (by decide) (by decide) (by decide) (fun _ _ => (3 / 10 : ℝ)) (fun _ _ => (0 : ℝ))
  have hdis : ∀ x, w.IsRow b 1 x → ¬ w.IsRow a 1 x := fun x hb ha => h5 x ha hb
  have hh := wp_and (h w a b 1 1 _ _ h1 h2 h3 hdis) (binaryAccuracy_spec h1 h2 h3 hdis)
  rw [wp_iff] at hh
  obtain ⟨v, w', -, ⟨ha, -⟩, hs, -⟩ := hh
  have := ha.entries_unique hs.mat (i := 0) (j := 0) (by decide) (by decide)
  simp only [real_lt, real_half, real_ofInt, Int.cast_zero, Int.cast_one] at this
  norm_num at this

example (A B : Nat → Nat → ℝ) : ∃ w : World ℝ, ∃ a b, IsMat w a 2 2 A ∧ DistinctRows w a 2 ∧ IsMat w b 2 2 B ∧
    (∀ x, w.IsRow b 2 x → ¬ w.IsRow a 2 x) := by
  obtain ⟨w, a, b, h1, h2, h3, _, h5⟩ := exists_mat2 (α := ℝ) (r := 2) (c := 2) (r' := 2) (c' := 2)
    (by decide) (by decide) (by decide) (by decide) A B
  exact ⟨w, a, b, h1, h2, h3, fun x hb ha => h5 x ha hb⟩

end NN
