import Verif.Lemmas.TestsRun
import Verif.Props.C13_C20
/- The tests of misc_test.go and accuracy_test.go with float64. -/

set_option linter.unusedSimpArgs false

namespace NN
open Go F64

attribute [local irreducible] wp

theorem testSparseToOneHot_run [Libm] (w : World F64) : wp testSparseToOneHot w fun f w' => f = [] ∧ OnlyAllocs w w' := by
  unfold testSparseToOneHot
  refine wp_bind_mono (matLit_spec 1 (by simp) (by omega) (by simp [ints])) ?_
  rintro ⟨m, e⟩ w1 ⟨-, h1⟩
  dsimp only at h1 ⊢
  have hlab : ∀ i, i < 4 → Flt.toInt (entry [ints (α := F64) [1], ints [3], ints [0], ints [2]] i 0) = ([1, 3, 0, 2][i]?.getD 0 : Nat) ∧
      [1, 3, 0, 2][i]?.getD 0 < 5 := by
    intro i hi
    interval_cases i <;> exact ⟨FltInt.toInt_ofInt _ (by norm_num) (by norm_num), by simp⟩
  refine wp_bind_mono (sparseToOneHot_spec (size := 5) h1.mat (by omega) (fun i => [1, 3, 0, 2][i]?.getD 0) hlab) ?_
  rintro ⟨o, e⟩ w2 ⟨he, h2⟩
  obtain rfl : e = none := he
  dsimp only at h2 ⊢
  rw [wp_bind]
  refine (wp_at (i := 1) (j := 3) h2.mat (by simp) (by omega)).2 ?_
  have e1 := int_eq 1
  rw [if_neg (by simp; exact e1)]
  exact wp_pure.2 ⟨rfl, h1.frame.trans h2.frame⟩

theorem testRowMax_run [Libm] (w : World F64) : wp (testRowMax flit) w fun f w' => f = [] ∧ OnlyAllocs w w' := by
  unfold testRowMax
  refine wp_bind_mono (matLit_spec 3 (by simp) (by omega) (by simp [ints])) ?_
  rintro ⟨m, e⟩ w1 ⟨-, h1⟩
  dsimp only at h1 ⊢
  refine wp_bind_mono (rowMax_spec h1.mat) ?_
  rintro o w2 h2
  rw [wp_bind]
  refine (wp_at (i := 2) (j := 0) h2.mat (by simp) (by omega)).2 ?_
  have l1 : Flt.lt (Flt.ofInt 0 : F64) (Flt.ofInt 2) = true := by rw [f64_lt_int _ _ (by norm_num) (by norm_num)]; rfl
  have l2 : Flt.lt (Flt.ofInt 2 : F64) (Flt.ofInt 5) = true := by rw [f64_lt_int _ _ (by norm_num) (by norm_num)]; rfl
  have l3 : Flt.lt (Flt.ofInt 5 : F64) (Flt.ofInt 1) = false := by rw [f64_lt_int _ _ (by norm_num) (by norm_num)]; rfl
  have e1 := int_eq 1
  simp [scanMax, accN, entry, ints, l1, l2, l3]
  rw [e1]
  exact wp_pure.2 ⟨rfl, h1.frame.trans h2.frame⟩

theorem near_half [Libm] : Near (Flt.half : F64) (1 / 2) (1 / 10 ^ 9) := near_round (by norm_num [abs_of_pos])

theorem testOutputBinaryValues_run [Libm] (w : World F64) : wp (testOutputBinaryValues flit) w fun f w' => f = [] ∧ OnlyAllocs w w' := by
  unfold testOutputBinaryValues
  refine wp_bind_mono (matLit_spec 1 (by simp) (by omega) (by simp [ints])) ?_
  rintro ⟨m, e⟩ w1 ⟨-, h1⟩
  dsimp only at h1 ⊢
  refine wp_bind_mono (outputBinaryValues_spec h1.mat h1.distinct) ?_
  rintro o w2 ⟨rfl, h2⟩
  replace h2 := h1.set h2
  rw [wp_bind]
  refine (wp_at (i := 2) (j := 0) h2.mat (by simp) (by omega)).2 ?_
  have l1 : Flt.lt (flit 9 1) (Flt.half : F64) = false := near_not_lt (near_flit (by norm_num [abs_of_pos])) near_half (by norm_num)
  have l2 : Flt.lt (flit 2 1) (Flt.half : F64) = true := near_lt (near_flit (by norm_num [abs_of_pos])) near_half (by norm_num)
  have e1 := int_eq 1
  have e0 := int_eq 0
  simp only [entry, List.getElem?_cons_zero, List.getElem?_cons_succ, Option.getD_some, l1]
  rw [if_neg (by simp; exact e1), wp_bind]
  refine (wp_at (i := 0) (j := 0) h2.mat (by simp) (by omega)).2 ?_
  simp only [entry, List.getElem?_cons_zero, List.getElem?_cons_succ, Option.getD_some, l2]
  rw [if_neg (by simp; exact e0)]
  exact wp_pure.2 ⟨rfl, h2.frame⟩

theorem testRegressionAccuracy_run [Libm] (w : World F64) : wp (testRegressionAccuracy flit) w fun f w' => f = [] ∧ OnlyAllocs w w' := by
  unfold testRegressionAccuracy
  refine wp_bind_mono (matLit_spec 2 (by simp) (by omega) (by simp [ints])) ?_
  rintro ⟨a, e⟩ w1 ⟨-, h1⟩
  refine wp_bind_mono (matLit_spec 2 (by simp) (by omega) (by simp [ints])) ?_
  rintro ⟨b, e⟩ w2 ⟨-, h2⟩
  dsimp only at h1 h2 ⊢
  refine wp_bind_mono (regressionAccuracy_spec (h1.mat.allocs h2.frame) h2.mat _) ?_
  rintro v w3 ⟨rfl, hv⟩
  have d : ∀ (p q : Int) (e f : Nat), |(p : ℝ) / 10 ^ e| ≤ 100 → |(q : ℝ) / 10 ^ f| ≤ 100 →
      Near (Flt.abs (flit p e -. flit q f)) |(p : ℝ) / 10 ^ e - (q : ℝ) / 10 ^ f| (3 / 10 ^ 9) := fun p q e f h1 h2 =>
    near_abs (near_sub (near_flit (h1.trans (by norm_num))) (near_flit (h2.trans (by norm_num))) h1 h2)
  have l00 : Flt.lt (Flt.abs (flit 1 1 -. flit 105 3)) (flit 1 2) = true :=
    near_lt (d _ _ _ _ (by norm_num [abs_of_pos]) (by norm_num [abs_of_pos])) (near_flit (by norm_num [abs_of_pos])) (by norm_num [abs_of_neg])
  have l01 : Flt.lt (Flt.abs (flit 2 1 -. flit 199 3)) (flit 1 2) = true :=
    near_lt (d _ _ _ _ (by norm_num [abs_of_pos]) (by norm_num [abs_of_pos])) (near_flit (by norm_num [abs_of_pos])) (by norm_num [abs_of_pos])
  have l10 : Flt.lt (Flt.abs (flit 2 1 -. flit 3 1)) (flit 1 2) = false :=
    near_not_lt (d _ _ _ _ (by norm_num [abs_of_pos]) (by norm_num [abs_of_pos])) (near_flit (by norm_num [abs_of_pos])) (by norm_num [abs_of_neg])
  have l11 : Flt.lt (Flt.abs (flit 5 1 -. flit 502 3)) (flit 1 2) = true :=
    near_lt (d _ _ _ _ (by norm_num [abs_of_pos]) (by norm_num [abs_of_pos])) (near_flit (by norm_num [abs_of_pos])) (by norm_num [abs_of_neg])
  have hc : v = Flt.ofInt 3 /. Flt.ofInt 4 := by
    rw [hv]
    simp only [count2, accN, entry, List.length_cons, List.length_nil, List.getElem?_cons_zero, List.getElem?_cons_succ, Option.getD_some, l00, l01, l10, l11,
      Nat.zero_add]
    norm_num
  have h34 : (Flt.ofInt 3 : F64) /. Flt.ofInt 4 = flit 75 2 := by
    have h3 : IsInt (Flt.ofInt 3 : F64) 3 := isInt_round (by norm_num) (by norm_num)
    have h4 : IsInt (Flt.ofInt 4 : F64) 4 := isInt_round (by norm_num) (by norm_num)
    show F64.div _ _ = _
    rw [div_fin h3.fin h4.fin (by rw [h4.val]; norm_num), h3.val, h4.val, h3.sign, h4.sign]
    unfold flit
    norm_num
  rw [hc, h34]
  have e1 : Flt.eq (flit 75 2) (flit 75 2) = true := round_eq_self _ _
  rw [e1]
  exact wp_pure.2 ⟨rfl, h1.frame.trans h2.frame⟩

theorem one_acc [Libm] (n : Int) (h : 0 < n) (h2 : n ≤ 1000) : Flt.eq ((Flt.ofInt n : F64) /. Flt.ofInt n) (Flt.ofInt 1) = true := by
  rw [f64_div n n ⟨by omega, by omega⟩ ⟨h, by omega⟩ (by omega) (dvd_refl _), Int.ediv_self (by omega)]
  exact int_eq 1

theorem testCategoricalAccuracy_run [Libm] (w : World F64) : wp (testCategoricalAccuracy flit) w fun f w' => f = [] ∧ OnlyAllocs w w' := by
  unfold testCategoricalAccuracy
  refine wp_bind_mono (matLit_spec 2 (by simp) (by omega) (by simp [ints])) ?_
  rintro ⟨a, e⟩ w1 ⟨-, h1⟩
  refine wp_bind_mono (matLit_spec 2 (by simp) (by omega) (by simp [ints])) ?_
  rintro ⟨b, e⟩ w2 ⟨-, h2⟩
  dsimp only at h1 h2 ⊢
  refine wp_bind_mono (categoricalAccuracy_spec (h1.mat.allocs h2.frame) h2.mat (by norm_num)) ?_
  rintro v w3 ⟨f3, hv⟩
  have z : ∀ m : Int, 0 < m → m < 10 → Flt.lt (Flt.ofInt 0 : F64) (flit m 1) = true := by
    intro m h0 h1
    have h0' : (1 : ℝ) ≤ m := by exact_mod_cast h0
    have h1' : (m : ℝ) ≤ 10 := by exact_mod_cast h1.le
    refine near_lt (near_int 0 (by norm_num)) (near_flit ?_) ?_
    · rw [abs_of_pos (by linarith)]; linarith
    · push_cast; norm_num; linarith
  have l1 : Flt.lt (flit 1 1) (flit 9 1) = true := near_lt (near_flit (by norm_num [abs_of_pos])) (near_flit (by norm_num [abs_of_pos])) (by norm_num)
  have l2 : Flt.lt (flit 8 1) (flit 2 1) = false := near_not_lt (near_flit (by norm_num [abs_of_pos])) (near_flit (by norm_num [abs_of_pos])) (by norm_num)
  have e1 := int_eq 1
  have hc : v = Flt.ofInt 2 /. Flt.ofInt 2 := by
    rw [hv]
    simp [accN, scanMax, entry, ints, z 1 (by norm_num) (by norm_num), z 8 (by norm_num) (by norm_num), l1, l2, e1]
  rw [hc, one_acc 2 (by norm_num) (by norm_num)]
  exact wp_pure.2 ⟨rfl, (h1.frame.trans h2.frame).trans f3⟩

theorem testBinaryCategoricalAccuracy_run [Libm] (w : World F64) :
    wp (testBinaryCategoricalAccuracy flit) w fun f w' => f = [] ∧ OnlyAllocs w w' := by
  unfold testBinaryCategoricalAccuracy
  refine wp_bind_mono (matLit_spec 2 (by simp) (by omega) (by simp [ints])) ?_
  rintro ⟨a, e⟩ w1 ⟨-, h1⟩
  refine wp_bind_mono (matLit_spec 2 (by simp) (by omega) (by simp [ints])) ?_
  rintro ⟨b, e⟩ w2 ⟨-, h2⟩
  dsimp only at h1 h2 ⊢
  have h1' := h1.then_allocs h2.frame
  refine wp_bind_mono (binaryAccuracy_spec h1'.mat h1'.distinct h2.mat ?_) ?_
  · intro x hx hy
    have := h2.fresh x hx
    have := h1.mat.isRow_lt ((h1.mat.isRow_frame h2.frame (fun h => h) x).1 hy)
    omega
  rintro v w3 ⟨f3, hv⟩
  have l1 : Flt.lt (flit 9 1) (Flt.half : F64) = false := near_not_lt (near_flit (by norm_num [abs_of_pos])) near_half (by norm_num)
  have l2 : Flt.lt (flit 8 1) (Flt.half : F64) = false := near_not_lt (near_flit (by norm_num [abs_of_pos])) near_half (by norm_num)
  have l3 : Flt.lt (flit 1 1) (Flt.half : F64) = true := near_lt (near_flit (by norm_num [abs_of_pos])) near_half (by norm_num)
  have l4 : Flt.lt (flit 2 1) (Flt.half : F64) = true := near_lt (near_flit (by norm_num [abs_of_pos])) near_half (by norm_num)
  have e0 := int_eq 0
  have e1 := int_eq 1
  have hc : v = Flt.ofInt 4 /. Flt.ofInt 4 := by
    rw [hv]
    simp [count2, accN, entry, ints, l1, l2, l3, l4, e0, e1]
  rw [hc, one_acc 4 (by norm_num) (by norm_num)]
  exact wp_pure.2 ⟨rfl, (h1'.set f3).frame⟩

/-- `TestShuffleDataset`, whatever the permutation drawn. -/
theorem testShuffleDataset_run {α : Type} [Flt α] (draw : Nat → Nat) (hd : ∀ i, 1 ≤ i → i < 4 → draw i ≤ i) (w : World α) :
    wp (testShuffleDataset draw) w fun p w' => p.1 = [] ∧ OnlyAllocs w w' ∧ ∃ σ : Equiv.Perm Nat, (∀ i, i < 4 ↔ σ i < 4) ∧
      IsMat w' p.2.1 4 1 (fun i _ => ([1, 3, 0, 2].map Flt.ofInt)[σ i]?.getD Flt.zero) ∧
      IsMat w' p.2.2 4 1 (fun i _ => ([3, 4, 6, 7].map Flt.ofInt)[σ i]?.getD Flt.zero) := by
  unfold testShuffleDataset
  refine wp_bind_mono (matLit_spec 1 (by simp) (by omega) (by simp [ints])) ?_
  rintro ⟨a, e⟩ w1 ⟨-, h1⟩
  refine wp_bind_mono (matLit_spec 1 (by simp) (by omega) (by simp [ints])) ?_
  rintro ⟨b, e⟩ w2 ⟨-, h2⟩
  dsimp only at h1 h2 ⊢
  have hne : a.m.addr ≠ b.m.addr := by
    have := h1.mat.addr_lt
    have := h2.fresh_outer
    omega
  refine wp_bind_mono (C18_shuffle draw w2 a b 4 1 1 _ _ (h1.mat.allocs h2.frame) h2.mat hne hd) ?_
  rintro ⟨p, q⟩ w3 ⟨hp, σ, hσ, m1, m2, -, -, -, f3⟩
  obtain ⟨rfl, rfl⟩ := Prod.mk.inj hp
  refine wp_pure.2 ⟨rfl, ?_, σ, hσ, m1.congr ?_, m2.congr ?_⟩
  · have h0 := h1.frame.trans h2.frame
    have := h1.fresh_outer
    have := h2.fresh_outer
    have := h1.frame.next_le
    frames h0 f3
    rintro x hx (hb | hb) <;> omega
  all_goals
    intro i j hi hj
    obtain rfl : j = 0 := by omega
    have hs := (hσ i).1 hi
    generalize σ i = s at *
    interval_cases s <;> rfl

end NN
