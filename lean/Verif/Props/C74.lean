import Verif.Props.C13_C20
import Mathlib.Algebra.BigOperators.Group.Finset.Piecewise
import Mathlib.Data.Nat.Factorial.BigOperators
import Mathlib.Data.Fintype.Perm
/- C74: ShuffleDataset is unbiased. -/

set_option linter.unusedSectionVars false

namespace NN
open Go

theorem fyPerm_fix (draw : Nat → Nat) (k : Nat) (h : ∀ i, 1 ≤ i → i ≤ k → draw i ≤ i) (i : Nat) (hi : k < i) : fyPerm draw k i = i := by
  induction k with
  | zero => rfl
  | succ k ih =>
    have := h (k + 1) (by omega) le_rfl
    show Equiv.swap _ _ (fyPerm draw k i) = i
    rw [ih (fun i h1 h2 => h i h1 (by omega)) (by omega), Equiv.swap_apply_of_ne_of_ne (by omega) (by omega)]

theorem fyPerm_top (draw : Nat → Nat) (k : Nat) (h : ∀ i, 1 ≤ i → i ≤ k + 1 → draw i ≤ i) :
    fyPerm draw (k + 1) (k + 1) = draw (k + 1) := by
  show Equiv.swap _ _ (fyPerm draw k (k + 1)) = _
  rw [fyPerm_fix draw k (fun i h1 h2 => h i h1 (by omega)) _ (by omega), Equiv.swap_apply_left]

/-- Different draws make different permutations. -/
theorem fyPerm_inj (d d' : Nat → Nat) (k : Nat) (h : ∀ i, 1 ≤ i → i ≤ k → d i ≤ i) (h' : ∀ i, 1 ≤ i → i ≤ k → d' i ≤ i)
    (e : fyPerm d k = fyPerm d' k) : ∀ i, 1 ≤ i → i ≤ k → d i = d' i := by
  induction k with
  | zero => intro i h1 h2; omega
  | succ k ih =>
    have e1 : d (k + 1) = d' (k + 1) := by rw [← fyPerm_top d k h, ← fyPerm_top d' k h', e]
    have e2 : fyPerm d k = fyPerm d' k := by
      have : (fyPerm d k).trans (Equiv.swap (k + 1) (d (k + 1))) = (fyPerm d' k).trans (Equiv.swap (k + 1) (d (k + 1))) := by
        rw [show (fyPerm d k).trans (Equiv.swap (k + 1) (d (k + 1))) = fyPerm d (k + 1) from rfl, e, e1]; rfl
      ext i
      have := congrArg (fun σ => Equiv.swap (k + 1) (d (k + 1)) (σ i)) this
      simpa using this
    intro i h1 h2
    by_cases hi : i = k + 1
    · rw [hi, e1]
    · exact ih (fun i h1 h2 => h i h1 (by omega)) (fun i h1 h2 => h' i h1 (by omega)) e2 i h1 (by omega)

/-- Every permutation is made by some draws. -/
theorem fyPerm_surj (k : Nat) (σ : Equiv.Perm Nat) (hσ : ∀ i, k < i → σ i = i) :
    ∃ d : Nat → Nat, (∀ i, d i ≤ i) ∧ fyPerm d k = σ := by
  induction k generalizing σ with
  | zero =>
    refine ⟨fun _ => 0, fun _ => Nat.zero_le _, ?_⟩
    ext i
    show i = σ i
    by_cases hi : 0 < i
    · rw [hσ i hi]
    · obtain rfl : i = 0 := by omega
      by_contra hne
      have := σ.injective (hσ (σ 0) (by omega))
      omega
  | succ k ih =>
    have hle : σ (k + 1) ≤ k + 1 := by
      by_contra hgt
      have := σ.injective (hσ (σ (k + 1)) (by omega))
      omega
    obtain ⟨d, hd, e⟩ := ih (σ.trans (Equiv.swap (k + 1) (σ (k + 1)))) (by
      intro i hi
      show Equiv.swap _ _ (σ i) = i
      by_cases h : i = k + 1
      · rw [h, Equiv.swap_apply_right]
      · rw [hσ i (by omega), Equiv.swap_apply_of_ne_of_ne h]
        omega)
    refine ⟨fun i => if i = k + 1 then σ (k + 1) else d i, fun i => ?_, ?_⟩
    · dsimp only
      split
      · next h => rw [h]; exact hle
      · exact hd i
    · have hc : ∀ (d d' : Nat → Nat) n, (∀ i, i ≤ n → d i = d' i) → fyPerm d n = fyPerm d' n := by
        intro d d' n
        induction n with
        | zero => intro _; rfl
        | succ n ihn =>
          intro h
          show (fyPerm d n).trans _ = (fyPerm d' n).trans _
          rw [ihn fun i hi => h i (by omega), h (n + 1) le_rfl]
      show (fyPerm _ k).trans (Equiv.swap (k + 1) (if k + 1 = k + 1 then σ (k + 1) else d (k + 1))) = σ
      rw [hc _ d k (fun i hi => if_neg (by omega)), e, if_pos rfl]
      ext i
      simp

variable {α : Type} [Flt α]

/-- What is left in state `w'` after the rows of X and Y of state `w` have been permuted by σ. -/
def Permuted (w w' : World α) (X Y : Mat) (r : Nat) (σ : Equiv.Perm Nat) : Prop :=
  (∀ i, i < r → w'.rowAddr X i = w.rowAddr X (σ i)) ∧ (∀ i, i < r → w'.rowAddr Y i = w.rowAddr Y (σ i)) ∧ w'.flt = w.flt

/-- Sequences of numbers that the random source can deliver for r rows: the i-th one, for i = 1, ..., r-1, is in {0,...,i}; the others
are not used and set to 0.  The source delivers each with the same probability. -/
def IsDraws (r : Nat) (d : Nat → Nat) : Prop := ∀ i, d i ≤ if 1 ≤ i ∧ i < r then i else 0

/-- C74: for every permutation of the rows there is one and only one sequence of random numbers with which ShuffleDataset orders the
rows in that way. -/
theorem C74_unbiased (w : World α) (X Y : Mat) (r c c' : Nat) (A B : Nat → Nat → α) (hX : IsMat w X r c A) (hY : IsMat w Y r c' B)
    (hne : X.m.addr ≠ Y.m.addr) (hd : DistinctRows w X r) (σ : Equiv.Perm Nat) (hσ : ∀ i, r ≤ i → σ i = i) :
    ∃! d, IsDraws r d ∧ wp (shuffleDataset d X Y) w (fun p w' => p = (X, Y) ∧ Permuted w w' X Y r σ) := by
  have hr := hX.rpos
  have run : ∀ d, IsDraws r d → wp (shuffleDataset d X Y) w (fun p w' => p = (X, Y) ∧ Permuted w w' X Y r (fyPerm d (r - 1))) := by
    intro d h
    unfold shuffleDataset
    rw [if_neg (by rw [hX.rows]; omega), hX.rows, Int.toNat_natCast]
    refine wp_bind_mono (shuffleFrom_spec d hne (r - 1) (by omega)
      (fun i h1 h2 => by have := h i; rwa [if_pos (by omega)] at this) w A B hX hY) ?_
    rintro _ w1 ⟨σ, hσ, e, o, pX, pY, rfl⟩
    exact wp_pure.2 ⟨rfl, pX, pY, by rw [e]⟩
  obtain ⟨d, h1, h2⟩ := fyPerm_surj (r - 1) σ fun i hi => hσ i (by omega)
  have hc : ∀ (d d' : Nat → Nat) n, (∀ i, 1 ≤ i → i ≤ n → d i = d' i) → fyPerm d n = fyPerm d' n := by
    intro d d' n
    induction n with
    | zero => intro _; rfl
    | succ n ihn =>
      intro h
      show (fyPerm d n).trans _ = (fyPerm d' n).trans _
      rw [ihn fun i h1 hi => h i h1 (by omega), h (n + 1) (by omega) le_rfl]
  have hd0 : IsDraws r fun i => if 1 ≤ i ∧ i < r then d i else 0 := by
    intro i
    dsimp only
    split
    · exact h1 i
    · exact le_rfl
  have he : fyPerm (fun i => if 1 ≤ i ∧ i < r then d i else 0) (r - 1) = σ := by
    rw [← h2]
    exact hc _ _ _ fun i h1 h2 => if_pos ⟨h1, by omega⟩
  refine ⟨_, ⟨hd0, by have := run _ hd0; rwa [he] at this⟩, ?_⟩
  rintro d' ⟨k1, k2⟩
  have hrun := wp_and (run d' k1) k2
  obtain ⟨p, w', -, ⟨-, q1, -⟩, -, q2, -⟩ := wp_iff.1 hrun
  have hfix : ∀ i, r - 1 < i → fyPerm d' (r - 1) i = i := fyPerm_fix d' (r - 1) fun i h1 h2 => by
    have := k1 i; rwa [if_pos (by omega)] at this
  have hlt : ∀ τ : Equiv.Perm Nat, (∀ i, r - 1 < i → τ i = i) → ∀ i, i < r → τ i < r := by
    intro τ hτ i hi
    by_contra h
    have := τ.injective (hτ (τ i) (by omega))
    omega
  have hperm : fyPerm d' (r - 1) = σ := by
    ext i
    by_cases hi : i < r
    · have a1 := hlt _ hfix i hi
      have a2 := hlt σ (fun i hi => hσ i (by omega)) i hi
      by_contra hne'
      have := (q1 i hi).symm.trans (q2 i hi)
      obtain ⟨x, hx, -⟩ := hX.row _ a1
      exact hne' (hd _ _ x a1 a2 hx (this ▸ hx))
    · rw [hfix i (by omega), hσ i (by omega)]
  funext i
  by_cases hi : 1 ≤ i ∧ i < r
  · refine fyPerm_inj d' _ (r - 1) (fun i h1 h2 => ?_) (fun i h1 h2 => ?_) (hperm.trans he.symm) i hi.1 (by omega)
    · have := k1 i; rwa [if_pos (by omega)] at this
    · have := hd0 i; rwa [if_pos (by omega)] at this
  · have := k1 i
    have h0 := hd0 i
    rw [if_neg hi] at this
    rw [if_neg hi]
    omega

/-- C74: there are r! sequences of random numbers, as many as permutations. -/
theorem C74_count (r : Nat) : Nat.card { d : Nat → Nat // IsDraws r d } = r.factorial := by
  have e : { d : Nat → Nat // IsDraws r d } ≃ ((i : Fin r) → Fin (i + 1)) :=
    { toFun := fun d i => ⟨d.1 i, by
        have := d.2 i
        split at this <;> omega⟩
      invFun := fun f => ⟨fun i => if h : i < r then f ⟨i, h⟩ else 0, fun i => by
        dsimp only
        by_cases h : i < r
        · rw [dif_pos h]
          have : ((f ⟨i, h⟩ : Fin _) : Nat) < i + 1 := (f ⟨i, h⟩).2
          split <;> omega
        · rw [dif_neg h]
          exact Nat.zero_le _⟩
      left_inv := fun d => by
        ext i
        by_cases h : i < r
        · simp [h]
        · have := d.2 i
          rw [if_neg (by omega)] at this
          simp [h]
          omega
      right_inv := fun f => by
        ext i
        simp }
  rw [Nat.card_congr e, Nat.card_eq_fintype_card, Fintype.card_pi]
  simp only [Fintype.card_fin]
  rw [← Finset.prod_range_add_one_eq_factorial, Finset.prod_range]

/-- Hypotheses of C74_unbiased: three samples in separate rows, and the cyclic permutation of three rows. -/
example (A B : Nat → Nat → α) : ∃ w : World α, ∃ X Y, IsMat w X 3 2 A ∧ IsMat w Y 3 1 B ∧ X.m.addr ≠ Y.m.addr ∧
    DistinctRows w X 3 ∧ ∃ σ : Equiv.Perm Nat, (∀ i, 3 ≤ i → σ i = i) ∧ σ 0 = 1 ∧ σ 1 = 2 := by
  have h1 := place_spec (emptyWorld (α := α)) A (r := 3) (c := 2) (by decide) (by decide)
  have h2 := place_spec (placeW (emptyWorld (α := α)) 3 2 A) B (r := 3) (c := 1) (by decide) (by decide)
  refine ⟨_, _, _, h1.mat.allocs h2.frame, h2.mat, ?_, ?_, (Equiv.swap 1 2).trans (Equiv.swap 0 1), ?_, ?_, ?_⟩
  · have := h1.mat.addr_lt
    have := h2.fresh_outer
    omega
  · exact DistinctRows.frame h1.distinct h2.frame h1.mat.addr_lt (fun h => h)
  · intro i hi
    show Equiv.swap 0 1 (Equiv.swap 1 2 i) = i
    rw [Equiv.swap_apply_of_ne_of_ne (a := 1) (b := 2) (by omega) (by omega), Equiv.swap_apply_of_ne_of_ne (by omega) (by omega)]
  · decide
  · decide

end NN
