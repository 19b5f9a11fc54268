import Verif.Lemmas.Matrix
import Verif.Model.Accuracy
import Mathlib.Logic.Equiv.Basic
import Mathlib.Algebra.BigOperators.Intervals
/- Execution lemmas for misc.go and accuracy.go. -/

set_option linter.unusedSectionVars false

namespace NN
variable {α : Type} [Flt α]
open Go

/-- The scan of `RowMax`: start at index 0 with value 0 and take over every strictly larger entry. -/
def scanMax (c : Nat) (f : Nat → α) : Int × α :=
  accN c (fun j p => if Flt.lt p.2 (f j) then ((j : Int), f j) else p) ((0 : Int), (Flt.zero : α))

/-- `for i < r { ans.M[i][0] = V i }` on a 1-column matrix. -/
theorem wp_fillCol0 {w : World α} {m : Mat} {r : Nat} {A : Nat → Nat → α} {V : Nat → α} {body : Nat → Go α Unit}
    (h : IsMat w m r 1 A)
    (hb : ∀ i w1, i < r → SetMat w w1 m r 1 (mix A (fun i _ => V i) i 0) →
      wp (body i) w1 (fun _ w2 => SetMat w w2 m r 1 (mix A (fun i _ => V i) i 1))) :
    wp (forN r body) w (fun _ w' => SetMat w w' m r 1 (fun i _ => V i)) := by
  refine wp_mono (wp_forN (fun i w1 => SetMat w w1 m r 1 (mix A (fun i _ => V i) i 0)) ?_ ?_) ?_
  · exact (SetMat.refl h).congr (by intro i j _ _; simp [mix])
  · intro i w1 hi hw1
    refine wp_mono (hb i w1 hi hw1) ?_
    intro _ w2 hw2
    refine hw2.congr ?_
    intro i' j' hi' hj'
    have : (i' < i ∨ (i' = i ∧ j' < 1)) ↔ (i' < i + 1 ∨ (i' = i + 1 ∧ j' < 0)) := by omega
    simp only [mix, this]
  · intro _ w' h'
    refine h'.congr ?_
    intro i' j' hi' hj'
    simp [mix, hi']

theorem rowMax_spec {w : World α} {m : Mat} {r c : Nat} {A : Nat → Nat → α} (hA : IsMat w m r c A) :
    wp (rowMax m) w (fun p w' => NewMat w w' p r 1 (fun i _ => Flt.ofInt (scanMax c (A i)).1)) := by
  unfold rowMax
  rw [hA.rows, hA.cols, Int.toNat_natCast, Int.toNat_natCast]
  refine wp_bind_mono (newMatrix_spec (c := 1) hA.rpos Nat.one_pos) ?_
  rintro ⟨ans, e⟩ w0 ⟨_, hm⟩
  refine wp_bind_mono (wp_fillCol0 (V := fun i => Flt.ofInt (scanMax c (A i)).1) hm.mat ?_)
    fun _ w' hw' => hm.set hw'
  intro i w1 hi hw1
  refine wp_bind_mono (wp_foldN_read (fun j p => if Flt.lt p.2 (A i j) then ((j : Int), A i j) else p) ?_) ?_
  · intro j p hj
    rw [wp_bind, wp_at (hm.old hw1 hA) hi hj]
    by_cases h : Flt.lt p.2 (A i j) = true
    · rw [if_pos h, if_pos h, wp_bind, wp_at (hm.old hw1 hA) hi hj]
      exact ⟨rfl, rfl⟩
    · rw [if_neg h, if_neg h]
      exact ⟨rfl, rfl⟩
  · rintro ⟨l, v⟩ w2 ⟨h, rfl⟩
    refine hw1.put hm.distinct (j := 0) hi Nat.one_pos ?_
    simp only [scanMax, ← h]

theorem outputBinaryValues_spec {w : World α} {m : Mat} {r c : Nat} {A : Nat → Nat → α} (hA : IsMat w m r c A)
    (hd : DistinctRows w m r) :
    wp (outputBinaryValues m) w (fun p w' => p = m ∧
      SetMat w w' m r c (fun i j => if Flt.lt (A i j) Flt.half then Flt.zero else Flt.one)) := by
  unfold outputBinaryValues
  rw [hA.rows, hA.cols, Int.toNat_natCast, Int.toNat_natCast]
  refine wp_bind_mono (wp_fill (V := fun i j => if Flt.lt (A i j) Flt.half then Flt.zero else Flt.one) hA ?_)
    fun _ w' hw' => ⟨rfl, hw'⟩
  intro i j w1 hi hj hw1
  rw [wp_bind, wp_at hw1.mat hi hj, mix_self]
  split
  · exact hw1.put hd hi hj (by simp [*])
  · exact hw1.put hd hi hj (by simp [*])

/-- One label row of a one-hot matrix. -/
theorem sparseToOneHot_spec {w : World α} {x : Mat} {r c size : Nat} {X : Nat → Nat → α} (hX : IsMat w x r c X)
    (hs : 0 < size) (lab : Nat → Nat) (hlab : ∀ i, i < r → Flt.toInt (X i 0) = lab i ∧ lab i < size) :
    wp (sparseToOneHot x (size : Int)) w (fun p w' => p.2 = none ∧
      NewMat w w' p.1 r size (fun i j => if j = lab i then Flt.one else Flt.zero)) := by
  unfold sparseToOneHot
  rw [if_neg (by omega), hX.rows, Int.toNat_natCast]
  refine wp_bind_mono (newMatrix_spec hX.rpos hs) ?_
  rintro ⟨ans, e⟩ w0 ⟨_, hm⟩
  refine wp_bind_mono (wp_forN (fun i w1 => SetMat w0 w1 ans r size (fun i' j' =>
    if i' < i ∧ j' = lab i' then Flt.one else Flt.zero)) ?_ ?_) ?_
  · exact (SetMat.refl hm.mat).congr (by simp)
  · intro i w1 hi hw1
    obtain ⟨h1, h2⟩ := hlab i hi
    have h0 : wp (x.at (i : Int) 0) w1 (fun v w2 => v = X i 0 ∧ w2 = w1) :=
      (wp_at (j := 0) (hm.old hw1 hX) hi hX.cpos).2 ⟨rfl, rfl⟩
    refine wp_bind_mono h0 ?_
    rintro _ w1 ⟨rfl, rfl⟩
    rw [h1]
    refine wp_mono (wp_setAt hw1.mat ((hw1.distinct _ _).2 hm.distinct) hi h2 _) ?_
    intro _ w2 hw2
    refine (hw1.trans hw2).congr ?_
    intro i' j' hi' hj'
    simp only [upd2]
    by_cases e : i' = i ∧ j' = lab i
    · obtain ⟨rfl, rfl⟩ := e; simp
    · have : (i' < i + 1 ∧ j' = lab i') ↔ (i' < i ∧ j' = lab i') := by
        constructor
        · rintro ⟨h3, h4⟩
          refine ⟨?_, h4⟩
          by_contra h5
          have : i' = i := by omega
          subst this
          exact e ⟨rfl, h4⟩
        · rintro ⟨h3, h4⟩; exact ⟨by omega, h4⟩
      rw [if_neg e, if_congr this rfl rfl]
  · intro _ w1 hw1
    refine ⟨rfl, (hm.set hw1).congr ?_⟩
    intro i j hi hj
    simp [hi]

/-! ### Accuracy: counting loops -/

/-- Number of positions (i,j), i<r, j<c, satisfying `p`. -/
def count2 (r c : Nat) (p : Nat → Nat → Bool) : Nat :=
  accN r (fun i acc => accN c (fun j acc => if p i j then acc + 1 else acc) acc) 0

theorem accN_count_int (n : Nat) (p : Nat → Bool) (a : Nat) :
    accN n (fun j (acc : Int) => if p j then acc + 1 else acc) (a : Int) =
      ((accN n (fun j acc => if p j then acc + 1 else acc) a : Nat) : Int) := by
  induction n with
  | zero => rfl
  | succ n ih =>
    simp only [accN, ih]
    split <;> simp

theorem accN_count2_int (r c : Nat) (p : Nat → Nat → Bool) :
    accN r (fun i (acc : Int) => accN c (fun j (acc : Int) => if p i j then acc + 1 else acc) acc) (0 : Int) =
      (count2 r c p : Int) := by
  unfold count2
  induction r with
  | zero => rfl
  | succ n ih => simp only [accN, ih, accN_count_int]

theorem regressionAccuracy_spec {w : World α} {a b : Mat} {r c : Nat} {A B : Nat → Nat → α} (hA : IsMat w a r c A)
    (hB : IsMat w b r c B) (prec : α) :
    wp (regressionAccuracy a b prec) w (fun v w' => w' = w ∧
      v = Flt.ofInt (count2 r c fun i j => Flt.lt (Flt.abs (A i j -. B i j)) prec) /. Flt.ofInt ((r : Int) * c)) := by
  unfold regressionAccuracy
  rw [hB.rows, hB.cols, Int.toNat_natCast, Int.toNat_natCast]
  refine wp_bind_mono (wp_foldN_read (fun i (acc : Int) => accN c (fun j (acc : Int) =>
    if Flt.lt (Flt.abs (A i j -. B i j)) prec then acc + 1 else acc) acc) ?_) ?_
  · intro i acc hi
    refine wp_foldN_read _ ?_
    intro j acc hj
    rw [wp_bind, wp_at hA hi hj, wp_bind, wp_at hB hi hj]
    split <;> exact ⟨rfl, rfl⟩
  · rintro v w1 ⟨rfl, rfl⟩
    refine ⟨rfl, ?_⟩
    rw [accN_count2_int r c (fun i j => Flt.lt (Flt.abs (A i j -. B i j)) prec)]

theorem binaryAccuracy_spec {w : World α} {a b : Mat} {r c : Nat} {A B : Nat → Nat → α} (hA : IsMat w a r c A)
    (hd : DistinctRows w a r) (hB : IsMat w b r c B) (hdis : ∀ x, w.IsRow b r x → ¬ w.IsRow a r x) :
    wp (binaryCategoricalAccuracy a b) w (fun v w' =>
      SetMat w w' a r c (fun i j => if Flt.lt (A i j) Flt.half then Flt.zero else Flt.one) ∧
      v = Flt.ofInt (count2 r c fun i j => Flt.eq (if Flt.lt (A i j) Flt.half then Flt.zero else Flt.one) (B i j))
        /. Flt.ofInt ((r : Int) * c)) := by
  unfold binaryCategoricalAccuracy
  refine wp_bind_mono (outputBinaryValues_spec hA hd) ?_
  rintro p w1 ⟨rfl, h1⟩
  have hB1 : IsMat w1 b r c B := hB.frame h1.frame (fun h => h) hdis
  rw [hB.rows, hB.cols, Int.toNat_natCast, Int.toNat_natCast]
  refine wp_bind_mono (wp_foldN_read (fun i (acc : Int) => accN c (fun j (acc : Int) =>
    if Flt.eq (if Flt.lt (A i j) Flt.half then Flt.zero else Flt.one) (B i j) then acc + 1 else acc) acc) ?_) ?_
  · intro i acc hi
    refine wp_foldN_read _ ?_
    intro j acc hj
    rw [wp_bind, wp_at h1.mat hi hj, wp_bind, wp_at hB1 hi hj]
    generalize (if Flt.lt (A i j) Flt.half = true then (Flt.zero : α) else Flt.one) = v
    by_cases h : Flt.eq v (B i j) = true
    · rw [if_pos h, if_pos h]; exact ⟨rfl, rfl⟩
    · rw [if_neg h, if_neg h]; exact ⟨rfl, rfl⟩
  · rintro v w2 ⟨rfl, rfl⟩
    refine ⟨h1, ?_⟩
    rw [accN_count2_int r c (fun i j => Flt.eq (if Flt.lt (A i j) Flt.half then Flt.zero else Flt.one) (B i j))]

theorem scanMax_range (c : Nat) (f : Nat → α) (hc : 0 < c) : 0 ≤ (scanMax c f).1 ∧ (scanMax c f).1 < c := by
  have : ∀ n, 0 ≤ (accN n (fun j p => if Flt.lt p.2 (f j) then ((j : Int), f j) else p) ((0 : Int), (Flt.zero : α))).1 ∧
      ((accN n (fun j p => if Flt.lt p.2 (f j) then ((j : Int), f j) else p) ((0 : Int), (Flt.zero : α))).1 < n ∨
       (accN n (fun j p => if Flt.lt p.2 (f j) then ((j : Int), f j) else p) ((0 : Int), (Flt.zero : α))).1 = 0) := by
    intro n
    induction n with
    | zero => simp [accN]
    | succ n ih =>
      simp only [accN]
      split
      · simp
      · omega
  have h := this c
  unfold scanMax
  omega

theorem categoricalAccuracy_spec [FltInt α] {w : World α} {a b : Mat} {r c : Nat} {A B : Nat → Nat → α}
    (hA : IsMat w a r c A) (hB : IsMat w b r c B) (hc : c ≤ 2 ^ 53) :
    wp (categoricalAccuracy a b) w (fun v w' => OnlyAllocs w w' ∧
      v = Flt.ofInt (accN r (fun i (acc : Nat) => if Flt.eq (B i (scanMax c (A i)).1.toNat) Flt.one then acc + 1 else acc) 0 : Nat)
        /. Flt.ofInt (r : Int)) := by
  unfold categoricalAccuracy
  refine wp_bind_mono (rowMax_spec hA) ?_
  intro out w1 h1
  have hB1 := hB.allocs h1.frame
  rw [hB.rows, Int.toNat_natCast]
  refine wp_bind_mono (wp_foldN_read (fun i (acc : Int) =>
    if Flt.eq (B i (scanMax c (A i)).1.toNat) Flt.one then acc + 1 else acc) ?_) ?_
  · intro i acc hi
    have h0 : wp (out.at (i : Int) 0) w1 (fun v w2 => v = Flt.ofInt (scanMax c (A i)).1 ∧ w2 = w1) :=
      (wp_at (j := 0) h1.mat hi Nat.one_pos).2 ⟨rfl, rfl⟩
    refine wp_bind_mono h0 ?_
    rintro _ w1 ⟨rfl, rfl⟩
    have hr := scanMax_range c (A i) hA.cpos
    rw [FltInt.toInt_ofInt _ (by omega) (by omega)]
    have e : (scanMax c (A i)).1 = ((scanMax c (A i)).1.toNat : Int) := by omega
    rw [wp_bind, e, wp_at hB1 hi (by omega)]
    simp only [Int.toNat_natCast]
    split <;> exact ⟨rfl, rfl⟩
  · rintro v w2 ⟨rfl, rfl⟩
    refine ⟨h1.frame, ?_⟩
    rw [← accN_count_int r (fun i => Flt.eq (B i (scanMax c (A i)).1.toNat) Flt.one) 0]
    rfl

/-! ### ShuffleDataset -/

/-- Swapping two rows of a slice: the row addresses are permuted, nothing else changes. -/
theorem swapRows_spec {w : World α} {m : Mat} {r c : Nat} {A : Nat → Nat → α} (hA : IsMat w m r c A) {i j : Nat}
    (hi : i < r) (hj : j < r) :
    wp (swapRows m.m (i : Int) (j : Int)) w (fun _ w' =>
      w' = { w with outs := w'.outs } ∧ (∀ a, a ≠ m.m.addr → w'.outs a = w.outs a) ∧
      (∀ k, k < r → w'.rowAddr m k = w.rowAddr m (Equiv.swap i j k))) := by
  obtain ⟨a, ha, _, _⟩ := hA.row j hj
  obtain ⟨b, hb, _, _⟩ := hA.row i hi
  have hl := hA.len
  unfold swapRows
  refine wp_bind_ok (rowRef_ok hA hj ha) (wp_bind_ok (rowRef_ok hA hi hb) ?_)
  have e1 : setRowRef m.m (i : Int) a w = .ok ((), { w with outs := upd w.outs m.m.addr ((w.outs m.m.addr).set (m.m.off + i) a) }) := by
    unfold setRowRef; rw [if_pos (by omega), Int.toNat_natCast]
  refine wp_bind_ok e1 ?_
  have e2 : ∀ w1 : World α, setRowRef m.m (j : Int) b w1 = .ok ((), { w1 with outs := upd w1.outs m.m.addr ((w1.outs m.m.addr).set (m.m.off + j) b) }) := by
    intro w1; unfold setRowRef; rw [if_pos (by omega), Int.toNat_natCast]
  refine wp_of_ok (e2 _) ⟨rfl, ?_, ?_⟩
  · intro x hx
    simp only
    rw [upd_ne hx, upd_ne hx]
  · intro k hk
    have hlk : ∀ k, k < r → m.m.off + k < (w.outs m.m.addr).length := by
      intro k hk
      obtain ⟨x, hx, _⟩ := hA.row k hk
      exact (List.getElem?_eq_some_iff.1 hx).1
    simp only [World.rowAddr, upd_same] at ha hb ⊢
    by_cases ej : k = j
    · subst ej
      rw [List.getElem?_set_self (by rw [List.length_set]; exact hlk k hk), Equiv.swap_apply_right]
      exact hb.symm
    · rw [List.getElem?_set_ne (by omega)]
      by_cases ei : k = i
      · subst ei
        rw [List.getElem?_set_self (hlk k hk), Equiv.swap_apply_left]
        exact ha.symm
      · rw [List.getElem?_set_ne (by omega), Equiv.swap_apply_of_ne_of_ne ei ej]

/-- The permutation made by the steps k, k-1, ..., 1 of the shuffle. -/
def fyPerm (draw : Nat → Nat) : Nat → Equiv.Perm Nat
  | 0 => Equiv.refl _
  | k + 1 => (fyPerm draw k).trans (Equiv.swap (k + 1) (draw (k + 1)))

/-- The steps k, k-1, ..., 1 of the shuffle permute the rows of both matrices in the same way. -/
theorem shuffleFrom_spec (draw : Nat → Nat) {X Y : Mat} {r c c' : Nat} (hne : X.m.addr ≠ Y.m.addr) (k : Nat) (hk : k < r)
    (hdraw : ∀ i, 1 ≤ i → i ≤ k → draw i ≤ i) :
    ∀ (w : World α) (A B : Nat → Nat → α), IsMat w X r c A → IsMat w Y r c' B →
    wp (shuffleFrom draw (fun i j => do swapRows X.m i j; swapRows Y.m i j) k) w (fun _ w' =>
      ∃ σ : Equiv.Perm Nat, (∀ i, r ≤ i → σ i = i) ∧
        w' = { w with outs := w'.outs } ∧ (∀ a, a ≠ X.m.addr → a ≠ Y.m.addr → w'.outs a = w.outs a) ∧
        (∀ i, i < r → w'.rowAddr X i = w.rowAddr X (σ i)) ∧ (∀ i, i < r → w'.rowAddr Y i = w.rowAddr Y (σ i)) ∧ σ = fyPerm draw k) := by
  induction k with
  | zero =>
    intro w A B _ _
    exact ⟨Equiv.refl _, fun _ _ => rfl, rfl, fun _ _ _ => rfl, fun _ _ => rfl, fun _ _ => rfl, rfl⟩
  | succ k ih =>
    intro w A B hX hY
    unfold shuffleFrom
    have hd : draw (k + 1) < r := by have := hdraw (k + 1) (by omega) (by omega); omega
    rw [wp_bind]
    refine wp_bind_mono (swapRows_spec hX hk hd) ?_
    rintro _ w1 ⟨e1, o1, p1⟩
    have hY1 : IsMat w1 Y r c' B := by
      have hn : w1.next = w.next := by rw [e1]
      have hf : w1.flt = w.flt := by rw [e1]
      refine ⟨hY.rows, hY.cols, hY.len, hY.rpos, hY.cpos, by rw [hn]; exact hY.addr_lt, ?_⟩
      intro i hi
      rw [rowAddr_eq (o1 _ (Ne.symm hne)), hn, hf]
      exact hY.row i hi
    refine wp_mono (swapRows_spec hY1 hk hd) ?_
    rintro _ w2 ⟨e2, o2, p2⟩
    have hn : w2.next = w.next := by rw [e2, e1]
    have hf : w2.flt = w.flt := by rw [e2, e1]
    have pX : ∀ i, i < r → w2.rowAddr X i = w.rowAddr X (Equiv.swap (k + 1) (draw (k + 1)) i) := by
      intro i hi; rw [rowAddr_eq (o2 _ hne)]; exact p1 i hi
    have pY : ∀ i, i < r → w2.rowAddr Y i = w.rowAddr Y (Equiv.swap (k + 1) (draw (k + 1)) i) := by
      intro i hi
      rw [p2 i hi, rowAddr_eq (o1 _ (Ne.symm hne))]
    have hsw : ∀ i, i < r → Equiv.swap (k + 1) (draw (k + 1)) i < r := by
      intro i hi
      rw [Equiv.swap_apply_def]
      split
      · exact hd
      · split <;> omega
    have hX2 : IsMat w2 X r c (fun i => A (Equiv.swap (k + 1) (draw (k + 1)) i)) := by
      refine ⟨hX.rows, hX.cols, hX.len, hX.rpos, hX.cpos, by rw [hn]; exact hX.addr_lt, ?_⟩
      intro i hi
      rw [pX i hi, hn, hf]
      exact hX.row _ (hsw i hi)
    have hY2 : IsMat w2 Y r c' (fun i => B (Equiv.swap (k + 1) (draw (k + 1)) i)) := by
      refine ⟨hY.rows, hY.cols, hY.len, hY.rpos, hY.cpos, by rw [hn]; exact hY.addr_lt, ?_⟩
      intro i hi
      rw [pY i hi, hn, hf]
      exact hY.row _ (hsw i hi)
    refine wp_mono (ih (by omega) (fun i h1 h2 => hdraw i h1 (by omega)) w2 _ _ hX2 hY2) ?_
    rintro _ w3 ⟨σ, hσ, e3, o3, q1, q2, q3⟩
    have hσr : ∀ i, i < r → σ i < r := by
      intro i hi
      by_contra h
      have h1 := hσ (σ i) (by omega)
      have := σ.injective h1
      omega
    refine ⟨σ.trans (Equiv.swap (k + 1) (draw (k + 1))), ?_, ?_, ?_, ?_, ?_, by rw [q3]; rfl⟩
    · intro i hi
      rw [Equiv.trans_apply, hσ i hi, Equiv.swap_apply_of_ne_of_ne (by omega) (by omega)]
    · rw [e3, e2, e1]
    · intro a h1 h2
      rw [o3 a h1 h2, o2 a h2, o1 a h1]
    · intro i hi
      rw [q1 i hi, pX _ (hσr i hi)]; rfl
    · intro i hi
      rw [q2 i hi, pY _ (hσr i hi)]; rfl

/-! ### Counting and the scan, in closed form -/

theorem accN_count_card (n : Nat) (p : Nat → Bool) (a : Nat) :
    accN n (fun j acc => if p j then acc + 1 else acc) a = a + ((Finset.range n).filter fun j => p j).card := by
  induction n with
  | zero => simp [accN]
  | succ n ih =>
    rw [Finset.range_add_one, Finset.filter_insert]
    simp only [accN, ih]
    split
    · rw [Finset.card_insert_of_notMem (by simp)]; omega
    · rfl

theorem count2_card (r c : Nat) (p : Nat → Nat → Bool) :
    count2 r c p = ((Finset.range r ×ˢ Finset.range c).filter fun q => p q.1 q.2).card := by
  have : ∀ r, count2 r c p = ∑ i ∈ Finset.range r, ((Finset.range c).filter fun j => p i j).card := by
    intro r
    unfold count2
    induction r with
    | zero => rfl
    | succ n ih => rw [Finset.sum_range_succ, ← ih]; simp only [accN, accN_count_card]
  rw [this, Finset.card_filter, Finset.sum_product]
  refine Finset.sum_congr rfl fun i _ => ?_
  rw [Finset.card_filter]

end NN
