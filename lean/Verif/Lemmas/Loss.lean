import Verif.Lemmas.Matrix
import Verif.Model.Loss
/- Execution lemmas for loss.go. -/

set_option linter.unusedSectionVars false

namespace NN
variable {α : Type} [Flt α]
open Go

theorem lossCheck_ok {w w' : World α} {a b : Mat} {r r' c : Nat} {A B : Nat → Nat → α} (hA : IsMat w a r c A)
    (hB : IsMat w' b r' c B) : lossCheck (c : Int) a b = none := by
  unfold lossCheck
  rw [if_neg (by rw [hA.cols, hB.cols]; simp)]

/-- The clipped value. -/
def clipV (x : α) : α := if Flt.lt x Flt.zero then Flt.eps7 else if Flt.lt Flt.one x then Flt.oneSubEps7 else x

theorem clip_spec' {w : World α} {m : Mat} {r c : Nat} {A : Nat → Nat → α} (hA : IsMat w m r c A)
    (hd : DistinctRows w m r) :
    wp (clip m) w (fun p w' => p = m ∧ SetMat w w' m r c (fun i j => clipV (A i j))) := clip_spec hA hd

theorem mapRow0_spec {w w0 : World α} {m : Mat} {r c : Nat} {A : Nat → Nat → α} (f : α → α) (hm : NewMat w w0 m r c A) :
    wp (forN c fun i => do
      let x ← m.at 0 i
      m.setAt 0 i (f x)) w0 (fun _ w' => NewMat w w' m r c (fun i j => if i = 0 then f (A i j) else A i j)) := by
  refine wp_mono (wp_fillRow (i := 0) (A := A) (V := fun i j => if i = 0 then f (A i j) else A i j)
    ((SetMat.refl hm.mat).congr (by simp [mix])) ?_) ?_
  · intro j w1 hj hw1
    rw [wp_bind]
    have h0 : wp (m.at 0 (j : Int)) w1 (fun v w2 => v = A 0 j ∧ w2 = w1) :=
      (wp_at (i := 0) hw1.mat hm.mat.rpos hj).2 ⟨mix_self _ _ _ _, rfl⟩
    refine wp_mono h0 ?_
    rintro _ w1 ⟨rfl, rfl⟩
    exact hw1.put (i := 0) hm.distinct hm.mat.rpos hj (by simp)
  · intro _ w1 hw1
    refine hm.set (hw1.congr ?_)
    intro i j hi hj
    simp only [mix]
    split
    · rfl
    · rw [if_neg (by omega)]

theorem mseForward_spec {w : World α} {a b : Mat} {r c : Nat} {A B : Nat → Nat → α} (hA : IsMat w a r c A)
    (hB : IsMat w b r c B) :
    wp (mseForward (c : Int) a b) w (fun p w' => p.2 = none ∧ OnlyAllocs w w' ∧
      p.1 = (fsum c fun j => Flt.pow (A 0 j -. B 0 j) (Flt.ofInt 2)) /. Flt.ofInt (c : Int)) := by
  unfold mseForward
  rw [lossCheck_ok hA hB]
  refine wp_bind_mono (sub_spec hA hB) ?_
  rintro ⟨s, e⟩ w0 ⟨rfl, hm⟩
  dsimp only
  rw [hm.mat.cols, Int.toNat_natCast]
  refine wp_bind_mono (mapRow0_spec (fun x => Flt.pow x (Flt.ofInt 2)) hm) ?_
  intro _ w1 h1
  refine wp_bind_mono (sum1_spec h1.mat) ?_
  intro t w2 h2
  have h0 : wp (t.at 0 0) w2 (fun v w3 => v = _ ∧ w3 = w2) :=
    (wp_at (i := 0) (j := 0) h2.mat Nat.one_pos h1.mat.rpos).2 ⟨rfl, rfl⟩
  refine wp_bind_mono h0 ?_
  rintro _ w3 ⟨rfl, rfl⟩
  refine ⟨rfl, h1.frame.trans h2.frame, ?_⟩
  simp

theorem maeForward_spec {w : World α} {a b : Mat} {r c : Nat} {A B : Nat → Nat → α} (hA : IsMat w a r c A)
    (hB : IsMat w b r c B) :
    wp (maeForward (c : Int) a b) w (fun p w' => p.2 = none ∧ OnlyAllocs w w' ∧
      p.1 = (fsum c fun j => Flt.abs (A 0 j -. B 0 j)) /. Flt.ofInt (c : Int)) := by
  unfold maeForward
  rw [lossCheck_ok hA hB]
  refine wp_bind_mono (sub_spec hA hB) ?_
  rintro ⟨s, e⟩ w0 ⟨rfl, hm⟩
  dsimp only
  rw [hm.mat.cols, Int.toNat_natCast]
  refine wp_bind_mono (mapRow0_spec (fun x => Flt.abs x) hm) ?_
  intro _ w1 h1
  refine wp_bind_mono (sum1_spec h1.mat) ?_
  intro t w2 h2
  have h0 : wp (t.at 0 0) w2 (fun v w3 => v = _ ∧ w3 = w2) :=
    (wp_at (i := 0) (j := 0) h2.mat Nat.one_pos h1.mat.rpos).2 ⟨rfl, rfl⟩
  refine wp_bind_mono h0 ?_
  rintro _ w3 ⟨rfl, rfl⟩
  refine ⟨rfl, h1.frame.trans h2.frame, ?_⟩
  simp

theorem mseBackward_spec {w : World α} {a b : Mat} {r c : Nat} {A B : Nat → Nat → α} (hA : IsMat w a r c A)
    (hB : IsMat w b r c B) :
    wp (mseBackward (c : Int) a b) w (fun p w' => p.2 = none ∧
      NewMat w w' p.1 r c (fun i j => (A i j -. B i j) *. (Flt.ofInt 2 /. Flt.ofInt (c : Int)))) := by
  unfold mseBackward
  rw [lossCheck_ok hA hB]
  refine wp_bind_mono (sub_spec hA hB) ?_
  rintro ⟨s, e⟩ w0 ⟨rfl, hm⟩
  dsimp only
  refine wp_bind_mono (mulScalar_spec hm.mat _) ?_
  intro p w1 h1
  exact ⟨rfl, NewMat.of_allocs hm.frame h1⟩

theorem maeBackward_spec {w : World α} {a b : Mat} {r c : Nat} {A B : Nat → Nat → α} (hA : IsMat w a r c A)
    (hB : IsMat w b r c B) :
    wp (maeBackward (c : Int) a b) w (fun p w' => p.2 = none ∧
      NewMat w w' p.1 r c (fun i j =>
        if Flt.lt Flt.zero (A i j -. B i j) then Flt.ofInt (Int.tdiv 1 c)
        else if Flt.lt (A i j -. B i j) Flt.zero then Flt.ofInt (Int.tdiv (-1) c) else Flt.zero)) := by
  unfold maeBackward
  rw [lossCheck_ok hA hB]
  refine wp_bind_mono (sub_spec hA hB) ?_
  rintro ⟨s, e⟩ w0 ⟨rfl, hm⟩
  dsimp only
  rw [hm.mat.rows, hm.mat.cols, Int.toNat_natCast, Int.toNat_natCast]
  refine wp_bind_mono (wp_fill (V := fun i j =>
        if Flt.lt Flt.zero (A i j -. B i j) then Flt.ofInt (Int.tdiv 1 c)
        else if Flt.lt (A i j -. B i j) Flt.zero then Flt.ofInt (Int.tdiv (-1) c) else Flt.zero) hm.mat ?_)
    fun _ w' hw' => ⟨rfl, hm.set hw'⟩
  intro i j w1 hi hj hw1
  rw [wp_bind, wp_at hw1.mat hi hj, mix_self]
  split
  · exact hw1.put hm.distinct hi hj (by simp [*])
  · rw [wp_bind, wp_at hw1.mat hi hj, mix_self]
    split
    · exact hw1.put hm.distinct hi hj (by simp [*])
    · exact hw1.put hm.distinct hi hj (by simp [*])

theorem ceForward_spec {w : World α} {a b : Mat} {r r' c : Nat} {A B : Nat → Nat → α} (hA : IsMat w a r c A)
    (hd : DistinctRows w a r) (hB : IsMat w b r' c B) (hr : r ≤ r') (hdis : ∀ x, w.IsRow b r' x → ¬ w.IsRow a r x) :
    wp (ceForward (c : Int) a b) w (fun p w' => p.2 = none ∧ Frame { flt := w.IsRow a r } w w' ∧
      IsMat w' a r c (fun i j => clipV (A i j)) ∧
      p.1 = fsum r fun i => Flt.neg (Flt.log (fsum c fun j => clipV (A i j) *. B i j)) /. Flt.ofInt (r : Int)) := by
  unfold ceForward
  rw [lossCheck_ok hA hB]
  refine wp_bind_mono (clip_spec' hA hd) ?_
  rintro p w1 ⟨rfl, h1⟩
  have hB1 : IsMat w1 b r' c B := hB.frame h1.frame (fun h => h) hdis
  rw [hA.rows, hA.cols, Int.toNat_natCast, Int.toNat_natCast]
  refine wp_bind_mono (newMatrix_spec (c := 1) hA.rpos Nat.one_pos) ?_
  rintro ⟨lk, e⟩ w2 ⟨_, hm⟩
  have hfill : wp (forN r fun i => do
      let sum ← foldN c (fun j sum => do
        let q ← p.at i j
        let t ← b.at i j
        return sum +. q *. t) (Flt.zero : α)
      lk.setAt i 0 (Flt.neg (Flt.log sum))) w2
      (fun _ w' => SetMat w2 w' lk r 1 (fun i _ => Flt.neg (Flt.log (fsum c fun j => clipV (A i j) *. B i j)))) := by
    refine wp_mono (wp_forN (fun i w3 => SetMat w2 w3 lk r 1 (fun i' _ =>
      if i' < i then Flt.neg (Flt.log (fsum c fun j => clipV (A i' j) *. B i' j)) else Flt.zero)) ?_ ?_) ?_
    · exact (SetMat.refl hm.mat).congr (by simp)
    · intro i w3 hi hw3
      refine wp_bind_mono (wp_foldN_read (fun k s => s +. clipV (A i k) *. B i k) ?_) ?_
      · intro k s hk
        rw [wp_bind, wp_at (hm.old hw3 h1.mat) hi hk, wp_bind, wp_at (hm.old hw3 hB1) (by omega) hk]
        exact ⟨rfl, rfl⟩
      · rintro s w4 ⟨rfl, rfl⟩
        refine wp_mono (wp_setAt (j := 0) hw3.mat ((hw3.distinct _ _).2 hm.distinct) hi Nat.one_pos _) ?_
        intro _ w5 hw5
        refine (hw3.trans hw5).congr ?_
        intro i' j' hi' hj'
        simp only [upd2, accN_fsum]
        by_cases e : i' = i ∧ j' = 0
        · obtain ⟨rfl, rfl⟩ := e; simp
        · have : i' < i + 1 ↔ i' < i := by omega
          simp [e, this]
    · intro _ w3 hw3
      refine hw3.congr ?_
      intro i j hi hj
      simp [hi]
  refine wp_bind_mono hfill ?_
  intro _ w3 hw3
  have hnew := hm.set hw3
  rw [hm.mat.rows, Int.toNat_natCast]
  refine wp_bind_mono (wp_foldN_read (fun i s => s +. Flt.neg (Flt.log (fsum c fun j => clipV (A i j) *. B i j)) /. Flt.ofInt (r : Int)) ?_) ?_
  · intro i s hi
    have h0 : wp (lk.at (i : Int) 0) w3 (fun v w4 => v = _ ∧ w4 = w3) :=
      (wp_at (j := 0) hnew.mat hi Nat.one_pos).2 ⟨rfl, rfl⟩
    refine wp_bind_mono h0 ?_
    rintro _ w4 ⟨rfl, rfl⟩
    exact ⟨rfl, rfl⟩
  · rintro s w4 ⟨rfl, rfl⟩
    refine ⟨rfl, ?_, h1.mat.allocs hnew.frame, accN_fsum _ _⟩
    exact h1.frame.trans_same (hnew.frame.mono (Foot.Le.empty _))

theorem ceBackward_spec {w : World α} {a b : Mat} {r r' c : Nat} {A B : Nat → Nat → α} (hA : IsMat w a r c A)
    (hB : IsMat w b r' c B) (hr : r ≤ r') :
    wp (ceBackward (c : Int) a b) w (fun p w' => p.2 = none ∧
      NewMat w w' p.1 r c (fun i j => (Flt.neg (B i j) /. A i j) /. Flt.ofInt (r : Int))) := by
  unfold ceBackward
  rw [lossCheck_ok hA hB]
  rw [hA.rows, hA.cols]
  refine wp_bind_mono (newMatrix_spec hA.rpos hA.cpos) ?_
  rintro ⟨ans, e⟩ w0 ⟨_, hm⟩
  dsimp only
  rw [hm.mat.rows, hm.mat.cols, Int.toNat_natCast, Int.toNat_natCast]
  refine wp_bind_mono (wp_fill (V := fun i j => (Flt.neg (B i j) /. A i j) /. Flt.ofInt (r : Int)) hm.mat ?_)
    fun _ w' hw' => ⟨rfl, hm.set hw'⟩
  intro i j w1 hi hj hw1
  rw [wp_bind, wp_at (hm.old hw1 hB) (by omega) hj, wp_bind, wp_at (hm.old hw1 hA) hi hj]
  exact hw1.put hm.distinct hi hj rfl

/-- The term added by the binary cross-entropy for one entry. -/
def bceTerm (size r : Int) (p t : α) : α :=
  (Flt.neg (t *. Flt.log p +. (Flt.one -. t) *. Flt.log (Flt.one -. p)) /. Flt.ofInt r) /. Flt.ofInt size

/-- A double sum accumulated in one variable. -/
def fsum2 (r c : Nat) (f : Nat → Nat → α) : α :=
  accN r (fun i s => accN c (fun j s => s +. f i j) s) Flt.zero

theorem bceForward_spec {w : World α} {a b : Mat} {r r' c : Nat} {A B : Nat → Nat → α} (hA : IsMat w a r c A)
    (hd : DistinctRows w a r) (hB : IsMat w b r' c B) (hr : r ≤ r') (hdis : ∀ x, w.IsRow b r' x → ¬ w.IsRow a r x) :
    wp (bceForward (c : Int) a b) w (fun p w' => p.2 = none ∧ SetMat w w' a r c (fun i j => clipV (A i j)) ∧
      p.1 = fsum2 r c fun i j => bceTerm c r (clipV (A i j)) (B i j)) := by
  unfold bceForward
  rw [lossCheck_ok hA hB]
  refine wp_bind_mono (clip_spec' hA hd) ?_
  rintro p w1 ⟨rfl, h1⟩
  have hB1 : IsMat w1 b r' c B := hB.frame h1.frame (fun h => h) hdis
  rw [hA.rows, hA.cols, Int.toNat_natCast, Int.toNat_natCast]
  refine wp_bind_mono (wp_foldN_read (fun i s => accN c (fun j s => s +. bceTerm c r (clipV (A i j)) (B i j)) s) ?_) ?_
  · intro i s hi
    refine wp_foldN_read _ ?_
    intro j s hj
    rw [wp_bind, wp_at hB1 (by omega) hj, wp_bind, wp_at h1.mat hi hj]
    exact ⟨rfl, rfl⟩
  · rintro s w2 ⟨rfl, rfl⟩
    exact ⟨rfl, h1, rfl⟩

theorem bceBackward_spec {w : World α} {a b : Mat} {r r' c : Nat} {A B : Nat → Nat → α} (hA : IsMat w a r c A)
    (hd : DistinctRows w a r) (hB : IsMat w b r' c B) (hr : r ≤ r') (hdis : ∀ x, w.IsRow b r' x → ¬ w.IsRow a r x) :
    wp (bceBackward (c : Int) a b) w (fun p w' => p.2 = none ∧ Frame { flt := w.IsRow a r } w w' ∧
      IsMat w' a r c (fun i j => clipV (A i j)) ∧ IsMat w' b r' c B ∧
      ∃ w1, SetMat w w1 a r c (fun i j => clipV (A i j)) ∧ NewMat w1 w' p.1 r c (fun i j =>
        (Flt.neg (B i j /. clipV (A i j) -. (Flt.one -. B i j) /. (Flt.one -. clipV (A i j))) /. Flt.ofInt (c : Int))
          /. Flt.ofInt (r : Int))) := by
  unfold bceBackward
  rw [lossCheck_ok hA hB]
  refine wp_bind_mono (clip_spec' hA hd) ?_
  rintro p w1 ⟨rfl, h1⟩
  have hB1 : IsMat w1 b r' c B := hB.frame h1.frame (fun h => h) hdis
  rw [hA.rows, hA.cols]
  refine wp_bind_mono (newMatrix_spec hA.rpos hA.cpos) ?_
  rintro ⟨ans, e⟩ w2 ⟨_, hm⟩
  dsimp only
  rw [hm.mat.rows, hm.mat.cols, Int.toNat_natCast, Int.toNat_natCast]
  refine wp_bind_mono (wp_fill (V := fun i j =>
        (Flt.neg (B i j /. clipV (A i j) -. (Flt.one -. B i j) /. (Flt.one -. clipV (A i j))) /. Flt.ofInt (c : Int))
          /. Flt.ofInt (r : Int)) hm.mat ?_) ?_
  · intro i j w3 hi hj hw3
    rw [wp_bind, wp_at (hm.old hw3 hB1) (by omega) hj, wp_bind, wp_at (hm.old hw3 h1.mat) hi hj]
    exact hw3.put hm.distinct hi hj rfl
  · intro _ w3 hw3
    have hn := hm.set hw3
    exact ⟨rfl, h1.frame.trans_same (hn.frame.mono (Foot.Le.empty _)), h1.mat.allocs hn.frame,
      hB1.allocs hn.frame, w1, h1, hn⟩

end NN
