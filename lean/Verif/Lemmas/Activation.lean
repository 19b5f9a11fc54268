import Verif.Lemmas.Matrix
import Verif.Model.Activation
/- Execution lemmas for activation.go. -/

set_option linter.unusedSectionVars false

namespace NN
variable {α : Type} [Flt α]
open Go

theorem relu_spec {w : World α} {m : Mat} {r c : Nat} {A : Nat → Nat → α} (hA : IsMat w m r c A)
    (hd : DistinctRows w m r) :
    wp (relu m) w (fun p w' => p = m ∧ SetMat w w' m r c (fun i j => Flt.max (A i j) Flt.zero)) := by
  unfold relu
  rw [hA.rows, hA.cols, Int.toNat_natCast, Int.toNat_natCast]
  refine wp_bind_mono (wp_fill (V := fun i j => Flt.max (A i j) Flt.zero) hA ?_) fun _ w' hw' => ⟨rfl, hw'⟩
  intro i j w1 hi hj hw1
  rw [wp_bind, wp_at hw1.mat hi hj, mix_self]
  exact hw1.put hd hi hj rfl

theorem sigmoid_spec {w : World α} {m : Mat} {r c : Nat} {A : Nat → Nat → α} (hA : IsMat w m r c A)
    (hd : DistinctRows w m r) :
    wp (sigmoid m) w (fun p w' => p = m ∧
      SetMat w w' m r c (fun i j => Flt.one /. (Flt.one +. Flt.exp (Flt.neg (A i j))))) := by
  unfold sigmoid
  rw [hA.rows, hA.cols, Int.toNat_natCast, Int.toNat_natCast]
  refine wp_bind_mono (wp_fill (V := fun i j => Flt.one /. (Flt.one +. Flt.exp (Flt.neg (A i j)))) hA ?_)
    fun _ w' hw' => ⟨rfl, hw'⟩
  intro i j w1 hi hj hw1
  rw [wp_bind, wp_at hw1.mat hi hj, mix_self]
  exact hw1.put hd hi hj rfl

theorem leakyRelu_spec {w : World α} {m : Mat} {r c : Nat} {A : Nat → Nat → α} (slope : α) (hA : IsMat w m r c A)
    (hd : DistinctRows w m r) :
    wp (leakyRelu m slope) w (fun p w' => p = m ∧
      SetMat w w' m r c (fun i j => if Flt.lt (A i j) Flt.zero then A i j *. slope else A i j)) := by
  unfold leakyRelu
  rw [hA.rows, hA.cols, Int.toNat_natCast, Int.toNat_natCast]
  refine wp_bind_mono (wp_fill (V := fun i j => if Flt.lt (A i j) Flt.zero then A i j *. slope else A i j) hA ?_)
    fun _ w' hw' => ⟨rfl, hw'⟩
  intro i j w1 hi hj hw1
  rw [wp_bind, wp_at hw1.mat hi hj, mix_self]
  split
  · rw [wp_bind, wp_at hw1.mat hi hj, mix_self]
    exact hw1.put hd hi hj (by simp [*])
  · exact hw1.keep (by simp [*])

theorem reluPrime_spec {w : World α} {m x : Mat} {r c : Nat} {A X : Nat → Nat → α} (hA : IsMat w m r c A)
    (hd : DistinctRows w m r) (hX : IsMat w x r c X) (hdis : ∀ a, w.IsRow x r a → ¬ w.IsRow m r a) :
    wp (reluPrime m x) w (fun p w' => p = m ∧
      SetMat w w' m r c (fun i j => if Flt.le (X i j) Flt.zero then Flt.zero else A i j)) := by
  unfold reluPrime
  rw [hA.rows, hA.cols, Int.toNat_natCast, Int.toNat_natCast]
  refine wp_bind_mono (wp_fill (V := fun i j => if Flt.le (X i j) Flt.zero then Flt.zero else A i j) hA ?_)
    fun _ w' hw' => ⟨rfl, hw'⟩
  intro i j w1 hi hj hw1
  rw [wp_bind, wp_at (hX.frame hw1.frame (fun h => h) hdis) hi hj]
  split
  · exact hw1.put hd hi hj (by simp [*])
  · exact hw1.keep (by simp [*])

theorem leakyReluPrime_spec {w : World α} {m x : Mat} {r c : Nat} {A X : Nat → Nat → α} (slope : α)
    (hA : IsMat w m r c A) (hd : DistinctRows w m r) (hX : IsMat w x r c X)
    (hdis : ∀ a, w.IsRow x r a → ¬ w.IsRow m r a) :
    wp (leakyReluPrime m x slope) w (fun p w' => p = m ∧
      SetMat w w' m r c (fun i j => if Flt.lt (X i j) Flt.zero then A i j *. slope else A i j)) := by
  unfold leakyReluPrime
  rw [hA.rows, hA.cols, Int.toNat_natCast, Int.toNat_natCast]
  refine wp_bind_mono (wp_fill (V := fun i j => if Flt.lt (X i j) Flt.zero then A i j *. slope else A i j) hA ?_)
    fun _ w' hw' => ⟨rfl, hw'⟩
  intro i j w1 hi hj hw1
  rw [wp_bind, wp_at (hX.frame hw1.frame (fun h => h) hdis) hi hj]
  split
  · rw [wp_bind, wp_at hw1.mat hi hj, mix_self]
    exact hw1.put hd hi hj (by simp [*])
  · exact hw1.keep (by simp [*])

/-- `SigmoidPrime(m, d)` when `d` has (at least) the shape of `m`. -/
theorem sigmoidPrime_spec {w : World α} {m d : Mat} {r c c' : Nat} {A D : Nat → Nat → α} (hA : IsMat w m r c A)
    (hd : DistinctRows w m r) (hD : IsMat w d r c' D) (hc : c ≤ c') (hdis : ∀ a, w.IsRow d r a → ¬ w.IsRow m r a) :
    wp (sigmoidPrime m d) w (fun p w' => p = m ∧
      SetMat w w' m r c (fun i j =>
        let s := Flt.one /. (Flt.one +. Flt.exp (Flt.neg (A i j)))
        D i j *. s *. (Flt.one -. s))) := by
  unfold sigmoidPrime
  refine wp_bind_mono (sigmoid_spec hA hd) ?_
  rintro p w1 ⟨rfl, h1⟩
  rw [hA.rows, hA.cols, Int.toNat_natCast, Int.toNat_natCast]
  have hd1 := (h1.distinct p r).2 hd
  have hD1 : IsMat w1 d r c' D := hD.frame h1.frame (fun h => h) hdis
  refine wp_bind_mono (wp_fill (V := fun i j =>
        let s := Flt.one /. (Flt.one +. Flt.exp (Flt.neg (A i j)))
        D i j *. s *. (Flt.one -. s)) h1.mat ?_) fun _ w' hw' => ⟨rfl, h1.trans hw'⟩
  intro i j w2 hi hj hw2
  have hD2 : IsMat w2 d r c' D := by
    refine hD1.frame hw2.frame (fun h => h) ?_
    intro a ha hb
    exact hdis a ((h1.isRow' _ _ _).1 ha) ((h1.isRow _).1 hb)
  rw [wp_bind, wp_at hD2 hi (by omega), wp_bind, wp_at hw2.mat hi hj, mix_self, wp_bind, wp_at hw2.mat hi hj, mix_self]
  exact hw2.put hd1 hi hj rfl

theorem softmax_spec {w : World α} {m : Mat} {r c : Nat} {A : Nat → Nat → α} (hA : IsMat w m r c A)
    (hd : DistinctRows w m r) :
    wp (softmax m) w (fun p w' => p = m ∧
      SetMat w w' m r c (fun i j => Flt.exp (A i j) /. fsum c fun k => Flt.exp (A i k))) := by
  unfold softmax
  rw [hA.rows, hA.cols, Int.toNat_natCast, Int.toNat_natCast]
  refine wp_bind_mono (wp_forN (fun i w1 => SetMat w w1 m r c (fun i' j' =>
    if i' < i then Flt.exp (A i' j') /. fsum c fun k => Flt.exp (A i' k) else A i' j')) ?_ ?_) ?_
  · exact (SetMat.refl hA).congr (by simp)
  · intro i w1 hi hw1
    refine wp_bind_mono (wp_foldN (fun k s w2 => s = fsum k (fun k => Flt.exp (A i k)) ∧
      SetMat w w2 m r c (fun i' j' =>
        if i' < i then Flt.exp (A i' j') /. fsum c fun k => Flt.exp (A i' k)
        else if i' = i ∧ j' < k then Flt.exp (A i j') else A i' j')) ⟨rfl, hw1.congr (by simp)⟩ ?_) ?_
    · rintro k s w2 hk ⟨rfl, hw2⟩
      rw [wp_bind, wp_at hw2.mat hi hk]
      simp only [Nat.lt_irrefl, if_false, and_false]
      refine wp_bind_mono (wp_setAt hw2.mat ((hw2.distinct _ _).2 hd) hi hk _) ?_
      intro _ w3 hw3
      rw [wp_bind, wp_at hw3.mat hi hk]
      refine ⟨by simp [upd2, fsum], (hw2.trans hw3).congr ?_⟩
      intro i' j' hi' hj'
      simp only [upd2]
      by_cases e : i' = i ∧ j' = k
      · obtain ⟨rfl, rfl⟩ := e; simp
      · have : (i' = i ∧ j' < k + 1) ↔ (i' = i ∧ j' < k) := by omega
        simp [e, this]
    · rintro s w2 ⟨rfl, hw2⟩
      refine wp_mono (wp_forN (fun k w3 => SetMat w w3 m r c (fun i' j' =>
        if i' < i ∨ (i' = i ∧ j' < k) then Flt.exp (A i' j') /. fsum c fun k => Flt.exp (A i' k)
        else if i' = i then Flt.exp (A i j') else A i' j')) ?_ ?_) ?_
      · refine hw2.congr ?_
        intro i' j' hi' hj'
        simp [hj']
      · intro k w3 hk hw3
        rw [wp_bind, wp_at hw3.mat hi hk]
        refine wp_mono (wp_setAt hw3.mat ((hw3.distinct _ _).2 hd) hi hk _) ?_
        intro _ w4 hw4
        refine (hw3.trans hw4).congr ?_
        intro i' j' hi' hj'
        simp only [upd2]
        by_cases e : i' = i ∧ j' = k
        · obtain ⟨rfl, rfl⟩ := e; simp
        · have : (i' < i ∨ (i' = i ∧ j' < k + 1)) ↔ (i' < i ∨ (i' = i ∧ j' < k)) := by omega
          simp [e, this]
      · intro _ w3 hw3
        refine hw3.congr ?_
        intro i' j' hi' hj'
        have : (i' < i ∨ (i' = i ∧ j' < c)) ↔ i' < i + 1 := by omega
        rw [if_congr this rfl rfl]
        split
        · rfl
        · rw [if_neg (by omega)]
  · intro _ w1 hw1
    refine ⟨rfl, hw1.congr ?_⟩
    intro i j hi hj
    simp [hi]

end NN
