import Verif.Props.C162
import Verif.Real.SoftmaxExists
/- C163: the data alone decides whether the parameters of a softmax classifier have a limit: they do if and only if the classes overlap. -/

set_option linter.unusedSectionVars false

namespace NN
open Go Finset

/-- The classes overlap: no weights and biases score every sample at least as high in its class as in every other, unless they score it
the same in all classes. -/
def Overlapping (n c r : Nat) (A : Nat → Nat → ℝ) (l : Nat → Nat) : Prop :=
  ∀ W b, (∀ i j, i < r → j < c → linPred n W b A i j ≤ linPred n W b A i (l i)) →
    ∀ i j, i < r → j < c → linPred n W b A i j = linPred n W b A i (l i)

theorem overlapping_iff (n c r : Nat) (A : Nat → Nat → ℝ) (l : Nat → Nat) :
    Overlapping n c r A l ↔ Overlap r c (n + 1) (augIn n A) l := by
  have hs : ∀ θ i j, score (n + 1) (augIn n A) θ i j = linPred n θ (θ n) A i j := by
    intro θ i j
    rw [← score_coefs]
    exact sum_congr rfl fun k hk => by rw [coefs_self n θ (mem_range.1 hk)]
  constructor
  · intro h θ hle
    simp only [hs] at hle ⊢
    exact h θ (θ n) hle
  · intro h W b hle
    simp only [← score_coefs] at hle ⊢
    exact h _ hle

/-- C163: some weights and biases have the least cross-entropy if and only if the classes overlap. -/
theorem C163_exists {n c r : Nat} (hr : 0 < r) {A B : Nat → Nat → ℝ} {l : Nat → Nat} (hl : ∀ i, i < r → l i < c)
    (hB : ∀ i j, i < r → j < c → B i j = oneHots l i j) : (∃ W b, BestSoftmax n c r A B W b) ↔ Overlapping n c r A l := by
  rw [overlapping_iff]
  constructor
  · rintro ⟨W, b, h⟩
    exact overlap_of_best _ l hl _ ((best_iff hl hB W b).1 h)
  · intro h
    obtain ⟨θ, hθ⟩ := best_of_overlap hr _ l hl h
    refine ⟨θ, θ n, (best_iff hl hB _ _).2 fun θ' => ?_⟩
    rw [smr_congr _ l hl (θ := coefs n θ (θ n)) (fun k j hk _ => coefs_self _ θ hk j)]
    exact hθ θ'

/-- C163: if the classes overlap, the weights and biases of the model tend to ones with the least cross-entropy. -/
theorem C163_limit (w : World ℝ) (m : Model ℝ) (net : Net ℝ) (op : Nat → Nat) (S : Nat → OptSpec ℝ) (lr : ℝ) (X Y xv yv : Mat) (r : Nat)
    (A B : Nat → Nat → ℝ) (l : Nat → Nat) (h : SoftTask w m net op S lr X Y r A B l)
    (hov : Overlapping (net.dim 0) (net.dim 1) r A l) :
    ∃ W b, BestSoftmax (net.dim 0) (net.dim 1) r A B W b ∧ ∀ ε : ℝ, 0 < ε → ∃ T : Nat, ∀ t : Nat, T ≤ t →
      wp (fit m X Y t 0 xv yv 0) w (fun e w' => e = none ∧ ∃ net', IsNet w' m net' ∧ SameShape net net' ∧
        (∀ k j, k < net.dim 0 → j < net.dim 1 → |(net'.L 0).W k j - W k j| < ε) ∧
        ∀ j, j < net.dim 1 → |(net'.L 0).b j - b j| < ε) :=
  C162_limit w m net op S lr X Y xv yv r A B l h ((C163_exists h.inputs.mat.rpos h.labels h.oneHot).2 hov)

/-- C163: if the classes do not overlap, some weight or bias exceeds M from some number of epochs on, for every M. -/
theorem C163_none (w : World ℝ) (m : Model ℝ) (net : Net ℝ) (op : Nat → Nat) (S : Nat → OptSpec ℝ) (lr : ℝ) (X Y xv yv : Mat) (r : Nat)
    (A B : Nat → Nat → ℝ) (l : Nat → Nat) (h : SoftTask w m net op S lr X Y r A B l)
    (hov : ¬Overlapping (net.dim 0) (net.dim 1) r A l) (M : ℝ) :
    ∃ T : Nat, ∀ t : Nat, T ≤ t → wp (fit m X Y t 0 xv yv 0) w (fun e w' => e = none ∧ ∃ net', IsNet w' m net' ∧ SameShape net net' ∧
      ∃ j, j < net.dim 1 ∧ (M < |(net'.L 0).b j| ∨ ∃ k, k < net.dim 0 ∧ M < |(net'.L 0).W k j|)) :=
  C162_none w m net op S lr X Y xv yv r A B l h (fun hb => hov ((C163_exists h.inputs.mat.rpos h.labels h.oneHot).1 hb)) M

/-- C163: if some class has no samples, the classes do not overlap. -/
theorem C163_missing {n c r : Nat} (hr : 0 < r) (A : Nat → Nat → ℝ) (l : Nat → Nat) {j : Nat} (hj : j < c)
    (hmiss : ∀ i, i < r → l i ≠ j) : ¬Overlapping n c r A l := by
  intro h
  have hp : ∀ i k, linPred n (fun _ _ => 0) (fun k => if k = j then -1 else 0) A i k = if k = j then -1 else 0 := by
    intro i k
    simp [linPred]
  have h1 := h (fun _ _ => 0) (fun k => if k = j then -1 else 0) (by
    intro i k hi hk
    rw [hp, hp, if_neg (hmiss i hi)]
    split <;> norm_num) 0 j hr hj
  rw [hp, hp, if_pos rfl, if_neg (hmiss 0 hr)] at h1
  norm_num at h1

/-- Hypotheses of C163_missing: four samples of the classes 0 and 1, and a third class. -/
example : 0 < 4 ∧ 2 < 3 ∧ ∀ i, i < 4 → (fun i => i / 2) i ≠ 2 :=
  ⟨by decide, by decide, by intro i hi; dsimp only; omega⟩

/-- Hypotheses of C163_limit and C163_exists: four samples with the same inputs, two of each class. -/
example : ∃ (w : World ℝ) (m : Model ℝ) (net : Net ℝ) (op : Nat → Nat) (S : Nat → OptSpec ℝ) (X Y : Mat) (A B : Nat → Nat → ℝ) (l : Nat → Nat),
    SoftTask w m net op S (1 / 38) X Y 4 A B l ∧ Overlapping (net.dim 0) (net.dim 1) 4 A l := by
  obtain ⟨w, m, net, op, S, X, Y, B, h, d0, d1⟩ := softTask_case (fun _ _ => 1) (by
    intro i hi
    norm_num [sum_range_succ])
  refine ⟨w, m, net, op, S, X, Y, _, B, _, h, ?_⟩
  rw [d0, d1]
  intro W b hle i j hi hj
  have h1 := hle 0 1 (by decide) (by decide)
  have h2 := hle 2 0 (by decide) (by decide)
  unfold linPred at h1 h2 ⊢
  norm_num at h1 h2 ⊢
  have hi2 : i / 2 = 0 ∨ i / 2 = 1 := by omega
  have hj2 : j = 0 ∨ j = 1 := by omega
  rcases hi2 with e | e <;> rcases hj2 with rfl | rfl <;> rw [e] <;> linarith

/-- Hypotheses of C163_none: the classes do not overlap, although they are not separable in the sense of C112: samples of both classes lie on
the border between them (the inputs are 0, 1, 1, 2, the classes 0, 0, 1, 1). -/
example : ∃ (w : World ℝ) (m : Model ℝ) (net : Net ℝ) (op : Nat → Nat) (S : Nat → OptSpec ℝ) (X Y : Mat) (A B : Nat → Nat → ℝ) (l : Nat → Nat),
    SoftTask w m net op S (1 / 38) X Y 4 A B l ∧ ¬Overlapping (net.dim 0) (net.dim 1) 4 A l ∧ ¬Separable (net.dim 0) (net.dim 1) 4 A l := by
  obtain ⟨w, m, net, op, S, X, Y, B, h, d0, d1⟩ := softTask_case (fun i _ => if i = 0 then 0 else if i = 3 then 2 else 1) (by
    intro i hi
    have h4 : i = 0 ∨ i = 1 ∨ i = 2 ∨ i = 3 := by omega
    rcases h4 with rfl | rfl | rfl | rfl <;> norm_num [sum_range_succ])
  refine ⟨w, m, net, op, S, X, Y, _, B, _, h, ?_, ?_⟩
  · rw [d0, d1]
    intro hov
    have h0 := hov (fun _ j => (j : ℝ)) (fun j => -(2 * j)) (by
      intro i j hi hj
      have h4 : i = 0 ∨ i = 1 ∨ i = 2 ∨ i = 3 := by omega
      have h2 : j = 0 ∨ j = 1 := by omega
      rcases h4 with rfl | rfl | rfl | rfl <;> rcases h2 with rfl | rfl <;> norm_num [linPred, sum_range_succ]) 0 1 (by decide) (by decide)
    norm_num [linPred, sum_range_succ] at h0
  · rw [d0, d1]
    rintro ⟨W, b, hs⟩
    have h1 := hs 1 1 (by decide) (by decide) (by decide)
    have h2 := hs 2 0 (by decide) (by decide) (by decide)
    unfold linPred at h1 h2
    norm_num at h1 h2
    linarith

end NN
