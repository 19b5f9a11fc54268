import Verif.Props.C133
/- C148: what training cannot change, in exact arithmetic: directions in which there is no data, the weights of an input that is always 0, the
sums over the outputs of a softmax layer, and a model that predicts everything exactly. -/

set_option linter.unusedSectionVars false

namespace NN
open Go Finset

/-! ### Linear quantities under one update -/

/-- A sum that the gradient leaves alone is kept by SGD, with or without momentum. -/
theorem upd_sum {ι : Type} {S : OptSpec ℝ} (hk : S.kind = .sgd) (s : Finset ι) (a x v c g : ι → ℝ) (hg : ∑ i ∈ s, a i * g i = 0)
    (hv : S.momentum = 0 ∨ ∑ i ∈ s, a i * v i = 0) :
    ∑ i ∈ s, a i * S.upd (x i) (v i) (c i) (g i) = ∑ i ∈ s, a i * x i ∧ (S.momentum = 0 ∨ ∑ i ∈ s, a i * S.vel (v i) (g i) = 0) := by
  have hr : ∑ i ∈ s, a i * (g i * S.rate) = 0 := by
    rw [← zero_mul S.rate, ← hg, sum_mul]
    exact sum_congr rfl fun i _ => by ring
  by_cases h0 : S.momentum = 0
  · refine ⟨?_, .inl h0⟩
    have e : ∀ i, a i * S.upd (x i) (v i) (c i) (g i) = a i * x i - a i * (g i * S.rate) := by
      intro i
      unfold OptSpec.upd
      rw [hk, h0]
      dsimp only
      rw [if_pos (by simp [Flt.zero])]
      show a i * (x i - g i * S.rate) = _
      ring
    simp only [e]
    rw [sum_sub_distrib, hr, sub_zero]
  · have hv' := hv.resolve_left h0
    have hn : Flt.eq S.momentum (Flt.zero : ℝ) ≠ true := by simpa [Flt.zero] using h0
    have ev : ∀ i, a i * S.vel (v i) (g i) = a i * v i * S.momentum - a i * (g i * S.rate) := by
      intro i
      unfold OptSpec.vel
      rw [hk]
      dsimp only
      rw [if_neg hn]
      show a i * (v i * S.momentum - g i * S.rate) = _
      ring
    have hvel : ∑ i ∈ s, a i * S.vel (v i) (g i) = 0 := by
      simp only [ev]
      rw [sum_sub_distrib, hr, ← sum_mul, hv']
      ring
    refine ⟨?_, .inr hvel⟩
    have e : ∀ i, a i * S.upd (x i) (v i) (c i) (g i) = a i * x i + a i * S.vel (v i) (g i) := by
      intro i
      unfold OptSpec.upd
      rw [hk]
      dsimp only
      rw [if_neg hn]
      show a i * (x i + S.vel (v i) (g i)) = _
      ring
    simp only [e]
    rw [sum_add_distrib, hvel, add_zero]

/-- A statement about the model and the optimizers that holds at the start and is kept by every step holds at the end. -/
theorem descent_keeps {α : Type} [Flt α] {m : Model α} {loss : LossKind} {u : Nat → α} {A B : Nat → Nat → α} {net : Net α} {S : Nat → OptSpec α}
    {p : Nat} (P : Net α → (Nat → OptSpec α) → Prop) (h0 : P net S) (bs : List (Nat × Nat))
    (hstep : ∀ (net1 : Net α) (S1 : Nat → OptSpec α) (v : Nat → α) (b : Nat × Nat) (G D : Nat → Nat → Nat → α), b ∈ bs → SameShape net net1 → P net1 S1 →
      NetGrad m net1 loss b.2 (trainVals net1 b.2 v fun i j => A (b.1 + i) j) (fun k => dropBits (net1.L k) fun q => v (dropDraws net1 b.2 k + q))
        (fun i j => B (b.1 + i) j) G D →
      P (stepNet net1 S1 b.2 (trainVals net1 b.2 v fun i j => A (b.1 + i) j) G) (stepOpts S1 b.2 (trainVals net1 b.2 v fun i j => A (b.1 + i) j) G))
    {net' : Net α} {S' : Nat → OptSpec α} {p' : Nat} (h : Descent m loss u A B net S p bs net' S' p') : P net' S' ∧ SameShape net net' := by
  induction bs using List.reverseRecOn generalizing net' S' p' with
  | nil =>
    obtain ⟨rfl, rfl, rfl⟩ := h.nil
    exact ⟨h0, ⟨rfl, rfl, rfl, rfl, rfl, fun i => ⟨_, _, rfl⟩⟩⟩
  | append_singleton bs b ih =>
    obtain ⟨net1, S1, p1, a1, ⟨G, D, g, rfl, rfl⟩, rfl⟩ := h.snoc
    obtain ⟨i1, i2⟩ := ih (fun net1 S1 v c G D hc => hstep net1 S1 v c G D (List.mem_append_left _ hc)) a1
    refine ⟨hstep net1 S1 _ b G D (List.mem_append_right _ List.mem_cons_self) i2 i1 g, i2.size, i2.dim, i2.lp, i2.wm, i2.bm, fun i => ?_⟩
    obtain ⟨W, c, e⟩ := i2.layer i
    refine ⟨(S1 i).newW (net1.L i).W (gradW b.2 (trainVals net1 b.2 (fun q => u (p1 + q)) (fun i j => A (b.1 + i) j) i) (G i)),
      fun j => (S1 i).newB (fun _ j => (net1.L i).b j) (gradB b.2 (G i)) 0 j, ?_⟩
    unfold stepNet
    dsimp only
    rw [e]

theorem batch_mem {n b e : Nat} {q : Nat × Nat} (h : q ∈ (List.replicate e (blocks n b)).flatten) : q.1 + q.2 ≤ n := by
  obtain ⟨l, hl, hq⟩ := List.mem_flatten.1 h
  rw [List.eq_of_mem_replicate hl] at hq
  exact blocks_le n b q hq

/-! ### Directions without data -/

/-- What is kept: the first layer in the direction v, and the velocity. -/
def KeepsDirection (net : Net ℝ) (v : Nat → ℝ) (net1 : Net ℝ) (S1 : Nat → OptSpec ℝ) : Prop :=
  (S1 0).kind = .sgd ∧ ((S1 0).momentum = 0 ∨ ∀ j, ∑ k ∈ range (net.dim 0), v k * (S1 0).vw k j = 0) ∧
  ∀ j, ∑ k ∈ range (net.dim 0), v k * (net1.L 0).W k j = ∑ k ∈ range (net.dim 0), v k * (net.L 0).W k j

section
attribute [local irreducible] wp

/-- C148: Fit with SGD (with or without momentum and decay), any loss, any layers but sigmoid ones, any number of epochs and any batch size.
For a vector v that is orthogonal to all training inputs, v times the weights of the first layer is the same before and after: in the directions in
which there is no data, training leaves the weights as they were drawn. -/
theorem C148_direction (w : World ℝ) (m : Model ℝ) (net : Net ℝ) (op : Nat → Nat) (S : Nat → OptSpec ℝ) (loss : LossKind) (X Y xv yv : Mat) (n : Nat)
    (A B : Nat → Nat → ℝ) (h : Trains w m net op S loss X Y n A B) (hS : (S 0).kind = .sgd ∧ (S 0).Resting)
    (v : Nat → ℝ) (hv : ∀ i, i < n → ∑ k ∈ range (net.dim 0), v k * A i k = 0) (epochs : Int) (b : Nat) (hbig : n + b ≤ 2 ^ 53) :
    wp (fit m X Y epochs b xv yv 0) w fun e w' => e = none ∧ ∃ net' S', IsTask w' m net' op S' ∧ SameShape net net' ∧
      ∀ j, ∑ k ∈ range (net.dim 0), v k * (net'.L 0).W k j = ∑ k ∈ range (net.dim 0), v k * (net.L 0).W k j := by
  refine wp_mono (C70_fit w m net op S h.task h.noSig _ h.loss rfl X Y xv yv n A B h.xs.mat h.ys.mat h.xs.cap h.ys.cap h.xs.sep h.ys.sep
    epochs b hbig) ?_
  rintro e w' ⟨he, net', S', hD, hT, hsh, -⟩
  refine ⟨he, net', S', hT, hsh, ?_⟩
  have h0 : KeepsDirection net v net S := by
    refine ⟨hS.1, ?_, fun _ => rfl⟩
    rcases hS.2 with h | h
    · exact .inl h.2
    · exact .inr fun j => sum_eq_zero fun k _ => by rw [(h k j).1, mul_zero]
  refine (descent_keeps (KeepsDirection net v) h0 _ ?_ hD).1.2.2
  rintro net1 S1 u q G D hq hs1 ⟨k1, k2, k3⟩ g
  have hg : ∀ j, ∑ k ∈ range (net.dim 0), v k * gradW q.2 (fun i j => A (q.1 + i) j) (G 0) k j = 0 := by
    intro j
    unfold gradW
    simp only [fsum_real, mul_sum]
    rw [sum_comm]
    refine sum_eq_zero fun i hi => ?_
    have := hv (q.1 + i) (by have := batch_mem hq; have := mem_range.1 hi; omega)
    rw [← zero_mul (G 0 i j), ← this, sum_mul]
    exact sum_congr rfl fun k _ => (mul_assoc _ _ _).symm
  have hu := fun j => upd_sum k1 (range (net.dim 0)) v (fun k => (net1.L 0).W k j) (fun k => (S1 0).vw k j) (fun k => (S1 0).cw k j) _ (hg j)
    (k2.imp_right fun h => h j)
  refine ⟨k1, ?_, fun j => ((hu j).1).trans (k3 j)⟩
  by_cases hm : (S1 0).momentum = 0
  · exact .inl hm
  · exact .inr fun j => (hu j).2.resolve_left hm

/-- What is kept about the input k of the first layer. -/
def KeepsInput (net : Net ℝ) (k : Nat) (net1 : Net ℝ) (S1 : Nat → OptSpec ℝ) : Prop :=
  (((S1 0).kind = .sgd ∧ (S1 0).momentum = 0) ∨ ∀ j, (S1 0).vw k j = 0) ∧ ∀ j, (net1.L 0).W k j = (net.L 0).W k j

/-- C148: the same with any optimizer at rest, Adam included, for an input that is 0 in all samples: its weights stay as they are. -/
theorem C148_unused (w : World ℝ) (m : Model ℝ) (net : Net ℝ) (op : Nat → Nat) (S : Nat → OptSpec ℝ) (loss : LossKind) (X Y xv yv : Mat) (n : Nat)
    (A B : Nat → Nat → ℝ) (h : Trains w m net op S loss X Y n A B) (hS : (S 0).Resting) (k : Nat) (hk : ∀ i, i < n → A i k = 0) (epochs : Int)
    (b : Nat) (hbig : n + b ≤ 2 ^ 53) :
    wp (fit m X Y epochs b xv yv 0) w fun e w' => e = none ∧ ∃ net' S', IsTask w' m net' op S' ∧ SameShape net net' ∧
      ∀ j, (net'.L 0).W k j = (net.L 0).W k j := by
  refine wp_mono (C70_fit w m net op S h.task h.noSig _ h.loss rfl X Y xv yv n A B h.xs.mat h.ys.mat h.xs.cap h.ys.cap h.xs.sep h.ys.sep
    epochs b hbig) ?_
  rintro e w' ⟨he, net', S', hD, hT, hsh, -⟩
  refine ⟨he, net', S', hT, hsh, ?_⟩
  have h0 : KeepsInput net k net S := ⟨hS.imp_right fun h j => (h k j).1, fun _ => rfl⟩
  refine (descent_keeps (KeepsInput net k) h0 _ ?_ hD).1.2
  rintro net1 S1 u q G D hq hs1 ⟨k1, k2⟩ g
  have hg : ∀ j, gradW q.2 (fun i j => A (q.1 + i) j) (G 0) k j = 0 := by
    intro j
    unfold gradW
    rw [fsum_real]
    refine sum_eq_zero fun i hi => ?_
    show A (q.1 + i) k * G 0 i j = 0
    rw [hk (q.1 + i) (by have := batch_mem hq; have := mem_range.1 hi; omega)]
    exact zero_mul _
  refine ⟨?_, fun j => Eq.trans ?_ (k2 j)⟩
  · rcases k1 with k1 | k1
    · exact .inl k1
    · refine .inr fun j => ?_
      show (S1 0).vel ((S1 0).vw k j) (gradW q.2 (fun i j => A (q.1 + i) j) (G 0) k j) = 0
      rw [hg, k1]
      unfold OptSpec.vel
      cases (S1 0).kind <;> dsimp only
      · split <;> simp
      · simp
  · show (S1 0).upd ((net1.L 0).W k j) ((S1 0).vw k j) ((S1 0).cw k j) (gradW q.2 (fun i j => A (q.1 + i) j) (G 0) k j) = _
    rw [hg]
    unfold OptSpec.upd OptSpec.vel
    rcases k1 with ⟨h1, h2⟩ | k1
    · rw [h1, h2]
      simp [Flt.zero]
    · rw [k1]
      cases (S1 0).kind <;> dsimp only
      · split <;> simp
      · simp

/-! ### Softmax layers -/

/-- The gradient at the pre-activations of a softmax layer adds up to zero. -/
theorem actBack_softmax_sum {L : LayerSpec ℝ} (hk : L.kind = .softmax) {P M D : Nat → Nat → ℝ} {i : Nat}
    (hP : ∑ j ∈ range L.o, P i j = 1) : ∑ j ∈ range L.o, actBack L P M D i j = 0 := by
  have e : ∀ j, actBack L P M D i j = ∑ k ∈ range L.o, ((if j = k then P i j else 0) - P i j * P i k) * D i k := by
    intro j
    unfold actBack
    rw [hk]
    dsimp only
    rw [fsum_real]
    refine sum_congr rfl fun k _ => ?_
    rw [fsum_real, sum_range_one]
    simp [Flt.zero]
  simp only [e]
  rw [sum_comm]
  refine sum_eq_zero fun k hk => ?_
  rw [← sum_mul, sum_sub_distrib, sum_ite_eq' (range L.o) k (fun j => P i j), if_pos hk, ← sum_mul, hP]
  ring

theorem softmax_row {L : LayerSpec ℝ} (hk : L.kind = .softmax) (ho : 0 < L.o) (u : Nat → ℝ) (X : Nat → Nat → ℝ) (i : Nat) :
    ∑ j ∈ range L.o, trainOut L u X i j = 1 ∧ ∀ j, j < L.o → 0 ≤ trainOut L u X i j ∧ trainOut L u X i j ≤ 1 := by
  have e : ∀ j, trainOut L u X i j = Real.exp (preact L X i j) / ∑ k ∈ range L.o, Real.exp (preact L X i k) := by
    intro j
    unfold trainOut infer actRow
    rw [if_neg (by rw [hk]; decide), hk]
    dsimp only
    rw [fsum_real]
    rfl
  have hpos : 0 < ∑ k ∈ range L.o, Real.exp (preact L X i k) := sum_pos (fun k _ => Real.exp_pos _) ⟨0, mem_range.2 ho⟩
  refine ⟨?_, fun j hj => ?_⟩
  · simp only [e]
    rw [← sum_div, div_self hpos.ne']
  · rw [e]
    refine ⟨div_nonneg (Real.exp_pos _).le hpos.le, ?_⟩
    rw [div_le_one hpos]
    exact single_le_sum (f := fun k => Real.exp (preact L X i k)) (fun k _ => (Real.exp_pos _).le) (mem_range.2 hj)

theorem afterLoss_unit {k : LossKind} {P : Nat → Nat → ℝ} {i j : Nat} (h : 0 ≤ P i j ∧ P i j ≤ 1) : afterLoss k P i j = P i j := by
  unfold afterLoss
  cases k <;> dsimp only
  unfold clipped
  rw [if_neg (by simpa [Flt.lt, Flt.zero] using h.1), if_neg (by simpa [Flt.lt, Flt.one] using h.2)]

/-- Row i of the targets is one-hot as the code sees it: exactly one of the c entries is 1. -/
def OneMarked (c : Nat) (B : Nat → Nat → ℝ) (i : Nat) : Prop := ∃ t, t < c ∧ ∀ j, j < c → (B i j = 1 ↔ j = t)

theorem fusedGrad_sum {r c : Nat} {P Y : Nat → Nat → ℝ} {i : Nat} (hP : ∑ j ∈ range c, P i j = 1) (hY : OneMarked c Y i) :
    ∑ j ∈ range c, fusedGrad r P Y i j = 0 := by
  obtain ⟨t, ht, h⟩ := hY
  have e : ∀ j ∈ range c, fusedGrad r P Y i j = P i j / (r : ℝ) - if j = t then 1 / (r : ℝ) else 0 := by
    intro j hj
    unfold fusedGrad
    by_cases hjt : j = t
    · rw [if_pos (by simpa [Flt.eq, Flt.one] using (h j (mem_range.1 hj)).2 hjt), if_pos hjt]
      simp only [Flt.ofInt, Flt.one, Flt.sub, Flt.div]
      push_cast
      ring
    · rw [if_neg (by simpa [Flt.eq, Flt.one] using fun hh => hjt ((h j (mem_range.1 hj)).1 hh)), if_neg hjt, sub_zero]
      simp [Flt.ofInt, Flt.div]
  rw [sum_congr rfl e, sum_sub_distrib, ← sum_div, hP, sum_ite_eq' (range c) t, if_pos (mem_range.2 ht), sub_self]

theorem netGrad_softmax {m : Model ℝ} {net : Net ℝ} {loss : LossKind} {r : Nat} {u : Nat → ℝ} {X Y : Nat → Nat → ℝ} {G D M : Nat → Nat → Nat → ℝ}
    (g : NetGrad m net loss r (trainVals net r u X) M Y G D) {l : Nat} (hl : l < net.size) (hk : (net.L l).kind = .softmax) (ho : 0 < (net.L l).o)
    (hY : m.lossType = 2 → l + 1 = net.size → ∀ i, i < r → OneMarked (net.L l).o Y i) {i : Nat} (hi : i < r) :
    ∑ j ∈ range (net.L l).o, G l i j = 0 := by
  have hrow : ∀ i, ∑ j ∈ range (net.L l).o, trainVals net r u X (l + 1) i j = 1 ∧
      ∀ j, j < (net.L l).o → 0 ≤ trainVals net r u X (l + 1) i j ∧ trainVals net r u X (l + 1) i j ≤ 1 := fun i => softmax_row hk ho _ _ i
  by_cases hF : Fused m net
  · obtain ⟨g1, g2, g3⟩ := g.fused hF
    by_cases hls : l + 1 = net.size
    · rw [show l = net.size - 1 by omega] at hrow hY ⊢
      rw [g1]
      have e : net.size - 1 + 1 = net.size := by omega
      rw [e] at hrow
      exact fusedGrad_sum (hrow i).1 (hY hF.2 e i hi)
    · rw [g3.act l (by omega)]
      exact actBack_softmax_sum hk (hrow i).1
  · obtain ⟨g1, g2⟩ := g.plain hF
    rw [g2.act l hl]
    refine actBack_softmax_sum hk ?_
    by_cases hls : l + 1 = net.size
    · rw [if_pos hls, ← (hrow i).1]
      exact sum_congr rfl fun j hj => afterLoss_unit ((hrow i).2 j (mem_range.1 hj))
    · rw [if_neg hls]
      exact (hrow i).1

/-- What is kept of a softmax layer. -/
def KeepsSums (net : Net ℝ) (l : Nat) (net1 : Net ℝ) (S1 : Nat → OptSpec ℝ) : Prop :=
  (S1 l).kind = .sgd ∧
  ((S1 l).momentum = 0 ∨ (∀ k, ∑ j ∈ range (net.L l).o, (S1 l).vw k j = 0) ∧ ∑ j ∈ range (net.L l).o, (S1 l).vb 0 j = 0) ∧
  (∀ k, ∑ j ∈ range (net.L l).o, (net1.L l).W k j = ∑ j ∈ range (net.L l).o, (net.L l).W k j) ∧
  ∑ j ∈ range (net.L l).o, (net1.L l).b j = ∑ j ∈ range (net.L l).o, (net.L l).b j

/-- C148: Fit with SGD (with or without momentum and decay).  For every softmax layer, last or not, the weights of each input added up over the
outputs, and the sum of the biases, are the same before and after; for a last layer trained with cross-entropy this needs one-hot targets. -/
theorem C148_softmax (w : World ℝ) (m : Model ℝ) (net : Net ℝ) (op : Nat → Nat) (S : Nat → OptSpec ℝ) (loss : LossKind) (X Y xv yv : Mat) (n : Nat)
    (A B : Nat → Nat → ℝ) (h : Trains w m net op S loss X Y n A B) (l : Nat) (hl : l < net.size) (hk : (net.L l).kind = .softmax)
    (hS : (S l).kind = .sgd ∧ (S l).Resting)
    (hB : m.lossType = 2 → l + 1 = net.size → ∀ i, i < n → OneMarked (net.dim net.size) B i) (epochs : Int) (b : Nat) (hbig : n + b ≤ 2 ^ 53) :
    wp (fit m X Y epochs b xv yv 0) w fun e w' => e = none ∧ ∃ net' S', IsTask w' m net' op S' ∧ SameShape net net' ∧
      (∀ k, ∑ j ∈ range (net.dim (l + 1)), (net'.L l).W k j = ∑ j ∈ range (net.dim (l + 1)), (net.L l).W k j) ∧
      ∑ j ∈ range (net.dim (l + 1)), (net'.L l).b j = ∑ j ∈ range (net.dim (l + 1)), (net.L l).b j := by
  refine wp_mono (C70_fit w m net op S h.task h.noSig _ h.loss rfl X Y xv yv n A B h.xs.mat h.ys.mat h.xs.cap h.ys.cap h.xs.sep h.ys.sep
    epochs b hbig) ?_
  rintro e w' ⟨he, net', S', hD, hT, hsh, -⟩
  refine ⟨he, net', S', hT, hsh, ?_⟩
  have hdo : (net.L l).o = net.dim (l + 1) := h.task.isNet.outs l hl
  have h0 : KeepsSums net l net S := by
    refine ⟨hS.1, ?_, fun _ => rfl, rfl⟩
    rcases hS.2 with h | h
    · exact .inl h.2
    · exact .inr ⟨fun k => sum_eq_zero fun j _ => (h k j).1, sum_eq_zero fun j _ => (h 0 j).2⟩
  rw [← hdo]
  rcases Nat.eq_zero_or_pos (net.L l).o with ho | ho
  · rw [ho]
    exact ⟨fun _ => by rw [range_zero, sum_empty, sum_empty], by rw [range_zero, sum_empty, sum_empty]⟩
  refine (descent_keeps (KeepsSums net l) h0 _ ?_ hD).1.2.2
  rintro net1 S1 u q G D hq hs1 ⟨k1, k2, k3, k4⟩ g
  obtain ⟨W1, b1, e1⟩ := hs1.layer l
  have ho1 : (net1.L l).o = (net.L l).o := by rw [e1]
  have hG : ∀ i, i < q.2 → ∑ j ∈ range (net.L l).o, G l i j = 0 := by
    intro i hi
    rw [← ho1]
    refine netGrad_softmax g (by rw [hs1.size]; exact hl) (by rw [e1]; exact hk) (by rw [ho1]; exact ho) (fun h2 hls i hi => ?_) hi
    rw [hs1.size] at hls
    have := hB h2 hls (q.1 + i) (by have := batch_mem hq; omega)
    rw [ho1, hdo, hls]
    exact this
  have hW : ∀ k, ∑ j ∈ range (net.L l).o, 1 * gradW q.2 (trainVals net1 q.2 u (fun i j => A (q.1 + i) j) l) (G l) k j = 0 := by
    intro k
    unfold gradW
    simp only [fsum_real, one_mul]
    rw [sum_comm]
    refine sum_eq_zero fun i hi => ?_
    show ∑ j ∈ range (net.L l).o, trainVals net1 q.2 u (fun i j => A (q.1 + i) j) l i k * G l i j = 0
    rw [← mul_sum, hG i (mem_range.1 hi), mul_zero]
  have hb : ∑ j ∈ range (net.L l).o, 1 * gradB q.2 (G l) 0 j = 0 := by
    unfold gradB
    simp only [fsum_real, one_mul]
    rw [sum_comm]
    exact sum_eq_zero fun i hi => hG i (mem_range.1 hi)
  have uW := fun k => upd_sum k1 (range (net.L l).o) (fun _ => 1) (fun j => (net1.L l).W k j) (fun j => (S1 l).vw k j) (fun j => (S1 l).cw k j) _ (hW k)
    (k2.imp_right fun h => by simpa only [one_mul] using h.1 k)
  have ub := upd_sum k1 (range (net.L l).o) (fun _ => 1) (fun j => (net1.L l).b j) (fun j => (S1 l).vb 0 j) (fun j => (S1 l).cb 0 j) _ hb
    (k2.imp_right fun h => by simpa only [one_mul] using h.2)
  simp only [one_mul] at uW ub
  refine ⟨k1, ?_, fun k => ((uW k).1).trans (k3 k), ub.1.trans k4⟩
  by_cases hm : (S1 l).momentum = 0
  · exact .inl hm
  · exact .inr ⟨fun k => (uW k).2.resolve_left hm, ub.2.resolve_left hm⟩

/-! ### A perfect model -/

theorem gradX_row {L : LayerSpec ℝ} {G : Nat → Nat → ℝ} {i : Nat} (h : ∀ j, G i j = 0) (k : Nat) : gradX L G i k = 0 := by
  unfold gradX
  rw [fsum_real]
  exact sum_eq_zero fun j _ => by rw [h]; exact zero_mul _

theorem actBack_row {L : LayerSpec ℝ} {P M D : Nat → Nat → ℝ} {i : Nat} (h : ∀ j, D i j = 0) (j : Nat) : actBack L P M D i j = 0 :=
  (actBack_null (L := L) (P := fun _ => P i) (M := fun _ => M i) (D := fun _ => D i) (fun _ => h) i j : actBack L (fun _ => P i) (fun _ => M i) (fun _ => D i) i j = 0)

/-- The gradients of a row are zero if the gradient of the loss is. -/
theorem netGrad_row {m : Model ℝ} {net : Net ℝ} {loss : LossKind} {r : Nat} {V M G D : Nat → Nat → Nat → ℝ} {Y : Nat → Nat → ℝ} (hm : m.lossType ≠ 2)
    (h : NetGrad m net loss r V M Y G D) {i : Nat} (hi : ∀ j, lossGrad loss r (net.dim net.size) (V net.size) Y i j = 0) :
    ∀ k, k < net.size → ∀ j, G k i j = 0 := by
  obtain ⟨a1, a2⟩ := h.plain fun hF => hm hF.2
  have hD : ∀ q, q ≤ net.size → ∀ j, D (net.size - q) i j = 0 := by
    intro q
    induction q with
    | zero =>
      intro _ j
      rw [Nat.sub_zero, a1]
      exact hi j
    | succ q ih =>
      intro hq j
      have e : net.size - (q + 1) + 1 = net.size - q := by omega
      rw [a2.inp _ (by omega)]
      refine gradX_row (fun j => ?_) j
      rw [a2.act _ (by omega), e]
      exact actBack_row (ih (by omega)) j
  intro k hk j
  rw [a2.act k hk]
  refine actBack_row (fun j => ?_) j
  have := hD (net.size - (k + 1)) (by omega) j
  rwa [show net.size - (net.size - (k + 1)) = k + 1 by omega] at this

theorem netOut_shift {net net1 : Net ℝ} (hL : ∀ i, i < net.size → net1.L i = net.L i) (A : Nat → Nat → ℝ) (c k : Nat) (hk : k ≤ net.size) :
    netOut net1 (fun i j => A (c + i) j) k = fun i j => netOut net A k (c + i) j := by
  induction k with
  | zero => rfl
  | succ k ih =>
    show infer (net1.L k) (netOut net1 _ k) = _
    rw [ih (by omega), hL k hk]
    rfl

/-- C148: Fit on the mean squared error, with any optimizers at rest and any layers but dropout and sigmoid ones, for a model that predicts all
training targets exactly: it succeeds and changes no weight and no bias. -/
theorem C148_perfect (w : World ℝ) (m : Model ℝ) (net : Net ℝ) (op : Nat → Nat) (S : Nat → OptSpec ℝ) (X Y xv yv : Mat) (n : Nat)
    (A B : Nat → Nat → ℝ) (h : Trains w m net op S .mse X Y n A B) (hm : m.lossType ≠ 2) (hd : ∀ i, i < net.size → (net.L i).kind ≠ .dropout)
    (hS : ∀ i, i < net.size → (S i).Resting) (hP : ∀ i j, i < n → j < net.dim net.size → netOut net A net.size i j = B i j) (epochs : Int)
    (b : Nat) (hbig : n + b ≤ 2 ^ 53) :
    wp (fit m X Y epochs b xv yv 0) w fun e w' => e = none ∧ ∃ net' S', IsTask w' m net' op S' ∧ SameShape net net' ∧
      ∀ i, i < net.size → net'.L i = net.L i := by
  have hY : IsMat w Y n (net.dim net.size) (netOut net A net.size) := h.ys.mat.congr fun i j hi hj => (hP i j hi hj).symm
  refine wp_mono (C70_fit w m net op S h.task h.noSig _ h.loss rfl X Y xv yv n A _ h.xs.mat hY h.xs.cap h.ys.cap h.xs.sep h.ys.sep
    epochs b hbig) ?_
  rintro e w' ⟨he, net', S', hD, hT, hsh, -⟩
  refine ⟨he, net', S', hT, hsh, ?_⟩
  refine fun i hi => ((descent_keeps (fun net1 S1 => ∀ i, i < net.size → net1.L i = net.L i ∧ (S1 i).Resting) (fun i hi => ⟨rfl, hS i hi⟩) _ ?_ hD).1
    i hi).1
  intro net1 S1 u q G D hq hs1 hk g l hl
  have hG : ∀ i, i < q.2 → ∀ j, G l i j = 0 := by
    intro i hi
    refine netGrad_row hm g (fun j => ?_) l (by rw [hs1.size]; exact hl)
    rw [hs1.size, trainVals_netOut _ _ _ _ fun k hk' => by rw [(hk k hk').1]; exact hd k hk', netOut_shift (fun i hi => (hk i hi).1) A q.1 _ le_rfl]
    simp [lossGrad]
  have hW : ∀ k j, gradW q.2 (trainVals net1 q.2 u (fun i j => A (q.1 + i) j) l) (G l) k j = 0 := by
    intro k j
    unfold gradW
    rw [fsum_real]
    exact sum_eq_zero fun i hi => by rw [hG i (mem_range.1 hi)]; exact mul_zero _
  have hB : ∀ k j, gradB q.2 (G l) k j = 0 := by
    intro k j
    unfold gradB
    rw [fsum_real]
    exact sum_eq_zero fun i hi => by rw [hG i (mem_range.1 hi)]
  obtain ⟨j1, j2⟩ := hk l hl
  refine ⟨?_, j2.step hW hB⟩
  rw [← j1]
  unfold stepNet OptSpec.newW OptSpec.newB
  dsimp only
  simp only [hW, hB, j2.upd]

/-! ### Adam -/

/-- The claim about softmax layers for all optimizers. -/
def SumsKept : Prop := ∀ (w : World ℝ) (m : Model ℝ) (net : Net ℝ) (op : Nat → Nat) (S : Nat → OptSpec ℝ) (X Y : Mat) (n : Nat) (A B : Nat → Nat → ℝ),
  Trains w m net op S .ce X Y n A B → m.lossType = 2 → net.size = 1 → (net.L 0).kind = .softmax → (S 0).Resting →
  (∀ i, i < n → OneMarked (net.dim 1) B i) →
  wp (fit m X Y 1 0 X Y 0) w fun e w' => e = none ∧ ∃ net' S', IsTask w' m net' op S' ∧ SameShape net net' ∧
    ∑ j ∈ range (net.dim 1), (net'.L 0).b j = ∑ j ∈ range (net.dim 1), (net.L 0).b j

/-- A softmax layer with one input and three outputs, and zero parameters. -/
noncomputable def nullSoft (i : Nat) : LayerSpec ℝ := ⟨.softmax, if i = 0 then 1 else 3, 3, fun _ _ => 0, fun _ => 0, 0, 0⟩

/-- C148: this claim is false: Adam does not keep the sum of the biases. -/
theorem C148_adam : ¬ SumsKept := by
  intro hcl
  obtain ⟨o, ho⟩ := adam_ok_real (lr := 1) (decay := 0) (by norm_num) le_rfl 1 0 0
  have hrows : o.weightMomentums.rows = 0 := by rw [newAdam_ok ho]; rfl
  obtain ⟨w, net, op, XM, YM, xM, yM, -, hs, hL, hdim, hT, dX, dY, -, -⟩ := exists_task (emptyWorld : World ℝ) 1 Nat.one_pos
    nullSoft (fun i => by
      refine ⟨?_, Nat.succ_pos 2⟩
      show 0 < if i = 0 then 1 else 3
      split <;> decide) (fun i => (if_neg (Nat.succ_ne_zero i) : (if i + 1 = 0 then 1 else 3) = 3).symm)
    { newModel with loss := some ⟨.ce, 3⟩, lossType := 2 } o
    (OptSpec.fresh o) hrows (fun w p i hlt e => e ▸ isOpt_newAdam _ _ _ _ hlt (e.symm ▸ ho)) (r := 1) (r' := 1) Nat.one_pos Nat.one_pos
    (fun _ _ => 1) (fun _ j => if j = 0 then 1 else 0) (fun _ _ => 0) (fun _ _ => 0)
  have d0 : net.dim 0 = 1 := by rw [hdim]; rfl
  have d1 : net.dim 1 = 3 := by rw [hdim]; rfl
  have dn : net.dim net.size = 3 := by rw [hs, d1]
  have hTr : Trains w _ net op _ .ce XM YM 1 (fun _ _ => 1) (fun _ j => if j = 0 then 1 else 0) :=
    ⟨hT, by rw [dn]; rfl, fun i _ => by rw [hL]; exact LayerKind.noConfusion, by rw [d0]; exact dX, by rw [dn]; exact dY⟩
  have h1 := hcl w _ net op _ XM YM 1 _ _ hTr rfl hs (by rw [hL]; rfl) (.inr fun _ _ => ⟨by simp [OptSpec.fresh, Flt.zero], by simp [OptSpec.fresh, Flt.zero]⟩)
    (fun i _ => ⟨0, by rw [d1]; decide, fun j _ => by by_cases h : j = 0 <;> simp [h]⟩)
  have h2 := C70_fit w _ net op _ hT hTr.noSig _ hTr.loss rfl XM YM XM YM 1 _ _ hTr.xs.mat hTr.ys.mat hTr.xs.cap hTr.ys.cap hTr.xs.sep hTr.ys.sep 1 0
    (by norm_num)
  obtain ⟨e, w', -, ⟨-, net', S', hT1, hsh1, hsum⟩, -, net2, S2, hD, hT2, hsh2, -⟩ := wp_iff.1 (wp_and h1 h2)
  have hb : ∀ j, j < 3 → (net'.L 0).b j = (net2.L 0).b j := by
    intro j hj
    have b1 := (hT1.isNet.lay 0 (by rw [hsh1.size, hs]; exact Nat.one_pos)).bmat
    have b2 := (hT2.isNet.lay 0 (by rw [hsh2.size, hs]; exact Nat.one_pos)).bmat
    obtain ⟨_, _, e1⟩ := hsh1.layer 0
    obtain ⟨_, _, e2⟩ := hsh2.layer 0
    rw [hsh1.bm, show (net'.L 0).o = 3 by rw [e1, hL]; rfl] at b1
    rw [hsh2.bm, show (net2.L 0).o = 3 by rw [e2, hL]; rfl] at b2
    exact b1.entries_unique b2 Nat.one_pos hj
  rw [show (List.replicate (1 : Int).toNat (blocks 1 0)).flatten = [] ++ [(0, 1)] from rfl] at hD
  obtain ⟨net1, S1, p1, a1, ⟨G, D, g, rfl, rfl⟩, hp⟩ := hD.snoc
  obtain ⟨rfl, rfl, rfl⟩ := a1.nil
  obtain ⟨g1, -⟩ := g.fused ⟨by rw [hs, hL]; rfl, rfl⟩
  rw [hs] at g1
  have hG : ∀ j, G 0 0 j = if j = 0 then -(2 / 3) else 1 / 3 := by
    intro j
    have hP : trainVals net1 1 (fun q => w.unif (w.unifPos + q)) (fun i j => (fun _ _ => (1 : ℝ)) (0 + i) j) 1 0 j = 1 / 3 := by
      show trainOut (net1.L 0) _ _ 0 j = _
      rw [hL]
      unfold trainOut infer actRow preact nullSoft
      rw [if_neg (fun h => LayerKind.noConfusion h)]
      norm_num [fsum_real, Flt.exp, sum_range_succ]
    rw [show (1 - 1 : Nat) = 0 from rfl] at g1
    rw [g1]
    unfold fusedGrad
    rw [hP]
    by_cases hj : j = 0
    · norm_num [hj, Flt.ofInt, Flt.one, Flt.eq]
    · norm_num [hj, Flt.ofInt, Flt.one, Flt.eq]
  have hnew : ∀ j, (stepNet net1 (fun _ => OptSpec.fresh o) 1 (trainVals net1 1 (fun q => w.unif (w.unifPos + q)) fun i j => (fun _ _ => (1 : ℝ)) (0 + i) j) G
      |>.L 0).b j = -(G 0 0 j) / (abs (G 0 0 j) + 1) := by
    intro j
    show (OptSpec.fresh o).upd ((net1.L 0).b j) _ _ (gradB 1 (G 0) 0 j) = _
    have hg : gradB 1 (G 0) 0 j = G 0 0 j := by unfold gradB; rw [fsum_real, sum_range_one]
    rw [hg, hL, newAdam_ok ho]
    simp only [OptSpec.upd, OptSpec.fresh, OptSpec.vel, OptSpec.cache, OptSpec.corr, OptSpec.rate, Optim.zero, nullSoft]
    norm_num [Flt.zero, Flt.one, Flt.eq, Flt.pow, Flt.sqrt, Flt.ofInt, Flt.neg, Real.sqrt_sq_eq_abs]
  rw [d1] at hsum
  simp only [sum_range_succ, sum_range_zero] at hsum
  rw [hb 0 (by decide), hb 1 (by decide), hb 2 (by decide), hnew, hnew, hnew, hG, hG, hG, hL] at hsum
  norm_num [nullSoft, abs_of_nonneg, abs_of_neg] at hsum

end

/-- Three layers, the last of which is a softmax layer. -/
noncomputable def softT (i : Nat) : LayerSpec ℝ := { demoT i with kind := if i = 2 then .softmax else .hidden }

/-- C148_direction, C148_softmax: a model with two hidden layers and a softmax layer, SGD with momentum and decay, 5 samples with two equal inputs,
and one-hot targets; v = (1, -1). -/
example : ∃ (w : World ℝ) (m : Model ℝ) (net : Net ℝ) (op : Nat → Nat) (S : Nat → OptSpec ℝ) (X Y : Mat) (A B : Nat → Nat → ℝ) (v : Nat → ℝ),
    Trains w m net op S .ce X Y 5 A B ∧ net.size = 3 ∧ (∀ i, (S i).kind = .sgd ∧ (S i).Resting ∧ (S i).momentum ≠ 0 ∧ (S i).decay ≠ 0) ∧
    m.lossType = 2 ∧ (net.L 2).kind = .softmax ∧ (∀ i, i < 5 → OneMarked (net.dim net.size) B i) ∧ v 0 ≠ 0 ∧ A 0 0 ≠ 0 ∧
    ∀ i, i < 5 → ∑ k ∈ range (net.dim 0), v k * A i k = 0 := by
  obtain ⟨o, ho⟩ := sgd_ok_real (lr := 1 / 10) (decay := 1 / 100) (mom := 9 / 10) (by norm_num) (by norm_num) (by norm_num)
  have hrows : o.weightMomentums.rows = 0 := by rw [newSGD_ok ho]; rfl
  obtain ⟨w, net, op, XM, YM, xM, yM, hf, hs, hL, hdim, hT, dX, dY, -, -⟩ := exists_task emptyWorld 3 (by decide)
    softT (fun i => demoT_pos (α := ℝ) i) (fun i => demoT_chain (α := ℝ) i) { newModel with loss := some ⟨.ce, (softT 3).n⟩, lossType := 2 } o
    (OptSpec.fresh o) hrows
    (fun w p i hlt e => e ▸ isOpt_newSGD _ _ _ _ hlt (e.symm ▸ ho)) (r := 5) (r' := 2) (by decide) (by decide)
    (fun i _ => (i : ℝ) + 1) (fun i j => if j = i then 1 else 0) (fun i _ => (i : ℝ)) (fun _ j => (j : ℝ))
  have d0 : net.dim 0 = (softT 0).n := by rw [hdim]
  have d1 : net.dim net.size = (softT 3).n := by rw [hdim, hs]
  refine ⟨w, _, net, op, _, XM, YM, fun i _ => (i : ℝ) + 1, fun i j => if j = i then 1 else 0, fun k => if k = 0 then 1 else -1,
    ⟨hT, by rw [d1]; rfl, fun i _ => ?_, d0 ▸ dX, d1 ▸ dY⟩, hs, fun i => ⟨by rw [newSGD_ok ho]; rfl,
      .inr fun _ _ => ⟨by simp [OptSpec.fresh, Flt.zero], by simp [OptSpec.fresh, Flt.zero]⟩, ?_, ?_⟩, rfl, ?_, fun i hi => ⟨i, ?_, fun j _ => ?_⟩, ?_, ?_,
      fun i _ => ?_⟩
  · rw [hL]
    unfold softT
    dsimp only
    split <;> exact fun h => by cases h
  · rw [newSGD_ok ho]; norm_num [OptSpec.fresh]
  · rw [newSGD_ok ho]; norm_num [OptSpec.fresh]
  · rw [hL]; rfl
  · rw [d1]; exact hi
  · by_cases h : j = i <;> simp [h]
  · norm_num
  · norm_num
  · rw [d0, show (softT 0).n = 2 from rfl]
    norm_num [sum_range_succ]

/-- C148_unused: the same model with Adam and the mean squared error, and 5 samples in which the second input is 0. -/
example : ∃ (w : World ℝ) (m : Model ℝ) (net : Net ℝ) (op : Nat → Nat) (S : Nat → OptSpec ℝ) (X Y : Mat) (A B : Nat → Nat → ℝ),
    Trains w m net op S .mse X Y 5 A B ∧ net.size = 3 ∧ (S 0).kind = .adam ∧ (S 0).Resting ∧ 1 < net.dim 0 ∧ A 0 0 ≠ 0 ∧ ∀ i, i < 5 → A i 1 = 0 := by
  obtain ⟨o, ho⟩ := adam_ok_real (lr := 1 / 1000) (decay := 0) (by norm_num) le_rfl (1 / 10 ^ 7) (9 / 10) (999 / 1000)
  have hrows : o.weightMomentums.rows = 0 := by rw [newAdam_ok ho]; rfl
  obtain ⟨w, net, op, XM, YM, xM, yM, hf, hs, hL, hdim, hT, dX, dY, -, -⟩ := exists_task emptyWorld 3 (by decide)
    softT (fun i => demoT_pos (α := ℝ) i) (fun i => demoT_chain (α := ℝ) i) { newModel with loss := some ⟨.mse, (softT 3).n⟩, lossType := 0 } o
    (OptSpec.fresh o) hrows
    (fun w p i hlt e => e ▸ isOpt_newAdam _ _ _ _ hlt (e.symm ▸ ho)) (r := 5) (r' := 2) (by decide) (by decide)
    (fun i j => if j = 1 then 0 else (i : ℝ) + 1) (fun i j => (i : ℝ) - j) (fun i _ => (i : ℝ)) (fun _ j => (j : ℝ))
  have d0 : net.dim 0 = (softT 0).n := by rw [hdim]
  have d1 : net.dim net.size = (softT 3).n := by rw [hdim, hs]
  refine ⟨w, _, net, op, _, XM, YM, fun i j => if j = 1 then 0 else (i : ℝ) + 1, fun i j => (i : ℝ) - j,
    ⟨hT, by rw [d1]; rfl, fun i _ => ?_, d0 ▸ dX, d1 ▸ dY⟩, hs, by rw [newAdam_ok ho]; rfl,
      .inr fun _ _ => ⟨by simp [OptSpec.fresh, Flt.zero], by simp [OptSpec.fresh, Flt.zero]⟩, ?_, ?_, fun i _ => ?_⟩
  · rw [hL]
    unfold softT
    dsimp only
    split <;> exact fun h => by cases h
  · rw [d0]; decide
  · norm_num
  · norm_num

/-- C148_perfect: a model with three layers and Adam, and 5 samples whose targets are its own predictions. -/
example : ∃ (w : World ℝ) (m : Model ℝ) (net : Net ℝ) (op : Nat → Nat) (S : Nat → OptSpec ℝ) (X Y : Mat) (A B : Nat → Nat → ℝ),
    Trains w m net op S .mse X Y 5 A B ∧ m.lossType ≠ 2 ∧ (∀ i, i < net.size → (net.L i).kind ≠ .dropout) ∧ (∀ i, i < net.size → (S i).Resting) ∧
    (S 0).kind = .adam ∧ net.size = 3 ∧ ∀ i j, i < 5 → j < net.dim net.size → netOut net A net.size i j = B i j := by
  obtain ⟨o, ho⟩ := adam_ok_real (lr := 1 / 1000) (decay := 0) (by norm_num) le_rfl (1 / 10 ^ 7) (9 / 10) (999 / 1000)
  have hrows : o.weightMomentums.rows = 0 := by rw [newAdam_ok ho]; rfl
  let net0 : Net ℝ := ⟨3, fun i => (plainT i).n, fun _ => 0, fun _ => default, fun _ => default, plainT⟩
  obtain ⟨w, net, op, XM, YM, xM, yM, hf, hs, hL, hdim, hT, dX, dY, -, -⟩ := exists_task emptyWorld 3 (by decide)
    plainT (fun i => demoT_pos (α := ℝ) i) (fun i => demoT_chain (α := ℝ) i) { newModel with loss := some ⟨.mse, (plainT 3).n⟩, lossType := 0 } o
    (OptSpec.fresh o) hrows
    (fun w p i hlt e => e ▸ isOpt_newAdam _ _ _ _ hlt (e.symm ▸ ho)) (r := 5) (r' := 2) (by decide) (by decide)
    (fun i j => (i : ℝ) + j) (netOut net0 (fun i j => (i : ℝ) + j) 3) (fun i _ => (i : ℝ)) (fun _ j => (j : ℝ))
  have d0 : net.dim 0 = (plainT 0).n := by rw [hdim]
  have d1 : net.dim net.size = (plainT 3).n := by rw [hdim, hs]
  have hk : ∀ i, (net.L i).kind ≠ .sigmoid ∧ (net.L i).kind ≠ .dropout := by
    intro i
    rw [hL]
    unfold plainT
    dsimp only
    split <;> constructor <;> intro h <;> cases h
  refine ⟨w, _, net, op, _, XM, YM, fun i j => (i : ℝ) + j, netOut net0 (fun i j => (i : ℝ) + j) 3,
    ⟨hT, by rw [d1]; rfl, fun i _ => (hk i).1, d0 ▸ dX, d1 ▸ dY⟩, ?_, fun i _ => (hk i).2,
    fun i _ => .inr fun _ _ => ⟨by simp [OptSpec.fresh, Flt.zero], by simp [OptSpec.fresh, Flt.zero]⟩, by rw [newAdam_ok ho]; rfl, hs, fun i j _ _ => ?_⟩
  · show (0 : Int) ≠ 2; decide
  · rw [hs]
    have := netOut_shift (net := net0) (net1 := net) (fun i _ => by rw [hL]) (fun i j => (i : ℝ) + j) 0 3 le_rfl
    simp only [Nat.zero_add] at this
    rw [this]

end NN
