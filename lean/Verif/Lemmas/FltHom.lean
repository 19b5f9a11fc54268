import Verif.Spec.ErrBound
import Verif.Lemmas.Same
/- Training commutes with maps of the numbers that respect the arithmetic. -/

set_option linter.unusedSectionVars false

namespace NN
variable {α β : Type} [Flt α] [Flt β]

/-- A map of numbers that respects the operations used in training. -/
structure FltHom (φ : α → β) : Prop where
  ofInt : ∀ n, φ (Flt.ofInt n) = Flt.ofInt n
  add : ∀ x y, φ (x +. y) = φ x +. φ y
  sub : ∀ x y, φ (x -. y) = φ x -. φ y
  mul : ∀ x y, φ (x *. y) = φ x *. φ y
  div : ∀ x y, φ (x /. y) = φ x /. φ y
  neg : ∀ x, φ (Flt.neg x) = Flt.neg (φ x)
  lt : ∀ x y, Flt.lt (φ x) (φ y) = Flt.lt x y
  le : ∀ x y, Flt.le (φ x) (φ y) = Flt.le x y
  eq : ∀ x y, Flt.eq (φ x) (φ y) = Flt.eq x y
  max : ∀ x y, φ (Flt.max x y) = Flt.max (φ x) (φ y)
  pow : ∀ x y, φ (Flt.pow x y) = Flt.pow (φ x) (φ y)
  exp : ∀ x, φ (Flt.exp x) = Flt.exp (φ x)
  sqrt : ∀ x, φ (Flt.sqrt x) = Flt.sqrt (φ x)
  half : φ Flt.half = Flt.half
  eps7 : φ Flt.eps7 = Flt.eps7
  oneSubEps7 : φ Flt.oneSubEps7 = Flt.oneSubEps7

variable {φ : α → β} (h : FltHom φ)
include h

theorem FltHom.ite (c : Prop) [Decidable c] (x y : α) : φ (if c then x else y) = if c then φ x else φ y := by split <;> rfl

theorem FltHom.sum (n : Nat) (f : Nat → α) : φ (fsum n f) = fsum n fun k => φ (f k) := by
  induction n with
  | zero => exact h.ofInt 0
  | succ n ih => rw [fsum, fsum, h.add, ih]

theorem FltHom.preact (L : LayerSpec α) (X : Nat → Nat → α) (i j : Nat) :
    φ (NN.preact L X i j) = NN.preact (L.map φ) (fun i j => φ (X i j)) i j := by
  unfold NN.preact
  rw [h.add, h.sum]
  simp only [h.mul]
  rfl

theorem FltHom.infer (L : LayerSpec α) (X : Nat → Nat → α) (i j : Nat) :
    φ (NN.infer L X i j) = NN.infer (L.map φ) (fun i j => φ (X i j)) i j := by
  have hp := h.preact L X i
  unfold NN.infer actRow
  change _ = match L.kind with
    | .hidden | .dropout => _ | .linear => _ | .sigmoid => _ | .leaky => _ | .softmax => _
  cases L.kind <;> dsimp only
  · rw [h.max, hp, h.ofInt]
  · rw [hp]
  · rw [h.div, h.add, h.exp, h.neg, h.ofInt, hp]
  · rw [h.ite, h.mul, hp, ← h.lt, hp, h.ofInt]; rfl
  · rw [h.div, h.exp, h.sum, hp]
    simp only [h.exp, hp]; rfl
  · rw [h.max, hp, h.ofInt]

theorem FltHom.bern (P u : α) : φ (NN.bern P u) = NN.bern (φ P) (φ u) := by
  unfold NN.bern
  dsimp only
  have h0 : φ Flt.zero = Flt.zero := h.ofInt 0
  have h1 : φ Flt.one = Flt.one := h.ofInt 1
  rw [← h1, ← h0, ← h.half, h.lt, ← h.sub, ← h.add, ← h.ite, h.lt, h.eq, ← h.ite, ← h.sub, ← h.ite]

theorem FltHom.bits (L : LayerSpec α) (u : Nat → α) (i j : Nat) : φ (dropBits L u i j) = dropBits (L.map φ) (fun q => φ (u q)) i j := by
  unfold dropBits
  rw [h.bern, h.sub, h.ofInt]
  rfl

theorem FltHom.trainOut (L : LayerSpec α) (u : Nat → α) (X : Nat → Nat → α) (i j : Nat) :
    φ (NN.trainOut L u X i j) = NN.trainOut (L.map φ) (fun q => φ (u q)) (fun i j => φ (X i j)) i j := by
  unfold NN.trainOut
  rw [h.ite, h.mul, h.max, h.div, h.sub, h.ofInt, h.ofInt, h.preact, h.bits, h.infer]
  rfl

theorem FltHom.draws (net : Net α) (r k : Nat) : dropDraws (net.map φ) r k = dropDraws net r k := by
  induction k with
  | zero => rfl
  | succ k ih => rw [dropDraws, dropDraws, ih]; rfl

theorem FltHom.trainVals (net : Net α) (r : Nat) (u : Nat → α) (X : Nat → Nat → α) (k : Nat) :
    (fun i j => φ (NN.trainVals net r u X k i j)) = NN.trainVals (net.map φ) r (fun q => φ (u q)) (fun i j => φ (X i j)) k := by
  induction k with
  | zero => rfl
  | succ k ih =>
    funext i j
    rw [NN.trainVals, NN.trainVals, h.trainOut, ih, h.draws]
    rfl

theorem FltHom.actBack (L : LayerSpec α) (P M D : Nat → Nat → α) (i j : Nat) : φ (NN.actBack L P M D i j) =
    NN.actBack (L.map φ) (fun i j => φ (P i j)) (fun i j => φ (M i j)) (fun i j => φ (D i j)) i j := by
  unfold NN.actBack
  change _ = match L.kind with
    | .linear | .sigmoid => _ | .hidden => _ | .leaky => _ | .dropout => _ | .softmax => _
  cases L.kind <;> dsimp only
  · rw [h.ite, h.ofInt, ← h.le, h.ofInt]
  · rw [h.ite, h.mul, ← h.lt, h.ofInt]; rfl
  · rw [h.sum]
    simp only [h.mul, h.sub, h.sum, h.ite, h.ofInt]
    rfl
  · rw [h.ite, h.mul, h.ofInt, ← h.le, h.ofInt]

theorem FltHom.gradW (r : Nat) (X G : Nat → Nat → α) (k j : Nat) :
    φ (NN.gradW r X G k j) = NN.gradW r (fun i j => φ (X i j)) (fun i j => φ (G i j)) k j := by
  unfold NN.gradW
  rw [h.sum]; simp only [h.mul]

theorem FltHom.gradB (r : Nat) (G : Nat → Nat → α) (k j : Nat) : φ (NN.gradB r G k j) = NN.gradB r (fun i j => φ (G i j)) k j := by
  unfold NN.gradB
  rw [h.sum]

theorem FltHom.gradX (L : LayerSpec α) (G : Nat → Nat → α) (i k : Nat) : φ (NN.gradX L G i k) = NN.gradX (L.map φ) (fun i j => φ (G i j)) i k := by
  unfold NN.gradX
  rw [h.sum]; simp only [h.mul]; rfl

theorem FltHom.clipped (x : α) : φ (NN.clipped x) = NN.clipped (φ x) := by
  unfold NN.clipped
  have h0 : φ Flt.zero = Flt.zero := h.ofInt 0
  have h1 : φ Flt.one = Flt.one := h.ofInt 1
  rw [h.ite, h.ite, h.eps7, h.oneSubEps7, ← h0, ← h1, h.lt, h.lt]

theorem FltHom.lossGrad (k : LossKind) (r c : Nat) (P Y : Nat → Nat → α) (i j : Nat) :
    φ (NN.lossGrad k r c P Y i j) = NN.lossGrad k r c (fun i j => φ (P i j)) (fun i j => φ (Y i j)) i j := by
  unfold NN.lossGrad
  cases k <;> dsimp only
  · rw [h.mul, h.sub, h.div, h.ofInt, h.ofInt]
  · rw [h.ite, h.ite, h.ofInt, h.ofInt, h.ofInt, ← h.lt, ← h.lt, h.sub, h.ofInt]
  · rw [h.div, h.div, h.neg, h.ofInt]
  · rw [h.div, h.div, h.neg, h.sub, h.div, h.div, h.sub, h.sub, h.clipped, h.ofInt, h.ofInt, h.ofInt]

theorem FltHom.fusedGrad (r : Nat) (P Y : Nat → Nat → α) (i j : Nat) :
    φ (NN.fusedGrad r P Y i j) = NN.fusedGrad r (fun i j => φ (P i j)) (fun i j => φ (Y i j)) i j := by
  unfold NN.fusedGrad
  rw [h.ite, h.div, h.div, h.sub, ← h.eq, h.ofInt, h.ofInt]

theorem FltHom.afterLoss (k : LossKind) (P : Nat → Nat → α) (i j : Nat) :
    φ (NN.afterLoss k P i j) = NN.afterLoss k (fun i j => φ (P i j)) i j := by
  unfold NN.afterLoss
  cases k <;> dsimp only
  rw [h.clipped]

theorem FltHom.backprop {net : Net α} {V M G D : Nat → Nat → Nat → α} {t : Nat} (hB : Backprop net V M G D t) :
    Backprop (net.map φ) (fun k i j => φ (V k i j)) (fun k i j => φ (M k i j)) (fun k i j => φ (G k i j)) (fun k i j => φ (D k i j)) t := by
  refine ⟨fun k hk => ?_, fun k hk => ?_⟩
  · funext i j
    rw [hB.act k hk, h.actBack]; rfl
  · funext i j
    rw [hB.inp k hk, h.gradX]; rfl

theorem FltHom.netGrad {m : Model α} {m' : Model β} (hm : m'.lossType = m.lossType) {net : Net α} {loss : LossKind} {r : Nat}
    {V M G D : Nat → Nat → Nat → α} {Y : Nat → Nat → α} (hg : NetGrad m net loss r V M Y G D) :
    NetGrad m' (net.map φ) loss r (fun k i j => φ (V k i j)) (fun k i j => φ (M k i j)) (fun i j => φ (Y i j)) (fun k i j => φ (G k i j))
      (fun k i j => φ (D k i j)) := by
  have hf : Fused m' (net.map φ) ↔ Fused m net := by
    unfold Fused
    rw [hm]; rfl
  refine ⟨fun hF => ?_, fun hF => ?_⟩
  · obtain ⟨a1, a2, a3⟩ := hg.fused (hf.1 hF)
    refine ⟨?_, ?_, h.backprop a3⟩
    · funext i j
      change φ (G (net.size - 1) i j) = _
      rw [a1, h.fusedGrad]; rfl
    · funext i j
      change φ (D (net.size - 1) i j) = _
      rw [a2, h.gradX]; rfl
  · obtain ⟨a1, a2⟩ := hg.plain fun hx => hF (hf.2 hx)
    refine ⟨?_, ?_⟩
    · funext i j
      change φ (D net.size i j) = _
      rw [a1, h.lossGrad]; rfl
    · have := h.backprop a2
      refine cast (congrArg (fun V' => Backprop (net.map φ) V' _ _ _ net.size) ?_) this
      funext k i j
      refine Eq.symm ?_
      change (if k = net.size then NN.afterLoss loss (fun i j => φ (V k i j)) else fun i j => φ (V k i j)) i j =
        φ ((if k = net.size then NN.afterLoss loss (V k) else V k) i j)
      by_cases hk : k = net.size
      · rw [if_pos hk, if_pos hk, h.afterLoss]
      · rw [if_neg hk, if_neg hk]

omit h in
theorem OptSpec.map_t (φ : α → β) (S : OptSpec α) : (S.map φ).t = S.t := rfl

theorem FltHom.rate (S : OptSpec α) : φ S.rate = (S.map φ).rate := by
  unfold OptSpec.rate
  rw [h.ite, h.mul, h.div, h.add, h.mul, h.ofInt, h.ofInt, ← h.eq, h.ofInt]
  rfl

theorem FltHom.corr (S : OptSpec α) : φ S.corr = (S.map φ).corr := by
  unfold OptSpec.corr
  rw [h.div, h.sub, h.pow, h.ofInt, h.ofInt]
  rfl

theorem FltHom.vel (S : OptSpec α) (v g : α) : φ (S.vel v g) = (S.map φ).vel (φ v) (φ g) := by
  unfold OptSpec.vel
  rw [← h.rate]
  change _ = match S.kind with | .sgd => _ | .adam => _
  cases S.kind <;> dsimp only
  · rw [h.ite, h.sub, h.mul, h.mul, ← h.eq, h.ofInt]; rfl
  · rw [h.add, h.mul, h.mul, h.sub, h.ofInt]; rfl

theorem FltHom.cache (S : OptSpec α) (c g : α) : φ (S.cache c g) = (S.map φ).cache (φ c) (φ g) := by
  unfold OptSpec.cache
  change _ = match S.kind with | .sgd => _ | .adam => _
  cases S.kind <;> dsimp only
  rw [h.add, h.mul, h.mul, h.sub, h.pow, h.ofInt, h.ofInt]; rfl

theorem FltHom.upd (S : OptSpec α) (x v c g : α) : φ (S.upd x v c g) = (S.map φ).upd (φ x) (φ v) (φ c) (φ g) := by
  unfold OptSpec.upd
  rw [← h.rate, ← h.vel, ← h.cache, ← h.corr]
  change _ = match S.kind with | .sgd => _ | .adam => _
  cases S.kind <;> dsimp only
  · rw [h.ite, h.sub, h.mul, h.add, ← h.eq, h.ofInt]; rfl
  · rw [h.add, h.div, h.mul, h.neg, h.mul, h.add, h.sqrt, h.mul]; rfl

theorem FltHom.step (S : OptSpec α) (GW GB : Nat → Nat → α) :
    (S.step GW GB).map φ = (S.map φ).step (fun i j => φ (GW i j)) (fun i j => φ (GB i j)) := by
  unfold OptSpec.step
  rw [OptSpec.map]
  simp only [h.vel, h.cache]
  rfl

theorem FltHom.trainStep {m : Model α} {m' : Model β} (hm : m'.lossType = m.lossType) {loss : LossKind} {r : Nat} {u : Nat → α}
    {X Y : Nat → Nat → α} {net net1 : Net α} {S S1 : Nat → OptSpec α} (h1 : TrainStep m loss r u X Y net S net1 S1) :
    TrainStep m' loss r (fun q => φ (u q)) (fun i j => φ (X i j)) (fun i j => φ (Y i j)) (net.map φ) (fun k => (S k).map φ) (net1.map φ)
      fun k => (S1 k).map φ := by
  obtain ⟨G, D, g1, rfl, rfl⟩ := h1
  have hV : (fun k i j => φ (NN.trainVals net r u X k i j)) = NN.trainVals (net.map φ) r (fun q => φ (u q)) fun i j => φ (X i j) :=
    funext fun k => h.trainVals net r u X k
  have hW : ∀ k, (fun i j => φ (NN.gradW r (NN.trainVals net r u X k) (G k) i j)) =
      NN.gradW r (NN.trainVals (net.map φ) r (fun q => φ (u q)) (fun i j => φ (X i j)) k) fun i j => φ (G k i j) := fun k => by
    funext i j
    rw [h.gradW, ← hV]
  have hB : ∀ k, (fun i j => φ (NN.gradB r (G k) i j)) = NN.gradB r fun i j => φ (G k i j) := fun k => by
    funext i j
    rw [h.gradB]
  refine ⟨fun k i j => φ (G k i j), fun k i j => φ (D k i j), ?_, ?_, ?_⟩
  · have := h.netGrad hm g1
    rw [hV] at this
    convert this using 1
    funext k i j
    rw [h.bits, h.draws]; rfl
  · unfold stepNet Net.map
    congr 1
    funext k
    unfold LayerSpec.map
    congr 1
    · funext i j
      change φ ((S k).newW _ _ i j) = _
      unfold OptSpec.newW
      rw [h.upd]
      congr 1
      exact congrFun (congrFun (hW k) i) j
    · funext j
      change φ ((S k).newB (fun _ j => (net.L k).b j) (NN.gradB r (G k)) 0 j) = _
      unfold OptSpec.newB
      rw [h.upd]
      congr 1
      exact congrFun (congrFun (hB k) 0) j
  · funext k
    unfold stepOpts
    rw [h.step, hW, hB]

/-- Gradient descent is mapped to gradient descent. -/
theorem FltHom.descent {m : Model α} {m' : Model β} (hm : m'.lossType = m.lossType) {loss : LossKind} {u : Nat → α}
    {X Y : Nat → Nat → α} {net net1 : Net α} {S S1 : Nat → OptSpec α} {p p1 : Nat} {bs : List (Nat × Nat)}
    (h1 : Descent m loss u X Y net S p bs net1 S1 p1) :
    Descent m' loss (fun q => φ (u q)) (fun i j => φ (X i j)) (fun i j => φ (Y i j)) (net.map φ) (fun k => (S k).map φ) p bs (net1.map φ)
      (fun k => (S1 k).map φ) p1 := by
  induction h1 with
  | start => exact .start
  | step a1 a2 ih =>
    have := Descent.step ih (h.trainStep hm a2)
    rw [h.draws] at this
    exact this

end NN
