import Verif.Spec.Renumber
import Verif.Props.C100
import Verif.Props.C137
/-
C138: the numbering of the units of a model does not matter (in exact arithmetic).
-/

set_option linter.unusedSectionVars false

namespace NN
open NN.Go Finset

theorem fsum_renum {n : Nat} {σ : Equiv.Perm Nat} (hσ : ∀ i, i < n ↔ σ i < n) (f : Nat → ℝ) : fsum n (fun i => f (σ i)) = fsum n f := by
  rw [fsum_real, fsum_real]
  exact sum_perm hσ f

theorem SameLayer.trans {α : Type} {L L1 L2 : LayerSpec α} (h : SameLayer L L1) (h' : SameLayer L1 L2) : SameLayer L L2 :=
  ⟨h'.kind.trans h.kind, h'.n.trans h.n, h'.o.trans h.o, h'.slope.trans h.slope, h'.dropout.trans h.dropout,
    fun i j hi hj => (h'.W i j (by rw [h.n]; exact hi) (by rw [h.o]; exact hj)).trans (h.W i j hi hj),
    fun j hj => (h'.b j (by rw [h.o]; exact hj)).trans (h.b j hj)⟩

theorem Agree.trans {α : Type} [Flt α] {r c : Nat} {A B C : Nat → Nat → α} (h : Agree r c A B) (h' : Agree r c B C) : Agree r c A C :=
  fun i j hi hj => (h' i j hi hj).trans (h i j hi hj)

theorem SameNet.trans {α : Type} [Flt α] {a b c : Net α} (h : SameNet a b) (h' : SameNet b c) : SameNet a c :=
  ⟨h'.size.trans h.size, fun k hk => (h'.dim k (by rw [h.size]; exact hk)).trans (h.dim k hk), h.ins, h.outs,
    fun k hk => (h.layer k hk).trans (h'.layer k (by rw [h.size]; exact hk))⟩

theorem SameOpt.trans {α : Type} [Flt α] {n o : Nat} {a b c : OptSpec α} (h : SameOpt n o a b) (h' : SameOpt n o b c) : SameOpt n o a c :=
  ⟨h'.kind.trans h.kind, h'.lr.trans h.lr, h'.decay.trans h.decay, fun e => (h'.momentum (h.kind.trans e)).trans (h.momentum e),
    fun e => (h'.epsilon (h.kind.trans e)).trans (h.epsilon e), fun e => (h'.beta1 (h.kind.trans e)).trans (h.beta1 e),
    fun e => (h'.beta2 (h.kind.trans e)).trans (h.beta2 e), h'.t.trans h.t, h.vw.trans h'.vw, h.vb.trans h'.vb, h.cw.trans h'.cw, h.cb.trans h'.cb⟩

theorem SameOpt.plain {α : Type} [Flt α] {n o : Nat} {a b : OptSpec α} (h : SameOpt n o a b) : a.Plain ↔ b.Plain := by
  unfold OptSpec.Plain
  rw [h.kind, h.decay]
  constructor
  · rintro ⟨h1, h2, h3⟩; exact ⟨h1, h2, by rw [h.momentum h1]; exact h3⟩
  · rintro ⟨h1, h2, h3⟩; exact ⟨h1, h2, by rw [← h.momentum h1]; exact h3⟩

theorem OptLike.trans {α : Type} [Flt α] {n o : Nat} {a b c : OptSpec α} (h : OptLike n o a b) (h' : OptLike n o b c) : OptLike n o a c := by
  rcases h with h | ⟨h1, h2, h3⟩ <;> rcases h' with h' | ⟨g1, g2, g3⟩
  · exact .inl (h.trans h')
  · exact .inr ⟨h.plain.2 g1, g2, g3.trans h.lr⟩
  · exact .inr ⟨h1, h'.plain.1 h2, h'.lr.trans h3⟩
  · exact .inr ⟨h1, g2, g3.trans h3⟩

theorem SameRun.trans {α : Type} [Flt α] {a b c : Net α} {S S' S2 : Nat → OptSpec α} (h : SameRun a b S S') (h' : SameRun b c S' S2) : SameRun a c S S2 :=
  ⟨h.layers.trans h'.layers, fun k hk => (h.opt k hk).trans (by
    have := h'.opt k (by rw [h.layers.size]; exact hk)
    rwa [(h.layers.layer k hk).n, (h.layers.layer k hk).o] at this)⟩

section
variable {L : LayerSpec ℝ} {σ τ : Equiv.Perm Nat}

theorem preact_renum (hσ : ∀ i, i < L.n ↔ σ i < L.n) (X : Nat → Nat → ℝ) (i j : Nat) :
    preact (L.renum σ τ) (fun i j => X i (σ j)) i j = preact L X i (τ j) := by
  unfold preact
  show (fsum L.n fun k => X i (σ k) *. L.W (σ k) (τ j)) +. _ = _
  rw [fsum_renum hσ fun k => X i k *. L.W k (τ j)]
  rfl

theorem infer_renum (hσ : ∀ i, i < L.n ↔ σ i < L.n) (hτ : ∀ i, i < L.o ↔ τ i < L.o) (X : Nat → Nat → ℝ) (i j : Nat) :
    infer (L.renum σ τ) (fun i j => X i (σ j)) i j = infer L X i (τ j) := by
  unfold infer actRow
  have hp : preact (L.renum σ τ) (fun i j => X i (σ j)) i = fun j => preact L X i (τ j) := funext fun j => preact_renum hσ X i j
  rw [hp]
  show (match L.kind with
    | .hidden | .dropout => Flt.max (preact L X i (τ j)) Flt.zero
    | .linear => preact L X i (τ j)
    | .sigmoid => Flt.one /. (Flt.one +. Flt.exp (Flt.neg (preact L X i (τ j))))
    | .leaky => if Flt.lt (preact L X i (τ j)) Flt.zero then preact L X i (τ j) *. L.slope else preact L X i (τ j)
    | .softmax => Flt.exp (preact L X i (τ j)) /. fsum L.o fun k => Flt.exp (preact L X i (τ k))) = _
  cases L.kind <;> try rfl
  dsimp only
  rw [fsum_renum hτ fun k => Flt.exp (preact L X i k)]

theorem actBack_renum (hτ : ∀ i, i < L.o ↔ τ i < L.o) (hd : L.kind ≠ .dropout) (P M M' D : Nat → Nat → ℝ) :
    actBack (L.renum σ τ) (fun i j => P i (τ j)) M' (fun i j => D i (τ j)) = fun i j => actBack L P M D i (τ j) := by
  funext i j
  unfold actBack
  show (match L.kind with
    | .linear | .sigmoid => D i (τ j)
    | .hidden => if Flt.le (P i (τ j)) Flt.zero then Flt.zero else D i (τ j)
    | .leaky => if Flt.lt (P i (τ j)) Flt.zero then D i (τ j) *. L.slope else D i (τ j)
    | .dropout => if Flt.le (P i (τ j)) Flt.zero then Flt.zero else D i (τ j) *. M' i j
    | .softmax => fsum L.o fun k => ((if j = k then P i (τ j) else Flt.zero) -. fsum 1 fun _ => P i (τ j) *. P i (τ k)) *. D i (τ k)) = _
  cases hk : L.kind <;> first | rfl | exact absurd hk hd | skip
  dsimp only
  rw [← fsum_renum hτ fun k => ((if τ j = k then P i (τ j) else Flt.zero) -. fsum 1 fun _ => P i (τ j) *. P i k) *. D i k]
  simp only [EmbeddingLike.apply_eq_iff_eq]

theorem gradX_renum (hτ : ∀ i, i < L.o ↔ τ i < L.o) (G : Nat → Nat → ℝ) :
    gradX (L.renum σ τ) (fun i j => G i (τ j)) = fun i k => gradX L G i (σ k) := by
  funext i k
  exact fsum_renum hτ fun j => G i j *. L.W (σ k) j

end

section
variable {net : Net ℝ} {σ : Nat → Equiv.Perm Nat}

/-- The shape of a chain of layers. -/
structure Net.Chain (net : Net ℝ) : Prop where
  ins : ∀ k, k < net.size → (net.L k).n = net.dim k
  outs : ∀ k, k < net.size → (net.L k).o = net.dim (k + 1)

theorem netOut_renum (hc : Net.Chain net) (hσ : net.Renumbers σ) (X : Nat → Nat → ℝ) (k : Nat) (hk : k ≤ net.size) :
    netOut (net.renum σ) (fun i j => X i (σ 0 j)) k = fun i j => netOut net X k i (σ k j) := by
  induction k with
  | zero => rfl
  | succ k ih =>
    funext i j
    show infer ((net.L k).renum (σ k) (σ (k + 1))) (netOut (net.renum σ) _ k) i j = infer (net.L k) (netOut net X k) i (σ (k + 1) j)
    rw [ih (by omega)]
    exact infer_renum (by rw [hc.ins k hk]; exact hσ k (by omega)) (by rw [hc.outs k hk]; exact hσ _ hk) _ _ _

theorem trainVals_renum (hc : Net.Chain net) (hσ : net.Renumbers σ) (hd : ∀ k, k < net.size → (net.L k).kind ≠ .dropout) (r : Nat) (u u' : Nat → ℝ)
    (X : Nat → Nat → ℝ) (k : Nat) (hk : k ≤ net.size) :
    trainVals (net.renum σ) r u' (fun i j => X i (σ 0 j)) k = fun i j => trainVals net r u X k i (σ k j) := by
  induction k with
  | zero => rfl
  | succ k ih =>
    funext i j
    show trainOut ((net.L k).renum (σ k) (σ (k + 1))) _ (trainVals (net.renum σ) r u' _ k) i j = trainOut (net.L k) _ (trainVals net r u X k) i (σ (k + 1) j)
    unfold trainOut
    rw [if_neg (hd k hk), if_neg (show ((net.L k).renum (σ k) (σ (k + 1))).kind ≠ .dropout from hd k hk), ih (by omega)]
    exact infer_renum (by rw [hc.ins k hk]; exact hσ k (by omega)) (by rw [hc.outs k hk]; exact hσ _ hk) _ _ _

theorem backprop_renum (hc : Net.Chain net) (hσ : net.Renumbers σ) (hd : ∀ k, k < net.size → (net.L k).kind ≠ .dropout) {t : Nat} (ht : t ≤ net.size)
    {V M M' G D : Nat → Nat → Nat → ℝ} (h : Backprop net V M G D t) :
    Backprop (net.renum σ) (fun k i j => V k i (σ k j)) M' (fun k i j => G k i (σ (k + 1) j)) (fun k i j => D k i (σ k j)) t := by
  refine ⟨fun k hk => ?_, fun k hk => ?_⟩
  · rw [h.act k hk]
    exact (actBack_renum (by rw [hc.outs k (by omega)]; exact hσ _ (by omega)) (hd k (by omega)) _ _ _ _).symm
  · rw [h.inp k hk]
    exact (gradX_renum (by rw [hc.outs k (by omega)]; exact hσ _ (by omega)) _).symm

theorem netGrad_renum (hc : Net.Chain net) (hσ : net.Renumbers σ) (h0 : 0 < net.size) (hd : ∀ k, k < net.size → (net.L k).kind ≠ .dropout) {m : Model ℝ}
    {loss : LossKind} {r : Nat} {V M M' G D : Nat → Nat → Nat → ℝ} {Y : Nat → Nat → ℝ} (h : NetGrad m net loss r V M Y G D) :
    NetGrad m (net.renum σ) loss r (fun k i j => V k i (σ k j)) M' (fun i j => Y i (σ net.size j)) (fun k i j => G k i (σ (k + 1) j))
      (fun k i j => D k i (σ k j)) := by
  refine ⟨fun hF => ?_, fun hF => ?_⟩
  · obtain ⟨a1, a2, a3⟩ := h.fused hF
    have e : net.size - 1 + 1 = net.size := by omega
    refine ⟨?_, ?_, backprop_renum (t := net.size - 1) hc hσ hd (by omega) a3⟩
    · show (fun i j => G (net.size - 1) i (σ (net.size - 1 + 1) j)) = fusedGrad r (fun i j => V net.size i (σ net.size j)) _
      rw [a1, e]; rfl
    · show (fun i j => D (net.size - 1) i (σ (net.size - 1) j)) = gradX ((net.L (net.size - 1)).renum _ _) _
      rw [a2]
      exact (gradX_renum (by rw [hc.outs _ (by omega)]; exact hσ _ (by omega)) _).symm
  · obtain ⟨a1, a2⟩ := h.plain hF
    refine ⟨?_, ?_⟩
    · show (fun i j => D net.size i (σ net.size j)) = lossGrad loss r (net.dim net.size) (fun i j => V net.size i (σ net.size j)) _
      rw [a1]; rfl
    · have := backprop_renum (M' := M') hc hσ hd le_rfl a2
      convert this using 1
      · funext k
        show (if k = net.size then _ else _) = _
        split <;> rfl
      · rfl

/-- A training step commutes with renumbering. -/
theorem trainStep_renum (hc : Net.Chain net) (hσ : net.Renumbers σ) (h0 : 0 < net.size) (hd : ∀ k, k < net.size → (net.L k).kind ≠ .dropout)
    {m : Model ℝ} {loss : LossKind} {r : Nat} {u u' : Nat → ℝ} {X Y : Nat → Nat → ℝ} {net1 : Net ℝ} {S S1 : Nat → OptSpec ℝ}
    (h : TrainStep m loss r u X Y net S net1 S1) :
    ∃ net1' S1', TrainStep m loss r u' (fun i j => X i (σ 0 j)) (fun i j => Y i (σ net.size j)) (net.renum σ) (fun k => (S k).renum (σ k) (σ (k + 1))) net1' S1' ∧
      SameRun (net1.renum σ) net1' (fun k => (S1 k).renum (σ k) (σ (k + 1))) S1' := by
  obtain ⟨G, D, g, rfl, rfl⟩ := h
  have hV := trainVals_renum hc hσ hd r u u' X
  refine ⟨_, _, ⟨fun k i j => G k i (σ (k + 1) j), fun k i j => D k i (σ k j), ?_, rfl, rfl⟩, ?_⟩
  · have := netGrad_renum (M' := fun k => dropBits ((net.renum σ).L k) fun q => u' (dropDraws (net.renum σ) r k + q)) hc hσ h0 hd g
    have hsz : (net.renum σ).size = net.size := rfl
    refine ⟨fun hF => ?_, fun hF => ?_⟩
    · obtain ⟨a1, a2, a3⟩ := this.fused hF
      refine ⟨?_, a2, ⟨fun k hk => ?_, a3.inp⟩⟩
      · rw [hsz, hV _ le_rfl]; exact a1
      · rw [hV _ (by rw [hsz] at hk; omega)]; exact a3.act k hk
    · obtain ⟨a1, a2⟩ := this.plain hF
      refine ⟨?_, ⟨fun k hk => ?_, a2.inp⟩⟩
      · rw [hsz, hV _ le_rfl]; exact a1
      · have := a2.act k hk
        rw [hV _ (by rw [hsz] at hk; omega)]; exact this
  · refine ⟨⟨rfl, fun _ _ => rfl, hc.ins, hc.outs, fun k hk => ⟨rfl, rfl, rfl, rfl, rfl, fun i j _ _ => ?_, fun j _ => ?_⟩⟩, fun k hk => .inl
      ⟨rfl, rfl, rfl, fun _ => rfl, fun _ => rfl, fun _ => rfl, fun _ => rfl, rfl, fun i j _ _ => ?_, fun i j _ _ => ?_, fun i j _ _ => ?_, fun i j _ _ => ?_⟩⟩
    all_goals have hk' : k < net.size := hk
    · show ((S k).renum (σ k) (σ (k + 1))).upd _ _ _ (gradW r (trainVals (net.renum σ) r u' _ k) _ i j) = (S k).upd _ _ _ _
      rw [hV k (by omega)]; rfl
    · rfl
    · show ((S k).renum (σ k) (σ (k + 1))).vel _ (gradW r (trainVals (net.renum σ) r u' _ k) _ i j) = (S k).vel _ _
      rw [hV k (by omega)]; rfl
    · rfl
    · show ((S k).renum (σ k) (σ (k + 1))).cache _ (gradW r (trainVals (net.renum σ) r u' _ k) _ i j) = (S k).cache _ _
      rw [hV k (by omega)]; rfl
    · rfl

/-- Two runs that start with the same content up to the numbering end with the same content up to the numbering. -/
theorem descent_renum (hc : Net.Chain net) (hσ : net.Renumbers σ) (h0 : 0 < net.size) (hd : ∀ k, k < net.size → (net.L k).kind ≠ .dropout)
    {m m' : Model ℝ} (hm : m'.lossType = m.lossType) {loss : LossKind} {u u' : Nat → ℝ} {p p' n : Nat} {X X' Y Y' : Nat → Nat → ℝ} {net' : Net ℝ}
    {S S' : Nat → OptSpec ℝ} (h : SameRun (net.renum σ) net' (fun k => (S k).renum (σ k) (σ (k + 1))) S') (hX : Agree n (net.dim 0) (fun i j => X i (σ 0 j)) X')
    (hY : Agree n (net.dim net.size) (fun i j => Y i (σ net.size j)) Y') (bs : List (Nat × Nat)) (hbs : ∀ b ∈ bs, b.1 + b.2 ≤ n)
    {net1 net1' : Net ℝ} {S1 S1' : Nat → OptSpec ℝ} {p1 p1' : Nat} (h1 : Descent m loss u X Y net S p bs net1 S1 p1)
    (h2 : Descent m' loss u' X' Y' net' S' p' bs net1' S1' p1') :
    SameRun (net1.renum σ) net1' (fun k => (S1 k).renum (σ k) (σ (k + 1))) S1' ∧ SameShape net net1 := by
  induction bs using List.reverseRecOn generalizing net1 net1' S1 S1' p1 p1' with
  | nil =>
    obtain ⟨rfl, rfl, rfl⟩ := h1.nil
    obtain ⟨rfl, rfl, rfl⟩ := h2.nil
    exact ⟨h, rfl, rfl, rfl, rfl, rfl, fun i => ⟨_, _, rfl⟩⟩
  | append_singleton bs b ih =>
    obtain ⟨netA, SA, pA, a1, a2, rfl⟩ := h1.snoc
    obtain ⟨netB, SB, pB, b1, b2, rfl⟩ := h2.snoc
    obtain ⟨hs, sh⟩ := ih (fun b hb => hbs b (by simp [hb])) a1 b1
    have hb := hbs b (by simp)
    have e1 := sh.size
    have e2 := sh.dim
    have ek : ∀ k, (netA.L k).kind = (net.L k).kind ∧ (netA.L k).n = (net.L k).n ∧ (netA.L k).o = (net.L k).o := fun k => by
      obtain ⟨W, b, e⟩ := sh.layer k; rw [e]; exact ⟨rfl, rfl, rfl⟩
    have hcA : Net.Chain netA := ⟨fun k hk => by rw [(ek k).2.1, e2]; exact hc.ins k (by omega),
      fun k hk => by rw [(ek k).2.2, e2]; exact hc.outs k (by omega)⟩
    obtain ⟨netC, SC, c1, c2⟩ := trainStep_renum (σ := σ) (u' := fun q => u' (pB + q)) hcA (fun k hk => by rw [e2]; exact hσ k (by omega)) (by omega)
      (fun k hk => by rw [(ek k).1]; exact hd k (by omega)) a2
    obtain ⟨r1, r2, -⟩ := trainStep_same hm (u := fun q => u' (pB + q)) (u' := fun q => u' (pB + q)) (fun q => rfl) hs
      (by show 0 < netA.size; omega) (r := b.2) (fun i j hi hj => hX _ _ (by omega) (by rw [← e2]; exact hj))
      (fun i j hi hj => by rw [e1]; exact hY _ _ (by omega) (by rw [← e2, ← e1]; exact hj)) c1 b2
    have e3 : SameShape netA net1 := by
      obtain ⟨G, D, -, rfl, -⟩ := a2
      exact ⟨rfl, rfl, rfl, rfl, rfl, fun i => ⟨_, _, rfl⟩⟩
    refine ⟨?_, sh.trans e3⟩
    exact c2.trans r1

end

theorem netOut_agree {α : Type} [Flt α] {net net' : Net α} (h : SameNet net net') {r : Nat} {X X' : Nat → Nat → α} (hX : Agree r (net.dim 0) X X')
    (k : Nat) (hk : k ≤ net.size) : Agree r (net.dim k) (netOut net X k) (netOut net' X' k) := by
  induction k with
  | zero => exact hX
  | succ k ih =>
    have := ih (by omega)
    rw [← h.ins k hk] at this
    rw [← h.outs k hk]
    exact inferRow_same (h.layer k hk) this

/-- C138 for an arithmetic α: Fit on a model without dropout and sigmoid layers and on the model with the same units in another order, where
the columns of the data are reordered in the same way.  Both runs succeed and end with the same parameters and optimizer states up to the
numbering, and then Predict returns the same matrices, with the columns reordered. -/
def NumberFree (α : Type) [Flt α] : Prop :=
  ∀ (w w' : World α) (m m' : Model α) (net net' : Net α) (op op' : Nat → Nat) (S S' : Nat → OptSpec α)
    (k : LossKind) (X Y X' Y' xv yv xv' yv' : Mat) (n : Nat) (A B A' B' : Nat → Nat → α) (σ : Nat → Equiv.Perm Nat),
    Trains w m net op S k X Y n A B → Trains w' m' net' op' S' k X' Y' n A' B' → m'.lossType = m.lossType → m'.accType = m.accType →
    net.Renumbers σ → SameNet (net.renum σ) net' →
    (∀ i, i < net.size → OptLike (net.L i).n (net.L i).o ((S i).renum (σ i) (σ (i + 1))) (S' i)) →
    (∀ i, i < net.size → (net.L i).kind ≠ .dropout) →
    Agree n (net.dim 0) (fun i j => A i (σ 0 j)) A' → Agree n (net.dim net.size) (fun i j => B i (σ net.size j)) B' →
    ∀ (epochs : Int) (b : Nat), n + b ≤ 2 ^ 53 →
    wp (fit m X Y epochs b xv yv 0) w fun e w1 => wp (fit m' X' Y' epochs b xv' yv' 0) w' fun e' w1' =>
      e = none ∧ e' = none ∧ ∃ net1 net1' S1 S1', IsTask w1 m net1 op S1 ∧ IsTask w1' m' net1' op' S1' ∧ SameNet (net1.renum σ) net1' ∧
        (∀ i, i < net.size → OptLike (net.L i).n (net.L i).o ((S1 i).renum (σ i) (σ (i + 1))) (S1' i)) ∧
        ∀ (x x' : Mat) (r : Nat) (V V' : Nat → Nat → α), IsMat w1 x r (net.dim 0) V → IsMat w1' x' r (net.dim 0) V' →
          Agree r (net.dim 0) (fun i j => V i (σ 0 j)) V' → m.accType = 0 ∨ m.accType = 2 ∨ m.accType = 1 ∧ σ net.size = Equiv.refl _ →
          wp (predict m x) w1 fun p w2 => wp (predict m' x') w1' fun p' w2' => p.2 = none ∧ p'.2 = none ∧
            ∃ c P P', IsMat w2 p.1 r c P ∧ IsMat w2' p'.1 r c P' ∧ Agree r c (fun i j => P i (σ net.size j)) P'

/-- C138: in exact arithmetic the numbering of the units does not matter. -/
theorem C138_real : NumberFree ℝ := by
  intro w w' m m' net net' op op' S S' k X Y X' Y' xv yv xv' yv' n A B A' B' σ h h' hm hacc hσ hN hS hd hA hB epochs b hbig
  refine wp_mono (C70_fit w m net op S h.task h.noSig _ h.loss rfl X Y xv yv n A B h.xs.mat h.ys.mat h.xs.cap h.ys.cap h.xs.sep h.ys.sep
    epochs b hbig) ?_
  rintro e w1 ⟨he, net1, S1, d1, t1, s1, -⟩
  refine wp_mono (C70_fit w' m' net' op' S' h'.task h'.noSig _ h'.loss rfl X' Y' xv' yv' n A' B' h'.xs.mat h'.ys.mat h'.xs.cap h'.ys.cap
    h'.xs.sep h'.ys.sep epochs b hbig) ?_
  rintro e' w1' ⟨he', net1', S1', d2, t2, s2, -⟩
  obtain ⟨hr, -⟩ := descent_renum ⟨h.task.isNet.ins, h.task.isNet.outs⟩ hσ h.task.pos hd hm ⟨hN, hS⟩ hA hB _ (fun p hp => by
    obtain ⟨l, hl, hp⟩ := List.mem_flatten.1 hp
    rw [List.eq_of_mem_replicate hl] at hp
    exact blocks_le n b p hp) d1 d2
  refine ⟨he, he', net1, net1', S1, S1', t1, t2, hr.layers, fun i hi => ?_, ?_⟩
  · have := hr.opt i (by show i < net1.size; rw [s1.size]; exact hi)
    obtain ⟨W, b, e⟩ := s1.layer i
    have e1 : ((net1.renum σ).L i).n = (net.L i).n := by show (net1.L i).n = _; rw [e]
    have e2 : ((net1.renum σ).L i).o = (net.L i).o := by show (net1.L i).o = _; rw [e]
    rwa [e1, e2] at this
  · intro x x' r V V' hx hx' hV hc
    have h0 := t1.pos
    have ez : net1'.size = net1.size := hr.layers.size
    have hd0 : net1'.dim 0 = net1.dim 0 := hr.layers.dim 0 (Nat.zero_le _)
    have hdn : net1'.dim net1'.size = net1.dim net1.size := by rw [ez]; exact hr.layers.dim net1.size le_rfl
    refine wp_mono (predict_spec t1.isNet h0 (by rw [s1.dim]; exact hx)) ?_
    rintro p w2 ⟨-, -, hp, -⟩
    refine wp_mono (predict_spec t2.isNet (by omega) (r := r) (X := V') (by rw [hd0, s1.dim]; exact hx')) ?_
    rintro p' w2' ⟨-, -, hp', -⟩
    obtain ⟨q1, q2⟩ := hp (by omega)
    obtain ⟨q1', q2'⟩ := hp' (by omega)
    have q2' := q2'.mat
    rw [hdn, hacc] at q2'
    refine ⟨q1, q1', _, _, _, q2.mat, q2', fun i j hi hj => ?_⟩
    have hsz := s1.size
    have hdim := s1.dim
    have hout : ∀ j, j < net1.dim net1.size → netOut net1' V' net1'.size i j = netOut net1 V net1.size i (σ net.size j) := by
      intro j hj
      have a1 := netOut_agree hr.layers (r := r) (by show Agree r (net1.dim 0) _ _; rw [hdim]; exact hV) net1.size le_rfl i j hi hj
      rw [ez, a1, netOut_renum ⟨t1.isNet.ins, t1.isNet.outs⟩ (fun k hk => by rw [hdim]; exact hσ k (by omega)) V net1.size le_rfl, hsz]
    rcases hc with hc | hc | ⟨hc, hid⟩
    · rw [if_neg (by omega)] at hj
      unfold decoded
      dsimp only
      rw [if_pos hc, if_pos hc]
      exact hout j hj
    · rw [if_neg (by omega)] at hj
      unfold decoded
      dsimp only
      have n0 : ¬ m.accType = 0 := by omega
      have n1 : ¬ m.accType = 1 := by omega
      simp only [if_neg n0, if_neg n1, hout j hj]
    · unfold decoded
      dsimp only
      rw [if_neg (by omega), if_pos hc, if_neg (by omega), if_pos hc]
      rw [scanMax_congr (g := netOut net1 V net1.size i) fun j hj => by rw [hout j hj, hid]; rfl]

/-- C138: units that can be exchanged stay so.  If a renumbering of the hidden units does not change a model (for example, because two units
have the same weights in and out), then it does not change the model after Fit, in exact arithmetic. -/
theorem C138_symmetry (w : World ℝ) (m : Model ℝ) (net : Net ℝ) (op : Nat → Nat) (S : Nat → OptSpec ℝ) (k : LossKind) (X Y xv yv : Mat) (n : Nat)
    (A B : Nat → Nat → ℝ) (σ : Nat → Equiv.Perm Nat) (h : Trains w m net op S k X Y n A B) (hσ : net.Renumbers σ) (hN : SameNet (net.renum σ) net)
    (hS : ∀ i, i < net.size → OptLike (net.L i).n (net.L i).o ((S i).renum (σ i) (σ (i + 1))) (S i))
    (hd : ∀ i, i < net.size → (net.L i).kind ≠ .dropout) (h0 : σ 0 = Equiv.refl _) (h1 : σ net.size = Equiv.refl _) (epochs : Int) (b : Nat)
    (hbig : n + b ≤ 2 ^ 53) :
    wp (fit m X Y epochs b xv yv 0) w fun e w1 => e = none ∧ ∃ net1 S1, IsTask w1 m net1 op S1 ∧ SameShape net net1 ∧
      SameNet (net1.renum σ) net1 ∧
      ∀ i, i < net.size → OptLike (net.L i).n (net.L i).o ((S1 i).renum (σ i) (σ (i + 1))) (S1 i) := by
  refine wp_mono (C70_fit w m net op S h.task h.noSig _ h.loss rfl X Y xv yv n A B h.xs.mat h.ys.mat h.xs.cap h.ys.cap h.xs.sep h.ys.sep
    epochs b hbig) ?_
  rintro e w1 ⟨he, net1, S1, d1, t1, s1, -⟩
  obtain ⟨hr, -⟩ := descent_renum ⟨h.task.isNet.ins, h.task.isNet.outs⟩ hσ h.task.pos hd (m := m) (m' := m) rfl ⟨hN, hS⟩
    (by rw [h0]; exact Agree.refl n (net.dim 0) A) (by rw [h1]; exact Agree.refl n (net.dim net.size) B) _ (fun p hp => by
    obtain ⟨l, hl, hp⟩ := List.mem_flatten.1 hp
    rw [List.eq_of_mem_replicate hl] at hp
    exact blocks_le n b p hp) d1 d1
  refine ⟨he, net1, S1, t1, s1, hr.layers, fun i hi => ?_⟩
  have := hr.opt i (by show i < net1.size; rw [s1.size]; exact hi)
  obtain ⟨W, b, e⟩ := s1.layer i
  have e1 : ((net1.renum σ).L i).n = (net.L i).n := by show (net1.L i).n = _; rw [e]
  have e2 : ((net1.renum σ).L i).o = (net.L i).o := by show (net1.L i).o = _; rw [e]
  rwa [e1, e2] at this

theorem swap_lt {d : Nat} (hd : 2 ≤ d) (j : Nat) : j < d ↔ (Equiv.swap 0 1 : Equiv.Perm Nat) j < d := by
  rcases eq_or_ne j 0 with rfl | h1
  · simp; omega
  rcases eq_or_ne j 1 with rfl | h2
  · simp; omega
  rw [Equiv.swap_apply_of_ne_of_ne h1 h2]

/-- C138: two models with 3 layers and Adam, where units 0 and 1 are exchanged at every level, meet the hypotheses. -/
example : ∃ (w w' : World ℝ) (m m' : Model ℝ) (net net' : Net ℝ) (op op' : Nat → Nat) (S S' : Nat → OptSpec ℝ) (X Y X' Y' : Mat)
    (A B A' B' : Nat → Nat → ℝ) (σ : Nat → Equiv.Perm Nat), Trains w m net op S .mse X Y 5 A B ∧ Trains w' m' net' op' S' .mse X' Y' 5 A' B' ∧
    net.size = 3 ∧ σ 1 0 = 1 ∧ m'.lossType = m.lossType ∧ m'.accType = m.accType ∧ m.accType = 0 ∧ net.Renumbers σ ∧ SameNet (net.renum σ) net' ∧
    (net'.L 0).W 0 0 ≠ (net.L 0).W 0 1 ∧
    (∀ i, i < net.size → OptLike (net.L i).n (net.L i).o ((S i).renum (σ i) (σ (i + 1))) (S' i)) ∧
    (∀ i, i < net.size → (net.L i).kind ≠ .dropout) ∧ Agree 5 (net.dim 0) (fun i j => A i (σ 0 j)) A' ∧
    Agree 5 (net.dim net.size) (fun i j => B i (σ net.size j)) B' := by
  obtain ⟨o, ho⟩ := adam_ok_real (lr := 1 / 1000) (decay := 0) (by norm_num) le_rfl (1 / 10 ^ 7) (9 / 10) (999 / 1000)
  have hrows : o.weightMomentums.rows = 0 := by rw [newAdam_ok ho]; rfl
  have mk := fun (w0 : World ℝ) (σ : Equiv.Perm Nat) => exists_task w0 3 (by decide)
    (fun i => (plainT i).renum σ σ) (fun i => demoT_pos (α := ℝ) i) (fun i => demoT_chain (α := ℝ) i) { newModel with loss := some ⟨.mse, 5⟩ } o
    (OptSpec.fresh o) hrows
    (fun w p i hlt e => e ▸ isOpt_newAdam _ _ _ _ hlt (e.symm ▸ ho)) (r := 5) (r' := 2) (by decide) (by decide)
    (fun i j => (i : ℝ) + σ j) (fun i j => (i : ℝ) - σ j) (fun i _ => (i : ℝ)) (fun _ j => (j : ℝ))
  obtain ⟨w, net, op, XM, YM, xM, yM, hf, hs, hL, hdim, hT, dX, dY, -, -⟩ := mk emptyWorld (Equiv.refl _)
  obtain ⟨w', net', op', XM', YM', xM', yM', hf', hs', hL', hdim', hT', dX', dY', -, -⟩ := mk emptyWorld (Equiv.swap 0 1)
  have hk : ∀ i, (plainT i).kind ≠ .sigmoid ∧ (plainT i).kind ≠ .dropout := fun i => by
    unfold plainT
    dsimp only
    split
    · exact ⟨(fun h => by cases h), (fun h => by cases h)⟩
    · exact ⟨(fun h => by cases h), (fun h => by cases h)⟩
  have tr : ∀ {w : World ℝ} {net : Net ℝ} {op : Nat → Nat} {XM YM : Mat} {A B : Nat → Nat → ℝ} {σ : Equiv.Perm Nat}, net.size = 3 →
      (net.L = fun i => (plainT i).renum σ σ) →
      (net.dim = fun i => (plainT i).n) → IsTask w (net.task op { newModel with loss := some ⟨.mse, 5⟩ }) net op (fun _ => OptSpec.fresh o) →
      IsData w net XM 5 (plainT 0).n A → IsData w net YM 5 (plainT 3).n B →
      Trains w (net.task op { newModel with loss := some ⟨.mse, 5⟩ }) net op (fun _ => OptSpec.fresh o) .mse XM YM 5 A B := by
    intro w net op XM YM A B σ h1 h2 h3 h4 h5 h6
    have d0 : net.dim 0 = (plainT 0).n := by rw [h3]
    have d1 : net.dim net.size = (plainT 3).n := by rw [h3, h1]
    exact ⟨h4, by rw [d1]; rfl, fun i _ => by rw [h2]; exact (hk i).1, d0 ▸ h5, d1 ▸ h6⟩
  refine ⟨w, w', _, _, net, net', op, op', _, _, XM, YM, XM', YM', _, _, _, _, fun _ => Equiv.swap 0 1,
    tr hs hL hdim hT dX dY, tr hs' hL' hdim' hT' dX' dY', hs, Equiv.swap_apply_left _ _, rfl, rfl, rfl, fun k _ j => ?_,
    ⟨by show net'.size = net.size; rw [hs, hs'], fun i _ => by show net'.dim i = net.dim i; rw [hdim, hdim']; rfl,
      fun i hi => hT.isNet.ins i hi, fun i hi => hT.isNet.outs i hi,
      fun i _ => by rw [hL']; show SameLayer ((net.L i).renum _ _) _; rw [hL]; exact SameLayer.refl _⟩, ?_,
    fun i _ => .inl ⟨rfl, rfl, rfl, fun _ => rfl, fun _ => rfl, fun _ => rfl, fun _ => rfl, rfl, fun _ _ _ _ => rfl, fun _ _ _ _ => rfl,
      fun _ _ _ _ => rfl, fun _ _ _ _ => rfl⟩, fun i _ => by rw [hL]; exact (hk i).2, fun i j _ _ => rfl, fun i j _ _ => rfl⟩
  · rw [hdim]
    exact swap_lt (show 2 ≤ k + 2 by omega) j
  · rw [hL, hL']
    show (Flt.ofInt ((((Equiv.swap 0 1 : Equiv.Perm Nat) 0 : Nat) : Int) - ((Equiv.swap 0 1 : Equiv.Perm Nat) 0 : Nat)) : ℝ) ≠ Flt.ofInt (((0 : Nat) : Int) - (1 : Nat))
    simp

/-- C138_symmetry: a model with 3 layers where all weights are equal, so that hidden units can be exchanged. -/
example : ∃ (w : World ℝ) (m : Model ℝ) (net : Net ℝ) (op : Nat → Nat) (S : Nat → OptSpec ℝ) (X Y : Mat) (A B : Nat → Nat → ℝ)
    (σ : Nat → Equiv.Perm Nat), Trains w m net op S .mse X Y 5 A B ∧ net.size = 3 ∧ σ 1 0 = 1 ∧ net.Renumbers σ ∧ SameNet (net.renum σ) net ∧
    (∀ i, i < net.size → OptLike (net.L i).n (net.L i).o ((S i).renum (σ i) (σ (i + 1))) (S i)) ∧
    (∀ i, i < net.size → (net.L i).kind ≠ .dropout) ∧ σ 0 = Equiv.refl _ ∧ σ net.size = Equiv.refl _ := by
  obtain ⟨o, ho⟩ := adam_ok_real (lr := 1 / 1000) (decay := 0) (by norm_num) le_rfl (1 / 10 ^ 7) (9 / 10) (999 / 1000)
  have hrows : o.weightMomentums.rows = 0 := by rw [newAdam_ok ho]; rfl
  obtain ⟨w, net, op, XM, YM, xM, yM, hf, hs, hL, hdim, hT, dX, dY, -, -⟩ := exists_task emptyWorld 3 (by decide)
    (fun i => { plainT i with W := fun _ _ => (1 : ℝ), b := fun _ => 2 }) (fun i => demoT_pos (α := ℝ) i) (fun i => demoT_chain (α := ℝ) i)
    { newModel with loss := some ⟨.mse, 5⟩ } o (OptSpec.fresh o) hrows
    (fun w p i hlt e => e ▸ isOpt_newAdam _ _ _ _ hlt (e.symm ▸ ho)) (r := 5) (r' := 2) (by decide) (by decide)
    (fun i j => (i : ℝ) + j) (fun i j => (i : ℝ) - j) (fun i _ => (i : ℝ)) (fun _ j => (j : ℝ))
  have hk : ∀ i, (plainT i).kind ≠ .sigmoid ∧ (plainT i).kind ≠ .dropout := fun i => by
    unfold plainT
    dsimp only
    split
    · exact ⟨(fun h => by cases h), (fun h => by cases h)⟩
    · exact ⟨(fun h => by cases h), (fun h => by cases h)⟩
  have d0 : net.dim 0 = (plainT 0).n := by rw [hdim]
  have d1 : net.dim net.size = (plainT 3).n := by rw [hdim, hs]
  refine ⟨w, _, net, op, _, XM, YM, _, _, fun k => if k = 0 ∨ k = 3 then Equiv.refl _ else Equiv.swap 0 1,
    ⟨hT, by rw [d1]; rfl, fun i _ => by rw [hL]; exact (hk i).1, d0 ▸ dX, d1 ▸ dY⟩, hs, Equiv.swap_apply_left _ _, fun k _ j => ?_,
    ⟨rfl, fun i _ => rfl, fun i hi => hT.isNet.ins i hi, fun i hi => hT.isNet.outs i hi,
      fun i _ => by show SameLayer ((net.L i).renum _ _) _; rw [hL]; exact ⟨rfl, rfl, rfl, rfl, rfl, fun _ _ _ _ => rfl, fun _ _ => rfl⟩⟩,
    fun i _ => .inl ⟨rfl, rfl, rfl, fun _ => rfl, fun _ => rfl, fun _ => rfl, fun _ => rfl, rfl, fun _ _ _ _ => rfl, fun _ _ _ _ => rfl,
      fun _ _ _ _ => rfl, fun _ _ _ _ => rfl⟩, fun i _ => by rw [hL]; exact (hk i).2, rfl, by rw [hs]; rfl⟩
  rw [hdim]
  dsimp only
  split
  · rfl
  · exact swap_lt (show 2 ≤ k + 2 by omega) j

/-! ### Float64 -/

/-- One input, three hidden units with the value of the input, and one output: the sum of the hidden units with the weights 2^60, -2^60 and 1,
in the order given by σ. -/
noncomputable def sumUnit [Libm] (σ : Nat → Nat) (i : Nat) : LayerSpec F64 :=
  ⟨.linear, if i = 1 then 3 else 1, if i = 0 then 3 else 1, fun a _ => if i = 1 then (if σ a = 0 then far else if σ a = 1 then far.neg else Flt.ofInt 1) else
    Flt.ofInt 1, fun _ => Flt.ofInt 0, Flt.ofInt 0, Flt.ofInt 0⟩

/-- What the model computes for an input 1. -/
theorem sumUnit_out [Libm] {net : Net F64} {σ : Nat → Nat} (hL : net.L = sumUnit σ) {f : Nat → F64}
    (hf : ∀ a, f a = if σ a = 0 then far else if σ a = 1 then far.neg else Flt.ofInt 1) :
    netOut net (fun _ _ => Flt.ofInt 1) 2 0 0 =
      (((Flt.zero +. Flt.ofInt 1 *. f 0) +. Flt.ofInt 1 *. f 1) +. Flt.ofInt 1 *. f 2) +. Flt.ofInt 0 := by
  have h1 : ∀ j, netOut net (fun _ _ => Flt.ofInt 1) 1 0 j = Flt.ofInt 1 := fun j => by
    show infer (net.L 0) _ 0 j = _
    rw [hL]
    show (Flt.zero +. Flt.ofInt 1 *. Flt.ofInt 1) +. Flt.ofInt 0 = (Flt.ofInt 1 : F64)
    rw [f64_mul 1 1 (by norm_num) (by norm_num) (.inl (by norm_num))]
    show (Flt.ofInt 0 +. Flt.ofInt (1 * 1)) +. Flt.ofInt 0 = (Flt.ofInt 1 : F64)
    rw [f64_add _ _ (by norm_num) (by norm_num), f64_add _ _ (by norm_num) (by norm_num)]
    norm_num
  show infer (net.L 1) (netOut net _ 1) 0 0 = _
  rw [hL, hf 0, hf 1, hf 2]
  show (((Flt.zero +. netOut net _ 1 0 0 *. _) +. netOut net _ 1 0 1 *. _) +. netOut net _ 1 0 2 *. _) +. _ = _
  rw [h1, h1, h1]
  rfl

/-- C138 fails on float64 numbers: rounding depends on the order of the units. -/
theorem C138_float64 [Libm] : ¬ NumberFree F64 := by
  intro claim
  have mk := fun (w0 : World F64) (σ : Nat → Nat) => exists_task w0 2 Nat.two_pos (sumUnit σ)
    (fun i => ⟨by unfold sumUnit; dsimp only; split <;> omega, by unfold sumUnit; dsimp only; split <;> omega⟩)
    (fun i => by unfold sumUnit; dsimp only; rcases i with - | - | i <;> simp) { orderM with loss := some ⟨.mse, 1⟩ } (optFrom light)
    (OptSpec.fresh (optFrom light)) rfl (fun w p i hlt e => isOpt_from _ _ _ _ hlt e) (r := 1) (r' := 1) Nat.one_pos Nat.one_pos
    (fun _ _ => Flt.ofInt 1) (fun _ _ => Flt.ofInt 1) (fun _ _ => Flt.ofInt 1) (fun _ _ => Flt.ofInt 1)
  obtain ⟨w, net, op, XM, YM, xM, yM, -, hs, hL, hdim, hT, dX, dY, -, -⟩ := mk emptyWorld id
  obtain ⟨w', net', op', XM', YM', xM', yM', -, hs', hL', hdim', hT', dX', dY', -, -⟩ := mk emptyWorld (Equiv.swap 1 2)
  have tr : ∀ {w : World F64} {net : Net F64} {op : Nat → Nat} {XM YM : Mat} {σ : Nat → Nat}, net.size = 2 → net.L = sumUnit σ →
      (net.dim = fun i => (sumUnit σ i : LayerSpec F64).n) →
      IsTask w (net.task op { orderM with loss := some ⟨.mse, 1⟩ }) net op (fun _ => OptSpec.fresh (optFrom light)) →
      IsData w net XM 1 (sumUnit σ 0).n (fun _ _ => Flt.ofInt 1) → IsData w net YM 1 (sumUnit σ 2).n (fun _ _ => Flt.ofInt 1) →
      Trains w (net.task op { orderM with loss := some ⟨.mse, 1⟩ }) net op (fun _ => OptSpec.fresh (optFrom light)) .mse XM YM 1
        (fun _ _ => Flt.ofInt 1) (fun _ _ => Flt.ofInt 1) := by
    intro w net op XM YM σ h1 h2 h3 h4 h5 h6
    have d0 : net.dim 0 = (sumUnit σ 0).n := by rw [h3]
    have d1 : net.dim net.size = (sumUnit σ 2).n := by rw [h3, h1]
    exact ⟨h4, by rw [d1]; rfl, fun i _ => by rw [h2]; exact (fun h => by cases h), d0 ▸ h5, d1 ▸ h6⟩
  have t := tr hs hL hdim hT dX dY
  have t' := tr hs' hL' hdim' hT' dX' dY'
  let σ : Nat → Equiv.Perm Nat := fun k => if k = 1 then Equiv.swap 1 2 else Equiv.refl _
  have res := claim w w' _ _ net net' op op' _ _ .mse XM YM XM' YM' XM YM XM' YM' 1 _ _ _ _ σ t t' rfl rfl
    (fun k hk j => by
      show _ ↔ (if k = 1 then Equiv.swap 1 2 else Equiv.refl _ : Equiv.Perm Nat) j < _
      by_cases hk1 : k = 1
      · rw [if_pos hk1, hdim, hk1]
        show j < 3 ↔ _ < 3
        rcases eq_or_ne j 1 with rfl | h1
        · simp
        rcases eq_or_ne j 2 with rfl | h2
        · simp
        rw [Equiv.swap_apply_of_ne_of_ne h1 h2]
      · rw [if_neg hk1]; rfl)
    ⟨by show net'.size = net.size; rw [hs, hs'], fun i _ => by show net'.dim i = net.dim i; rw [hdim, hdim']; rfl,
      fun i hi => t.task.isNet.ins i hi, fun i hi => t.task.isNet.outs i hi,
      fun i _ => by
        rw [hL']
        show SameLayer ((net.L i).renum _ _) _
        rw [hL]
        refine ⟨rfl, rfl, rfl, rfl, rfl, fun a b _ _ => ?_, fun _ _ => rfl⟩
        show (if i = 1 then _ else _) = if i = 1 then _ else _
        by_cases hi : i = 1
        · rw [if_pos hi, if_pos hi, hi]; rfl
        · rw [if_neg hi, if_neg hi]⟩
    (fun i _ => .inl ⟨rfl, rfl, rfl, fun _ => rfl, fun _ => rfl, fun _ => rfl, fun _ => rfl, rfl, fun _ _ _ _ => rfl, fun _ _ _ _ => rfl,
      fun _ _ _ _ => rfl, fun _ _ _ _ => rfl⟩) (fun i _ => by rw [hL]; exact fun h => by cases h)
    (Agree.refl _ _ _) (Agree.refl _ _ _) 0 0 (by norm_num)
  have ra := C70_fit w _ net op _ t.task t.noSig _ t.loss rfl XM YM XM YM 1 _ _ t.xs.mat t.ys.mat t.xs.cap t.ys.cap t.xs.sep t.ys.sep 0 0
    (by norm_num)
  have rb := C70_fit w' _ net' op' _ t'.task t'.noSig _ t'.loss rfl XM' YM' XM' YM' 1 _ _ t'.xs.mat t'.ys.mat t'.xs.cap t'.ys.cap t'.xs.sep
    t'.ys.sep 0 0 (by norm_num)
  obtain ⟨ea, wa, -, hwa, -, neta, Sa, runa, hTa, -, mXa, -⟩ := wp_iff.1 (wp_and res ra)
  obtain ⟨eb, wb, -, ⟨-, -, na, nb, TA, TB, ina, inb, -, -, hpred⟩, -, netb, Sb, runb, hTb, -, mXb, -⟩ := wp_iff.1 (wp_and hwa rb)
  obtain ⟨rfl, -⟩ := Descent.nil runa
  obtain ⟨rfl, -⟩ := Descent.nil runb
  have e0 : netb.dim 0 = neta.dim 0 := by rw [hdim, hdim']; rfl
  have hp := hpred XM XM' 1 _ _ mXa (e0 ▸ mXb) (Agree.refl _ _ _) (.inl rfl)
  obtain ⟨pa, w2, -, hp1, -, -, hP, -⟩ := wp_iff.1 (wp_and hp (predict_spec hTa.isNet hTa.pos mXa))
  obtain ⟨pb, w2', -, ⟨-, -, c, P, P', mP, mP', hag⟩, -, -, hP', -⟩ := wp_iff.1 (wp_and hp1 (predict_spec hTb.isNet hTb.pos mXb))
  have hP := (hP (.inl rfl)).2.mat
  have hP' := (hP' (.inl rfl)).2.mat
  have hc : c = 1 := by
    have h1 := mP.cols
    have h2 := hP.cols
    rw [if_neg (by show ¬ (0 : Int) = 1; decide), hdim, hs] at h2
    have h3 : (c : Int) = ((1 : Nat) : Int) := h1.symm.trans h2
    exact_mod_cast h3
  subst hc
  have a1 := hag 0 0 Nat.one_pos Nat.one_pos
  rw [if_neg (by show ¬ (0 : Int) = 1; decide), hdim, hs] at hP
  rw [if_neg (by show ¬ (0 : Int) = 1; decide), hdim', hs'] at hP'
  have b1 := mP.entries_unique hP Nat.one_pos Nat.one_pos
  have b2 := mP'.entries_unique hP' Nat.one_pos Nat.one_pos
  dsimp only at a1
  rw [show σ neta.size = Equiv.refl _ from by show (if neta.size = 1 then _ else _) = _; rw [hs]; rfl] at a1
  have b1 : P 0 0 = netOut neta (fun _ _ => Flt.ofInt 1) 2 0 0 := b1
  have b2 : P' 0 0 = netOut netb (fun _ _ => Flt.ofInt 1) 2 0 0 := b2
  have a1 : P' 0 0 = P 0 0 := a1
  rw [b1, b2, sumUnit_out hL (fun _ => rfl), sumUnit_out hL' (fun _ => rfl)] at a1
  obtain ⟨z1, z2⟩ := ofInt_f64 0 (by norm_num)
  obtain ⟨o1, o2⟩ := ofInt_f64 1 (by norm_num)
  obtain ⟨f1, f2⟩ := far_val
  have g1 : far.neg.val = -2 ^ 60 := by rw [F64.val_neg, f1]
  have g2 := F64.neg_finite f2
  have q0 : (Equiv.swap 1 2 : Equiv.Perm Nat) 0 = 0 := Equiv.swap_apply_of_ne_of_ne (by norm_num) (by norm_num)
  have q1 : (Equiv.swap 1 2 : Equiv.Perm Nat) 1 = 2 := Equiv.swap_apply_left _ _
  have q2 : (Equiv.swap 1 2 : Equiv.Perm Nat) 2 = 1 := Equiv.swap_apply_right _ _
  rw [q0, q1, q2] at a1
  have a1 : (((Flt.zero +. Flt.ofInt 1 *. far) +. Flt.ofInt 1 *. Flt.ofInt 1) +. Flt.ofInt 1 *. far.neg) +. Flt.ofInt 0 =
      (((Flt.zero +. Flt.ofInt 1 *. far) +. Flt.ofInt 1 *. far.neg) +. Flt.ofInt 1 *. Flt.ofInt 1) +. (Flt.ofInt 0 : F64) := a1
  have one : ∀ {x : F64}, x.Finite → (Flt.ofInt 1 *. x : F64).val = x.val ∧ (Flt.ofInt 1 *. x : F64).Finite := fun hx =>
    F64.mul_exact o2 hx hx (by rw [o1]; norm_num)
  obtain ⟨c1, c2⟩ := one f2
  obtain ⟨c3, c4⟩ := one g2
  obtain ⟨c5, c6⟩ := one o2
  obtain ⟨p1, p2⟩ := F64.add_exact z2 c2 c2 (by rw [z1]; norm_num)
  -- 2^60 - 2^60 + 1 = 1
  obtain ⟨p3, p4⟩ := F64.add_exact p2 c4 z2 (by rw [p1, c1, f1, c3, g1, z1]; norm_num)
  obtain ⟨p5, p6⟩ := F64.add_exact p4 c6 o2 (by rw [p3, z1, c5, o1]; norm_num)
  obtain ⟨p7, -⟩ := F64.add_exact p6 z2 o2 (by rw [p5, z1, o1]; norm_num)
  -- 2^60 + 1 - 2^60 = 0
  obtain ⟨r3, r4⟩ := far_absorbs p2 (p1.trans (c1.trans f1)) c6 (c5.trans (by rw [o1]; norm_num))
  obtain ⟨r5, r6⟩ := F64.add_exact r4 c4 z2 (by rw [r3, c3, g1, z1]; norm_num)
  obtain ⟨r7, -⟩ := F64.add_exact r6 z2 z2 (by rw [r5, z1]; norm_num)
  have := congrArg F64.val a1
  rw [show (((Flt.zero +. Flt.ofInt 1 *. far) +. Flt.ofInt 1 *. Flt.ofInt 1) +. Flt.ofInt 1 *. far.neg +. Flt.ofInt 0 : F64).val = _ from r7,
    show (((Flt.zero +. Flt.ofInt 1 *. far) +. Flt.ofInt 1 *. far.neg) +. Flt.ofInt 1 *. Flt.ofInt 1 +. Flt.ofInt 0 : F64).val = _ from p7, z1, o1] at this
  norm_num at this

end NN
