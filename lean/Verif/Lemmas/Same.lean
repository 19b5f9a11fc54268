import Verif.Spec.Same
import Verif.Lemmas.Matrix
import Mathlib.Data.List.Induction
/-
Two training runs with the same content take the same steps.
-/

set_option linter.unusedSectionVars false

namespace NN
variable {α : Type} [Flt α]

theorem Agree.refl (r c : Nat) (A : Nat → Nat → α) : Agree r c A A := fun _ _ _ _ => rfl

theorem SameLayer.refl (L : LayerSpec α) : SameLayer L L := ⟨rfl, rfl, rfl, rfl, rfl, fun _ _ _ _ => rfl, fun _ _ => rfl⟩

theorem preact_same {L L' : LayerSpec α} (h : SameLayer L L') {r : Nat} {X X' : Nat → Nat → α} (hX : Agree r L.n X X') :
    Agree r L.o (preact L X) (preact L' X') := by
  intro i j hi hj
  unfold preact
  rw [h.n, h.b j hj]
  congr 1
  exact fsum_congr fun q hq => by rw [hX i q hi hq, h.W q j hq hj]

theorem inferRow_same {L L' : LayerSpec α} (h : SameLayer L L') {r : Nat} {X X' : Nat → Nat → α} (hX : Agree r L.n X X') :
    Agree r L.o (infer L X) (infer L' X') := by
  intro i j hi hj
  have hp := preact_same h hX
  unfold infer actRow
  rw [h.kind, h.slope, h.o, hp i j hi hj]
  cases L.kind <;> try rfl
  dsimp only
  congr 1
  exact fsum_congr fun q hq => by rw [hp i q hi hq]

theorem trainOut_same {L L' : LayerSpec α} (h : SameLayer L L') {r : Nat} {X X' : Nat → Nat → α} (hX : Agree r L.n X X') {u u' : Nat → α}
    (hu : ∀ q, u' q = u q) : Agree r L.o (trainOut L u X) (trainOut L' u' X') := by
  intro i j hi hj
  unfold trainOut dropBits
  rw [h.kind, h.dropout, h.o, hu, preact_same h hX i j hi hj, inferRow_same h hX i j hi hj]

theorem dropDraws_same {net net' : Net α} (h : SameNet net net') (r : Nat) (k : Nat) (hk : k ≤ net.size) :
    dropDraws net' r k = dropDraws net r k := by
  induction k with
  | zero => rfl
  | succ k ih => rw [dropDraws, dropDraws, ih (by omega), (h.layer k hk).kind, (h.layer k hk).o]

theorem trainVals_same {net net' : Net α} (h : SameNet net net') {r : Nat} {X X' : Nat → Nat → α} (hX : Agree r (net.dim 0) X X')
    {u u' : Nat → α} (hu : ∀ q, u' q = u q) (k : Nat) (hk : k ≤ net.size) :
    Agree r (net.dim k) (trainVals net r u X k) (trainVals net' r u' X' k) := by
  induction k with
  | zero => exact hX
  | succ k ih =>
    have := ih (by omega)
    rw [← h.ins k hk] at this
    rw [← h.outs k hk]
    refine trainOut_same (h.layer k hk) this fun q => ?_
    rw [dropDraws_same h r k (by omega), hu]

theorem dropBits_same {L L' : LayerSpec α} (h : SameLayer L L') {u u' : Nat → α} (hu : ∀ q, u' q = u q) (r : Nat) :
    Agree r L.o (dropBits L u) (dropBits L' u') := by
  intro i j _ _
  unfold dropBits
  rw [h.dropout, h.o, hu]

theorem actBack_same {L L' : LayerSpec α} (h : SameLayer L L') {r : Nat} {P P' M M' D D' : Nat → Nat → α} (hP : Agree r L.o P P')
    (hM : Agree r L.o M M') (hD : Agree r L.o D D') : Agree r L.o (actBack L P M D) (actBack L' P' M' D') := by
  intro i j hi hj
  unfold actBack
  rw [h.kind, h.slope, h.o, hP i j hi hj, hM i j hi hj, hD i j hi hj]
  cases L.kind <;> try rfl
  dsimp only
  exact fsum_congr fun k hk => by rw [hP i k hi hk, hD i k hi hk]

theorem gradW_same {r n o : Nat} {X X' G G' : Nat → Nat → α} (hX : Agree r n X X') (hG : Agree r o G G') :
    Agree n o (gradW r X G) (gradW r X' G') := by
  intro k j hk hj
  unfold gradW
  exact fsum_congr fun i hi => by rw [hX i k hi hk, hG i j hi hj]

theorem gradB_same {r o : Nat} {G G' : Nat → Nat → α} (hG : Agree r o G G') : Agree 1 o (gradB r G) (gradB r G') := by
  intro k j _ hj
  unfold gradB
  exact fsum_congr fun i hi => by rw [hG i j hi hj]

theorem gradX_same {L L' : LayerSpec α} (h : SameLayer L L') {r : Nat} {G G' : Nat → Nat → α} (hG : Agree r L.o G G') :
    Agree r L.n (gradX L G) (gradX L' G') := by
  intro i k hi hk
  unfold gradX
  rw [h.o]
  exact fsum_congr fun j hj => by rw [hG i j hi hj, h.W k j hk hj]

theorem lossGrad_same (k : LossKind) {r c : Nat} {P P' Y Y' : Nat → Nat → α} (hP : Agree r c P P') (hY : Agree r c Y Y') :
    Agree r c (lossGrad k r c P Y) (lossGrad k r c P' Y') := by
  intro i j hi hj
  unfold lossGrad
  rw [hP i j hi hj, hY i j hi hj]

theorem fusedGrad_same {r c : Nat} {P P' Y Y' : Nat → Nat → α} (hP : Agree r c P P') (hY : Agree r c Y Y') :
    Agree r c (fusedGrad r P Y) (fusedGrad r P' Y') := by
  intro i j hi hj
  unfold fusedGrad
  rw [hP i j hi hj, hY i j hi hj]

theorem afterLoss_same (k : LossKind) {r c : Nat} {P P' : Nat → Nat → α} (hP : Agree r c P P') :
    Agree r c (afterLoss k P) (afterLoss k P') := by
  intro i j hi hj
  unfold afterLoss
  rw [hP i j hi hj]

/-- Back-propagation of the same gradient through the same layers. -/
theorem backprop_same {net net' : Net α} (h : SameNet net net') {r t : Nat} (ht : t ≤ net.size) {V V' M M' G G' D D' : Nat → Nat → Nat → α}
    (hV : ∀ k, k ≤ net.size → Agree r (net.dim k) (V k) (V' k)) (hM : ∀ k, k < net.size → Agree r (net.dim (k + 1)) (M k) (M' k))
    (hD : Agree r (net.dim t) (D t) (D' t)) (hB : Backprop net V M G D t) (hB' : Backprop net' V' M' G' D' t) :
    ∀ k, k < t → Agree r (net.dim (k + 1)) (G k) (G' k) := by
  have key : ∀ s, s ≤ t → Agree r (net.dim (t - s)) (D (t - s)) (D' (t - s)) ∧ ∀ k, t - s ≤ k → k < t → Agree r (net.dim (k + 1)) (G k) (G' k) := by
    intro s
    induction s with
    | zero => exact fun _ => ⟨hD, fun k h1 h2 => by omega⟩
    | succ s ih =>
      intro hs
      obtain ⟨i1, i2⟩ := ih (by omega)
      have e : t - s = t - (s + 1) + 1 := by omega
      have hk : t - (s + 1) < net.size := by omega
      have hG : Agree r (net.dim (t - (s + 1) + 1)) (G (t - (s + 1))) (G' (t - (s + 1))) := by
        rw [hB.act _ (by omega), hB'.act _ (by omega)]
        have h1 := hV (t - (s + 1) + 1) (by omega)
        have h2 := hM _ hk
        have h3 := i1
        rw [e] at h3
        rw [← h.outs _ hk] at h1 h2 h3 ⊢
        exact actBack_same (h.layer _ hk) h1 h2 h3
      refine ⟨?_, fun k h1 h2 => ?_⟩
      · rw [hB.inp _ (by omega), hB'.inp _ (by omega), ← h.ins _ hk]
        exact gradX_same (h.layer _ hk) (by rw [h.outs _ hk]; exact hG)
      · by_cases he : k = t - (s + 1)
        · subst he; exact hG
        · exact i2 k (by omega) h2
  intro k hk
  exact (key t le_rfl).2 k (by omega) hk

theorem netGrad_same {m m' : Model α} (hm : m'.lossType = m.lossType) {net net' : Net α} (h : SameNet net net') (h0 : 0 < net.size) {loss : LossKind} {r : Nat}
    {V V' M M' G G' D D' : Nat → Nat → Nat → α} {Y Y' : Nat → Nat → α}
    (hV : ∀ k, k ≤ net.size → Agree r (net.dim k) (V k) (V' k)) (hM : ∀ k, k < net.size → Agree r (net.dim (k + 1)) (M k) (M' k))
    (hY : Agree r (net.dim net.size) Y Y') (hg : NetGrad m net loss r V M Y G D) (hg' : NetGrad m' net' loss r V' M' Y' G' D') :
    ∀ k, k < net.size → Agree r (net.dim (k + 1)) (G k) (G' k) := by
  have hs : net.size - 1 < net.size := by omega
  have hs1 : net.size - 1 + 1 = net.size := by omega
  have hf : Fused m' net' ↔ Fused m net := by
    unfold Fused
    rw [h.size, (h.layer _ hs).kind, hm]
  by_cases hF : Fused m net
  · obtain ⟨a1, a2, a3⟩ := hg.fused hF
    obtain ⟨b1, b2, b3⟩ := hg'.fused (hf.2 hF)
    rw [h.size] at b1 b2 b3
    have hG : Agree r (net.dim net.size) (G (net.size - 1)) (G' (net.size - 1)) := by
      rw [a1, b1]
      exact fusedGrad_same (hV _ le_rfl) hY
    intro k hk
    by_cases he : k = net.size - 1
    · rw [he, hs1]; exact hG
    · refine backprop_same h (by omega) hV hM ?_ a3 b3 k (by omega)
      rw [a2, b2, ← h.ins _ hs]
      exact gradX_same (h.layer _ hs) (by rw [h.outs _ hs, hs1]; exact hG)
  · obtain ⟨a1, a2⟩ := hg.plain hF
    obtain ⟨b1, b2⟩ := hg'.plain fun hx => hF (hf.1 hx)
    rw [h.size] at b1 b2
    rw [h.dim _ le_rfl] at b1
    refine backprop_same h le_rfl (fun k hk => ?_) hM ?_ a2 b2
    · split
      · exact afterLoss_same _ (hV k hk)
      · exact hV k hk
    · rw [a1, b1]
      exact lossGrad_same _ (hV _ le_rfl) hY

/-! ### Optimizers -/

theorem SameOpt.rate {n o : Nat} {S S' : OptSpec α} (h : SameOpt n o S S') : S'.rate = S.rate := by
  unfold OptSpec.rate
  rw [h.decay, h.lr, h.t]

theorem SameOpt.corr {n o : Nat} {S S' : OptSpec α} (h : SameOpt n o S S') (hk : S.kind = .adam) : S'.corr = S.corr := by
  unfold OptSpec.corr
  rw [h.beta1 hk, h.t]

theorem SameOpt.vel {n o : Nat} {S S' : OptSpec α} (h : SameOpt n o S S') (v g : α) : S'.vel v g = S.vel v g := by
  unfold OptSpec.vel
  rw [h.kind, h.rate]
  cases hk : S.kind with
  | sgd => dsimp only; rw [h.momentum hk]
  | adam => dsimp only; rw [h.beta1 hk]

theorem SameOpt.cache {n o : Nat} {S S' : OptSpec α} (h : SameOpt n o S S') (c g : α) : S'.cache c g = S.cache c g := by
  unfold OptSpec.cache
  rw [h.kind]
  cases hk : S.kind with
  | sgd => rfl
  | adam => dsimp only; rw [h.beta2 hk]

theorem SameOpt.upd {n o : Nat} {S S' : OptSpec α} (h : SameOpt n o S S') (x v c g : α) : S'.upd x v c g = S.upd x v c g := by
  unfold OptSpec.upd
  rw [h.kind, h.rate, h.vel, h.cache]
  cases hk : S.kind with
  | sgd => dsimp only; rw [h.momentum hk]
  | adam => dsimp only; rw [h.corr hk, h.epsilon hk]

theorem OptSpec.Plain.upd {S S' : OptSpec α} (h : S.Plain) (h' : S'.Plain) (hl : S'.lr = S.lr) (x v v' c c' g : α) :
    S'.upd x v' c' g = S.upd x v c g := by
  unfold OptSpec.upd OptSpec.rate
  rw [h.1, h'.1]
  dsimp only
  rw [h.2.1, h'.2.1, h.2.2, h'.2.2, hl]
  simp only [if_true]

theorem OptLike.newW {n o : Nat} {S S' : OptSpec α} (h : OptLike n o S S') {W W' G G' : Nat → Nat → α} (hW : Agree n o W W') (hG : Agree n o G G') :
    Agree n o (S.newW W G) (S'.newW W' G') := by
  intro i j hi hj
  unfold OptSpec.newW
  rw [hW i j hi hj, hG i j hi hj]
  rcases h with h | ⟨h1, h2, h3⟩
  · rw [h.upd, h.vw i j hi hj, h.cw i j hi hj]
  · exact h1.upd h2 h3 ..

theorem OptLike.newB {n o : Nat} {S S' : OptSpec α} (h : OptLike n o S S') {W W' G G' : Nat → Nat → α} (hW : Agree 1 o W W') (hG : Agree 1 o G G') :
    Agree 1 o (S.newB W G) (S'.newB W' G') := by
  intro i j hi hj
  unfold OptSpec.newB
  rw [hW i j hi hj, hG i j hi hj]
  rcases h with h | ⟨h1, h2, h3⟩
  · rw [h.upd, h.vb i j hi hj, h.cb i j hi hj]
  · exact h1.upd h2 h3 ..

theorem OptLike.step {n o : Nat} {S S' : OptSpec α} (h : OptLike n o S S') {GW GW' GB GB' : Nat → Nat → α} (hW : Agree n o GW GW')
    (hB : Agree 1 o GB GB') : OptLike n o (S.step GW GB) (S'.step GW' GB') := by
  rcases h with h | ⟨h1, h2, h3⟩
  · exact .inl ⟨h.kind, h.lr, h.decay, h.momentum, h.epsilon, h.beta1, h.beta2, congrArg (· + 1) h.t,
      fun i j hi hj => by show S'.vel _ _ = S.vel _ _; rw [h.vel, h.vw i j hi hj, hW i j hi hj],
      fun i j hi hj => by show S'.vel _ _ = S.vel _ _; rw [h.vel, h.vb i j hi hj, hB i j hi hj],
      fun i j hi hj => by show S'.cache _ _ = S.cache _ _; rw [h.cache, h.cw i j hi hj, hW i j hi hj],
      fun i j hi hj => by show S'.cache _ _ = S.cache _ _; rw [h.cache, h.cb i j hi hj, hB i j hi hj]⟩
  · exact .inr ⟨h1, h2, h3⟩

/-! ### Training -/

/-- The two runs are in the same situation. -/
structure SameRun (net net' : Net α) (S S' : Nat → OptSpec α) : Prop where
  layers : SameNet net net'
  opt : ∀ k, k < net.size → OptLike (net.L k).n (net.L k).o (S k) (S' k)

theorem trainStep_same {m m' : Model α} (hm : m'.lossType = m.lossType) {loss : LossKind} {r : Nat} {u u' : Nat → α} (hu : ∀ q, u' q = u q)
    {X X' Y Y' : Nat → Nat → α} {net net' net1 net1' : Net α} {S S' S1 S1' : Nat → OptSpec α} (h : SameRun net net' S S') (h0 : 0 < net.size)
    (hX : Agree r (net.dim 0) X X') (hY : Agree r (net.dim net.size) Y Y') (h1 : TrainStep m loss r u X Y net S net1 S1)
    (h2 : TrainStep m' loss r u' X' Y' net' S' net1' S1') : SameRun net1 net1' S1 S1' ∧ SameShape net net1 ∧ SameShape net' net1' := by
  obtain ⟨G, D, g1, rfl, rfl⟩ := h1
  obtain ⟨G', D', g2, rfl, rfl⟩ := h2
  have hV := trainVals_same h.layers hX hu
  have hG := netGrad_same hm h.layers h0 hV (fun k hk => by
    rw [← h.layers.outs k hk]
    refine dropBits_same (h.layers.layer k hk) (fun q => ?_) r
    rw [dropDraws_same h.layers r k (by omega), hu]) hY g1 g2
  have hGo : ∀ k, k < net.size → Agree r (net.L k).o (G k) (G' k) := fun k hk => by rw [h.layers.outs k hk]; exact hG k hk
  have hVo : ∀ k, k < net.size → Agree r (net.L k).n (trainVals net r u X k) (trainVals net' r u' X' k) := fun k hk => by
    rw [h.layers.ins k hk]; exact hV k (by omega)
  refine ⟨⟨⟨h.layers.size, h.layers.dim, h.layers.ins, h.layers.outs, fun k hk => ?_⟩, fun k hk => ?_⟩, ⟨rfl, rfl, rfl, rfl, rfl, fun i => ⟨_, _, rfl⟩⟩,
    ⟨rfl, rfl, rfl, rfl, rfl, fun i => ⟨_, _, rfl⟩⟩⟩
  · have hl := h.layers.layer k hk
    exact ⟨hl.kind, hl.n, hl.o, hl.slope, hl.dropout,
      fun i j hi hj => (h.opt k hk).newW (fun i j hi hj => hl.W i j hi hj) (gradW_same (hVo k hk) (hGo k hk)) i j hi hj,
      fun j hj => (h.opt k hk).newB (fun i j _ hj => hl.b j hj) (gradB_same (hGo k hk)) 0 j Nat.one_pos hj⟩
  · exact (h.opt k hk).step (gradW_same (hVo k hk) (hGo k hk)) (gradB_same (hGo k hk))

theorem Descent.snoc {m : Model α} {loss : LossKind} {u : Nat → α} {X Y : Nat → Nat → α} {net net2 : Net α} {S S2 : Nat → OptSpec α} {p p2 : Nat}
    {bs : List (Nat × Nat)} {b : Nat × Nat} (h : Descent m loss u X Y net S p (bs ++ [b]) net2 S2 p2) :
    ∃ net1 S1 p1, Descent m loss u X Y net S p bs net1 S1 p1 ∧
      TrainStep m loss b.2 (fun q => u (p1 + q)) (fun i j => X (b.1 + i) j) (fun i j => Y (b.1 + i) j) net1 S1 net2 S2 ∧
      p2 = p1 + dropDraws net1 b.2 net1.size := by
  generalize hb : bs ++ [b] = l at h
  cases h with
  | start => simp at hb
  | step h1 h2 =>
    obtain ⟨h3, h4⟩ := List.append_inj' hb rfl
    injection h4 with h4
    subst h3 h4
    exact ⟨_, _, _, h1, h2, rfl⟩

theorem Descent.nil {m : Model α} {loss : LossKind} {u : Nat → α} {X Y : Nat → Nat → α} {net net2 : Net α} {S S2 : Nat → OptSpec α} {p p2 : Nat}
    (h : Descent m loss u X Y net S p [] net2 S2 p2) : net2 = net ∧ S2 = S ∧ p2 = p := by
  generalize hb : ([] : List (Nat × Nat)) = l at h
  cases h with
  | start => exact ⟨rfl, rfl, rfl⟩
  | step h1 h2 => simp at hb

/-- Two runs over batches of the first n rows that start in the same situation, with the same data and the same random numbers, end in
the same situation. -/
theorem descent_same {m m' : Model α} (hm : m'.lossType = m.lossType) {loss : LossKind} {u u' : Nat → α} {p p' n : Nat}
    (hu : ∀ q, u' (p' + q) = u (p + q)) {X X' Y Y' : Nat → Nat → α} {net net' : Net α} {S S' : Nat → OptSpec α} (h : SameRun net net' S S')
    (h0 : 0 < net.size) (hX : Agree n (net.dim 0) X X') (hY : Agree n (net.dim net.size) Y Y') (bs : List (Nat × Nat))
    (hbs : ∀ b ∈ bs, b.1 + b.2 ≤ n) {net1 net1' : Net α} {S1 S1' : Nat → OptSpec α} {p1 p1' : Nat}
    (h1 : Descent m loss u X Y net S p bs net1 S1 p1) (h2 : Descent m' loss u' X' Y' net' S' p' bs net1' S1' p1') :
    SameRun net1 net1' S1 S1' ∧ net1.size = net.size ∧ net1.dim = net.dim ∧ ∃ d, p1 = p + d ∧ p1' = p' + d := by
  induction bs using List.reverseRecOn generalizing net1 net1' S1 S1' p1 p1' with
  | nil =>
    obtain ⟨rfl, rfl, rfl⟩ := h1.nil
    obtain ⟨rfl, rfl, rfl⟩ := h2.nil
    exact ⟨h, rfl, rfl, 0, rfl, rfl⟩
  | append_singleton bs b ih =>
    obtain ⟨netA, SA, pA, a1, a2, rfl⟩ := h1.snoc
    obtain ⟨netB, SB, pB, b1, b2, rfl⟩ := h2.snoc
    obtain ⟨hs, e1, e2, d, rfl, rfl⟩ := ih (fun b hb => hbs b (by simp [hb])) a1 b1
    have hb := hbs b (by simp)
    obtain ⟨r1, r2, -⟩ := trainStep_same hm (u := fun q => u (p + d + q)) (u' := fun q => u' (p' + d + q))
      (fun q => by show u' (p' + d + q) = u (p + d + q); rw [add_assoc, add_assoc, hu]) hs
      (by omega) (r := b.2) (fun i j hi hj => hX _ _ (by omega) (by rw [← e2]; exact hj))
      (fun i j hi hj => hY _ _ (by omega) (by rw [← e2, ← e1]; exact hj)) a2 b2
    refine ⟨r1, r2.size.trans e1, r2.dim.trans e2, d + dropDraws netA b.2 netA.size, by omega, ?_⟩
    rw [hs.layers.size, dropDraws_same hs.layers _ _ le_rfl]
    omega

end NN
