import Verif.Props.C76
import Verif.Props.C13_C20
import Verif.Props.C97_C99
/-
C100: without mini-batches and dropout the order of the samples does not matter (in exact arithmetic).
-/

set_option linter.unusedSectionVars false

namespace NN
open NN.Go Finset

/-- Back-propagation works row by row, so it commutes with a reordering of the rows; without dropout layers the masks do not matter. -/
theorem netGrad_perm {α : Type} [Flt α] {m : Model α} {net : Net α} {loss : LossKind} {r : Nat} {V M M' G D : Nat → Nat → Nat → α} {Y : Nat → Nat → α}
    (h0 : 0 < net.size) (hd : ∀ k, k < net.size → (net.L k).kind ≠ .dropout) (h : NetGrad m net loss r V M Y G D) (σ : Nat → Nat) :
    NetGrad m net loss r (fun k i => V k (σ i)) M' (fun i => Y (σ i)) (fun k i => G k (σ i)) (fun k i => D k (σ i)) := by
  have act : ∀ k, k < net.size → ∀ P Q : Nat → Nat → α, (fun i => actBack (net.L k) P (M k) Q (σ i)) =
      actBack (net.L k) (fun i => P (σ i)) (M' k) (fun i => Q (σ i)) := by
    intro k hk P Q
    have := hd k hk
    funext i j
    unfold actBack
    cases hkd : (net.L k).kind <;> first | rfl | exact absurd hkd this
  refine ⟨fun hF => ?_, fun hF => ?_⟩
  · obtain ⟨a1, a2, a3⟩ := h.fused hF
    refine ⟨?_, ?_, fun k hk => ?_, fun k hk => ?_⟩
    · rw [a1]; rfl
    · rw [a2]; rfl
    · rw [a3.act k hk]
      exact act k (by omega) _ _
    · rw [a3.inp k hk]; rfl
  · obtain ⟨a1, a2⟩ := h.plain hF
    refine ⟨?_, fun k hk => ?_, fun k hk => ?_⟩
    · rw [a1]; rfl
    · rw [a2.act k hk]
      rw [act k hk]
      congr 1
      split <;> rfl
    · rw [a2.inp k hk]; rfl

theorem trainVals_perm {α : Type} [Flt α] {net net' : Net α} (h : SameNet net net') (hd : ∀ k, k < net.size → (net.L k).kind ≠ .dropout) {r : Nat}
    {σ : Nat → Nat} {X X' : Nat → Nat → α} (hX : Agree r (net.dim 0) (fun i => X (σ i)) X') {u u' : Nat → α} (k : Nat) (hk : k ≤ net.size) :
    Agree r (net.dim k) (fun i => trainVals net r u X k (σ i)) (trainVals net' r u' X' k) := by
  induction k with
  | zero => exact hX
  | succ k ih =>
    have := ih (by omega)
    rw [← h.ins k hk] at this
    rw [← h.outs k hk]
    have := inferRow_same (h.layer k hk) this
    intro i j hi hj
    have e := this i j hi hj
    show trainOut (net'.L k) _ (trainVals net' r u' X' k) i j = trainOut (net.L k) _ (trainVals net r u X k) (σ i) j
    unfold trainOut
    rw [if_neg (by rw [(h.layer k hk).kind]; exact hd k hk), if_neg (hd k hk), e]
    rfl

theorem sum_perm {r : Nat} {σ : Equiv.Perm Nat} (hσ : ∀ i, i < r ↔ σ i < r) (f : Nat → ℝ) : ∑ i ∈ range r, f (σ i) = ∑ i ∈ range r, f i := by
  refine Finset.sum_bij (fun i _ => σ i) (fun i hi => ?_) (fun i _ j _ e => σ.injective e) (fun j hj => ?_) (fun _ _ => rfl)
  · rw [mem_range] at *; exact (hσ i).1 hi
  · refine ⟨σ.symm j, ?_, by simp⟩
    rw [mem_range] at *
    rw [hσ, Equiv.apply_symm_apply]
    exact hj

theorem gradW_perm {r : Nat} {σ : Equiv.Perm Nat} (hσ : ∀ i, i < r ↔ σ i < r) (V G : Nat → Nat → ℝ) :
    gradW r (fun i => V (σ i)) (fun i => G (σ i)) = gradW r V G := by
  funext k j
  unfold gradW
  rw [fsum_real, fsum_real]
  exact sum_perm hσ fun i => V i k *. G i j

theorem gradB_perm {r : Nat} {σ : Equiv.Perm Nat} (hσ : ∀ i, i < r ↔ σ i < r) (G : Nat → Nat → ℝ) :
    gradB r (fun i => G (σ i)) = gradB r G := by
  funext k j
  unfold gradB
  rw [fsum_real, fsum_real]
  exact sum_perm hσ fun i => G i j

theorem trainStep_perm {m m' : Model ℝ} (hm : m'.lossType = m.lossType) {loss : LossKind} {r : Nat} {u u' : Nat → ℝ} {σ : Equiv.Perm Nat}
    (hσ : ∀ i, i < r ↔ σ i < r) {X X' Y Y' : Nat → Nat → ℝ} {net net' net1 net1' : Net ℝ} {S S' S1 S1' : Nat → OptSpec ℝ}
    (h : SameRun net net' S S') (h0 : 0 < net.size) (hd : ∀ k, k < net.size → (net.L k).kind ≠ .dropout)
    (hX : Agree r (net.dim 0) (fun i => X (σ i)) X') (hY : Agree r (net.dim net.size) (fun i => Y (σ i)) Y')
    (h1 : TrainStep m loss r u X Y net S net1 S1) (h2 : TrainStep m' loss r u' X' Y' net' S' net1' S1') :
    SameRun net1 net1' S1 S1' ∧ SameShape net net1 := by
  obtain ⟨G, D, g1, rfl, rfl⟩ := h1
  obtain ⟨G', D', g2, rfl, rfl⟩ := h2
  have hV := fun k hk => trainVals_perm (u := u) (u' := u') h.layers hd hX k hk
  have hG := netGrad_same hm h.layers h0 hV (fun k hk => Agree.refl _ _ _) hY (netGrad_perm h0 hd g1 σ) g2
  have hGo : ∀ k, k < net.size → Agree r (net.L k).o (fun i => G k (σ i)) (G' k) := fun k hk => by rw [h.layers.outs k hk]; exact hG k hk
  have hVo : ∀ k, k < net.size → Agree r (net.L k).n (fun i => trainVals net r u X k (σ i)) (trainVals net' r u' X' k) := fun k hk => by
    rw [h.layers.ins k hk]; exact hV k (by omega)
  have hW : ∀ k, k < net.size → Agree (net.L k).n (net.L k).o (gradW r (trainVals net r u X k) (G k)) (gradW r (trainVals net' r u' X' k) (G' k)) := by
    intro k hk
    have := gradW_same (hVo k hk) (hGo k hk)
    rwa [gradW_perm hσ] at this
  have hB : ∀ k, k < net.size → Agree 1 (net.L k).o (gradB r (G k)) (gradB r (G' k)) := by
    intro k hk
    have := gradB_same (hGo k hk)
    rwa [gradB_perm hσ] at this
  refine ⟨⟨⟨h.layers.size, h.layers.dim, h.layers.ins, h.layers.outs, fun k hk => ?_⟩, fun k hk => ?_⟩, ⟨rfl, rfl, rfl, rfl, rfl, fun i => ⟨_, _, rfl⟩⟩⟩
  · have hl := h.layers.layer k hk
    exact ⟨hl.kind, hl.n, hl.o, hl.slope, hl.dropout,
      fun i j hi hj => (h.opt k hk).newW (fun i j hi hj => hl.W i j hi hj) (hW k hk) i j hi hj,
      fun j hj => (h.opt k hk).newB (fun i j _ hj => hl.b j hj) (hB k hk) 0 j Nat.one_pos hj⟩
  · exact (h.opt k hk).step (hW k hk) (hB k hk)

/-- Runs over full batches of reordered data. -/
theorem descent_perm {m m' : Model ℝ} (hm : m'.lossType = m.lossType) {loss : LossKind} {u u' : Nat → ℝ} {p p' n : Nat} {σ : Equiv.Perm Nat}
    (hσ : ∀ i, i < n ↔ σ i < n) {X X' Y Y' : Nat → Nat → ℝ} {net net' : Net ℝ} {S S' : Nat → OptSpec ℝ} (h : SameRun net net' S S')
    (h0 : 0 < net.size) (hd : ∀ k, k < net.size → (net.L k).kind ≠ .dropout)
    (hX : Agree n (net.dim 0) (fun i => X (σ i)) X') (hY : Agree n (net.dim net.size) (fun i => Y (σ i)) Y') (bs : List (Nat × Nat))
    (hbs : ∀ b ∈ bs, b = (0, n)) {net1 net1' : Net ℝ} {S1 S1' : Nat → OptSpec ℝ} {p1 p1' : Nat}
    (h1 : Descent m loss u X Y net S p bs net1 S1 p1) (h2 : Descent m' loss u' X' Y' net' S' p' bs net1' S1' p1') :
    SameRun net1 net1' S1 S1' ∧ SameShape net net1 := by
  induction bs using List.reverseRecOn generalizing net1 net1' S1 S1' p1 p1' with
  | nil =>
    obtain ⟨rfl, rfl, rfl⟩ := h1.nil
    obtain ⟨rfl, rfl, rfl⟩ := h2.nil
    exact ⟨h, rfl, rfl, rfl, rfl, rfl, fun i => ⟨_, _, rfl⟩⟩
  | append_singleton bs b ih =>
    obtain ⟨netA, SA, pA, a1, a2, rfl⟩ := h1.snoc
    obtain ⟨netB, SB, pB, b1, b2, rfl⟩ := h2.snoc
    obtain ⟨hs, sh⟩ := ih (fun b hb => hbs b (by simp [hb])) a1 b1
    obtain rfl := hbs b (by simp)
    have e1 := sh.size
    have e2 := sh.dim
    simp only [Nat.zero_add] at a2 b2
    obtain ⟨r1, r2⟩ := trainStep_perm hm hσ hs (by omega)
      (fun k hk => by obtain ⟨W, b, e⟩ := sh.layer k; rw [e]; exact hd k (by omega))
      (by rw [e2]; exact hX) (by rw [e2, e1]; exact hY) a2 b2
    exact ⟨r1, sh.trans r2⟩

/-- C100: Fit in one batch on the same samples in another order, for a model without dropout and sigmoid layers: both runs succeed and end
with the same parameters and the same optimizer state, in exact arithmetic. -/
theorem C100_order (w w' : World ℝ) (m m' : Model ℝ) (net net' : Net ℝ) (op op' : Nat → Nat) (S S' : Nat → OptSpec ℝ)
    (k : LossKind) (X Y X' Y' xv yv xv' yv' : Mat) (n : Nat) (A B A' B' : Nat → Nat → ℝ) (h : Trains w m net op S k X Y n A B)
    (h' : Trains w' m' net' op' S' k X' Y' n A' B') (hm : m'.lossType = m.lossType) (hN : SameNet net net')
    (hS : ∀ i, i < net.size → OptLike (net.L i).n (net.L i).o (S i) (S' i)) (hd : ∀ i, i < net.size → (net.L i).kind ≠ .dropout)
    (σ : Equiv.Perm Nat) (hσ : ∀ i, i < n ↔ σ i < n) (hA : Agree n (net.dim 0) (fun i => A (σ i)) A')
    (hB : Agree n (net.dim net.size) (fun i => B (σ i)) B') (epochs : Int) (b : Nat) (hb : b = 0 ∨ n ≤ b) (hbig : n + b ≤ 2 ^ 53) :
    wp (fit m X Y epochs b xv yv 0) w fun e w1 => wp (fit m' X' Y' epochs b xv' yv' 0) w' fun e' w1' =>
      e = none ∧ e' = none ∧ ∃ net1 net1' S1 S1', IsTask w1 m net1 op S1 ∧ IsTask w1' m' net1' op' S1' ∧ SameNet net1 net1' ∧
        ∀ i, i < net.size → OptLike (net.L i).n (net.L i).o (S1 i) (S1' i) := by
  refine wp_mono (C70_fit w m net op S h.task h.noSig _ h.loss rfl X Y xv yv n A B h.xs.mat h.ys.mat h.xs.cap h.ys.cap h.xs.sep h.ys.sep
    epochs b hbig) ?_
  rintro e w1 ⟨he, net1, S1, d1, t1, s1, -⟩
  refine wp_mono (C70_fit w' m' net' op' S' h'.task h'.noSig _ h'.loss rfl X' Y' xv' yv' n A' B' h'.xs.mat h'.ys.mat h'.xs.cap h'.ys.cap
    h'.xs.sep h'.ys.sep epochs b hbig) ?_
  rintro e' w1' ⟨he', net1', S1', d2, t2, -⟩
  have hn := h.xs.mat.rpos
  have hbl : blocks n b = [(0, n)] := by
    unfold blocks
    split
    · rfl
    · next hb0 =>
      have hnb : n ≤ b := hb.resolve_left hb0
      have : (n + b - 1) / b = 1 := Nat.div_eq_of_lt_le (by omega) (by omega)
      rw [this]
      simp [hnb]
  obtain ⟨hr, -⟩ := descent_perm hm hσ ⟨hN, hS⟩ h.task.pos hd hA hB _ (fun p hp => by
    obtain ⟨l, hl, hp⟩ := List.mem_flatten.1 hp
    rw [List.eq_of_mem_replicate hl, hbl] at hp
    simpa using hp) d1 d2
  refine ⟨he, he', net1, net1', S1, S1', t1, t2, hr.layers, fun i hi => ?_⟩
  have := hr.opt i (by rw [s1.size]; exact hi)
  obtain ⟨W, b, e⟩ := s1.layer i
  rw [e] at this
  exact this

/-- C100 for an arithmetic α. -/
def OrderFree (α : Type) [Flt α] : Prop :=
  ∀ (w w' : World α) (m m' : Model α) (net net' : Net α) (op op' : Nat → Nat) (S S' : Nat → OptSpec α)
    (k : LossKind) (X Y X' Y' xv yv xv' yv' : Mat) (n : Nat) (A B A' B' : Nat → Nat → α), Trains w m net op S k X Y n A B →
    Trains w' m' net' op' S' k X' Y' n A' B' → m'.lossType = m.lossType → SameNet net net' →
    (∀ i, i < net.size → OptLike (net.L i).n (net.L i).o (S i) (S' i)) → (∀ i, i < net.size → (net.L i).kind ≠ .dropout) →
    ∀ (σ : Equiv.Perm Nat), (∀ i, i < n ↔ σ i < n) → Agree n (net.dim 0) (fun i => A (σ i)) A' →
    Agree n (net.dim net.size) (fun i => B (σ i)) B' → ∀ (epochs : Int) (b : Nat), (b = 0 ∨ n ≤ b) → n + b ≤ 2 ^ 53 →
    wp (fit m X Y epochs b xv yv 0) w fun e w1 => wp (fit m' X' Y' epochs b xv' yv' 0) w' fun e' w1' =>
      e = none ∧ e' = none ∧ ∃ net1 net1' S1 S1', IsTask w1 m net1 op S1 ∧ IsTask w1' m' net1' op' S1' ∧ SameNet net1 net1' ∧
        ∀ i, i < net.size → OptLike (net.L i).n (net.L i).o (S1 i) (S1' i)

theorem C100_real : OrderFree ℝ := C100_order

/-- C100: shuffling a data set first does not change what Fit computes in one batch. -/
theorem C100_shuffle (draw : Nat → Nat) (w0 : World ℝ) (X Y : Mat) (n c c' : Nat) (A B : Nat → Nat → ℝ) (hX : IsMat w0 X n c A)
    (hY : IsMat w0 Y n c' B) (hne : X.m.addr ≠ Y.m.addr) (hdraw : ∀ i, 1 ≤ i → i < n → draw i ≤ i) :
    wp (shuffleDataset draw X Y) w0 fun p w2 => p = (X, Y) ∧ ∃ A1 B1, IsMat w2 X n c A1 ∧ IsMat w2 Y n c' B1 ∧
      ∀ (w w' : World ℝ) (m m' : Model ℝ) (net net' : Net ℝ) (op op' : Nat → Nat) (S S' : Nat → OptSpec ℝ)
        (k : LossKind) (Xa Ya Xb Yb xv yv xv' yv' : Mat), Trains w m net op S k Xa Ya n A B →
        Trains w' m' net' op' S' k Xb Yb n A1 B1 → m'.lossType = m.lossType → SameNet net net' →
        (∀ i, i < net.size → OptLike (net.L i).n (net.L i).o (S i) (S' i)) → (∀ i, i < net.size → (net.L i).kind ≠ .dropout) →
        ∀ (epochs : Int) (b : Nat), (b = 0 ∨ n ≤ b) → n + b ≤ 2 ^ 53 →
        wp (fit m Xa Ya epochs b xv yv 0) w fun e w1 => wp (fit m' Xb Yb epochs b xv' yv' 0) w' fun e' w1' =>
          e = none ∧ e' = none ∧ ∃ net1 net1' S1 S1', IsTask w1 m net1 op S1 ∧ IsTask w1' m' net1' op' S1' ∧ SameNet net1 net1' ∧
            ∀ i, i < net.size → OptLike (net.L i).n (net.L i).o (S1 i) (S1' i) := by
  refine wp_mono (C18_shuffle draw w0 X Y n c c' A B hX hY hne hdraw) ?_
  rintro p w2 ⟨hp, σ, hσ, mX, mY, -⟩
  refine ⟨hp, _, _, mX, mY, fun w w' m m' net net' op op' S S' k Xa Ya Xb Yb xv yv xv' yv' h h' hm hN hS hd epochs b hb hbig => ?_⟩
  exact C100_order w w' m m' net net' op op' S S' k Xa Ya Xb Yb xv yv xv' yv' n A B _ _ h h' hm hN hS hd σ hσ (Agree.refl _ _ _)
    (Agree.refl _ _ _) epochs b hb hbig

/-- A three-layer model without dropout and sigmoid layers. -/
noncomputable def plainT (i : Nat) : LayerSpec ℝ := { demoT i with kind := if i = 2 then .linear else .hidden }

/-- C100_order: two models with 3 layers and Adam, and 5 samples of which two are exchanged, meet the hypotheses. -/
example : ∃ (w w' : World ℝ) (m m' : Model ℝ) (net net' : Net ℝ) (op op' : Nat → Nat) (S S' : Nat → OptSpec ℝ) (X Y X' Y' : Mat)
    (A B : Nat → Nat → ℝ) (σ : Equiv.Perm Nat), Trains w m net op S .mse X Y 5 A B ∧
    Trains w' m' net' op' S' .mse X' Y' 5 (fun i => A (σ i)) (fun i => B (σ i)) ∧ net.size = 3 ∧ σ 1 ≠ 1 ∧ A (σ 1) 0 ≠ A 1 0 ∧
    m'.lossType = m.lossType ∧ SameNet net net' ∧ (∀ i, i < net.size → OptLike (net.L i).n (net.L i).o (S i) (S' i)) ∧
    (∀ i, i < net.size → (net.L i).kind ≠ .dropout) ∧ ∀ i, i < 5 ↔ σ i < 5 := by
  obtain ⟨o, ho⟩ := adam_ok_real (lr := 1 / 1000) (decay := 0) (by norm_num) le_rfl (1 / 10 ^ 7) (9 / 10) (999 / 1000)
  have hrows : o.weightMomentums.rows = 0 := by rw [newAdam_ok ho]; rfl
  have mk := fun (w0 : World ℝ) (σ : Nat → Nat) => exists_task w0 3 (by decide)
    plainT (fun i => demoT_pos (α := ℝ) i) (fun i => demoT_chain (α := ℝ) i) { newModel with loss := some ⟨.mse, 5⟩ } o (OptSpec.fresh o) hrows
    (fun w p i hlt e => e ▸ isOpt_newAdam _ _ _ _ hlt (e.symm ▸ ho)) (r := 5) (r' := 2) (by decide) (by decide)
    (fun i j => (σ i : ℝ) + j) (fun i j => (σ i : ℝ) - j) (fun i _ => (i : ℝ)) (fun _ j => (j : ℝ))
  obtain ⟨w, net, op, XM, YM, xM, yM, hf, hs, hL, hdim, hT, dX, dY, -, -⟩ := mk emptyWorld id
  obtain ⟨w', net', op', XM', YM', xM', yM', hf', hs', hL', hdim', hT', dX', dY', -, -⟩ := mk emptyWorld (Equiv.swap 1 3)
  have hk : ∀ i, (plainT i).kind ≠ .sigmoid ∧ (plainT i).kind ≠ .dropout := fun i => by
    unfold plainT
    dsimp only
    split
    · exact ⟨(fun h => by cases h), (fun h => by cases h)⟩
    · exact ⟨(fun h => by cases h), (fun h => by cases h)⟩
  have tr : ∀ {w : World ℝ} {net : Net ℝ} {op : Nat → Nat} {XM YM : Mat} {A B : Nat → Nat → ℝ}, net.size = 3 → net.L = plainT →
      (net.dim = fun i => (plainT i).n) → IsTask w (net.task op { newModel with loss := some ⟨.mse, 5⟩ }) net op (fun _ => OptSpec.fresh o) →
      IsData w net XM 5 (plainT 0).n A → IsData w net YM 5 (plainT 3).n B →
      Trains w (net.task op { newModel with loss := some ⟨.mse, 5⟩ }) net op (fun _ => OptSpec.fresh o) .mse XM YM 5 A B := by
    intro w net op XM YM A B h1 h2 h3 h4 h5 h6
    have d0 : net.dim 0 = (plainT 0).n := by rw [h3]
    have d1 : net.dim net.size = (plainT 3).n := by rw [h3, h1]
    exact ⟨h4, by rw [d1]; rfl, fun i _ => by rw [h2]; exact (hk i).1, d0 ▸ h5, d1 ▸ h6⟩
  refine ⟨w, w', _, _, net, net', op, op', _, _, XM, YM, XM', YM', fun i j => (i : ℝ) + j, fun i j => (i : ℝ) - j, Equiv.swap 1 3,
    tr hs hL hdim hT dX dY, tr hs' hL' hdim' hT' dX' dY', hs, by rw [Equiv.swap_apply_left]; norm_num, by
      rw [Equiv.swap_apply_left]; norm_num, rfl,
    ⟨by rw [hs, hs'], fun i _ => by rw [hdim, hdim'], fun i hi => by rw [hL, hdim], fun i hi => by rw [hL, hdim]; exact demoT_chain (α := ℝ) i,
      fun i _ => by rw [hL, hL']; exact SameLayer.refl _⟩,
    fun i _ => .inl ⟨rfl, rfl, rfl, fun _ => rfl, fun _ => rfl, fun _ => rfl, fun _ => rfl, rfl, fun _ _ _ _ => rfl, fun _ _ _ _ => rfl,
      fun _ _ _ _ => rfl, fun _ _ _ _ => rfl⟩, fun i _ => by rw [hL]; exact (hk i).2, fun i => ?_⟩
  rcases eq_or_ne i 1 with rfl | h1
  · simp
  rcases eq_or_ne i 3 with rfl | h2
  · simp
  rw [Equiv.swap_apply_of_ne_of_ne h1 h2]

/-- C100_shuffle: three samples, every draw half of the index. -/
example (A B : Nat → Nat → ℝ) : ∃ w : World ℝ, ∃ X Y, IsMat w X 3 2 A ∧ IsMat w Y 3 1 B ∧ X.m.addr ≠ Y.m.addr ∧
    ∀ i, 1 ≤ i → i < 3 → (fun i => i / 2 : Nat → Nat) i ≤ i := by
  have h1 := place_spec (emptyWorld (α := ℝ)) A (r := 3) (c := 2) (by decide) (by decide)
  have h2 := place_spec (placeW (emptyWorld (α := ℝ)) 3 2 A) B (r := 3) (c := 1) (by decide) (by decide)
  refine ⟨_, _, _, h1.mat.allocs h2.frame, h2.mat, ?_, fun i _ _ => Nat.div_le_self i 2⟩
  have := h1.mat.addr_lt
  have := h2.fresh_outer
  omega

/-! ### Float64 -/

theorem F64.round_exact (s : Bool) {y : ℝ} {z : F64} (hz : z.Finite) (h : y = z.val) : (F64.round s y).val = y ∧ (F64.round s y).Finite := by
  subst h
  have hk := F64.key_round_val (s := s) hz
  refine ⟨le_antisymm ((F64.val_le_iff _ _).2 hk.le) ((F64.val_le_iff _ _).2 hk.ge), ?_⟩
  have h1 := F64.absBits_eq (F64.round s z.val)
  have h2 := F64.absBits_eq z
  rw [hk, ← h2] at h1
  have h3 : z.absBits < F64.infBits := hz
  show (F64.round s z.val).absBits < F64.infBits
  omega

theorem F64.add_exact [Libm] {x y z : F64} (hx : x.Finite) (hy : y.Finite) (hz : z.Finite) (h : x.val + y.val = z.val) :
    (x +. y).val = z.val ∧ (x +. y).Finite := by
  show (F64.add x y).val = _ ∧ (F64.add x y).Finite
  rw [F64.add_fin hx hy, ← h]
  exact F64.round_exact _ hz h

theorem F64.neg_finite {x : F64} (hx : x.Finite) : x.neg.Finite := by
  show x.neg.absBits < F64.infBits
  rw [F64.absBits_neg]; exact hx

theorem F64.sub_exact [Libm] {x y z : F64} (hx : x.Finite) (hy : y.Finite) (hz : z.Finite) (h : x.val - y.val = z.val) :
    (x -. y).val = z.val ∧ (x -. y).Finite :=
  F64.add_exact hx (F64.neg_finite hy) hz (by rw [F64.val_neg]; linarith)

theorem F64.mul_exact [Libm] {x y z : F64} (hx : x.Finite) (hy : y.Finite) (hz : z.Finite) (h : x.val * y.val = z.val) :
    (x *. y).val = z.val ∧ (x *. y).Finite := by
  show (F64.mul x y).val = _ ∧ (F64.mul x y).Finite
  rw [F64.mul_fin hx hy, ← h]
  exact F64.round_exact _ hz h

/-- 2^60 as a float64. -/
noncomputable def far : F64 := F64.round false (((1 : ℕ) : ℝ) * 2 ^ (60 : ℤ))

theorem far_val [Libm] : far.val = 2 ^ 60 ∧ far.Finite := by
  have h := F64.scaled_exact (n := 1) (e := 60) (by norm_num) (by norm_num) (by norm_num)
    (by rw [Nat.cast_one, one_mul]; exact zpow_lt_zpow_right₀ (by norm_num) (by norm_num))
  refine ⟨?_, h.2⟩
  show (F64.round _ _).val = _
  rw [h.1]
  norm_num

/-- 2^60 + 1 is 2^60. -/
theorem far_absorbs [Libm] {f x : F64} (f2 : f.Finite) (f1 : f.val = 2 ^ 60) (hx : x.Finite) (h : x.val = 1) : (f +. x).val = 2 ^ 60 ∧ (f +. x).Finite := by
  have hfin : (F64.round (f.sign && x.sign) (1 + 2 ^ 60)).Finite := F64.round_finite (by
    rw [abs_of_pos (by positivity)]
    unfold F64.big
    have : (2 : ℝ) ^ (61 : ℤ) ≤ 2 ^ (971 : ℤ) := zpow_le_zpow_right₀ (by norm_num) (by norm_num)
    generalize (2 : ℝ) ^ (971 : ℤ) = c at *
    norm_num at this ⊢
    linarith)
  show (F64.add f x).val = _ ∧ (F64.add f x).Finite
  rw [F64.add_fin f2 hx, h, f1, add_comm]
  refine ⟨?_, hfin⟩
  rw [F64.val_round hfin (by positivity), if_neg (by norm_num), abs_of_pos (by positivity)]
  have hu : F64.ulpExp ((1 : ℝ) + 2 ^ 60) = 8 := by
    unfold F64.ulpExp
    have e : ((1 : ℝ) + 2 ^ 60) = ((1 + 2 ^ 60 : ℕ) : ℝ) := by norm_num
    rw [e, Int.log_natCast, (Nat.log_eq_iff (b := 2) (m := 60) (by norm_num)).2 (by norm_num)]
    norm_num
  rw [hu]
  have hr : F64.roundEven (((1 : ℝ) + 2 ^ 60) / 2 ^ (8 : ℤ)) = 2 ^ 52 := by
    have hfl : ⌊((1 : ℝ) + 2 ^ 60) / 2 ^ (8 : ℤ)⌋ = 2 ^ 52 := by
      rw [Int.floor_eq_iff]
      constructor <;> norm_num
    unfold F64.roundEven
    rw [hfl, if_pos (by norm_num)]
  rw [hr]
  norm_num

/-- One step of SGD with learning rate 1 on 3 samples, for a linear layer with one input and two outputs, all zero: the first bias is minus
the sum of the gradients, which are minus the labels. -/
theorem three_step [Libm] {m : Model F64} {u : Nat → F64} {X Y : Nat → Nat → F64} {net net1 : Net F64} {S S1 : Nat → OptSpec F64}
    (h : TrainStep m .mse 3 u X Y net S net1 S1) (hm : m.lossType = 0) (hs : net.size = 1) (hdim : net.dim 1 = 2) (hk : (net.L 0).kind = .linear)
    (hn : (net.L 0).n = 1) (hW : (net.L 0).W 0 0 = Flt.ofInt 0) (hb : (net.L 0).b 0 = Flt.ofInt 0) (hX : ∀ i, X i 0 = Flt.ofInt 1)
    (hY : ∀ i, (Y i 0).Finite) (s1 : (S 0).kind = .sgd) (s2 : (S 0).lr = Flt.ofInt 1) (s3 : (S 0).decay = Flt.ofInt 0)
    (s4 : (S 0).momentum = Flt.ofInt 0) :
    ∃ g : Nat → F64, (∀ i, (g i).val = -(Y i 0).val ∧ (g i).Finite) ∧
      (net1.L 0).b 0 = Flt.ofInt 0 -. (((Flt.zero +. g 0) +. g 1) +. g 2) *. Flt.ofInt 1 := by
  obtain ⟨G, D, hg, rfl, rfl⟩ := h
  have hf : ¬ Fused m net := fun hx => by rw [hx.2] at hm; cases hm
  obtain ⟨h1, h2⟩ := hg.plain hf
  have hG := h2.act 0 (by omega)
  have hP : ∀ i, trainVals net 3 u X 1 i 0 = Flt.ofInt 0 := fun i => by
    show trainOut (net.L 0) _ X i 0 = _
    unfold trainOut infer actRow preact
    rw [hk, if_neg (by decide), hn, hb]
    show (fsum 1 fun k => X i k *. (net.L 0).W k 0) +. _ = _
    show (Flt.zero +. X i 0 *. (net.L 0).W 0 0) +. _ = _
    rw [hX, hW, f64_mul 1 0 (by norm_num) (by norm_num) (.inr ⟨by norm_num, le_rfl⟩)]
    show (Flt.ofInt 0 +. Flt.ofInt (1 * 0)) +. Flt.ofInt 0 = (Flt.ofInt 0 : F64)
    rw [f64_add _ _ (by norm_num) (by norm_num), f64_add _ _ (by norm_num) (by norm_num)]
    norm_num
  have hg0 : ∀ i, (G 0 i 0).val = -(Y i 0).val ∧ (G 0 i 0).Finite := fun i => by
    rw [hG]
    unfold actBack
    rw [hk]
    show (D 1 i 0).val = _ ∧ (D 1 i 0).Finite
    rw [hs] at h1
    rw [h1, hdim]
    show ((trainVals net 3 u X 1 i 0 -. Y i 0) *. (Flt.ofInt 2 /. Flt.ofInt 2)).val = _ ∧
      ((trainVals net 3 u X 1 i 0 -. Y i 0) *. (Flt.ofInt 2 /. Flt.ofInt 2)).Finite
    rw [hP, f64_div 2 2 (by norm_num) (by norm_num) (.inl (by norm_num)) (dvd_refl _)]
    obtain ⟨z1, z2⟩ := ofInt_f64 0 (by norm_num)
    obtain ⟨o1, o2⟩ := ofInt_f64 1 (by norm_num)
    obtain ⟨a1, a2⟩ := F64.sub_exact z2 (hY i) (F64.neg_finite (hY i)) (by rw [z1, F64.val_neg]; norm_num)
    rw [show ((2 : Int) / 2) = 1 from rfl]
    obtain ⟨b1, b2⟩ := F64.mul_exact a2 o2 a2 (by rw [o1]; norm_num)
    exact ⟨by rw [b1, a1, F64.val_neg], b2⟩
  refine ⟨fun i => G 0 i 0, hg0, ?_⟩
  show (S 0).upd ((net.L 0).b 0) ((S 0).vb 0 0) _ (gradB 3 (G 0) 0 0) = _
  have hr : (S 0).rate = Flt.ofInt 1 := by
    unfold OptSpec.rate
    rw [s3, f64_eq_int 0 0 (by norm_num) (by norm_num), s2]
    rfl
  have hm1 : Flt.eq (S 0).momentum Flt.zero = true := by
    rw [s4]
    exact f64_eq_int 0 0 (by norm_num) (by norm_num)
  unfold OptSpec.upd
  rw [s1]
  dsimp only
  rw [hm1, hr, hb]
  rfl

theorem Descent.three {α : Type} [Flt α] {m : Model α} {loss : LossKind} {u : Nat → α} {X Y : Nat → Nat → α} {net net2 : Net α}
    {S S2 : Nat → OptSpec α} {p p2 : Nat} (h : Descent m loss u X Y net S p (List.replicate (1 : Int).toNat (blocks 3 0)).flatten net2 S2 p2) :
    TrainStep m loss 3 (fun q => u (p + q)) (fun i j => X (0 + i) j) (fun i j => Y (0 + i) j) net S net2 S2 := by
  have e : (List.replicate (1 : Int).toNat (blocks 3 0)).flatten = [] ++ [(0, 3)] := rfl
  rw [e] at h
  obtain ⟨net1, S1, p1, h1, h2, -⟩ := h.snoc
  obtain ⟨rfl, rfl, rfl⟩ := h1.nil
  exact h2

/-- The labels -2^60, 2^60 and -1, reordered by σ. -/
noncomputable def farY [Libm] (σ : Nat → Nat) (i : Nat) (_ : Nat) : F64 :=
  if σ i = 0 then far.neg else if σ i = 1 then far else (Flt.ofInt 1 : F64).neg

theorem farY_fin [Libm] (σ : Nat → Nat) (i j : Nat) : (farY σ i j).Finite := by
  unfold farY
  split
  · exact F64.neg_finite far_val.2
  · split
    · exact far_val.2
    · exact F64.neg_finite (ofInt_f64 1 (by norm_num)).2

/-- A linear layer with one input and two outputs, all zero (and layers with two inputs and two outputs after it). -/
noncomputable def orderUnit [Libm] (i : Nat) : LayerSpec F64 :=
  ⟨.linear, if i = 0 then 1 else 2, 2, fun _ _ => Flt.ofInt 0, fun _ => Flt.ofInt 0, Flt.ofInt 0, Flt.ofInt 0⟩

/-- A model with one layer, mean squared error, and `light` as the optimizer. -/
noncomputable def orderM [Libm] : Model F64 := { lightM with loss := some ⟨.mse, 2⟩ }

/-- On float64 numbers the order of the samples matters. -/
theorem C100_float64 [Libm] : ¬ OrderFree F64 := by
  intro claim
  have mk := fun (w0 : World F64) (σ : Nat → Nat) => exists_task w0 1 Nat.one_pos orderUnit
    (fun i => ⟨by unfold orderUnit; dsimp only; split <;> omega, Nat.two_pos⟩) (fun _ => rfl) orderM (optFrom light)
    (OptSpec.fresh (optFrom light)) rfl (fun w p i hlt e => isOpt_from _ _ _ _ hlt e) (r := 3) (r' := 1) (by norm_num) Nat.one_pos
    (fun _ _ => Flt.ofInt 1) (farY σ) (fun _ _ => Flt.ofInt 1) (fun _ _ => Flt.ofInt 1)
  obtain ⟨w, net, op, XM, YM, xM, yM, -, hs, hL, hdim, hT, dX, dY, -, -⟩ := mk emptyWorld id
  obtain ⟨w', net', op', XM', YM', xM', yM', -, hs', hL', hdim', hT', dX', dY', -, -⟩ := mk emptyWorld (Equiv.swap 1 2)
  have tr : ∀ {w : World F64} {net : Net F64} {op : Nat → Nat} {XM YM : Mat} {σ : Nat → Nat}, net.size = 1 → net.L = orderUnit →
      (net.dim = fun i => (orderUnit i : LayerSpec F64).n) → IsTask w (net.task op orderM) net op (fun _ => OptSpec.fresh (optFrom light)) →
      IsData w net XM 3 (orderUnit 0).n (fun _ _ => Flt.ofInt 1) → IsData w net YM 3 (orderUnit 1).n (farY σ) →
      Trains w (net.task op orderM) net op (fun _ => OptSpec.fresh (optFrom light)) .mse XM YM 3 (fun _ _ => Flt.ofInt 1) (farY σ) := by
    intro w net op XM YM σ h1 h2 h3 h4 h5 h6
    have d0 : net.dim 0 = (orderUnit 0).n := by rw [h3]
    have d1 : net.dim net.size = (orderUnit 1).n := by rw [h3, h1]
    exact ⟨h4, by rw [d1]; rfl, fun i _ => by rw [h2]; exact (fun h => by cases h), d0 ▸ h5, d1 ▸ h6⟩
  have t := tr hs hL hdim hT dX dY
  have t' := tr hs' hL' hdim' hT' dX' dY'
  have res := claim w w' _ _ net net' op op' _ _ .mse XM YM XM' YM' XM YM XM' YM' 3 _ _ _ _ t t' rfl
    ⟨by rw [hs, hs'], fun i _ => by rw [hdim, hdim'], fun i hi => by rw [hL, hdim], fun i hi => by rw [hL, hdim]; rfl,
      fun i _ => by rw [hL, hL']; exact SameLayer.refl _⟩
    (fun i _ => .inl ⟨rfl, rfl, rfl, fun _ => rfl, fun _ => rfl, fun _ => rfl, fun _ => rfl, rfl, fun _ _ _ _ => rfl, fun _ _ _ _ => rfl,
      fun _ _ _ _ => rfl, fun _ _ _ _ => rfl⟩) (fun i _ => by rw [hL]; exact fun h => by cases h) (Equiv.swap 1 2)
    (fun i => by
      rcases eq_or_ne i 1 with rfl | h1
      · simp
      rcases eq_or_ne i 2 with rfl | h2
      · simp
      rw [Equiv.swap_apply_of_ne_of_ne h1 h2])
    (Agree.refl _ _ _) (fun i j _ _ => by unfold farY; rfl) 1 0 (.inl rfl) (by norm_num)
  have ra := C70_fit w _ net op _ t.task t.noSig _ t.loss rfl XM YM XM YM 3 _ _ t.xs.mat t.ys.mat t.xs.cap t.ys.cap t.xs.sep t.ys.sep 1 0
    (by norm_num)
  have rb := C70_fit w' _ net' op' _ t'.task t'.noSig _ t'.loss rfl XM' YM' XM' YM' 3 _ _ t'.xs.mat t'.ys.mat t'.xs.cap t'.ys.cap t'.xs.sep
    t'.ys.sep 1 0 (by norm_num)
  obtain ⟨ea, wa, -, hwa, -, neta, Sa, runa, hTa, sha, -⟩ := wp_iff.1 (wp_and res ra)
  obtain ⟨eb, wb, -, ⟨-, -, na, nb, TA, TB, ina, inb, hab, -⟩, -, netb, Sb, runb, hTb, shb, -⟩ := wp_iff.1 (wp_and hwa rb)
  have step : ∀ {net net1 : Net F64} {op : Nat → Nat} {S1 : Nat → OptSpec F64} {p p1 : Nat} {u : Nat → F64} {σ : Nat → Nat}, net.size = 1 →
      net.L = orderUnit → (net.dim = fun i => (orderUnit i : LayerSpec F64).n) →
      Descent (net.task op orderM) .mse u (fun _ _ => Flt.ofInt 1) (farY σ) net (fun _ => OptSpec.fresh (optFrom light)) p
        (List.replicate (1 : Int).toNat (blocks 3 0)).flatten net1 S1 p1 →
      ∃ g : Nat → F64, (∀ i, (g i).val = -(farY σ i 0).val ∧ (g i).Finite) ∧
        (net1.L 0).b 0 = Flt.ofInt 0 -. (((Flt.zero +. g 0) +. g 1) +. g 2) *. Flt.ofInt 1 := by
    intro net net1 op S1 p p1 u σ h1 h2 h3 h4
    have := three_step h4.three rfl h1 (by rw [h3]; rfl) (by rw [h2]; rfl) (by rw [h2]; rfl) (by rw [h2]; rfl) (by rw [h2]; rfl)
      (fun _ => rfl) (fun i => farY_fin _ _ _) rfl rfl rfl rfl
    simpa using this
  obtain ⟨g, hg, eg⟩ := step hs hL hdim runa
  obtain ⟨g', hg', eg'⟩ := step hs' hL' hdim' runb
  have hsz : neta.size = 1 := sha.size.trans hs
  have hszb : netb.size = 1 := shb.size.trans hs'
  have ho : ∀ {net neta : Net F64}, SameShape net neta → net.L = orderUnit → (neta.L 0).o = 2 := fun h e => by
    obtain ⟨W, b, e1⟩ := h.layer 0
    rw [e1, e]; rfl
  have oa := ho sha hL
  have ob := ho shb hL'
  have bias : ∀ {w : World F64} {m : Model F64} {net net' : Net F64}, IsNet w m net → IsNet w m net' → net.size = 1 → (net.L 0).o = 2 →
      (net'.L 0).o = 2 ∧ net'.size = 1 ∧ (net.L 0).b 0 = (net'.L 0).b 0 := by
    intro w m net net' h h' h1 h2
    obtain ⟨-, u2, -, l2, u3⟩ := h.shape_unique h' (i := 0) (by omega)
    have l1 := h.lay 0 (by omega)
    have e : net'.bm 0 = net.bm 0 := by
      have := l1.biases; rw [l2.biases] at this; exact Option.some.inj this
    have m2 := l2.bmat
    rw [e, u2] at m2
    exact ⟨u2.trans h2, u3.trans h1, l1.bmat.entries_unique m2 Nat.one_pos (by omega)⟩
  obtain ⟨a1, a2, a3⟩ := bias hTa.isNet ina.isNet hsz oa
  obtain ⟨b1, b2, b3⟩ := bias hTb.isNet inb.isNet hszb ob
  have hb0 := (hab.layer 0 (by omega)).b 0 (by omega)
  rw [← a3, ← b3, eg, eg'] at hb0
  obtain ⟨z1, z2⟩ := ofInt_f64 0 (by norm_num)
  obtain ⟨o1, o2⟩ := ofInt_f64 1 (by norm_num)
  obtain ⟨f1, f2⟩ := far_val
  have first : ∀ {x : F64}, x.Finite → (Flt.zero +. x : F64).val = x.val ∧ (Flt.zero +. x : F64).Finite := fun hx =>
    F64.add_exact z2 hx hx (by rw [z1]; norm_num)
  have last : ∀ {x : F64}, x.Finite → (Flt.ofInt 0 -. x *. Flt.ofInt 1 : F64).val = -x.val := fun {x} hx => by
    obtain ⟨c1, c2⟩ := F64.mul_exact hx o2 hx (by rw [o1]; norm_num)
    rw [(F64.sub_exact z2 c2 (F64.neg_finite c2) (by rw [z1, F64.val_neg]; norm_num)).1, F64.val_neg, c1]
  have v0 : (g 0).val = 2 ^ 60 := by rw [(hg 0).1]; show -(far.neg).val = _; rw [F64.val_neg, neg_neg, f1]
  have v1 : (g 1).val = -2 ^ 60 := by rw [(hg 1).1]; show -(far).val = _; rw [f1]
  have v2 : (g 2).val = 1 := by rw [(hg 2).1]; show -((Flt.ofInt 1 : F64).neg).val = _; rw [F64.val_neg, neg_neg, o1]; norm_num
  have q : ∀ i, farY (Equiv.swap 1 2) i 0 = farY id (Equiv.swap 1 2 i) 0 := fun i => rfl
  have v0' : (g' 0).val = 2 ^ 60 := by
    rw [(hg' 0).1, q, Equiv.swap_apply_of_ne_of_ne (by norm_num) (by norm_num)]
    show -(far.neg).val = _; rw [F64.val_neg, neg_neg, f1]
  have v1' : (g' 1).val = 1 := by
    rw [(hg' 1).1, q, Equiv.swap_apply_left]
    show -((Flt.ofInt 1 : F64).neg).val = _; rw [F64.val_neg, neg_neg, o1]; norm_num
  have v2' : (g' 2).val = -2 ^ 60 := by
    rw [(hg' 2).1, q, Equiv.swap_apply_right]
    show -(far).val = _; rw [f1]
  -- 2^60 - 2^60 + 1 = 1
  obtain ⟨p1, p2⟩ := first (hg 0).2
  obtain ⟨p3, p4⟩ := F64.add_exact p2 (hg 1).2 z2 (by rw [p1, v0, v1, z1]; norm_num)
  obtain ⟨p5, p6⟩ := F64.add_exact p4 (hg 2).2 o2 (by rw [p3, z1, v2, o1]; norm_num)
  -- 2^60 + 1 - 2^60 = 0
  obtain ⟨r1, r2⟩ := first (hg' 0).2
  obtain ⟨r3, r4⟩ := far_absorbs r2 (r1.trans v0') (hg' 1).2 v1'
  obtain ⟨r5, r6⟩ := F64.add_exact r4 (hg' 2).2 z2 (by rw [r3, v2', z1]; norm_num)
  have := congrArg F64.val hb0
  rw [last p6, last r6, p5, r5, z1, o1] at this
  norm_num at this

end NN
