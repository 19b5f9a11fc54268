import Verif.Spec.Axes
import Verif.Props.C138
import Verif.Props.C153
/-
C155: the coordinate system of the inputs does not matter to SGD, and does matter to Adam (in exact arithmetic).
-/

set_option linter.unusedSectionVars false

namespace NN
open NN.Go Finset

section
variable {d d' : Nat} {Q : Nat → Nat → ℝ}

/-- (AQ)(QᵀW) = AW. -/
theorem turned_mul (hQ : Orthonormal d d' Q) (A W : Nat → Nat → ℝ) (i j : Nat) :
    ∑ k ∈ range d', turned d Q A i k * turnedW d Q W k j = ∑ l ∈ range d, A i l * W l j := by
  unfold turned turnedW
  simp only [sum_mul_sum]
  rw [sum_comm]
  refine sum_congr rfl fun l hl => ?_
  rw [sum_comm]
  have : ∀ l' ∈ range d, ∑ k ∈ range d', A i l * Q l k * (Q l' k * W l' j) = if l' = l then A i l * W l j else 0 := fun l' hl' => by
    have := hQ l l' (mem_range.1 hl) (mem_range.1 hl')
    rw [show ∑ k ∈ range d', A i l * Q l k * (Q l' k * W l' j) = A i l * W l' j * ∑ k ∈ range d', Q l k * Q l' k by
      rw [mul_sum]; exact sum_congr rfl fun k _ => by ring, this]
    by_cases h : l = l'
    · rw [if_pos h, if_pos h.symm, h, mul_one]
    · rw [if_neg h, if_neg fun e => h e.symm, mul_zero]
  rw [sum_congr rfl this, sum_ite_eq' (range d) l, if_pos hl]

/-- (AQ)ᵀG = Qᵀ(AᵀG). -/
theorem gradW_turned (r : Nat) (A G : Nat → Nat → ℝ) : gradW r (turned d Q A) G = turnedW d Q (gradW r A G) := by
  funext k j
  unfold gradW turnedW turned
  simp only [fsum_real, real_mul, sum_mul, mul_sum]
  rw [sum_comm]
  exact sum_congr rfl fun l _ => sum_congr rfl fun i _ => by ring

/-- A step of SGD is linear in weights, velocities and gradients. -/
theorem newW_turned {S : OptSpec ℝ} (hk : S.kind = .sgd) (W g : Nat → Nat → ℝ) :
    (S.turn d Q).newW (turnedW d Q W) (turnedW d Q g) = turnedW d Q (S.newW W g) := by
  have hk' : (S.turn d Q).kind = .sgd := hk
  funext k j
  by_cases h : S.momentum = 0
  · rw [((sgd_newW hk' _ _ k j).1 h).1]
    unfold turnedW
    show _ - _ * S.rate = _
    rw [sum_mul, ← sum_sub_distrib]
    exact sum_congr rfl fun l _ => by rw [((sgd_newW hk W g l j).1 h).1]; ring
  · rw [((sgd_newW hk' _ _ k j).2 h).1]
    show turnedW d Q W k j + (turnedW d Q S.vw k j * S.momentum - turnedW d Q g k j * S.rate) = _
    unfold turnedW
    rw [sum_mul, sum_mul, ← sum_sub_distrib, ← sum_add_distrib]
    exact sum_congr rfl fun l _ => by rw [((sgd_newW hk W g l j).2 h).1]; ring

theorem step_turned {S : OptSpec ℝ} (hk : S.kind = .sgd) (g b : Nat → Nat → ℝ) :
    (S.turn d Q).step (turnedW d Q g) b = (S.step g b).turn d Q := by
  have hc : (S.turn d Q).cache = fun c _ => c := by funext c g; unfold OptSpec.cache; rw [show (S.turn d Q).kind = .sgd from hk]
  have hc' : S.cache = fun c _ => c := by funext c g; unfold OptSpec.cache; rw [hk]
  have hv : (fun i j => (S.turn d Q).vel (turnedW d Q S.vw i j) (turnedW d Q g i j)) = turnedW d Q fun i j => S.vel (S.vw i j) (g i j) := by
    funext k j
    unfold OptSpec.vel
    rw [show (S.turn d Q).kind = .sgd from hk, hk]
    dsimp only
    by_cases h : S.momentum = 0
    · rw [if_pos (by simp [OptSpec.turn, Flt.zero, h])]
      have hy : Flt.eq S.momentum (Flt.zero : ℝ) = true := by simp [Flt.zero, h]
      simp only [if_pos hy]
    · have hn : Flt.eq S.momentum (Flt.zero : ℝ) ≠ true := by simpa [Flt.zero] using h
      rw [if_neg (show ¬ Flt.eq (S.turn d Q).momentum (Flt.zero : ℝ) = true from hn)]
      simp only [if_neg hn]
      show turnedW d Q S.vw k j * S.momentum - turnedW d Q g k j * S.rate = _
      unfold turnedW
      rw [sum_mul, sum_mul, ← sum_sub_distrib]
      exact sum_congr rfl fun l _ => by simp only [real_sub, real_mul]; ring
  unfold OptSpec.step
  rw [hc, hc']
  show OptSpec.mk _ _ _ _ _ _ _ _ (fun i j => (S.turn d Q).vel (turnedW d Q S.vw i j) (turnedW d Q g i j)) _ _ _ = _
  rw [hv]
  rfl

variable {net : Net ℝ}

theorem turn_L (k : Nat) : (net.turn Q d').L (k + 1) = net.L (k + 1) := rfl

theorem turn_kind (k : Nat) : ((net.turn Q d').L k).kind = (net.L k).kind := by
  cases k <;> rfl

theorem dropBits_turn (k : Nat) : dropBits ((net.turn Q d').L k) = dropBits (net.L k) := by
  cases k <;> rfl

theorem dropDraws_turn (r k : Nat) : dropDraws (net.turn Q d') r k = dropDraws net r k := by
  induction k with
  | zero => rfl
  | succ k ih =>
    unfold dropDraws
    rw [ih, turn_kind, show ((net.turn Q d').L k).o = (net.L k).o by cases k <;> rfl]

theorem actBack_turn (k : Nat) : actBack ((net.turn Q d').L k) = actBack (net.L k) := by
  cases k <;> rfl

theorem preact_turn (hQ : Orthonormal (net.L 0).n d' Q) (X : Nat → Nat → ℝ) :
    preact ((net.turn Q d').L 0) (turned (net.L 0).n Q X) = preact (net.L 0) X := by
  funext i j
  unfold preact
  rw [fsum_real, fsum_real]
  show ∑ k ∈ range d', turned (net.L 0).n Q X i k * turnedW (net.L 0).n Q (net.L 0).W k j + _ = _
  rw [turned_mul hQ]
  rfl

/-- The values after one or more layers are the same. -/
theorem trainVals_turn (hQ : Orthonormal (net.L 0).n d' Q) (r : Nat) (u : Nat → ℝ) (X : Nat → Nat → ℝ) (k : Nat) :
    trainVals (net.turn Q d') r u (turned (net.L 0).n Q X) (k + 1) = trainVals net r u X (k + 1) := by
  induction k with
  | zero =>
    funext i j
    show trainOut ((net.turn Q d').L 0) _ (turned (net.L 0).n Q X) i j = trainOut (net.L 0) _ X i j
    unfold trainOut infer
    rw [preact_turn hQ, dropBits_turn, turn_kind, dropDraws_turn]
    rfl
  | succ k ih =>
    show trainOut ((net.turn Q d').L (k + 1)) (fun q => u (dropDraws (net.turn Q d') r (k + 1) + q)) (trainVals (net.turn Q d') r u _ (k + 1)) = _
    rw [ih, turn_L, dropDraws_turn]
    rfl

theorem netOut_turn (hQ : Orthonormal (net.L 0).n d' Q) (X : Nat → Nat → ℝ) (k : Nat) :
    netOut (net.turn Q d') (turned (net.L 0).n Q X) (k + 1) = netOut net X (k + 1) := by
  induction k with
  | zero =>
    funext i j
    show infer ((net.turn Q d').L 0) (turned (net.L 0).n Q X) i j = infer (net.L 0) X i j
    unfold infer
    rw [preact_turn hQ]
    rfl
  | succ k ih =>
    show infer ((net.turn Q d').L (k + 1)) (netOut (net.turn Q d') _ (k + 1)) = _
    rw [ih, turn_L]
    rfl

/-- The gradient at the inputs, in the new coordinates. -/
theorem gradX_turn (G : Nat → Nat → ℝ) : gradX ((net.turn Q d').L 0) G = turned (net.L 0).n Q (gradX (net.L 0) G) := by
  funext i k
  unfold gradX turned
  simp only [fsum_real]
  show ∑ j ∈ range (net.L 0).o, G i j * turnedW (net.L 0).n Q (net.L 0).W k j = _
  unfold turnedW
  simp only [mul_sum, sum_mul, real_mul]
  rw [sum_comm]
  exact sum_congr rfl fun l _ => sum_congr rfl fun j _ => by ring

/-- The gradients at the values of each level, in the new coordinates. -/
noncomputable def turnD (d : Nat) (Q : Nat → Nat → ℝ) (D : Nat → Nat → Nat → ℝ) (k : Nat) : Nat → Nat → ℝ := if k = 0 then turned d Q (D 0) else D k

theorem backprop_turn {t : Nat} {V V' M G D : Nat → Nat → Nat → ℝ} (hV : ∀ k, V' (k + 1) = V (k + 1)) (h : Backprop net V M G D t) :
    Backprop (net.turn Q d') V' M G (turnD (net.L 0).n Q D) t := by
  refine ⟨fun k hk => ?_, fun k hk => ?_⟩
  · rw [h.act k hk, actBack_turn, hV]
    rfl
  · cases k with
    | zero =>
      rw [gradX_turn, ← h.inp 0 hk]
      rfl
    | succ k =>
      rw [turn_L, ← h.inp _ hk]
      rfl

theorem netGrad_turn (h0 : 0 < net.size) {m : Model ℝ} {loss : LossKind} {r : Nat} {V V' M G D : Nat → Nat → Nat → ℝ} {Y : Nat → Nat → ℝ}
    (hV : ∀ k, V' (k + 1) = V (k + 1)) (h : NetGrad m net loss r V M Y G D) :
    NetGrad m (net.turn Q d') loss r V' M Y G (turnD (net.L 0).n Q D) := by
  have hsz : (net.turn Q d').size = net.size := rfl
  have hF : Fused m (net.turn Q d') ↔ Fused m net := by unfold Fused; rw [turn_kind]; rfl
  obtain ⟨s, hs⟩ : ∃ s, net.size = s + 1 := ⟨net.size - 1, by omega⟩
  refine ⟨fun hf => ?_, fun hf => ?_⟩
  · obtain ⟨a1, a2, a3⟩ := h.fused (hF.1 hf)
    rw [hsz]
    refine ⟨?_, ?_, backprop_turn hV a3⟩
    · rw [a1, hs, hV]
    · rw [hs, show s + 1 - 1 = s from rfl] at a2 ⊢
      cases s with
      | zero => rw [gradX_turn, ← a2]; rfl
      | succ s => rw [turn_L, ← a2]; rfl
  · obtain ⟨a1, a2⟩ := h.plain fun e => hf (hF.2 e)
    rw [hsz]
    refine ⟨?_, backprop_turn (fun k => ?_) a2⟩
    · have e1 : turnD (net.L 0).n Q D net.size = D net.size := by rw [hs]; rfl
      have e2 : (net.turn Q d').dim net.size = net.dim net.size := by rw [hs]; rfl
      have e3 : V' net.size = V net.size := by rw [hs, hV]
      rw [e1, e2, e3, a1]
    · rw [hV]

/-- A training step commutes with the change of coordinates. -/
theorem trainStep_turn (hQ : Orthonormal (net.L 0).n d' Q) (h0 : 0 < net.size) {m : Model ℝ} {loss : LossKind} {r : Nat} {u : Nat → ℝ}
    {X Y : Nat → Nat → ℝ} {net1 : Net ℝ} {S S1 : Nat → OptSpec ℝ} (hk : (S 0).kind = .sgd) (h : TrainStep m loss r u X Y net S net1 S1) :
    TrainStep m loss r u (turned (net.L 0).n Q X) Y (net.turn Q d') (turnOpts S (net.L 0).n Q) (net1.turn Q d') (turnOpts S1 (net.L 0).n Q) := by
  obtain ⟨G, D, g, rfl, rfl⟩ := h
  have hV := trainVals_turn hQ r u X
  refine ⟨G, turnD (net.L 0).n Q D, ?_, ?_, ?_⟩
  · have := netGrad_turn (Q := Q) (d' := d') h0 hV g
    convert this using 1
    funext k
    rw [dropBits_turn, dropDraws_turn]
  · unfold stepNet Net.turn
    dsimp only
    congr 1
    funext k
    cases k with
    | zero =>
      show LayerSpec.mk _ _ _ _ _ _ _ = LayerSpec.mk _ _ _ _ _ _ _
      congr 1
      show turnedW (net.L 0).n Q ((S 0).newW _ (gradW r X (G 0))) = ((S 0).turn _ Q).newW (turnedW _ Q _) (gradW r (turned _ Q X) (G 0))
      rw [gradW_turned, newW_turned hk]
    | succ k =>
      have := hV k
      unfold Net.turn at this
      show LayerSpec.mk _ _ _ _ _ _ _ = LayerSpec.mk _ _ _ _ _ _ _
      congr 1
      show _ = (S (k + 1)).newW _ (gradW r (trainVals _ r u _ (k + 1)) _)
      rw [this]
      rfl
  · funext k
    cases k with
    | zero =>
      show (OptSpec.step _ _ _).turn _ Q = OptSpec.step ((S 0).turn _ Q) (gradW r (turned _ Q X) (G 0)) _
      rw [gradW_turned, step_turned hk]
      rfl
    | succ k =>
      show (S (k + 1)).step _ _ = (S (k + 1)).step (gradW r (trainVals _ r u _ (k + 1)) _) _
      rw [hV]

theorem turnOpts_kind (S : Nat → OptSpec ℝ) (k : Nat) : (turnOpts S d Q k).kind = (S k).kind := by
  cases k <;> rfl

/-- Two runs that start with the same content up to the coordinates of the inputs end with the same content up to these coordinates. -/
theorem descent_turn (hQ : Orthonormal (net.L 0).n d' Q) (hc : Net.Chain net) (h0 : 0 < net.size) {m m' : Model ℝ} (hm : m'.lossType = m.lossType)
    {loss : LossKind} {u u' : Nat → ℝ} {p p' n : Nat} (hu : ∀ q, u' (p' + q) = u (p + q)) {X X' Y Y' : Nat → Nat → ℝ} {net' : Net ℝ} {S S' : Nat → OptSpec ℝ}
    (hk : (S 0).kind = .sgd) (h : SameRun (net.turn Q d') net' (turnOpts S (net.L 0).n Q) S') (hX : Agree n d' (turned (net.L 0).n Q X) X')
    (hY : Agree n (net.dim net.size) Y Y') (bs : List (Nat × Nat)) (hbs : ∀ b ∈ bs, b.1 + b.2 ≤ n)
    {net1 net1' : Net ℝ} {S1 S1' : Nat → OptSpec ℝ} {p1 p1' : Nat} (h1 : Descent m loss u X Y net S p bs net1 S1 p1)
    (h2 : Descent m' loss u' X' Y' net' S' p' bs net1' S1' p1') :
    SameRun (net1.turn Q d') net1' (turnOpts S1 (net.L 0).n Q) S1' ∧ SameShape net net1 ∧ (S1 0).kind = .sgd ∧ ∃ c, p1 = p + c ∧ p1' = p' + c := by
  induction bs using List.reverseRecOn generalizing net1 net1' S1 S1' p1 p1' with
  | nil =>
    obtain ⟨rfl, rfl, rfl⟩ := h1.nil
    obtain ⟨rfl, rfl, rfl⟩ := h2.nil
    exact ⟨h, ⟨rfl, rfl, rfl, rfl, rfl, fun i => ⟨_, _, rfl⟩⟩, hk, 0, rfl, rfl⟩
  | append_singleton bs b ih =>
    obtain ⟨netA, SA, pA, a1, a2, rfl⟩ := h1.snoc
    obtain ⟨netB, SB, pB, b1, b2, rfl⟩ := h2.snoc
    obtain ⟨hs, sh, hkA, c, rfl, rfl⟩ := ih (fun b hb => hbs b (by simp [hb])) a1 b1
    have hb := hbs b (by simp)
    have e1 := sh.size
    have e2 := sh.dim
    have en : (netA.L 0).n = (net.L 0).n := by
      obtain ⟨W, b, e⟩ := sh.layer 0; rw [e]
    have c1 := trainStep_turn (d' := d') (Q := Q) (by rw [en]; exact hQ) (by omega) hkA a2
    rw [en] at c1
    obtain ⟨r1, r2, -⟩ := trainStep_same hm (u' := fun q => u' (p' + c + q)) (fun q => by rw [Nat.add_assoc, hu, ← Nat.add_assoc]) hs
      (by show 0 < netA.size; omega) (r := b.2) (fun i j hi hj => hX _ _ (by omega) hj)
      (fun i j hi hj => hY _ _ (by omega) (by
        obtain ⟨s, hs⟩ : ∃ s, net.size = s + 1 := ⟨net.size - 1, by omega⟩
        have : (netA.turn Q d').dim (netA.turn Q d').size = net.dim net.size := by
          show (if netA.size = 0 then d' else netA.dim netA.size) = _
          rw [if_neg (by omega), e1, e2]
        rwa [this] at hj)) c1 b2
    have e3 : SameShape netA net1 ∧ (S1 0).kind = (SA 0).kind := by
      obtain ⟨G, D, -, rfl, rfl⟩ := a2
      exact ⟨⟨rfl, rfl, rfl, rfl, rfl, fun i => ⟨_, _, rfl⟩⟩, rfl⟩
    refine ⟨r1, sh.trans e3.1, e3.2.trans hkA, c + dropDraws netA b.2 netA.size, by omega, ?_⟩
    have := dropDraws_same hs.layers b.2 netA.size le_rfl
    rw [hs.layers.size]
    show p' + c + dropDraws netB b.2 netA.size = _
    rw [this, dropDraws_turn]
    omega

end

/-- C155 for an optimizer: Fit on a model, and Fit on the same model with another coordinate system of the inputs (the inputs of the data and the
weights of the first layer are written in the new coordinates), with the same random numbers.  Both runs succeed, they end with the same
parameters and optimizer states up to the coordinates, and then Predict returns the same for the same inputs in the two coordinate systems. -/
def AxesFree (kind : OptKind) : Prop :=
  ∀ (w w' : World ℝ) (m m' : Model ℝ) (net net' : Net ℝ) (op op' : Nat → Nat) (S S' : Nat → OptSpec ℝ)
    (k : LossKind) (X Y X' Y' xv yv xv' yv' : Mat) (n d' : Nat) (A B A' B' Q : Nat → Nat → ℝ),
    Trains w m net op S k X Y n A B → Trains w' m' net' op' S' k X' Y' n A' B' → m'.lossType = m.lossType → m'.accType = m.accType →
    (∀ i, i < net.size → (S i).kind = kind) → (∀ q, w'.unif (w'.unifPos + q) = w.unif (w.unifPos + q)) →
    Orthonormal (net.dim 0) d' Q → SameNet (net.turn Q d') net' →
    (∀ i, i < net.size → OptLike (net'.L i).n (net'.L i).o (turnOpts S (net.dim 0) Q i) (S' i)) →
    Agree n d' (turned (net.dim 0) Q A) A' → Agree n (net.dim net.size) B B' →
    ∀ (epochs : Int) (b : Nat), n + b ≤ 2 ^ 53 →
    wp (fit m X Y epochs b xv yv 0) w fun e w1 => wp (fit m' X' Y' epochs b xv' yv' 0) w' fun e' w1' =>
      e = none ∧ e' = none ∧ ∃ net1 net1' S1 S1', IsTask w1 m net1 op S1 ∧ IsTask w1' m' net1' op' S1' ∧ SameShape net net1 ∧ SameShape net' net1' ∧
        SameNet (net1.turn Q d') net1' ∧
        (∀ i, i < net.size → OptLike (net'.L i).n (net'.L i).o (turnOpts S1 (net.dim 0) Q i) (S1' i)) ∧
        ∀ (x x' : Mat) (r : Nat) (V V' : Nat → Nat → ℝ), IsMat w1 x r (net.dim 0) V → IsMat w1' x' r d' V' →
          Agree r d' (turned (net.dim 0) Q V) V' → m.accType = 0 ∨ m.accType = 1 ∨ m.accType = 2 →
          wp (predict m x) w1 fun p w2 => wp (predict m' x') w1' fun p' w2' => p.2 = none ∧ p'.2 = none ∧
            ∃ c P P', IsMat w2 p.1 r c P ∧ IsMat w2' p'.1 r c P' ∧ Agree r c P P'

/-- C155: in exact arithmetic the coordinate system of the inputs does not matter to SGD. -/
theorem C155_sgd : AxesFree .sgd := by
  intro w w' m m' net net' op op' S S' k X Y X' Y' xv yv xv' yv' n d' A B A' B' Q h h' hm hacc hk hu hQ hN hS hA hB epochs b hbig
  refine wp_mono (C70_fit w m net op S h.task h.noSig _ h.loss rfl X Y xv yv n A B h.xs.mat h.ys.mat h.xs.cap h.ys.cap h.xs.sep h.ys.sep
    epochs b hbig) ?_
  rintro e w1 ⟨he, net1, S1, d1, t1, s1, -⟩
  refine wp_mono (C70_fit w' m' net' op' S' h'.task h'.noSig _ h'.loss rfl X' Y' xv' yv' n A' B' h'.xs.mat h'.ys.mat h'.xs.cap h'.ys.cap
    h'.xs.sep h'.ys.sep epochs b hbig) ?_
  rintro e' w1' ⟨he', net1', S1', d2, t2, s2, -⟩
  have hpos := h.task.pos
  have hd : (net.L 0).n = net.dim 0 := h.task.isNet.ins 0 hpos
  rw [← hd] at hQ hA hS
  obtain ⟨hr, -, -, -⟩ := descent_turn hQ ⟨h.task.isNet.ins, h.task.isNet.outs⟩ hpos hm hu (hk 0 hpos)
    ⟨hN, fun i hi => by
      have e1 := (hN.layer i hi).n
      have e2 := (hN.layer i hi).o
      have := hS i hi
      rwa [e1, e2] at this⟩ hA hB _ (fun p hp => by
    obtain ⟨l, hl, hp⟩ := List.mem_flatten.1 hp
    rw [List.eq_of_mem_replicate hl] at hp
    exact blocks_le n b p hp) d1 d2
  refine ⟨he, he', net1, net1', S1, S1', t1, t2, s1, s2, hr.layers, fun i hi => ?_, ?_⟩
  · have hi1 : i < (net1.turn Q d').size := by show i < net1.size; rw [s1.size]; exact hi
    have := hr.opt i hi1
    obtain ⟨W, b, e⟩ := s2.layer i
    have e1 := (hr.layers.layer i hi1).n
    have e2 := (hr.layers.layer i hi1).o
    rw [← e1, ← e2, e, hd] at this
    exact this
  · intro x x' r V V' hx hx' hV hc
    have h0 := t1.pos
    have ez : net1'.size = net1.size := hr.layers.size
    have hd0 : net1'.dim 0 = d' := hr.layers.dim 0 (Nat.zero_le _)
    obtain ⟨s, hs⟩ : ∃ s, net1.size = s + 1 := ⟨net1.size - 1, by omega⟩
    have hdn : net1'.dim net1'.size = net1.dim net1.size := by
      rw [ez, hr.layers.dim net1.size le_rfl]
      show (if net1.size = 0 then d' else net1.dim net1.size) = _
      rw [if_neg (by omega)]
    refine wp_mono (predict_spec t1.isNet h0 (by rw [s1.dim]; exact hx)) ?_
    rintro p w2 ⟨-, -, hp, -⟩
    refine wp_mono (predict_spec t2.isNet (by omega) (r := r) (X := V') (by rw [hd0]; exact hx')) ?_
    rintro p' w2' ⟨-, -, hp', -⟩
    obtain ⟨q1, q2⟩ := hp (by omega)
    obtain ⟨q1', q2'⟩ := hp' (by omega)
    have q2' := q2'.mat
    rw [hdn, hacc] at q2'
    refine ⟨q1, q1', _, _, _, q2.mat, q2', fun i j hi hj => ?_⟩
    have en : (net1.L 0).n = net.dim 0 := by obtain ⟨W, b, e⟩ := s1.layer 0; rw [e]; exact hd
    have hout : ∀ j, j < net1.dim net1.size → netOut net1' V' net1'.size i j = netOut net1 V net1.size i j := by
      intro j hj
      have a1 := netOut_agree hr.layers (r := r) (X := turned (net.dim 0) Q V) (X' := V') hV net1.size le_rfl i j hi (by
        show j < if net1.size = 0 then d' else net1.dim net1.size
        rw [if_neg (by omega)]; exact hj)
      rw [ez, a1, hs, ← en, netOut_turn (by rw [en, ← hd]; exact hQ)]
    rcases hc with hc | hc | hc
    · rw [if_neg (by omega)] at hj
      unfold decoded
      rw [if_pos hc, if_pos hc]
      exact hout j hj
    · unfold decoded
      rw [if_neg (by omega), if_pos hc, if_neg (by omega), if_pos hc]
      rw [scanMax_congr (g := netOut net1 V net1.size i) fun j hj => hout j hj]
    · rw [if_neg (by omega)] at hj
      unfold decoded
      have n0 : ¬ m.accType = 0 := by omega
      have n1 : ¬ m.accType = 1 := by omega
      simp only [if_neg n0, if_neg n1, hout j hj]

/-! ### Adam -/

/-- The rotation with cosine 3/5. -/
noncomputable def pythQ (k j : Nat) : ℝ := if k = 0 then (if j = 0 then 3 / 5 else 4 / 5) else if j = 0 then -(4 / 5) else 3 / 5

theorem pythQ_orth : Orthonormal 2 2 pythQ := by
  intro k l hk hl
  have hk' : k = 0 ∨ k = 1 := by omega
  have hl' : l = 0 ∨ l = 1 := by omega
  rcases hk' with rfl | rfl <;> rcases hl' with rfl | rfl <;> norm_num [pythQ, sum_range_succ]

/-- A linear layer with two inputs and one output, and zero parameters. -/
noncomputable def nullLin (i : Nat) : LayerSpec ℝ := ⟨.linear, if i = 0 then 2 else 1, 1, fun _ _ => 0, fun _ => 0, 0, 0⟩

/-- One epoch with Adam (learning rate 1, epsilon 1, no memory) on one sample with target 1, from zero parameters. -/
theorem adam_one {o : Optim ℝ} (ho : newAdamOptimizer (1 : ℝ) 0 1 0 0 = (o, none)) {w : World ℝ} {m : Model ℝ} {net net2 : Net ℝ} {S2 : Nat → OptSpec ℝ}
    {A B : Nat → Nat → ℝ} {p' : Nat} (hs : net.size = 1) (hL : net.L = nullLin) (hdim : net.dim = fun i => (nullLin i).n) (hlt : m.lossType = 0)
    (hB : B 0 0 = 1)
    (hD : Descent m .mse w.unif A B net (fun _ => OptSpec.fresh o) w.unifPos (List.replicate (1 : Int).toNat (blocks 1 0)).flatten net2 S2 p') (i : Nat) :
    (net2.L 0).W i 0 = 2 * A 0 i / (|2 * A 0 i| + 1) := by
  rw [show (List.replicate (1 : Int).toNat (blocks 1 0)).flatten = [] ++ [(0, 1)] from rfl] at hD
  obtain ⟨net1, S1, p1, a1, ⟨G, D, g, rfl, rfl⟩, hp⟩ := hD.snoc
  obtain ⟨rfl, rfl, rfl⟩ := a1.nil
  have hnf : ¬ Fused m net1 := fun h => by have := h.2; omega
  obtain ⟨g1, g2⟩ := g.plain hnf
  have hG : G 0 0 0 = -2 := by
    rw [g2.act 0 (by omega)]
    unfold actBack
    rw [hL]
    show D 1 0 0 = _
    rw [hs] at g1
    rw [g1]
    unfold lossGrad
    have hP : trainVals net1 1 (fun q => w.unif (w.unifPos + q)) (fun i j => A (0 + i) j) 1 0 0 = 0 := by
      show trainOut (net1.L 0) _ _ 0 0 = _
      rw [hL]
      unfold trainOut infer actRow preact nullLin
      rw [if_neg (fun h => LayerKind.noConfusion h)]
      norm_num [fsum_real]
    show (trainVals net1 1 (fun q => w.unif (w.unifPos + q)) (fun i j => A (0 + i) j) 1 0 0 -. B (0 + 0) 0) *. _ = _
    rw [hP, hdim, Nat.zero_add, hB]
    norm_num [nullLin, Flt.ofInt]
  show (OptSpec.fresh o).upd ((net1.L 0).W i 0) _ _ (gradW 1 (fun i j => A (0 + i) j) (G 0) i 0) = _
  have hg : gradW 1 (fun i j => A (0 + i) j) (G 0) i 0 = -(2 * A 0 i) := by
    unfold gradW
    rw [fsum_real, sum_range_one, hG, real_mul]
    ring_nf
  rw [hg, hL, newAdam_ok ho]
  simp only [OptSpec.upd, OptSpec.fresh, OptSpec.vel, OptSpec.cache, OptSpec.corr, OptSpec.rate, Optim.zero, nullLin]
  norm_num [Flt.zero, Flt.one, Flt.eq, Flt.pow, Flt.sqrt, Flt.ofInt, Flt.neg, Real.sqrt_sq_eq_abs]

/-- C155: the coordinate system matters to Adam. -/
theorem C155_adam : ¬ AxesFree .adam := by
  intro hcl
  obtain ⟨o, ho⟩ := adam_ok_real (lr := 1) (decay := 0) (by norm_num) le_rfl 1 0 0
  have hrows : o.weightMomentums.rows = 0 := by rw [newAdam_ok ho]; rfl
  have mk := fun (X : Nat → Nat → ℝ) => exists_task (emptyWorld : World ℝ) 1 Nat.one_pos
    nullLin (fun i => by
      refine ⟨?_, Nat.one_pos⟩
      show 0 < if i = 0 then 2 else 1
      split <;> decide) (fun i => (if_neg (Nat.succ_ne_zero i) : (if i + 1 = 0 then 2 else 1) = 1).symm)
    { newModel with loss := some ⟨.mse, 1⟩, lossType := 0 } o
    (OptSpec.fresh o) hrows (fun w p i hlt e => e ▸ isOpt_newAdam _ _ _ _ hlt (e.symm ▸ ho)) (r := 1) (r' := 1) Nat.one_pos Nat.one_pos
    X (fun _ _ => 1) (fun _ _ => 0) (fun _ _ => 0)
  obtain ⟨w, net, op, XM, YM, xM, yM, hf, hs, hL, hdim, hT, dX, dY, -, -⟩ := mk fun _ j => if j = 0 then 1 else 0
  obtain ⟨w', net', op', XM', YM', xM', yM', hf', hs', hL', hdim', hT', dX', dY', -, -⟩ := mk (pythQ)
  have tr : ∀ {w : World ℝ} {net : Net ℝ} {op : Nat → Nat} {XM YM : Mat} {A B : Nat → Nat → ℝ}, net.size = 1 → net.L = nullLin →
      (net.dim = fun i => (nullLin i).n) → IsTask w (net.task op { newModel with loss := some ⟨.mse, 1⟩, lossType := 0 }) net op (fun _ => OptSpec.fresh o) →
      IsData w net XM 1 (nullLin 0).n A → IsData w net YM 1 (nullLin 1).n B →
      Trains w (net.task op { newModel with loss := some ⟨.mse, 1⟩, lossType := 0 }) net op (fun _ => OptSpec.fresh o) .mse XM YM 1 A B := by
    intro w net op XM YM A B h1 h2 h3 h4 h5 h6
    have d0 : net.dim 0 = (nullLin 0).n := by rw [h3]
    have d1 : net.dim net.size = (nullLin 1).n := by rw [h3, h1]
    exact ⟨h4, by rw [d1]; rfl, fun i _ => by rw [h2]; exact LayerKind.noConfusion, d0 ▸ h5, d1 ▸ h6⟩
  have t := tr hs hL hdim hT dX dY
  have t' := tr hs' hL' hdim' hT' dX' dY'
  have d0 : net.dim 0 = 2 := by rw [hdim]; rfl
  have h1 := hcl w w' _ _ net net' op op' _ _ .mse XM YM XM' YM' XM YM XM' YM' 1 2 _ _ _ _ pythQ t t' rfl rfl
    (fun i _ => by rw [newAdam_ok ho]; rfl) (fun q => by rw [hf.unif, hf'.unif, hf.unifPos fun h => h, hf'.unifPos fun h => h]) (d0 ▸ pythQ_orth)
    ⟨hs'.trans hs.symm, fun k _ => ?_, fun k hk => ?_, fun k hk => ?_, fun k hk => ?_⟩
    (fun i hi => ?_) (fun i j hi hj => ?_) (fun i j _ _ => rfl) 1 0 (by norm_num)
  · have h2 := C70_fit w _ net op _ hT t.noSig _ t.loss rfl XM YM XM YM 1 _ _ t.xs.mat t.ys.mat t.xs.cap t.ys.cap t.xs.sep t.ys.sep 1 0 (by norm_num)
    have h2' := C70_fit w' _ net' op' _ hT' t'.noSig _ t'.loss rfl XM' YM' XM' YM' 1 _ _ t'.xs.mat t'.ys.mat t'.xs.cap t'.ys.cap t'.xs.sep t'.ys.sep 1 0
      (by norm_num)
    obtain ⟨e, w1, -, h3, -, net2, S2, hD, hT2, hsh2, -⟩ := wp_iff.1 (wp_and h1 h2)
    obtain ⟨e', w1', -, ⟨-, -, net1, net1', S1, S1', u1, u1', s1, s1', hN, -⟩, -, net2', S2', hD', hT2', hsh2', -⟩ := wp_iff.1 (wp_and h3 h2')
    have uniq : ∀ {w : World ℝ} {m : Model ℝ} {net neta netb : Net ℝ} {op : Nat → Nat} {S S' : Nat → OptSpec ℝ}, net.size = 1 → net.L = nullLin →
        IsTask w m neta op S → IsTask w m netb op S' → SameShape net neta → SameShape net netb → ∀ i, i < 2 → (neta.L 0).W i 0 = (netb.L 0).W i 0 := by
      intro w m net neta netb op S S' q1 q2 q3 q4 q5 q6 i hi
      have b1 := (q3.isNet.lay 0 (by rw [q5.size, q1]; exact Nat.one_pos)).wmat
      have b2 := (q4.isNet.lay 0 (by rw [q6.size, q1]; exact Nat.one_pos)).wmat
      obtain ⟨_, _, e1⟩ := q5.layer 0
      obtain ⟨_, _, e2⟩ := q6.layer 0
      rw [q5.wm, show (neta.L 0).n = 2 by rw [e1, q2]; rfl, show (neta.L 0).o = 1 by rw [e1, q2]; rfl] at b1
      rw [q6.wm, show (netb.L 0).n = 2 by rw [e2, q2]; rfl, show (netb.L 0).o = 1 by rw [e2, q2]; rfl] at b2
      exact b1.entries_unique b2 hi Nat.one_pos
    have z1 : net1.size = 1 := by rw [s1.size, hs]
    have n1 : (net1.L 0).n = 2 := by obtain ⟨_, _, e1⟩ := s1.layer 0; rw [e1, hL]; rfl
    have o1 : (net1.L 0).o = 1 := by obtain ⟨_, _, e1⟩ := s1.layer 0; rw [e1, hL]; rfl
    have key := (hN.layer 0 (by show 0 < net1.size; omega)).W 0 0 (by show 0 < 2; decide) (by show 0 < (net1.L 0).o; omega)
    rw [uniq hs' hL' u1' hT2' s1' hsh2' 0 (by decide)] at key
    have key2 : (net2'.L 0).W 0 0 = ∑ l ∈ range (net1.L 0).n, pythQ l 0 * (net1.L 0).W l 0 := key
    rw [n1, sum_range_succ, sum_range_one, uniq hs hL u1 hT2 s1 hsh2 0 (by decide), uniq hs hL u1 hT2 s1 hsh2 1 (by decide),
      adam_one ho hs hL hdim rfl rfl hD, adam_one ho hs hL hdim rfl rfl hD, adam_one ho hs' hL' hdim' rfl rfl hD'] at key2
    norm_num [pythQ, abs_of_nonneg] at key2
  · rw [hdim']
    show (if k = 0 then 2 else 1) = if k = 0 then 2 else net.dim k
    rw [hdim]
    by_cases hk : k = 0
    · rw [if_pos hk, if_pos hk]
    · rw [if_neg hk, if_neg hk]; exact (if_neg hk).symm
  · have : k = 0 := by have : k < net.size := hk; omega
    subst this; rfl
  · have : k = 0 := by have : k < net.size := hk; omega
    subst this
    show (net.L 0).o = net.dim 1
    rw [hL, hdim]; rfl
  · have : k = 0 := by have : k < net.size := hk; omega
    subst this
    rw [hL']
    refine ⟨?_, rfl, ?_, ?_, ?_, fun i j _ _ => ?_, fun j _ => ?_⟩
    · show _ = (net.L 0).kind; rw [hL]
    · show _ = (net.L 0).o; rw [hL]
    · show _ = (net.L 0).slope; rw [hL]
    · show _ = (net.L 0).dropout; rw [hL]
    · show _ = turnedW (net.L 0).n pythQ (net.L 0).W i j; rw [hL]; simp [turnedW, nullLin]
    · show _ = (net.L 0).b j; rw [hL]
  · have : i = 0 := by omega
    subst this
    refine .inl ⟨rfl, rfl, rfl, fun _ => rfl, fun _ => rfl, fun _ => rfl, fun _ => rfl, rfl, fun i j _ _ => ?_, fun i j _ _ => rfl, fun i j _ _ => ?_,
      fun i j _ _ => rfl⟩
    · show OptSpec.vw _ i j = turnedW _ pythQ _ i j; simp [turnedW, OptSpec.fresh, Flt.zero]
    · show OptSpec.cw _ i j = turnedW _ pythQ _ i j; simp [turnedW, OptSpec.fresh, Flt.zero]
  · have : i = 0 := by omega
    subst this
    rw [d0]
    simp [turned]

/-- The first layer of `demoT` for inputs in the coordinates of `pythQ`, and the other layers. -/
noncomputable def demoQ (i : Nat) : LayerSpec ℝ := if i = 0 then { demoT 0 with W := turnedW 2 pythQ (demoT (α := ℝ) 0).W } else demoT i

/-- C155_sgd: two models with three layers, one of which is a dropout layer, and SGD with momentum and decay; the inputs of the second are those of
the first, rotated. -/
example : ∃ (w w' : World ℝ) (m m' : Model ℝ) (net net' : Net ℝ) (op op' : Nat → Nat) (S S' : Nat → OptSpec ℝ) (X Y X' Y' : Mat)
    (A B A' B' Q : Nat → Nat → ℝ), Trains w m net op S .mse X Y 5 A B ∧ Trains w' m' net' op' S' .mse X' Y' 5 A' B' ∧
    net.size = 3 ∧ m'.lossType = m.lossType ∧ m'.accType = m.accType ∧ m.accType = 0 ∧
    (∀ i, i < net.size → (S i).kind = .sgd ∧ (S i).momentum ≠ 0 ∧ (S i).decay ≠ 0) ∧ (net.L 1).kind = .dropout ∧
    (∀ q, w'.unif (w'.unifPos + q) = w.unif (w.unifPos + q)) ∧
    Orthonormal (net.dim 0) 2 Q ∧ SameNet (net.turn Q 2) net' ∧ (net'.L 0).W 0 0 ≠ (net.L 0).W 0 0 ∧
    (∀ i, i < net.size → OptLike (net'.L i).n (net'.L i).o (turnOpts S (net.dim 0) Q i) (S' i)) ∧
    Agree 5 2 (turned (net.dim 0) Q A) A' ∧ Agree 5 (net.dim net.size) B B' := by
  obtain ⟨o, ho⟩ := sgd_ok_real (lr := 1 / 10) (decay := 1 / 100) (mom := 9 / 10) (by norm_num) (by norm_num) (by norm_num)
  have hrows : o.weightMomentums.rows = 0 := by rw [newSGD_ok ho]; rfl
  have dq : ∀ i, (demoQ i).n = (demoT (α := ℝ) i).n ∧ (demoQ i).o = (demoT (α := ℝ) i).o ∧ (demoQ i).kind = (demoT (α := ℝ) i).kind := fun i => by
    cases i <;> exact ⟨rfl, rfl, rfl⟩
  obtain ⟨w, net, op, XM, YM, xM, yM, hf, hs, hL, hdim, hT, dX, dY, -, -⟩ := exists_task emptyWorld 3 (by decide)
    demoT (fun i => demoT_pos (α := ℝ) i) (fun i => demoT_chain (α := ℝ) i) { newModel with loss := some ⟨.mse, 5⟩ } o
    (OptSpec.fresh o) hrows
    (fun w p i hlt e => e ▸ isOpt_newSGD _ _ _ _ hlt (e.symm ▸ ho)) (r := 5) (r' := 2) (by decide) (by decide)
    (fun i j => (i : ℝ) + j) (fun i j => (i : ℝ) - j) (fun i _ => (i : ℝ)) (fun _ j => (j : ℝ))
  obtain ⟨w', net', op', XM', YM', xM', yM', hf', hs', hL', hdim', hT', dX', dY', -, -⟩ := exists_task emptyWorld 3 (by decide)
    demoQ (fun i => by rw [(dq i).1, (dq i).2.1]; exact demoT_pos (α := ℝ) i) (fun i => by rw [(dq (i + 1)).1, (dq i).2.1]; exact demoT_chain (α := ℝ) i)
    { newModel with loss := some ⟨.mse, 5⟩ } o (OptSpec.fresh o) hrows
    (fun w p i hlt e => e ▸ isOpt_newSGD _ _ _ _ hlt (e.symm ▸ ho)) (r := 5) (r' := 2) (by decide) (by decide)
    (turned 2 pythQ fun i j => (i : ℝ) + j) (fun i j => (i : ℝ) - j) (fun i _ => (i : ℝ)) (fun _ j => (j : ℝ))
  have hk : ∀ i, (demoT (α := ℝ) i).kind ≠ .sigmoid := fun i => by
    unfold demoT
    dsimp only
    split <;> exact LayerKind.noConfusion
  have d0 : net.dim 0 = 2 := by rw [hdim]; rfl
  have d1 : net.dim net.size = 5 := by rw [hdim, hs]; rfl
  have d0' : net'.dim 0 = 2 := by rw [hdim']; rfl
  have d1' : net'.dim net'.size = 5 := by rw [hdim', hs']; rfl
  have hsgd : (OptSpec.fresh o).kind = .sgd := by rw [newSGD_ok ho]; rfl
  refine ⟨w, w', _, _, net, net', op, op', _, _, XM, YM, XM', YM', fun i j => (i : ℝ) + j, fun i j => (i : ℝ) - j, turned 2 pythQ fun i j => (i : ℝ) + j,
    fun i j => (i : ℝ) - j, pythQ, ⟨hT, by rw [d1]; rfl, fun i _ => by rw [hL]; exact hk i, by rw [d0]; exact dX, by rw [d1]; exact dY⟩,
    ⟨hT', by rw [d1']; rfl, fun i _ => by rw [hL', (dq i).2.2]; exact hk i, by rw [d0']; exact dX', by rw [d1']; exact dY'⟩, hs, rfl, rfl, rfl,
    fun i _ => ⟨hsgd, ?_, ?_⟩, by rw [hL]; rfl, fun q => by rw [hf.unif, hf'.unif, hf.unifPos fun h => h, hf'.unifPos fun h => h],
    d0 ▸ pythQ_orth, ⟨hs'.trans hs.symm, fun k _ => ?_, fun k hk => ?_, fun k hk => ?_, fun k hk => ?_⟩, ?_, fun i hi => .inl ?_, ?_, fun i j _ _ => rfl⟩
  · rw [newSGD_ok ho]; norm_num [OptSpec.fresh]
  · rw [newSGD_ok ho]; norm_num [OptSpec.fresh]
  · show _ = if k = 0 then 2 else net.dim k
    rw [hdim', hdim]
    cases k <;> rfl
  · cases k with
    | zero => rfl
    | succ k => exact hT.isNet.ins (k + 1) hk
  · cases k with
    | zero => exact hT.isNet.outs 0 hk
    | succ k => exact hT.isNet.outs (k + 1) hk
  · cases k with
    | zero =>
      have e : (net.turn pythQ 2).L 0 = demoQ 0 := by
        show ({ net.L 0 with n := 2, W := turnedW (net.L 0).n pythQ (net.L 0).W } : LayerSpec ℝ) = _
        rw [hL]; rfl
      rw [hL', e]; exact SameLayer.refl _
    | succ k => rw [turn_L, hL, hL']; exact SameLayer.refl _
  · rw [hL, hL']
    show turnedW 2 pythQ (demoT (α := ℝ) 0).W 0 0 ≠ Flt.ofInt (((0 : Nat) : Int) - (0 : Nat))
    norm_num [turnedW, sum_range_succ, pythQ, demoT, Flt.ofInt]
  · cases i with
    | zero =>
      refine ⟨rfl, rfl, rfl, fun _ => rfl, fun _ => rfl, fun _ => rfl, fun _ => rfl, rfl, fun i j _ _ => ?_, fun i j _ _ => rfl, fun i j _ _ => ?_,
        fun i j _ _ => rfl⟩
      · show OptSpec.vw _ i j = turnedW _ pythQ _ i j; simp [turnedW, OptSpec.fresh, Flt.zero]
      · show OptSpec.cw _ i j = turnedW _ pythQ _ i j; simp [turnedW, OptSpec.fresh, Flt.zero]
    | succ i =>
      exact ⟨rfl, rfl, rfl, fun _ => rfl, fun _ => rfl, fun _ => rfl, fun _ => rfl, rfl, fun _ _ _ _ => rfl, fun _ _ _ _ => rfl,
        fun _ _ _ _ => rfl, fun _ _ _ _ => rfl⟩
  · rw [d0]
    exact fun i j _ _ => rfl

end NN
