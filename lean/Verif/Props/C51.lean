import Verif.Real.NetGrad
import Verif.Spec.PlaceNet
import Mathlib.Tactic.IntervalCases
/- C51: Backward through a whole model returns the exact gradients of the training objective. -/

set_option linter.unusedSectionVars false

namespace NN
open Go Finset

/-- The claim for a model with the layers of `net` and a loss: Forward followed by Backward returns one pair of matrices
per layer, last layer first, and these are the exact gradients of the objective. -/
def NetGradClaim (net : Net ℝ) (loss : LossKind) : Prop :=
  ∀ (w : World ℝ) (m : Model ℝ) (x y : Mat) (training : Bool) (r : Nat) (X Y : Nat → Nat → ℝ), IsNet w m net →
    OwnNet w net → m.loss = some ⟨loss, net.dim net.size⟩ → m.lossType = loss.code → IsMat w x r (net.dim 0) X →
    IsMat w y r (net.dim net.size) Y →
    (∀ l, l < net.size → (net.L l).kind = .hidden ∨ (net.L l).kind = .leaky →
      ∀ i j, i < r → j < net.dim (l + 1) → preact (net.L l) (netOut net X l) i j ≠ 0) →
    SmoothAt loss r (net.dim net.size) (netOut net X net.size) Y →
    wp (modelForward m x training) w (fun p w1 => p.2 = none ∧
      wp (modelBackward m p.1 y) w1 (fun q w2 => q.2 = none ∧ q.1.length = net.size ∧ ∃ dW dB,
        (∀ l, l < net.size → ∃ gw gb, q.1[net.size - 1 - l]? = some ⟨gw, gb⟩ ∧
          IsMat w2 gw (net.dim l) (net.dim (l + 1)) (dW l) ∧ IsMat w2 gb 1 (net.dim (l + 1)) (fun _ => dB l)) ∧
        ExactNetGrad net loss r X Y dW dB))

/-- The layers that the property is about. -/
def Covered (net : Net ℝ) : Prop := 0 < net.size ∧ ∀ l, l < net.size → (net.L l).kind = .linear ∨ (net.L l).kind = .hidden ∨
  ((net.L l).kind = .leaky ∧ 0 < (net.L l).slope) ∨ (net.L l).kind = .softmax

/-- The full claim. -/
def C51_claim : Prop := ∀ (net : Net ℝ) (loss : LossKind), Covered net → NetGradClaim net loss

theorem modelGrad_run {net : Net ℝ} {loss : LossKind} (hc : Covered net) {w : World ℝ} {m : Model ℝ} {x y : Mat}
    {training : Bool} {r : Nat} {X Y : Nat → Nat → ℝ} (hN : IsNet w m net) (hO : OwnNet w net)
    (hl : m.loss = some ⟨loss, net.dim net.size⟩) (hX : IsMat w x r (net.dim 0) X)
    (hY : IsMat w y r (net.dim net.size) Y) :
    wp (modelForward m x training) w (fun p w1 => p.2 = none ∧ ∃ V M G D,
      (∀ k, k ≤ net.size → V k = netOut net X k) ∧ NetGrad m net loss r V M Y G D ∧
      wp (modelBackward m p.1 y) w1 (fun q w2 => q.2 = none ∧ HasGrads w1 w2 net r 0 V G q.1)) := by
  have hk : ∀ k, k < net.size → (net.L k).kind ≠ .dropout ∧ (net.L k).kind ≠ .sigmoid := by
    intro k hk
    rcases hc.2 k hk with h | h | ⟨h, -⟩ | h <;> rw [h] <;> exact ⟨by decide, by decide⟩
  refine wp_mono (modelForward_spec hN hX training) ?_
  rintro p w1 ⟨o, mask, V, M, h1, h2, h3, h4, h5⟩
  refine ⟨h2, ?_⟩
  obtain ⟨G, D, hG⟩ := exists_netGrad m net loss r V M Y
  refine ⟨V, M, G, D, ?_, hG, ?_⟩
  · intro k
    induction k with
    | zero => intro _; exact h4
    | succ k ih => intro hk'; rw [h5.val k hk' (fun h => (hk k (by omega)).1 h.2), ih (by omega)]; rfl
  have hdr : ∀ k, k < net.size → (net.L k).kind = .dropout → training = true := fun k h1 h2 => absurd h2 (hk k h1).1
  have hT := tape_of_run hN hO hdr hX h5 h3 h4
  have hF := freeOut_of_run hN hc.1 hdr h5 hY
  rw [h1]
  refine wp_mono (modelBackward_spec hT hc.1 (fun k h => (hk k h).2) hl rfl
    (hY.frame h5.frame (fun h => h) (fun _ _ h => h)) hF hG) ?_
  rintro q w2 ⟨e, -, h⟩
  exact ⟨e, h⟩

/-- The claim for all four losses, except the absolute error of outputs of width above 1.  Missing: that case, where it
is false. -/
theorem C51_exact_partial (net : Net ℝ) (loss : LossKind) (hc : Covered net)
    (hm : loss = .mae → net.dim net.size = 1) : NetGradClaim net loss := by
  intro w m x y training r X Y hN hO hl hlt hX hY hz hs
  refine wp_mono (modelGrad_run hc hN hO hl hX hY) ?_
  rintro p w1 ⟨h1, V, M, G, D, hV, hG, h2⟩
  refine ⟨h1, wp_mono h2 ?_⟩
  rintro q w2 ⟨h3, h4⟩
  refine ⟨h3, h4.len, fun l => gradW r (V l) (G l), fun l => gradB r (G l) 0, ?_, ?_⟩
  · intro l hl
    obtain ⟨dw, db, g1, g2, g3, -⟩ := h4.get l (Nat.zero_le _) hl
    have a := g2.mat
    have b := g3.mat
    rw [hN.ins l hl] at a
    rw [hN.outs l hl] at a b
    exact ⟨dw, db, g1, a, b⟩
  · refine hG.exact hc.1 hN.ins hN.outs hV ?_ ?_ hs hm
    · intro k hk
      refine ⟨?_, ?_, ?_, (hN.lay k hk).wmat.cpos⟩
      · rcases hc.2 k hk with h | h | ⟨h, -⟩ | h <;> simp [h]
      · intro e
        rcases hc.2 k hk with h | h | ⟨-, h⟩ | h
        · rw [e] at h; cases h
        · rw [e] at h; cases h
        · exact h
        · rw [e] at h; cases h
      · intro e i j hi hj
        exact hz k hk e i j hi (by rw [← hN.outs k hk]; exact hj)
    · intro e
      rw [hlt] at e
      cases loss <;> first | rfl | exact absurd e (by decide)

/-- A network of a leaky, a hidden and a softmax layer, trained on one-hot labels: the hypotheses hold. -/
example : ∃ (w : World ℝ) (m : Model ℝ) (net : Net ℝ) (x y : Mat) (X Y : Nat → Nat → ℝ), net.size = 3 ∧ Covered net ∧
    IsNet w m net ∧ OwnNet w net ∧ m.loss = some ⟨.ce, net.dim net.size⟩ ∧ m.lossType = LossKind.code .ce ∧
    IsMat w x 4 (net.dim 0) X ∧ IsMat w y 4 (net.dim net.size) Y ∧
    (∀ l, l < net.size → (net.L l).kind = .hidden ∨ (net.L l).kind = .leaky →
      ∀ i j, i < 4 → j < net.dim (l + 1) → preact (net.L l) (netOut net X l) i j ≠ 0) ∧
    SmoothAt .ce 4 (net.dim net.size) (netOut net X net.size) Y := by
  let L : Nat → LayerSpec ℝ := fun i =>
    ⟨if i = 0 then .leaky else if i = 1 then .hidden else .softmax, i + 2, i + 3, fun _ _ => 1, fun j => 1 + j, 1 / 10, 0⟩
  let m0 : Model ℝ := { newModel with loss := some ⟨.ce, (5 : Nat)⟩, lossType := 2 }
  obtain ⟨w0, net, x, e1, e2, e3, hN0, hO0, hX0, -⟩ := exists_net 3 L (fun i => ⟨Nat.succ_pos _, Nat.succ_pos _⟩)
    (fun i => rfl) m0 (r := 4) (by decide) (fun i _ => (i : ℝ))
  let Y : Nat → Nat → ℝ := fun i j => if j = i then 1 else 0
  have hY := place_spec w0 Y (r := 4) (c := 5) (by decide) (by decide)
  have hN := hN0.frame hY.frame (Static.of_frame hY.frame fun _ _ h => h) (fun _ h => h) (fun _ _ h => h)
  have hd : net.dim net.size = 5 := by rw [e1, e3]
  have hz0 : ∀ i j, 0 < preact (net.L 0) (fun i _ => (i : ℝ)) i j := by
    intro i j
    rw [e2, preact_real]
    have : (0 : ℝ) ≤ ∑ k ∈ range (L 0).n, (i : ℝ) * (L 0).W k j := Finset.sum_nonneg fun k _ => by simp [L]
    have : (0 : ℝ) < (L 0).b j := by simp only [L]; positivity
    linarith
  have hv1 : ∀ i j, 0 < netOut net (fun i _ => (i : ℝ)) 1 i j := by
    intro i j
    show 0 < actRow (net.L 0).kind (net.L 0).slope (net.L 0).o _ j
    have hk : (net.L 0).kind = .leaky := by rw [e2]; rfl
    have : 0 < preact (net.L 0) (netOut net (fun i _ => (i : ℝ)) 0) i j := hz0 i j
    simp only [hk, actRow, real_lt, Flt.zero, real_ofInt, Int.cast_zero, decide_eq_true_eq]
    rw [if_neg (not_lt.2 this.le)]
    exact this
  have hz1 : ∀ i j, 0 < preact (net.L 1) (netOut net (fun i _ => (i : ℝ)) 1) i j := by
    intro i j
    rw [preact_real]
    have : (0 : ℝ) ≤ ∑ k ∈ range (net.L 1).n, netOut net (fun i _ => (i : ℝ)) 1 i k * (net.L 1).W k j :=
      Finset.sum_nonneg fun k _ => mul_nonneg (hv1 i k).le (by rw [e2]; simp [L])
    have : (0 : ℝ) < (net.L 1).b j := by rw [e2]; simp only [L]; positivity
    linarith
  refine ⟨_, net.model m0, net, x, _, _, Y, e1, ⟨by omega, ?_⟩, hN, hO0.frame hN0 hY.frame (fun _ h => h), by rw [hd]; rfl,
    rfl, hX0.frame hY.frame (fun h => h) (fun _ _ h => h), by rw [hd]; exact hY.mat, ?_, ?_⟩
  · intro l hl
    rw [e1] at hl
    rw [e2]
    interval_cases l <;> simp [L]
  · intro l hl hk i j hi hj
    rw [e1] at hl
    interval_cases l
    · exact (hz0 i j).ne'
    · exact (hz1 i j).ne'
    · rw [e2] at hk; simp [L] at hk
  · refine ⟨id, fun i hi => ⟨by simp; omega, fun j _ => rfl⟩, fun i hi => ?_⟩
    rw [e1]
    show 0 < infer (net.L 2) (netOut net _ 2) i i
    have hk : (net.L 2).kind = .softmax := by rw [e2]; rfl
    have ho : 0 < (net.L 2).o := by rw [e2]; exact Nat.succ_pos _
    simp only [infer, hk, actRow, real_exp, real_div, fsum_real]
    exact div_pos (Real.exp_pos _) (Finset.sum_pos (fun k _ => Real.exp_pos _) ⟨0, mem_range.2 ho⟩)

/-! ### Partial derivatives -/

/-- Add t to weight (k0, j0) of layer l0. -/
noncomputable def Net.addW (net : Net ℝ) (l0 k0 j0 : Nat) (t : ℝ) : Net ℝ :=
  { net with L := fun l =>
    { net.L l with W := fun k j => (net.L l).W k j + t * (if l = l0 ∧ k = k0 ∧ j = j0 then 1 else 0) } }

/-- Add t to bias j0 of layer l0. -/
noncomputable def Net.addB (net : Net ℝ) (l0 j0 : Nat) (t : ℝ) : Net ℝ :=
  { net with L := fun l =>
    { net.L l with b := fun j => (net.L l).b j + t * (if l = l0 ∧ j = j0 then 1 else 0) } }

/-- Move weight (k0, j0) of layer l0. -/
noncomputable def NetCurve.moveW (net : Net ℝ) (l0 k0 j0 : Nat) : NetCurve net where
  Wt l t k j := (net.L l).W k j + t * (if l = l0 ∧ k = k0 ∧ j = j0 then 1 else 0)
  bt l _ j := (net.L l).b j
  W' l k j := if l = l0 ∧ k = k0 ∧ j = j0 then 1 else 0
  b' _ _ := 0
  hW l k j _ _ _ := by
    have := ((hasDerivAt_id (0 : ℝ)).mul_const (if l = l0 ∧ k = k0 ∧ j = j0 then (1 : ℝ) else 0)).const_add ((net.L l).W k j)
    simpa using this
  hb _ _ _ _ := hasDerivAt_const _ _
  W0 l k j _ _ _ := by simp
  b0 _ _ _ _ := rfl

/-- Move bias j0 of layer l0. -/
noncomputable def NetCurve.moveB (net : Net ℝ) (l0 j0 : Nat) : NetCurve net where
  Wt l _ k j := (net.L l).W k j
  bt l t j := (net.L l).b j + t * (if l = l0 ∧ j = j0 then 1 else 0)
  W' _ _ _ := 0
  b' l j := if l = l0 ∧ j = j0 then 1 else 0
  hW _ _ _ _ _ _ := hasDerivAt_const _ _
  hb l j _ _ := by
    have := ((hasDerivAt_id (0 : ℝ)).mul_const (if l = l0 ∧ j = j0 then (1 : ℝ) else 0)).const_add ((net.L l).b j)
    simpa using this
  W0 _ _ _ _ _ _ := rfl
  b0 l j _ _ := by simp

theorem NetCurve.pair_moveW {net : Net ℝ} {l0 k0 j0 : Nat} (hl : l0 < net.size) (hk : k0 < (net.L l0).n)
    (hj : j0 < (net.L l0).o) (dW : Nat → Nat → Nat → ℝ) (dB : Nat → Nat → ℝ) :
    (NetCurve.moveW net l0 k0 j0).pair dW dB = dW l0 k0 j0 := by
  simp only [NetCurve.pair, NetCurve.moveW, mul_zero, Finset.sum_const_zero, add_zero]
  rw [Finset.sum_eq_single l0, Finset.sum_eq_single k0, Finset.sum_eq_single j0]
  · simp
  · intro j _ hne; simp [hne]
  · intro h; exact absurd (mem_range.2 hj) h
  · intro k _ hne; simp [hne]
  · intro h; exact absurd (mem_range.2 hk) h
  · intro l _ hne; simp [hne]
  · intro h; exact absurd (mem_range.2 hl) h

theorem NetCurve.pair_moveB {net : Net ℝ} {l0 j0 : Nat} (hl : l0 < net.size) (hj : j0 < (net.L l0).o)
    (dW : Nat → Nat → Nat → ℝ) (dB : Nat → Nat → ℝ) : (NetCurve.moveB net l0 j0).pair dW dB = dB l0 j0 := by
  simp only [NetCurve.pair, NetCurve.moveB, mul_zero, Finset.sum_const_zero, zero_add]
  rw [Finset.sum_eq_single l0, Finset.sum_eq_single j0]
  · simp
  · intro j _ hne; simp [hne]
  · intro h; exact absurd (mem_range.2 hj) h
  · intro l _ hne; simp [hne]
  · intro h; exact absurd (mem_range.2 hl) h

/-- `ExactNetGrad` fixes every entry: `dW l k j` is the partial derivative with respect to that weight. -/
theorem C51_weight {net : Net ℝ} {loss : LossKind} {r : Nat} {X Y : Nat → Nat → ℝ} {dW : Nat → Nat → Nat → ℝ}
    {dB : Nat → Nat → ℝ} (h : ExactNetGrad net loss r X Y dW dB) (l k j : Nat) (hl : l < net.size) (hk : k < (net.L l).n)
    (hj : j < (net.L l).o) :
    ∃ F : ℝ → Nat → Nat → ℝ, (∀ t, NetComputes (net.addW l k j t) r X (F t)) ∧
      HasDerivAt (fun t => objective loss r (net.dim net.size) (F t) Y) (dW l k j) 0 := by
  obtain ⟨F, hF, hd⟩ := h (NetCurve.moveW net l k j)
  rw [NetCurve.pair_moveW hl hk hj] at hd
  exact ⟨F, hF, hd⟩

/-- `dB l j` is the partial derivative with respect to that bias. -/
theorem C51_bias {net : Net ℝ} {loss : LossKind} {r : Nat} {X Y : Nat → Nat → ℝ} {dW : Nat → Nat → Nat → ℝ}
    {dB : Nat → Nat → ℝ} (h : ExactNetGrad net loss r X Y dW dB) (l j : Nat) (hl : l < net.size) (hj : j < (net.L l).o) :
    ∃ F : ℝ → Nat → Nat → ℝ, (∀ t, NetComputes (net.addB l j t) r X (F t)) ∧
      HasDerivAt (fun t => objective loss r (net.dim net.size) (F t) Y) (dB l j) 0 := by
  obtain ⟨F, hF, hd⟩ := h (NetCurve.moveB net l j)
  rw [NetCurve.pair_moveB hl hj] at hd
  exact ⟨F, hF, hd⟩

/-! ### The absolute error -/

/-- With the absolute error and an output of width above 1, Backward returns zero gradients. -/
theorem C51_mae_zero (net : Net ℝ) (hc : Covered net) (hw : 1 < net.dim net.size) (w : World ℝ) (m : Model ℝ) (x y : Mat)
    (training : Bool) (r : Nat) (X Y : Nat → Nat → ℝ) (hN : IsNet w m net) (hO : OwnNet w net)
    (hl : m.loss = some ⟨.mae, net.dim net.size⟩) (hlt : m.lossType = LossKind.code .mae)
    (hX : IsMat w x r (net.dim 0) X) (hY : IsMat w y r (net.dim net.size) Y) :
    wp (modelForward m x training) w (fun p w1 => p.2 = none ∧
      wp (modelBackward m p.1 y) w1 (fun q w2 => q.2 = none ∧ ∀ l, l < net.size → ∃ gw gb,
        q.1[net.size - 1 - l]? = some ⟨gw, gb⟩ ∧ IsMat w2 gw (net.dim l) (net.dim (l + 1)) (fun _ _ => 0) ∧
          IsMat w2 gb 1 (net.dim (l + 1)) (fun _ _ => 0))) := by
  refine wp_mono (modelGrad_run hc hN hO hl hX hY) ?_
  rintro p w1 ⟨h1, V, M, G, D, hV, hG, h2⟩
  refine ⟨h1, wp_mono h2 ?_⟩
  rintro q w2 ⟨h3, h4⟩
  refine ⟨h3, ?_⟩
  have hf : ¬ Fused m net := by
    intro hf
    have := hf.2
    rw [hlt] at this
    exact absurd this (by decide)
  obtain ⟨g1, g2⟩ := hG.plain hf
  have e1 : Int.tdiv 1 (net.dim net.size : Int) = 0 := Int.tdiv_eq_zero_of_lt (by omega) (by omega)
  have e2 : Int.tdiv (-1) (net.dim net.size : Int) = 0 := by rw [Int.neg_tdiv, e1]; rfl
  have hD : D net.size = fun _ _ => 0 := by
    rw [g1]
    funext i j
    simp only [lossGrad, e1, e2, Flt.zero, real_ofInt, Int.cast_zero, ite_self]
  have hact : ∀ (L : LayerSpec ℝ) (P M : Nat → Nat → ℝ), actBack L P M (fun _ _ => 0) = fun _ _ => 0 := by
    intro L P M
    funext i j
    unfold actBack
    cases L.kind <;> simp [Flt.zero, fsum_real]
  have key : ∀ k, k ≤ net.size → D (net.size - k) = (fun _ _ => 0) ∧
      (0 < k → G (net.size - k) = fun _ _ => 0) := by
    intro k
    induction k with
    | zero => intro _; exact ⟨hD, fun h => absurd h (by omega)⟩
    | succ k ih =>
      intro hk
      have hG0 : G (net.size - (k + 1)) = fun _ _ => 0 := by
        rw [g2.act _ (by omega), show net.size - (k + 1) + 1 = net.size - k by omega, (ih (by omega)).1]
        exact hact _ _ _
      refine ⟨?_, fun _ => hG0⟩
      rw [g2.inp _ (by omega), hG0]
      funext i j
      simp [gradX, fsum_real]
  intro l hl
  obtain ⟨dw, db, a1, a2, a3, -⟩ := h4.get l (Nat.zero_le _) hl
  have hG0 := (key (net.size - l) (by omega)).2 (by omega)
  rw [show net.size - (net.size - l) = l by omega] at hG0
  have a := a2.mat
  have b := a3.mat
  rw [hN.ins l hl] at a
  rw [hN.outs l hl] at a b
  refine ⟨dw, db, a1, a.congr ?_, b.congr ?_⟩
  · intro i j _ _
    simp [gradW, hG0, fsum_real]
  · intro i j _ _
    simp [gradB, hG0, fsum_real]

theorem NetComputes.unique {net : Net ℝ} {r : Nat} {X F G : Nat → Nat → ℝ} (hL : ∀ i, 0 < (net.L i).n ∧ 0 < (net.L i).o)
    (hc : ∀ i, (net.L i).o = (net.L (i + 1)).n) (hd : ∀ i, net.dim i = (net.L i).n) (hr : 0 < r)
    (hF : NetComputes net r X F) (hG : NetComputes net r X G) {i j : Nat} (hi : i < r) (hj : j < net.dim net.size) :
    F i j = G i j := by
  obtain ⟨w, net1, x, e1, e2, e3, hN, -, hX, -⟩ := exists_net net.size net.L hL hc newModel hr X
  have e : net1 = { net with lp := net1.lp, wm := net1.wm, bm := net1.bm } := by
    cases net1
    cases net
    simp only [Net.mk.injEq, true_and] at e1 e2 e3 ⊢
    exact ⟨e1, e3.trans (funext fun i => (hd i).symm), e2⟩
  have hX' : IsMat w x r (net.dim 0) X := by rw [hd 0]; rw [e3] at hX; exact hX
  generalize net1.model newModel = m at hN
  rw [e] at hN
  obtain ⟨p, w', -, ⟨-, o1, a1, b1⟩, -, o2, a2, b2⟩ := wp_iff.1 (wp_and (hF w _ x true _ _ _ hN hX') (hG w _ x true _ _ _ hN hX'))
  rw [a1] at a2
  cases a2
  exact b1.entries_unique b2 hi hj

/-- A linear layer that maps everything to (1, 1). -/
noncomputable def onesL (i : Nat) : LayerSpec ℝ := ⟨.linear, i + 1, i + 2, fun _ _ => 0, fun _ => 1, 0, 0⟩

theorem C51_false : ¬ C51_claim := by
  intro h
  let m0 : Model ℝ := { newModel with loss := some ⟨.mae, (2 : Nat)⟩, lossType := 1 }
  obtain ⟨w0, net, x, e1, e2, e3, hN0, hO0, hX0, -⟩ := exists_net 1 onesL (fun i => ⟨Nat.succ_pos _, Nat.succ_pos _⟩)
    (fun i => rfl) m0 Nat.one_pos (fun _ _ => (0 : ℝ))
  have hY := place_spec w0 (fun _ _ => (0 : ℝ)) Nat.one_pos Nat.two_pos
  have hN := hN0.frame hY.frame (Static.of_frame hY.frame fun _ _ h => h) (fun _ h => h) (fun _ _ h => h)
  have hO := hO0.frame hN0 hY.frame (fun _ h => h)
  have hX := hX0.frame hY.frame (fun h => h) (fun _ _ h => h)
  have hd1 : net.dim net.size = 2 := by rw [e1, e3]; rfl
  have hcov : Covered net := by
    refine ⟨by omega, fun l hl => .inl ?_⟩
    rw [e2]; rfl
  have hlo : (net.model m0).loss = some ⟨.mae, net.dim net.size⟩ := by rw [hd1]; rfl
  have hY2 : IsMat (placeW w0 1 2 fun _ _ => (0 : ℝ)) (placeM w0 1 2) 1 (net.dim net.size) (fun _ _ => (0 : ℝ)) := by rw [hd1]; exact hY.mat
  have hval : netOut net (fun _ _ => 0) net.size = fun _ _ => 1 := by
    rw [e1]
    funext i j
    show infer (net.L 0) (fun _ _ => 0) i j = 1
    rw [e2]
    simp [infer, actRow, onesL, preact_real]
  have c1 := h net .mae hcov _ _ x _ true 1 _ _ hN hO hlo rfl hX hY2
    (by intro l hl hk; rw [e2] at hk; rcases hk with hk | hk <;> cases hk)
    (by intro i j _ _; rw [hval]; exact one_ne_zero)
  have c2 := C51_mae_zero net hcov (by omega) _ _ x _ true 1 _ _ hN hO hlo rfl hX hY2
  obtain ⟨p, w1, -, ⟨-, b1⟩, -, b2⟩ := wp_iff.1 (wp_and c1 c2)
  obtain ⟨q, w2, -, ⟨-, -, dW, dB, g1, hex⟩, -, g2⟩ := wp_iff.1 (wp_and b1 b2)
  obtain ⟨gw, gb, i1, -, i3⟩ := g1 0 (by omega)
  obtain ⟨gw', gb', j1, -, j3⟩ := g2 0 (by omega)
  rw [i1] at j1
  cases j1
  have hz : dB 0 0 = 0 := i3.entries_unique j3 (i := 0) (j := 0) Nat.one_pos (by rw [e3]; show 0 < 2; omega)
  obtain ⟨F, hF, hd⟩ := C51_bias hex 0 0 (by omega) (by rw [e2]; show 0 < 2; omega)
  rw [hz] at hd
  have hFv : ∀ t j, j < 2 → F t 0 j = 1 + t * (if j = 0 then 1 else 0) := by
    intro t j hj
    have h1 := netComputes_netOut (net := net.addB 0 0 t) (by intro k _; show (net.L k).kind ≠ _; rw [e2]; simp [onesL]) 1
      (fun _ _ => 0)
    have := NetComputes.unique (net := net.addB 0 0 t)
      (by intro i; show 0 < (net.L i).n ∧ 0 < (net.L i).o; rw [e2]; exact ⟨Nat.succ_pos _, Nat.succ_pos _⟩)
      (by intro i; show (net.L i).o = (net.L (i + 1)).n; rw [e2]; rfl)
      (by intro i; show net.dim i = (net.L i).n; rw [e2, e3]) Nat.one_pos (hF t) h1 (i := 0) (j := j) Nat.one_pos
      (by show j < net.dim net.size; omega)
    rw [this]
    show netOut (net.addB 0 0 t) (fun _ _ => 0) net.size 0 j = _
    rw [e1]
    show infer { net.L 0 with b := _ } (fun _ _ => 0) 0 j = _
    rw [e2]
    simp [infer, actRow, onesL, preact_real]
  have e : ∀ t, objective .mae 1 (net.dim net.size) (F t) (fun _ _ => 0) = (|1 + t| + 1) / 2 := by
    intro t
    rw [hd1]
    simp only [objective, Finset.sum_range_succ, Finset.sum_range_zero, hFv t 0 (by decide), hFv t 1 (by decide)]
    norm_num
  simp only [e] at hd
  have h1 : HasDerivAt (fun t : ℝ => |1 + t|) 1 0 := by
    have a : HasDerivAt (fun y : ℝ => |y|) 1 (1 + 0) := hasDerivAt_abs_pos (by norm_num)
    exact (a.comp (0 : ℝ) ((hasDerivAt_id (0 : ℝ)).const_add 1)).congr_deriv (by norm_num)
  have h2 := (h1.add_const 1).div_const 2
  have := hd.unique h2
  norm_num at this

end NN
