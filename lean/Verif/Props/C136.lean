import Verif.Lemmas.Tied
import Verif.Props.C72
/- C136: a layer that was added at several places of a model is trained as one shared layer. -/

set_option linter.unusedSectionVars false

namespace NN
open Go Finset

/-! ### What a shared layer should do -/

/-- Add t to weight (k0, j0) of the layer object p, wherever it occurs. -/
noncomputable def Net.addSharedW (net : Net ℝ) (p k0 j0 : Nat) (t : ℝ) : Net ℝ :=
  { net with L := fun l => { net.L l with W := fun k j => (net.L l).W k j + t * (if net.lp l = p ∧ k = k0 ∧ j = j0 then 1 else 0) } }

/-- Add t to bias j0 of the layer object p, wherever it occurs. -/
noncomputable def Net.addSharedB (net : Net ℝ) (p j0 : Nat) (t : ℝ) : Net ℝ :=
  { net with L := fun l => { net.L l with b := fun j => (net.L l).b j + t * (if net.lp l = p ∧ j = j0 then 1 else 0) } }

/-- Every parameter of every layer object has moved by -lr times the derivative of the objective with respect to it, where the
parameter counts as one variable although the layer may occur at several places. -/
def SharedStep (net : Net ℝ) (loss : LossKind) (r : Nat) (X Y : Nat → Nat → ℝ) (lr : ℝ) (net' : Net ℝ) : Prop :=
  (∀ i k j, i < net.size → k < (net.L i).n → j < (net.L i).o → ∃ (F : ℝ → Nat → Nat → ℝ) (d : ℝ),
    (∀ t, NetComputes (net.addSharedW (net.lp i) k j t) r X (F t)) ∧
    HasDerivAt (fun t => objective loss r (net.dim net.size) (F t) Y) d 0 ∧ (net'.L i).W k j = (net.L i).W k j - lr * d) ∧
  ∀ i j, i < net.size → j < (net.L i).o → ∃ (F : ℝ → Nat → Nat → ℝ) (d : ℝ),
    (∀ t, NetComputes (net.addSharedB (net.lp i) j t) r X (F t)) ∧
    HasDerivAt (fun t => objective loss r (net.dim net.size) (F t) Y) d 0 ∧ (net'.L i).b j = (net.L i).b j - lr * d

/-- A model whose layers may occur more than once, with linear, ReLU, leaky ReLU and softmax layers and plain SGD, and a data set
at which the objective is differentiable. -/
structure SharedModel (w : World ℝ) (m : Model ℝ) (net : Net ℝ) (op : Nat → Nat) (S : Nat → OptSpec ℝ) (loss : LossKind) (lr : ℝ)
    (X Y : Mat) (r : Nat) (A B : Nat → Nat → ℝ) : Prop where
  task : TiedTask w m net op S
  covered : Covered net
  sgd : ∀ i, i < net.size → (S i).kind = .sgd ∧ (S i).momentum = 0 ∧ (S i).decay = 0 ∧ (S i).lr = lr
  isLoss : m.loss = some ⟨loss, net.dim net.size⟩
  code : m.lossType = loss.code
  mae : loss = .mae → net.dim net.size = 1
  xs : IsData w net X r (net.dim 0) A
  ys : IsData w net Y r (net.dim net.size) B
  small : r ≤ 2 ^ 53
  kinks : ∀ l, l < net.size → (net.L l).kind = .hidden ∨ (net.L l).kind = .leaky →
    ∀ i j, i < r → j < net.dim (l + 1) → preact (net.L l) (netOut net A l) i j ≠ 0
  smooth : SmoothAt loss r (net.dim net.size) (netOut net A net.size) B

/-- The full claim: one epoch of Fit on the whole data set makes a step of gradient descent on the shared parameters. -/
def C136_claim : Prop :=
  ∀ (w : World ℝ) (m : Model ℝ) (net : Net ℝ) (op : Nat → Nat) (S : Nat → OptSpec ℝ) (loss : LossKind) (lr : ℝ) (X Y xv yv : Mat)
    (r : Nat) (A B : Nat → Nat → ℝ), SharedModel w m net op S loss lr X Y r A B →
    wp (fit m X Y 1 0 xv yv 0) w (fun e w' => e = none ∧ ∃ net' S', TiedTask w' m net' op S' ∧ SameShape net net' ∧
      SharedStep net loss r A B lr net')

/-! ### Fit on models with repeated linear layers -/

/-- Fit, for any numbers, optimizers, number of epochs and batch size: if only linear layers occur more than once, it makes one
training step per batch; in each step every place contributes one optimizer step, with its own gradient and optimizer, to the
parameters of its layer object. -/
theorem C136_fit {α : Type} [Flt α] [FltInt α] (w : World α) (m : Model α) (net : Net α) (op : Nat → Nat) (S : Nat → OptSpec α)
    (hT : TiedTask w m net op S) (hlin : TiedLinear net) (hns : ∀ k, k < net.size → (net.L k).kind ≠ .sigmoid) (loss : Loss)
    (hl : m.loss = some loss) (hls : loss.size = net.dim net.size) (XM YM xv yv : Mat) (n : Nat) (X Y : Nat → Nat → α)
    (dX : IsData w net XM n (net.dim 0) X) (dY : IsData w net YM n (net.dim net.size) Y)
    (epochs : Int) (b : Nat) (hbig : n + b ≤ 2 ^ 53) :
    wp (fit m XM YM epochs b xv yv 0) w (fun e w' => e = none ∧ ∃ net' S',
      TiedDescent m loss.kind w.unif X Y net S w.unifPos (List.replicate epochs.toNat (blocks n b)).flatten net' S' w'.unifPos ∧
      TiedTask w' m net' op S' ∧ SameShape net net') := by
  refine wp_mono (tied_fit hT hlin hns hl hls dX.mat dY.mat dX.cap dY.cap dX.sep dY.sep epochs b hbig) ?_
  rintro e w' ⟨he, net', S', h⟩
  exact ⟨he, net', S', h.run, h.task, h.shape⟩

/-! ### Gradient descent on the shared parameters -/

/-- Move weight (k0, j0) of the layer object p. -/
noncomputable def NetCurve.sharedW (net : Net ℝ) (p k0 j0 : Nat) : NetCurve net where
  Wt l t k j := (net.L l).W k j + t * (if net.lp l = p ∧ k = k0 ∧ j = j0 then 1 else 0)
  bt l _ j := (net.L l).b j
  W' l k j := if net.lp l = p ∧ k = k0 ∧ j = j0 then 1 else 0
  b' _ _ := 0
  hW l k j _ _ _ := by
    have := ((hasDerivAt_id (0 : ℝ)).mul_const (if net.lp l = p ∧ k = k0 ∧ j = j0 then (1 : ℝ) else 0)).const_add ((net.L l).W k j)
    simpa using this
  hb _ _ _ _ := hasDerivAt_const _ _
  W0 l k j _ _ _ := by simp
  b0 _ _ _ _ := rfl

/-- Move bias j0 of the layer object p. -/
noncomputable def NetCurve.sharedB (net : Net ℝ) (p j0 : Nat) : NetCurve net where
  Wt l _ k j := (net.L l).W k j
  bt l t j := (net.L l).b j + t * (if net.lp l = p ∧ j = j0 then 1 else 0)
  W' _ _ _ := 0
  b' l j := if net.lp l = p ∧ j = j0 then 1 else 0
  hW _ _ _ _ _ _ := hasDerivAt_const _ _
  hb l j _ _ := by
    have := ((hasDerivAt_id (0 : ℝ)).mul_const (if net.lp l = p ∧ j = j0 then (1 : ℝ) else 0)).const_add ((net.L l).b j)
    simpa using this
  W0 _ _ _ _ _ _ := rfl
  b0 l j _ _ := by simp

theorem NetCurve.pair_sharedW {net : Net ℝ} {p k0 j0 : Nat} (hk : ∀ l, l < net.size → net.lp l = p → k0 < (net.L l).n)
    (hj : ∀ l, l < net.size → net.lp l = p → j0 < (net.L l).o) (dW : Nat → Nat → Nat → ℝ) (dB : Nat → Nat → ℝ) :
    (NetCurve.sharedW net p k0 j0).pair dW dB = ∑ l ∈ range net.size, if net.lp l = p then dW l k0 j0 else 0 := by
  simp only [NetCurve.pair, NetCurve.sharedW, mul_zero, Finset.sum_const_zero, add_zero]
  refine Finset.sum_congr rfl fun l hl => ?_
  by_cases hp : net.lp l = p
  · rw [if_pos hp, Finset.sum_eq_single k0, Finset.sum_eq_single j0]
    · simp [hp]
    · intro j _ hne; simp [hne]
    · intro h; exact absurd (mem_range.2 (hj l (mem_range.1 hl) hp)) h
    · intro k _ hne; simp [hne]
    · intro h; exact absurd (mem_range.2 (hk l (mem_range.1 hl) hp)) h
  · simp [hp]

theorem NetCurve.pair_sharedB {net : Net ℝ} {p j0 : Nat} (hj : ∀ l, l < net.size → net.lp l = p → j0 < (net.L l).o)
    (dW : Nat → Nat → Nat → ℝ) (dB : Nat → Nat → ℝ) :
    (NetCurve.sharedB net p j0).pair dW dB = ∑ l ∈ range net.size, if net.lp l = p then dB l j0 else 0 := by
  simp only [NetCurve.pair, NetCurve.sharedB, mul_zero, Finset.sum_const_zero, zero_add]
  refine Finset.sum_congr rfl fun l hl => ?_
  by_cases hp : net.lp l = p
  · rw [if_pos hp, Finset.sum_eq_single j0]
    · simp [hp]
    · intro j _ hne; simp [hne]
    · intro h; exact absurd (mem_range.2 (hj l (mem_range.1 hl) hp)) h
  · simp [hp]

/-- With plain SGD at every place, the steps of the places add up. -/
theorem tiedL_sgd {net : Net ℝ} {S : Nat → OptSpec ℝ} {lr : ℝ} (r : Nat) (V G : Nat → Nat → Nat → ℝ) (i K : Nat)
    (hS : ∀ q, q < K → (S q).kind = .sgd ∧ (S q).momentum = 0 ∧ (S q).decay = 0 ∧ (S q).lr = lr) :
    (∀ k j, (tiedL net S r V G i K).W k j =
      (net.L i).W k j - lr * ∑ q ∈ range K, if net.lp q = net.lp i then gradW r (V q) (G q) k j else 0) ∧
    ∀ j, (tiedL net S r V G i K).b j =
      (net.L i).b j - lr * ∑ q ∈ range K, if net.lp q = net.lp i then gradB r (G q) 0 j else 0 := by
  induction K with
  | zero => exact ⟨fun k j => by simp [tiedL], fun j => by simp [tiedL]⟩
  | succ K ih =>
    obtain ⟨ih1, ih2⟩ := ih fun q hq => hS q (by omega)
    obtain ⟨s1, s2, s3, s4⟩ := hS K (by omega)
    have hrate : (S K).rate = lr := by
      unfold OptSpec.rate
      rw [s3, if_pos (by simp [Flt.zero]), s4]
    unfold tiedL
    by_cases hp : net.lp K = net.lp i
    · rw [if_pos hp]
      constructor
      · intro k j
        rw [Finset.sum_range_succ, if_pos hp, mul_add, ← sub_sub, ← ih1]
        dsimp only
        unfold OptSpec.newW OptSpec.upd
        rw [s1, s2, hrate]
        dsimp only
        rw [if_pos (by simp [Flt.zero]), mul_comm lr]
        rfl
      · intro j
        rw [Finset.sum_range_succ, if_pos hp, mul_add, ← sub_sub, ← ih2]
        dsimp only
        unfold OptSpec.newB OptSpec.upd
        rw [s1, s2, hrate]
        dsimp only
        rw [if_pos (by simp [Flt.zero]), mul_comm lr]
        rfl
    · rw [if_neg hp]
      constructor
      · intro k j
        rw [Finset.sum_range_succ, if_neg hp, add_zero, ih1]
      · intro j
        rw [Finset.sum_range_succ, if_neg hp, add_zero, ih2]

theorem SharedModel.kinds {w : World ℝ} {m : Model ℝ} {net : Net ℝ} {op : Nat → Nat} {S : Nat → OptSpec ℝ} {loss : LossKind} {lr : ℝ}
    {X Y : Mat} {r : Nat} {A B : Nat → Nat → ℝ} (h : SharedModel w m net op S loss lr X Y r A B) (k : Nat) (hk : k < net.size) :
    (net.L k).kind ≠ .dropout ∧ (net.L k).kind ≠ .sigmoid := by
  rcases h.covered.2 k hk with h | h | ⟨h, -⟩ | h <;> rw [h] <;> exact ⟨by decide, by decide⟩

theorem SharedModel.exact {w : World ℝ} {m : Model ℝ} {net : Net ℝ} {op : Nat → Nat} {S : Nat → OptSpec ℝ} {loss : LossKind} {lr : ℝ}
    {X Y : Mat} {r : Nat} {A B : Nat → Nat → ℝ} (h : SharedModel w m net op S loss lr X Y r A B) {V M G D : Nat → Nat → Nat → ℝ}
    (hG : NetGrad m net loss r V M B G D) (hV : ∀ k, k ≤ net.size → V k = netOut net A k) :
    ExactNetGrad net loss r A B (fun l => gradW r (V l) (G l)) (fun l => gradB r (G l) 0) := by
  have hN := h.task.isNet
  refine hG.exact h.covered.1 hN.ins hN.outs hV ?_ ?_ h.smooth h.mae
  · intro k hk
    refine ⟨?_, ?_, ?_, (hN.lay k hk).wmat.cpos⟩
    · rcases h.covered.2 k hk with h | h | ⟨h, -⟩ | h <;> simp [h]
    · intro e
      rcases h.covered.2 k hk with h | h | ⟨-, h⟩ | h
      · rw [e] at h; cases h
      · rw [e] at h; cases h
      · exact h
      · rw [e] at h; cases h
    · intro e i j hi hj
      exact h.kinks k hk e i j hi (by rw [← hN.outs k hk]; exact hj)
  · intro e
    rw [h.code] at e
    cases loss <;> first | rfl | exact absurd e (by decide)

/-- The true part of C136: if only linear layers occur more than once, one epoch of Fit with plain SGD on the whole data set is a
step of gradient descent on the shared parameters.  What is missing are repeated ReLU and leaky ReLU layers, for which it is false
(`C136_false`). -/
theorem C136_shared_partial (w : World ℝ) (m : Model ℝ) (net : Net ℝ) (op : Nat → Nat) (S : Nat → OptSpec ℝ) (loss : LossKind)
    (lr : ℝ) (X Y xv yv : Mat) (r : Nat) (A B : Nat → Nat → ℝ) (h : SharedModel w m net op S loss lr X Y r A B)
    (hlin : TiedLinear net) :
    wp (fit m X Y 1 0 xv yv 0) w (fun e w' => e = none ∧ ∃ net' S', TiedTask w' m net' op S' ∧ SameShape net net' ∧
      SharedStep net loss r A B lr net') := by
  refine wp_mono (C136_fit w m net op S h.task hlin (fun k hk => (h.kinds k hk).2) _ h.isLoss rfl X Y xv yv r A B h.xs h.ys 1 0
    (by have := h.small; omega)) ?_
  rintro e w' ⟨he, net', S', hD, hT', hsh⟩
  refine ⟨he, net', S', hT', hsh, ?_⟩
  have hbl : (List.replicate (1 : Int).toNat (blocks r 0)).flatten = [] ++ [(0, r)] := by
    show (List.replicate 1 (blocks r 0)).flatten = _
    simp [blocks]
  rw [hbl] at hD
  generalize hq : w'.unifPos = q at hD
  generalize hb : ([] : List (Nat × Nat)) ++ [(0, r)] = bs at hD
  cases hD with
  | start => simp at hb
  | @step bs0 b0 net1 _ S1 _ p1 hD0 hstep =>
    obtain ⟨e1, e2⟩ := List.append_inj' hb rfl
    subst e1
    obtain rfl : (0, r) = b0 := by simpa using e2
    generalize hb0 : ([] : List (Nat × Nat)) = bs1 at hD0
    cases hD0 with
    | step => simp at hb0
    | start =>
      simp only [Nat.zero_add] at hstep
      obtain ⟨G, D, hG, rfl, rfl⟩ := hstep
      have hex := h.exact hG fun k hk => trainVals_netOut r _ A k fun i hi => (h.kinds i (by omega)).1
      have hsame : ∀ i l, i < net.size → l < net.size → net.lp l = net.lp i → net.L l = net.L i := fun i l hi hl e =>
        h.task.tied.same l i hl hi e
      constructor
      · intro i k j hi hk hj
        obtain ⟨F, hF, hd⟩ := hex (NetCurve.sharedW net (net.lp i) k j)
        rw [NetCurve.pair_sharedW (fun l hl e => by rw [hsame i l hi hl e]; exact hk)
          (fun l hl e => by rw [hsame i l hi hl e]; exact hj)] at hd
        exact ⟨F, _, hF, hd, (tiedL_sgd r _ G i net.size h.sgd).1 k j⟩
      · intro i j hi hj
        obtain ⟨F, hF, hd⟩ := hex (NetCurve.sharedB net (net.lp i) j)
        rw [NetCurve.pair_sharedB (fun l hl e => by rw [hsame i l hi hl e]; exact hj)] at hd
        exact ⟨F, _, hF, hd, (tiedL_sgd r _ G i net.size h.sgd).2 j⟩

/-! ### Repeated ReLU layers -/

/-- A state with a model in which one layer occurs k times, with an optimizer for every place and a data set. -/
theorem exists_tied {α : Type} [Flt α] (w0 : World α) (k : Nat) (hk : 0 < k) (L : LayerSpec α) (hn : 0 < L.n) (hno : L.o = L.n)
    (m : Model α) (o : Optim α) (S : OptSpec α) (h0 : o.weightMomentums.rows = 0)
    (ho : ∀ (w : World α) (p : Nat), p < w.next → w.opt p = o → IsOpt w p L.n L.o 1 L.o S) {r : Nat} (hr : 0 < r)
    (X Y : Nat → Nat → α) :
    ∃ (w : World α) (net : Net α) (op : Nat → Nat) (XM YM : Mat), net.size = k ∧ (net.L = fun _ => L) ∧ (net.dim = fun _ => L.n) ∧
      (∀ i j, net.lp i = net.lp j) ∧ TiedTask w (net.task op m) net op (fun _ => S) ∧ IsData w net XM r L.n X ∧
      IsData w net YM r L.n Y := by
  obtain ⟨w, lp, wm, bm, ha, h1, h2, h3, h4⟩ := exists_layers w0 (fun _ => L) (fun _ => ⟨hn, hno ▸ hn⟩) 1
  let net : Net α := ⟨k, fun _ => L.n, fun _ => lp 0, fun _ => wm 0, fun _ => bm 0, fun _ => L⟩
  let op : Nat → Nat := (w.next + ·)
  have hf : OnlyAllocs w (withOpts w k o) := withOpts_allocs w k o
  have hN : IsNet w (net.task op m) net := ⟨rfl, rfl, fun _ _ => h1 0 Nat.one_pos, fun _ _ => rfl, fun i _ => hno, fun _ => rfl, fun _ => rfl⟩
  have hO : TiedNet w net := ⟨fun _ _ => h2 0 Nat.one_pos, fun _ _ _ _ _ => rfl, fun _ _ _ _ _ _ _ => rfl⟩
  have hT : TiedTask (withOpts w k o) (net.task op m) net op (fun _ => S) := by
    refine ⟨hN.frame hf (Static.of_frame hf fun _ _ h => h) (fun _ h => h) (fun _ _ h => h), hO.frame hN hf (fun _ h => h),
      hk, rfl, fun i hi => ho _ _ ?_ (withOpts_new w k o hi), fun i j _ _ e => Nat.add_left_cancel e, ?_⟩
    · show w.next + i < w.next + k
      exact Nat.add_lt_add_left hi _
    · intro i a hi h
      have e : (withOpts w k o).opt (op i) = o := withOpts_new w k o hi
      exact absurd (by rw [e]; exact h0) h.1
  have place : ∀ {w : World α} (A : Nat → Nat → α), TiedTask w (net.task op m) net op (fun _ => S) →
      ∃ w' X, OnlyAllocs w w' ∧ TiedTask w' (net.task op m) net op (fun _ => S) ∧ IsData w' net X r L.n A := by
    intro w A h
    have hx := place_spec w A hr hn
    refine ⟨_, _, hx.frame, h.frame hx.frame (Static.of_frame hx.frame fun _ _ h => h) (fun _ h => h) (fun _ h => h) (fun _ _ h => h)
      (fun _ _ _ _ h => h), hx.mat, hx.cap.ge, ?_⟩
    intro a hp hrow
    have := hx.fresh a hrow
    have := h.isNet.param_lt ((h.isNet.isParam hx.frame (fun _ h => h) a).1 hp)
    omega
  obtain ⟨w1, XM, f1, t1, d1⟩ := place X hT
  obtain ⟨w2, YM, f2, t2, d2⟩ := place Y t1
  exact ⟨w2, net, op, XM, YM, rfl, rfl, rfl, fun _ _ => rfl, t2, d1.allocs t1.isNet f2, d2⟩

/-- A ReLU unit with weight -1 and bias 1/2. -/
noncomputable def foldUnit : LayerSpec ℝ := ⟨.hidden, 1, 1, fun _ _ => -1, fun _ => 1 / 2, 0, 0⟩

theorem foldUnit_infer (X : Nat → Nat → ℝ) : infer foldUnit X = fun i _ => max (-X i 0 + 1 / 2) 0 := by
  funext i j
  simp [infer, actRow, foldUnit, preact_real]

/-- What the code does to a model that applies this unit twice, on the sample 1 ↦ 1: the derivative through the first place is
masked by the output of the second. -/
theorem fold_trainOn {w : World ℝ} {m : Model ℝ} {net : Net ℝ} {op : Nat → Nat} {S : Nat → OptSpec ℝ} {lr : ℝ}
    (hT : TiedTask w m net op S) (hs : net.size = 2) (hL : net.L = fun _ => foldUnit) (hdim : net.dim = fun _ => 1)
    (hlp : ∀ i j, net.lp i = net.lp j)
    (hS : ∀ i, i < net.size → (S i).kind = .sgd ∧ (S i).momentum = 0 ∧ (S i).decay = 0 ∧ (S i).lr = lr)
    (hl : m.loss = some ⟨.mse, 1⟩) {x y : Mat} {X Y : Nat → Nat → ℝ} (hX : IsMat w x 1 1 X) (hY : IsMat w y 1 1 Y) (hX1 : X 0 0 = 1)
    (hY1 : Y 0 0 = 1) :
    wp (trainOn m x y) w (fun e w' => e = none ∧ ∃ net' S', TiedTask w' m net' op S' ∧ SameShape net net' ∧
      (net'.L 0).W 0 0 = -1 - lr) := by
  have hd0 : net.dim 0 = 1 := by rw [hdim]
  unfold trainOn
  refine wp_bind_mono (modelForward_spec hT.isNet (hd0.symm ▸ hX) true) ?_
  rintro ⟨outs, e⟩ w1 ⟨o, mask, V, M, he1, he2, ho, hV, hrun⟩
  obtain rfl : e = none := he2
  dsimp only at he1 ⊢
  subst he1
  have hN := hT.isNet
  rw [hs] at hrun
  have hkind : ∀ k, (net.L k).kind = .hidden := fun k => by rw [hL]; rfl
  have hnd : ∀ k, ¬ (true = true ∧ (net.L k).kind = .dropout) := fun k h => by rw [hkind] at h; cases h.2
  have v1 : V 1 = infer foldUnit X := by have := hrun.val 0 (by omega) (hnd 0); rw [hV, hL] at this; exact this
  have v2 : V 2 = infer foldUnit (V 1) := by have := hrun.val 1 (by omega) (hnd 1); rw [hL] at this; exact this
  have e1 : V 1 0 0 = 0 := by rw [v1, foldUnit_infer]; dsimp only; rw [hX1]; norm_num
  have e2 : V 2 0 0 = 1 / 2 := by rw [v2, foldUnit_infer]; dsimp only; rw [e1]; norm_num
  obtain ⟨l, hmem⟩ := hrun.memo 1 (by omega) (fun i h1 h2 => absurd h1 (by omega)) (hnd 1)
  have hrel : ∀ k, (w1.lay (net.lp k)).reluInputs = o 2 := by
    intro k
    rw [hlp k 1, hmem]
    unfold remember
    rw [hkind]
  have hX' := hX.frame hrun.frame (fun h => h) (fun _ _ h => h)
  have hY' := hY.frame hrun.frame (fun h => h) (fun _ _ h => h)
  have hT1 : TiedTask w1 m net op S := hT.frame hrun.frame hrun.stat (fun _ h => h) (fun _ h => h) (fun _ _ h => h)
    (fun _ _ _ _ h => h)
  have hN1 := hT1.isNet
  have o1 : Fresh w w1 (o 1) 1 1 (V 1) := by have := hrun.res 0 (by omega); rw [hdim] at this; exact this
  have o2 : Fresh w w1 (o 2) 1 1 (V 2) := by have := hrun.res 1 (by omega); rw [hdim] at this; exact this
  have hlay1 : ∀ k, k < 2 → IsLayer w1 (net.lp k) (net.wm k) (net.bm k) foldUnit := fun k hk => by
    have := hN1.lay k (by omega); rwa [hL] at this
  -- the loss
  have hback : wp (modelBackward m ((List.range (net.size + 1)).map o) y) w1 (fun p w2 => p.2 = none ∧ OnlyAllocs w1 w2 ∧
      ∃ G : Nat → Nat → Nat → ℝ, HasGrads w1 w2 net 1 0 V G p.1 ∧ G 0 0 0 = 1 ∧ G 1 0 0 = -1) := by
    unfold modelBackward
    rw [hN1.size, hs]
    refine wp_bind_ok (fusedLast_run hN1 (k := 1) (by omega)) ?_
    rw [if_neg (by simp [hkind])]
    refine wp_bind_ok (b := o 2) (w' := w1) (by simp [listGet]; rfl) ?_
    rw [hl]
    refine wp_bind_ok rfl ?_
    refine wp_bind_mono (mseBackward_spec o2.mat hY') ?_
    rintro ⟨d, e⟩ w2 ⟨he, hd⟩
    obtain rfl : e = none := he
    dsimp only at hd ⊢
    have hd2 := hd.toFresh
    have ha2 := hd.frame
    have old : ∀ {x : Mat} {r' c' : Nat} {A : Nat → Nat → ℝ} {w3 : World ℝ} {d : Mat} {D : Nat → Nat → ℝ}, OnlyAllocs w1 w3 →
        Fresh w1 w3 d 1 1 D → IsMat w1 x r' c' A → ∀ a, w3.IsRow x r' a → ¬ w3.IsRow d 1 a := by
      intro x r' c' A w3 d D ha hd hx a h1 h2
      have := hd.fresh a h2
      have := hx.isRow_lt ((hx.isRow_frame ha (fun h => h) a).1 h1)
      omega
    have om : ∀ k, k < 2 → IsMat w1 (o k) 1 1 (V k) := by
      intro k hk
      rcases k with _ | k
      · rw [ho, hV]; exact hX'
      · obtain rfl : k = 0 := by omega
        exact o1.mat
    have step : ∀ (k : Nat) (hk : k < 2) {w3 : World ℝ} {d : Mat} {D : Nat → Nat → ℝ}, OnlyAllocs w1 w3 → Fresh w1 w3 d 1 1 D →
        wp (layerBackward (net.lp k) (o k) d) w3 (fun g w4 => GradOk w3 w4 g 1 1 1 (V k)
          (fun i j => if Flt.le (V 2 i j) Flt.zero then Flt.zero else D i j) (fun _ _ => -1) ∧ Frame { flt := w3.IsRow d 1 } w3 w4) := by
      intro k hk w3 d D ha hd
      have hlay : w3.lay (net.lp k) = w1.lay (net.lp k) := ha.lay _ (hlay1 k hk).lt (fun h => h)
      have hN3 : IsNet w3 m net := hN1.frame ha (Static.of_frame ha fun _ _ h => h) (fun _ h => h) (fun _ _ h => h)
      have hL3 : IsLayer w3 (net.lp k) (net.wm k) (net.bm k) foldUnit := by have := hN3.lay k (by omega); rwa [hL] at this
      unfold layerBackward
      refine wp_bind_ok rfl ?_
      rw [hL3.kind]
      have e : (w3.lay (net.lp k)).reluInputs = o 2 := by rw [hlay, hrel]
      exact hiddenBackward_spec hL3 ((om k hk).allocs ha) hd.mat ⟨hd.distinct, old ha hd (om k hk), old ha hd (hlay1 k hk).wmat⟩
        (by rw [e]; exact o2.mat.allocs ha) (by rw [e]; exact old ha hd o2.mat)
    have netAt : ∀ {w3 : World ℝ}, OnlyAllocs w1 w3 → IsNet w3 m net := fun ha =>
      hN1.frame ha (Static.of_frame ha fun _ _ h => h) (fun _ h => h) (fun _ _ h => h)
    have allocs : ∀ {w3 w4 : World ℝ} {d : Mat} {D : Nat → Nat → ℝ}, OnlyAllocs w1 w3 → Fresh w1 w3 d 1 1 D →
        Frame { flt := w3.IsRow d 1 } w3 w4 → OnlyAllocs w1 w4 := by
      intro w3 w4 d D ha hd hfr
      have hle := ha.next_le
      frames ha hfr
      intro a ha0 h2
      have := hd.fresh a h2
      exact absurd ha0 (by omega)
    show wp (backwardLoop m _ (1 + 1) [] d) w2 _
    unfold backwardLoop
    refine wp_bind_ok (fusedLast_run (netAt ha2) (k := 1) (by omega)) ?_
    rw [if_neg (by simp [hkind])]
    refine wp_bind_ok (b := net.lp 1) (w' := w2) (by simp [listGet, hN1.get_layer (i := 1) (by omega)]; rfl) ?_
    refine wp_bind_ok (b := o 1) (w' := w2) (by simp [listGet]; rfl) ?_
    refine wp_bind_mono (step 1 (by omega) ha2 hd2) ?_
    intro ga w3 ⟨h1, hfr⟩
    rw [h1.err]
    dsimp only
    have ha3 := allocs ha2 hd2 hfr
    have hx3 := h1.dx.mono ha2.next_le
    unfold backwardLoop
    refine wp_bind_ok (fusedLast_run (netAt ha3) (k := 0) (by omega)) ?_
    rw [if_neg (by simp [hkind])]
    refine wp_bind_ok (b := net.lp 0) (w' := w3) (by simp [listGet, hN1.get_layer (i := 0) (by omega)]; rfl) ?_
    refine wp_bind_ok (b := o 0) (w' := w3) (by simp [listGet]; rfl) ?_
    refine wp_bind_mono (step 0 (by omega) ha3 hx3) ?_
    intro gb w4 ⟨h2, hfr'⟩
    rw [h2.err]
    dsimp only
    have ha4 := allocs ha3 hx3 hfr'
    unfold backwardLoop
    refine ⟨rfl, ha4, fun k => if k = 0 then (fun i j => if Flt.le (V 2 i j) Flt.zero then Flt.zero else
        fsum 1 fun q => (if Flt.le (V 2 i q) Flt.zero then Flt.zero else (V 2 i q -. Y i q) *. (Flt.ofInt 2 /. Flt.ofInt ((1 : Nat) : Int))) *. -1)
      else fun i j => if Flt.le (V 2 i j) Flt.zero then Flt.zero else (V 2 i j -. Y i j) *. (Flt.ofInt 2 /. Flt.ofInt ((1 : Nat) : Int)),
      ⟨by rw [hs]; rfl, ?_⟩, ?_, ?_⟩
    · intro k _ hk
      rw [hs] at hk ⊢
      rw [hL]
      obtain rfl | rfl : k = 0 ∨ k = 1 := by omega
      · exact ⟨gb.dWeights, gb.dBiases, rfl, h2.dw.mono ha3.next_le, h2.db.mono ha3.next_le, h2.sep⟩
      · refine ⟨ga.dWeights, ga.dBiases, rfl, (h1.dw.mono ha2.next_le).frame hfr' (fun h => h) fun a h => h1.sepx a (.inl h),
          (h1.db.mono ha2.next_le).frame hfr' (fun h => h) fun a h => h1.sepx a (.inr h), fun a h3 h4 => h1.sep a
            ((h1.dw.mat.isRow_frame hfr' (fun h => h) a).1 h3) ((h1.db.mat.isRow_frame hfr' (fun h => h) a).1 h4)⟩
    · simp [fsum, e2, hY1, Flt.zero]
      norm_num
    · simp [e2, hY1, Flt.zero]
      norm_num
  refine wp_bind_mono hback ?_
  rintro ⟨gs, e⟩ w2 ⟨he, hfr, G, hg, g0, g1⟩
  obtain rfl : e = none := he
  dsimp only at hg ⊢
  have hT2 : TiedTask w2 m net op S := hT1.frame hfr (Static.of_frame hfr fun _ _ h => h) (fun _ h => h) (fun _ h => h) (fun _ _ h => h)
    (fun _ _ _ _ h => h)
  refine wp_mono (tied_updateLayers hT2 (fun a ha => hN1.param_lt ((hN1.isParam hfr (fun _ h => h) a).1 ha)) hg) ?_
  rintro e w3 ⟨he, h1, h2⟩
  refine ⟨he, _, _, h1, ⟨rfl, rfl, rfl, rfl, rfl, fun i => tiedL_shape _ _ _ _ _ _ _⟩, ?_⟩
  show (tiedL net S 1 V G 0 net.size).W 0 0 = _
  rw [(tiedL_sgd 1 V G 0 net.size hS).1, hs]
  have a0 : gradW 1 (V 0) (G 0) 0 0 = 1 := by simp [gradW, fsum, hV, hX1, g0]
  have a1 : gradW 1 (V 1) (G 1) 0 0 = 0 := by simp [gradW, fsum, e1]
  simp [Finset.sum_range_succ, hlp 1 0, a0, a1, hL, foldUnit]

theorem fold_fit {w : World ℝ} {m : Model ℝ} {net : Net ℝ} {op : Nat → Nat} {S : Nat → OptSpec ℝ} {lr : ℝ}
    (hT : TiedTask w m net op S) (hs : net.size = 2) (hL : net.L = fun _ => foldUnit) (hdim : net.dim = fun _ => 1)
    (hlp : ∀ i j, net.lp i = net.lp j)
    (hS : ∀ i, i < net.size → (S i).kind = .sgd ∧ (S i).momentum = 0 ∧ (S i).decay = 0 ∧ (S i).lr = lr)
    (hl : m.loss = some ⟨.mse, 1⟩) {x y xv yv : Mat} {X Y : Nat → Nat → ℝ} (hX : IsData w net x 1 1 X) (hY : IsData w net y 1 1 Y)
    (hX1 : X 0 0 = 1) (hY1 : Y 0 0 = 1) :
    wp (fit m x y 1 0 xv yv 0) w (fun e w' => e = none ∧ ∃ net' S', TiedTask w' m net' op S' ∧ SameShape net net' ∧
      (net'.L 0).W 0 0 = -1 - lr) := by
  have e := fit_blocks (m := m) (xv := xv) (yv := yv) hX.mat hY.mat hX.cap hY.cap 1 0 (by norm_num) 0
  unfold wp
  rw [show fit m x y 1 0 xv yv 0 w = _ from e]
  change wp (forRet 1 _) w _
  set P : World ℝ → Prop := fun w' => ∃ net' S', TiedTask w' m net' op S' ∧ SameShape net net' ∧ (net'.L 0).W 0 0 = -1 - lr with hP
  refine wp_mono (wp_forRet_none (fun e w' => if e = 0 then w' = w else P w') rfl ?_) fun e w' h => h
  intro k w1 hk h1
  obtain rfl : k = 0 := by omega
  obtain rfl : w1 = w := h1
  have hbl : blocks 1 0 = [(0, 1)] := rfl
  unfold trainEpoch
  rw [hbl]
  have hx := hX.mat.rowsOf (lo := 0) (k := 1) Nat.one_pos le_rfl
  have hy := hY.mat.rowsOf (lo := 0) (k := 1) Nat.one_pos le_rfl
  have hloop := wp_forRet_none (n := 1) (w := w1) (body := fun s => trainOn m (rowsOf x (([(0, 1)] : List (Nat × Nat)).getD s (0, 0)))
    (rowsOf y (([(0, 1)] : List (Nat × Nat)).getD s (0, 0)))) (fun e w' => if e = 0 then w' = w1 else P w') rfl (by
      intro k w2 hk h1
      obtain rfl : k = 0 := by omega
      obtain rfl : w2 = w1 := h1
      exact fold_trainOn hT hs hL hdim hlp hS hl hx hy hX1 hY1)
  refine wp_bind_mono hloop ?_
  rintro r w2 ⟨rfl, h2⟩
  unfold endOfEpoch
  rw [if_neg (by simp)]
  exact ⟨rfl, h2⟩

/-- A model that applies a ReLU unit twice, on the sample 1 ↦ 1, with plain SGD. -/
theorem exists_fold {lr : ℝ} (hlr : 0 < lr) : ∃ (w : World ℝ) (m : Model ℝ) (net : Net ℝ) (op : Nat → Nat) (S : Nat → OptSpec ℝ)
    (X Y : Mat), SharedModel w m net op S .mse lr X Y 1 (fun _ _ => 1) (fun _ _ => 1) ∧ net.size = 2 ∧ (net.L = fun _ => foldUnit) ∧
      (net.dim = fun _ => 1) ∧ ∀ i j, net.lp i = net.lp j := by
  obtain ⟨o, ho⟩ := sgd_ok_real (lr := lr) (decay := 0) (mom := 0) hlr le_rfl le_rfl
  have hrows : o.weightMomentums.rows = 0 := by rw [newSGD_ok ho]; rfl
  obtain ⟨w, net, op, XM, YM, hs, hL, hdim, hlp, hT, dX, dY⟩ := exists_tied (emptyWorld : World ℝ) 2 (by norm_num) foldUnit Nat.one_pos rfl
    { newModel with loss := some ⟨.mse, 1⟩, lossType := 0 } o (OptSpec.fresh o) hrows
    (fun w p hlt e => e ▸ isOpt_newSGD _ _ _ _ hlt (e.symm ▸ ho)) (r := 1) Nat.one_pos (fun _ _ => 1) (fun _ _ => 1)
  have hz : ∀ l, (l = 0 ∨ l = 1) → preact foldUnit (netOut net (fun _ _ => 1) l) 0 0 ≠ 0 := by
    have h0 : netOut net (fun _ _ => 1) 0 = fun _ _ => 1 := rfl
    have h1 : netOut net (fun _ _ => (1 : ℝ)) 1 = fun _ _ => 0 := by
      show infer (net.L 0) _ = _
      rw [hL, h0, foldUnit_infer]
      funext i j
      norm_num
    rintro l (rfl | rfl)
    · rw [h0]; simp [preact_real, foldUnit]; norm_num
    · rw [h1]; simp [preact_real, foldUnit]
  refine ⟨w, net.task op _, net, op, _, XM, YM, ⟨hT, ⟨by omega, fun l _ => .inr (.inl (by rw [hL]; rfl))⟩, fun i _ => ?_, ?_, rfl, (fun h => by cases h), ?_, ?_, by norm_num, ?_,
    trivial⟩, hs, hL, hdim, hlp⟩
  · rw [newSGD_ok ho]; exact ⟨rfl, rfl, rfl, rfl⟩
  · rw [hdim]; rfl
  · rw [hdim]; exact dX
  · rw [hdim]; exact dY
  · intro l hl _ i j hi hj
    rw [hdim] at hj
    obtain rfl : i = 0 := by omega
    obtain rfl : j = 0 := by change j < 1 at hj; omega
    rw [hL]
    exact hz l (by omega)

/-- The claim is false: a model that applies a ReLU unit x ↦ max(-x + 1/2, 0) twice, on the sample 1 ↦ 1.  The unit is off at its
first place, so the objective does not depend on its weight (near -1); but the backward pass of the first place uses the outputs
remembered from the second one, where the unit is on, and Fit changes the weight. -/
theorem C136_false : ¬ C136_claim := by
  intro h
  obtain ⟨w, m, net, op, S, X, Y, hM, hs, hL, hdim, hlp⟩ := exists_fold (lr := 1) one_pos
  have hd : net.dim net.size = 1 := by rw [hdim]
  have hd0 : net.dim 0 = 1 := by rw [hdim]
  have h1 := h w m net op S .mse 1 X Y X Y 1 _ _ hM
  have h2 := fold_fit (xv := X) (yv := Y) hM.task hs hL hdim hlp hM.sgd (by rw [hM.isLoss, hd]; rfl) (by have := hM.xs; rwa [hd0] at this)
    (by have := hM.ys; rwa [hd] at this) rfl rfl
  obtain ⟨e, w', -, ⟨-, net1, S1, t1, s1, hstep⟩, -, net2, S2, t2, s2, hW⟩ := wp_iff.1 (wp_and h1 h2)
  obtain ⟨F, d, hF, hder, he⟩ := hstep.1 0 0 0 (by omega) (by rw [hL]; exact Nat.one_pos) (by rw [hL]; exact Nat.one_pos)
  -- the weight is the same in both descriptions of the final state
  have hw : (net1.L 0).W 0 0 = (net2.L 0).W 0 0 := by
    have a1 := (t1.isNet.lay 0 (by rw [s1.size]; omega)).wmat
    have a2 := (t2.isNet.lay 0 (by rw [s2.size]; omega)).wmat
    rw [s1.wm, s1.n, s1.o, hL] at a1
    rw [s2.wm, s2.n, s2.o, hL] at a2
    exact a1.entries_unique a2 Nat.one_pos Nat.one_pos
  -- the derivative is 0
  have hval : ∀ t : ℝ, t < 1 / 2 → F t 0 0 = 1 / 2 := by
    intro t ht
    set net' := net.addSharedW (net.lp 0) 0 0 t with hn'
    have hL' : ∀ l, net'.L l = { foldUnit with W := fun k j => -1 + t * (if net.lp l = net.lp 0 ∧ k = 0 ∧ j = 0 then 1 else 0) } := fun l => by
      show ({ net.L l with W := _ } : LayerSpec ℝ) = _
      rw [hL]; rfl
    have h1 := netComputes_netOut (net := net') (by intro k _; rw [hL' k]; simp [foldUnit]) 1 (fun _ _ => 1)
    have := NetComputes.unique (net := net') (fun i => by rw [hL' i]; exact ⟨Nat.one_pos, Nat.one_pos⟩) (fun i => by rw [hL', hL']; rfl)
      (fun i => by rw [hL' i]; show net.dim i = 1; rw [hdim]) Nat.one_pos (hF t) h1 (i := 0) (j := 0) Nat.one_pos
      (by show 0 < net.dim net.size; omega)
    rw [this, show net'.size = 2 from hs]
    show infer (net'.L 1) (infer (net'.L 0) fun _ _ => 1) 0 0 = _
    rw [hL', hL']
    simp [infer, actRow, foldUnit, preact_real, hlp 1 0]
    rw [max_eq_right (a := -1 + t + 2⁻¹) (by linarith)]
    norm_num
  have hd1 : HasDerivAt (fun t => objective .mse 1 (net.dim net.size) (F t) (fun _ _ => 1)) 0 0 := by
    refine (hasDerivAt_const (0 : ℝ) (1 / 4 : ℝ)).congr_of_eventuallyEq ?_
    filter_upwards [gt_mem_nhds (show (0 : ℝ) < 1 / 2 by norm_num)] with t ht
    rw [hd]
    simp [objective, hval t ht]
    norm_num
  have hd0' := hder.unique hd1
  rw [hd0', hL] at he
  rw [hw, hW] at he
  simp [foldUnit] at he

/-! ### Examples -/

/-- A linear unit with weight 2 and bias 1. -/
noncomputable def doubleUnit : LayerSpec ℝ := ⟨.linear, 1, 1, fun _ _ => 2, fun _ => 1, 0, 0⟩

/-- A model that applies a linear unit three times: all hypotheses of `C136_shared_partial` hold. -/
example : ∃ (w : World ℝ) (m : Model ℝ) (net : Net ℝ) (op : Nat → Nat) (S : Nat → OptSpec ℝ) (X Y : Mat),
    SharedModel w m net op S .mse 1 X Y 2 (fun i _ => i) (fun _ _ => 1) ∧ TiedLinear net ∧ net.size = 3 ∧ net.lp 0 = net.lp 2 := by
  obtain ⟨o, ho⟩ := sgd_ok_real (lr := 1) (decay := 0) (mom := 0) one_pos le_rfl le_rfl
  have hrows : o.weightMomentums.rows = 0 := by rw [newSGD_ok ho]; rfl
  obtain ⟨w, net, op, XM, YM, hs, hL, hdim, hlp, hT, dX, dY⟩ := exists_tied (emptyWorld : World ℝ) 3 (by norm_num) doubleUnit Nat.one_pos
    rfl { newModel with loss := some ⟨.mse, 1⟩, lossType := 0 } o (OptSpec.fresh o) hrows
    (fun w p hlt e => e ▸ isOpt_newSGD _ _ _ _ hlt (e.symm ▸ ho)) (r := 2) Nat.two_pos (fun i _ => (i : ℝ)) (fun _ _ => 1)
  refine ⟨w, net.task op _, net, op, _, XM, YM, ⟨hT, ⟨by omega, fun l _ => .inl (by rw [hL]; rfl)⟩, fun i _ => ?_, ?_, rfl,
    (fun h => by cases h), ?_, ?_, by norm_num, ?_, trivial⟩, fun _ _ _ _ _ _ => by rw [hL]; rfl, hs, hlp 0 2⟩
  · rw [newSGD_ok ho]; exact ⟨rfl, rfl, rfl, rfl⟩
  · rw [hdim]; rfl
  · rw [hdim]; exact dX
  · rw [hdim]; exact dY
  · intro l _ h
    rw [hL] at h
    rcases h with h | h <;> cases h

/-- AddLayer accepts a layer that is already in the model, if its sizes fit. -/
theorem C136_accepts {α : Type} [Flt α] [FltInt α] (w : World α) (lp : Nat) (hs : SizesOk (w.lay lp))
    (hsq : (w.lay lp).outputSize = (w.lay lp).inputSize) :
    ∃ m1 m2, addLayer newModel lp w = .ok ((m1, none), w) ∧ addLayer m1 lp w = .ok ((m2, none), w) ∧ m2.modelSize = 2 ∧
      m2.layers = [lp, lp] := by
  have h1 := addLayer_accept (m := (newModel : Model α)) hs (fun h => h.1 rfl)
  refine ⟨_, _, h1, addLayer_accept hs (fun h => h.2 hsq), rfl, rfl⟩

/-- A layer with 3 inputs and 3 outputs. -/
example : ∃ (w : World ℝ) (lp : Nat), SizesOk (w.lay lp) ∧ (w.lay lp).outputSize = (w.lay lp).inputSize := by
  obtain ⟨w, lp, wm, bm, -, h, -⟩ := exists_layers (emptyWorld : World ℝ) (fun _ => { doubleUnit with n := 3, o := 3 })
    (fun _ => ⟨by norm_num, by norm_num⟩) 1
  have := h 0 Nat.one_pos
  refine ⟨w, lp 0, ?_, by rw [this.ins, this.outs]⟩
  unfold SizesOk
  rw [this.ins, this.outs]
  norm_num

end NN
