import Verif.Props.C71
import Verif.Props.C72
/- Property C93: training a deep model whose layers were not initialised. -/

set_option linter.unusedSectionVars false

namespace NN
open Go Finset

/-- Layer types that map zero pre-activations to zero. -/
def ZeroAct (k : LayerKind) : Prop := k = .linear ∨ k = .hidden ∨ k = .leaky ∨ k = .dropout

theorem zero_real : (Flt.zero : ℝ) = 0 := by simp [Flt.zero]

/-- A network with no weights and, below the last layer, no biases, where all layers below the last map zero to zero. -/
structure Blank (net : Net ℝ) : Prop where
  weights : ∀ k, k < net.size → ∀ i j, (net.L k).W i j = 0
  biases : ∀ k, k + 1 < net.size → ∀ j, (net.L k).b j = 0
  act : ∀ k, k + 1 < net.size → ZeroAct (net.L k).kind

/-- Optimizers without accumulated state for the parameters that are zero in a blank network. -/
structure BlankOpts (net : Net ℝ) (S : Nat → OptSpec ℝ) : Prop where
  vw : ∀ k, k < net.size → ∀ i j, (S k).vw i j = 0 ∧ (S k).cw i j = 0
  vb : ∀ k, k + 1 < net.size → ∀ i j, (S k).vb i j = 0 ∧ (S k).cb i j = 0

theorem OptSpec.upd_zero (S : OptSpec ℝ) (x : ℝ) : S.upd x 0 0 0 = x ∧ S.vel 0 0 = 0 ∧ S.cache 0 0 = 0 := by
  unfold OptSpec.upd OptSpec.cache OptSpec.vel
  cases S.kind
  · dsimp only
    split <;> simp
  · simp

theorem Blank.preact {net : Net ℝ} (h : Blank net) {k : Nat} (hk : k + 1 < net.size) (X : Nat → Nat → ℝ) (i j : Nat) :
    NN.preact (net.L k) X i j = 0 := by
  rw [preact_real, h.biases k hk, add_zero]
  exact Finset.sum_eq_zero fun q _ => by rw [h.weights k (by omega), mul_zero]

theorem Blank.hidden {net : Net ℝ} (h : Blank net) (r : Nat) (u : Nat → ℝ) (X : Nat → Nat → ℝ) {k : Nat} (hk : k + 1 < net.size) :
    trainVals net r u X (k + 1) = fun _ _ => 0 := by
  funext i j
  show trainOut (net.L k) _ _ i j = 0
  unfold trainOut
  split
  · rw [h.preact hk]
    simp [Flt.max, Flt.zero]
  · unfold infer
    rcases h.act k hk with e | e | e | e <;> rw [e] <;> simp [actRow, h.preact hk, Flt.max, Flt.zero, Flt.lt]

theorem Blank.inferred {net : Net ℝ} (h : Blank net) (X : Nat → Nat → ℝ) {k : Nat} (hk : k + 1 < net.size) :
    netOut net X (k + 1) = fun _ _ => 0 := by
  funext i j
  show infer (net.L k) _ i j = 0
  unfold infer
  rcases h.act k hk with e | e | e | e <;> rw [e] <;> simp [actRow, h.preact hk, Flt.max, Flt.zero, Flt.lt]

/-- Back-propagation through a blank network: no gradient reaches the layers below the last one. -/
theorem Blank.grads {net : Net ℝ} (h : Blank net) {m : Model ℝ} {loss : LossKind} {r : Nat} {V M : Nat → Nat → Nat → ℝ}
    {Y : Nat → Nat → ℝ} {G D : Nat → Nat → Nat → ℝ} (hG : NetGrad m net loss r V M Y G D) {k : Nat} (hk : k + 1 < net.size) :
    G k = fun _ _ => 0 := by
  have hD : D (net.size - 1) = fun _ _ => 0 := by
    have e : D (net.size - 1) = gradX (net.L (net.size - 1)) (G (net.size - 1)) := by
      by_cases hf : Fused m net
      · exact (hG.fused hf).2.1
      · exact (hG.plain hf).2.inp _ (by omega)
    rw [e]
    funext i j
    simp only [gradX, fsum_real]
    exact Finset.sum_eq_zero fun q _ => by rw [h.weights _ (by omega)]; exact mul_zero _
  obtain ⟨V', hb⟩ : ∃ V', Backprop net V' M G D (net.size - 1) := by
    by_cases hf : Fused m net
    · exact ⟨_, (hG.fused hf).2.2⟩
    · have := (hG.plain hf).2
      exact ⟨fun k => if k = net.size then afterLoss loss (V k) else V k, fun k hk => this.act k (by omega), fun k hk => this.inp k (by omega)⟩
  have key : ∀ d, d + 1 < net.size → G (net.size - 2 - d) = fun _ _ => 0 := by
    intro d
    induction d with
    | zero =>
      intro hd
      rw [hb.act _ (by omega), show net.size - 2 - 0 + 1 = net.size - 1 by omega, hD]
      exact actBack_zero _ _ _
    | succ d ih =>
      intro hd
      rw [hb.act _ (by omega), show net.size - 2 - (d + 1) + 1 = net.size - 2 - d by omega, hb.inp _ (by omega), ih (by omega)]
      rw [show gradX (net.L (net.size - 2 - d)) (fun _ _ => 0) = fun _ _ => 0 by
        funext i j
        simp [gradX, fsum_real]]
      exact actBack_zero _ _ _
  have := key (net.size - 2 - k) (by omega)
  rwa [show net.size - 2 - (net.size - 2 - k) = k by omega] at this

theorem Blank.step {net net' : Net ℝ} {S S' : Nat → OptSpec ℝ} (h : Blank net) (hS : BlankOpts net S) (h2 : 2 ≤ net.size) {m : Model ℝ}
    {loss : LossKind} {r : Nat} {u : Nat → ℝ} {X Y : Nat → Nat → ℝ} (hst : TrainStep m loss r u X Y net S net' S') :
    Blank net' ∧ BlankOpts net' S' ∧ net'.size = net.size := by
  obtain ⟨G, D, hG, rfl, rfl⟩ := hst
  have hw : ∀ k, k < net.size → ∀ i j, gradW r (trainVals net r u X k) (G k) i j = 0 := by
    intro k hk i j
    simp only [gradW, fsum_real]
    refine Finset.sum_eq_zero fun q _ => ?_
    rcases Nat.lt_or_ge (k + 1) net.size with hk' | hk'
    · rw [h.grads hG hk']; exact mul_zero _
    · obtain ⟨k, rfl⟩ : ∃ k', k = k' + 1 := ⟨k - 1, by omega⟩
      rw [h.hidden r u X (by omega)]; exact zero_mul _
  have hb : ∀ k, k + 1 < net.size → ∀ i j, gradB r (G k) i j = 0 := by
    intro k hk i j
    simp only [gradB, fsum_real]
    exact Finset.sum_eq_zero fun q _ => by rw [h.grads hG hk]
  refine ⟨⟨fun k hk i j => ?_, fun k hk j => ?_, h.act⟩, ⟨fun k hk i j => ?_, fun k hk i j => ?_⟩, rfl⟩
  · show (S k).upd ((net.L k).W i j) ((S k).vw i j) ((S k).cw i j) (gradW r _ (G k) i j) = 0
    rw [hw k hk, (hS.vw k hk i j).1, (hS.vw k hk i j).2, h.weights k hk]
    exact ((S k).upd_zero 0).1
  · show (S k).upd ((net.L k).b j) ((S k).vb 0 j) ((S k).cb 0 j) (gradB r (G k) 0 j) = 0
    rw [hb k hk, (hS.vb k hk 0 j).1, (hS.vb k hk 0 j).2, h.biases k hk]
    exact ((S k).upd_zero 0).1
  · show (S k).vel ((S k).vw i j) (gradW r _ (G k) i j) = 0 ∧ (S k).cache ((S k).cw i j) (gradW r _ (G k) i j) = 0
    rw [hw k hk, (hS.vw k hk i j).1, (hS.vw k hk i j).2]
    exact ((S k).upd_zero 0).2
  · show (S k).vel ((S k).vb i j) (gradB r (G k) i j) = 0 ∧ (S k).cache ((S k).cb i j) (gradB r (G k) i j) = 0
    rw [hb k hk, (hS.vb k hk i j).1, (hS.vb k hk i j).2]
    exact ((S k).upd_zero 0).2

theorem Descent.blank {m : Model ℝ} {loss : LossKind} {u : Nat → ℝ} {X Y : Nat → Nat → ℝ} {net : Net ℝ} {S : Nat → OptSpec ℝ} {p : Nat}
    {bs : List (Nat × Nat)} {net' : Net ℝ} {S' : Nat → OptSpec ℝ} {p' : Nat} (h : Descent m loss u X Y net S p bs net' S' p')
    (hB : Blank net) (hS : BlankOpts net S) (h2 : 2 ≤ net.size) : Blank net' ∧ BlankOpts net' S' ∧ net'.size = net.size := by
  induction h with
  | start => exact ⟨hB, hS, rfl⟩
  | step _ hst ih =>
    obtain ⟨i1, i2, i3⟩ := ih
    obtain ⟨j1, j2, j3⟩ := i1.step i2 (by omega) hst
    exact ⟨j1, j2, j3.trans i3⟩

/-- C93: Fit on a model of at least two layers without weights and hidden biases: no error, and afterwards there are still no weights and no
hidden biases; only the biases of the last layer may have changed. -/
theorem C93_fit (w : World ℝ) (m : Model ℝ) (net : Net ℝ) (op : Nat → Nat) (S : Nat → OptSpec ℝ) (loss : Loss) (X Y xv yv : Mat) (n : Nat)
    (A B : Nat → Nat → ℝ) (h : FitArgs w m net op S loss X Y n A B) (h2 : 2 ≤ net.size) (hB : Blank net) (hS : BlankOpts net S)
    (epochs : Int) (b : Nat) (hbig : n + b ≤ 2 ^ 53) :
    wp (fit m X Y epochs b xv yv 0) w (fun e w' => e = none ∧ ∃ net' S', IsTask w' m net' op S' ∧ SameShape net net' ∧
      (∀ k, k < net.size → ∀ i j, (net'.L k).W i j = 0) ∧ ∀ k, k + 1 < net.size → ∀ j, (net'.L k).b j = 0) := by
  refine wp_mono (C70_fit w m net op S h.task h.noSigmoid loss h.loss_eq h.loss_size X Y xv yv n A B h.x h.y h.xcap h.ycap h.xsep h.ysep
    epochs b hbig) ?_
  rintro e w' ⟨rfl, net', S', hD, hT, hsh, -⟩
  obtain ⟨h1, -, h3⟩ := hD.blank hB hS h2
  exact ⟨rfl, net', S', hT, hsh, fun k hk => h1.weights k (by omega), fun k hk => h1.biases k (by omega)⟩

/-- The output of a blank network does not depend on its input. -/
theorem Blank.const {net : Net ℝ} (h : Blank net) (h2 : 2 ≤ net.size) (X : Nat → Nat → ℝ) (i j : Nat) :
    netOut net X net.size i j = actRow (net.L (net.size - 1)).kind (net.L (net.size - 1)).slope (net.L (net.size - 1)).o
      (net.L (net.size - 1)).b j := by
  obtain ⟨s, hs⟩ : ∃ s, net.size = s + 2 := ⟨net.size - 2, by omega⟩
  have e : netOut net X net.size = infer (net.L (s + 1)) (netOut net X (s + 1)) := by rw [hs]; rfl
  rw [e, h.inferred X (by omega)]
  unfold infer
  rw [show net.size - 1 = s + 1 by omega]
  congr 1
  funext q
  rw [preact_real]
  simp

/-- C93: the model so trained gives every input the same output: the activation of the biases of the last layer. -/
theorem C93_constant (w : World ℝ) (m : Model ℝ) (net : Net ℝ) (op : Nat → Nat) (S : Nat → OptSpec ℝ) (loss : Loss) (X Y xv yv : Mat) (n : Nat)
    (A B : Nat → Nat → ℝ) (h : FitArgs w m net op S loss X Y n A B) (h2 : 2 ≤ net.size) (hB : Blank net) (hS : BlankOpts net S)
    (epochs : Int) (b : Nat) (hbig : n + b ≤ 2 ^ 53) :
    wp (fit m X Y epochs b xv yv 0) w (fun e w' => e = none ∧ ∃ v : Nat → ℝ, ∀ (w1 : World ℝ) (x : Mat) (r : Nat) (Z : Nat → Nat → ℝ),
      OnlyAllocs w' w1 → IsMat w1 x r (net.dim 0) Z → wp (modelForward m x false) w1 (fun p w2 => p.2 = none ∧
        ∃ o, p.1.getLast? = some o ∧ IsMat w2 o r (net.dim net.size) (fun _ => v))) := by
  refine wp_mono (C70_fit w m net op S h.task h.noSigmoid loss h.loss_eq h.loss_size X Y xv yv n A B h.x h.y h.xcap h.ycap h.xsep h.ysep
    epochs b hbig) ?_
  rintro e w' ⟨rfl, net', S', hD, hT, hsh, -⟩
  obtain ⟨h1, -, h3⟩ := hD.blank hB hS h2
  refine ⟨rfl, actRow (net'.L (net'.size - 1)).kind (net'.L (net'.size - 1)).slope (net'.L (net'.size - 1)).o (net'.L (net'.size - 1)).b, ?_⟩
  intro w1 x r Z ha hx
  have hN1 := (hT.allocs ha).isNet
  rw [← hsh.dim] at hx
  refine wp_mono (modelInfer_spec hN1 hT.pos hx) ?_
  rintro p w2 ⟨e1, e2, o, e3, e4⟩
  refine ⟨e1, o, ?_, ?_⟩
  · rw [List.getLast?_eq_getElem?, e2]; exact e3
  · rw [← hsh.size, ← hsh.dim]
    exact e4.res.mat.congr fun i j _ _ => h1.const (by omega) Z i j

/-- A client that forgets InitLayers: build the model, Finalize, Fit. -/
noncomputable def trainUninit (a : Nat → LayerArg ℝ) (n : Nat) (loss : Loss) (o : Optim ℝ) (accType : Int) (accPrec : ℝ) (X Y : Mat)
    (epochs batchSize : Int) : Go ℝ (Model ℝ × Option Err) := do
  let (m, err) ← buildModel a n
  if let some e := err then
    return (m, some e)
  let (m, err) ← finalize m loss o.getValues accType accPrec
  if let some e := err then
    return (m, some e)
  let err ← fit m X Y epochs batchSize Mat.zero Mat.zero 0
  return (m, err)

/-- C93, from the client's side: building, finalizing and training a model of two or more layers without InitLayers succeeds without an
error, and the trained model gives every input the same output. -/
theorem C93_client (w : World ℝ) (a : Nat → LayerArg ℝ)
    (hs : ∀ i, -(2 ^ 53) ≤ (a i).inputs ∧ (a i).inputs ≤ 2 ^ 53 ∧ -(2 ^ 53) ≤ (a i).outputs ∧ (a i).outputs ≤ 2 ^ 53) (n : Nat)
    (hok : ArgsOk a n) (hn : 2 ≤ n) (hz : ∀ i, i + 1 < n → ZeroAct (a i).kind) (hns : (a (n - 1)).kind ≠ .sigmoid) (loss : Loss)
    (hl : loss.size = (a (n - 1)).outputs) (o : Optim ℝ) (accType : Int) (accPrec : ℝ) (hp : 0 ≤ accPrec)
    (X Y : Mat) (r cx cy : Nat) (A B : Nat → Nat → ℝ) (hcx : (cx : Int) = (a 0).inputs) (hcy : (cy : Int) = (a (n - 1)).outputs)
    (hX : IsMat w X r cx A) (hY : IsMat w Y r cy B) (hcX : r ≤ X.m.cap) (hcY : r ≤ Y.m.cap) (epochs : Int) (b : Nat)
    (hbig : r + b ≤ 2 ^ 53) :
    wp (trainUninit a n loss o accType accPrec X Y epochs b) w (fun p w' => p.2 = none ∧ ∃ v : Nat → ℝ,
      ∀ (w1 : World ℝ) (x : Mat) (q : Nat) (Z : Nat → Nat → ℝ), OnlyAllocs w' w1 → IsMat w1 x q cx Z →
        wp (modelForward p.1 x false) w1 (fun p w2 => p.2 = none ∧ ∃ o, p.1.getLast? = some o ∧ IsMat w2 o q cy (fun _ => v))) := by
  have hl1 := (hok.1 (n - 1) (by omega)).2.1
  have hl2 := (hs (n - 1)).2.2.2
  unfold trainUninit
  refine wp_bind_mono (buildModel_spec w a hs n) ?_
  rintro ⟨m, e⟩ w1 ⟨ha, hiff, hb⟩
  dsimp only at hiff hb ⊢
  obtain rfl : e = none := hiff.2 hok
  obtain ⟨net, hsz, hB⟩ := hb rfl
  dsimp only
  have d0 : net.dim 0 = cx := by
    rw [hB.dim, argDim, if_pos rfl]; omega
  have d1 : net.dim net.size = cy := by
    rw [hsz, hB.dim, argDim, if_neg (by omega)]
    omega
  have hout : m.outputSize = loss.size := by
    rw [hB.isNet.output (by omega), d1]; omega
  have hr := finalize_run (w := w1) o accType accPrec (by omega) (by omega) hout
  rw [if_neg (by simpa [Flt.lt, Flt.zero] using hp)] at hr
  refine wp_bind_ok hr ?_
  dsimp only
  have hT := isTask_finalized hB.isNet hB.own (by omega) loss o accType accPrec
  have hf := ha.trans (withOpts_allocs w1 m.modelSize.toNat (optFrom o))
  set w2 := withOpts w1 m.modelSize.toNat (optFrom o)
  have hpar : ∀ x, w2.IsNetParam net x → w.next ≤ x := fun x hx =>
    hB.params x ((hB.isNet.isParam (withOpts_allocs w1 m.modelSize.toNat (optFrom o)) (fun _ h => h) x).1 hx)
  have hkind : ∀ k, k < net.size → (net.L k).kind = (a k).kind := fun k hk => by rw [hB.layer k hk]; rfl
  have hFA : FitArgs w2 { finalized m w1 loss o accType with accPrec := accPrec } net (w1.next + ·) (fun _ => OptSpec.fresh (optFrom o))
      loss X Y r A B := by
    refine ⟨hT, fun k hk => ?_, rfl, by omega, d0 ▸ hX.allocs hf, d1 ▸ hY.allocs hf, hcX, hcY, fun x h1 h2 => ?_, fun x h1 h2 => ?_⟩
    · rw [hkind k hk]
      rcases Nat.lt_or_ge (k + 1) n with h | h
      · rcases hz k h with e | e | e | e <;> rw [e] <;> simp
      · rwa [show k = n - 1 by omega]
    · have := hpar x h1
      have := hX.isRow_lt ((hX.isRow_frame hf (fun h => h) x).1 h2)
      omega
    · have := hpar x h1
      have := hY.isRow_lt ((hY.isRow_frame hf (fun h => h) x).1 h2)
      omega
  have hBl : Blank net := by
    refine ⟨fun k hk i j => ?_, fun k hk j => ?_, fun k hk => ?_⟩
    · rw [hB.layer k hk]; exact zero_real
    · rw [hB.layer k (by omega)]; exact zero_real
    · rw [hkind k (by omega)]; exact hz k (by omega)
  refine wp_bind_mono (C93_constant w2 _ net _ _ loss X Y Mat.zero Mat.zero r A B hFA (by omega) hBl
    ⟨fun _ _ _ _ => ⟨zero_real, zero_real⟩, fun _ _ _ _ => ⟨zero_real, zero_real⟩⟩ epochs b hbig) ?_
  rintro e w3 ⟨rfl, v, hv⟩
  refine wp_pure.2 ⟨rfl, v, fun w4 x q Z h1 h2 => ?_⟩
  have := hv w4 x q Z h1 (d0 ▸ h2)
  rwa [d1] at this

/-- A ReLU, a leaky and a linear layer without InitLayers, Adam, five rows (hypotheses of C93_fit, C93_constant). -/
example : ∃ (w : World ℝ) (m : Model ℝ) (net : Net ℝ) (op : Nat → Nat) (S : Nat → OptSpec ℝ) (loss : Loss) (X Y : Mat) (A B : Nat → Nat → ℝ),
    FitArgs w m net op S loss X Y 5 A B ∧ net.size = 3 ∧ Blank net ∧ BlankOpts net S ∧ (S 0).kind = .adam := by
  have hm : (newAdamOptimizer 1 0 (1 / 10) (1 / 2) (1 / 2) : Optim ℝ × Option Err).2 = none := by
    unfold newAdamOptimizer
    norm_num [Flt.le, Flt.lt, Flt.zero]
  obtain ⟨o, ho⟩ : ∃ o, newAdamOptimizer (1 : ℝ) 0 (1 / 10) (1 / 2) (1 / 2) = (o, none) := ⟨_, Prod.ext rfl hm⟩
  have hrows : o.weightMomentums.rows = 0 := by rw [newAdam_ok ho]; rfl
  let L : Nat → LayerSpec ℝ := fun i => match i with
    | 0 => ⟨.hidden, 2, 3, fun _ _ => 0, fun _ => 0, 0, 0⟩
    | 1 => ⟨.leaky, 3, 3, fun _ _ => 0, fun _ => 0, 1 / 10, 0⟩
    | _ => ⟨.linear, 3, 3, fun _ _ => 0, fun _ => 0, 0, 0⟩
  have hpos : ∀ i, 0 < (L i).n ∧ 0 < (L i).o := fun i => match i with
    | 0 => by simp [L]
    | 1 => by simp [L]
    | k + 2 => by simp [L]
  have hc : ∀ i, (L i).o = (L (i + 1)).n := fun i => match i with
    | 0 => rfl
    | 1 => rfl
    | k + 2 => rfl
  obtain ⟨w, net, op, XM, YM, xM, yM, -, hs, hL, hdim, hT, dX, dY, -, -⟩ := exists_task (emptyWorld : World ℝ) 3 (by decide)
    L hpos hc { newModel with loss := some ⟨.mse, 3⟩ } o (OptSpec.fresh o) hrows
    (fun w p i hlt e => e ▸ isOpt_newAdam _ _ _ _ hlt (e.symm ▸ ho)) (r := 5) (r' := 2) (by decide) (by decide)
    (fun i j => (i : ℝ) + j) (fun i j => (i : ℝ) - j) (fun i _ => (i : ℝ)) (fun _ j => (j : ℝ))
  have d0 : net.dim 0 = (L 0).n := by rw [hdim]
  have d1 : net.dim net.size = (L 3).n := by rw [hdim, hs]
  refine ⟨w, _, net, op, _, ⟨.mse, 3⟩, XM, YM, _, _, ⟨hT, ?_, rfl, ?_, d0 ▸ dX.mat, d1 ▸ dY.mat, dX.cap, dY.cap, dX.sep, dY.sep⟩, hs,
    ⟨?_, ?_, ?_⟩, ⟨fun _ _ _ _ => ⟨zero_real, zero_real⟩, fun _ _ _ _ => ⟨zero_real, zero_real⟩⟩, ?_⟩
  · intro k _; rw [hL]
    match k with
    | 0 => simp [L]
    | 1 => simp [L]
    | k + 2 => simp [L]
  · rw [d1]; rfl
  · intro k _ i j; rw [hL]
    match k with
    | 0 => rfl
    | 1 => rfl
    | k + 2 => rfl
  · intro k _ j; rw [hL]
    match k with
    | 0 => rfl
    | 1 => rfl
    | k + 2 => rfl
  · intro k hk; rw [hL]
    match k with
    | 0 => exact .inr (.inl rfl)
    | 1 => exact .inr (.inr (.inl rfl))
    | k + 2 => omega
  · rw [newAdam_ok ho]; rfl

/-- A ReLU layer 2→3, a dropout layer 3→4 and a linear layer 4→1, data of five rows (hypotheses of C93_client). -/
example : ∃ (w : World ℝ) (a : Nat → LayerArg ℝ) (loss : Loss) (X Y : Mat) (A B : Nat → Nat → ℝ),
    (∀ i, -(2 ^ 53) ≤ (a i).inputs ∧ (a i).inputs ≤ 2 ^ 53 ∧ -(2 ^ 53) ≤ (a i).outputs ∧ (a i).outputs ≤ 2 ^ 53) ∧
    ArgsOk a 3 ∧ (∀ i, i + 1 < 3 → ZeroAct (a i).kind) ∧ (a (3 - 1)).kind ≠ .sigmoid ∧ loss.size = (a (3 - 1)).outputs ∧
    ((2 : Nat) : Int) = (a 0).inputs ∧ ((1 : Nat) : Int) = (a (3 - 1)).outputs ∧ IsMat w X 5 2 A ∧ IsMat w Y 5 1 B ∧
    5 ≤ X.m.cap ∧ 5 ≤ Y.m.cap := by
  let a : Nat → LayerArg ℝ := fun i => match i with
    | 0 => ⟨.hidden, 2, 3, 0, 0⟩
    | 1 => ⟨.dropout, 3, 4, 0, 1 / 10⟩
    | _ => ⟨.linear, 4, 1, 0, 0⟩
  have hx := place_spec (emptyWorld (α := ℝ)) (r := 5) (c := 2) (fun i j => (i : ℝ) + j) (by decide) (by decide)
  have hy := place_spec (placeW (emptyWorld (α := ℝ)) 5 2 (fun i j => (i : ℝ) + j)) (r := 5) (c := 1) (fun i _ => (i : ℝ)) (by decide) (by decide)
  refine ⟨_, a, ⟨.mse, 1⟩, _, _, _, _, ?_, ⟨?_, ?_⟩, ?_, by simp [a], rfl, rfl, rfl, hx.mat.allocs hy.frame, hy.mat, hx.cap.ge, hy.cap.ge⟩
  · intro i
    match i with
    | 0 => simp [a]
    | 1 => simp [a]
    | k + 2 => simp [a]
  · intro i hi
    match i with
    | 0 => simp [a]
    | 1 => simp [a, Flt.lt]; norm_num
    | k + 2 => simp [a]
  · intro i hi
    match i with
    | 0 => rfl
    | 1 => rfl
    | k + 2 => omega
  · intro i hi
    match i with
    | 0 => exact .inr (.inl rfl)
    | 1 => exact .inr (.inr (.inr rfl))
    | k + 2 => omega

end NN
