import Verif.Lemmas.Client
import Verif.Props.C52_C57
/-
C71: the whole pipeline, from the layer constructors to the trained model.  C40, continued: InitLayers.
-/

set_option linter.unusedSectionVars false

namespace NN
open Go

section Any
variable {α : Type} [Flt α]

/-! ### C40 for InitLayers -/

/-- C40: InitLayers gives every layer, in order, new weights: each a different normal draw times sqrt(2/InputSize).  It consumes
as many draws as there are weights and changes nothing else. -/
theorem C40_layers (w : World α) (m : Model α) (net : Net α) (hN : IsNet w m net) (hO : OwnNet w net) :
    wp (initLayers m) w (fun _ w' =>
      (∃ net', IsNet w' m net' ∧ OwnNet w' net' ∧ SameShape net net' ∧ ∀ q, q < net.size → (net'.L q).b = (net.L q).b ∧
        (net'.L q).W = fun i j => w.norm (w.normPos + (initDraws net q + i * (net.L q).o + j)) *.
          Flt.sqrt (Flt.ofInt 2 /. Flt.ofInt (net.L q).n)) ∧
      Frame { flt := fun a => ∃ q, q < net.size ∧ w.IsRow (net.wm q) (net.L q).n a, norm := True } w w' ∧
      w'.normPos = w.normPos + initDraws net net.size) := by
  refine wp_mono (initLayers_spec hN hO) ?_
  intro _ w' h
  refine ⟨⟨_, h.isNet, h.own, initNet_same _ _ _, fun q hq => ?_⟩, h.frame, h.pos⟩
  unfold initNet
  dsimp only
  rw [if_pos hq]
  exact ⟨rfl, rfl⟩

/-! ### C71 -/

/-- C71: building a model: there is an error exactly if a layer has invalid arguments or does not fit its predecessor; without an
error the model has the layers asked for, with zero parameters, all in new separate storage. -/
theorem C71_build [FltInt α] (w : World α) (a : Nat → LayerArg α)
    (hs : ∀ i, -(2 ^ 53) ≤ (a i).inputs ∧ (a i).inputs ≤ 2 ^ 53 ∧ -(2 ^ 53) ≤ (a i).outputs ∧ (a i).outputs ≤ 2 ^ 53) (n : Nat) :
    wp (buildModel a n) w (fun p w' => OnlyAllocs w w' ∧ (p.2 = none ↔ ArgsOk a n) ∧
      (p.2 = none → ∃ net, net.size = n ∧ IsNet w' p.1 net ∧ OwnNet w' net ∧ (∀ x, w'.IsNetParam net x → w.next ≤ x) ∧
        ∀ i, i < n → (net.L i).kind = (a i).kind ∧ ((net.L i).n : Int) = (a i).inputs ∧ ((net.L i).o : Int) = (a i).outputs ∧
          ((a i).kind = .leaky → (net.L i).slope = (a i).slope) ∧ ((a i).kind = .dropout → (net.L i).dropout = (a i).dropout) ∧
          (∀ j k, (net.L i).W j k = Flt.zero) ∧ ∀ k, (net.L i).b k = Flt.zero)) := by
  refine wp_mono (buildModel_spec w a hs n) ?_
  rintro ⟨m, e⟩ w' ⟨h1, h2, h3⟩
  refine ⟨h1, h2, fun he => ?_⟩
  obtain ⟨net, hn, hB⟩ := h3 he
  refine ⟨net, hn, hB.isNet, hB.own, hB.params, fun i hi => ?_⟩
  rw [hB.layer i (by omega)]
  have := (h2.1 he).1 i hi
  refine ⟨rfl, ?_, ?_, fun h => ?_, fun h => ?_, fun _ _ => rfl, fun _ => rfl⟩
  · show (((a i).inputs.toNat : Nat) : Int) = _
    omega
  · show (((a i).outputs.toNat : Nat) : Int) = _
    omega
  · show (if _ then _ else _) = _
    rw [if_pos h]
  · show (if _ then _ else _) = _
    rw [if_pos h]

/-- The network made from the arguments `a` and the normal draws `d`: weights d(0), d(1), ... times sqrt(2/inputs), zero biases. -/
def IsStart (a : Nat → LayerArg α) (d : Nat → α) (net : Net α) : Prop :=
  ∀ i, i < net.size → (net.L i).kind = (a i).kind ∧ (((net.L i).n : Nat) : Int) = (a i).inputs ∧
    (((net.L i).o : Nat) : Int) = (a i).outputs ∧
    ((net.L i).slope = if (a i).kind = .leaky then (a i).slope else Flt.zero) ∧
    ((net.L i).dropout = if (a i).kind = .dropout then (a i).dropout else Flt.zero) ∧
    (∀ j k, (net.L i).W j k = d (initDraws net i + j * (net.L i).o + k) *. Flt.sqrt (Flt.ofInt 2 /. Flt.ofInt (net.L i).n)) ∧
    ∀ k, (net.L i).b k = Flt.zero

/-- What `makeModel` makes: a task in new storage with freshly initialised layers and optimizers, and the settings of Finalize. -/
structure Made (w w' : World α) (a : Nat → LayerArg α) (n : Nat) (loss : Loss) (o : Optim α) (accType : Int) (accPrec : α)
    (m : Model α) (net : Net α) (op : Nat → Nat) : Prop where
  size : net.size = n
  start : IsStart a (fun q => w.norm (w.normPos + q)) net
  task : IsTask w' m net op (fun _ => OptSpec.fresh (optFrom o))
  hasLoss : m.loss = some loss
  lossType : m.lossType = loss.kind.code
  optType : m.optType = o.kind.code
  optValues : m.optValues = o.getValues.del (str "type")
  lossSize : loss.size = net.dim net.size
  accType : m.accType = accType
  accPrec : m.accPrec = accPrec
  pos : w'.normPos = w.normPos + initDraws net n
  params : ∀ x, w'.IsNetParam net x → w.next ≤ x
  layers : ∀ i, i < n → w.next ≤ net.lp i
  opts : ∀ i, i < n → w.next ≤ op i

/-- C71: making a model: there is an error exactly if a layer has invalid arguments or does not fit its predecessor, there is no
layer, the loss does not have the size of the last layer, or the precision is negative.  Without an error the result is a
well-formed model with optimizers, ready for Fit; nothing that existed has changed, except that normal draws have been used. -/
theorem C71_make [FltInt α] (w : World α) (a : Nat → LayerArg α)
    (hs : ∀ i, -(2 ^ 53) ≤ (a i).inputs ∧ (a i).inputs ≤ 2 ^ 53 ∧ -(2 ^ 53) ≤ (a i).outputs ∧ (a i).outputs ≤ 2 ^ 53) (n : Nat)
    (loss : Loss) (h1 : 1 ≤ loss.size) (h2 : loss.size ≤ 2 ^ 53) (o : Optim α) (accType : Int) (accPrec : α) :
    wp (makeModel a n loss o accType accPrec) w (fun p w' => Frame { norm := True } w w' ∧
      (p.2 = none ↔ ArgsOk a n ∧ 0 < n ∧ loss.size = (a (n - 1)).outputs ∧ Flt.lt accPrec Flt.zero = false) ∧
      (p.2 = none → ∃ net op, Made w w' a n loss o accType accPrec p.1 net op)) := by
  unfold makeModel
  refine wp_bind_mono (buildModel_spec w a hs n) ?_
  rintro ⟨m, e⟩ w1 ⟨ha, hiff, hb⟩
  dsimp only at hiff hb ⊢
  have ha' : Frame { norm := True } w w1 := ha.weaken (fun _ _ h => h) (fun _ _ h => h) (fun _ _ h => h) (fun _ _ h => h) id
    (fun h => h.elim) id
  rcases e with _ | e
  swap
  · refine wp_pure.2 ⟨ha', ⟨(fun h => by cases h), fun h => ?_⟩, (fun h => by cases h)⟩
    exact absurd (hiff.2 h.1) (by simp)
  obtain ⟨net, hsz, hB⟩ := hb rfl
  have hok := hiff.1 rfl
  dsimp only
  refine wp_bind_mono (initLayers_spec hB.isNet hB.own) ?_
  intro _ w2 hI
  have hd : (fun q => w1.norm (w1.normPos + q)) = fun q => w.norm (w.normPos + q) := by
    rw [ha.norm, ha.normPos fun h => h]
  have hN := hI.isNet
  have hO := hI.own
  rw [hd] at hN hO
  set net1 := initNet net (fun q => w.norm (w.normPos + q)) net.size with hnet1
  have hf2 : Frame { norm := True } w w2 := by
    refine ha'.trans hI.frame (fun _ _ h => h) (fun x hx hr => ?_) (fun _ _ h => h) (fun _ _ h => h) (fun _ _ h => h)
      (fun _ _ h => h) (fun _ _ h => h) (fun _ _ h => h) id id id id id id
    obtain ⟨q, hq, hr⟩ := hr
    have := hB.params x ⟨q, hq, .inl hr⟩
    omega
  have hms : m.modelSize = n := by rw [hB.isNet.size, hsz]
  have hout : 0 < n → m.outputSize = (a (n - 1)).outputs := by
    intro h0
    rw [hB.isNet.output (by omega), hsz, hB.dim, argDim, if_neg (by omega)]
    have := (hok.1 (n - 1) (by omega)).2.1
    omega
  by_cases hl : m.outputSize = loss.size
  swap
  · refine wp_of_ok (finalize_size o accType accPrec (by omega) h2 hl) ⟨hf2, ⟨(fun h => by cases h), fun h => ?_⟩, (fun h => by cases h)⟩
    rw [hout h.2.1] at hl
    exact absurd h.2.2.1.symm hl
  have hn0 : 0 < n := by
    by_contra h
    have := hB.empty (by omega)
    rw [this] at hl
    change (0 : Int) = loss.size at hl
    omega
  refine wp_of_ok (finalize_run o accType accPrec (by omega) h2 hl) ?_
  have hf3 : Frame { norm := True } w (withOpts w2 m.modelSize.toNat (optFrom o)) :=
    hf2.trans (withOpts_allocs _ _ _) (fun _ _ h => h) (fun _ _ h => h) (fun _ _ h => h) (fun _ _ h => h) (fun _ _ h => h)
      (fun _ _ h => h) (fun _ _ h => h) (fun _ _ h => h) id id id (fun h => h.elim) id id
  by_cases hp : Flt.lt accPrec Flt.zero = true
  · rw [if_pos hp]
    refine ⟨hf3, ⟨(fun h => by cases h), fun h => ?_⟩, (fun h => by cases h)⟩
    rw [hp] at h
    exact absurd h.2.2.2 (by simp)
  · rw [if_neg hp]
    refine ⟨hf3, ⟨fun _ => ⟨hok, hn0, by rw [← hout hn0, hl], by simpa using hp⟩, fun _ => rfl⟩, fun _ => ?_⟩
    have hT := isTask_finalized hN hO (by rw [hnet1]; show 0 < net.size; omega) loss o accType accPrec
    refine ⟨net1, _, hsz, fun i hi => ?_, hT, rfl, rfl, rfl, rfl, ?_, rfl, rfl, ?_, fun x hx => ?_, fun i hi => hB.fresh i (by omega), fun i hi => ?_⟩
    · have hi' : i < n := by have : net1.size = net.size := rfl; omega
      have := hok.1 i hi'
      have eL : net1.L i = { (a i).spec with W := drawnW net (fun q => w.norm (w.normPos + q)) i } := by
        rw [hnet1]; unfold initNet; dsimp only
        rw [if_pos (by omega), hB.layer i (by omega)]
      have eo : (net.L i).o = (a i).spec.o := by rw [hB.layer i (by omega)]
      have en : (net.L i).n = (a i).spec.n := by rw [hB.layer i (by omega)]
      rw [eL]
      refine ⟨rfl, ?_, ?_, rfl, rfl, fun j k => ?_, fun _ => rfl⟩
      · show (((a i).inputs.toNat : Nat) : Int) = _
        omega
      · show (((a i).outputs.toNat : Nat) : Int) = _
        omega
      · dsimp only [drawnW]
        rw [hnet1, initDraws_initNet, eo, en]
    · rw [← hl]
      exact hN.output (by show 0 < net.size; omega)
    · show w2.normPos = _
      rw [hI.pos, hnet1, initDraws_initNet, ha.normPos fun h => h, hsz]
    · rw [hnet1, initNet_isParam] at hx
      have hf := withOpts_allocs w2 m.modelSize.toNat (optFrom o)
      have hf' : Frame { flt := fun _ => True, norm := True } w1 (withOpts w2 m.modelSize.toNat (optFrom o)) :=
        hI.frame.trans hf (fun _ _ _ => trivial) (fun _ _ _ => trivial) (fun _ _ h => h) (fun _ _ h => h) (fun _ _ h => h)
          (fun _ _ h => h) (fun _ _ h => h) (fun _ _ h => h) id id id (fun _ => trivial) id id
      exact hB.params x ((hB.isNet.isParam hf' (fun _ h => h) x).1 hx)
    · exact hf2.next_le.trans (Nat.le_add_right _ _)

/-- The settings that Finalize stores in the model. -/
structure Settings (m : Model α) (loss : Loss) (o : Optim α) (accType : Int) (accPrec : α) : Prop where
  hasLoss : m.loss = some loss
  lossType : m.lossType = loss.kind.code
  optType : m.optType = o.kind.code
  optValues : m.optValues = o.getValues.del (str "type")
  accType : m.accType = accType
  accPrec : m.accPrec = accPrec

/-- C71: making a model without sigmoid layers and training it on existing data: no error, and the result is what gradient descent
makes of the freshly initialised network.  Nothing that existed before has changed, except that random numbers have been used. -/
theorem C71_train [FltInt α] (w : World α) (a : Nat → LayerArg α)
    (hs : ∀ i, -(2 ^ 53) ≤ (a i).inputs ∧ (a i).inputs ≤ 2 ^ 53 ∧ -(2 ^ 53) ≤ (a i).outputs ∧ (a i).outputs ≤ 2 ^ 53) (n : Nat)
    (hok : ArgsOk a n) (hn : 0 < n) (hns : ∀ i, i < n → (a i).kind ≠ .sigmoid) (loss : Loss)
    (hl : loss.size = (a (n - 1)).outputs) (o : Optim α) (accType : Int) (accPrec : α) (hp : Flt.lt accPrec Flt.zero = false)
    (X Y : Mat) (r cx cy : Nat) (A B : Nat → Nat → α) (hcx : (cx : Int) = (a 0).inputs) (hcy : (cy : Int) = (a (n - 1)).outputs)
    (hX : IsMat w X r cx A) (hY : IsMat w Y r cy B) (hcX : r ≤ X.m.cap) (hcY : r ≤ Y.m.cap) (epochs : Int) (b : Nat)
    (hbig : r + b ≤ 2 ^ 53) :
    wp (trainNew a n loss o accType accPrec X Y epochs b) w (fun p w' => p.2 = none ∧
      Frame { norm := True, unif := ∃ i, i < n ∧ (a i).kind = .dropout } w w' ∧
      Settings p.1 loss o accType accPrec ∧ ∃ net op net' S', IsStart a (fun q => w.norm (w.normPos + q)) net ∧ net.size = n ∧
        Descent p.1 loss.kind w.unif A B net (fun _ => OptSpec.fresh (optFrom o)) w.unifPos
          (List.replicate epochs.toNat (blocks r b)).flatten net' S' w'.unifPos ∧
        IsTask w' p.1 net' op S' ∧ SameShape net net') := by
  have hl1 := (hok.1 (n - 1) (by omega)).2.1
  have hl2 := (hs (n - 1)).2.2.2
  unfold trainNew
  refine wp_bind_mono (C71_make w a hs n loss (by omega) (by omega) o accType accPrec) ?_
  rintro ⟨m, e⟩ w1 ⟨hf, hiff, hm⟩
  dsimp only at hiff hm ⊢
  obtain rfl : e = none := hiff.2 ⟨hok, hn, hl, hp⟩
  obtain ⟨net, op, hM⟩ := hm rfl
  dsimp only
  have d0 : net.dim 0 = cx := by
    have h1 := hM.task.isNet.ins 0 hM.task.pos
    have h2 := (hM.start 0 hM.task.pos).2.1
    omega
  have d1 : net.dim net.size = cy := by
    have h1 := hM.lossSize
    omega
  have mX : IsMat w1 X r (net.dim 0) A := by
    rw [d0]; exact hX.frame hf (fun h => h) (fun _ _ h => h)
  have mY : IsMat w1 Y r (net.dim net.size) B := by
    rw [d1]; exact hY.frame hf (fun h => h) (fun _ _ h => h)
  have sX : ∀ x, w1.IsNetParam net x → ¬ w1.IsRow X r x := fun x h1 h2 => by
    have := hM.params x h1
    have := hX.isRow_lt ((hX.isRow_frame hf (fun h => h) x).1 h2)
    omega
  have sY : ∀ x, w1.IsNetParam net x → ¬ w1.IsRow Y r x := fun x h1 h2 => by
    have := hM.params x h1
    have := hY.isRow_lt ((hY.isRow_frame hf (fun h => h) x).1 h2)
    omega
  refine wp_bind_mono (C70_fit w1 m net op _ hM.task ?_ loss hM.hasLoss hM.lossSize X Y Mat.zero Mat.zero r A B mX mY hcX hcY sX sY
    epochs b hbig) ?_
  · intro k hk
    rw [(hM.start k hk).1]
    exact hns k (by rw [← hM.size]; exact hk)
  rintro e w2 ⟨rfl, net', S', hD, hT, hsh, -, -, hf2⟩
  refine wp_pure.2 ⟨rfl, ?_, ⟨hM.hasLoss, hM.lossType, hM.optType, hM.optValues, hM.accType, hM.accPrec⟩, net, op, net', S', hM.start, hM.size, ?_, hT, hsh⟩
  · refine hf.trans hf2 (fun _ _ h => h) (fun x hx h => ?_) (fun _ _ h => h) (fun _ _ h => h) (fun _ _ h => h) (fun x hx h => ?_)
      (fun _ _ h => h) (fun x hx h => ?_) False.elim (fun h => ?_) id False.elim id id
    · have := hM.params x h; omega
    · obtain ⟨i, hi, rfl⟩ := h
      have := hM.layers i (by rw [← hM.size]; exact hi)
      omega
    · obtain ⟨i, hi, rfl⟩ := h
      have := hM.opts i (by rw [← hM.size]; exact hi)
      omega
    · obtain ⟨i, hi, hk⟩ := h
      exact ⟨i, by rw [← hM.size]; exact hi, by rw [← (hM.start i hi).1]; exact hk⟩
  · rw [hf.unif, hf.unifPos fun h => h] at hD
    exact hD

/-- The optimizers that Finalize makes from a constructed optimizer have its settings and no history. -/
theorem C71_optim (o : Optim α) : (∀ lr decay mom : α, newSGDOptimizer lr decay mom = (o, none) → optFrom o = o) ∧
    ∀ lr decay eps b1 b2 : α, newAdamOptimizer lr decay eps b1 b2 = (o, none) → OptSpec.fresh (optFrom o) = OptSpec.fresh o := by
  refine ⟨fun lr d mom h => ?_, fun lr d eps b1 b2 h => ?_⟩
  · rw [newSGD_ok h]; rfl
  · rw [newAdam_ok h]; rfl

end Any

/-- Three layers (ReLU 2→3, dropout 3→4, linear 4→1) of valid arguments that fit, a loss of size 1, and data of 5 rows
(hypotheses of C71_build, C71_make, C71_train). -/
example : ∃ (w : World ℝ) (a : Nat → LayerArg ℝ) (loss : Loss) (X Y : Mat) (A B : Nat → Nat → ℝ),
    (∀ i, -(2 ^ 53) ≤ (a i).inputs ∧ (a i).inputs ≤ 2 ^ 53 ∧ -(2 ^ 53) ≤ (a i).outputs ∧ (a i).outputs ≤ 2 ^ 53) ∧
    ArgsOk a 3 ∧ (∀ i, i < 3 → (a i).kind ≠ .sigmoid) ∧ loss.size = (a (3 - 1)).outputs ∧ Flt.lt (1 / 10 : ℝ) Flt.zero = false ∧
    ((2 : Nat) : Int) = (a 0).inputs ∧ ((1 : Nat) : Int) = (a (3 - 1)).outputs ∧ IsMat w X 5 2 A ∧ IsMat w Y 5 1 B ∧
    5 ≤ X.m.cap ∧ 5 ≤ Y.m.cap := by
  let a : Nat → LayerArg ℝ := fun i => match i with
    | 0 => ⟨.hidden, 2, 3, 0, 0⟩
    | 1 => ⟨.dropout, 3, 4, 0, 1 / 10⟩
    | _ => ⟨.linear, 4, 1, 0, 0⟩
  have hx := place_spec (emptyWorld (α := ℝ)) (r := 5) (c := 2) (fun i j => (i : ℝ) + j) (by decide) (by decide)
  have hy := place_spec (placeW (emptyWorld (α := ℝ)) 5 2 (fun i j => (i : ℝ) + j)) (r := 5) (c := 1) (fun i _ => (i : ℝ)) (by decide) (by decide)
  refine ⟨_, a, ⟨.mse, 1⟩, _, _, _, _, ?_, ⟨?_, ?_⟩, ?_, rfl, ?_, rfl, rfl, hx.mat.allocs hy.frame, hy.mat, hx.cap.ge, hy.cap.ge⟩
  · intro i
    match i with
    | 0 => simp [a]
    | 1 => simp [a]
    | k + 2 => simp [a]
  · intro i hi
    match i with
    | 0 => simp [a]
    | 1 => simp [a, Flt.lt]; norm_num
    | k + 2 => simp [a]
  · intro i hi
    match i with
    | 0 => rfl
    | 1 => rfl
    | k + 2 => omega
  · intro i hi
    match i with
    | 0 => simp [a]
    | 1 => simp [a]
    | k + 2 => simp [a]
  · simp [Flt.lt]

/-- A model of six layers of all types in separate storage (hypotheses of C40_layers). -/
example : ∃ (w : World ℝ) (m : Model ℝ) (net : Net ℝ), IsNet w m net ∧ OwnNet w net ∧ net.size = 6 := by
  obtain ⟨w, net, x, h1, -, -, h2, h3, -⟩ := exists_net (α := ℝ) 6 demoL demoL_pos demoL_chain newModel (r := 1) (by decide) (fun _ _ => 0)
  exact ⟨w, _, net, h2, h3, h1⟩

end NN
