import Verif.Lemmas.ModelGo
import Verif.Lemmas.Wlp
import Verif.Lemmas.Misc
import Verif.Spec.PlaceLayer
/- Execution lemmas for model.go: AddLayer, Finalize, Predict, CalculateLoss, CalculateAccuracy. -/

set_option linter.unusedSectionVars false

namespace NN
variable {α : Type} [Flt α]
open Go

/-! ### AddLayer -/

theorem values_inputs (l : Layer α) : l.values.get (str "inputs") = Flt.ofInt l.inputSize := by
  unfold Layer.values
  cases l.kind <;> rfl

theorem values_outputs (l : Layer α) : l.values.get (str "outputs") = Flt.ofInt l.outputSize := by
  unfold Layer.values
  cases l.kind <;> rfl

/-- The sizes of a layer survive the trip through float64. -/
def SizesOk (l : Layer α) : Prop :=
  -(2 ^ 53) ≤ l.inputSize ∧ l.inputSize ≤ 2 ^ 53 ∧ -(2 ^ 53) ≤ l.outputSize ∧ l.outputSize ≤ 2 ^ 53

theorem addLayer_reject [FltInt α] {w : World α} {m : Model α} {lp : Nat} (hs : SizesOk (w.lay lp))
    (h : m.modelSize ≠ 0 ∧ m.outputSize ≠ (w.lay lp).inputSize) :
    addLayer m lp w = .ok ((m, some .addLayer), w) := by
  unfold addLayer
  refine (bind_ok (show layGet lp w = .ok (w.lay lp, w) from rfl)).trans ?_
  rw [values_inputs, FltInt.toInt_ofInt _ hs.1 hs.2.1, if_pos h, if_neg h.1]
  rfl

theorem addLayer_accept [FltInt α] {w : World α} {m : Model α} {lp : Nat} (hs : SizesOk (w.lay lp))
    (h : ¬ (m.modelSize ≠ 0 ∧ m.outputSize ≠ (w.lay lp).inputSize)) :
    addLayer m lp w = .ok (({ m with
      inputSize := if m.modelSize = 0 then (w.lay lp).inputSize else m.inputSize
      layers := m.layers ++ [lp]
      modelSize := m.modelSize + 1
      outputSize := (w.lay lp).outputSize }, none), w) := by
  unfold addLayer
  refine (bind_ok (show layGet lp w = .ok (w.lay lp, w) from rfl)).trans ?_
  rw [values_inputs, values_outputs, FltInt.toInt_ofInt _ hs.1 hs.2.1, FltInt.toInt_ofInt _ hs.2.2.1 hs.2.2.2, if_neg h]
  by_cases h0 : m.modelSize = 0
  · rw [if_pos h0, if_pos h0]; rfl
  · rw [if_neg h0, if_neg h0]; rfl

/-! ### Finalize -/

/-- The object that NewOptimizerFromType makes from the values of `o`. -/
def optFrom (o : Optim α) : Optim α :=
  match o.kind with
  | .sgd => { (Optim.zero .sgd : Optim α) with
      learningRate := o.learningRate, decay := o.decay, momentum := o.momentum, currentRate := o.learningRate,
      useDecay := !Flt.eq o.decay Flt.zero, useMomentum := !Flt.eq o.momentum Flt.zero }
  | .adam => { (Optim.zero .adam : Optim α) with
      learningRate := o.learningRate, decay := o.decay, epsilon := o.epsilon, beta1 := o.beta1, beta2 := o.beta2,
      currentRate := o.learningRate, useDecay := !Flt.eq o.decay Flt.zero,
      useMomentum := !Flt.eq (Flt.zero : α) Flt.zero }

theorem newOptimizerFromType_run (o : Optim α) (w : World α) :
    newOptimizerFromType o.kind.code (o.getValues.del (str "type")) w =
      .ok ((some w.next, none), { w with next := w.next + 1, opt := upd w.opt w.next (optFrom o) }) := by
  unfold Optim.getValues optFrom
  rcases hk : o.kind with _ | _ <;> rfl

/-- The state after n optimizers have been made. -/
def withOpts (w : World α) (n : Nat) (o : Optim α) : World α :=
  { w with next := w.next + n, opt := fun a => if w.next ≤ a ∧ a < w.next + n then o else w.opt a }

theorem makeOptims_run (o : Optim α) (w : World α) (n : Nat) :
    makeOptims o.kind.code (o.getValues.del (str "type")) n w =
      .ok (((List.range n).map (w.next + ·), none), withOpts w n (optFrom o)) := by
  induction n with
  | zero =>
    have : withOpts w 0 (optFrom o) = w := by
      unfold withOpts
      have : (fun a => if w.next ≤ a ∧ a < w.next + 0 then optFrom o else w.opt a) = w.opt := by
        funext a; rw [if_neg (by omega)]
      rw [this]; rfl
    rw [this]; rfl
  | succ n ih =>
    unfold makeOptims
    refine (bind_ok ih).trans ?_
    dsimp only
    refine (bind_ok (newOptimizerFromType_run o _)).trans ?_
    dsimp only
    have e : ({ withOpts w n (optFrom o) with
        next := (withOpts w n (optFrom o)).next + 1
        opt := upd (withOpts w n (optFrom o)).opt (withOpts w n (optFrom o)).next (optFrom o) } : World α) =
        withOpts w (n + 1) (optFrom o) := by
      unfold withOpts
      have : upd (fun a => if w.next ≤ a ∧ a < w.next + n then optFrom o else w.opt a) (w.next + n) (optFrom o) =
          fun a => if w.next ≤ a ∧ a < w.next + (n + 1) then optFrom o else w.opt a := by
        funext a
        by_cases ha : a = w.next + n
        · rw [ha, upd_same, if_pos (by omega)]
        · rw [upd_ne ha]
          by_cases h : w.next ≤ a ∧ a < w.next + n
          · rw [if_pos h, if_pos (by omega)]
          · rw [if_neg h, if_neg (by omega)]
      rw [this]; rfl
    rw [e]
    have e2 : (List.range n).map (w.next + ·) ++ [(withOpts w n (optFrom o)).next] =
        (List.range (n + 1)).map (w.next + ·) := by
      rw [List.range_succ, List.map_append]; rfl
    rw [e2]; rfl

theorem withOpts_allocs (w : World α) (n : Nat) (o : Optim α) : OnlyAllocs w (withOpts w n o) :=
  ⟨Nat.le_add_right _ _, fun _ _ _ => rfl, fun _ _ _ => rfl, fun _ _ _ => rfl,
    fun a ha _ => if_neg (by omega), rfl, rfl, fun _ => rfl, fun _ => rfl, fun _ => rfl, rfl⟩

theorem withOpts_new (w : World α) (n : Nat) (o : Optim α) {i : Nat} (hi : i < n) :
    (withOpts w n o).opt (w.next + i) = o := if_pos (by omega)

theorem loss_values (l : Loss) : (l.getValues : GoMap α).get (str "size") = Flt.ofInt l.size ∧
    (l.getValues : GoMap α).get (str "type") = Flt.ofInt l.kind.code := ⟨rfl, rfl⟩

theorem opt_type (o : Optim α) : o.getValues.get (str "type") = Flt.ofInt o.kind.code := by
  unfold Optim.getValues; cases o.kind <;> rfl

theorem toInt8_lossCode [FltInt α] (k : LossKind) : toInt8 (Flt.toInt (Flt.ofInt k.code : α)) = k.code := by
  rw [FltInt.toInt_ofInt _ (by cases k <;> decide) (by cases k <;> decide)]
  cases k <;> decide

theorem toInt8_optCode [FltInt α] (k : OptKind) : toInt8 (Flt.toInt (Flt.ofInt k.code : α)) = k.code := by
  rw [FltInt.toInt_ofInt _ (by cases k <;> decide) (by cases k <;> decide)]
  cases k <;> decide

/-- The model after everything but the accuracy precision has been set. -/
def finalized (m : Model α) (w : World α) (loss : Loss) (o : Optim α) (accType : Int) : Model α :=
  { m with
    lossType := loss.kind.code
    loss := some loss
    optType := o.kind.code
    optValues := o.getValues.del (str "type")
    optims := (List.range m.modelSize.toNat).map (w.next + ·)
    accType := accType }

theorem finalize_size [FltInt α] {m : Model α} {w : World α} {loss : Loss} (o : Optim α) (accType : Int) (accPrec : α)
    (h1 : -(2 ^ 53) ≤ loss.size) (h2 : loss.size ≤ 2 ^ 53) (h : m.outputSize ≠ loss.size) :
    finalize m loss o.getValues accType accPrec w = .ok ((m, some .finalizeLoss), w) := by
  unfold finalize
  dsimp only
  rw [(loss_values loss).1, FltInt.toInt_ofInt _ h1 h2, if_pos h]
  rfl

theorem finalize_run [FltInt α] {m : Model α} {w : World α} {loss : Loss} (o : Optim α) (accType : Int) (accPrec : α)
    (h1 : -(2 ^ 53) ≤ loss.size) (h2 : loss.size ≤ 2 ^ 53) (h : m.outputSize = loss.size) :
    finalize m loss o.getValues accType accPrec w = .ok
      (if Flt.lt accPrec Flt.zero then (finalized m w loss o accType, some .finalizePrecision)
        else ({ finalized m w loss o accType with accPrec := accPrec }, none),
       withOpts w m.modelSize.toNat (optFrom o)) := by
  unfold finalize
  dsimp only
  rw [(loss_values loss).1, (loss_values loss).2, opt_type, FltInt.toInt_ofInt _ h1 h2, if_neg (not_not.2 h),
    toInt8_lossCode, toInt8_optCode]
  refine (bind_ok (makeOptims_run o w _)).trans ?_
  dsimp only
  split <;> rfl

/-! ### The read-only operations -/

theorem Fresh.newIn {w w' : World α} {m : Mat} {r c : Nat} {V} (h : Fresh w w' m r c V) : NewIn {} w w' m := by
  refine ⟨.inr (.inr h.mat.addr_lt), ?_⟩
  intro i a hi e
  rw [h.mat.len] at hi
  exact .inr (h.fresh a ⟨i, hi, e⟩)

/-- The layer objects of a model. -/
def Net.foot (net : Net α) : Foot := { lay := fun a => ∃ i, i < net.size ∧ a = net.lp i }

/-- After Forward without training: the last output is new and holds the value of the network. -/
structure Inferred (w w' : World α) (net : Net α) (r : Nat) (X : Nat → Nat → α) (out : Mat) : Prop where
  res : Fresh w w' out r (net.dim net.size) (netOut net X net.size)
  frame : Frame net.foot w w'
  stat : Static w w'

theorem FwdRun.netOut {training : Bool} {w w' : World α} {net : Net α} {n r : Nat} {o mask : Nat → Mat}
    {V M : Nat → Nat → Nat → α} (h : FwdRun training w w' net n r o mask V M)
    (hd : ∀ k, k < n → ¬ (training = true ∧ (net.L k).kind = .dropout)) (k : Nat) (hk : k ≤ n) :
    V k = netOut net (V 0) k := by
  induction k with
  | zero => rfl
  | succ k ih =>
    rw [h.val k (by omega) (hd k (by omega)), ih (by omega)]
    rfl

theorem modelInfer_spec {w : World α} {m : Model α} {net : Net α} (hN : IsNet w m net) (h0 : 0 < net.size) {x : Mat}
    {r : Nat} {X : Nat → Nat → α} (hX : IsMat w x r (net.dim 0) X) :
    wp (modelForward m x false) w (fun p w' => p.2 = none ∧ p.1.length = net.size + 1 ∧
      ∃ out, p.1[net.size]? = some out ∧ Inferred w w' net r X out) := by
  refine wp_mono (modelForward_spec hN hX false) ?_
  rintro p w' ⟨o, mask, V, M, h1, h2, h3, h4, h5⟩
  refine ⟨h2, by rw [h1]; simp, o net.size, by rw [h1]; simp, ?_, ?_, h5.stat⟩
  · have e := h5.netOut (fun _ _ h => by simp at h) net.size (Nat.le_refl _)
    rw [h4] at e
    obtain ⟨n, hn⟩ : ∃ n, net.size = n + 1 := ⟨net.size - 1, by omega⟩
    rw [← e, hn]
    exact h5.res n (by omega)
  · exact h5.frame.weaken (fun _ _ h => h) (fun _ _ h => h) (fun _ _ h => h) (fun _ _ h => h)
      (fun h => by simp at h) id id

theorem listGet_size {xs : List Mat} {m : Model α} {w : World α} {net : Net α} (hN : IsNet w m net) {out : Mat}
    (h : xs[net.size]? = some out) (w' : World α) : listGet xs m.modelSize w' = .ok (out, w') := by
  simp [listGet, hN.size, h]; rfl

/-- What Predict returns for raw outputs V of width d. -/
def decoded (accType : Int) (d : Nat) (V : Nat → Nat → α) (i j : Nat) : α :=
  if accType = 0 then V i j
  else if accType = 1 then Flt.ofInt (scanMax d (V i)).1
  else if Flt.lt (V i j) Flt.half then Flt.zero else Flt.one

theorem predict_spec {w : World α} {m : Model α} {net : Net α} (hN : IsNet w m net) (h0 : 0 < net.size) {x : Mat}
    {r : Nat} {X : Nat → Nat → α} (hX : IsMat w x r (net.dim 0) X) :
    wp (predict m x) w (fun p w' => Frame net.foot w w' ∧ Static w w' ∧
      (m.accType = 0 ∨ m.accType = 1 ∨ m.accType = 2 → p.2 = none ∧
        Fresh w w' p.1 r (if m.accType = 1 then 1 else net.dim net.size)
          (decoded m.accType (net.dim net.size) (netOut net X net.size))) ∧
      (¬ (m.accType = 0 ∨ m.accType = 1 ∨ m.accType = 2) → p = (Mat.zero, some .accType))) := by
  unfold predict
  refine wp_bind_mono (modelInfer_spec hN h0 hX) ?_
  rintro ⟨outs, e⟩ w1 ⟨he, -, out, h1, h2⟩
  obtain rfl : e = none := he
  dsimp only at h1 ⊢
  have hl := listGet_size hN h1 w1
  by_cases t0 : m.accType = 0
  · rw [if_pos t0]
    refine wp_bind_ok hl ?_
    refine ⟨h2.frame, h2.stat, fun _ => ⟨rfl, ?_⟩, fun h => absurd (.inl t0) h⟩
    rw [if_neg (by omega)]
    exact h2.res.congr fun i j _ _ => by simp [decoded, t0]
  · rw [if_neg t0]
    by_cases t1 : m.accType = 1
    · rw [if_pos t1]
      refine wp_bind_ok hl ?_
      refine wp_bind_mono (rowMax_spec h2.res.mat) ?_
      intro p w2 h3
      refine ⟨?_, ?_, fun _ => ⟨rfl, ?_⟩, fun h => absurd (.inr (.inl t1)) h⟩
      · frames h2.frame h3.frame
      · exact h2.stat.trans h2.frame.next_le (Static.of_frame h3.frame fun _ _ h => h)
      · rw [if_pos t1]
        exact (h3.toFresh.mono h2.frame.next_le).congr fun i j _ _ => by simp [decoded, t1]
    · rw [if_neg t1]
      by_cases t2 : m.accType = 2
      · rw [if_pos t2]
        refine wp_bind_ok hl ?_
        refine wp_bind_mono (outputBinaryValues_spec h2.res.mat h2.res.distinct) ?_
        rintro p w2 ⟨rfl, h3⟩
        have hf : Frame net.foot w w2 := by
          frames h2.frame h3.frame
          rintro a ha h
          have := h2.res.fresh a h
          omega
        refine ⟨hf, h2.stat.trans h2.frame.next_le (Static.of_frame h3.frame fun _ _ h => h), fun _ => ⟨rfl, ?_⟩,
          fun h => absurd (.inr (.inr t2)) h⟩
        rw [if_neg t1]
        exact (h2.res.set h3).congr fun i j _ _ => by simp [decoded, t2]
      · rw [if_neg t2]
        exact ⟨h2.frame, h2.stat, fun h => by omega, fun _ => rfl⟩

theorem predict_bad {w : World α} {m : Model α} {net : Net α} (hN : IsNet w m net) (h0 : 0 < net.size) {x : Mat}
    (hx : x.cols ≠ net.dim 0) : ∃ e, predict m x w = .ok ((Mat.zero, some e), w) := by
  obtain ⟨e, h⟩ := modelForward_bad hN h0 hx false
  refine ⟨e, ?_⟩
  unfold predict
  exact (bind_ok h).trans rfl

/-- `w1`, seen as a state in which only the addresses of `w` are in use. -/
def World.cut (w w1 : World α) : World α := { w1 with next := w.next }

theorem Inferred.since {w w' : World α} {net : Net α} {r : Nat} {X : Nat → Nat → α} {out : Mat}
    (h : Inferred w w' net r X out) : Since {} (w.cut w') w' [out] := by
  refine ⟨⟨h.frame.next_le, fun _ _ _ => rfl, fun _ _ _ => rfl, fun _ _ _ => rfl, fun _ _ _ => rfl, rfl, rfl,
    fun _ => rfl, fun _ => rfl, fun _ => rfl, rfl⟩, fun _ _ => rfl, fun _ _ => rfl, fun m hm => ?_⟩
  rw [List.mem_singleton.1 hm]
  have := h.res.newIn
  exact ⟨this.lt, this.rows⟩

theorem Since.uncut {w w1 w2 : World α} {net : Net α} {ms : List Mat} (hf : Frame net.foot w w1) (hs : Static w w1)
    (h : Since {} (w.cut w1) w2 ms) : Frame net.foot w w2 ∧ Static w w2 := by
  have h := h.1
  refine ⟨⟨h.next_le, fun a ha hn => (h.flt a ha id).trans (hf.flt a ha hn),
    fun a ha hn => (h.outs a ha id).trans (hf.outs a ha hn), fun a ha hn => (h.lay a ha id).trans (hf.lay a ha hn),
    fun a ha hn => (h.opt a ha id).trans (hf.opt a ha hn), h.norm.trans hf.norm, h.unif.trans hf.unif,
    fun hn => (h.normPos id).trans (hf.normPos hn), fun hn => (h.unifPos id).trans (hf.unifPos hn),
    fun hn => (h.log id).trans (hf.log hn), h.logger.trans hf.logger⟩, fun a ha => ?_⟩
  have e : w2.lay a = w1.lay a := h.lay a ha id
  rw [e]
  exact hs a ha

theorem calculateLoss_frame {w : World α} {m : Model α} {net : Net α} (hN : IsNet w m net) (h0 : 0 < net.size) {x : Mat}
    {r : Nat} {X : Nat → Nat → α} (hX : IsMat w x r (net.dim 0) X) (y : Mat) :
    wlp (calculateLoss m x y) w (fun _ w' => Frame net.foot w w' ∧ Static w w') := by
  unfold calculateLoss
  refine wlp_bind (modelInfer_spec hN h0 hX).wlp ?_
  rintro ⟨outs, e⟩ w1 ⟨he, -, out, h1, h2⟩
  obtain rfl : e = none := he
  dsimp only at h1 ⊢
  refine wlp_bind (R := fun o w' => o = out ∧ w' = w1) (wp_of_ok (listGet_size hN h1 w1) ⟨rfl, rfl⟩).wlp ?_
  rintro _ w1 ⟨rfl, rfl⟩
  refine wlp_bind (R := fun _ w' => w' = w1) ?_ ?_
  · unfold deref
    split
    · exact wlp_pure rfl
    · exact wlp_panic
  rintro l _ rfl
  refine wlp_bind (wlp_lossForward h2.since (List.mem_singleton.2 rfl)) ?_
  rintro ⟨j, e⟩ w2 h3
  dsimp only
  split <;> exact wlp_pure (h3.uncut h2.frame h2.stat)

theorem calculateAccuracy_frame {w : World α} {m : Model α} {net : Net α} (hN : IsNet w m net) (h0 : 0 < net.size)
    {x : Mat} {r : Nat} {X : Nat → Nat → α} (hX : IsMat w x r (net.dim 0) X) (y : Mat) :
    wlp (calculateAccuracy m x y) w (fun _ w' => Frame net.foot w w' ∧ Static w w') := by
  unfold calculateAccuracy
  refine wlp_bind (modelInfer_spec hN h0 hX).wlp ?_
  rintro ⟨outs, e⟩ w1 ⟨he, -, out, h1, h2⟩
  obtain rfl : e = none := he
  dsimp only at h1 ⊢
  have hl : wlp (listGet outs m.modelSize) w1 (fun o w' => o = out ∧ w' = w1) :=
    (wp_of_ok (listGet_size hN h1 w1) ⟨rfl, rfl⟩).wlp
  have hs := h2.since
  have hm : out ∈ [out] := List.mem_singleton.2 rfl
  split
  · refine wlp_bind hl ?_
    rintro _ _ ⟨rfl, rfl⟩
    exact wlp_bind (wlp_regressionAccuracy hs) fun _ w2 h3 => wlp_pure (h3.uncut h2.frame h2.stat)
  split
  · refine wlp_bind hl ?_
    rintro _ _ ⟨rfl, rfl⟩
    exact wlp_bind (wlp_categoricalAccuracy hs) fun _ w2 h3 => wlp_pure (h3.uncut h2.frame h2.stat)
  split
  · refine wlp_bind hl ?_
    rintro _ _ ⟨rfl, rfl⟩
    exact wlp_bind (wlp_binaryCategoricalAccuracy hs hm) fun _ w2 h3 => wlp_pure (h3.uncut h2.frame h2.stat)
  exact wlp_pure ⟨h2.frame, h2.stat⟩

theorem calculate_bad {w : World α} {m : Model α} {net : Net α} (hN : IsNet w m net) (h0 : 0 < net.size) {x : Mat}
    (hx : x.cols ≠ net.dim 0) (y : Mat) : (∃ e, calculateLoss m x y w = .ok ((Flt.zero, some e), w)) ∧
      ∃ e, calculateAccuracy m x y w = .ok ((Flt.zero, some e), w) := by
  obtain ⟨e, h⟩ := modelForward_bad hN h0 hx false
  constructor
  · refine ⟨e, ?_⟩
    unfold calculateLoss
    exact (bind_ok h).trans rfl
  · refine ⟨e, ?_⟩
    unfold calculateAccuracy
    exact (bind_ok h).trans rfl

end NN
