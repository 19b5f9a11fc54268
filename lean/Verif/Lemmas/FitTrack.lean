import Verif.Lemmas.Track
/- Partial-correctness frame rules for `Forward`, `Backward` and `Fit` of model.go, for arbitrary arguments. -/

set_option linter.unusedSectionVars false

namespace NN
variable {α : Type} [Flt α]
open Go

/-- What a footprint must allow so that training model `m` on `X` stays inside it.  Rows: everything, or the parameters
and, if the first layer is a sigmoid layer, the rows of `X`. -/
structure Tracks (f : Foot) (w0 : World α) (m : Model α) (X : Mat) (ms : List Mat) : Prop where
  lay : ∀ lp, lp ∈ m.layers → f.lay lp
  opt : ∀ p, p ∈ m.optims → f.opt p
  unif : f.unif
  outs : ∀ a, ¬ f.outs a
  params : (∀ a, f.flt a) ∨ ∀ lp, lp ∈ m.layers → lp < w0.next ∧ (∀ wm, (w0.lay lp).weights = some wm → wm ∈ ms) ∧
    ∀ bm, (w0.lay lp).biases = some bm → bm ∈ ms
  data : (∀ a, f.flt a) ∨ (∀ lp, m.layers[0]? = some lp → lp < w0.next ∧ (w0.lay lp).kind ≠ .sigmoid) ∨
    (X.m.addr < w0.next ∧ ∀ (k a : Nat), (w0.outs X.m.addr)[k]? = some a → f.flt a)

variable {f : Foot} {w0 w : World α} {ms : List Mat} {m : Model α}

theorem NewIn.all (h : ∀ a, f.flt a) (w0 w : World α) (m : Mat) : NewIn f w0 w m :=
  ⟨.inl h, fun _ a _ _ => .inl (h a)⟩

theorem wlp_forwardLoop {training : Bool} {x : Mat} (hl : ∀ lp, lp ∈ m.layers → f.lay lp) (hu : training = true → f.unif)
    (h : Since f w0 w ms) (n : Nat) :
    wlp (forwardLoop m training x n) w (fun p w' => Since f w0 w' (p.1.tail ++ ms) ∧
      (p.2.2 = none → p.1.head? = some x)) := by
  induction n with
  | zero => exact wlp_pure ⟨h, fun _ => rfl⟩
  | succ n ih =>
    unfold forwardLoop
    refine wlp_bind ih ?_
    rintro ⟨outputs, output, err⟩ w1 ⟨h1, hh⟩
    dsimp only at h1 hh ⊢
    cases err with
    | some e => exact wlp_pure ⟨h1.sub fun m hm => List.mem_append_right _ hm, fun h => by cases h⟩
    | none =>
      refine wlp_listGet_bind fun lp hi hlp => ?_
      refine wlp_bind (wlp_forwardStep h1 (hl lp (List.mem_of_getElem? hlp)) fun ht _ => hu ht) ?_
      rintro ⟨out, err⟩ w2 h2
      dsimp only at h2 ⊢
      cases err with
      | some e => exact wlp_pure ⟨h2.sub fun m hm => List.mem_cons_of_mem _ (List.mem_append_right _ hm),
          fun h => by cases h⟩
      | none =>
        have hx := hh rfl
        refine wlp_pure ⟨h2.sub fun m hm => ?_, fun _ => ?_⟩
        · cases outputs with
          | nil => cases hx
          | cons o os =>
            simp only [List.cons_append, List.tail_cons, List.mem_append, List.mem_cons] at hm ⊢
            tauto
        · cases outputs with
          | nil => cases hx
          | cons o os => exact hx

theorem wlp_modelForward {training : Bool} {x : Mat} (hl : ∀ lp, lp ∈ m.layers → f.lay lp)
    (hu : training = true → f.unif) (h : Since f w0 w ms) :
    wlp (modelForward m x training) w (fun p w' => Since f w0 w' (p.1.tail ++ ms) ∧
      (p.2 = none → p.1.head? = some x)) := by
  unfold modelForward
  refine wlp_bind (wlp_forwardLoop hl hu h _) ?_
  rintro ⟨outputs, output, err⟩ w1 h1
  exact wlp_pure h1

/-- The first layer is not a sigmoid layer. -/
def NoSigmoidFirst (w0 : World α) (m : Model α) : Prop :=
  ∀ lp, m.layers[0]? = some lp → lp < w0.next ∧ (w0.lay lp).kind ≠ .sigmoid

theorem mem_tail_of_get {xs : List Mat} {k : Nat} {v : Mat} (hk : 0 < k) (h : xs[k]? = some v) : v ∈ xs.tail := by
  cases xs with
  | nil => simp at h
  | cons x xs =>
    obtain ⟨k, rfl⟩ : ∃ k', k = k' + 1 := ⟨k - 1, by omega⟩
    exact List.mem_of_getElem? h

theorem Since.kind {lp : Nat} (h : Since f w0 w ms) (hlt : lp < w0.next) : (w.lay lp).kind = (w0.lay lp).kind :=
  show (w.lay lp).static.kind = (w0.lay lp).static.kind by rw [h.stat lp hlt]

theorem Since.weights {lp : Nat} (h : Since f w0 w ms) (hlt : lp < w0.next) : (w.lay lp).weights = (w0.lay lp).weights :=
  show (w.lay lp).static.weights = (w0.lay lp).static.weights by rw [h.stat lp hlt]

theorem Since.biases {lp : Nat} (h : Since f w0 w ms) (hlt : lp < w0.next) : (w.lay lp).biases = (w0.lay lp).biases :=
  show (w.lay lp).static.biases = (w0.lay lp).static.biases by rw [h.stat lp hlt]

theorem wlp_backwardLoop {outputs : List Mat} (hm : ∀ x ∈ outputs.tail, x ∈ ms)
    (hx : (∀ x, outputs[0]? = some x → x ∈ ms) ∨ NoSigmoidFirst w0 m) (k : Nat) (gs : List Gradients) (d : Mat)
    (ms' : List Mat) (hms : ∀ x ∈ ms, x ∈ ms') (h : Since f w0 w ms') (hd : d ∈ ms') :
    wlp (backwardLoop m outputs k gs d) w (fun _ w' => Since f w0 w' ms) := by
  induction k generalizing w gs d ms' with
  | zero => exact wlp_pure (h.sub hms)
  | succ k ih =>
    unfold backwardLoop
    refine wlp_ro_bind (RO.fusedLast _ _) fun b => ?_
    split
    · exact ih gs d ms' hms h hd
    refine wlp_listGet_bind fun lp _ hlp => wlp_listGet_bind fun x _ hxk => ?_
    refine wlp_bind (wlp_layerBackward h hd fun hs => hms x ?_) ?_
    · simp only [Int.toNat_natCast] at hlp hxk
      rcases Nat.eq_zero_or_pos k with rfl | hk
      · rcases hx with hx | hx
        · exact hx x hxk
        · obtain ⟨h1, h2⟩ := hx lp hlp
          rw [h.kind h1] at hs
          exact absurd hs h2
      · exact hm x (mem_tail_of_get hk hxk)
    · intro g w1 h1
      cases hg : g.err with
      | some e => exact wlp_pure (h1.sub fun x hx => List.mem_cons_of_mem _ (hms x hx))
      | none => exact ih _ _ _ (fun x hx => List.mem_cons_of_mem _ (hms x hx)) h1 List.mem_cons_self

theorem wlp_modelBackward {outputs : List Mat} {y : Mat} (hm : ∀ x ∈ outputs.tail, x ∈ ms)
    (hx : (∀ x, outputs[0]? = some x → x ∈ ms) ∨ NoSigmoidFirst w0 m) (h : Since f w0 w ms) :
    wlp (modelBackward m outputs y) w (fun _ w' => Since f w0 w' ms) := by
  unfold modelBackward
  by_cases h0 : m.modelSize - 1 < 0
  · refine wlp_bind (R := fun _ _ => False) ?_ fun _ _ h => h.elim
    unfold fusedLast
    exact wlp_listGet_bind fun v hi _ => absurd hi (not_le.2 h0)
  refine wlp_ro_bind (RO.fusedLast _ _) fun b => ?_
  split
  · refine wlp_ro_bind (RO.listGet _ _) fun lp => wlp_ro_bind (RO.listGet _ _) fun x => wlp_ro_bind (RO.listGet _ _)
      fun out => wlp_bind (wlp_softmaxBackwardCE h) fun g w1 h1 => ?_
    cases hg : g.err with
    | some e => exact wlp_pure h1.tail
    | none => exact wlp_backwardLoop hm hx _ _ _ _ (fun x hx => List.mem_cons_of_mem _ hx) h1 List.mem_cons_self
  · refine wlp_listGet_bind fun out hi ho => wlp_ro_bind (RO.deref _) fun l => ?_
    refine wlp_bind (wlp_lossBackward h (hm out (mem_tail_of_get (by omega) ho))) ?_
    rintro ⟨d, e⟩ w1 h1
    dsimp only at h1 ⊢
    cases e with
    | some e => exact wlp_pure h1.tail
    | none => exact wlp_backwardLoop hm hx _ _ _ _ (fun x hx => List.mem_cons_of_mem _ hx) h1 List.mem_cons_self

/-- Writing to the log. -/
theorem wlp_logEvent {e : LogEvent α} (h : Since f w0 w ms) (hf : f.log) :
    wlp (logEvent e) w (fun _ w' => Since f w0 w' ms) := by
  intro b w' e
  unfold logEvent at e
  split at e
  · cases e
    have hf' := h.frame
    exact h.step ⟨hf'.next_le, hf'.flt, hf'.outs, hf'.lay, hf'.opt, hf'.norm, hf'.unif, hf'.normPos,
      hf'.unifPos, fun h => absurd hf h, hf'.logger⟩ le_rfl (fun _ _ => rfl) (fun _ _ => rfl) (fun _ _ => rfl)
  · cases e

/-- The state is inside the footprint, unless an error has been reported and the log is outside the footprint. -/
def Within (f : Foot) (w0 : World α) (ms : List Mat) (e : Option Err) (w : World α) : Prop :=
  e = none ∨ f.log → Since f w0 w ms

/-- An error is logged and returned. -/
theorem wlp_fail {st : LogStage} {e : Err} (h : Since f w0 w ms) :
    wlp (do logEvent (.error st e); return some e : Go α (Option Err)) w (Within f w0 ms) := by
  by_cases hf : f.log
  · exact wlp_bind (wlp_logEvent h hf) fun _ w1 h1 => wlp_pure fun _ => h1
  · exact wlp_bind (R := fun _ _ => True) (fun _ _ _ => trivial) fun _ w1 _ => wlp_pure fun h =>
      absurd h (by simp [hf])

theorem wlp_forRet_within {n : Nat} {body : Nat → Go α (Option Err)} (h : Since f w0 w ms)
    (hs : ∀ k w', Since f w0 w' ms → wlp (body k) w' (Within f w0 ms)) :
    wlp (forRet n body) w (Within f w0 ms) := by
  refine wlp_mono (wlp_forRet (fun _ w' => Since f w0 w' ms) (fun e w' => Within f w0 ms (some e) w') h ?_) ?_
  · intro k w' _ h'
    refine wlp_mono (hs k w' h') fun r w'' h2 => ?_
    cases r with
    | none => exact h2 (.inl rfl)
    | some e => exact h2
  · intro r w' h
    cases r with
    | none => exact fun _ => h
    | some e => exact h

theorem wlp_updateLayers {X : Mat} {gs : List Gradients} (ht : Tracks f w0 m X ms) (h : Since f w0 w ms) :
    wlp (updateLayers m gs) w (Within f w0 ms) := by
  unfold updateLayers
  refine wlp_forRet_within h fun k w1 h1 => ?_
  refine wlp_listGet_bind fun lp _ hlp => wlp_layGet_bind (wlp_listGet_bind fun op _ hop => ?_)
  refine wlp_ro_bind (RO.listGet _ _) fun g => ?_
  have key : wlp (optUpdate op (w1.lay lp).weights (w1.lay lp).biases g.dWeights g.dBiases) w1
      (fun _ w' => Since f w0 w' ms) := by
    have hop' := ht.opt op (List.mem_of_getElem? hop)
    rcases ht.params with hall | hp
    · cases hw : (w1.lay lp).weights with
      | none =>
        unfold optUpdate
        exact wlp_ro_bind (RO.optGet _) fun _ => wlp_deref_bind fun _ h => by cases h
      | some wm =>
        cases hb : (w1.lay lp).biases with
        | none =>
          unfold optUpdate
          exact wlp_ro_bind (RO.optGet _) fun _ => wlp_deref_bind fun _ _ => wlp_deref_bind fun _ h => by cases h
        | some bm =>
          have h2 : Since f w0 w1 (wm :: bm :: ms) := (h1.cons (NewIn.all hall _ _ bm)).cons (NewIn.all hall _ _ wm)
          exact wlp_mono (wlp_optUpdate h2 hop' (by rintro _ ⟨rfl⟩; simp) (by rintro _ ⟨rfl⟩; simp))
            fun _ w' h => h.tail.tail
    · obtain ⟨hlt, hw, hb⟩ := hp lp (List.mem_of_getElem? hlp)
      refine wlp_optUpdate h1 hop' ?_ ?_
      · rw [h1.weights hlt]; exact hw
      · rw [h1.biases hlt]; exact hb
  refine wlp_bind key fun e w2 h2 => ?_
  cases e with
  | none => exact wlp_pure fun _ => h2
  | some e => exact wlp_fail h2

/-- A slice of `X` as a matrix: empty, or with rows from the backing array of `X`. -/
theorem wlp_sliceMat {s : Slice} : wlp (newMatrixFromSlice s : Go α (Mat × Option Err)) w
    (fun p w' => w' = w ∧ (p.1.m.len = 0 ∨ p.1.m = s)) := by
  intro p w' e
  refine ⟨RO.newMatrixFromSlice s w p w' e, ?_⟩
  revert p w'
  change wlp (newMatrixFromSlice s : Go α (Mat × Option Err)) w (fun p _ => p.1.m.len = 0 ∨ p.1.m = s)
  unfold newMatrixFromSlice
  dsimp only
  split
  · exact wlp_pure (.inl rfl)
  · refine wlp_ro_bind (RO.rowRef _ _) fun _ => wlp_ro_bind (RO.rowLen _) fun _ => ?_
    split
    · exact wlp_pure (.inl rfl)
    · exact wlp_pure (.inr rfl)

theorem wlp_reslice {s : Slice} {lo hi : Int} : wlp (reslice s lo hi : Go α Slice) w
    (fun p w' => w' = w ∧ p.addr = s.addr) := by
  intro p w' e
  unfold reslice at e
  split at e <;> cases e
  exact ⟨rfl, rfl⟩

theorem wlp_fitBatch {X Y : Mat} {bs : Int} {k : Nat} (ht : Tracks f w0 m X ms) (h : Since f w0 w ms) :
    wlp (fitBatch m X Y bs k) w (Within f w0 ms) := by
  unfold fitBatch
  dsimp only
  refine wlp_bind wlp_reslice ?_
  rintro s w' ⟨rfl, hs⟩
  refine wlp_bind wlp_sliceMat ?_
  rintro ⟨bX, e⟩ w ⟨rfl, hb⟩
  dsimp only at hb ⊢
  refine wlp_ro_bind (RO.reslice _ _ _) fun s2 => wlp_ro_bind (RO.newMatrixFromSlice _) fun p => ?_
  obtain ⟨bY, e2⟩ := p
  dsimp only
  -- the batch may be added to the tracked matrices if it can be written at all
  obtain ⟨ms', hs1, hms, hx⟩ : ∃ ms', Since f w0 w ms' ∧ (∀ x ∈ ms, x ∈ ms') ∧ (bX ∈ ms' ∨ NoSigmoidFirst w0 m) := by
    have hadd : NewIn f w0 w bX → ∃ ms', Since f w0 w ms' ∧ (∀ x ∈ ms, x ∈ ms') ∧ (bX ∈ ms' ∨ NoSigmoidFirst w0 m) :=
      fun hn => ⟨bX :: ms, h.cons hn, fun x hx => List.mem_cons_of_mem _ hx, .inl List.mem_cons_self⟩
    rcases ht.data with hd | hd | ⟨hlt, hd⟩
    · exact hadd (NewIn.all hd _ _ _)
    · exact ⟨ms, h, fun _ hx => hx, .inr hd⟩
    · refine hadd ⟨.inr ?_, ?_⟩
      · rcases hb with hb | rfl
        · exact .inl hb
        · exact .inr (by rw [hs]; exact hlt.trans_le h.frame.next_le)
      · intro i a hi e
        rcases hb with hb | rfl
        · omega
        · unfold World.rowAddr at e
          rw [hs, h.frame.outs _ hlt (ht.outs _)] at e
          exact .inl (hd _ _ e)
  refine wlp_bind (wlp_modelForward ht.lay (fun _ => ht.unif) hs1) ?_
  rintro ⟨outputs, err⟩ w1 ⟨h1, hh⟩
  dsimp only at h1 hh ⊢
  cases err with
  | some e => exact wlp_fail (h1.sub fun x hx => List.mem_append_right _ (hms x hx))
  | none =>
    refine wlp_bind (wlp_modelBackward (ms := outputs.tail ++ ms') (fun x hx => List.mem_append_left _ hx) ?_ h1) ?_
    · rcases hx with hx | hx
      · left
        intro x e
        have := hh rfl
        rw [List.head?_eq_getElem?, e] at this
        cases this
        exact List.mem_append_right _ hx
      · exact .inr hx
    · rintro ⟨gs, err⟩ w2 h2
      dsimp only at h2 ⊢
      have h2 : Since f w0 w2 ms := h2.sub fun x hx => List.mem_append_right _ (hms x hx)
      cases err with
      | some e => exact wlp_fail h2
      | none => exact wlp_updateLayers ht h2

theorem trackOut {outputs : List Mat} {out : Mat} (hpos : (∀ a, f.flt a) ∨ 0 < m.modelSize)
    (h : Since f w0 w (outputs.tail ++ ms)) (ho : outputs[m.modelSize.toNat]? = some out) :
    ∃ ms', Since f w0 w ms' ∧ (∀ x ∈ ms, x ∈ ms') ∧ out ∈ ms' := by
  rcases hpos with hall | hpos
  · exact ⟨out :: (outputs.tail ++ ms), h.cons (NewIn.all hall _ _ _),
      fun x hx => List.mem_cons_of_mem _ (List.mem_append_right _ hx), List.mem_cons_self⟩
  · exact ⟨_, h, fun x hx => List.mem_append_right _ hx, List.mem_append_left _ (mem_tail_of_get (by omega) ho)⟩

theorem wlp_calculateLoss {X Y : Mat} (ht : ∀ lp, lp ∈ m.layers → f.lay lp) (hpos : (∀ a, f.flt a) ∨ 0 < m.modelSize)
    (h : Since f w0 w ms) : wlp (calculateLoss m X Y) w (fun _ w' => Since f w0 w' ms) := by
  unfold calculateLoss
  refine wlp_bind (wlp_modelForward ht (by simp) h) ?_
  rintro ⟨outputs, err⟩ w1 ⟨h1, hh⟩
  dsimp only at h1 hh ⊢
  have drop : ∀ w, Since f w0 w (outputs.tail ++ ms) → Since f w0 w ms :=
    fun w h => h.sub fun x hx => List.mem_append_right _ hx
  cases err with
  | some e => exact wlp_pure (drop _ h1)
  | none =>
    refine wlp_listGet_bind fun out _ ho => wlp_ro_bind (RO.deref _) fun l => ?_
    obtain ⟨ms', hs, hms, hout⟩ := trackOut hpos h1 ho
    refine wlp_bind (wlp_lossForward hs hout) ?_
    rintro ⟨j, e⟩ w2 h2
    dsimp only at h2 ⊢
    split <;> exact wlp_pure (h2.sub hms)

theorem wlp_calculateAccuracy {X Y : Mat} (ht : ∀ lp, lp ∈ m.layers → f.lay lp) (hpos : (∀ a, f.flt a) ∨ 0 < m.modelSize)
    (h : Since f w0 w ms) : wlp (calculateAccuracy m X Y) w (fun _ w' => Since f w0 w' ms) := by
  unfold calculateAccuracy
  refine wlp_bind (wlp_modelForward ht (by simp) h) ?_
  rintro ⟨outputs, err⟩ w1 ⟨h1, hh⟩
  dsimp only at h1 hh ⊢
  have drop : ∀ w, Since f w0 w (outputs.tail ++ ms) → Since f w0 w ms :=
    fun w h => h.sub fun x hx => List.mem_append_right _ hx
  cases err with
  | some e => exact wlp_pure (drop _ h1)
  | none =>
    dsimp only
    split
    · refine wlp_listGet_bind fun out _ ho => wlp_bind (wlp_regressionAccuracy h1) ?_
      exact fun _ w2 h2 => wlp_pure (drop _ h2)
    split
    · refine wlp_listGet_bind fun out _ ho => wlp_bind (wlp_categoricalAccuracy h1) ?_
      exact fun _ w2 h2 => wlp_pure (drop _ h2)
    split
    · refine wlp_listGet_bind fun out _ ho => ?_
      obtain ⟨ms', hs, hms, hout⟩ := trackOut hpos h1 ho
      exact wlp_bind (wlp_binaryCategoricalAccuracy hs hout) fun _ w2 h2 => wlp_pure (h2.sub hms)
    exact wlp_pure (drop _ h1)

theorem wlp_fitLog {X Y : Mat} {sl sa : LogStage} {mk : α → α → LogEvent α} (ht : ∀ lp, lp ∈ m.layers → f.lay lp) (hlog : f.log)
    (hpos : (∀ a, f.flt a) ∨ 0 < m.modelSize) (h : Since f w0 w ms) :
    wlp (fitLog m X Y sl sa mk) w (fun _ w' => Since f w0 w' ms) := by
  unfold fitLog
  refine wlp_bind (wlp_calculateLoss ht hpos h) ?_
  rintro ⟨l, e⟩ w1 h1
  dsimp only
  cases e with
  | some e => exact wlp_mono (wlp_fail h1) fun _ _ h => h (.inr hlog)
  | none =>
    refine wlp_bind (wlp_calculateAccuracy ht hpos h1) ?_
    rintro ⟨a, e⟩ w2 h2
    dsimp only
    cases e with
    | some e => exact wlp_mono (wlp_fail h2) fun _ _ h => h (.inr hlog)
    | none => exact wlp_bind (wlp_logEvent h2 hlog) fun _ w3 h3 => wlp_pure h3

/-- `Fit` stays inside every footprint that allows its parameters, its layers and optimizers, the random source, the log
and, for a first sigmoid layer, its training data. -/
theorem wlp_fit {X Y xv yv : Mat} {epochs bs le : Int} (ht : Tracks f w0 m X ms) (hlog : f.log)
    (hpos : (∀ a, f.flt a) ∨ 0 < m.modelSize) (h : Since f w0 w ms) :
    wlp (fit m X Y epochs bs xv yv le) w (fun _ w' => Since f w0 w' ms) := by
  unfold fit
  dsimp only
  refine wlp_mono (wlp_forRet_within h fun k w1 h1 => ?_) fun _ _ h => h (.inr hlog)
  unfold fitEpoch
  refine wlp_bind (wlp_forRet_within h1 fun k w2 h2 => wlp_fitBatch ht h2) fun e w2 h2 => ?_
  replace h2 := h2 (.inr hlog)
  cases e with
  | some e => exact wlp_pure fun _ => h2
  | none =>
    dsimp only
    have second : ∀ w, Since f w0 w ms → wlp (do
        if yv.rows ≠ 0 ∧ le ≠ 0 ∧ Int.tmod k le = 0 then
          let err ← fitLog m xv yv .valLoss .valAccuracy (fun l a => .valInfo k l a)
          if let some e := err then
            return some e
        return none : Go α (Option Err)) w (Within f w0 ms) := by
      intro w h
      split
      · refine wlp_bind (wlp_fitLog ht.lay hlog hpos h) fun e w3 h3 => ?_
        cases e <;> exact wlp_pure fun _ => h3
      · exact wlp_pure fun _ => h
    split
    · refine wlp_bind (wlp_fitLog ht.lay hlog hpos h2) fun e w3 h3 => ?_
      cases e with
      | some e => exact wlp_pure fun _ => h3
      | none => exact second _ h3
    · exact second _ h2

end NN
