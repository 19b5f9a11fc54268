import Verif.Lemmas.FitRun
/- What `Fit` can change at all, for arbitrary data; what it logs. -/

set_option linter.unusedSectionVars false

namespace NN
variable {α : Type} [Flt α]
open Go

variable {w w' : World α} {m : Model α} {net : Net α}

/-- What `Fit` can change: the entries of weights and biases (and of the training data, if the first layer is a sigmoid
layer), what layers remember, optimizers, the random source, the log. -/
def fitFoot (w : World α) (m : Model α) (net : Net α) (X : Mat) : Foot where
  flt := fun a => w.IsNetParam net a ∨ (net.L 0).kind = .sigmoid ∧ a ∈ w.outs X.m.addr
  lay := fun a => a ∈ m.layers
  opt := fun a => a ∈ m.optims
  unif := True
  log := True

/-- The weights and biases of the model. -/
def Net.params (net : Net α) : List Mat := (List.range net.size).map net.wm ++ (List.range net.size).map net.bm

theorem IsNet.mem_layers (h : IsNet w m net) {lp : Nat} (hl : lp ∈ m.layers) : ∃ i, i < net.size ∧ net.lp i = lp := by
  rw [h.ptrs] at hl
  obtain ⟨i, hi, e⟩ := List.mem_map.1 hl
  exact ⟨i, List.mem_range.1 hi, e⟩

theorem fit_tracks (hN : IsNet w m net) {X : Mat} {n c : Nat} {A : Nat → Nat → α} (hX : IsMat w X n c A) :
    Tracks (fitFoot w m net X) w m X net.params := by
  refine ⟨fun _ h => h, fun _ h => h, trivial, fun _ h => h, .inr fun lp hl => ?_, .inr ?_⟩
  · obtain ⟨i, hi, rfl⟩ := hN.mem_layers hl
    have hL := hN.lay i hi
    refine ⟨hL.lt, fun wm e => ?_, fun bm e => ?_⟩
    · rw [hL.weights] at e; cases e
      exact List.mem_append_left _ (List.mem_map.2 ⟨i, List.mem_range.2 hi, rfl⟩)
    · rw [hL.biases] at e; cases e
      exact List.mem_append_right _ (List.mem_map.2 ⟨i, List.mem_range.2 hi, rfl⟩)
  · by_cases hs : (net.L 0).kind = .sigmoid
    · exact .inr ⟨hX.addr_lt, fun k a h => .inr ⟨hs, List.mem_of_getElem? h⟩⟩
    · refine .inl fun lp h => ?_
      rw [hN.ptrs] at h
      obtain ⟨i, hi, rfl⟩ := List.mem_map.1 (List.mem_of_getElem? h)
      have hi := List.mem_range.1 hi
      rw [List.getElem?_map, List.getElem?_range (by omega)] at h
      simp at h
      have hL := hN.lay 0 (by omega)
      rw [← h]
      exact ⟨hL.lt, by rw [hL.kind]; exact hs⟩

theorem params_newIn (hN : IsNet w m net) {f : Foot} (hf : ∀ a, w.IsNetParam net a → f.flt a) :
    ∀ x ∈ net.params, NewIn f w w x := by
  have key : ∀ (M : Mat) (r c : Nat) (A : Nat → Nat → α), IsMat w M r c A → (∀ a, w.IsRow M r a → f.flt a) → NewIn f w w M :=
    fun M r c A hM h => ⟨.inr (.inr hM.addr_lt), fun i a hi e => .inl (h a ⟨i, by have := hM.len; omega, e⟩)⟩
  intro x hx
  rcases List.mem_append.1 hx with hx | hx
  · obtain ⟨i, hi, rfl⟩ := List.mem_map.1 hx
    have hi := List.mem_range.1 hi
    exact key _ _ _ _ (hN.lay i hi).wmat fun a h => hf a ⟨i, hi, .inl h⟩
  · obtain ⟨i, hi, rfl⟩ := List.mem_map.1 hx
    have hi := List.mem_range.1 hi
    exact key _ _ _ _ (hN.lay i hi).bmat fun a h => hf a ⟨i, hi, .inr h⟩

/-- `Fit` stays inside its footprint, whatever the data. -/
theorem fit_since (hN : IsNet w m net) (h0 : 0 < net.size) {X Y xv yv : Mat} {n c : Nat} {A : Nat → Nat → α}
    (hX : IsMat w X n c A) (epochs bs k : Int) :
    wlp (fit m X Y epochs bs xv yv k) w (fun _ w' => Since (fitFoot w m net X) w w' net.params) :=
  wlp_fit (fit_tracks hN hX) trivial (.inr (by rw [hN.size]; omega)) (Since.start _ _ (params_newIn hN fun _ h => .inl h))

/-- A model whose layers keep their shapes is a model. -/
theorem Since.isNet {f : Foot} {ms : List Mat} (h : Since f w w' ms) (ho : ∀ a, ¬ f.outs a) (hN : IsNet w m net) :
    ∃ net', SameShape net net' ∧ IsNet w' m net' := by
  let net' : Net α := { net with L := fun i => { net.L i with
    W := fun p j => (w'.flt ((w'.rowAddr (net.wm i) p).getD 0)).getD j Flt.zero
    b := fun j => (w'.flt ((w'.rowAddr (net.bm i) 0).getD 0)).getD j Flt.zero } }
  refine ⟨net', ⟨rfl, rfl, rfl, rfl, rfl, fun i => ⟨_, _, rfl⟩⟩, hN.size, hN.ptrs, fun i hi => ?_, hN.ins, hN.outs, hN.input,
    hN.output⟩
  have hL := hN.lay i hi
  have hs := h.stat _ hL.lt
  simp only [Layer.static, Layer.mk.injEq, and_true] at hs
  obtain ⟨e1, e2, e3, e4, e5, e6, e7⟩ := hs
  refine ⟨hL.lt.trans_le h.frame.next_le, e1.trans hL.kind, e2.trans hL.ins, e3.trans hL.outs, e4.trans hL.weights,
    e5.trans hL.biases, e6.trans hL.slope, e7.trans hL.dropout, h.isMat ho hL.wmat, ?_⟩
  refine (h.isMat ho hL.bmat).congr fun i j hi hj => ?_
  obtain rfl : i = 0 := by omega
  rfl

theorem SameShape.own {net' : Net α} (h : SameShape net net') (ho : OwnNet w net) : OwnNet w net' := by
  refine ⟨fun i hi => ?_, fun i j hi hj e => ?_, fun i j a hi hj ha hb => ?_⟩
  · rw [h.wm, h.bm, h.n]; exact ho.own i (by rw [← h.size]; exact hi)
  · rw [h.lp] at e; exact ho.inj i j (by rw [← h.size]; exact hi) (by rw [← h.size]; exact hj) e
  · rw [h.wm, h.bm, h.n] at ha hb
    exact ho.sep i j a (by rw [← h.size]; exact hi) (by rw [← h.size]; exact hj) ha hb

/-! ### The log -/

/-- The footprint that allows everything except changing arrays of rows and the log. -/
def quietFoot : Foot := { flt := fun _ => True, lay := fun _ => True, opt := fun _ => True, unif := True, norm := True }

theorem tracks_quiet (w0 : World α) (m : Model α) (X : Mat) : Tracks quietFoot w0 m X [] :=
  ⟨fun _ _ => trivial, fun _ _ => trivial, trivial, fun _ h => h, .inl fun _ => trivial, .inl fun _ => trivial⟩

/-- Nothing is logged and the logger stays. -/
def Quiet (w w' : World α) : Prop := w'.log = w.log ∧ w'.logger = w.logger

theorem Since.quiet {ms : List Mat} (h : Since quietFoot w w' ms) : Quiet w w' := ⟨h.frame.log fun h => h, h.frame.logger⟩

theorem sinceQuiet (w : World α) : Since quietFoot w w [] := Since.start _ w (fun _ h => by cases h)

/-- An error is logged. -/
def Failed (w : World α) (er : Err) (w' : World α) : Prop :=
  (∃ st, w'.log = w.log ++ [.error st er]) ∧ w'.logger = true ∧ w.logger = true

theorem wlp_logFail {w1 : World α} {st : LogStage} (er : Err) (hq : Quiet w w1) :
    wlp (do logEvent (.error st er); return some er : Go α (Option Err)) w1 (fun r w' => r = some er ∧ Failed w er w') := by
  intro r w' e
  change Go.bind _ _ w1 = _ at e
  unfold Go.bind logEvent at e
  by_cases hl : w1.logger = true
  · rw [if_pos hl] at e
    cases e
    exact ⟨rfl, ⟨st, by show w1.log ++ _ = _; rw [hq.1]⟩, hl, hq.2 ▸ hl⟩
  · rw [if_neg hl] at e
    cases e

theorem wlp_fitLog_log (X Y : Mat) (sl sa : LogStage) (mk : α → α → LogEvent α) : wlp (fitLog m X Y sl sa mk) w (fun r w' =>
    match r with
    | some er => Failed w er w'
    | none => w.logger = true ∧ ∃ l a w1 w2, calculateLoss m X Y w = .ok ((l, none), w1) ∧
      calculateAccuracy m X Y w1 = .ok ((a, none), w2) ∧ w' = { w2 with log := w.log ++ [mk l a] } ∧ w2.log = w.log ∧
      w'.logger = true) := by
  unfold fitLog
  refine wlp_bind (R := fun p w1 => calculateLoss m X Y w = .ok (p, w1) ∧ Quiet w w1) (fun p w1 e => ⟨e, ?_⟩) ?_
  · exact (wlp_calculateLoss (fun _ _ => trivial) (.inl fun _ => trivial) (sinceQuiet w) _ _ e).quiet
  rintro ⟨l, e⟩ w1 ⟨h1, q1⟩
  cases e with
  | some er => exact wlp_mono (wlp_logFail er q1) (by rintro _ _ ⟨rfl, h⟩; exact h)
  | none =>
    dsimp only
    refine wlp_bind (R := fun p w2 => calculateAccuracy m X Y w1 = .ok (p, w2) ∧ Quiet w1 w2) (fun p w1 e => ⟨e, ?_⟩) ?_
    · exact (wlp_calculateAccuracy (fun _ _ => trivial) (.inl fun _ => trivial) (sinceQuiet _) _ _ e).quiet
    rintro ⟨a, e⟩ w2 ⟨h2, q2⟩
    have q : Quiet w w2 := ⟨q2.1.trans q1.1, q2.2.trans q1.2⟩
    cases e with
    | some er => exact wlp_mono (wlp_logFail er q) (by rintro _ _ ⟨rfl, h⟩; exact h)
    | none =>
      dsimp only
      intro r w' e
      change Go.bind _ _ w2 = _ at e
      unfold Go.bind logEvent at e
      by_cases hl : w2.logger = true
      · rw [if_pos hl] at e
        cases e
        exact ⟨by rw [← q.2]; exact hl, l, a, w1, w2, h1, h2, by rw [q.1], q.1, hl⟩
      · rw [if_neg hl] at e
        cases e

theorem wlp_optUpdate_quiet {w1 : World α} {ow ob : Option Mat} {op : Nat} {dw db : Mat} (h : Since quietFoot w w1 []) :
    wlp (optUpdate op ow ob dw db) w1 (fun _ w' => Since quietFoot w w' []) := by
  cases ow with
  | none =>
    unfold optUpdate
    exact wlp_ro_bind (RO.optGet _) fun _ => wlp_deref_bind fun _ h => by cases h
  | some wm =>
    cases ob with
    | none =>
      unfold optUpdate
      exact wlp_ro_bind (RO.optGet _) fun _ => wlp_deref_bind fun _ _ => wlp_deref_bind fun _ h => by cases h
    | some bm =>
      have h4 : Since quietFoot w w1 [wm, bm] :=
        (h.cons (NewIn.all (fun _ => trivial) _ _ bm)).cons (NewIn.all (fun _ => trivial) _ _ wm)
      exact wlp_mono (wlp_optUpdate h4 trivial (by rintro _ ⟨rfl⟩; simp) (by rintro _ ⟨rfl⟩; simp))
        fun _ w' h => h.tail.tail

/-- Either nothing is logged and no error is returned, or the error that is returned is logged. -/
def QuietOr (w : World α) (r : Option Err) (w' : World α) : Prop :=
  match r with
  | some er => Failed w er w'
  | none => Quiet w w'

theorem wlp_trainOn_log (X Y : Mat) : wlp (trainOn m X Y) w (QuietOr w) := by
  have fail : ∀ (er : Err) (w1 : World α), Quiet w w1 → wlp (do logEvent (.error .forward er); return some er : Go α (Option Err)) w1
      (QuietOr w) := fun er w1 q => wlp_mono (wlp_logFail er q) (by rintro _ _ ⟨rfl, h⟩; exact h)
  unfold trainOn
  refine wlp_bind (wlp_modelForward (fun _ _ => trivial) (fun _ => trivial) (sinceQuiet w)) ?_
  rintro ⟨outputs, err⟩ w1 ⟨h1, -⟩
  dsimp only at h1 ⊢
  cases err with
  | some er => exact fail er w1 h1.quiet
  | none =>
    dsimp only
    have hall : ∀ ms : List Mat, Since quietFoot w w1 ms :=
      fun ms => ⟨h1.frame, h1.stat, h1.len, fun x _ => NewIn.all (fun _ => trivial) _ _ x⟩
    refine wlp_bind (wlp_modelBackward (ms := outputs) (fun x hx => List.mem_of_mem_tail hx)
      (.inl fun x hx => List.mem_of_getElem? hx) (hall _)) ?_
    rintro ⟨gs, err⟩ w2 h2
    dsimp only at h2 ⊢
    cases err with
    | some er => exact fail er w2 h2.quiet
    | none =>
      dsimp only
      unfold updateLayers
      refine wlp_mono (wlp_forRet (fun _ w' => Since quietFoot w w' ([] : List Mat)) (fun er w' => Failed w er w')
        (h2.sub (fun _ h => by cases h)) ?_) ?_
      · intro k w3 _ h3
        refine wlp_ro_bind (RO.listGet _ _) fun lp => wlp_layGet_bind (wlp_ro_bind (RO.listGet _ _) fun op => ?_)
        refine wlp_ro_bind (RO.listGet _ _) fun g => ?_
        refine wlp_bind (wlp_optUpdate_quiet h3) fun e w4 h4 => ?_
        cases e with
        | none => exact wlp_pure h4
        | some er => exact wlp_mono (wlp_logFail er h4.quiet) (by rintro _ _ ⟨rfl, h⟩; exact h)
      · intro r w' h
        cases r with
        | none => exact h.quiet
        | some er => exact h

theorem wlp_fitBatch_log (X Y : Mat) (bs : Int) (k : Nat) : wlp (fitBatch m X Y bs k) w (QuietOr w) := by
  unfold fitBatch
  dsimp only
  refine wlp_ro_bind (RO.reslice _ _ _) fun s => wlp_ro_bind (RO.newMatrixFromSlice _) fun p => ?_
  obtain ⟨x, e⟩ := p
  refine wlp_ro_bind (RO.reslice _ _ _) fun s => wlp_ro_bind (RO.newMatrixFromSlice _) fun p => ?_
  obtain ⟨y, e'⟩ := p
  exact wlp_trainOn_log x y

end NN
