import Verif.Props.C52_C57
/-
C131: which stage the error line of `Fit` names.

When Fit fails it writes one line, "Failed to <stage>: <error>".  The claim is that the stage named is the stage that failed.  It is
false of the code: a failing backward pass is reported as a failing forward pass (model.go:248).  The other lines name the stage that
failed.
-/

set_option linter.unusedSectionVars false

namespace NN
open Go

/-- The calls in `Fit` that can fail. -/
inductive FitCall where
  | forward | backward | update | loss | accuracy | valLoss | valAccuracy
deriving DecidableEq, Repr

/-- The text that describes a call. -/
def FitCall.stage : FitCall → Option LogStage
  | .forward => some .forward
  | .backward => none  -- no line of model.go speaks of the backward pass
  | .update => some .update
  | .loss => some .loss
  | .accuracy => some .accuracy
  | .valLoss => some .valLoss
  | .valAccuracy => some .valAccuracy

section Any
variable {α : Type} [Flt α]

/-- `x` is a batch of the data set `X`: some of its rows, or the zero matrix. -/
def BatchOf (X x : Mat) : Prop := x = Mat.zero ∨ ∃ lo hi : Nat, lo ≤ hi ∧ hi ≤ X.m.cap ∧ x.rows = (hi - lo : Nat) ∧
  x.m = ⟨X.m.addr, X.m.off + lo, hi - lo, X.m.cap - lo⟩

/-- A call of the given sort, made in state `w1` by a Fit with the given arguments, returned the error `er` and left state `w2`. -/
def FitCall.Fails (m : Model α) (X Y xv yv : Mat) (er : Err) (w1 w2 : World α) : FitCall → Prop
  | .forward => ∃ x outs, BatchOf X x ∧ modelForward m x true w1 = .ok ((outs, some er), w2)
  | .backward => ∃ x y outs gs w0, BatchOf X x ∧ BatchOf Y y ∧ modelForward m x true w0 = .ok ((outs, none), w1) ∧
      modelBackward m outs y w1 = .ok ((gs, some er), w2)
  | .update => ∃ (i : Nat) (lp op : Nat) (g : Gradients), i < m.modelSize ∧ m.layers[i]? = some lp ∧ m.optims[i]? = some op ∧
      optUpdate op (w1.lay lp).weights (w1.lay lp).biases g.dWeights g.dBiases w1 = .ok (some er, w2)
  | .loss => ∃ l, calculateLoss m X Y w1 = .ok ((l, some er), w2)
  | .accuracy => ∃ a, calculateAccuracy m X Y w1 = .ok ((a, some er), w2)
  | .valLoss => ∃ l, calculateLoss m xv yv w1 = .ok ((l, some er), w2)
  | .valAccuracy => ∃ a, calculateAccuracy m xv yv w1 = .ok ((a, some er), w2)

/-- `w'` is `w2` with one more line in the log. -/
def LineAdded (w2 w' : World α) (st : LogStage) (er : Err) : Prop := w' = { w2 with log := w2.log ++ [.error st er] }

/-- The call that failed and the line about it. -/
def Named (m : Model α) (X Y xv yv : Mat) (er : Err) (w' : World α) : Prop :=
  ∃ (c : FitCall) (st : LogStage) (w1 w2 : World α), c.Fails m X Y xv yv er w1 w2 ∧ LineAdded w2 w' st er ∧
    st = c.stage.getD .forward

variable {w w' : World α} {m : Model α} {net : Net α}

theorem wlp_logLine {w2 : World α} {st : LogStage} (er : Err) :
    wlp (do logEvent (.error st er); return some er : Go α (Option Err)) w2 (fun r w' => r = some er ∧ LineAdded w2 w' st er) := by
  intro r w' e
  change Go.bind _ _ w2 = _ at e
  unfold Go.bind logEvent at e
  by_cases hl : w2.logger = true
  · rw [if_pos hl] at e
    cases e
    exact ⟨rfl, rfl⟩
  · rw [if_neg hl] at e
    cases e

/-- An error means that a call failed and that the line about it was written. -/
def NamedOr (m : Model α) (X Y xv yv : Mat) (r : Option Err) (w' : World α) : Prop :=
  ∀ er, r = some er → Named m X Y xv yv er w'

theorem namedOr_none {X Y xv yv : Mat} : NamedOr m X Y xv yv none w' := fun _ h => by cases h

theorem wlp_named {X Y xv yv : Mat} {er : Err} {w1 w2 : World α} (c : FitCall) {st : LogStage}
    (hc : c.Fails m X Y xv yv er w1 w2) (hs : st = c.stage.getD .forward) :
    wlp (do logEvent (.error st er); return some er : Go α (Option Err)) w2 (NamedOr m X Y xv yv) :=
  wlp_mono (wlp_logLine er) (by rintro _ w' ⟨rfl, h⟩ er' he; cases he; exact ⟨c, st, w1, w2, hc, h, hs⟩)

/-- A call whose result is remembered. -/
theorem wlp_call_bind {β γ : Type} {x : Go α β} {f : β → Go α γ} {Q : γ → World α → Prop}
    (h : ∀ b w1, x w = .ok (b, w1) → wlp (f b) w1 Q) : wlp (x >>= f) w Q :=
  wlp_bind (R := fun b w1 => x w = .ok (b, w1)) (fun _ _ e => e) h

theorem batchOf_slice {X x : Mat} {lo hi : Int} {s : Slice} {e : Option Err} {w1 w2 : World α}
    (h1 : reslice X.m lo hi w = .ok (s, w1)) (h2 : newMatrixFromSlice s w1 = .ok ((x, e), w2)) : BatchOf X x := by
  unfold reslice at h1
  split at h1
  · rename_i h
    cases h1
    have hsum : wlp (newMatrixFromSlice (⟨X.m.addr, X.m.off + lo.toNat, (hi - lo).toNat, X.m.cap - lo.toNat⟩ : Slice)) w
        (fun p _ => BatchOf X p.1) := by
      unfold newMatrixFromSlice
      dsimp only
      split
      · exact wlp_pure (.inl rfl)
      · refine wlp_call_bind fun r0 w1 _ => wlp_call_bind fun cols w2 _ => ?_
        split
        · exact wlp_pure (.inl rfl)
        · refine wlp_pure (.inr ⟨lo.toNat, hi.toNat, by omega, by omega, ?_, ?_⟩)
          · show (((hi - lo).toNat : Nat) : Int) = ((hi.toNat - lo.toNat : Nat) : Int)
            omega
          · have : (hi - lo).toNat = hi.toNat - lo.toNat := by omega
            simp only [this]
    exact hsum _ _ h2
  · cases h1

theorem listGet_at {β : Type} {xs : List β} {i : Int} {x : β} (h : listGet xs i w = .ok (x, w')) :
    w' = w ∧ 0 ≤ i ∧ xs[i.toNat]? = some x := by
  unfold listGet at h
  split at h
  · rename_i h0
    cases hy : xs[i.toNat]? with
    | none => rw [hy] at h; cases h
    | some y => rw [hy] at h; cases h; exact ⟨rfl, h0, rfl⟩
  · cases h

theorem wlp_updateLayers_named (X Y xv yv : Mat) (gs : List Gradients) :
    wlp (updateLayers m gs) w (NamedOr m X Y xv yv) := by
  unfold updateLayers
  refine wlp_mono (wlp_forRet (fun _ _ => True) (fun er w' => Named m X Y xv yv er w') trivial ?_) ?_
  · intro i w1 hi _
    refine wlp_call_bind fun lp w2 h2 => ?_
    obtain ⟨rfl, -, g2⟩ := listGet_at h2
    refine wlp_call_bind fun l w3 h3 => ?_
    cases h3
    refine wlp_call_bind fun op w4 h4 => ?_
    obtain ⟨rfl, -, g4⟩ := listGet_at h4
    refine wlp_call_bind fun g w5 h5 => ?_
    obtain ⟨rfl, -, h5⟩ := listGet_at h5
    refine wlp_call_bind fun err w6 h6 => ?_
    cases err with
    | none => exact wlp_pure trivial
    | some er =>
      refine wlp_mono (wlp_named (m := m) (X := X) (Y := Y) (xv := xv) (yv := yv) .update ⟨i, lp, op, g, by omega, ?_, ?_, h6⟩ rfl) ?_
      · simpa using g2
      · simpa using g4
      · intro r w7 h7
        cases r with
        | none => trivial
        | some e => exact h7 e rfl
  · intro r w1 h
    cases r with
    | none => exact namedOr_none
    | some er => intro e he; cases he; exact h

theorem wlp_fitBatch_named (X Y xv yv : Mat) (b : Int) (s : Nat) : wlp (fitBatch m X Y b s) w (NamedOr m X Y xv yv) := by
  unfold fitBatch
  dsimp only
  refine wlp_call_bind fun s1 w1 h1 => wlp_call_bind fun p w2 h2 => wlp_call_bind fun s3 w3 h3 => wlp_call_bind fun q w4 h4 => ?_
  obtain ⟨x, e1⟩ := p
  obtain ⟨y, e2⟩ := q
  have hx := batchOf_slice h1 h2
  have hy := batchOf_slice h3 h4
  refine wlp_call_bind fun p w5 h5 => ?_
  obtain ⟨outs, err⟩ := p
  cases err with
  | some er => exact wlp_named .forward ⟨x, outs, hx, h5⟩ rfl
  | none =>
    dsimp only
    refine wlp_call_bind fun p w6 h6 => ?_
    obtain ⟨gs, err⟩ := p
    cases err with
    | some er => exact wlp_named .backward ⟨x, y, outs, gs, w4, hx, hy, h5, h6⟩ rfl
    | none => exact wlp_updateLayers_named X Y xv yv gs

theorem wlp_fitLog_named (X Y xv yv X' Y' : Mat) (cl ca : FitCall) (sl sa : LogStage) (mk : α → α → LogEvent α)
    (hl : ∀ l er w1 w2, calculateLoss m X' Y' w1 = .ok ((l, some er), w2) → cl.Fails m X Y xv yv er w1 w2)
    (ha : ∀ a er w1 w2, calculateAccuracy m X' Y' w1 = .ok ((a, some er), w2) → ca.Fails m X Y xv yv er w1 w2)
    (hsl : sl = cl.stage.getD .forward) (hsa : sa = ca.stage.getD .forward) :
    wlp (fitLog m X' Y' sl sa mk) w (NamedOr m X Y xv yv) := by
  unfold fitLog
  refine wlp_call_bind fun p w1 h1 => ?_
  obtain ⟨l, err⟩ := p
  cases err with
  | some er => exact wlp_named cl (hl _ _ _ _ h1) hsl
  | none =>
    dsimp only
    refine wlp_call_bind fun p w2 h2 => ?_
    obtain ⟨a, err⟩ := p
    cases err with
    | some er => exact wlp_named ca (ha _ _ _ _ h2) hsa
    | none => exact wlp_call_bind fun _ _ _ => wlp_pure namedOr_none

theorem wlp_fit_named (X Y xv yv : Mat) (epochs b k : Int) : wlp (fit m X Y epochs b xv yv k) w (NamedOr m X Y xv yv) := by
  have loop : ∀ {n : Nat} {body : Nat → Go α (Option Err)} {w : World α},
      (∀ i w1, wlp (body i) w1 (NamedOr m X Y xv yv)) → wlp (forRet n body) w (NamedOr m X Y xv yv) := by
    intro n body w hb
    refine wlp_mono (wlp_forRet (fun _ _ => True) (fun er w' => Named m X Y xv yv er w') trivial ?_) ?_
    · intro i w1 _ _
      refine wlp_mono (hb i w1) fun r w2 h2 => ?_
      cases r with
      | none => trivial
      | some er => exact h2 er rfl
    · intro r w1 h
      cases r with
      | none => exact namedOr_none
      | some er => intro e he; cases he; exact h
  unfold fit
  refine loop fun ep w1 => ?_
  rw [fitEpoch_eq]
  refine wlp_bind (loop fun s w2 => wlp_fitBatch_named X Y xv yv _ s) fun r w2 h2 => ?_
  cases r with
  | some er => exact wlp_pure h2
  | none =>
    dsimp only
    unfold endOfEpoch
    split
    · refine wlp_bind (wlp_fitLog_named X Y xv yv X Y .loss .accuracy _ _ _ (fun l _ _ _ h => ⟨l, h⟩) (fun a _ _ _ h => ⟨a, h⟩) rfl rfl)
        fun r w3 h3 => ?_
      cases r with
      | some er => exact wlp_pure h3
      | none =>
        dsimp only
        split
        · exact wlp_fitLog_named X Y xv yv xv yv .valLoss .valAccuracy _ _ _ (fun l _ _ _ h => ⟨l, h⟩) (fun a _ _ _ h => ⟨a, h⟩) rfl rfl
        · exact wlp_pure namedOr_none
    · exact wlp_pure namedOr_none

/-- C131, what holds, for all arguments and states: if Fit returns an error, a call of Fit returned this error; Fit has done nothing
since but write one line with the error; and unless the call was a backward pass, the line names the stage of the call.  A failing
backward pass is named a forward pass. -/
theorem C131_named_partial (w : World α) (m : Model α) (X Y xv yv : Mat) (epochs b k : Int) (er : Err) (w' : World α)
    (hrun : fit m X Y epochs b xv yv k w = .ok (some er, w')) :
    ∃ (c : FitCall) (st : LogStage) (w1 w2 : World α), c.Fails m X Y xv yv er w1 w2 ∧
      w' = { w2 with log := w2.log ++ [.error st er] } ∧ (c ≠ .backward → c.stage = some st) ∧ (c = .backward → st = .forward) := by
  obtain ⟨c, st, w1, w2, h1, h2, rfl⟩ := wlp_fit_named X Y xv yv epochs b k _ _ hrun er rfl
  refine ⟨c, _, w1, w2, h1, h2, ?_, ?_⟩
  · cases c <;> intro h <;> first | rfl | exact absurd rfl h
  · rintro rfl; rfl

theorem modelBackward_width {outs : List Mat} {y out : Mat} {loss : Loss} (hN : IsNet w m net) (h0 : 0 < net.size)
    (hf : ¬ ((net.L (net.size - 1)).kind = .softmax ∧ m.lossType = 2)) (ho : outs[net.size]? = some out) (hl : m.loss = some loss)
    (hout : out.cols = loss.size) (hy : y.cols ≠ loss.size) :
    modelBackward m outs y w = .ok (([], some (.matrixDims y.rows y.cols)), w) := by
  unfold modelBackward
  have hsz : m.modelSize - 1 = ((net.size - 1 : Nat) : Int) := by rw [hN.size]; omega
  rw [hsz]
  refine (bind_ok (fusedLast_run hN (show net.size - 1 < net.size by omega))).trans ?_
  rw [if_neg (by simpa using hf)]
  refine (bind_ok (show listGet outs m.modelSize w = .ok (out, w) by
    unfold listGet
    rw [hN.size, if_pos (Int.natCast_nonneg _), Int.toNat_natCast, ho]; rfl)).trans ?_
  rw [hl]
  refine (bind_ok (show (deref (some loss) : Go α Loss) w = .ok (loss, w) from rfl)).trans ?_
  have hc : lossCheck loss.size out y = some (.matrixDims y.rows y.cols) := by
    unfold lossCheck
    rw [if_pos (.inr hy), if_neg (by simp [hout]), if_pos hy]
  have hb : loss.backward out y w = .ok ((Mat.zero, some (.matrixDims y.rows y.cols)), w) := by
    unfold Loss.backward
    cases loss.kind <;> dsimp only
    · unfold mseBackward; rw [hc]; rfl
    · unfold maeBackward; rw [hc]; rfl
    · unfold ceBackward; rw [hc]; rfl
    · unfold bceBackward; rw [hc]; rfl
  exact (bind_ok hb).trans rfl

/-- C131, the failure: with targets of the wrong width the forward pass of the first batch succeeds and the backward pass fails, and
Fit reports that the forward pass failed.  For every network whose last layer is not a softmax layer trained with cross-entropy. -/
theorem C131_backward [FltInt α] (w : World α) (m : Model α) (net : Net α) (X Y xv yv : Mat) (n cy : Nat) (A B : Nat → Nat → α)
    (epochs k : Int) (b : Nat) (hN : IsNet w m net) (h0 : 0 < net.size)
    (hf : ¬ ((net.L (net.size - 1)).kind = .softmax ∧ m.lossType = 2)) (loss : Loss) (hl : m.loss = some loss)
    (hls : loss.size = net.dim net.size) (hX : IsMat w X n (net.dim 0) A)
    (hY : IsMat w Y n cy B) (hcX : n ≤ X.m.cap) (hcY : n ≤ Y.m.cap) (hbig : n + b ≤ 2 ^ 53) (he : 0 < epochs)
    (hc : cy ≠ net.dim net.size) (hw : w.logger = true) :
    ∃ (p : Nat × Nat) (outs : List Mat) (w1 : World α), (blocks n b)[0]? = some p ∧
      modelForward m (rowsOf X p) true w = .ok ((outs, none), w1) ∧
      fit m X Y epochs b xv yv k w =
        .ok (some (.matrixDims p.2 cy), { w1 with log := w.log ++ [.error .forward (.matrixDims p.2 cy)] }) := by
  rw [fit_blocks hX hY hcX hcY epochs b hbig]
  have hpos : 0 < (blocks n b).length := by
    have := blocks_cover n b
    rcases hb : blocks n b with _ | ⟨p, bs⟩
    · rw [hb] at this
      simp at this
      have := hX.rpos
      omega
    · simp
  obtain ⟨p, hp⟩ : ∃ p, (blocks n b)[0]? = some p := ⟨_, List.getElem?_eq_getElem hpos⟩
  have hpd : (blocks n b).getD 0 (0, 0) = p := by rw [List.getD_eq_getElem?_getD, hp]; rfl
  have hmem := List.mem_of_getElem? hp
  obtain ⟨hp1, hp2, -⟩ := blocks_mem hX.rpos hmem
  obtain ⟨⟨outs, e⟩, w1, h1, o, mask, V, M, e1, e2, ho, hV, hrun⟩ := wp_iff.1 (modelForward_spec hN (hX.rowsOf hp1 hp2) true)
  dsimp only at e1 e2
  subst e1 e2
  obtain ⟨j, hj⟩ : ∃ j, net.size = j + 1 := ⟨net.size - 1, by omega⟩
  have hres := hrun.res j (by omega)
  rw [← hj] at hres
  have hN1 : IsNet w1 m net := hN.frame hrun.frame hrun.stat (fun _ h => h) (fun _ _ h => h)
  have hb := modelBackward_width (y := rowsOf Y p) (out := o net.size) hN1 h0 hf (outs := (List.range (net.size + 1)).map o) (by simp) hl
    (by rw [hres.mat.cols, hls]) (by
      show Y.cols ≠ _
      rw [hY.cols, hls]; exact_mod_cast hc)
  have hlog1 : w1.log = w.log := hrun.frame.log fun h => h
  have hl1 : w1.logger = true := hrun.frame.logger.trans hw
  have ht := C57_backward w w1 w1 m (rowsOf X p) (rowsOf Y p) _ _ _ h1 hb
  rw [if_pos hl1, hlog1] at ht
  have er : (Err.matrixDims (rowsOf Y p).rows (rowsOf Y p).cols) = .matrixDims p.2 cy := by
    show Err.matrixDims p.2 Y.cols = _
    rw [hY.cols]
  rw [er] at ht
  refine ⟨p, _, w1, hp, h1, ?_⟩
  generalize hw' : ({ w1 with log := w.log ++ [.error .forward (.matrixDims p.2 cy)] } : World α) = w' at ht ⊢
  have hr2 : forRet (blocks n b).length (fun s => trainOn m (rowsOf X ((blocks n b).getD s (0, 0)))
      (rowsOf Y ((blocks n b).getD s (0, 0)))) w = _ :=
    forRet_first hpos (r := .ok (Err.matrixDims p.2 cy, w')) (by rw [hpd, ht]; rfl)
  refine forRet_first (by omega) (r := .ok (Err.matrixDims p.2 cy, w')) ?_
  unfold trainEpoch
  exact (bind_ok hr2).trans rfl

end Any

/-- C131 (full claim) for a line about the forward pass, in the case of one epoch with a single batch, where the state in which the
forward pass starts is the initial state: if Fit reports that the forward pass failed, it failed. -/
def C131_claim : Prop := ∀ (w w' : World ℝ) (m : Model ℝ) (X Y xv yv : Mat) (n cx cy : Nat) (A B : Nat → Nat → ℝ) (er : Err),
    IsMat w X n cx A → IsMat w Y n cy B → fit m X Y 1 0 xv yv 0 w = .ok (some er, w') →
    w'.log.getLast? = some (.error .forward er) → ∃ outs w1, modelForward m (rowsOf X (0, n)) true w = .ok ((outs, some er), w1)

/-- A linear layer from two inputs to one output, followed by linear units. -/
noncomputable def narrowL (i : Nat) : LayerSpec ℝ := ⟨.linear, if i = 0 then 2 else 1, 1, fun _ _ => 0, fun _ => 0, 0, 0⟩

theorem exists_wrongWidth : ∃ (w : World ℝ) (m : Model ℝ) (net : Net ℝ) (X : Mat), IsNet w m net ∧ net.size = 1 ∧
    (net.L (net.size - 1)).kind = .linear ∧ m.loss = some ⟨.mse, 1⟩ ∧ net.dim 0 = 2 ∧ net.dim 1 = 1 ∧
    IsMat w X 1 2 (fun _ _ => 0) ∧ 1 ≤ X.m.cap ∧ w.logger = true := by
  obtain ⟨w0, lp, wm, bm, ha, h1, -⟩ := exists_layers (emptyWorld : World ℝ) narrowL
    (fun i => ⟨by unfold narrowL; dsimp only; split <;> decide, Nat.one_pos⟩) 1
  let net : Net ℝ := ⟨1, fun i => (narrowL i).n, lp, wm, bm, narrowL⟩
  have hN0 : IsNet w0 (net.model { newModel with loss := some ⟨.mse, 1⟩ }) net :=
    ⟨rfl, rfl, h1, fun _ _ => rfl, fun i _ => by show _ = (if i + 1 = 0 then 2 else 1); rw [if_neg (by omega)]; rfl,
      fun _ => rfl, fun _ => rfl⟩
  have hx := place_spec w0 (fun _ _ => (0 : ℝ)) (r := 1) (c := 2) (by decide) (by decide)
  have hN1 := hN0.frame hx.frame (Static.of_frame hx.frame fun _ _ h => h) (fun _ h => h) (fun _ _ h => h)
  exact ⟨_, _, net, _, hN1, rfl, rfl, rfl, rfl, rfl, hx.mat, hx.cap.ge, hx.frame.logger.trans ha.logger⟩

/-- C131 is false of the code. -/
theorem C131_false : ¬ C131_claim := by
  intro hc
  obtain ⟨w, m, net, X, hN, hs, hk, hl, d0, d1, hX, hcap, hw⟩ := exists_wrongWidth
  obtain ⟨p, outs, w1, hp, h1, h2⟩ := C131_backward w m net X X Mat.zero Mat.zero 1 2 _ _ 1 0 0 hN (by omega)
    (fun h => by rw [hk] at h; cases h.1) _ hl (by rw [hs, d1]; rfl) (d0 ▸ hX) hX hcap hcap (by norm_num) (by decide)
    (by rw [hs, d1]; decide) hw
  have hp' : p = (0, 1) := by
    have : (blocks 1 0)[0]? = some (0, 1) := rfl
    rw [this] at hp; cases hp; rfl
  subst hp'
  obtain ⟨outs', w2, h3⟩ := hc w _ m X X _ _ 1 2 2 _ _ _ hX hX h2 (by simp)
  rw [h1] at h3
  cases h3

/-- The hypotheses of C131_backward are met, with targets of width two for a network with one output. -/
example : ∃ (w : World ℝ) (m : Model ℝ) (net : Net ℝ) (X : Mat) (loss : Loss), IsNet w m net ∧ 0 < net.size ∧
    (net.L (net.size - 1)).kind ≠ .softmax ∧ m.loss = some loss ∧ loss.size = net.dim net.size ∧ IsMat w X 1 (net.dim 0) (fun _ _ => 0) ∧
    1 ≤ X.m.cap ∧ net.dim 0 ≠ net.dim net.size ∧ w.logger = true := by
  obtain ⟨w, m, net, X, hN, hs, hk, hl, d0, d1, hX, hcap, hw⟩ := exists_wrongWidth
  exact ⟨w, m, net, X, _, hN, by omega, by rw [hk]; decide, hl, by rw [hs, d1]; rfl, d0 ▸ hX, hcap, by rw [hs, d0, d1]; decide, hw⟩

end NN
