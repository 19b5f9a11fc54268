import Verif.Lemmas.FitSafe
import Verif.Lemmas.FitSigmoid
import Verif.Spec.PlaceFit
import Verif.Props.C46_C50
import Verif.Real.Inst
/-
C52-C57: Fit.
-/

set_option linter.unusedSectionVars false

namespace NN
open Go

section Any
variable {α : Type} [Flt α]

/-! ### C52 -/

theorem blocks_cover (n b : Nat) : ((blocks n b).flatMap fun p => List.range' p.1 p.2) = List.range n := by
  unfold blocks
  split
  · simp [List.range_eq_range']
  · rename_i hb
    have hb : 0 < b := by omega
    have key : ∀ s, s ≤ (n + b - 1) / b → (((List.range s).map fun s => (s * b, min b (n - s * b))).flatMap
        fun p => List.range' p.1 p.2) = List.range (min (s * b) n) := by
      intro s hs
      induction s with
      | zero => simp
      | succ s ih =>
        have hlt := (lt_ceil hb).1 (Nat.lt_of_succ_le hs)
        rw [List.range_succ, List.map_append, List.flatMap_append, ih (by omega)]
        simp only [List.map_cons, List.map_nil, List.flatMap_cons, List.flatMap_nil, List.append_nil]
        have e : List.range' (s * b) (min b (n - s * b)) = List.range' (0 + s * b) (min b (n - s * b)) := by rw [Nat.zero_add]
        rw [Nat.min_eq_left hlt.le, List.range_eq_range', List.range_eq_range', e, List.range'_append_1]
        congr 1
        have : (s + 1) * b = s * b + b := by ring
        omega
    rw [key _ le_rfl, Nat.min_eq_right]
    by_contra h
    have := (lt_ceil hb).2 (not_le.1 h)
    omega

/-- C52: there is a division of the data set into consecutive non-empty blocks (pairs of first row and number of rows)
of at most `b` rows, or one block for `b = 0`, whose concatenation is the data set, such that `Fit` performs, in every epoch,
one training step on each block in order; the training step on a block gets exactly these rows of `X` and of `Y`. -/
theorem C52_batches [FltInt α] (w : World α) (m : Model α) (X Y : Mat) (n cx cy : Nat) (A B : Nat → Nat → α)
    (hX : IsMat w X n cx A) (hY : IsMat w Y n cy B) (hcX : n ≤ X.m.cap) (hcY : n ≤ Y.m.cap) (b : Nat)
    (hbig : n + b ≤ 2 ^ 53) :
    ∃ bs : List (Nat × Nat), (bs.flatMap fun p => List.range' p.1 p.2) = List.range n ∧
      (∀ p ∈ bs, 0 < p.2 ∧ (b ≠ 0 → p.2 ≤ b)) ∧ (b = 0 → bs = [(0, n)]) ∧ (b ≠ 0 → bs.length * b < n + b) ∧
      (∀ p ∈ bs, IsMat w (rowsOf X p) p.2 cx (fun i j => A (p.1 + i) j) ∧
        IsMat w (rowsOf Y p) p.2 cy (fun i j => B (p.1 + i) j)) ∧
      ∀ (epochs : Int) (xv yv : Mat) (k : Int),
        fit m X Y epochs b xv yv k w = forRet epochs.toNat (trainEpoch m bs X Y xv yv k) w := by
  refine ⟨blocks n b, blocks_cover n b, fun p hp => ?_, ?_, ?_, fun p hp => ?_, ?_⟩
  · have := blocks_mem hX.rpos hp; exact ⟨this.1, this.2.2⟩
  · rintro rfl; rfl
  · intro hb
    rw [blocks_length n b (by omega)]
    have := Nat.div_mul_le_self (n + b - 1) b
    omega
  · have := blocks_mem hX.rpos hp
    exact ⟨hX.rowsOf this.1 this.2.1, hY.rowsOf this.1 this.2.1⟩
  · exact fun epochs xv yv k => fit_blocks hX hY hcX hcY epochs b hbig k

/-! ### C54 -/

theorem forRet_add {β : Type} (a b : Nat) (body : Go α (Option β)) :
    forRet (a + b) (fun _ => body) = (forRet a (fun _ => body) >>= fun r => match r with
      | some e => pure (some e)
      | none => forRet b (fun _ => body)) := by
  induction b with
  | zero =>
    show forRet a (fun _ => body) = _
    conv_lhs => rw [← bind_pure (forRet a fun _ => body)]
    congr 1
    funext r
    cases r <;> rfl
  | succ b ih =>
    rw [← Nat.add_assoc]
    show (forRet (a + b) (fun _ => body) >>= fun r => match r with
      | some e => pure (some e)
      | none => body) = _
    rw [ih, bind_assoc]
    congr 1
    funext r
    cases r <;> rfl

theorem fit_epochs (m : Model α) (X Y : Mat) (epochs bs : Int) (xv yv : Mat) :
    fit m X Y epochs bs xv yv 0 = forRet epochs.toNat (fun _ => forRet (batchPlan Y.rows bs).1.toNat
      fun s => fitBatch m X Y (batchPlan Y.rows bs).2 s) := by
  unfold fit
  refine congrArg (forRet epochs.toNat) (funext fun e => ?_)
  rw [fitEpoch_eq]
  conv_rhs => rw [← bind_pure (forRet _ fun s => fitBatch m X Y (batchPlan Y.rows bs).2 s)]
  congr 1
  funext r
  cases r with
  | some er => rfl
  | none =>
    dsimp only
    unfold endOfEpoch
    rw [if_neg (by simp)]

/-- C54: with logging off, Fit for a + b epochs is Fit for a epochs and, if that succeeds, Fit for b epochs, from every
state and for all arguments. -/
theorem C54_split (m : Model α) (X Y : Mat) (a b bs : Int) (xv yv : Mat) (ha : 0 ≤ a) (hb : 0 ≤ b) :
    fit m X Y (a + b) bs xv yv 0 = (do
      let err ← fit m X Y a bs xv yv 0
      match err with
      | some e => return some e
      | none => fit m X Y b bs xv yv 0) := by
  rw [fit_epochs, fit_epochs, fit_epochs, Int.toNat_add ha hb, forRet_add]
  refine congrArg (forRet a.toNat _ >>= ·) (funext fun r => ?_)
  cases r <;> rfl

/-- C54: epochs ≤ 0 is a no-op, with or without logging. -/
theorem C54_none (m : Model α) (X Y : Mat) (epochs bs : Int) (xv yv : Mat) (k : Int) (h : epochs ≤ 0) (w : World α) :
    fit m X Y epochs bs xv yv k w = .ok (none, w) := by
  unfold fit
  rw [Int.toNat_of_nonpos h]
  rfl

/-! ### C53 -/

/-- C53: every matrix that does not share rows with the parameters and, if the first layer is a sigmoid layer, with the
array of training data, holds after Fit the values it held before; whatever the data, and also if Fit reports an error. -/
theorem C53_data_partial (w : World α) (m : Model α) (net : Net α) (hN : IsNet w m net) (h0 : 0 < net.size) (X Y xv yv : Mat)
    (n cx : Nat) (A : Nat → Nat → α) (hX : IsMat w X n cx A) (epochs bs k : Int) (e : Option Err) (w' : World α)
    (hrun : fit m X Y epochs bs xv yv k w = .ok (e, w')) (Z : Mat) (r c : Nat) (B : Nat → Nat → α) (hZ : IsMat w Z r c B)
    (hp : ∀ a, w.IsNetParam net a → ¬ w.IsRow Z r a)
    (hs : (net.L 0).kind = .sigmoid → ∀ a ∈ w.outs X.m.addr, ¬ w.IsRow Z r a) : IsMat w' Z r c B := by
  have h := fit_since hN h0 (Y := Y) (xv := xv) (yv := yv) hX epochs bs k e w' hrun
  refine hZ.frame h.frame (fun h => h) fun a ha hf => ?_
  rcases hf with hf | ⟨h1, h2⟩
  · exact hp a hf ha
  · exact hs h1 a h2 ha

/-- C53 for models whose first layer is not a sigmoid layer: X, Y, xVal and yVal are unchanged. -/
theorem C53_no_sigmoid_partial (w : World α) (m : Model α) (net : Net α) (hN : IsNet w m net) (h0 : 0 < net.size)
    (hk : (net.L 0).kind ≠ .sigmoid) (X Y xv yv : Mat) (n cx cy r : Nat) (A B A' B' : Nat → Nat → α)
    (hX : IsMat w X n cx A) (hY : IsMat w Y n cy B) (hxv : IsMat w xv r cx A') (hyv : IsMat w yv r cy B')
    (hpX : ∀ a, w.IsNetParam net a → ¬ w.IsRow X n a) (hpY : ∀ a, w.IsNetParam net a → ¬ w.IsRow Y n a)
    (hpxv : ∀ a, w.IsNetParam net a → ¬ w.IsRow xv r a) (hpyv : ∀ a, w.IsNetParam net a → ¬ w.IsRow yv r a)
    (epochs bs k : Int) (e : Option Err) (w' : World α) (hrun : fit m X Y epochs bs xv yv k w = .ok (e, w')) :
    IsMat w' X n cx A ∧ IsMat w' Y n cy B ∧ IsMat w' xv r cx A' ∧ IsMat w' yv r cy B' :=
  have key := C53_data_partial w m net hN h0 X Y xv yv n cx A hX epochs bs k e w' hrun
  ⟨key X n cx A hX hpX fun h => absurd h hk, key Y n cy B hY hpY fun h => absurd h hk,
    key xv r cx A' hxv hpxv fun h => absurd h hk, key yv r cy B' hyv hpyv fun h => absurd h hk⟩

/-! ### C55 -/

/-- C55: after Fit (even if it reports an error) the model has the same layers with parameters of the same shapes in the
same storage, still separate if they were; layers differ only in weights and biases; Forward succeeds on every input of the
right width.  If the first layer is not a sigmoid layer, no stored number has changed except entries of weights and biases. -/
theorem C55_well_formed (w : World α) (m : Model α) (net : Net α) (hN : IsNet w m net) (h0 : 0 < net.size) (X Y xv yv : Mat)
    (n cx : Nat) (A : Nat → Nat → α) (hX : IsMat w X n cx A) (epochs bs k : Int) (e : Option Err) (w' : World α)
    (hrun : fit m X Y epochs bs xv yv k w = .ok (e, w')) :
    ∃ net', SameShape net net' ∧ IsNet w' m net' ∧ (OwnNet w net → OwnNet w' net') ∧
      (∀ (x : Mat) (r : Nat) (V : Nat → Nat → α) (training : Bool), IsMat w' x r (net.dim 0) V →
        wp (modelForward m x training) w' (fun p _ => p.2 = none ∧ (p.1.length : Int) = m.modelSize + 1)) ∧
      ((net.L 0).kind ≠ .sigmoid →
        Frame { flt := w.IsNetParam net, lay := (· ∈ m.layers), opt := (· ∈ m.optims), unif := True, log := True } w w') := by
  have h := fit_since hN h0 (Y := Y) (xv := xv) (yv := yv) hX epochs bs k e w' hrun
  obtain ⟨net', hs, hN'⟩ := h.isNet (fun _ h => h) hN
  refine ⟨net', hs, hN', fun ho => hs.own (ho.frame hN h.frame (fun _ h => h)), fun x r V training hx => ?_, fun hk => ?_⟩
  · rw [← hs.dim] at hx
    exact wp_mono (C48_forward w' m net' hN' x r V hx training) fun p _ h => ⟨h.1, h.2.1⟩
  · refine h.frame.weaken (fun a _ h => ?_) (fun _ _ h => h) (fun _ _ h => h) (fun _ _ h => h) id id id
    exact h.resolve_right fun h => hk h.1

/-! ### C56 -/

/-- What a line of the log is about: training (false) or validation (true) data, and the epoch. -/
def LogEvent.about : LogEvent α → Option (Bool × Int)
  | .info e _ _ => some (false, e)
  | .valInfo e _ _ => some (true, e)
  | _ => none

/-- The lines requested by logEvery = k: for every epoch divisible by k one training line and, with validation data, one
validation line; none for k = 0. -/
def requested (epochs : Nat) (k : Int) (val : Bool) : List (Option (Bool × Int)) :=
  (List.range epochs).flatMap fun (e : Nat) =>
    if k ≠ 0 ∧ k ∣ (e : Int) then some (false, (e : Int)) :: (if val then [some (true, (e : Int))] else []) else []

theorem requested_succ (n : Nat) (k : Int) (val : Bool) : requested (n + 1) k val = requested n k val ++
    if k ≠ 0 ∧ k ∣ n then some (false, (n : Int)) :: (if val then [some (true, (n : Int))] else []) else [] := by
  unfold requested
  rw [List.range_succ, List.flatMap_append]
  simp

/-- The log after `Fit`: the requested lines, and an error if one is returned, in which case the logger was initialised. -/
theorem fit_log (w : World α) (m : Model α) (X Y xv yv : Mat) (epochs bs k : Int) :
    wlp (fit m X Y epochs bs xv yv k) w (fun r w' => match r with
      | none => ∃ lines, w'.log = w.log ++ lines ∧
          lines.map LogEvent.about = requested epochs.toNat k (yv.rows ≠ 0)
      | some er => w.logger = true ∧ ∃ lines st, w'.log = w.log ++ lines ++ [.error st er]) := by
  unfold fit
  dsimp only
  refine wlp_mono (wlp_forRet (fun n w' => w'.logger = w.logger ∧ ∃ lines, w'.log = w.log ++ lines ∧
      lines.map LogEvent.about = requested n k (yv.rows ≠ 0))
    (fun er w' => w.logger = true ∧ ∃ lines st, w'.log = w.log ++ lines ++ [.error st er]) ?_ ?_) ?_
  · exact ⟨rfl, [], by simp, rfl⟩
  · rintro ep w1 - ⟨hl, lines, h1, h2⟩
    rw [fitEpoch_eq]
    refine wlp_bind (R := QuietOr w1) ?_ ?_
    · refine wlp_mono (wlp_forRet (fun _ w' => Quiet w1 w') (fun er w' => Failed w1 er w') ⟨rfl, rfl⟩ ?_) ?_
      · intro s w2 _ hq
        refine wlp_mono (wlp_fitBatch_log X Y _ s) fun r w3 h3 => ?_
        cases r with
        | none => exact ⟨h3.1.trans hq.1, h3.2.trans hq.2⟩
        | some er => exact ⟨h3.1.imp fun st h => h.trans (by rw [hq.1]), h3.2.1, hq.2 ▸ h3.2.2⟩
      · intro r w2 h; cases r <;> exact h
    intro r w2 hr
    cases r with
    | some er =>
      obtain ⟨⟨st, hst⟩, hr2⟩ := hr
      refine wlp_pure ⟨hl ▸ hr2.2, lines, st, ?_⟩
      rw [hst, h1]
    | none =>
      have hr : Quiet w1 w2 := hr
      dsimp only
      unfold endOfEpoch
      by_cases hk : k ≠ 0 ∧ k ∣ (ep : Int)
      · rw [if_pos hk]
        refine wlp_bind (wlp_fitLog_log X Y _ _ _) ?_
        intro r w3 h3
        cases r with
        | some er =>
          obtain ⟨⟨st, hst⟩, h3⟩ := h3
          refine wlp_pure ⟨?_, lines, st, ?_⟩
          · rw [← hl, ← hr.2]; exact h3.2
          · rw [hst, hr.1, h1]
        | none =>
          obtain ⟨g1, l, a, w4, w5, g2, g3, g4, g5, g6⟩ := h3
          have hlog3 : w3.log = w.log ++ (lines ++ [.info ep l a]) := by
            rw [g4]; show w2.log ++ _ = _
            rw [hr.1, h1, List.append_assoc]
          have hw : w.logger = true := by rw [← hl, ← hr.2]; exact g1
          dsimp only
          by_cases hv : yv.rows ≠ 0
          · rw [if_pos hv]
            refine wlp_mono (wlp_fitLog_log xv yv _ _ _) ?_
            intro r w6 h6
            cases r with
            | some er =>
              obtain ⟨⟨st, hst⟩, -⟩ := h6
              exact ⟨hw, _, st, by rw [hst, hlog3]⟩
            | none =>
              obtain ⟨g1', l', a', w4', w5', g2', g3', g4', g5', g6'⟩ := h6
              refine ⟨by rw [g6', hw], lines ++ [.info ep l a] ++ [.valInfo ep l' a'], ?_, ?_⟩
              · rw [g4']; show w3.log ++ _ = _
                rw [hlog3]; simp
              · rw [requested_succ, if_pos hk]
                simp only [List.map_append, h2]
                simp [hv, LogEvent.about]
          · rw [if_neg hv]
            refine wlp_pure ⟨by rw [g6, hw], lines ++ [.info ep l a], hlog3, ?_⟩
            rw [requested_succ, if_pos hk]
            simp only [List.map_append, h2]
            simp only [ne_eq, not_not] at hv
            simp [hv, LogEvent.about]
      · rw [if_neg hk]
        refine wlp_pure ⟨hr.2.trans hl, lines, hr.1.trans h1, ?_⟩
        rw [requested_succ, if_neg hk, h2, List.append_nil]
  · intro r w' h
    cases r with
    | none => exact h.2
    | some er => exact h

/-- C56: a successful Fit adds exactly the requested lines to the log, for all arguments. -/
theorem C56_lines (w : World α) (m : Model α) (X Y xv yv : Mat) (epochs bs k : Int) (w' : World α)
    (hrun : fit m X Y epochs bs xv yv k w = .ok (none, w')) :
    ∃ lines, w'.log = w.log ++ lines ∧ lines.map LogEvent.about = requested epochs.toNat k (yv.rows ≠ 0) :=
  fit_log w m X Y xv yv epochs bs k none w' hrun

/-- C56: with logEvery = 0 nothing is logged. -/
theorem C56_off (w : World α) (m : Model α) (X Y xv yv : Mat) (epochs bs : Int) (w' : World α)
    (hrun : fit m X Y epochs bs xv yv 0 w = .ok (none, w')) : w'.log = w.log := by
  obtain ⟨lines, h1, h2⟩ := C56_lines w m X Y xv yv epochs bs 0 w' hrun
  have : requested epochs.toNat 0 (yv.rows ≠ 0) = [] := by unfold requested; simp
  rw [this, List.map_eq_nil_iff] at h2
  rw [h1, h2, List.append_nil]

/-- C56: a line carries the loss and the accuracy that CalculateLoss and CalculateAccuracy return at that moment. -/
theorem C56_values (w : World α) (m : Model α) (X Y : Mat) (sl sa : LogStage) (mk : α → α → LogEvent α) (w' : World α)
    (hrun : fitLog m X Y sl sa mk w = .ok (none, w')) :
    ∃ l a w1 w2, calculateLoss m X Y w = .ok ((l, none), w1) ∧ calculateAccuracy m X Y w1 = .ok ((a, none), w2) ∧
      w'.log = w.log ++ [mk l a] := by
  obtain ⟨-, l, a, w1, w2, h1, h2, h3, -, -⟩ := wlp_fitLog_log X Y sl sa mk none w' hrun
  exact ⟨l, a, w1, w2, h1, h2, by rw [h3]⟩

/-! ### C57 -/

/-- C57, what holds: every error that Fit returns has been logged, as the last line. -/
theorem C57_logged (w : World α) (m : Model α) (X Y xv yv : Mat) (epochs bs k : Int) (er : Err) (w' : World α)
    (hrun : fit m X Y epochs bs xv yv k w = .ok (some er, w')) : ∃ lines st, w'.log = w.log ++ lines ++ [.error st er] :=
  (fit_log w m X Y xv yv epochs bs k (some er) w' hrun).2

/-- C57, what holds instead without InitLogger: Fit never returns an error. -/
theorem C57_no_logger (w : World α) (hw : w.logger = false) (m : Model α) (X Y xv yv : Mat) (epochs bs k : Int) (er : Err)
    (w' : World α) : fit m X Y epochs bs xv yv k w ≠ .ok (some er, w') := fun h => by
  have := (fit_log w m X Y xv yv epochs bs k (some er) w' h).1
  rw [hw] at this; cases this

/-- C57: a failing step on a batch: the error is returned if the logger has been initialised, otherwise Fit panics with a nil
dereference.  Here for a failing forward pass. -/
theorem C57_forward (w w1 : World α) (m : Model α) (x y : Mat) (outs : List Mat) (e : Err)
    (h : modelForward m x true w = .ok ((outs, some e), w1)) : trainOn m x y w =
      if w1.logger then .ok (some e, { w1 with log := w1.log ++ [.error .forward e] }) else .error .nilDeref := by
  unfold trainOn
  refine (bind_ok h).trans ?_
  dsimp only
  change Go.bind _ _ w1 = _
  unfold Go.bind logEvent
  by_cases hl : w1.logger = true
  · rw [if_pos hl, if_pos hl]; rfl
  · rw [if_neg hl, if_neg hl]

/-- C57: the same for a failing backward pass. -/
theorem C57_backward (w w1 w2 : World α) (m : Model α) (x y : Mat) (outs : List Mat) (gs : List Gradients) (e : Err)
    (h : modelForward m x true w = .ok ((outs, none), w1)) (h2 : modelBackward m outs y w1 = .ok ((gs, some e), w2)) :
    trainOn m x y w =
      if w2.logger then .ok (some e, { w2 with log := w2.log ++ [.error .forward e] }) else .error .nilDeref := by
  unfold trainOn
  refine (bind_ok h).trans ?_
  dsimp only
  refine (bind_ok h2).trans ?_
  dsimp only
  change Go.bind _ _ w2 = _
  unfold Go.bind logEvent
  by_cases hl : w2.logger = true
  · rw [if_pos hl, if_pos hl]; rfl
  · rw [if_neg hl, if_neg hl]

/-! ### C70 -/

/-- C70: with logging off, on a model without sigmoid layers with a loss of the right size and data of the right shapes, Fit
returns no error and is gradient descent over the batches: in every epoch, for every block of the data set in order, a forward
pass in training mode, exact back-propagation as specified by `NetGrad`, and one optimizer step per layer.  The data and everything
else but parameters, layer memory, optimizers and random source are unchanged. -/
theorem C70_fit [FltInt α] (w : World α) (m : Model α) (net : Net α) (op : Nat → Nat) (S : Nat → OptSpec α)
    (hT : IsTask w m net op S) (hns : ∀ k, k < net.size → (net.L k).kind ≠ .sigmoid) (loss : Loss) (hl : m.loss = some loss)
    (hls : loss.size = net.dim net.size) (X Y xv yv : Mat) (n : Nat) (A B : Nat → Nat → α)
    (hX : IsMat w X n (net.dim 0) A) (hY : IsMat w Y n (net.dim net.size) B) (hcX : n ≤ X.m.cap) (hcY : n ≤ Y.m.cap)
    (hpX : ∀ a, w.IsNetParam net a → ¬ w.IsRow X n a) (hpY : ∀ a, w.IsNetParam net a → ¬ w.IsRow Y n a)
    (epochs : Int) (b : Nat) (hbig : n + b ≤ 2 ^ 53) :
    wp (fit m X Y epochs b xv yv 0) w (fun e w' => e = none ∧ ∃ net' S',
      Descent m loss.kind w.unif A B net S w.unifPos (List.replicate epochs.toNat (blocks n b)).flatten net' S' w'.unifPos ∧
      IsTask w' m net' op S' ∧ SameShape net net' ∧ IsMat w' X n (net.dim 0) A ∧ IsMat w' Y n (net.dim net.size) B ∧
      Frame { flt := w.IsNetParam net
              lay := fun a => ∃ i, i < net.size ∧ a = net.lp i
              opt := fun a => ∃ i, i < net.size ∧ a = op i
              unif := ∃ i, i < net.size ∧ (net.L i).kind = .dropout } w w') := by
  refine wp_mono (fit_run (xv := xv) (yv := yv) hT hns hl hls hX hY hcX hcY hpX hpY epochs b hbig) ?_
  rintro e w' ⟨he, net', S', h⟩
  exact ⟨he, net', S', h.run, h.task, h.shape, hX.frame h.frame (fun h => h) fun a h1 h2 => hpX a h2 h1,
    hY.frame h.frame (fun h => h) fun a h1 h2 => hpY a h2 h1, h.frame⟩

end Any

/-- C57 (full claim) for the failure caused by training data of the wrong width: Fit returns an error. -/
def C57_claim : Prop := ∀ (w : World ℝ) (m : Model ℝ) (net : Net ℝ) (X Y xv yv : Mat) (n cx cy : Nat) (A B : Nat → Nat → ℝ)
    (epochs k : Int) (b : Nat), IsNet w m net → 0 < net.size → IsMat w X n cx A → IsMat w Y n cy B → n ≤ X.m.cap → n ≤ Y.m.cap →
    n + b ≤ 2 ^ 53 → 0 < epochs → cx ≠ net.dim 0 →
    ∃ er w', fit m X Y epochs b xv yv k w = .ok (some er, w')

/-- The outcome of a loop body that ends the loop. -/
def ends {α β : Type} : Except Panic (β × World α) → Except Panic (Option β × World α)
  | .ok (b, w') => .ok (some b, w')
  | .error p => .error p

theorem forRet_first {α β : Type} {n : Nat} (hn : 0 < n) {body : Nat → Go α (Option β)} {w : World α}
    {r : Except Panic (β × World α)}
    (h : body 0 w = ends r) : forRet n body w = ends r := by
  obtain ⟨n, rfl⟩ : ∃ k, n = k + 1 := ⟨n - 1, by omega⟩
  clear hn
  induction n with
  | zero => exact h
  | succ n ih =>
    unfold forRet
    change Go.bind _ _ w = _
    unfold Go.bind
    rw [ih]
    cases r <;> rfl

theorem fit_bad_width {α : Type} [Flt α] [FltInt α] {w : World α} {m : Model α} {net : Net α} {X Y xv yv : Mat} {n cx cy : Nat}
    {A B : Nat → Nat → α} {epochs k : Int} {b : Nat} (hN : IsNet w m net) (h0 : 0 < net.size) (hX : IsMat w X n cx A)
    (hY : IsMat w Y n cy B) (hcX : n ≤ X.m.cap) (hcY : n ≤ Y.m.cap) (hbig : n + b ≤ 2 ^ 53) (he : 0 < epochs)
    (hc : cx ≠ net.dim 0) : ∃ er, fit m X Y epochs b xv yv k w =
      if w.logger then .ok (some er, { w with log := w.log ++ [.error .forward er] }) else .error .nilDeref := by
  rw [fit_blocks hX hY hcX hcY epochs b hbig]
  obtain ⟨bs, hbs⟩ : ∃ bs, blocks n b = bs := ⟨_, rfl⟩
  have hpos : 0 < bs.length := by
    have := blocks_cover n b
    rw [hbs] at this
    rcases bs with _ | ⟨p, bs⟩
    · simp at this
      have := hX.rpos
      omega
    · simp
  rw [hbs]
  obtain ⟨er, hf⟩ := modelForward_bad hN h0 (x := rowsOf X (bs.getD 0 (0, 0))) (by
    show X.cols ≠ _
    rw [hX.cols]
    exact_mod_cast hc) true
  have h1 := C57_forward w w m _ (rowsOf Y (bs.getD 0 (0, 0))) _ er hf
  refine ⟨er, ?_⟩
  have h2 : forRet bs.length (fun s => trainOn m (rowsOf X (bs.getD s (0, 0))) (rowsOf Y (bs.getD s (0, 0)))) w = _ :=
    forRet_first hpos (r := if w.logger then .ok (er, { w with log := w.log ++ [.error .forward er] }) else .error .nilDeref)
      (by rw [h1]; split <;> rfl)
  refine (forRet_first (by omega)
    (r := if w.logger then .ok (er, { w with log := w.log ++ [.error .forward er] }) else .error .nilDeref) ?_).trans
    (by split <;> rfl)
  unfold trainEpoch
  change Go.bind _ _ w = _
  unfold Go.bind
  rw [h2]
  by_cases hl : w.logger = true
  · rw [if_pos hl]; rfl
  · rw [if_neg hl]; rfl

/-- C57 for training data of the wrong width, with the logger initialised: the error is returned and logged, nothing else
changes. -/
theorem C57_width_partial {α : Type} [Flt α] [FltInt α] (w : World α) (m : Model α) (net : Net α) (X Y xv yv : Mat)
    (n cx cy : Nat) (A B : Nat → Nat → α) (epochs k : Int) (b : Nat) (hN : IsNet w m net) (h0 : 0 < net.size)
    (hX : IsMat w X n cx A) (hY : IsMat w Y n cy B) (hcX : n ≤ X.m.cap) (hcY : n ≤ Y.m.cap) (hbig : n + b ≤ 2 ^ 53)
    (he : 0 < epochs) (hc : cx ≠ net.dim 0) (hw : w.logger = true) :
    ∃ er, fit m X Y epochs b xv yv k w = .ok (some er, { w with log := w.log ++ [.error .forward er] }) := by
  obtain ⟨er, h⟩ := fit_bad_width (xv := xv) (yv := yv) (k := k) hN h0 hX hY hcX hcY hbig he hc
  rw [if_pos hw] at h
  exact ⟨er, h⟩

/-- C57 is false of the code: without InitLogger, Fit panics on training data of the wrong width. -/
theorem C57_false : ¬ C57_claim := by
  intro hc
  obtain ⟨w0, lp, wm, bm, ha, h1, -⟩ := exists_layers ({ (emptyWorld : World ℝ) with logger := false }) demoL demoL_pos 1
  let net : Net ℝ := ⟨1, fun i => (demoL i : LayerSpec ℝ).n, lp, wm, bm, demoL⟩
  have hN0 : IsNet w0 (net.model newModel) net :=
    ⟨rfl, rfl, h1, fun _ _ => rfl, fun i _ => demoL_chain i, fun _ => rfl, fun _ => rfl⟩
  have hx := place_spec w0 (fun _ _ => (0 : ℝ)) (r := 1) (c := 1) (by decide) (by decide)
  have hN1 := hN0.frame hx.frame (Static.of_frame hx.frame fun _ _ h => h) (fun _ h => h) (fun _ _ h => h)
  have hd : (1 : Nat) ≠ net.dim 0 := by show (1 : Nat) ≠ 2; decide
  obtain ⟨er, w', h⟩ := hc _ _ net _ _ Mat.zero Mat.zero 1 1 1 _ _ 1 0 0 hN1 Nat.one_pos hx.mat hx.mat hx.cap.ge hx.cap.ge (by norm_num)
    (by decide) hd
  exact C57_no_logger _ (hx.frame.logger.trans ha.logger) _ _ _ _ _ _ _ _ _ _ h

/-! ### C53 is false -/

/-- C53 (full claim), for the training inputs X of a task in separate storage. -/
def C53_claim : Prop := ∀ (w : World ℝ) (m : Model ℝ) (net : Net ℝ) (op : Nat → Nat) (S : Nat → OptSpec ℝ) (X Y xv yv : Mat)
    (n : Nat) (A B : Nat → Nat → ℝ) (epochs bs k : Int) (w' : World ℝ), IsTask w m net op S →
    IsData w net X n (net.dim 0) A → IsData w net Y n (net.dim net.size) B →
    fit m X Y epochs bs xv yv k w = .ok (none, w') → IsMat w' X n (net.dim 0) A

/-- One sigmoid unit with weight and bias 0. -/
noncomputable def sigUnit (_ : Nat) : LayerSpec ℝ := ⟨.sigmoid, 1, 1, fun _ _ => 0, fun _ => 0, 0, 0⟩

/-- C53 is false of the code: one epoch of a model whose first layer is a sigmoid layer overwrites the training inputs.  Here
the input 0 becomes 1/4. -/
theorem C53_false : ¬ C53_claim := by
  intro hc
  obtain ⟨o, ho⟩ := sgd_ok_real (lr := 1) (decay := 0) (mom := 0) (by norm_num) le_rfl le_rfl
  have hrows : o.weightMomentums.rows = 0 := by rw [newSGD_ok ho]; rfl
  obtain ⟨w, net, op, XM, YM, xM, yM, -, hs, hL, hdim, hT, dX, dY, -, -⟩ := exists_task (emptyWorld : World ℝ) 1 Nat.one_pos
    sigUnit (fun _ => ⟨Nat.one_pos, Nat.one_pos⟩) (fun _ => rfl) { newModel with loss := some ⟨.mse, 1⟩ } o (OptSpec.fresh o) hrows
    (fun w p i hlt e => e ▸ isOpt_newSGD _ _ _ _ hlt (e.symm ▸ ho)) (r := 1) (r' := 1) Nat.one_pos Nat.one_pos
    (fun _ _ => 0) (fun _ _ => 0) (fun _ _ => 0) (fun _ _ => 0)
  have d0 : net.dim 0 = 1 := by rw [hdim]; rfl
  have d1 : net.dim net.size = 1 := by rw [hdim]; rfl
  have hX : IsMat w XM 1 (net.dim 0) (fun _ _ => 0) := by rw [d0]; exact dX.mat
  have hY : IsMat w YM 1 (net.dim net.size) (fun _ _ => 0) := by rw [d1]; exact dY.mat
  have hrowsOf : ∀ (M : Mat) (V : Nat → Nat → ℝ), IsMat w M 1 1 V → ∀ a, w.IsRow (rowsOf M (0, 1)) 1 a ↔ w.IsRow M 1 a := by
    intro M V hM a
    unfold World.IsRow World.rowAddr rowsOf
    simp
  have hd : DistinctRows w (rowsOf XM (0, 1)) 1 := fun i j _ hi hj _ _ => by omega
  have hstep := sigmoid_step hT hs (by rw [hL]; rfl) (by rw [hL]; rfl) rfl rfl
    (show ((1 : Int) = ((net.dim net.size : Nat) : Int)) by rw [d1]; rfl)
    (hX.rowsOf (lo := 0) (k := 1) (by omega) (by omega)) hd
    (fun a ha hb => dX.sep a ha ((hrowsOf XM _ dX.mat a).1 hb))
    (fun i a hi ha hb => by
      exact absurd (hT.opt i hi).plain (fun hp => ha.1 (hp (by
        unfold OptSpec.stateful OptSpec.fresh
        rw [newSGD_ok ho]
        simp
        exact fun h => by cases h))))
    (hY.rowsOf (lo := 0) (k := 1) (by omega) (by omega))
  rw [wp_iff] at hstep
  obtain ⟨e, w', hrun, rfl, hx'⟩ := hstep
  have hfit : fit (net.task op { newModel with loss := some ⟨.mse, 1⟩ }) XM YM 1 (0 : Nat) Mat.zero Mat.zero 0 w = .ok (none, w') := by
    rw [fit_blocks dX.mat dY.mat dX.cap dY.cap 1 0 (by norm_num) 0]
    show forRet 1 _ w = _
    unfold trainEpoch
    have e1 : forRet 1 (fun s => trainOn (net.task op { newModel with loss := some ⟨.mse, 1⟩ }) (rowsOf XM ((blocks 1 0).getD s (0, 0)))
      (rowsOf YM ((blocks 1 0).getD s (0, 0)))) w = .ok (none, w') := hrun
    refine (bind_ok (show forRet 0 _ w = .ok (none, w) from rfl)).trans ?_
    refine (bind_ok e1).trans ?_
    unfold endOfEpoch
    rfl
  have hX' := hc w _ net op _ XM YM _ _ 1 _ _ 1 _ 0 w' hT (by rw [d0]; exact dX) (by rw [d1]; exact dY) hfit
  have key := (hX'.rowsOf (lo := 0) (k := 1) (by omega) (by omega)).entries_unique hx' (i := 0) (j := 0) (by omega) (by omega)
  rw [hL] at key
  simp [sigBack, lossGrad, infer, actRow, preact, sigUnit, fsum] at key
  norm_num at key

/-! ### Non-vacuity -/

/-- A three-layer model (ReLU, dropout, linear) with Adam optimizers, five training rows and two validation rows, with initialised
logger: the hypotheses of C52, C53, C55, C57_width (with X in place of Y) and C70. -/
example : ∃ (w : World ℝ) (m : Model ℝ) (net : Net ℝ) (op : Nat → Nat) (S : Nat → OptSpec ℝ) (X Y xv yv : Mat)
    (A B A' B' : Nat → Nat → ℝ), IsTask w m net op S ∧ net.size = 3 ∧ m.loss = some ⟨.mse, net.dim net.size⟩ ∧
    IsData w net X 5 (net.dim 0) A ∧ IsData w net Y 5 (net.dim net.size) B ∧ IsData w net xv 2 (net.dim 0) A' ∧
    IsData w net yv 2 (net.dim net.size) B' ∧ (∀ k, (net.L k).kind ≠ .sigmoid) ∧ net.dim 0 ≠ net.dim net.size ∧
    w.logger = true := by
  obtain ⟨o, ho⟩ := adam_ok_real (lr := 1 / 1000) (decay := 0) (by norm_num) le_rfl (1 / 10 ^ 7) (9 / 10) (999 / 1000)
  have hrows : o.weightMomentums.rows = 0 := by rw [newAdam_ok ho]; rfl
  obtain ⟨w, net, op, XM, YM, xM, yM, hf, hs, hL, hdim, hT, dX, dY, dx, dy⟩ := exists_task (emptyWorld : World ℝ) 3 (by decide)
    demoT demoT_pos demoT_chain { newModel with loss := some ⟨.mse, 5⟩ } o (OptSpec.fresh o) hrows
    (fun w p i hlt e => e ▸ isOpt_newAdam _ _ _ _ hlt (e.symm ▸ ho)) (r := 5) (r' := 2) (by decide) (by decide)
    (fun i j => (i : ℝ) + j) (fun i j => (i : ℝ) - j) (fun i _ => (i : ℝ)) (fun _ j => (j : ℝ))
  have d0 : net.dim 0 = (demoT 0 : LayerSpec ℝ).n := by rw [hdim]
  have d1 : net.dim net.size = (demoT 3 : LayerSpec ℝ).n := by rw [hdim, hs]
  refine ⟨w, _, net, op, _, XM, YM, xM, yM, _, _, _, _, hT, hs, ?_, d0 ▸ dX, d1 ▸ dY, d0 ▸ dx, d1 ▸ dy, ?_, ?_, hf.logger⟩
  · rw [d1]; rfl
  · rw [hL]; exact demoT_kind
  · rw [d0, d1]; decide

end NN
