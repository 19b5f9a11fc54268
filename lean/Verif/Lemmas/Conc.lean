import Verif.Model.Conc
import Verif.Lemmas.Wlp
/-
Lemmas about programs of single accesses (Model/Conc.lean): run alone they are the functions of the sequential model.
-/

set_option linter.unusedSectionVars false

namespace NN
variable {α : Type} [Flt α]

/-! ### Run alone -/

theorem prog_pure {β : Type} (b : β) : (pure b : Prog α β).run = (pure b : Go α β) := rfl

theorem prog_op {β γ : Type} (p : Prim α γ) (k : γ → Prog α β) : (Prog.op p k).run = (p.sem >>= fun c => (k c).run) := by
  funext w
  show _ = Go.bind p.sem _ w
  simp only [Prog.run]
  unfold Go.bind
  rcases p.sem w with e | ⟨c, w'⟩ <;> rfl

theorem prog_bind {β γ : Type} (t : Prog α β) (f : β → Prog α γ) : (t >>= f).run = (t.run >>= fun b => (f b).run) := by
  induction t with
  | ret b => rfl
  | op p k ih =>
    have e : (Prog.op p k >>= f).run = (p.sem >>= fun c => (k c >>= f).run) := prog_op p _
    rw [e, prog_op]
    funext w
    show Go.bind p.sem _ w = Go.bind (Go.bind p.sem _) _ w
    unfold Go.bind
    cases p.sem w with
    | error e => rfl
    | ok q => exact congrFun (ih q.1) q.2

theorem prog_prim {γ : Type} (p : Prim α γ) : (Prog.prim p).run = p.sem := by
  unfold Prog.prim
  rw [prog_op]
  funext w
  show Go.bind p.sem _ w = _
  unfold Go.bind
  cases p.sem w <;> rfl

theorem prog_ite {β : Type} (c : Prop) [Decidable c] (s t : Prog α β) : (if c then s else t).run = if c then s.run else t.run := by
  split <;> rfl

theorem prog_forN (n : Nat) (body : Nat → Prog α Unit) (g : Nat → Go α Unit) (h : ∀ i, (body i).run = g i) :
    (Prog.forN n body).run = Go.forN n g := by
  induction n with
  | zero => rfl
  | succ n ih =>
    show (Prog.forN n body >>= fun _ => body n).run = (Go.forN n g >>= fun _ => g n)
    rw [prog_bind, ih, h]

theorem prog_foldN {β : Type} (n : Nat) (body : Nat → β → Prog α β) (g : Nat → β → Go α β) (b : β)
    (h : ∀ i b, (body i b).run = g i b) : (Prog.foldN n body b).run = Go.foldN n g b := by
  induction n with
  | zero => rfl
  | succ n ih =>
    show (Prog.foldN n body b >>= fun b' => body n b').run = (Go.foldN n g b >>= fun b' => g n b')
    rw [prog_bind, ih]
    exact congrArg _ (funext fun b' => h n b')

theorem prog_seq {β γ : Type} {t : Prog α β} {g : Go α β} {f : β → Prog α γ} {h : β → Go α γ} (h1 : t.run = g)
    (h2 : ∀ b, (f b).run = h b) : (t >>= f).run = (g >>= h) := by
  rw [prog_bind, h1]; exact congrArg _ (funext h2)

theorem prog_ite2 {β : Type} {c : Prop} [Decidable c] {s t : Prog α β} {s' t' : Go α β} (h1 : s.run = s') (h2 : t.run = t') :
    (if c then s else t).run = if c then s' else t' := by
  split <;> assumption

theorem run_atP (m : Mat) (i j : Int) : (m.atP i j : Prog α α).run = m.at i j :=
  prog_seq (prog_prim _) fun _ => prog_prim _

theorem run_setAtP (m : Mat) (i j : Int) (v : α) : (m.setAtP i j v).run = m.setAt i j v :=
  prog_seq (prog_prim _) fun _ => prog_prim _

theorem run_derefP {β : Type} (p : Option β) : (derefP p : Prog α β).run = deref p := by
  cases p with
  | none => exact prog_prim _
  | some b => rfl

theorem run_listGetP {β : Type} (xs : List β) (i : Int) : (listGetP xs i : Prog α β).run = listGet xs i := by
  unfold listGetP listGet
  split
  · cases xs[i.toNat]? with
    | none => exact prog_prim _
    | some b => rfl
  · exact prog_prim _

/-- One step of a proof that a program run alone is a function of the model. -/
macro "run_step" : tactic => `(tactic| first
  | exact prog_pure _
  | exact run_atP _ _ _
  | exact run_setAtP _ _ _ _
  | exact run_derefP _
  | exact run_listGetP _ _
  | exact prog_prim _
  | assumption
  | rfl
  | apply prog_forN
  | apply prog_foldN
  | apply prog_ite2
  | apply prog_seq
  | intro _)

theorem run_newMatrixP (r c : Int) : (newMatrixP r c : Prog α (Mat × Option Err)).run = newMatrix r c := by
  unfold newMatrixP newMatrix
  repeat run_step

theorem run_subP (m b : Mat) : (m.subP b : Prog α (Mat × Option Err)).run = m.sub b := by
  have := @run_newMatrixP α _
  unfold Mat.subP Mat.sub
  repeat (first | exact this _ _ | run_step)

theorem run_dotP (m b : Mat) : (m.dotP b : Prog α (Mat × Option Err)).run = m.dot b := by
  have := @run_newMatrixP α _
  unfold Mat.dotP Mat.dot
  repeat (first | exact this _ _ | run_step)

theorem run_sum1P (m : Mat) : (m.sum1P : Prog α Mat).run = m.sum 1 := by
  have := @run_newMatrixP α _
  have e : (m.sum 1 : Go α Mat) = (do
    let (ans, _) ← newMatrix 1 m.rows
    Go.forN m.rows.toNat fun i => do
      let s ← Go.foldN m.cols.toNat (fun j s => do
        let x ← m.at i j
        return s +. x) Flt.zero
      ans.setAt 0 i s
    return ans) := rfl
  rw [e]
  unfold Mat.sum1P
  repeat (first | exact this _ _ | run_step)

theorem run_clipP (X : Mat) : (clipP X : Prog α Mat).run = clip X := by
  unfold clipP clip
  repeat run_step

theorem run_rowMaxP (X : Mat) : (rowMaxP X : Prog α Mat).run = rowMax X := by
  have := @run_newMatrixP α _
  unfold rowMaxP rowMax
  repeat (first | exact this _ _ | run_step)

theorem run_outputBinaryValuesP (X : Mat) : (outputBinaryValuesP X : Prog α Mat).run = outputBinaryValues X := by
  unfold outputBinaryValuesP outputBinaryValues
  repeat run_step

theorem run_reluP (m : Mat) : (reluP m : Prog α Mat).run = relu m := by
  unfold reluP relu
  repeat run_step

theorem run_sigmoidP (m : Mat) : (sigmoidP m : Prog α Mat).run = sigmoid m := by
  unfold sigmoidP sigmoid
  repeat run_step

theorem run_leakyReluP (m : Mat) (s : α) : (leakyReluP m s).run = leakyRelu m s := by
  unfold leakyReluP leakyRelu
  repeat run_step

theorem run_softmaxP (m : Mat) : (softmaxP m : Prog α Mat).run = softmax m := by
  unfold softmaxP softmax
  repeat run_step

theorem run_affineP (l : Layer α) (x : Mat) : (affineP l x).run = affine l x := by
  unfold affineP affine
  apply prog_ite2
  · rfl
  · apply prog_seq (run_derefP _)
    intro wm
    apply prog_seq (run_dotP _ _)
    rintro ⟨out, _ | e⟩
    · repeat run_step
    · rfl

/-- The parameters are all that the affine part uses of a layer object. -/
theorem affine_params (l : Layer α) (x : Mat) : affine l.params x = affine l x := rfl


/-! ### A forward pass through a layer -/

/-- Does not change the layer objects. -/
def KeepsLay {β : Type} (g : Go α β) : Prop := ∀ w, wlp g w (fun _ w' => w'.lay = w.lay)

theorem KeepsLay.pure {β : Type} (b : β) : KeepsLay (Pure.pure b : Go α β) := fun _ => wlp_pure rfl

theorem KeepsLay.bind {β γ : Type} {g : Go α β} {f : β → Go α γ} (hg : KeepsLay g) (hf : ∀ b, KeepsLay (f b)) : KeepsLay (g >>= f) :=
  fun w => wlp_bind (hg w) fun b w' h => wlp_mono (hf b w') fun _ _ h' => h'.trans h

theorem KeepsLay.forN (n : Nat) {body : Nat → Go α Unit} (h : ∀ i, KeepsLay (body i)) : KeepsLay (Go.forN n body) :=
  fun w => wlp_forN (fun _ w' => w'.lay = w.lay) rfl fun k w' _ h' => wlp_mono (h k w') fun _ _ e => e.trans h'

theorem KeepsLay.foldN {β : Type} (n : Nat) {body : Nat → β → Go α β} (b : β) (h : ∀ i b, KeepsLay (body i b)) :
    KeepsLay (Go.foldN n body b) :=
  fun w => wlp_foldN (fun _ _ w' => w'.lay = w.lay) rfl fun k b' w' _ h' => wlp_mono (h k b' w') fun _ _ e => e.trans h'

theorem KeepsLay.rowRef (s : Slice) (i : Int) : KeepsLay (NN.rowRef s i : Go α Nat) := by
  intro w b w' e
  unfold NN.rowRef at e
  split at e
  · split at e <;> cases e; rfl
  · cases e

theorem KeepsLay.at (m : Mat) (i j : Int) : KeepsLay (m.at i j : Go α α) := fun _ => wlp_mono wlp_at fun _ _ h => by rw [h]

theorem KeepsLay.setAt (m : Mat) (i j : Int) (v : α) : KeepsLay (m.setAt i j v) := by
  refine KeepsLay.bind (KeepsLay.rowRef _ _) fun r w b w' e => ?_
  unfold rowSet at e
  split at e <;> cases e; rfl

theorem KeepsLay.deref {β : Type} (p : Option β) : KeepsLay (NN.deref p : Go α β) := by
  cases p with
  | none => exact fun _ => wlp_panic
  | some b => exact KeepsLay.pure b

theorem newMatrix_keepsLay (r c : Int) : KeepsLay (newMatrix r c : Go α (Mat × Option Err)) := by
  unfold newMatrix
  split
  · exact KeepsLay.pure _
  · refine KeepsLay.bind (fun w b w' e => by cases e; rfl) fun s => ?_
    refine KeepsLay.bind (KeepsLay.forN _ fun i => KeepsLay.bind (fun w b w' e => by cases e; rfl) fun r w b w' e => ?_)
      fun _ => KeepsLay.pure _
    unfold setRowRef at e
    split at e <;> cases e; rfl

theorem dot_keepsLay (m b : Mat) : KeepsLay (m.dot b : Go α (Mat × Option Err)) := by
  unfold Mat.dot
  split
  · exact KeepsLay.pure _
  · refine KeepsLay.bind (newMatrix_keepsLay _ _) fun p => KeepsLay.bind (KeepsLay.forN _ fun i => KeepsLay.forN _ fun j => ?_)
      fun _ => KeepsLay.pure _
    exact KeepsLay.bind (KeepsLay.foldN _ _ fun n s => KeepsLay.bind (KeepsLay.at _ _ _) fun _ => KeepsLay.bind (KeepsLay.at _ _ _)
      fun _ => KeepsLay.pure _) fun _ => KeepsLay.setAt _ _ _ _

theorem affine_keepsLay (l : Layer α) (x : Mat) : KeepsLay (affine l x) := by
  unfold affine
  split
  · exact KeepsLay.pure _
  · refine KeepsLay.bind (KeepsLay.deref _) fun wm => KeepsLay.bind (dot_keepsLay _ _) ?_
    rintro ⟨out, _ | e⟩
    · refine KeepsLay.bind (KeepsLay.forN _ fun i => KeepsLay.forN _ fun j => ?_) fun _ => KeepsLay.pure _
      exact KeepsLay.bind (KeepsLay.at _ _ _) fun _ => KeepsLay.bind (KeepsLay.deref _) fun _ => KeepsLay.bind (KeepsLay.at _ _ _)
        fun _ => KeepsLay.setAt _ _ _ _
    · exact KeepsLay.pure _

theorem softmax_keepsLay (m : Mat) : KeepsLay (softmax m : Go α Mat) := by
  unfold softmax
  refine KeepsLay.bind (KeepsLay.forN _ fun i => KeepsLay.bind (KeepsLay.foldN _ _ fun j s => ?_) fun s => KeepsLay.forN _ fun j => ?_)
    fun _ => KeepsLay.pure _
  · exact KeepsLay.bind (KeepsLay.at _ _ _) fun _ => KeepsLay.bind (KeepsLay.setAt _ _ _ _) fun _ => KeepsLay.bind (KeepsLay.at _ _ _)
      fun _ => KeepsLay.pure _
  · exact KeepsLay.bind (KeepsLay.at _ _ _) fun _ => KeepsLay.setAt _ _ _ _

/-- The part of a forward pass after the affine part. -/
theorem run_afterAffine {l : Layer α} {x : Mat} {k : Mat × Option Err → Prog α (Mat × Option Err)}
    {g : Mat × Option Err → Go α (Mat × Option Err)} (w : World α)
    (h : ∀ p w', w'.lay = w.lay → (k p).run w' = g p w') :
    (affineP l x >>= k).run w = (affine l x >>= g) w := by
  rw [prog_bind, run_affineP]
  show Go.bind _ _ w = Go.bind _ _ w
  unfold Go.bind
  have hk := affine_keepsLay l x w
  cases e : affine l x w with
  | error p => rfl
  | ok q => exact h q.1 q.2 (hk _ _ e)

theorem run_inferP (lp : Nat) (x : Mat) : (inferP lp x : Prog α (Mat × Option Err)).run = forwardStep false lp x := by
  funext w
  unfold inferP
  rw [prog_bind, prog_prim]
  have e1 : (forwardStep false lp x : Go α _) w =
      (if (w.lay lp).kind = .dropout ∧ false = false then dropoutForwardNo lp x else layerForward lp x) w := rfl
  have e2 : (layerForward lp x : Go α _) w = (match (w.lay lp).kind with
      | .hidden => hiddenForward lp x
      | .linear => linearForward lp x
      | .sigmoid => sigmoidForward lp x
      | .leaky => leakyForward lp x
      | .softmax => softmaxForward lp x
      | .dropout => dropoutForward lp x) w := rfl
  rw [e1]
  show (affineP (w.lay lp).params x >>= _).run w = _
  by_cases hd : (w.lay lp).kind = .dropout
  · rw [if_pos ⟨hd, rfl⟩]
    show _ = (affine (w.lay lp).params x >>= _) w
    refine run_afterAffine w ?_
    rintro ⟨out, _ | e⟩ w' hw
    · have hk : (w.lay lp).params.kind = .dropout := hd
      simp only [hk]
      rw [prog_bind, prog_prim]
      show (reluP out >>= _).run { w' with lay := upd w'.lay lp { w'.lay lp with reluInputs := out } } =
        (relu out >>= _) { w' with lay := upd w'.lay lp { w.lay lp with reluInputs := out } }
      rw [prog_seq (run_reluP out) (fun _ => prog_pure _), hw]
    · rfl
  · rw [if_neg (fun h => hd h.1), e2]
    cases hk : (w.lay lp).kind with
    | dropout => exact absurd hk hd
    | hidden =>
      show _ = (affine (w.lay lp).params x >>= _) w
      refine run_afterAffine w ?_
      rintro ⟨out, _ | e⟩ w' hw
      · have hk : (w.lay lp).params.kind = .hidden := hk
        simp only [hk]
        rw [prog_bind, prog_prim]
        show (reluP out >>= _).run { w' with lay := upd w'.lay lp { w'.lay lp with reluInputs := out } } =
          (relu out >>= _) { w' with lay := upd w'.lay lp { w.lay lp with reluInputs := out } }
        rw [prog_seq (run_reluP out) (fun _ => prog_pure _), hw]
      · rfl
    | linear =>
      show _ = (affine (w.lay lp).params x >>= _) w
      refine run_afterAffine w ?_
      rintro ⟨out, _ | e⟩ w' hw
      · have hk : (w.lay lp).params.kind = .linear := hk
        simp only [hk]
        rfl
      · rfl
    | sigmoid =>
      show _ = (affine (w.lay lp).params x >>= _) w
      refine run_afterAffine w ?_
      rintro ⟨out, _ | e⟩ w' hw
      · have hk : (w.lay lp).params.kind = .sigmoid := hk
        simp only [hk]
        rw [prog_seq (run_sigmoidP out) (fun _ => rfl)]
        rfl
      · rfl
    | leaky =>
      show _ = (affine (w.lay lp).params x >>= _) w
      refine run_afterAffine w ?_
      rintro ⟨out, _ | e⟩ w' hw
      · have hk : (w.lay lp).params.kind = .leaky := hk
        simp only [hk]
        rw [prog_bind, prog_prim]
        show (leakyReluP out (w.lay lp).slope >>= _).run { w' with lay := upd w'.lay lp { w'.lay lp with reluInputs := out } } =
          (leakyRelu out (w.lay lp).slope >>= _) { w' with lay := upd w'.lay lp { w.lay lp with reluInputs := out } }
        rw [prog_seq (run_leakyReluP out _) (fun _ => prog_pure _), hw]
      · rfl
    | softmax =>
      show _ = (affine (w.lay lp).params x >>= _) w
      refine run_afterAffine w ?_
      rintro ⟨out, _ | e⟩ w' hw
      · have hk : (w.lay lp).params.kind = .softmax := hk
        simp only [hk]
        rw [prog_bind, run_softmaxP]
        show Go.bind _ _ w' = Go.bind _ _ w'
        unfold Go.bind
        have hks := softmax_keepsLay (α := α) out w'
        cases e : (softmax out : Go α Mat) w' with
        | error p => rfl
        | ok q =>
          have h2 : q.2.lay = w.lay := (hks _ _ e).trans hw
          show (Prog.prim (.setOutputs lp q.1) >>= _).run q.2 = _
          rw [prog_bind, prog_prim]
          show Except.ok (_, { q.2 with lay := upd q.2.lay lp { q.2.lay lp with outputs := q.1 } }) =
            Except.ok (_, { q.2 with lay := upd q.2.lay lp { w.lay lp with outputs := q.1 } })
          rw [h2]
      · rfl

theorem run_forwardLoopP (m : Model α) (X : Mat) (n : Nat) : (forwardLoopP m X n).run = forwardLoop m false X n := by
  induction n with
  | zero => rfl
  | succ n ih =>
    unfold forwardLoopP forwardLoop
    apply prog_seq ih
    rintro ⟨outs, out, _ | e⟩
    · apply prog_seq (run_listGetP _ _)
      intro lp
      apply prog_seq (run_inferP _ _)
      rintro ⟨o, _ | e⟩ <;> rfl
    · rfl

theorem run_modelForwardP (m : Model α) (X : Mat) : (modelForwardP m X).run = modelForward m X false := by
  unfold modelForwardP modelForward
  apply prog_seq (run_forwardLoopP _ _ _)
  rintro ⟨outs, out, e⟩
  rfl

theorem run_predictP (m : Model α) (X : Mat) : (predictP m X).run = predict m X := by
  have := @run_rowMaxP α _
  have := @run_outputBinaryValuesP α _
  unfold predictP predict
  apply prog_seq (run_modelForwardP _ _)
  rintro ⟨outs, _ | e⟩
  · repeat (first | exact run_rowMaxP _ | exact run_outputBinaryValuesP _ | run_step)
  · rfl

theorem run_mseForwardP (n : Int) (x y : Mat) : (mseForwardP n x y : Prog α (α × Option Err)).run = mseForward n x y := by
  unfold mseForwardP mseForward
  cases lossCheck n x y with
  | some e => rfl
  | none =>
    apply prog_seq (run_subP _ _)
    rintro ⟨s, _ | e⟩
    · repeat (first | exact run_sum1P _ | run_step)
    · rfl

theorem run_maeForwardP (n : Int) (x y : Mat) : (maeForwardP n x y : Prog α (α × Option Err)).run = maeForward n x y := by
  unfold maeForwardP maeForward
  cases lossCheck n x y with
  | some e => rfl
  | none =>
    apply prog_seq (run_subP _ _)
    rintro ⟨s, _ | e⟩
    · repeat (first | exact run_sum1P _ | run_step)
    · rfl

theorem run_ceForwardP (n : Int) (x y : Mat) : (ceForwardP n x y : Prog α (α × Option Err)).run = ceForward n x y := by
  unfold ceForwardP ceForward
  cases lossCheck n x y with
  | some e => rfl
  | none => repeat (first | exact run_clipP _ | exact run_newMatrixP _ _ | run_step)

theorem run_bceForwardP (n : Int) (x y : Mat) : (bceForwardP n x y : Prog α (α × Option Err)).run = bceForward n x y := by
  unfold bceForwardP bceForward
  cases lossCheck n x y with
  | some e => rfl
  | none => repeat (first | exact run_clipP _ | run_step)

theorem run_lossForwardP (l : Loss) (x y : Mat) : (l.forwardP x y : Prog α (α × Option Err)).run = l.forward x y := by
  unfold Loss.forwardP Loss.forward
  cases l.kind
  · exact run_mseForwardP _ _ _
  · exact run_maeForwardP _ _ _
  · exact run_ceForwardP _ _ _
  · exact run_bceForwardP _ _ _

theorem run_regressionAccuracyP (x y : Mat) (p : α) : (regressionAccuracyP x y p).run = regressionAccuracy x y p := by
  unfold regressionAccuracyP regressionAccuracy
  repeat run_step

theorem run_categoricalAccuracyP (x y : Mat) : (categoricalAccuracyP x y : Prog α α).run = categoricalAccuracy x y := by
  unfold categoricalAccuracyP categoricalAccuracy
  repeat (first | exact run_rowMaxP _ | run_step)

theorem run_binaryCategoricalAccuracyP (x y : Mat) :
    (binaryCategoricalAccuracyP x y : Prog α α).run = binaryCategoricalAccuracy x y := by
  unfold binaryCategoricalAccuracyP binaryCategoricalAccuracy
  repeat (first | exact run_outputBinaryValuesP _ | run_step)

theorem run_calculateLossP (m : Model α) (X Y : Mat) : (calculateLossP m X Y).run = calculateLoss m X Y := by
  unfold calculateLossP calculateLoss
  apply prog_seq (run_modelForwardP _ _)
  rintro ⟨outs, _ | e⟩
  · apply prog_seq (run_listGetP _ _)
    intro o
    apply prog_seq (run_derefP _)
    intro l
    apply prog_seq (run_lossForwardP _ _ _)
    rintro ⟨j, _ | e⟩ <;> rfl
  · rfl

theorem run_calculateAccuracyP (m : Model α) (X Y : Mat) : (calculateAccuracyP m X Y).run = calculateAccuracy m X Y := by
  unfold calculateAccuracyP calculateAccuracy
  apply prog_seq (run_modelForwardP _ _)
  rintro ⟨outs, _ | e⟩
  · repeat (first | exact run_regressionAccuracyP _ _ _ | exact run_categoricalAccuracyP _ _ | exact run_binaryCategoricalAccuracyP _ _ | run_step)
  · rfl

end NN
