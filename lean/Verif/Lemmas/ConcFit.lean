import Verif.Model.ConcFit
import Verif.Lemmas.Conc
/-
`Fit` as a program of single accesses (Model/ConcFit.lean), run alone, is `Fit` of the sequential model.
-/

set_option linter.unusedSectionVars false

namespace NN
variable {α : Type} [Flt α]

theorem prog_forRet (n : Nat) (body : Nat → Prog α (Option Err)) (g : Nat → Go α (Option Err)) (h : ∀ i, (body i).run = g i) :
    (Prog.forRet n body).run = Go.forRet n g := by
  induction n with
  | zero => rfl
  | succ n ih =>
    unfold Prog.forRet Go.forRet
    apply prog_seq ih
    rintro (_ | e)
    · exact h n
    · rfl

theorem run_newMatrixFromSliceP (s : Slice) : (newMatrixFromSliceP s : Prog α (Mat × Option Err)).run = newMatrixFromSlice s := by
  unfold newMatrixFromSliceP newMatrixFromSlice
  repeat run_step

theorem run_getRowP (m : Mat) (i : Int) : (m.getRowP i : Prog α (Option Nat × Option Err)).run = m.getRow i := by
  unfold Mat.getRowP Mat.getRow
  repeat run_step

theorem run_setRowP (m : Mat) (i : Int) (v : Nat) : (m.setRowP i v : Prog α (Option Err)).run = m.setRow i v := by
  unfold Mat.setRowP Mat.setRow
  repeat run_step

theorem run_setColumnP (m : Mat) (i : Int) (v : Nat) : (m.setColumnP i v : Prog α (Option Err)).run = m.setColumn i v := by
  unfold Mat.setColumnP Mat.setColumn
  repeat run_step

theorem run_addP (m b : Mat) : (m.addP b : Prog α (Mat × Option Err)).run = m.add b := by
  unfold Mat.addP Mat.add
  repeat (first | exact run_newMatrixP _ _ | run_step)

theorem run_mulScalarP (m : Mat) (x : α) : (m.mulScalarP x).run = m.mulScalar x := by
  unfold Mat.mulScalarP Mat.mulScalar
  repeat (first | exact run_newMatrixP _ _ | run_step)

theorem run_powScalarP (m : Mat) (x : α) : (m.powScalarP x).run = m.powScalar x := by
  unfold Mat.powScalarP Mat.powScalar
  repeat (first | exact run_newMatrixP _ _ | run_step)

theorem run_setColumnOptP (m : Mat) (i : Int) (v : Option Nat) : (m.setColumnOptP i v : Prog α (Option Err)).run = m.setColumnOpt i v := by
  cases v with
  | none => rfl
  | some v => exact run_setColumnP m i v

theorem run_tP (m : Mat) : (m.tP : Prog α Mat).run = m.t := by
  unfold Mat.tP Mat.t
  repeat (first | exact run_newMatrixP _ _ | exact run_getRowP _ _ | exact run_setColumnOptP _ _ _ | run_step)

theorem run_sum0P (m : Mat) : (m.sum0P : Prog α Mat).run = m.sum 0 := by
  have e : (m.sum 0 : Go α Mat) = (do
    let (ans, _) ← newMatrix 1 m.cols
    Go.forN m.cols.toNat fun i => do
      let s ← Go.foldN m.rows.toNat (fun j s => do
        let x ← m.at j i
        return s +. x) Flt.zero
      ans.setAt 0 i s
    return ans) := rfl
  rw [e]
  unfold Mat.sum0P
  repeat (first | exact run_newMatrixP _ _ | run_step)

theorem run_resliceP (s : Slice) (lo hi : Int) : (resliceP s lo hi : Prog α Slice).run = reslice s lo hi := by
  unfold resliceP reslice
  split
  · rfl
  · exact prog_prim _

theorem run_reluPrimeP (m x : Mat) : (reluPrimeP m x : Prog α Mat).run = reluPrime m x := by
  unfold reluPrimeP reluPrime
  repeat run_step

theorem run_sigmoidPrimeP (m x : Mat) : (sigmoidPrimeP m x : Prog α Mat).run = sigmoidPrime m x := by
  unfold sigmoidPrimeP sigmoidPrime
  repeat (first | exact run_sigmoidP _ | run_step)

theorem run_leakyReluPrimeP (m x : Mat) (s : α) : (leakyReluPrimeP m x s).run = leakyReluPrime m x s := by
  unfold leakyReluPrimeP leakyReluPrime
  repeat run_step

theorem run_binomialRandP (n : Nat) (p : α) : (binomialRandP n p).run = binomialRand n p := by
  unfold binomialRandP binomialRand
  repeat run_step

theorem run_mseBackwardP (n : Int) (x y : Mat) : (mseBackwardP n x y : Prog α (Mat × Option Err)).run = mseBackward n x y := by
  unfold mseBackwardP mseBackward
  cases lossCheck n x y with
  | some e => rfl
  | none =>
    apply prog_seq (run_subP _ _)
    rintro ⟨s, _ | e⟩
    · exact prog_seq (run_mulScalarP _ _) fun _ => rfl
    · rfl

theorem run_maeBackwardP (n : Int) (x y : Mat) : (maeBackwardP n x y : Prog α (Mat × Option Err)).run = maeBackward n x y := by
  unfold maeBackwardP maeBackward
  cases lossCheck n x y with
  | some e => rfl
  | none =>
    apply prog_seq (run_subP _ _)
    rintro ⟨s, _ | e⟩
    · repeat run_step
    · rfl

theorem run_ceBackwardP (n : Int) (x y : Mat) : (ceBackwardP n x y : Prog α (Mat × Option Err)).run = ceBackward n x y := by
  unfold ceBackwardP ceBackward
  cases lossCheck n x y with
  | some e => rfl
  | none => repeat (first | exact run_newMatrixP _ _ | run_step)

theorem run_bceBackwardP (n : Int) (x y : Mat) : (bceBackwardP n x y : Prog α (Mat × Option Err)).run = bceBackward n x y := by
  unfold bceBackwardP bceBackward
  cases lossCheck n x y with
  | some e => rfl
  | none => repeat (first | exact run_clipP _ | exact run_newMatrixP _ _ | run_step)

theorem run_lossBackwardP (l : Loss) (x y : Mat) : (l.backwardP x y : Prog α (Mat × Option Err)).run = l.backward x y := by
  unfold Loss.backwardP Loss.backward
  cases l.kind
  · exact run_mseBackwardP _ _ _
  · exact run_maeBackwardP _ _ _
  · exact run_ceBackwardP _ _ _
  · exact run_bceBackwardP _ _ _

/-! ### network.go -/

theorem run_gradTailP (l : Layer α) (x d : Mat) : (gradTailP l x d).run = gradTail l x d := by
  unfold gradTailP gradTail
  apply prog_seq (run_tP _)
  intro it
  apply prog_seq (run_derefP _)
  intro wm
  apply prog_seq (run_tP _)
  intro wt
  apply prog_seq (run_dotP _ _)
  rintro ⟨dw, _ | e⟩
  · exact prog_seq (run_sum0P _) fun _ => prog_seq (run_dotP _ _) fun _ => rfl
  · rfl

theorem run_hiddenBackwardP (lp : Nat) (x d : Mat) : (hiddenBackwardP lp x d : Prog α Grads).run = hiddenBackward lp x d := by
  unfold hiddenBackwardP hiddenBackward
  apply prog_seq (prog_prim _)
  intro l
  cases backCheck l x d with
  | some e => rfl
  | none => exact prog_seq (run_reluPrimeP _ _) fun _ => run_gradTailP _ _ _

theorem run_linearBackwardP (lp : Nat) (x d : Mat) : (linearBackwardP lp x d : Prog α Grads).run = linearBackward lp x d := by
  unfold linearBackwardP linearBackward
  apply prog_seq (prog_prim _)
  intro l
  cases backCheck l x d with
  | some e => rfl
  | none => exact run_gradTailP _ _ _

theorem run_sigmoidBackwardP (lp : Nat) (x d : Mat) : (sigmoidBackwardP lp x d : Prog α Grads).run = sigmoidBackward lp x d := by
  unfold sigmoidBackwardP sigmoidBackward
  apply prog_seq (prog_prim _)
  intro l
  cases backCheck l x d with
  | some e => rfl
  | none => exact prog_seq (run_sigmoidPrimeP _ _) fun _ => run_gradTailP _ _ _

theorem run_leakyBackwardP (lp : Nat) (x d : Mat) : (leakyBackwardP lp x d : Prog α Grads).run = leakyBackward lp x d := by
  unfold leakyBackwardP leakyBackward
  apply prog_seq (prog_prim _)
  intro l
  cases backCheck l x d with
  | some e => rfl
  | none => exact prog_seq (run_leakyReluPrimeP _ _ _) fun _ => run_gradTailP _ _ _

theorem run_dropoutBackwardP (lp : Nat) (x d : Mat) : (dropoutBackwardP lp x d : Prog α Grads).run = dropoutBackward lp x d := by
  unfold dropoutBackwardP dropoutBackward
  apply prog_seq (prog_prim _)
  intro l
  cases backCheck l x d with
  | some e => rfl
  | none =>
    refine prog_seq ?_ fun _ => prog_seq (run_reluPrimeP _ _) fun _ => run_gradTailP _ _ _
    repeat run_step

theorem run_sliceOfRowP (r : Nat) : (sliceOfRowP r : Prog α Slice).run = sliceOfRow r := by
  unfold sliceOfRowP sliceOfRow
  repeat run_step

theorem run_softmaxBackRowP (l : Layer α) (dp d : Mat) (i : Nat) : (softmaxBackRowP l dp d i).run = softmaxBackRow l dp d i := by
  unfold softmaxBackRowP softmaxBackRow
  apply prog_seq (run_newMatrixP _ _)
  rintro ⟨diag, -⟩
  refine prog_seq ?_ fun _ => prog_seq (prog_prim _) fun _ => prog_seq (run_sliceOfRowP _) fun _ => prog_seq (run_newMatrixFromSliceP _) fun _ =>
    prog_seq (run_tP _) fun _ => prog_seq (run_tP _) fun _ => prog_seq (run_dotP _ _) ?_
  · repeat run_step
  rintro ⟨od, _ | e⟩
  · apply prog_seq (run_subP _ _)
    rintro ⟨jac, _ | e⟩
    · refine prog_seq (prog_prim _) fun _ => prog_seq (run_sliceOfRowP _) fun _ => prog_seq (run_newMatrixFromSliceP _) fun _ =>
        prog_seq (run_tP _) fun _ => prog_seq (run_dotP _ _) ?_
      rintro ⟨row, _ | e⟩
      · exact prog_seq (run_tP _) fun _ => prog_seq (prog_prim _) fun _ => prog_seq (run_setRowP _ _ _) fun _ => rfl
      · rfl
    · rfl
  · rfl

theorem run_softmaxBackwardP (lp : Nat) (x d : Mat) : (softmaxBackwardP lp x d : Prog α Grads).run = softmaxBackward lp x d := by
  unfold softmaxBackwardP softmaxBackward
  apply prog_seq (prog_prim _)
  intro l
  refine prog_ite2 rfl (prog_ite2 rfl (prog_ite2 rfl (prog_ite2 rfl (prog_seq (run_newMatrixP _ _) fun p => ?_))))
  refine prog_seq (prog_forRet _ _ _ fun i => run_softmaxBackRowP _ _ _ _) ?_
  rintro (_ | e)
  · exact run_gradTailP _ _ _
  · rfl

theorem run_softmaxBackwardCEP (lp : Nat) (x y d : Mat) : (softmaxBackwardCEP lp x y d : Prog α Grads).run = softmaxBackwardCE lp x y d := by
  unfold softmaxBackwardCEP softmaxBackwardCE
  repeat (first | exact run_newMatrixP _ _ | exact run_gradTailP _ _ _ | run_step)

/-- Reading the whole layer to decide on its type reads nothing but the parameters. -/
theorem run_layParams {β : Type} {lp : Nat} {f : Layer α → Prog α β} {g : Layer α → Go α β} (h : ∀ l, (f l.params).run = g l) :
    (Prog.prim (.layParams lp) >>= f).run = (layGet lp >>= g) := by
  rw [prog_bind, prog_prim]
  funext w
  exact congrFun (h (w.lay lp)) w

theorem run_layerBackwardP (lp : Nat) (x d : Mat) : (layerBackwardP lp x d : Prog α Grads).run = layerBackward lp x d := by
  unfold layerBackwardP layerBackward
  refine run_layParams fun l => ?_
  have : l.params.kind = l.kind := rfl
  rw [this]
  cases l.kind
  · exact run_hiddenBackwardP _ _ _
  · exact run_linearBackwardP _ _ _
  · exact run_sigmoidBackwardP _ _ _
  · exact run_leakyBackwardP _ _ _
  · exact run_softmaxBackwardP _ _ _
  · exact run_dropoutBackwardP _ _ _

/-! ### optimizers.go -/

theorem run_addIntoP (w u : Mat) : (addIntoP w u : Prog α Unit).run = addInto w u := by
  unfold addIntoP addInto
  repeat run_step

theorem run_subIntoP (w u : Mat) : (subIntoP w u : Prog α Unit).run = subInto w u := by
  unfold subIntoP subInto
  repeat run_step

theorem run_adamStepP (w m c : Mat) (r e : α) : (adamStepP w m c r e).run = adamStep w m c r e := by
  unfold adamStepP adamStep
  repeat run_step

theorem run_sgdUpdateP (op : Nat) (w b dw db : Mat) : (sgdUpdateP op w b dw db : Prog α (Option Err)).run = sgdUpdate op w b dw db := by
  unfold sgdUpdateP sgdUpdate
  refine prog_seq (prog_prim _) fun o => prog_seq (prog_prim _) fun _ => prog_ite2 ?_ ?_
  · have tail : ∀ o : Optim α, (do
        let sm ← o.weightMomentums.mulScalarP o.momentum
        let sg ← dw.mulScalarP o.currentRate
        let (wm, err) ← sm.subP sg
        let o := { o with weightMomentums := wm }
        Prog.prim (.optSet op o)
        if let some e := err then
          return some e
        let sm ← o.biasMomentums.mulScalarP o.momentum
        let sg ← db.mulScalarP o.currentRate
        let (bm, err) ← sm.subP sg
        let o := { o with biasMomentums := bm }
        Prog.prim (.optSet op o)
        if let some e := err then
          return some e
        addIntoP w o.weightMomentums
        addIntoP b o.biasMomentums
        Prog.prim (.optSet op { o with iterations := o.iterations + 1 })
        return none : Prog α (Option Err)).run = (do
        let sm ← o.weightMomentums.mulScalar o.momentum
        let sg ← dw.mulScalar o.currentRate
        let (wm, err) ← sm.sub sg
        let o := { o with weightMomentums := wm }
        optSet op o
        if let some e := err then
          return some e
        let sm ← o.biasMomentums.mulScalar o.momentum
        let sg ← db.mulScalar o.currentRate
        let (bm, err) ← sm.sub sg
        let o := { o with biasMomentums := bm }
        optSet op o
        if let some e := err then
          return some e
        addInto w o.weightMomentums
        addInto b o.biasMomentums
        optSet op { o with iterations := o.iterations + 1 }
        return none : Go α (Option Err)) := by
      intro o
      refine prog_seq (run_mulScalarP _ _) fun _ => prog_seq (run_mulScalarP _ _) fun _ => prog_seq (run_subP _ _) ?_
      rintro ⟨wm, _ | e⟩
      · refine prog_seq (prog_prim _) fun _ => prog_seq (run_mulScalarP _ _) fun _ => prog_seq (run_mulScalarP _ _) fun _ => prog_seq (run_subP _ _) ?_
        rintro ⟨bm, _ | e⟩
        · exact prog_seq (prog_prim _) fun _ => prog_seq (run_addIntoP _ _) fun _ => prog_seq (run_addIntoP _ _) fun _ =>
            prog_seq (prog_prim _) fun _ => rfl
        · exact prog_seq (prog_prim _) fun _ => rfl
      · exact prog_seq (prog_prim _) fun _ => rfl
    refine prog_ite2 ?_ (tail _)
    exact prog_seq (run_newMatrixP _ _) fun _ => prog_seq (run_newMatrixP _ _) fun _ => prog_seq (prog_prim _) fun _ => tail _
  · exact prog_seq (run_mulScalarP _ _) fun _ => prog_seq (run_mulScalarP _ _) fun _ => prog_seq (run_subIntoP _ _) fun _ =>
      prog_seq (run_subIntoP _ _) fun _ => prog_seq (prog_prim _) fun _ => rfl

theorem run_adamUpdateP (op : Nat) (w b dw db : Mat) : (adamUpdateP op w b dw db : Prog α (Option Err)).run = adamUpdate op w b dw db := by
  unfold adamUpdateP adamUpdate
  refine prog_seq (prog_prim _) fun o => prog_seq (prog_prim _) fun _ => ?_
  have hm : ∀ (m : Mat) (x : α), (m.mulScalarP x).run = m.mulScalar x := run_mulScalarP
  refine prog_ite2 ?_ ?_
  · refine prog_seq (run_newMatrixP _ _) fun _ => prog_seq (run_newMatrixP _ _) fun _ => prog_seq (run_newMatrixP _ _) fun _ =>
      prog_seq (run_newMatrixP _ _) fun _ => prog_seq (prog_prim _) fun _ => ?_
    refine prog_seq (hm _ _) fun _ => prog_seq (hm _ _) fun _ => prog_seq (run_addP _ _) ?_
    rintro ⟨wm, _ | e⟩
    · refine prog_seq (prog_prim _) fun _ => prog_seq (hm _ _) fun _ => prog_seq (hm _ _) fun _ => prog_seq (run_addP _ _) ?_
      rintro ⟨bm, _ | e⟩
      · refine prog_seq (prog_prim _) fun _ => prog_seq (hm _ _) fun _ => prog_seq (hm _ _) fun _ => prog_seq (hm _ _) fun _ =>
          prog_seq (run_powScalarP _ _) fun _ => prog_seq (hm _ _) fun _ => prog_seq (run_addP _ _) ?_
        rintro ⟨wc, _ | e⟩
        · refine prog_seq (prog_prim _) fun _ => prog_seq (hm _ _) fun _ =>
            prog_seq (run_powScalarP _ _) fun _ => prog_seq (hm _ _) fun _ => prog_seq (run_addP _ _) ?_
          rintro ⟨bc, _ | e⟩
          · exact prog_seq (prog_prim _) fun _ => prog_seq (hm _ _) fun _ => prog_seq (hm _ _) fun _ => prog_seq (run_adamStepP _ _ _ _ _) fun _ =>
              prog_seq (run_adamStepP _ _ _ _ _) fun _ => prog_seq (prog_prim _) fun _ => rfl
          · exact prog_seq (prog_prim _) fun _ => rfl
        · exact prog_seq (prog_prim _) fun _ => rfl
      · exact prog_seq (prog_prim _) fun _ => rfl
    · exact prog_seq (prog_prim _) fun _ => rfl
  · refine prog_seq (hm _ _) fun _ => prog_seq (hm _ _) fun _ => prog_seq (run_addP _ _) ?_
    rintro ⟨wm, _ | e⟩
    · refine prog_seq (prog_prim _) fun _ => prog_seq (hm _ _) fun _ => prog_seq (hm _ _) fun _ => prog_seq (run_addP _ _) ?_
      rintro ⟨bm, _ | e⟩
      · refine prog_seq (prog_prim _) fun _ => prog_seq (hm _ _) fun _ => prog_seq (hm _ _) fun _ => prog_seq (hm _ _) fun _ =>
          prog_seq (run_powScalarP _ _) fun _ => prog_seq (hm _ _) fun _ => prog_seq (run_addP _ _) ?_
        rintro ⟨wc, _ | e⟩
        · refine prog_seq (prog_prim _) fun _ => prog_seq (hm _ _) fun _ =>
            prog_seq (run_powScalarP _ _) fun _ => prog_seq (hm _ _) fun _ => prog_seq (run_addP _ _) ?_
          rintro ⟨bc, _ | e⟩
          · exact prog_seq (prog_prim _) fun _ => prog_seq (hm _ _) fun _ => prog_seq (hm _ _) fun _ => prog_seq (run_adamStepP _ _ _ _ _) fun _ =>
              prog_seq (run_adamStepP _ _ _ _ _) fun _ => prog_seq (prog_prim _) fun _ => rfl
          · exact prog_seq (prog_prim _) fun _ => rfl
        · exact prog_seq (prog_prim _) fun _ => rfl
      · exact prog_seq (prog_prim _) fun _ => rfl
    · exact prog_seq (prog_prim _) fun _ => rfl

theorem run_optUpdateP (op : Nat) (w b : Option Mat) (dw db : Mat) : (optUpdateP op w b dw db : Prog α (Option Err)).run = optUpdate op w b dw db := by
  unfold optUpdateP optUpdate
  refine prog_seq (prog_prim _) fun o => prog_seq (run_derefP _) fun _ => prog_seq (run_derefP _) fun _ => ?_
  cases o.kind
  · exact run_sgdUpdateP _ _ _ _ _
  · exact run_adamUpdateP _ _ _ _ _

/-! ### model.go -/

theorem relu_keepsLay (m : Mat) : KeepsLay (relu m : Go α Mat) := by
  unfold relu
  exact KeepsLay.bind (KeepsLay.forN _ fun i => KeepsLay.forN _ fun j => KeepsLay.bind (KeepsLay.at _ _ _) fun _ => KeepsLay.setAt _ _ _ _)
    fun _ => KeepsLay.pure _

theorem relu_same (m : Mat) (w : World α) : wlp (relu m) w (fun o _ => o = m) := by
  unfold relu
  exact wlp_bind (R := fun _ _ => True) (fun _ _ _ => trivial) fun _ _ _ => wlp_pure rfl

theorem run_dropoutForwardP (lp : Nat) (x : Mat) (w : World α) : (dropoutForwardP lp x : Prog α (Mat × Option Err)).run w = dropoutForward lp x w := by
  unfold dropoutForwardP
  rw [prog_bind, prog_prim]
  show (affineP (w.lay lp).params x >>= _).run w = (affine (w.lay lp).params x >>= _) w
  refine run_afterAffine w ?_
  rintro ⟨out, _ | e⟩ w' hw
  · show (Prog.prim (.setRelu lp out) >>= _).run w' = _
    rw [prog_bind, prog_prim]
    show (reluP out >>= _).run { w' with lay := upd w'.lay lp { w'.lay lp with reluInputs := out } } =
      (relu out >>= _) { w' with lay := upd w'.lay lp { w.lay lp with reluInputs := out } }
    rw [hw, prog_bind, run_reluP]
    generalize hw1 : ({ w' with lay := upd w.lay lp { w.lay lp with reluInputs := out } } : World α) = w1
    have h1 : w1.lay lp = { w.lay lp with reluInputs := out } := by
      rw [← hw1]; show upd w.lay lp _ lp = _; rw [upd, if_pos rfl]
    show Go.bind _ _ w1 = Go.bind _ _ w1
    unfold Go.bind
    have k1 := relu_keepsLay (α := α) out w1
    have k2 := relu_same (α := α) out w1
    cases e : (relu out : Go α Mat) w1 with
    | error p => rfl
    | ok q =>
      have h2 : q.2.lay = w1.lay := k1 _ _ e
      have h3 : q.1 = out := k2 _ _ e
      obtain ⟨o, w2⟩ := q
      obtain rfl : o = out := h3
      show (newMatrixP o.rows o.cols >>= _).run w2 = (newMatrix o.rows o.cols >>= _) w2
      rw [prog_bind, run_newMatrixP]
      show Go.bind _ _ w2 = Go.bind _ _ w2
      unfold Go.bind
      have k3 := newMatrix_keepsLay (α := α) o.rows o.cols w2
      cases e' : (newMatrix o.rows o.cols : Go α (Mat × Option Err)) w2 with
      | error p => rfl
      | ok q =>
        have h4 : q.2.lay = w2.lay := k3 _ _ e'
        obtain ⟨⟨mask, er⟩, w3⟩ := q
        have h5 : w3.lay lp = { w.lay lp with reluInputs := o } := by rw [h4, h2, h1]
        show (Prog.prim (.setMask lp mask) >>= _).run w3 = _
        rw [prog_bind, prog_prim]
        show ((Prog.forN _ _) >>= _ : Prog α (Mat × Option Err)).run { w3 with lay := upd w3.lay lp { w3.lay lp with binaryMask := mask } } =
          ((Go.forN _ _) >>= _ : Go α (Mat × Option Err)) { w3 with lay := upd w3.lay lp { w.lay lp with reluInputs := o, binaryMask := mask } }
        rw [h5]
        refine congrFun (prog_seq (prog_forN _ _ _ fun i => prog_forN _ _ _ fun j => ?_) fun _ => rfl) _
        exact prog_seq (run_binomialRandP _ _) fun _ => prog_seq (run_setAtP _ _ _ _) fun _ => prog_seq (run_atP _ _ _) fun _ =>
          prog_seq (run_atP _ _ _) fun _ => run_setAtP _ _ _ _
  · rfl

theorem run_forwardTrainP (lp : Nat) (x : Mat) : (forwardTrainP lp x : Prog α (Mat × Option Err)).run = forwardStep true lp x := by
  unfold forwardTrainP forwardStep
  rw [prog_bind, prog_prim]
  funext w
  show (if (w.lay lp).kind = .dropout then dropoutForwardP lp x else inferP lp x : Prog α _).run w =
    (if (w.lay lp).kind = .dropout ∧ true = false then dropoutForwardNo lp x else layerForward lp x) w
  have hn : ¬ ((w.lay lp).kind = .dropout ∧ true = false) := fun h => by cases h.2
  rw [if_neg hn]
  by_cases hk : (w.lay lp).kind = .dropout
  · rw [if_pos hk, run_dropoutForwardP]
    show _ = (match (w.lay lp).kind with
      | .hidden => hiddenForward lp x
      | .linear => linearForward lp x
      | .sigmoid => sigmoidForward lp x
      | .leaky => leakyForward lp x
      | .softmax => softmaxForward lp x
      | .dropout => dropoutForward lp x) w
    rw [hk]
  · rw [if_neg hk, run_inferP]
    show (if (w.lay lp).kind = .dropout ∧ false = false then dropoutForwardNo lp x else layerForward lp x) w = _
    rw [if_neg (fun h => hk h.1)]

theorem run_forwardTrainLoopP (m : Model α) (X : Mat) (n : Nat) : (forwardTrainLoopP m X n).run = forwardLoop m true X n := by
  induction n with
  | zero => rfl
  | succ n ih =>
    unfold forwardTrainLoopP forwardLoop
    apply prog_seq ih
    rintro ⟨outs, out, _ | e⟩
    · apply prog_seq (run_listGetP _ _)
      intro lp
      apply prog_seq (run_forwardTrainP _ _)
      rintro ⟨o, _ | e⟩ <;> rfl
    · rfl

theorem run_modelForwardTrainP (m : Model α) (X : Mat) : (modelForwardTrainP m X).run = modelForward m X true := by
  unfold modelForwardTrainP modelForward
  apply prog_seq (run_forwardTrainLoopP _ _ _)
  rintro ⟨outs, out, e⟩
  rfl

theorem run_fusedLastP (m : Model α) (i : Int) : (fusedLastP m i).run = fusedLast m i := by
  unfold fusedLastP fusedLast
  exact prog_seq (run_listGetP _ _) fun _ => run_layParams fun _ => rfl

theorem run_backwardLoopP (m : Model α) (outs : List Mat) (n : Nat) (gs : List Gradients) (d : Mat) :
    (backwardLoopP m outs n gs d).run = backwardLoop m outs n gs d := by
  induction n generalizing gs d with
  | zero => rfl
  | succ n ih =>
    unfold backwardLoopP backwardLoop
    refine prog_seq (run_fusedLastP _ _) fun f => prog_ite2 (ih _ _) ?_
    refine prog_seq (run_listGetP _ _) fun _ => prog_seq (run_listGetP _ _) fun _ => prog_seq (run_layerBackwardP _ _ _) ?_
    rintro ⟨a, b, c, _ | e⟩
    · exact ih _ _
    · rfl

theorem run_modelBackwardP (m : Model α) (outs : List Mat) (Y : Mat) : (modelBackwardP m outs Y).run = modelBackward m outs Y := by
  unfold modelBackwardP modelBackward
  refine prog_seq (run_fusedLastP _ _) fun f => prog_ite2 ?_ ?_
  · refine prog_seq (run_listGetP _ _) fun _ => prog_seq (run_listGetP _ _) fun _ => prog_seq (run_listGetP _ _) fun _ =>
      prog_seq (run_softmaxBackwardCEP _ _ _ _) ?_
    rintro ⟨a, b, c, _ | e⟩
    · exact run_backwardLoopP _ _ _ _ _
    · rfl
  · refine prog_seq (run_listGetP _ _) fun _ => prog_seq (run_derefP _) fun _ => prog_seq (run_lossBackwardP _ _ _) ?_
    rintro ⟨a, _ | e⟩
    · exact run_backwardLoopP _ _ _ _ _
    · rfl

theorem run_updateLayersP (m : Model α) (gs : List Gradients) : (updateLayersP m gs).run = updateLayers m gs := by
  unfold updateLayersP updateLayers
  refine prog_forRet _ _ _ fun i => prog_seq (run_listGetP _ _) fun _ => run_layParams fun l => prog_seq (run_listGetP _ _) fun _ =>
    prog_seq (run_listGetP _ _) fun _ => prog_seq (run_optUpdateP _ _ _ _ _) ?_
  rintro (_ | e)
  · rfl
  · exact prog_seq (prog_prim _) fun _ => rfl

theorem run_fitBatchP (m : Model α) (X Y : Mat) (b : Int) (s : Nat) : (fitBatchP m X Y b s).run = fitBatch m X Y b s := by
  unfold fitBatchP fitBatch
  refine prog_seq (run_resliceP _ _ _) fun _ => prog_seq (run_newMatrixFromSliceP _) fun _ => prog_seq (run_resliceP _ _ _) fun _ =>
    prog_seq (run_newMatrixFromSliceP _) fun _ => prog_seq (run_modelForwardTrainP _ _) ?_
  rintro ⟨outs, _ | e⟩
  · refine prog_seq (run_modelBackwardP _ _ _) ?_
    rintro ⟨gs, _ | e⟩
    · exact run_updateLayersP _ _
    · exact prog_seq (prog_prim _) fun _ => rfl
  · exact prog_seq (prog_prim _) fun _ => rfl

theorem run_fitLogP (m : Model α) (X Y : Mat) (sl sa : LogStage) (mk : α → α → LogEvent α) : (fitLogP m X Y sl sa mk).run = fitLog m X Y sl sa mk := by
  unfold fitLogP fitLog
  refine prog_seq (run_calculateLossP _ _ _) ?_
  rintro ⟨l, _ | e⟩
  · refine prog_seq (run_calculateAccuracyP _ _ _) ?_
    rintro ⟨a, _ | e⟩ <;> exact prog_seq (prog_prim _) fun _ => rfl
  · exact prog_seq (prog_prim _) fun _ => rfl

theorem run_fitEpochP (m : Model α) (X Y : Mat) (s b : Int) (xv yv : Mat) (le : Int) (ep : Nat) :
    (fitEpochP m X Y s b xv yv le ep).run = fitEpoch m X Y s b xv yv le ep := by
  unfold fitEpochP fitEpoch
  refine prog_seq (prog_forRet _ _ _ fun _ => run_fitBatchP _ _ _ _ _) ?_
  rintro (_ | e)
  · have tail : (if yv.rows ≠ 0 ∧ le ≠ 0 ∧ Int.tmod ep le = 0 then do
          let err ← fitLogP m xv yv .valLoss .valAccuracy (fun l a => .valInfo ep l a)
          if let some e := err then
            return some e
          return none
        else return none : Prog α (Option Err)).run = (if yv.rows ≠ 0 ∧ le ≠ 0 ∧ Int.tmod ep le = 0 then do
          let err ← fitLog m xv yv .valLoss .valAccuracy (fun l a => .valInfo ep l a)
          if let some e := err then
            return some e
          return none
        else return none : Go α (Option Err)) := by
      refine prog_ite2 (prog_seq (run_fitLogP _ _ _ _ _ _) ?_) rfl
      rintro (_ | e) <;> rfl
    refine prog_ite2 (prog_seq (run_fitLogP _ _ _ _ _ _) ?_) tail
    rintro (_ | e)
    · exact tail
    · rfl
  · rfl

/-- `Fit` as a program of single accesses, run alone, is `Fit`. -/
theorem run_fitP (m : Model α) (X Y : Mat) (ep b : Int) (xv yv : Mat) (le : Int) : (fitP m X Y ep b xv yv le).run = fit m X Y ep b xv yv le := by
  unfold fitP fit
  exact prog_forRet _ _ _ fun _ => run_fitEpochP _ _ _ _ _ _ _ _ _

end NN
