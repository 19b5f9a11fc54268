import Verif.Lemmas.ConcSafe
import Verif.Lemmas.ConcFit
/-
Which memory `Fit` reads and writes: it reads the data, the parameters, the layers and the optimizers of its model, and writes the parameters, the
layers and the optimizers of its model, what it has allocated itself, and the log.
-/

set_option linter.unusedSectionVars false

namespace NN
variable {α : Type} [Flt α] {R : Region}
open Prog

/-- The result is a matrix whose rows may be written. -/
def MadeOwn (R : Region) (V : World α) (m : Mat) (V' : World α) : Prop := Ext R V V' ∧ MOk R V' m ∧ Own R V' m

theorem MadeOwn.trans {V V' V'' : World α} {m : Mat} (e : Ext R V V') (h : MadeOwn R V' m V'') : MadeOwn R V m V'' := ⟨e.trans h.1, h.2⟩

theorem MadeOwn.ext {V V' V'' : World α} {m : Mat} (h : MadeOwn R V m V') (e : Ext R V' V'') : MadeOwn R V m V'' :=
  ⟨h.1.trans e, h.2.1.ext e, h.2.2.ext h.2.1 e⟩

theorem MadeOwn.zero (V : World α) : MadeOwn R V Mat.zero V := ⟨Ext.refl V, MOk.zero V, Own.zero V⟩

theorem grd_rowLen {V : World α} {r : Nat} (h : Valid R V r) : (prim (.rowLen r) : Prog α Int).grd R V (fun _ V' => V' = V) :=
  grd_prim fun n V' e => by cases e; exact ⟨h, rfl⟩

theorem grd_rowGet {V : World α} {r : Nat} {j : Int} (h : Valid R V r) : (prim (.rowGet r j) : Prog α α).grd R V (fun _ V' => V' = V) := by
  refine grd_prim fun v V'' e => ⟨h, ?_⟩
  change NN.rowGet r j V = _ at e
  unfold NN.rowGet at e
  split at e
  · split at e <;> cases e; rfl
  · cases e

theorem grd_newMatrixFromSlice {V : World α} {s : Slice} (h : ∀ a b, MOk R V ⟨a, b, s⟩) :
    (newMatrixFromSliceP s : Prog α (Mat × Option Err)).grd R V (fun p V' => V' = V ∧ MOk R V p.1 ∧ (p.1 = Mat.zero ∨ ∃ a b, p.1 = ⟨a, b, s⟩)) := by
  unfold newMatrixFromSliceP
  dsimp only
  split
  · exact ⟨rfl, MOk.zero V, .inl rfl⟩
  · refine grd_bind (P := fun r V' => V' = V ∧ Valid R V r) (grd_rowRef (h 0 0) fun r k hk hr => ⟨rfl, (h 0 0).row k hk r hr⟩) ?_
    rintro r V' ⟨rfl, hr⟩
    refine grd_bind (grd_rowLen hr) fun n V'' e => ?_
    rw [e]
    split
    · exact ⟨rfl, MOk.zero _, .inl rfl⟩
    · exact ⟨rfl, h _ _, .inr ⟨_, _, rfl⟩⟩

theorem grd_getRow {V : World α} {m : Mat} {i : Int} (h : MOk R V m) :
    (m.getRowP i : Prog α (Option Nat × Option Err)).grd R V (fun p V' => V' = V ∧ ∀ r, p.1 = some r → Valid R V r) := by
  unfold Mat.getRowP
  split
  · exact ⟨rfl, (fun r h => by cases h)⟩
  · refine grd_bind (P := fun r V' => V' = V ∧ Valid R V r) (grd_rowRef h fun r k hk hr => ⟨rfl, h.row k hk r hr⟩) ?_
    rintro r V' ⟨rfl, hr⟩
    exact ⟨rfl, (fun r' h => by cases h; exact hr)⟩

theorem grd_setColumnOpt {V : World α} {m : Mat} {i : Int} {v : Option Nat} (h : MOk R V m) (ho : Own R V m) (hv : ∀ r, v = some r → Valid R V r) :
    (m.setColumnOptP i v : Prog α (Option Err)).grd R V (fun _ V' => Ext R V V') := by
  cases v with
  | none => exact Ext.refl V
  | some r =>
    have hr := hv r rfl
    show (m.setColumnP i r : Prog α (Option Err)).grd R V _
    unfold Mat.setColumnP
    split
    · exact Ext.refl V
    · refine grd_bind (grd_rowLen hr) fun n V' e => ?_
      rw [e]
      split
      · exact Ext.refl V
      · refine grd_bind (P := fun _ V' => Ext R V V') (grd_forN fun k V1 _ e1 => ?_) fun _ _ e => e
        exact grd_bind (grd_rowGet (hr.mono e1.next)) fun x V2 e2 => by rw [e2]; exact grd_setAt (h.ext e1) (ho.ext h e1)

theorem grd_t {V : World α} (hb : R.b ≤ V.next) {m : Mat} (hm : MOk R V m) :
    (m.tP : Prog α Mat).grd R V (fun p V' => MadeOwn R V p V') := by
  unfold Mat.tP
  refine grd_bind (grd_newMatrix hb _ _) ?_
  rintro ⟨ans, er⟩ V0 (h0 : MadeOwn R V ans V0)
  refine grd_bind (P := fun _ V2 => Ext R V0 V2) (grd_forN fun i V1 _ e1 => ?_) fun _ V2 e => h0.ext e
  have h1 := h0.ext e1
  refine grd_bind (grd_getRow (hm.ext h1.1)) ?_
  rintro ⟨c, er⟩ V2 ⟨rfl, hc⟩
  exact grd_bind (grd_setColumnOpt h1.2.1 h1.2.2 hc) fun _ _ e => e

theorem grd_sum0 {V : World α} (hb : R.b ≤ V.next) {m : Mat} (hm : MOk R V m) :
    (m.sum0P : Prog α Mat).grd R V (fun p V' => MadeOwn R V p V') := by
  unfold Mat.sum0P
  refine grd_bind (grd_newMatrix hb _ _) ?_
  rintro ⟨ans, er⟩ V0 (h0 : MadeOwn R V ans V0)
  refine grd_bind (P := fun _ V2 => Ext R V0 V2) (grd_forN fun i V1 _ e1 => ?_) fun _ V2 e => h0.ext e
  have h1 := h0.ext e1
  refine grd_bind (P := fun _ V3 => Ext R V1 V3) (grd_foldN fun n s V3 _ e3 => ?_) ?_
  · exact grd_at_bind (hm.ext (h1.1.trans e3)) fun _ => grd_pure (Ext.refl _)
  · exact fun s V3 e3 => grd_mono (grd_setAt (h1.ext e3).2.1 (h1.ext e3).2.2) fun _ _ h => e3.trans h

theorem grd_mulScalar {V : World α} (hb : R.b ≤ V.next) {m : Mat} {x : α} (hm : MOk R V m) :
    (m.mulScalarP x).grd R V (fun p V' => MadeOwn R V p V') := by
  unfold Mat.mulScalarP
  refine grd_bind (grd_newMatrix hb _ _) ?_
  rintro ⟨ans, er⟩ V0 (h0 : MadeOwn R V ans V0)
  refine grd_bind (P := fun _ V2 => Ext R V0 V2) (grd_forN fun i V1 _ e1 => ?_) fun _ V2 e => h0.ext e
  have h1 := h0.ext e1
  exact grd_forN fun j V2 _ e2 => grd_at_bind (hm.ext (h1.1.trans e2)) fun _ => grd_setAt (h1.ext e2).2.1 (h1.ext e2).2.2

theorem grd_powScalar {V : World α} (hb : R.b ≤ V.next) {m : Mat} {x : α} (hm : MOk R V m) :
    (m.powScalarP x).grd R V (fun p V' => MadeOwn R V p V') := by
  unfold Mat.powScalarP
  refine grd_bind (grd_newMatrix hb _ _) ?_
  rintro ⟨ans, er⟩ V0 (h0 : MadeOwn R V ans V0)
  refine grd_bind (P := fun _ V2 => Ext R V0 V2) (grd_forN fun i V1 _ e1 => ?_) fun _ V2 e => h0.ext e
  have h1 := h0.ext e1
  exact grd_forN fun j V2 _ e2 => grd_at_bind (hm.ext (h1.1.trans e2)) fun _ => grd_setAt (h1.ext e2).2.1 (h1.ext e2).2.2

theorem grd_add {V : World α} (hb : R.b ≤ V.next) {m n : Mat} (hm : MOk R V m) (hn : MOk R V n) :
    (m.addP n : Prog α (Mat × Option Err)).grd R V (fun p V' => MadeOwn R V p.1 V') := by
  unfold Mat.addP
  split
  · exact MadeOwn.zero V
  · refine grd_bind (grd_newMatrix hb _ _) ?_
    rintro ⟨ans, er⟩ V1 (h1 : MadeOwn R V ans V1)
    refine grd_bind (P := fun _ V2 => Ext R V1 V2) (grd_forN fun i V2 _ e2 => grd_forN fun j V3 _ e3 => ?_) fun _ V2 e => h1.ext e
    have e := e2.trans e3
    exact grd_at_bind (hm.ext (h1.1.trans e)) fun _ => grd_at_bind (hn.ext (h1.1.trans e)) fun _ => grd_setAt (h1.ext e).2.1 (h1.ext e).2.2

/-! ### activation.go, loss.go -/

theorem grd_reluPrime {V : World α} {m x : Mat} (hm : MOk R V m) (ho : Own R V m) (hx : MOk R V x) :
    (reluPrimeP m x : Prog α Mat).grd R V (fun p V' => Ext R V V' ∧ p = m) := by
  unfold reluPrimeP
  refine grd_bind (P := fun _ V2 => Ext R V V2) (grd_forN fun i V2 _ e2 => grd_forN fun j V3 _ e3 => ?_) fun _ V2 e => ⟨e, rfl⟩
  have e := e2.trans e3
  refine grd_at_bind (hx.ext e) fun x => ?_
  split
  · exact grd_setAt (hm.ext e) (ho.ext hm e)
  · exact Ext.refl _

theorem grd_leakyReluPrime {V : World α} {m x : Mat} {s : α} (hm : MOk R V m) (ho : Own R V m) (hx : MOk R V x) :
    (leakyReluPrimeP m x s).grd R V (fun p V' => Ext R V V' ∧ p = m) := by
  unfold leakyReluPrimeP
  refine grd_bind (P := fun _ V2 => Ext R V V2) (grd_forN fun i V2 _ e2 => grd_forN fun j V3 _ e3 => ?_) fun _ V2 e => ⟨e, rfl⟩
  have e := e2.trans e3
  refine grd_at_bind (hx.ext e) fun x => ?_
  split
  · exact grd_at_bind (hm.ext e) fun _ => grd_setAt (hm.ext e) (ho.ext hm e)
  · exact Ext.refl _

theorem grd_sigmoidPrime {V : World α} {m d : Mat} (hm : MOk R V m) (ho : Own R V m) (hd : MOk R V d) :
    (sigmoidPrimeP m d : Prog α Mat).grd R V (fun p V' => Ext R V V' ∧ p = m) := by
  unfold sigmoidPrimeP
  refine grd_bind (grd_sigmoid hm ho) ?_
  rintro m' V1 ⟨e1, rfl⟩
  refine grd_bind (P := fun _ V2 => Ext R V1 V2) (grd_forN fun i V2 _ e2 => grd_forN fun j V3 _ e3 => ?_) fun _ V2 e => ⟨e1.trans e, rfl⟩
  have e := e1.trans (e2.trans e3)
  exact grd_at_bind (hd.ext e) fun _ => grd_at_bind (hm.ext e) fun _ => grd_at_bind (hm.ext e) fun _ => grd_setAt (hm.ext e) (ho.ext hm e)

theorem grd_lossBackward {V : World α} (hb : R.b ≤ V.next) {l : Loss} {x y : Mat} (hx : MOk R V x) (ho : Own R V x) (hy : MOk R V y) :
    (l.backwardP x y : Prog α (Mat × Option Err)).grd R V (fun p V' => MadeOwn R V p.1 V') := by
  unfold Loss.backwardP
  cases l.kind
  · show Prog.grd R (mseBackwardP _ _ _) _ _
    unfold mseBackwardP
    cases lossCheck l.size x y with
    | some e => exact MadeOwn.zero V
    | none =>
      refine grd_bind (grd_sub hb hx hy) ?_
      rintro ⟨s, _ | e⟩ V1 (h1 : MadeOwn R V s V1)
      · exact grd_bind (grd_mulScalar (hb.trans h1.1.next) h1.2.1) fun _ _ h => MadeOwn.trans h1.1 h
      · exact ⟨h1.1, MOk.zero _, Own.zero _⟩
  · show Prog.grd R (maeBackwardP _ _ _) _ _
    unfold maeBackwardP
    cases lossCheck l.size x y with
    | some e => exact MadeOwn.zero V
    | none =>
      refine grd_bind (grd_sub hb hx hy) ?_
      rintro ⟨s, _ | e⟩ V1 (h1 : MadeOwn R V s V1)
      · refine grd_bind (P := fun _ V2 => Ext R V1 V2) (grd_forN fun i V2 _ e2 => grd_forN fun j V3 _ e3 => ?_) fun _ V2 e => h1.ext e
        have h := h1.ext (e2.trans e3)
        refine grd_at_bind h.2.1 fun v => ?_
        split
        · exact grd_setAt h.2.1 h.2.2
        · refine grd_at_bind h.2.1 fun v => ?_
          split <;> exact grd_setAt h.2.1 h.2.2
      · exact ⟨h1.1, MOk.zero _, Own.zero _⟩
  · show Prog.grd R (ceBackwardP _ _ _) _ _
    unfold ceBackwardP
    cases lossCheck l.size x y with
    | some e => exact MadeOwn.zero V
    | none =>
      refine grd_bind (grd_newMatrix hb _ _) ?_
      rintro ⟨s, er⟩ V1 (h1 : MadeOwn R V s V1)
      refine grd_bind (P := fun _ V2 => Ext R V1 V2) (grd_forN fun i V2 _ e2 => grd_forN fun j V3 _ e3 => ?_) fun _ V2 e => h1.ext e
      have h := h1.ext (e2.trans e3)
      exact grd_at_bind (hy.ext h.1) fun _ => grd_at_bind (hx.ext h.1) fun _ => grd_setAt h.2.1 h.2.2
  · show Prog.grd R (bceBackwardP _ _ _) _ _
    unfold bceBackwardP
    cases lossCheck l.size x y with
    | some e => exact MadeOwn.zero V
    | none =>
      refine grd_bind (grd_clip hx ho) ?_
      rintro c V0 ⟨e0, rfl⟩
      refine grd_bind (grd_newMatrix (hb.trans e0.next) _ _) ?_
      rintro ⟨s, er⟩ V1 (h1 : MadeOwn R V0 s V1)
      refine grd_bind (P := fun _ V2 => Ext R V1 V2) (grd_forN fun i V2 _ e2 => grd_forN fun j V3 _ e3 => ?_)
        fun _ V2 e => MadeOwn.trans e0 (h1.ext e)
      have h := h1.ext (e2.trans e3)
      exact grd_at_bind (hy.ext (e0.trans h.1)) fun _ => grd_at_bind (hx.ext (e0.trans h.1)) fun _ => grd_setAt h.2.1 h.2.2

/-! ### network.go -/

/-- The gradients are new matrices. -/
def GMadeOwn (R : Region) (V : World α) (g : Grads) (V' : World α) : Prop :=
  Ext R V V' ∧ MOk R V' g.dWeights ∧ MOk R V' g.dBiases ∧ MOk R V' g.dInputs ∧ Own R V' g.dInputs

theorem GMadeOwn.fail {V V' : World α} {e : Err} (h : Ext R V V') : GMadeOwn R V (Grads.fail e) V' :=
  ⟨h, MOk.zero _, MOk.zero _, MOk.zero _, Own.zero _⟩

theorem GMadeOwn.trans {V V' V'' : World α} {g : Grads} (e : Ext R V V') (h : GMadeOwn R V' g V'') : GMadeOwn R V g V'' := ⟨e.trans h.1, h.2⟩

theorem grd_gradTail {V : World α} (hb : R.b ≤ V.next) {l : Layer α} {x d : Mat} (hl : LOk R V l) (hx : MOk R V x) (hd : MOk R V d) :
    (gradTailP l x d).grd R V (fun g V' => GMadeOwn R V g V') := by
  unfold gradTailP
  refine grd_bind (grd_t hb hx) fun it V1 h1 => grd_bind grd_deref ?_
  rintro wm V1' ⟨hV, hwm⟩
  rw [hV]
  refine grd_bind (grd_t (hb.trans h1.1.next) ((hl.1 wm hwm).ext h1.1)) fun wt V2 h2 => ?_
  have e2 := h1.1.trans h2.1
  refine grd_bind (grd_dot (hb.trans e2.next) (h1.2.1.ext h2.1) (hd.ext e2)) ?_
  rintro ⟨dw, _ | er⟩ V3 (h3 : MadeOwn R V2 dw V3)
  · have e3 := e2.trans h3.1
    refine grd_bind (grd_sum0 (hb.trans e3.next) (hd.ext e3)) fun db V4 h4 => ?_
    have e4 := e3.trans h4.1
    refine grd_bind (grd_dot (hb.trans e4.next) (hd.ext e4) (h2.2.1.ext (h3.1.trans h4.1))) ?_
    rintro ⟨di, er⟩ V5 (h5 : MadeOwn R V4 di V5)
    exact ⟨e4.trans h5.1, h3.2.1.ext (h4.1.trans h5.1), h4.2.1.ext h5.1, h5.2.1, h5.2.2⟩
  · exact GMadeOwn.fail (e2.trans h3.1)

/-- A row table with one row. -/
theorem grd_sliceOfRow {V : World α} (hb : R.b ≤ V.next) {r : Nat} (hr : Valid R V r) :
    (sliceOfRowP r : Prog α Slice).grd R V (fun s V' => Ext R V V' ∧ ∀ a b, MOk R V' ⟨a, b, s⟩) := by
  unfold sliceOfRowP
  refine grd_bind (P := fun s V1 => s = ⟨V.next, 0, 1, 1⟩ ∧ V1 = { V with next := V.next + 1, outs := upd V.outs V.next (List.replicate 1 0) })
    (grd_prim fun s V1 e => by cases e; exact ⟨trivial, rfl, rfl⟩) ?_
  rintro s V1 ⟨rfl, rfl⟩
  refine grd_bind (P := fun _ V2 => Ext R V V2 ∧ ∀ a b, MOk R V2 ⟨a, b, ⟨V.next, 0, 1, 1⟩⟩) (grd_prim fun u V2 e => ?_) fun _ V2 h => h
  change NN.setRowRef _ _ _ _ = _ at e
  unfold NN.setRowRef at e
  split at e
  · cases e
    refine ⟨⟨hb, Nat.lt_succ_self _⟩, Ext.plain (Nat.le_succ _) (fun a ha => ?_) rfl rfl, fun a b => ⟨fun _ => Nat.lt_succ_self _,
      fun _ => .inr ⟨hb, Nat.lt_succ_self _⟩, fun i hi q hq => ?_⟩⟩
    · show upd (upd V.outs V.next _) V.next _ a = _
      have : a ≠ V.next := by omega
      simp only [upd, if_neg this]
    · obtain rfl : i = 0 := by change i < 1 at hi; omega
      change (upd (upd V.outs V.next _) V.next _ V.next)[0]? = some q at hq
      simp only [upd, if_true] at hq
      change some r = some q at hq
      cases hq
      exact hr.mono (Nat.le_succ _)
  · cases e

/-- Putting a valid row into a row table keeps matrices valid. -/
theorem MOk.setRow {V : World α} {m : Mat} (h : MOk R V m) {a k r : Nat} (hr : Valid R V r) :
    MOk R { V with outs := upd V.outs a ((V.outs a).set k r) } m := by
  refine ⟨h.lt, h.addr, fun i hi q hq => ?_⟩
  change (upd V.outs a ((V.outs a).set k r) m.m.addr)[m.m.off + i]? = some q at hq
  show Valid R V q
  unfold upd at hq
  split at hq
  · rename_i ha
    rw [List.getElem?_set] at hq
    split at hq
    · split at hq
      · cases hq; exact hr
      · cases hq
    · rw [← ha] at hq; exact h.row i hi q hq
  · exact h.row i hi q hq

theorem Own.setRow {V : World α} {m : Mat} (h : Own R V m) {a k r : Nat} (hr : Mine R V r) :
    Own R { V with outs := upd V.outs a ((V.outs a).set k r) } m := by
  intro i hi q hq
  change (upd V.outs a ((V.outs a).set k r) m.m.addr)[m.m.off + i]? = some q at hq
  show Mine R V q
  unfold upd at hq
  split at hq
  · rename_i ha
    rw [List.getElem?_set] at hq
    split at hq
    · split at hq
      · cases hq; exact hr
      · cases hq
    · rw [← ha] at hq; exact h i hi q hq
  · exact h i hi q hq

/-- Putting a row into a row table that is newer than V. -/
theorem Ext.setRow {V V1 : World α} (e : Ext R V V1) {a k r : Nat} (ha : V.next ≤ a) (hr : Valid R V1 r) :
    Ext R V { V1 with outs := upd V1.outs a ((V1.outs a).set k r) } := by
  refine ⟨e.next, fun b hb => ?_, e.lay, fun lp h => (e.relu lp h).setRow hr, fun lp h => (e.outputs lp h).setRow hr, fun op h => ?_⟩
  · show upd V1.outs a _ b = _
    rw [upd, if_neg (by omega)]
    exact e.outs b hb
  · have := e.opt op h
    exact ⟨this.wm.setRow hr, this.bm.setRow hr, this.wc.setRow hr, this.bc.setRow hr⟩

theorem grd_softmaxBackRow {V V1 : World α} (hb : R.b ≤ V.next) (e : Ext R V V1) {l : Layer α} {dp d : Mat} {i : Nat} (hl : MOk R V l.outputs)
    (hdp : MOk R V dp) (hd : MadeOwn R V d V1) (hnew : d.m.len ≠ 0 → V.next ≤ d.m.addr) :
    (softmaxBackRowP l dp d i).grd R V1 (fun _ V2 => MadeOwn R V d V2) := by
  have hb1 := hb.trans e.next
  unfold softmaxBackRowP
  refine grd_bind (grd_newMatrix hb1 _ _) ?_
  rintro ⟨diag, er⟩ W1 (h1 : MadeOwn R V1 diag W1)
  refine grd_bind (P := fun _ W2 => Ext R W1 W2) (grd_forN fun j W2 _ e2 => ?_) fun _ W2 e2 => ?_
  · exact grd_at_bind (hl.ext (e.trans (h1.1.trans e2))) fun _ => grd_setAt (h1.ext e2).2.1 (h1.ext e2).2.2
  have h1 := h1.ext e2
  clear e2
  have E2 := e.trans h1.1
  refine grd_bind (P := fun r W => W = W2 ∧ Valid R W2 r) (grd_rowRef (hl.ext E2) fun r k hk hr => ⟨rfl, (hl.ext E2).row k hk r hr⟩) ?_
  rintro r W2' ⟨hV, hr⟩
  rw [hV]; clear hV W2'
  refine grd_bind (grd_sliceOfRow (hb.trans E2.next) hr) ?_
  rintro s W3 ⟨e3, hs⟩
  refine grd_bind (grd_newMatrixFromSlice hs) ?_
  rintro ⟨orow, er⟩ W3' ⟨hV, horow, -⟩
  rw [hV]; clear hV W3'
  have E3 := E2.trans e3
  refine grd_bind (grd_t (hb.trans E3.next) horow) fun orow W4 h4 => ?_
  have E4 := E3.trans h4.1
  refine grd_bind (grd_t (hb.trans E4.next) h4.2.1) fun orowT W5 h5 => ?_
  have E5 := E4.trans h5.1
  refine grd_bind (grd_dot (hb.trans E5.next) (h4.2.1.ext h5.1) h5.2.1) ?_
  rintro ⟨odot, _ | er⟩ W6 (h6 : MadeOwn R W5 odot W6)
  · have E6 := E5.trans h6.1
    have F6 : Ext R W2 W6 := e3.trans (h4.1.trans (h5.1.trans h6.1))
    refine grd_bind (grd_sub (hb.trans E6.next) (h1.2.1.ext F6) h6.2.1) ?_
    rintro ⟨jac, _ | er⟩ W7 (h7 : MadeOwn R W6 jac W7)
    · have E7 := E6.trans h7.1
      refine grd_bind (P := fun r W => W = W7 ∧ Valid R W7 r) (grd_rowRef (hdp.ext E7) fun r k hk hr => ⟨rfl, (hdp.ext E7).row k hk r hr⟩) ?_
      rintro r W7' ⟨hV, hr⟩
      rw [hV]; clear hV W7'
      refine grd_bind (grd_sliceOfRow (hb.trans E7.next) hr) ?_
      rintro s W8 ⟨e8, hs⟩
      refine grd_bind (grd_newMatrixFromSlice hs) ?_
      rintro ⟨drow, er⟩ W8' ⟨hV, hdrow, -⟩
      rw [hV]; clear hV W8'
      have E8 := E7.trans e8
      refine grd_bind (grd_t (hb.trans E8.next) hdrow) fun dT W9 h9 => ?_
      have E9 := E8.trans h9.1
      refine grd_bind (grd_dot (hb.trans E9.next) (h7.2.1.ext (e8.trans h9.1)) h9.2.1) ?_
      rintro ⟨row, _ | er⟩ WA (hA : MadeOwn R W9 row WA)
      · have EA := E9.trans hA.1
        refine grd_bind (grd_t (hb.trans EA.next) hA.2.1) fun rowT WB hB => ?_
        have EB := EA.trans hB.1
        refine grd_bind (P := fun r W => W = WB ∧ Mine R WB r) (grd_rowRef hB.2.1 fun r k hk hr => ⟨rfl, hB.2.2 k hk r hr⟩) ?_
        rintro r WB' ⟨hV, hr⟩
        rw [hV]; clear hV WB'
        have G : Ext R V1 WB := h1.1.trans (F6.trans (h7.1.trans (e8.trans (h9.1.trans (hA.1.trans hB.1)))))
        have hdB := hd.ext G
        refine grd_bind (P := fun _ W => MadeOwn R V d W) ?_ fun _ _ h => h
        unfold Mat.setRowP
        split
        · exact hdB
        · refine grd_bind (grd_rowLen hr.valid) fun n W e => ?_
          rw [e]
          split
          · exact hdB
          · refine grd_bind (P := fun _ W => MadeOwn R V d W) (grd_prim fun u W e => ?_) fun _ _ h => h
            change NN.setRowRef _ _ _ _ = _ at e
            unfold NN.setRowRef at e
            split at e
            · rename_i hlt
              cases e
              have hlen : d.m.len ≠ 0 := by omega
              refine ⟨⟨hb.trans (hnew hlen), hdB.2.1.lt hlen⟩, hdB.1.setRow (hnew hlen) hr.valid, hdB.2.1.setRow hr.valid, hdB.2.2.setRow hr⟩
            · cases e
      · exact hd.ext (h1.1.trans (F6.trans (h7.1.trans (e8.trans (h9.1.trans hA.1)))))
    · exact hd.ext (h1.1.trans (F6.trans h7.1))
  · exact hd.ext (h1.1.trans (e3.trans (h4.1.trans (h5.1.trans h6.1))))

/-- The layer may be used for training: its parameters are valid and may be written, what it remembers may be read and written. -/
structure LayerOk (R : Region) (V : World α) (lp : Nat) : Prop where
  rem : R.rem lp
  lay : R.lay lp
  ok : LOk R V (V.lay lp)
  own : (∀ m, (V.lay lp).weights = some m → Own R V m) ∧ ∀ m, (V.lay lp).biases = some m → Own R V m
  kind : (V.lay lp).kind ≠ .dropout

theorem LayerOk.ext {V V' : World α} {lp : Nat} (h : LayerOk R V lp) (e : Ext R V V') : LayerOk R V' lp := by
  have e1 : (V'.lay lp).weights = (V.lay lp).weights := by
    show (V'.lay lp).params.weights = (V.lay lp).params.weights
    rw [e.lay lp]
  have e2 : (V'.lay lp).biases = (V.lay lp).biases := by
    show (V'.lay lp).params.biases = (V.lay lp).params.biases
    rw [e.lay lp]
  refine ⟨h.rem, h.lay, h.ok.step e, ?_, by rw [e.kind]; exact h.kind⟩
  rw [e1, e2]
  exact ⟨fun m hm => (h.own.1 m hm).ext (h.ok.1 m hm) e, fun m hm => (h.own.2 m hm).ext (h.ok.2 m hm) e⟩

theorem grd_layGet {V : World α} {lp : Nat} (h : R.lay lp) :
    (prim (.layGet lp) : Prog α (Layer α)).grd R V (fun l V' => V' = V ∧ l = V.lay lp) :=
  grd_prim fun l V' e => by cases e; exact ⟨h, rfl, rfl⟩

theorem grd_layParams {V : World α} {lp : Nat} :
    (prim (.layParams lp) : Prog α (Layer α)).grd R V (fun l V' => V' = V ∧ l = (V.lay lp).params) :=
  grd_prim fun l V' e => by cases e; exact ⟨trivial, rfl, rfl⟩

theorem grd_forRet {n : Nat} {body : Nat → Prog α (Option Err)} {V : World α} {I : World α → Prop} (h0 : I V)
    (h : ∀ i V', i < n → I V' → (body i).grd R V' (fun _ V'' => I V'')) :
    (Prog.forRet n body).grd R V (fun _ V' => I V') := by
  induction n with
  | zero => exact h0
  | succ n ih =>
    unfold Prog.forRet
    refine grd_bind (ih fun i V' hi => h i V' (by omega)) fun r V' e => ?_
    cases r with
    | none => exact h n V' (by omega) e
    | some er => exact e

theorem grd_ite_jp {β : Type} {c : Prop} [Decidable c] {t u : Prog α β} {V : World α} {Q : β → World α → Prop} (h1 : t.grd R V Q) (h2 : u.grd R V Q) :
    (if c then t else u).grd R V Q := by
  split <;> assumption

/-- A new matrix, with its address. -/
theorem grd_newMatrix_addr {V : World α} (hb : R.b ≤ V.next) (r c : Int) :
    (newMatrixP r c : Prog α (Mat × Option Err)).grd R V (fun p V' => MadeOwn R V p.1 V' ∧ (p.1.m.len ≠ 0 → V.next ≤ p.1.m.addr)) := by
  have key : ∀ p V', (newMatrixP r c : Prog α (Mat × Option Err)).run V = .ok (p, V') → (p.1.m.len ≠ 0 → V.next ≤ p.1.m.addr) := by
    intro p V' e
    rw [run_newMatrixP] at e
    have : wlp (newMatrix r c : Go α (Mat × Option Err)) V (fun p _ => p.1.m.len ≠ 0 → V.next ≤ p.1.m.addr) := by
      unfold newMatrix
      split
      · exact wlp_pure fun h => absurd rfl h
      · refine wlp_bind (R := fun s _ => s.addr = V.next) (fun s w e => by cases e; rfl) fun s w hs => ?_
        refine wlp_bind (R := fun _ _ => True) (fun _ _ _ => trivial) fun _ _ _ => wlp_pure fun _ => ?_
        exact hs.ge
    exact this p V' e
  have both : ∀ {β : Type} (t : Prog α β) (V : World α) (P Q : β → World α → Prop), t.grd R V P → (∀ x V', t.run V = .ok (x, V') → Q x V') →
      t.grd R V (fun x V' => P x V' ∧ Q x V') := by
    intro β t
    induction t with
    | ret x => exact fun V P Q h hq => ⟨h, hq x V rfl⟩
    | op p k ih =>
      intro V P Q h hq c V' e
      refine ⟨(h c V' e).1, ih c V' P Q (h c V' e).2 fun x V'' e' => hq x V'' ?_⟩
      rw [prog_op]
      show Go.bind _ _ V = _
      unfold Go.bind
      rw [e]
      exact e'
  exact both _ V _ _ (grd_newMatrix hb r c) key

theorem grd_layerBackward {V : World α} (hb : R.b ≤ V.next) {lp : Nat} {x d : Mat} (hl : LayerOk R V lp) (hrem : Rem R V lp) (hx : MOk R V x)
    (hs : (V.lay lp).kind = .sigmoid → Own R V x) (hd : MOk R V d) (ho : Own R V d) :
    (layerBackwardP lp x d : Prog α Grads).grd R V (fun g V' => GMadeOwn R V g V') := by
  unfold layerBackwardP
  refine grd_bind grd_layParams ?_
  rintro l V' ⟨hV, rfl⟩
  rw [hV]; clear hV V'
  have hkp : (V.lay lp).params.kind = (V.lay lp).kind := rfl
  rw [hkp]
  cases hk : (V.lay lp).kind with
  | hidden =>
    show Prog.grd R (hiddenBackwardP lp x d) _ _
    unfold hiddenBackwardP
    refine grd_bind (grd_layGet hl.lay) ?_
    rintro l V' ⟨hV, rfl⟩
    rw [hV]; clear hV V'
    cases backCheck (V.lay lp) x d with
    | some e => exact GMadeOwn.fail (Ext.refl V)
    | none =>
      refine grd_bind (grd_reluPrime hd ho (hrem.1 (.inl hk))) ?_
      rintro d' V1 ⟨e1, rfl⟩
      exact grd_mono (grd_gradTail (hb.trans e1.next) (hl.ok.ext e1) (hx.ext e1) (hd.ext e1)) fun _ _ h => GMadeOwn.trans e1 h
  | linear =>
    show Prog.grd R (linearBackwardP lp x d) _ _
    unfold linearBackwardP
    refine grd_bind (grd_layGet hl.lay) ?_
    rintro l V' ⟨hV, rfl⟩
    rw [hV]; clear hV V'
    cases backCheck (V.lay lp) x d with
    | some e => exact GMadeOwn.fail (Ext.refl V)
    | none => exact grd_gradTail hb hl.ok hx hd
  | sigmoid =>
    show Prog.grd R (sigmoidBackwardP lp x d) _ _
    unfold sigmoidBackwardP
    refine grd_bind (grd_layGet hl.lay) ?_
    rintro l V' ⟨hV, rfl⟩
    rw [hV]; clear hV V'
    cases backCheck (V.lay lp) x d with
    | some e => exact GMadeOwn.fail (Ext.refl V)
    | none =>
      refine grd_bind (grd_sigmoidPrime hx (hs hk) hd) ?_
      rintro d' V1 ⟨e1, rfl⟩
      exact grd_mono (grd_gradTail (hb.trans e1.next) (hl.ok.ext e1) (hx.ext e1) (hx.ext e1)) fun _ _ h => GMadeOwn.trans e1 h
  | leaky =>
    show Prog.grd R (leakyBackwardP lp x d) _ _
    unfold leakyBackwardP
    refine grd_bind (grd_layGet hl.lay) ?_
    rintro l V' ⟨hV, rfl⟩
    rw [hV]; clear hV V'
    cases backCheck (V.lay lp) x d with
    | some e => exact GMadeOwn.fail (Ext.refl V)
    | none =>
      refine grd_bind (grd_leakyReluPrime hd ho (hrem.1 (.inr hk))) ?_
      rintro d' V1 ⟨e1, rfl⟩
      exact grd_mono (grd_gradTail (hb.trans e1.next) (hl.ok.ext e1) (hx.ext e1) (hd.ext e1)) fun _ _ h => GMadeOwn.trans e1 h
  | softmax =>
    show Prog.grd R (softmaxBackwardP lp x d) _ _
    unfold softmaxBackwardP
    refine grd_bind (grd_layGet hl.lay) ?_
    rintro l V' ⟨hV, rfl⟩
    rw [hV]; clear hV V'
    split
    · exact GMadeOwn.fail (Ext.refl V)
    split
    · exact GMadeOwn.fail (Ext.refl V)
    split
    · exact GMadeOwn.fail (Ext.refl V)
    split
    · exact GMadeOwn.fail (Ext.refl V)
    dsimp only
    refine grd_bind (grd_newMatrix_addr hb _ _) ?_
    rintro ⟨nd, er⟩ V1 ⟨(h1 : MadeOwn R V nd V1), hnew⟩
    refine grd_bind (grd_forRet (I := fun W => MadeOwn R V nd W) h1 fun i W _ hW =>
      grd_softmaxBackRow hb hW.1 (hrem.2 hk) hd hW hnew) fun r V2 h2 => ?_
    cases r with
    | some e => exact GMadeOwn.fail h2.1
    | none =>
      exact grd_mono (grd_gradTail (hb.trans h2.1.next) (hl.ok.ext h2.1) (hx.ext h2.1) h2.2.1) fun _ _ h => GMadeOwn.trans h2.1 h
  | dropout => exact absurd hk hl.kind

theorem grd_softmaxBackwardCE {V : World α} (hb : R.b ≤ V.next) {lp : Nat} {x y d : Mat} (hl : LayerOk R V lp) (hx : MOk R V x)
    (hy : MOk R V y) (hd : MOk R V d) : (softmaxBackwardCEP lp x y d : Prog α Grads).grd R V (fun g V' => GMadeOwn R V g V') := by
  unfold softmaxBackwardCEP
  refine grd_bind (grd_layGet hl.lay) ?_
  rintro l V' ⟨hV, rfl⟩
  rw [hV]; clear hV V'
  split
  · exact GMadeOwn.fail (Ext.refl V)
  split
  · exact GMadeOwn.fail (Ext.refl V)
  split
  · exact GMadeOwn.fail (Ext.refl V)
  refine grd_bind (grd_newMatrix hb _ _) ?_
  rintro ⟨nd, er⟩ V1 (h1 : MadeOwn R V nd V1)
  refine grd_bind (P := fun _ V2 => Ext R V1 V2) (grd_forN fun i V2 _ e2 => grd_forN fun j V3 _ e3 => ?_) fun _ V2 e2 => ?_
  · have h := h1.ext (e2.trans e3)
    refine grd_at_bind (hy.ext h.1) fun t => ?_
    split <;> exact grd_at_bind (hd.ext h.1) fun _ => grd_setAt h.2.1 h.2.2
  · have h := h1.ext e2
    exact grd_mono (grd_gradTail (hb.trans h.1.next) (hl.ok.ext h.1) (hx.ext h.1) h.2.1) fun _ _ g => GMadeOwn.trans h.1 g

/-! ### optimizers.go -/

theorem grd_optGet {V : World α} {op : Nat} (h : R.opt op) : (prim (.optGet op) : Prog α (Optim α)).grd R V (fun o V' => V' = V ∧ o = V.opt op) :=
  grd_prim fun l V' e => by cases e; exact ⟨h, rfl, rfl⟩

theorem grd_optSet {V : World α} {op : Nat} {o : Optim α} (h : R.opt op) (ho : OOk R V o) :
    (prim (.optSet op o) : Prog α Unit).grd R V (fun _ V' => Ext R V V') := by
  refine grd_prim fun l V' e => ?_
  cases e
  refine ⟨h, le_rfl, fun _ _ => rfl, fun _ => rfl, fun _ h => h.keep le_rfl fun _ _ => rfl, fun _ h => h.keep le_rfl fun _ _ => rfl, fun q hq => ?_⟩
  refine OOk.keep (V := V) ?_ le_rfl fun _ _ => rfl
  show OOk R V (upd V.opt op o q)
  unfold upd; split
  · exact ho
  · exact hq

theorem OOk.decayed {V : World α} {o : Optim α} (h : OOk R V o) : OOk R V o.decayed := by
  unfold Optim.decayed
  split
  · exact ⟨h.wm, h.bm, h.wc, h.bc⟩
  · exact h

theorem grd_addInto {V : World α} {w u : Mat} (hw : MOk R V w) (ho : Own R V w) (hu : MOk R V u) :
    (addIntoP w u : Prog α Unit).grd R V (fun _ V' => Ext R V V') := by
  unfold addIntoP
  refine grd_forN fun i V2 _ e2 => grd_forN fun j V3 _ e3 => ?_
  have e := e2.trans e3
  exact grd_at_bind (hw.ext e) fun _ => grd_at_bind (hu.ext e) fun _ => grd_setAt (hw.ext e) (ho.ext hw e)

theorem grd_subInto {V : World α} {w u : Mat} (hw : MOk R V w) (ho : Own R V w) (hu : MOk R V u) :
    (subIntoP w u : Prog α Unit).grd R V (fun _ V' => Ext R V V') := by
  unfold subIntoP
  refine grd_forN fun i V2 _ e2 => grd_forN fun j V3 _ e3 => ?_
  have e := e2.trans e3
  exact grd_at_bind (hw.ext e) fun _ => grd_at_bind (hu.ext e) fun _ => grd_setAt (hw.ext e) (ho.ext hw e)

theorem grd_adamStep {V : World α} {w m c : Mat} {r ep : α} (hw : MOk R V w) (ho : Own R V w) (hm : MOk R V m) (hc : MOk R V c) :
    (adamStepP w m c r ep).grd R V (fun _ V' => Ext R V V') := by
  unfold adamStepP
  refine grd_forN fun i V2 _ e2 => grd_forN fun j V3 _ e3 => ?_
  have e := e2.trans e3
  exact grd_at_bind (hw.ext e) fun _ => grd_at_bind (hm.ext e) fun _ => grd_at_bind (hc.ext e) fun _ => grd_setAt (hw.ext e) (ho.ext hw e)

/-- The matrices of an update. -/
structure UOk (R : Region) (V : World α) (wm bm dwm dbm : Mat) : Prop where
  w : MOk R V wm
  wo : Own R V wm
  b : MOk R V bm
  bo : Own R V bm
  dw : MOk R V dwm
  db : MOk R V dbm

theorem UOk.ext {V V' : World α} {w b dw db : Mat} (h : UOk R V w b dw db) (e : Ext R V V') : UOk R V' w b dw db :=
  ⟨h.w.ext e, h.wo.ext h.w e, h.b.ext e, h.bo.ext h.b e, h.dw.ext e, h.db.ext e⟩

theorem grd_sgdUpdate {V : World α} (hb : R.b ≤ V.next) {op : Nat} {w b dw db : Mat} (ho : R.opt op) (hO : OOk R V (V.opt op))
    (hU : UOk R V w b dw db) : (sgdUpdateP op w b dw db : Prog α (Option Err)).grd R V (fun _ V' => Ext R V V') := by
  unfold sgdUpdateP
  refine grd_bind (grd_optGet ho) ?_
  rintro o V' ⟨hV, rfl⟩
  rw [hV]; clear hV V'
  dsimp only
  have hO := hO.decayed
  generalize (V.opt op).decayed = o at *
  refine grd_bind (grd_optSet ho hO) fun _ V1 e1 => ?_
  have tail : ∀ (o : Optim α) (V2 : World α), Ext R V V2 → OOk R V2 o → (do
        let sm ← o.weightMomentums.mulScalarP o.momentum
        let sg ← dw.mulScalarP o.currentRate
        let (wm, err) ← sm.subP sg
        let o := { o with weightMomentums := wm }
        Prog.prim (.optSet op o)
        if let some e := err then
          return some e
        let sm ← o.biasMomentums.mulScalarP o.momentum
        let sg ← db.mulScalarP o.currentRate
        let (bm, err) ← sm.subP sg
        let o := { o with biasMomentums := bm }
        Prog.prim (.optSet op o)
        if let some e := err then
          return some e
        addIntoP w o.weightMomentums
        addIntoP b o.biasMomentums
        Prog.prim (.optSet op { o with iterations := o.iterations + 1 })
        return none : Prog α (Option Err)).grd R V2 (fun _ V' => Ext R V V') := by
    intro o V2 e2 hO
    have hbn : ∀ {W}, Ext R V W → R.b ≤ W.next := fun e => hb.trans e.next
    refine grd_bind (grd_mulScalar (hbn e2) hO.wm) fun sm V3 h3 => ?_
    have e3 := e2.trans h3.1
    refine grd_bind (grd_mulScalar (hbn e3) (hU.ext e3).dw) fun sg V4 h4 => ?_
    have e4 := e3.trans h4.1
    refine grd_bind (grd_sub (hbn e4) (h3.ext h4.1).2.1 h4.2.1) ?_
    rintro ⟨wm, er⟩ V5 (h5 : MadeOwn R V4 wm V5)
    have e5 := e4.trans h5.1
    have hO5 : OOk R V5 { o with weightMomentums := wm } := by
      have := hO.ext (h3.1.trans (h4.1.trans h5.1))
      exact ⟨h5.2.1, this.bm, this.wc, this.bc⟩
    clear hO
    refine grd_bind (grd_optSet ho hO5) fun _ V6 e6 => ?_
    have hO6 := hO5.ext e6
    have e6 := e5.trans e6
    cases er with
    | some e => exact e6
    | none =>
      refine grd_bind (grd_mulScalar (hbn e6) hO6.bm) fun sm V7 h7 => ?_
      have e7 := e6.trans h7.1
      refine grd_bind (grd_mulScalar (hbn e7) (hU.ext e7).db) fun sg V8 h8 => ?_
      have e8 := e7.trans h8.1
      refine grd_bind (grd_sub (hbn e8) (h7.ext h8.1).2.1 h8.2.1) ?_
      rintro ⟨bm, er⟩ V9 (h9 : MadeOwn R V8 bm V9)
      have e9 := e8.trans h9.1
      have hO9 : OOk R V9 { o with weightMomentums := wm, biasMomentums := bm } := by
        have := hO6.ext (h7.1.trans (h8.1.trans h9.1))
        exact ⟨this.wm, h9.2.1, this.wc, this.bc⟩
      refine grd_bind (grd_optSet ho hO9) fun _ VA eA => ?_
      have hOA := hO9.ext eA
      have eA := e9.trans eA
      cases er with
      | some e => exact eA
      | none =>
        have uA := hU.ext eA
        refine grd_bind (grd_addInto uA.w uA.wo hOA.wm) fun _ VB eB => ?_
        have uB := uA.ext eB
        refine grd_bind (grd_addInto uB.b uB.bo (hOA.ext eB).bm) fun _ VC eC => ?_
        refine grd_bind (grd_optSet ho (o := { o with weightMomentums := wm, biasMomentums := bm, iterations := o.iterations + 1 }) ?_)
          fun _ VD eD => eA.trans (eB.trans (eC.trans eD))
        have := hOA.ext (eB.trans eC)
        exact ⟨this.wm, this.bm, this.wc, this.bc⟩
  split
  · refine grd_ite_jp (c := o.weightMomentums.rows = 0) ?_ (tail o V1 e1 (hO.ext e1))
    refine grd_bind (grd_newMatrix (hb.trans e1.next) _ _) ?_
    rintro ⟨wm, er⟩ V2 (h2 : MadeOwn R V1 wm V2)
    refine grd_bind (grd_newMatrix (hb.trans (e1.trans h2.1).next) _ _) ?_
    rintro ⟨bm, er⟩ V3 (h3 : MadeOwn R V2 bm V3)
    have hO3 : OOk R V3 { o with weightMomentums := wm, biasMomentums := bm } := by
      have := hO.ext (e1.trans (h2.1.trans h3.1))
      exact ⟨(h2.ext h3.1).2.1, h3.2.1, this.wc, this.bc⟩
    exact grd_bind (grd_optSet ho hO3) fun _ V4 e4 => tail _ V4 (e1.trans (h2.1.trans (h3.1.trans e4))) (hO3.ext e4)
  · have u1 := hU.ext e1
    refine grd_bind (grd_mulScalar (hb.trans e1.next) u1.dw) fun wu V2 h2 => ?_
    have e2 := e1.trans h2.1
    refine grd_bind (grd_mulScalar (hb.trans e2.next) (hU.ext e2).db) fun bu V3 h3 => ?_
    have e3 := e2.trans h3.1
    have u3 := hU.ext e3
    refine grd_bind (grd_subInto u3.w u3.wo (h2.ext h3.1).2.1) fun _ V4 e4 => ?_
    have u4 := u3.ext e4
    refine grd_bind (grd_subInto u4.b u4.bo (h3.ext e4).2.1) fun _ V5 e5 => ?_
    have e := e3.trans (e4.trans e5)
    refine grd_bind (grd_optSet ho (o := { o with iterations := o.iterations + 1 }) ?_) fun _ V6 e6 => e.trans e6
    have := hO.ext e
    exact ⟨this.wm, this.bm, this.wc, this.bc⟩

theorem grd_adamUpdate {V : World α} (hb : R.b ≤ V.next) {op : Nat} {w b dw db : Mat} (ho : R.opt op) (hO : OOk R V (V.opt op))
    (hU : UOk R V w b dw db) : (adamUpdateP op w b dw db : Prog α (Option Err)).grd R V (fun _ V' => Ext R V V') := by
  unfold adamUpdateP
  refine grd_bind (grd_optGet ho) ?_
  rintro o V' ⟨hV, rfl⟩
  rw [hV]; clear hV V'
  dsimp only
  have hO := hO.decayed
  generalize (V.opt op).decayed = o at *
  refine grd_bind (grd_optSet ho hO) fun _ V1 e1 => ?_
  have hbn : ∀ {W}, Ext R V W → R.b ≤ W.next := fun e => hb.trans e.next
  have tail : ∀ (o : Optim α) (V2 : World α), Ext R V V2 → OOk R V2 o → (do
        let sm ← o.weightMomentums.mulScalarP o.beta1
        let sg ← dw.mulScalarP (Flt.one -. o.beta1)
        let (wm, err) ← sm.addP sg
        let o := { o with weightMomentums := wm }
        prim (.optSet op o)
        if let some e := err then
          return some e
        let sm ← o.biasMomentums.mulScalarP o.beta1
        let sg ← db.mulScalarP (Flt.one -. o.beta1)
        let (bm, err) ← sm.addP sg
        let o := { o with biasMomentums := bm }
        prim (.optSet op o)
        if let some e := err then
          return some e
        let cwm ← o.weightMomentums.mulScalarP o.correction
        let cbm ← o.biasMomentums.mulScalarP o.correction
        let sm ← o.weightCache.mulScalarP o.beta2
        let sg ← dw.powScalarP (Flt.ofInt 2)
        let sg ← sg.mulScalarP (Flt.one -. o.beta2)
        let (wc, err) ← sm.addP sg
        let o := { o with weightCache := wc }
        prim (.optSet op o)
        if let some e := err then
          return some e
        let sm ← o.biasCache.mulScalarP o.beta2
        let sg ← db.powScalarP (Flt.ofInt 2)
        let sg ← sg.mulScalarP (Flt.one -. o.beta2)
        let (bc, err) ← sm.addP sg
        let o := { o with biasCache := bc }
        prim (.optSet op o)
        if let some e := err then
          return some e
        let cwc ← o.weightCache.mulScalarP o.correction
        let cbc ← o.biasCache.mulScalarP o.correction
        adamStepP w cwm cwc o.currentRate o.epsilon
        adamStepP b cbm cbc o.currentRate o.epsilon
        prim (.optSet op { o with iterations := o.iterations + 1 })
        return none : Prog α (Option Err)).grd R V2 (fun _ V' => Ext R V V') := by
    intro o V2 e2 hO
    refine grd_bind (grd_mulScalar (hbn e2) hO.wm) fun sm V3 h3 => ?_
    have e3 := e2.trans h3.1
    refine grd_bind (grd_mulScalar (hbn e3) (hU.ext e3).dw) fun sg V4 h4 => ?_
    have e4 := e3.trans h4.1
    refine grd_bind (grd_add (hbn e4) (h3.ext h4.1).2.1 h4.2.1) ?_
    rintro ⟨wm, er⟩ V5 (h5 : MadeOwn R V4 wm V5)
    have e5 := e4.trans h5.1
    have hO5 : OOk R V5 { o with weightMomentums := wm } := by
      have := hO.ext (h3.1.trans (h4.1.trans h5.1))
      exact ⟨h5.2.1, this.bm, this.wc, this.bc⟩
    clear hO h3 h4 h5 e3 e4
    refine grd_bind (grd_optSet ho hO5) fun _ V6 e6 => ?_
    have hO6 := hO5.ext e6
    have e6 := e5.trans e6
    clear e5 hO5
    cases er with
    | some e => exact e6
    | none =>
    refine grd_bind (grd_mulScalar (hbn e6) hO6.bm) fun sm V7 h7 => ?_
    have e7 := e6.trans h7.1
    refine grd_bind (grd_mulScalar (hbn e7) (hU.ext e7).db) fun sg V8 h8 => ?_
    have e8 := e7.trans h8.1
    refine grd_bind (grd_add (hbn e8) (h7.ext h8.1).2.1 h8.2.1) ?_
    rintro ⟨bm, er⟩ V9 (h9 : MadeOwn R V8 bm V9)
    have e9 := e8.trans h9.1
    have hO9 : OOk R V9 { o with weightMomentums := wm, biasMomentums := bm } := by
      have := hO6.ext (h7.1.trans (h8.1.trans h9.1))
      exact ⟨this.wm, h9.2.1, this.wc, this.bc⟩
    clear hO6 h7 h8 h9 e7 e8
    refine grd_bind (grd_optSet ho hO9) fun _ VA eA => ?_
    have hOA := hO9.ext eA
    have eA := e9.trans eA
    clear e9 hO9
    cases er with
    | some e => exact eA
    | none =>
    refine grd_bind (grd_mulScalar (hbn eA) hOA.wm) fun cwm B1 g1 => ?_
    have E1 := eA.trans g1.1
    refine grd_bind (grd_mulScalar (hbn E1) (hOA.ext g1.1).bm) fun cbm B2 g2 => ?_
    have g1 := g1.ext g2.1
    have E2 := E1.trans g2.1
    have hO2 := hOA.ext g1.1
    refine grd_bind (grd_mulScalar (hbn E2) hO2.wc) fun sm B3 g3 => ?_
    have E3 := E2.trans g3.1
    refine grd_bind (grd_powScalar (hbn E3) (hU.ext E3).dw) fun sg B4 g4 => ?_
    have E4 := E3.trans g4.1
    refine grd_bind (grd_mulScalar (hbn E4) g4.2.1) fun sg B5 g5 => ?_
    have E5 := E4.trans g5.1
    refine grd_bind (grd_add (hbn E5) (g3.ext (g4.1.trans g5.1)).2.1 g5.2.1) ?_
    rintro ⟨wc, er⟩ B6 (g6 : MadeOwn R B5 wc B6)
    have E6 := E5.trans g6.1
    have D6 : Ext R B2 B6 := g3.1.trans (g4.1.trans (g5.1.trans g6.1))
    have hO6 : OOk R B6 { o with weightMomentums := wm, biasMomentums := bm, weightCache := wc } := by
      have := hO2.ext D6
      exact ⟨this.wm, this.bm, g6.2.1, this.bc⟩
    have g1 := g1.ext D6
    have g2 := g2.ext D6
    clear hO2 g3 g4 g5 g6 E3 E4 E5 D6
    refine grd_bind (grd_optSet ho hO6) fun _ C0 d0 => ?_
    have hO7 := hO6.ext d0
    have g1 := g1.ext d0
    have g2 := g2.ext d0
    have E7 := E6.trans d0
    clear hO6 d0 E6
    cases er with
    | some e => exact E7
    | none =>
    refine grd_bind (grd_mulScalar (hbn E7) hO7.bc) fun sm B3 g3 => ?_
    have E3 := E7.trans g3.1
    refine grd_bind (grd_powScalar (hbn E3) (hU.ext E3).db) fun sg B4 g4 => ?_
    have E4 := E3.trans g4.1
    refine grd_bind (grd_mulScalar (hbn E4) g4.2.1) fun sg B5 g5 => ?_
    have E5 := E4.trans g5.1
    refine grd_bind (grd_add (hbn E5) (g3.ext (g4.1.trans g5.1)).2.1 g5.2.1) ?_
    rintro ⟨bc, er⟩ B6 (g6 : MadeOwn R B5 bc B6)
    have E6 := E5.trans g6.1
    have D6 : Ext R C0 B6 := g3.1.trans (g4.1.trans (g5.1.trans g6.1))
    have hO6 : OOk R B6 { o with weightMomentums := wm, biasMomentums := bm, weightCache := wc, biasCache := bc } := by
      have := hO7.ext D6
      exact ⟨this.wm, this.bm, this.wc, g6.2.1⟩
    have g1 := g1.ext D6
    have g2 := g2.ext D6
    clear hO7 g3 g4 g5 g6 E3 E4 E5 D6
    refine grd_bind (grd_optSet ho hO6) fun _ C1 d0 => ?_
    have hO7 := hO6.ext d0
    have g1 := g1.ext d0
    have g2 := g2.ext d0
    have E7 := E6.trans d0
    clear hO6 d0 E6
    cases er with
    | some e => exact E7
    | none =>
    refine grd_bind (grd_mulScalar (hbn E7) hO7.wc) fun cwc B3 g3 => ?_
    have E3 := E7.trans g3.1
    refine grd_bind (grd_mulScalar (hbn E3) (hO7.ext g3.1).bc) fun cbc B4 g4 => ?_
    have E4 := E3.trans g4.1
    have u4 := hU.ext E4
    have D4 := g3.1.trans g4.1
    refine grd_bind (grd_adamStep u4.w u4.wo (g1.ext D4).2.1 (g3.ext g4.1).2.1) fun _ B5 e5 => ?_
    have u5 := u4.ext e5
    refine grd_bind (grd_adamStep u5.b u5.bo (g2.ext (D4.trans e5)).2.1 (g4.ext e5).2.1) fun _ B6 e6 => ?_
    refine grd_bind (grd_optSet ho (o := { o with weightMomentums := wm, biasMomentums := bm, weightCache := wc, biasCache := bc, iterations := o.iterations + 1 }) ?_)
      fun _ VD eD => E4.trans (e5.trans (e6.trans eD))
    have := hO7.ext (D4.trans (e5.trans e6))
    exact ⟨this.wm, this.bm, this.wc, this.bc⟩
  refine grd_ite_jp (c := o.weightMomentums.rows = 0) ?_ (tail o V1 e1 (hO.ext e1))
  refine grd_bind (grd_newMatrix (hbn e1) _ _) ?_
  rintro ⟨wm, er⟩ V2 (h2 : MadeOwn R V1 wm V2)
  have e2 := e1.trans h2.1
  refine grd_bind (grd_newMatrix (hbn e2) _ _) ?_
  rintro ⟨bm, er⟩ V3 (h3 : MadeOwn R V2 bm V3)
  have e3 := e2.trans h3.1
  refine grd_bind (grd_newMatrix (hbn e3) _ _) ?_
  rintro ⟨wc, er⟩ V4 (h4 : MadeOwn R V3 wc V4)
  have e4 := e3.trans h4.1
  refine grd_bind (grd_newMatrix (hbn e4) _ _) ?_
  rintro ⟨bc, er⟩ V5 (h5 : MadeOwn R V4 bc V5)
  have e5 := e4.trans h5.1
  have hO3 : OOk R V5 { o with weightMomentums := wm, biasMomentums := bm, weightCache := wc, biasCache := bc } :=
    ⟨(h2.ext (h3.1.trans (h4.1.trans h5.1))).2.1, (h3.ext (h4.1.trans h5.1)).2.1, (h4.ext h5.1).2.1, h5.2.1⟩
  exact grd_bind (grd_optSet ho hO3) fun _ V6 e6 => tail _ V6 (e5.trans e6) (hO3.ext e6)

theorem grd_optUpdate {V : World α} (hb : R.b ≤ V.next) {op : Nat} {w b : Option Mat} {dw db : Mat} (ho : R.opt op) (hO : OOk R V (V.opt op))
    (hU : ∀ wm bm, w = some wm → b = some bm → UOk R V wm bm dw db) :
    (optUpdateP op w b dw db : Prog α (Option Err)).grd R V (fun _ V' => Ext R V V') := by
  unfold optUpdateP
  refine grd_bind (grd_optGet ho) ?_
  rintro o V' ⟨hV, rfl⟩
  rw [hV]; clear hV V'
  refine grd_bind grd_deref ?_
  rintro wm V' ⟨hV, hwm⟩
  rw [hV]; clear hV V'
  refine grd_bind grd_deref ?_
  rintro bm V' ⟨hV, hbm⟩
  rw [hV]; clear hV V'
  cases (V.opt op).kind
  · exact grd_sgdUpdate hb ho hO (hU wm bm hwm hbm)
  · exact grd_adamUpdate hb ho hO (hU wm bm hwm hbm)

/-! ### model.go -/

/-- What a training call needs of its model. -/
structure TrainOk (R : Region) (V : World α) (m : Model α) : Prop where
  layers : ∀ lp ∈ m.layers, LayerOk R V lp
  optims : ∀ op ∈ m.optims, R.opt op ∧ OOk R V (V.opt op)
  pos : 0 < m.modelSize
  first : ∀ lp, m.layers[0]? = some lp → (V.lay lp).kind ≠ .sigmoid
  log : R.log

theorem TrainOk.ext {V V' : World α} {m : Model α} (h : TrainOk R V m) (e : Ext R V V') : TrainOk R V' m :=
  ⟨fun lp hl => (h.layers lp hl).ext e, fun op ho => ⟨(h.optims op ho).1, e.opt op (h.optims op ho).2⟩, h.pos,
    fun lp hl => by rw [e.kind]; exact h.first lp hl, h.log⟩

theorem TrainOk.modelOk {V : World α} {m : Model α} (h : TrainOk R V m) : ModelOk R V m := fun lp hl => ⟨(h.layers lp hl).rem, (h.layers lp hl).ok⟩

theorem grd_log {V : World α} {e : LogEvent α} (h : R.log) : (prim (.log e) : Prog α Unit).grd R V (fun _ V' => Ext R V V') := by
  refine grd_prim fun u V' h' => ⟨h, ?_⟩
  change NN.logEvent e V = _ at h'
  unfold NN.logEvent at h'
  split at h'
  · cases h'; exact Ext.plain le_rfl (fun _ _ => rfl) rfl rfl
  · cases h'

theorem grd_forwardTrain {V : World α} (hb : R.b ≤ V.next) {lp : Nat} {x : Mat} (hl : LayerOk R V lp) (hx : MOk R V x) :
    (forwardTrainP lp x : Prog α (Mat × Option Err)).grd R V
      (fun p V' => Ext R V V' ∧ (MOk R V' p.1 ∧ Own R V' p.1) ∧ (p.2 = none → Rem R V' lp)) := by
  unfold forwardTrainP
  refine grd_bind grd_layParams ?_
  rintro l V' ⟨hV, rfl⟩
  rw [hV]; clear hV V'
  have hk : ¬ (V.lay lp).params.kind = .dropout := hl.kind
  rw [if_neg hk]
  exact grd_infer hb hl.rem hl.ok hx

/-- What the forward pass leaves for the backward pass. -/
structure FwdSafe (R : Region) (V : World α) (m : Model α) (n : Nat) (outs : List Mat) : Prop where
  ok : ∀ k o, outs[k]? = some o → MOk R V o ∧ (0 < k → Own R V o)
  rem : ∀ k lp, k < n → m.layers[k]? = some lp → Rem R V lp

theorem FwdSafe.ext {V V' : World α} {m : Model α} {n : Nat} {outs : List Mat} (h : FwdSafe R V m n outs) (e : Ext R V V') : FwdSafe R V' m n outs :=
  ⟨fun k o ho => ⟨(h.ok k o ho).1.ext e, fun hk => ((h.ok k o ho).2 hk).ext (h.ok k o ho).1 e⟩, fun k lp hk hl => (h.rem k lp hk hl).ext e⟩

theorem grd_forwardTrainLoop {V : World α} (hb : R.b ≤ V.next) {m : Model α} {x : Mat} (hl : TrainOk R V m) (hx : MOk R V x) (n : Nat) :
    (forwardTrainLoopP m x n).grd R V (fun p V' => Ext R V V' ∧ (p.2.2 = none → MOk R V' p.2.1 ∧ p.1.length = n + 1 ∧ FwdSafe R V' m n p.1)) := by
  induction n with
  | zero =>
    refine ⟨Ext.refl V, fun _ => ⟨hx, rfl, fun k o ho => ?_, fun k lp hk => absurd hk (Nat.not_lt_zero k)⟩⟩
    cases k with
    | zero => cases ho; exact ⟨hx, fun h => absurd h (Nat.lt_irrefl 0)⟩
    | succ k => cases ho
  | succ n ih =>
    unfold forwardTrainLoopP
    refine grd_bind ih ?_
    rintro ⟨outs, out, _ | er⟩ V1 ⟨h1, h2⟩
    · obtain ⟨h2, hlen, hF⟩ := h2 rfl
      refine grd_bind grd_listGet ?_
      rintro lp V2 ⟨hV, hlp⟩
      rw [hV]
      clear hV V2
      rw [Int.toNat_natCast] at hlp
      have hlo := (hl.layers lp (List.mem_of_getElem? hlp)).ext h1
      refine grd_bind (grd_forwardTrain (hb.trans h1.next) hlo h2) ?_
      rintro ⟨o, _ | er⟩ V2 ⟨e2, ⟨h3, h4⟩, hrem⟩
      · have hF := hF.ext e2
        refine ⟨h1.trans e2, fun _ => ⟨h3, ?_, fun k q hq => ?_, fun k lp' hk hl' => ?_⟩⟩
        · show (outs ++ [o]).length = _
          simp at hlen ⊢; omega
        · change (outs ++ [o])[k]? = some q at hq
          rw [List.getElem?_append] at hq
          split at hq
          · exact hF.ok k q hq
          · have : q = o := by
              have := List.mem_of_getElem? hq
              simpa using this
            rw [this]
            exact ⟨h3, fun _ => h4⟩
        · by_cases hkn : k = n
          · subst hkn
            cases hlp.symm.trans hl'
            exact hrem rfl
          · exact hF.rem k lp' (by omega) hl'
      · exact ⟨h1.trans e2, (fun h => by cases h)⟩
    · exact ⟨h1, (fun h => by cases h)⟩

theorem grd_modelForwardTrain {V : World α} (hb : R.b ≤ V.next) {m : Model α} {x : Mat} (hl : TrainOk R V m) (hx : MOk R V x) :
    (modelForwardTrainP m x).grd R V (fun p V' => Ext R V V' ∧ (p.2 = none → FwdSafe R V' m m.modelSize.toNat p.1)) := by
  unfold modelForwardTrainP
  refine grd_bind (grd_forwardTrainLoop hb hl hx _) ?_
  rintro ⟨outs, out, er⟩ V1 ⟨h1, h2⟩
  exact ⟨h1, fun he => (h2 he).2.2⟩

theorem grd_fusedLast {V : World α} {m : Model α} {i : Int} : (fusedLastP m i).grd R V (fun _ V' => V' = V) := by
  unfold fusedLastP
  refine grd_bind grd_listGet ?_
  rintro lp V1 ⟨rfl, -⟩
  refine grd_bind grd_layParams ?_
  rintro l V2 ⟨rfl, -⟩
  exact grd_pure rfl

/-- The gradients are valid matrices. -/
def GsOk (R : Region) (V : World α) (gs : List Gradients) : Prop := ∀ g ∈ gs, MOk R V g.dWeights ∧ MOk R V g.dBiases

theorem GsOk.ext {V V' : World α} {gs : List Gradients} (h : GsOk R V gs) (e : Ext R V V') : GsOk R V' gs :=
  fun g hg => ⟨(h g hg).1.ext e, (h g hg).2.ext e⟩

theorem grd_backwardLoop {V : World α} (hb : R.b ≤ V.next) {m : Model α} {outs : List Mat} {n : Nat} (hl : TrainOk R V m)
    (hF : FwdSafe R V m n outs) {k : Nat} (hk : k ≤ n) {gs : List Gradients} (hg : GsOk R V gs) {d : Mat} (hd : MOk R V d) (ho : Own R V d) :
    (backwardLoopP m outs k gs d).grd R V (fun p V' => Ext R V V' ∧ GsOk R V' p.1) := by
  induction k generalizing V gs d with
  | zero => exact ⟨Ext.refl V, hg⟩
  | succ k ih =>
    unfold backwardLoopP
    refine grd_bind grd_fusedLast fun f V' hV => ?_
    rw [hV]; clear hV V'
    split
    · exact ih hb hl hF (by omega) hg hd ho
    · refine grd_bind grd_listGet ?_
      rintro lp V' ⟨hV, hlp⟩
      rw [hV]; clear hV V'
      rw [Int.toNat_natCast] at hlp
      refine grd_bind grd_listGet ?_
      rintro x V' ⟨hV, hx⟩
      rw [hV]; clear hV V'
      rw [Int.toNat_natCast] at hx
      refine grd_bind (grd_layerBackward hb (hl.layers lp (List.mem_of_getElem? hlp)) (hF.rem k lp (by omega) hlp) (hF.ok k x hx).1 (fun hs => ?_) hd ho)
        fun g V1 h1 => ?_
      · refine (hF.ok k x hx).2 (Nat.pos_of_ne_zero fun h0 => ?_)
        subst h0
        exact hl.first lp hlp hs
      · obtain ⟨dw, db, di, er⟩ := g
        obtain ⟨e1, hdw, hdb, hdi, hdo⟩ := h1
        cases er with
        | some e => exact ⟨e1, (fun g hg => by cases hg)⟩
        | none =>
          refine grd_mono (ih (hb.trans e1.next) (hl.ext e1) (hF.ext e1) (by omega) ?_ hdi hdo) fun p V2 h2 => ⟨e1.trans h2.1, h2.2⟩
          intro g hg'
          rcases List.mem_append.1 hg' with hg' | hg'
          · exact hg.ext e1 g hg'
          · obtain rfl := List.mem_singleton.1 hg'
            exact ⟨hdw, hdb⟩

theorem grd_modelBackward {V : World α} (hb : R.b ≤ V.next) {m : Model α} {outs : List Mat} {Y : Mat} (hl : TrainOk R V m)
    (hF : FwdSafe R V m m.modelSize.toNat outs) (hY : MOk R V Y) :
    (modelBackwardP m outs Y).grd R V (fun p V' => Ext R V V' ∧ GsOk R V' p.1) := by
  have hpos := hl.pos
  unfold modelBackwardP
  refine grd_bind grd_fusedLast fun f V' hV => ?_
  rw [hV]; clear hV V'
  split
  · refine grd_bind grd_listGet ?_
    rintro lp V' ⟨hV, hlp⟩
    rw [hV]; clear hV V'
    refine grd_bind grd_listGet ?_
    rintro x V' ⟨hV, hx⟩
    rw [hV]; clear hV V'
    refine grd_bind grd_listGet ?_
    rintro out V' ⟨hV, hout⟩
    rw [hV]; clear hV V'
    refine grd_bind (grd_softmaxBackwardCE hb (hl.layers lp (List.mem_of_getElem? hlp)) (hF.ok _ x hx).1 hY (hF.ok _ out hout).1) fun g V1 h1 => ?_
    obtain ⟨dw, db, di, er⟩ := g
    obtain ⟨e1, hdw, hdb, hdi, hdo⟩ := h1
    cases er with
    | some e => exact ⟨e1, (fun g hg => by cases hg)⟩
    | none =>
      refine grd_mono (grd_backwardLoop (hb.trans e1.next) (hl.ext e1) (hF.ext e1) le_rfl ?_ hdi hdo) fun p V2 h2 => ⟨e1.trans h2.1, h2.2⟩
      intro g hg'
      obtain rfl := List.mem_singleton.1 hg'
      exact ⟨hdw, hdb⟩
  · refine grd_bind grd_listGet ?_
    rintro out V' ⟨hV, hout⟩
    rw [hV]; clear hV V'
    refine grd_bind grd_deref ?_
    rintro l V' ⟨hV, -⟩
    rw [hV]; clear hV V'
    have ho := hF.ok _ out hout
    refine grd_bind (grd_lossBackward hb ho.1 (ho.2 (by omega)) hY) ?_
    rintro ⟨d, _ | er⟩ V1 (h1 : MadeOwn R V d V1)
    · exact grd_mono (grd_backwardLoop (hb.trans h1.1.next) (hl.ext h1.1) (hF.ext h1.1) le_rfl (fun g hg => by cases hg) h1.2.1 h1.2.2)
        fun p V2 h2 => ⟨h1.1.trans h2.1, h2.2⟩
    · exact ⟨h1.1, (fun g hg => by cases hg)⟩

theorem grd_updateLayers {V : World α} (hb : R.b ≤ V.next) {m : Model α} {gs : List Gradients} (hl : TrainOk R V m) (hg : GsOk R V gs) :
    (updateLayersP m gs).grd R V (fun _ V' => Ext R V V') := by
  unfold updateLayersP
  refine grd_forRet (I := fun W => Ext R V W) (Ext.refl V) fun i W _ e => ?_
  refine grd_bind grd_listGet ?_
  rintro lp V' ⟨hV, hlp⟩
  rw [hV]; clear hV V'
  refine grd_bind grd_layParams ?_
  rintro l V' ⟨hV, rfl⟩
  rw [hV]; clear hV V'
  refine grd_bind grd_listGet ?_
  rintro op V' ⟨hV, hop⟩
  rw [hV]; clear hV V'
  refine grd_bind grd_listGet ?_
  rintro g V' ⟨hV, hgi⟩
  rw [hV]; clear hV V'
  have hlo := (hl.ext e).layers lp (List.mem_of_getElem? hlp)
  have hoo := (hl.ext e).optims op (List.mem_of_getElem? hop)
  have hgo := hg.ext e g (List.mem_of_getElem? hgi)
  refine grd_bind (grd_optUpdate (hb.trans e.next) hoo.1 hoo.2 fun wm bm hw hbm =>
    ⟨hlo.ok.1 wm hw, hlo.own.1 wm hw, hlo.ok.2 bm hbm, hlo.own.2 bm hbm, hgo.1, hgo.2⟩) fun er W2 e2 => ?_
  cases er with
  | none => exact e.trans e2
  | some er => exact grd_bind (grd_log hl.log) fun _ W3 e3 => e.trans (e2.trans e3)

/-- A data matrix: its rows, also those that a longer slice of the same table reaches, may be read. -/
structure DOk (R : Region) (V : World α) (x : Mat) : Prop where
  mat : MOk R V x
  cap : MOk R V ⟨0, 0, ⟨x.m.addr, x.m.off, x.m.cap, x.m.cap⟩⟩

theorem DOk.ext {V V' : World α} {x : Mat} (h : DOk R V x) (e : Ext R V V') : DOk R V' x := ⟨h.mat.ext e, h.cap.ext e⟩

theorem grd_reslice {V : World α} {x : Mat} (h : DOk R V x) {lo hi : Int} :
    (resliceP x.m lo hi : Prog α Slice).grd R V (fun s V' => V' = V ∧ ∀ a b, MOk R V ⟨a, b, s⟩) := by
  unfold resliceP
  split
  · rename_i hlo
    refine ⟨rfl, fun a b => ⟨fun hn => h.cap.lt ?_, fun hn => h.cap.addr ?_, fun i hi' q hq => ?_⟩⟩
    · change (hi - lo).toNat ≠ 0 at hn
      show x.m.cap ≠ 0; omega
    · change (hi - lo).toNat ≠ 0 at hn
      show x.m.cap ≠ 0; omega
    · change i < (hi - lo).toNat at hi'
      change (V.outs x.m.addr)[x.m.off + lo.toNat + i]? = some q at hq
      rw [Nat.add_assoc] at hq
      exact h.cap.row (lo.toNat + i) (by show _ < x.m.cap; omega) q hq
  · exact grd_prim fun c V' e => by cases e

theorem grd_fitBatch {V : World α} (hb : R.b ≤ V.next) {m : Model α} {X Y : Mat} (hl : TrainOk R V m) (hX : DOk R V X) (hY : DOk R V Y) {b : Int} {s : Nat} :
    (fitBatchP m X Y b s).grd R V (fun _ V' => Ext R V V') := by
  unfold fitBatchP
  dsimp only
  refine grd_bind (grd_reslice hX) ?_
  rintro sx V' ⟨hV, hsx⟩
  rw [hV]; clear hV V'
  refine grd_bind (grd_newMatrixFromSlice hsx) ?_
  rintro ⟨bx, er⟩ V' ⟨hV, hbx, -⟩
  rw [hV]; clear hV V'
  refine grd_bind (grd_reslice hY) ?_
  rintro sy V' ⟨hV, hsy⟩
  rw [hV]; clear hV V'
  refine grd_bind (grd_newMatrixFromSlice hsy) ?_
  rintro ⟨by', er⟩ V' ⟨hV, hby, -⟩
  rw [hV]; clear hV V'
  refine grd_bind (grd_modelForwardTrain hb hl hbx) ?_
  rintro ⟨outs, _ | er⟩ V1 ⟨e1, hF⟩
  · refine grd_bind (grd_modelBackward (hb.trans e1.next) (hl.ext e1) (hF rfl) (hby.ext e1)) ?_
    rintro ⟨gs, _ | er⟩ V2 ⟨e2, hgs⟩
    · have e := e1.trans e2
      exact grd_mono (grd_updateLayers (hb.trans e.next) (hl.ext e) hgs) fun _ _ h => e.trans h
    · exact grd_bind (grd_log hl.log) fun _ _ e3 => e1.trans (e2.trans e3)
  · exact grd_bind (grd_log hl.log) fun _ _ e3 => e1.trans e3

theorem grd_fitLog {V : World α} (hb : R.b ≤ V.next) {m : Model α} {X Y : Mat} (hl : TrainOk R V m) (hX : MOk R V X) (hY : MOk R V Y)
    {sl sa : LogStage} {mk : α → α → LogEvent α} : (fitLogP m X Y sl sa mk).grd R V (fun _ V' => Ext R V V') := by
  unfold fitLogP
  refine grd_bind (grd_calculateLoss hb hl.modelOk hX hY hl.pos) ?_
  rintro ⟨j, _ | er⟩ V1 e1
  · refine grd_bind (grd_calculateAccuracy (hb.trans e1.next) (hl.ext e1).modelOk (hX.ext e1) (hY.ext e1) hl.pos) ?_
    rintro ⟨a, _ | er⟩ V2 e2 <;> exact grd_bind (grd_log hl.log) fun _ _ e3 => e1.trans (e2.trans e3)
  · exact grd_bind (grd_log hl.log) fun _ _ e3 => e1.trans e3

theorem grd_fitEpoch {V : World α} (hb : R.b ≤ V.next) {m : Model α} {X Y xv yv : Mat} (hl : TrainOk R V m) (hX : DOk R V X) (hY : DOk R V Y)
    (hxv : MOk R V xv) (hyv : MOk R V yv) {s b le : Int} {ep : Nat} : (fitEpochP m X Y s b xv yv le ep).grd R V (fun _ V' => Ext R V V') := by
  unfold fitEpochP
  refine grd_bind (grd_forRet (I := fun W => Ext R V W) (Ext.refl V) fun i W _ e =>
    grd_mono (grd_fitBatch (hb.trans e.next) (hl.ext e) (hX.ext e) (hY.ext e)) fun _ _ h => e.trans h) fun r V1 e1 => ?_
  cases r with
  | some e => exact e1
  | none =>
    have tail : ∀ V2, Ext R V V2 → (if yv.rows ≠ 0 ∧ le ≠ 0 ∧ Int.tmod ep le = 0 then do
          let err ← fitLogP m xv yv .valLoss .valAccuracy (fun l a => .valInfo ep l a)
          if let some e := err then
            return some e
          return none
        else return none : Prog α (Option Err)).grd R V2 (fun _ V' => Ext R V V') := by
      intro V2 e2
      refine grd_ite_jp ?_ e2
      refine grd_bind (grd_fitLog (hb.trans e2.next) (hl.ext e2) (hxv.ext e2) (hyv.ext e2)) fun r V3 e3 => ?_
      cases r <;> exact e2.trans e3
    refine grd_ite_jp (c := le ≠ 0 ∧ Int.tmod ep le = 0) ?_ (tail V1 e1)
    refine grd_bind (grd_fitLog (hb.trans e1.next) (hl.ext e1) (hX.ext e1).mat (hY.ext e1).mat) fun r V2 e2 => ?_
    cases r with
    | some e => exact e1.trans e2
    | none => exact tail V2 (e1.trans e2)

/-- `Fit` uses only the memory of its region. -/
theorem grd_fit {V : World α} (hb : R.b ≤ V.next) {m : Model α} {X Y xv yv : Mat} (hl : TrainOk R V m) (hX : DOk R V X) (hY : DOk R V Y)
    (hxv : MOk R V xv) (hyv : MOk R V yv) {ep b le : Int} : (fitP m X Y ep b xv yv le).grd R V (fun _ V' => Ext R V V') := by
  unfold fitP
  exact grd_forRet (I := fun W => Ext R V W) (Ext.refl V) fun i W _ e =>
    grd_mono (grd_fitEpoch (hb.trans e.next) (hl.ext e) (hX.ext e) (hY.ext e) (hxv.ext e) (hyv.ext e)) fun _ _ h => e.trans h

end NN
