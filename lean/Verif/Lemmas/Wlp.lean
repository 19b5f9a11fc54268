import Verif.Lemmas.ModelGo
import Verif.Model.Loss
import Verif.Model.Accuracy
/-
Partial correctness (`wlp`: if the computation returns normally, then ...) and its use for statements about arbitrary,
possibly malformed arguments: the functions that only write to matrices they have made themselves.
-/

set_option linter.unusedSectionVars false

namespace NN
variable {α β γ : Type}
open Go

/-- If `x` run from `w` returns normally, its result and final state satisfy `Q`. -/
def wlp (x : Go α β) (w : World α) (Q : β → World α → Prop) : Prop := ∀ b w', x w = .ok (b, w') → Q b w'

theorem wp.wlp {x : Go α β} {w : World α} {Q} (h : wp x w Q) : wlp x w Q := by
  intro b w' e
  rw [wp_iff] at h
  obtain ⟨b1, w1, e1, q⟩ := h
  rw [e] at e1; cases e1
  exact q

theorem wlp_mono {x : Go α β} {w : World α} {Q Q' : β → World α → Prop} (h : wlp x w Q)
    (hQ : ∀ b w', Q b w' → Q' b w') : wlp x w Q' := fun b w' e => hQ _ _ (h b w' e)

theorem wlp_pure {b : β} {w : World α} {Q : β → World α → Prop} (h : Q b w) : wlp (pure b : Go α β) w Q := by
  intro b' w' e; cases e; exact h

theorem wlp_bind {x : Go α β} {f : β → Go α γ} {w : World α} {R : β → World α → Prop} {Q : γ → World α → Prop}
    (h : wlp x w R) (hf : ∀ b w', R b w' → wlp (f b) w' Q) : wlp (x >>= f) w Q := by
  intro c w2 e
  change Go.bind x f w = _ at e
  unfold Go.bind at e
  split at e
  · cases e
  · rename_i b w' hx
    exact hf b w' (h b w' hx) c w2 e

theorem wlp_panic {p : Panic} {w : World α} {Q : β → World α → Prop} : wlp (Go.panic p : Go α β) w Q := by
  intro b w' e; cases e

theorem wlp_of_panics {x : Go α β} {w : World α} {Q : β → World α → Prop} (h : Panics x w) : wlp x w Q := by
  obtain ⟨p, h⟩ := h
  intro b w' e; rw [h] at e; cases e

theorem wlp_forN {n : Nat} {body : Nat → Go α Unit} {w : World α} (Inv : Nat → World α → Prop)
    (h0 : Inv 0 w) (hs : ∀ k w', k < n → Inv k w' → wlp (body k) w' (fun _ w'' => Inv (k + 1) w'')) :
    wlp (forN n body) w (fun _ w' => Inv n w') := by
  induction n with
  | zero => exact wlp_pure h0
  | succ n ih =>
    unfold forN
    exact wlp_bind (ih fun k w' hk => hs k w' (by omega)) fun _ w' h => hs n w' (by omega) h

theorem wlp_foldN {n : Nat} {body : Nat → β → Go α β} {b : β} {w : World α} (Inv : Nat → β → World α → Prop)
    (h0 : Inv 0 b w)
    (hs : ∀ k b' w', k < n → Inv k b' w' → wlp (body k b') w' (fun b'' w'' => Inv (k + 1) b'' w'')) :
    wlp (foldN n body b) w (fun b' w' => Inv n b' w') := by
  induction n with
  | zero => exact wlp_pure h0
  | succ n ih =>
    unfold foldN
    exact wlp_bind (ih fun k b' w' hk => hs k b' w' (by omega)) fun _ w' h => hs n _ w' (by omega) h

theorem wlp_forRet {n : Nat} {body : Nat → Go α (Option β)} {w : World α} (Inv : Nat → World α → Prop)
    (Out : β → World α → Prop) (h0 : Inv 0 w)
    (hs : ∀ k w', k < n → Inv k w' → wlp (body k) w' (fun r w'' =>
      match r with | none => Inv (k + 1) w'' | some b => Out b w'')) :
    wlp (forRet n body) w (fun r w' => match r with | none => Inv n w' | some b => Out b w') := by
  induction n with
  | zero => exact wlp_pure h0
  | succ n ih =>
    unfold forRet
    refine wlp_bind (ih fun k w' hk => hs k w' (by omega)) ?_
    intro r w' hr
    cases r with
    | some b => exact wlp_pure hr
    | none => exact hs n w' (by omega) hr

/-- Reading never changes the state. -/
theorem wlp_at {m : Mat} {i j : Int} {w : World α} : wlp (m.at i j) w (fun _ w' => w' = w) := by
  unfold Mat.at
  refine wlp_bind (R := fun _ w' => w' = w) ?_ ?_
  · intro b w' e
    unfold rowRef at e
    split at e
    · split at e <;> cases e; rfl
    · cases e
  · rintro a w' rfl b w'' e
    unfold rowGet at e
    split at e
    · split at e <;> cases e; rfl
    · cases e

/-- The rows of `m` are inside the footprint or did not exist in `w0`. -/
structure NewIn (f : Foot) (w0 w : World α) (m : Mat) : Prop where
  lt : (∀ a, f.flt a) ∨ m.m.len = 0 ∨ m.m.addr < w.next
  rows : ∀ i a, i < m.m.len → w.rowAddr m i = some a → f.flt a ∨ w0.next ≤ a

/-- `m` is empty, or its array of rows did not exist in `w0`. -/
def NewOuter (w0 : World α) (m : Mat) : Prop := m.m.len = 0 ∨ w0.next ≤ m.m.addr

/-- The state has developed from `w0` within the footprint `f`; layer objects have changed only in what they remember,
no row has changed its length; the matrices `ms` have their rows inside the footprint or in storage made since then. -/
structure Since (f : Foot) (w0 w : World α) (ms : List Mat) : Prop where
  frame : Frame f w0 w
  stat : Static w0 w
  len : ∀ a, a < w0.next → (w.flt a).length = (w0.flt a).length
  mats : ∀ m ∈ ms, NewIn f w0 w m

theorem NewIn.zero (f : Foot) (w0 w : World α) : NewIn f w0 w Mat.zero :=
  ⟨.inr (.inl rfl), (fun _ _ h => absurd h (Nat.not_lt_zero _))⟩

theorem NewIn.mono {f : Foot} {w0 w w' : World α} {m : Mat} (h : NewIn f w0 w m) (hn : w.next ≤ w'.next)
    (ho : ∀ a, a < w.next → w'.outs a = w.outs a) : NewIn f w0 w' m := by
  refine ⟨h.lt.imp id fun h => h.imp id fun h => h.trans_le hn, ?_⟩
  intro i a hi e
  rcases h.lt with h0 | h0 | hlt
  · exact .inl (h0 a)
  · omega
  · rw [rowAddr_eq (ho _ hlt)] at e
    exact h.rows i a hi e

/-- A step that changes rows inside the footprint or made since `w0`, keeping their lengths, and allocates. -/
theorem Since.step {f : Foot} {w0 w w' : World α} {ms : List Mat} (h : Since f w0 w ms) (hf : Frame f w0 w')
    (hn : w.next ≤ w'.next) (ho : ∀ a, a < w.next → w'.outs a = w.outs a) (hl : ∀ a, a < w0.next → w'.lay a = w.lay a)
    (hlen : ∀ a, a < w0.next → (w'.flt a).length = (w.flt a).length) : Since f w0 w' ms :=
  ⟨hf, fun a ha => by rw [hl a ha]; exact h.stat a ha, fun a ha => (hlen a ha).trans (h.len a ha),
    fun m hm => (h.mats m hm).mono hn ho⟩

theorem Since.cons {f : Foot} {w0 w : World α} {m : Mat} {ms : List Mat} (h : Since f w0 w ms) (hm : NewIn f w0 w m) :
    Since f w0 w (m :: ms) :=
  ⟨h.frame, h.stat, h.len, fun m' hm' => by
    rcases List.mem_cons.1 hm' with rfl | hm'
    · exact hm
    · exact h.mats m' hm'⟩

theorem Since.sub {f : Foot} {w0 w : World α} {ms ms' : List Mat} (h : Since f w0 w ms) (hs : ∀ m ∈ ms', m ∈ ms) :
    Since f w0 w ms' := ⟨h.frame, h.stat, h.len, fun m hm => h.mats m (hs m hm)⟩

theorem Since.zero {f : Foot} {w0 w : World α} {ms : List Mat} (h : Since f w0 w ms) : Since f w0 w (Mat.zero :: ms) :=
  h.cons (NewIn.zero _ _ _)

/-- Assigning to an entry of such a matrix. -/
theorem wlp_setAt {f : Foot} {w0 w : World α} {m : Mat} {i j : Int} {v : α} {ms : List Mat} (h : Since f w0 w ms)
    (hm : m ∈ ms) : wlp (m.setAt i j v) w (fun _ w' => Since f w0 w' ms) := by
  unfold Mat.setAt
  have hn := h.mats m hm
  refine wlp_bind (R := fun a w' => w' = w ∧ (f.flt a ∨ w0.next ≤ a)) ?_ ?_
  · intro a w' e
    unfold rowRef at e
    split at e
    · rename_i hc
      split at e
      · rename_i b hb
        cases e
        refine ⟨rfl, ?_⟩
        exact hn.rows i.toNat a (by omega) hb
      · cases e
    · cases e
  · rintro a w' ⟨rfl, ha⟩ b w'' e
    unfold rowSet at e
    split at e
    · cases e
      have hf := h.frame
      refine h.step ⟨hf.next_le, ?_, hf.outs, hf.lay, hf.opt, hf.norm, hf.unif, hf.normPos, hf.unifPos, hf.log, hf.logger⟩
        le_rfl (fun _ _ => rfl) (fun _ _ => rfl) ?_
      · intro x hx hxf
        exact (upd_ne (show x ≠ a by rintro rfl; exact ha.elim hxf (fun h => absurd hx (not_lt.2 h)))).trans
          (hf.flt x hx hxf)
      · intro x hx
        by_cases e : x = a
        · subst e
          exact (congrArg List.length (upd_same ..)).trans (List.length_set ..)
        · exact congrArg List.length (upd_ne e)
    · cases e

variable [Flt α]

/-- Making a matrix. -/
theorem wlp_newMatrix' {f : Foot} {w0 w : World α} {r c : Int} {ms : List Mat} (h : Since f w0 w ms) :
    wlp (newMatrix r c) w (fun p w' => Since f w0 w' (p.1 :: ms) ∧ NewOuter w0 p.1) := by
  by_cases hb : r < 1 ∨ c < 1
  · unfold newMatrix
    rw [if_pos hb]
    exact wlp_pure ⟨h.zero, .inl rfl⟩
  · obtain ⟨r', rfl⟩ : ∃ r' : Nat, r = r' := ⟨r.toNat, by omega⟩
    obtain ⟨c', rfl⟩ : ∃ c' : Nat, c = c' := ⟨c.toNat, by omega⟩
    refine wlp_mono (newMatrix_spec (w := w) (r := r') (c := c') (by omega) (by omega)).wlp ?_
    rintro ⟨m0, e⟩ w' ⟨-, hn⟩
    dsimp only at hn ⊢
    have hle := h.frame.next_le
    refine ⟨(h.step (h.frame.trans hn.frame (fun _ _ h => h) (fun _ _ h => h.elim) (fun _ _ h => h) (fun _ _ h => h.elim)
      (fun _ _ h => h) (fun _ _ h => h.elim) (fun _ _ h => h) (fun _ _ h => h.elim) id False.elim id False.elim id
      False.elim) hn.frame.next_le (fun a ha => hn.frame.outs a ha id) (fun a ha => hn.frame.lay a (ha.trans_le hle) id)
      (fun a ha => by rw [hn.frame.flt a (ha.trans_le hle) id])).cons ?_,
      .inr (hle.trans hn.fresh_outer)⟩
    · refine ⟨.inr (.inr hn.mat.addr_lt), ?_⟩
      intro i a hi e
      rw [hn.mat.len] at hi
      exact .inr (hle.trans (hn.fresh a ⟨i, hi, e⟩))

theorem wlp_newMatrix {f : Foot} {w0 w : World α} {r c : Int} {ms : List Mat} (h : Since f w0 w ms) :
    wlp (newMatrix r c) w (fun p w' => Since f w0 w' (p.1 :: ms)) := wlp_mono (wlp_newMatrix' h) fun _ _ h => h.1

theorem Since.tail {f : Foot} {w0 w : World α} {m : Mat} {ms : List Mat} (h : Since f w0 w (m :: ms)) : Since f w0 w ms :=
  h.sub fun _ hx => List.mem_cons_of_mem _ hx

theorem Since.refl (w : World α) : Since {} w w [] :=
  ⟨Frame.refl {} w, Static.refl w, fun _ _ => rfl, fun _ h => by cases h⟩

/-- `m.at i j >>= k` -/
theorem wlp_at_bind {m : Mat} {i j : Int} {w : World α} {k : α → Go α β} {Q : β → World α → Prop}
    (h : ∀ v, wlp (k v) w Q) : wlp (m.at i j >>= k) w Q := by
  refine wlp_bind wlp_at ?_
  rintro v w' rfl
  exact h v

theorem wlp_forN_since {f : Foot} {w0 w : World α} {ms : List Mat} {n : Nat} {body : Nat → Go α Unit}
    (h : Since f w0 w ms) (hs : ∀ k w', Since f w0 w' ms → wlp (body k) w' (fun _ w'' => Since f w0 w'' ms)) :
    wlp (forN n body) w (fun _ w' => Since f w0 w' ms) :=
  wlp_forN (fun _ w' => Since f w0 w' ms) h fun k w' _ h' => hs k w' h'

theorem wlp_foldN_since {f : Foot} {w0 w : World α} {ms : List Mat} {n : Nat} {body : Nat → β → Go α β} {b : β}
    (h : Since f w0 w ms) (hs : ∀ k b w', Since f w0 w' ms → wlp (body k b) w' (fun _ w'' => Since f w0 w'' ms)) :
    wlp (foldN n body b) w (fun _ w' => Since f w0 w' ms) :=
  wlp_foldN (fun _ _ w' => Since f w0 w' ms) h fun k b w' _ h' => hs k b w' h'

theorem wlp_sub {f : Foot} {w0 w : World α} {a b : Mat} {ms : List Mat} (h : Since f w0 w ms) :
    wlp (a.sub b) w (fun p w' => Since f w0 w' (p.1 :: ms)) := by
  unfold Mat.sub
  split
  · exact wlp_pure h.zero
  refine wlp_bind (wlp_newMatrix h) ?_
  rintro ⟨ans, e⟩ w1 h1
  dsimp only at h1 ⊢
  refine wlp_bind (wlp_forN_since h1 fun i w2 h2 => wlp_forN_since h2 fun j w3 h3 =>
    wlp_at_bind fun _ => wlp_at_bind fun _ => wlp_setAt h3 List.mem_cons_self) ?_
  rintro _ w2 h2
  exact wlp_pure h2

theorem wlp_sum {f : Foot} {w0 w : World α} {a : Mat} {ax : Int} {ms : List Mat} (h : Since f w0 w ms) :
    wlp (a.sum ax) w (fun _ w' => Since f w0 w' ms) := by
  unfold Mat.sum
  by_cases h0 : ax = 0
  · rw [if_pos h0]
    dsimp only
    split
    · exact wlp_bind (R := fun _ _ => False) wlp_panic fun _ _ h => h.elim
    refine wlp_bind (wlp_newMatrix h) ?_
    rintro ⟨ans, e⟩ w1 h1
    dsimp only at h1 ⊢
    refine wlp_bind (wlp_forN_since h1 fun i w2 h2 => wlp_bind (wlp_foldN_since h2 fun j b w3 h3 =>
      wlp_at_bind fun _ => wlp_pure h3) fun _ w3 h3 => wlp_setAt h3 List.mem_cons_self) ?_
    rintro _ w2 h2
    exact wlp_pure h2.tail
  · rw [if_neg h0]
    dsimp only
    split
    · exact wlp_bind (R := fun _ _ => False) wlp_panic fun _ _ h => h.elim
    refine wlp_bind (wlp_newMatrix h) ?_
    rintro ⟨ans, e⟩ w1 h1
    dsimp only at h1 ⊢
    refine wlp_bind (wlp_forN_since h1 fun i w2 h2 => wlp_bind (wlp_foldN_since h2 fun j b w3 h3 =>
      wlp_at_bind fun _ => wlp_pure h3) fun _ w3 h3 => wlp_setAt h3 List.mem_cons_self) ?_
    rintro _ w2 h2
    exact wlp_pure h2.tail

theorem wlp_clip {f : Foot} {w0 w : World α} {a : Mat} {ms : List Mat} (h : Since f w0 w ms) (ha : a ∈ ms) :
    wlp (clip a) w (fun p w' => p = a ∧ Since f w0 w' ms) := by
  unfold clip
  refine wlp_bind (wlp_forN_since h fun i w2 h2 => wlp_forN_since h2 fun j w3 h3 => wlp_at_bind fun _ => ?_) ?_
  · split
    · exact wlp_setAt h3 ha
    · refine wlp_at_bind fun _ => ?_
      split
      · exact wlp_setAt h3 ha
      · exact wlp_pure h3
  · rintro _ w2 h2
    exact wlp_pure ⟨rfl, h2⟩

/-- The losses write only to matrices made since `w0`, if the prediction is one of them. -/
theorem wlp_lossForward {f : Foot} {w0 w : World α} {l : Loss} {yhat y : Mat} {ms : List Mat} (h : Since f w0 w ms)
    (hy : yhat ∈ ms) : wlp (l.forward yhat y : Go α _) w (fun _ w' => Since f w0 w' ms) := by
  have sub_case : ∀ g : α → α, wlp (do
      if let some e := lossCheck l.size yhat y then
        return (Flt.zero, some e)
      let (sub, err) ← yhat.sub y
      if let some e := err then
        return (Flt.zero, some e)
      forN sub.cols.toNat fun i => do
        let x ← sub.at 0 i
        sub.setAt 0 i (g x)
      let s ← sub.sum 1
      let v ← s.at 0 0
      return (v /. Flt.ofInt sub.cols, none) : Go α (α × Option Err)) w (fun _ w' => Since f w0 w' ms) := by
    intro g
    split
    · exact wlp_pure h
    refine wlp_bind (wlp_sub h) ?_
    rintro ⟨s, e⟩ w1 h1
    dsimp only at h1 ⊢
    split
    · exact wlp_pure h1.tail
    refine wlp_bind (wlp_forN_since h1 fun i w2 h2 => wlp_at_bind fun _ => wlp_setAt h2 List.mem_cons_self) ?_
    rintro _ w2 h2
    refine wlp_bind (wlp_sum h2) ?_
    rintro _ w3 h3
    exact wlp_at_bind fun _ => wlp_pure h3.tail
  unfold Loss.forward
  split
  · exact sub_case _
  · exact sub_case _
  · unfold ceForward
    split
    · exact wlp_pure h
    refine wlp_bind (wlp_clip h hy) ?_
    rintro clipped w1 ⟨rfl, h1⟩
    refine wlp_bind (wlp_newMatrix h1) ?_
    rintro ⟨lk, e⟩ w2 h2
    dsimp only at h2 ⊢
    refine wlp_bind (wlp_forN_since h2 fun i w3 h3 => wlp_bind (wlp_foldN_since h3 fun j b w4 h4 =>
      wlp_at_bind fun _ => wlp_at_bind fun _ => wlp_pure h4) fun _ w4 h4 => wlp_setAt h4 List.mem_cons_self) ?_
    rintro _ w3 h3
    refine wlp_bind (wlp_foldN_since h3 fun j b w4 h4 => wlp_at_bind fun _ => wlp_pure h4) ?_
    rintro _ w4 h4
    exact wlp_pure h4.tail
  · unfold bceForward
    split
    · exact wlp_pure h
    refine wlp_bind (wlp_clip h hy) ?_
    rintro clipped w1 ⟨rfl, h1⟩
    refine wlp_bind (wlp_foldN_since h1 fun i b w2 h2 => wlp_foldN_since h2 fun j b w3 h3 =>
      wlp_at_bind fun _ => wlp_at_bind fun _ => wlp_pure h3) ?_
    rintro _ w2 h2
    exact wlp_pure h2

theorem wlp_rowMax {f : Foot} {w0 w : World α} {a : Mat} {ms : List Mat} (h : Since f w0 w ms) :
    wlp (rowMax a) w (fun p w' => Since f w0 w' (p :: ms)) := by
  unfold rowMax
  refine wlp_bind (wlp_newMatrix h) ?_
  rintro ⟨ans, e⟩ w1 h1
  dsimp only at h1 ⊢
  refine wlp_bind (wlp_forN_since h1 fun i w2 h2 => wlp_bind (wlp_foldN_since h2 fun j b w3 h3 =>
    wlp_at_bind fun _ => ?_) fun p w3 h3 => ?_) ?_
  · split
    · exact wlp_at_bind fun _ => wlp_pure h3
    · exact wlp_pure h3
  · exact wlp_setAt h3 List.mem_cons_self
  · rintro _ w2 h2
    exact wlp_pure h2

theorem wlp_outputBinaryValues {f : Foot} {w0 w : World α} {a : Mat} {ms : List Mat} (h : Since f w0 w ms) (ha : a ∈ ms) :
    wlp (outputBinaryValues a) w (fun p w' => p = a ∧ Since f w0 w' ms) := by
  unfold outputBinaryValues
  refine wlp_bind (wlp_forN_since h fun i w2 h2 => wlp_forN_since h2 fun j w3 h3 => wlp_at_bind fun _ => ?_) ?_
  · split
    · exact wlp_setAt h3 ha
    · exact wlp_setAt h3 ha
  · rintro _ w2 h2
    exact wlp_pure ⟨rfl, h2⟩

theorem wlp_regressionAccuracy {f : Foot} {w0 w : World α} {yhat y : Mat} {p : α} {ms : List Mat} (h : Since f w0 w ms) :
    wlp (regressionAccuracy yhat y p) w (fun _ w' => Since f w0 w' ms) := by
  unfold regressionAccuracy
  refine wlp_bind (wlp_foldN_since h fun i b w2 h2 => wlp_foldN_since h2 fun j b w3 h3 =>
    wlp_at_bind fun _ => wlp_at_bind fun _ => ?_) fun _ w2 h2 => wlp_pure h2
  split <;> exact wlp_pure h3

theorem wlp_categoricalAccuracy {f : Foot} {w0 w : World α} {yhat y : Mat} {ms : List Mat} (h : Since f w0 w ms) :
    wlp (categoricalAccuracy yhat y) w (fun _ w' => Since f w0 w' ms) := by
  unfold categoricalAccuracy
  refine wlp_bind (wlp_rowMax h) ?_
  rintro o w1 h1
  refine wlp_bind (wlp_foldN_since h1 fun i b w2 h2 => wlp_at_bind fun _ => wlp_at_bind fun _ => ?_)
    fun _ w2 h2 => wlp_pure h2.tail
  split <;> exact wlp_pure h2

theorem wlp_binaryCategoricalAccuracy {f : Foot} {w0 w : World α} {yhat y : Mat} {ms : List Mat} (h : Since f w0 w ms)
    (hy : yhat ∈ ms) : wlp (binaryCategoricalAccuracy yhat y) w (fun _ w' => Since f w0 w' ms) := by
  unfold binaryCategoricalAccuracy
  refine wlp_bind (wlp_outputBinaryValues h hy) ?_
  rintro o w1 ⟨-, h1⟩
  refine wlp_bind (wlp_foldN_since h1 fun i b w2 h2 => wlp_foldN_since h2 fun j b w3 h3 =>
    wlp_at_bind fun _ => wlp_at_bind fun _ => ?_) fun _ w2 h2 => wlp_pure h2
  split <;> exact wlp_pure h3

end NN
