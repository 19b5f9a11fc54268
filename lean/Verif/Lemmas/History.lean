import Verif.Spec.History
import Verif.Spec.Place
import Verif.Lemmas.OptimErr
/- Histories of optimizer updates. -/

set_option linter.unusedSectionVars false

namespace NN
variable {α : Type} [Flt α]
open Go

theorem IsParams.elsewhere {u w' : World α} {op : Nat} {wm bm : Mat} {rw cw rb cb : Nat} {W B}
    (h : IsParams u wm bm rw cw rb cb W B) (e : Elsewhere op wm bm rw rb u w') : IsParams w' wm bm rw cw rb cb W B := by
  have ow : ¬ ¬ (wm.m.addr = wm.m.addr ∨ wm.m.addr = bm.m.addr ∨ wm.m.addr = (u.opt op).weightMomentums.m.addr ∨
        wm.m.addr = (u.opt op).biasMomentums.m.addr ∨ wm.m.addr = (u.opt op).weightCache.m.addr ∨
        wm.m.addr = (u.opt op).biasCache.m.addr) := fun h => h (.inl rfl)
  have ob : ¬ ¬ (bm.m.addr = wm.m.addr ∨ bm.m.addr = bm.m.addr ∨ bm.m.addr = (u.opt op).weightMomentums.m.addr ∨
        bm.m.addr = (u.opt op).biasMomentums.m.addr ∨ bm.m.addr = (u.opt op).weightCache.m.addr ∨
        bm.m.addr = (u.opt op).biasCache.m.addr) := fun h => h (.inr (.inl rfl))
  refine ⟨h.wmat.frame e ow fun a ha hn => hn (.inl (.inl ha)), h.bmat.frame e ob fun a ha hn => hn (.inl (.inr ha)),
    h.wd.frame e h.wmat.addr_lt ow, h.bd.frame e h.bmat.addr_lt ob, ?_⟩
  intro a h1 h2
  exact h.disj a ((h.wmat.isRow_frame e ow a).1 h1) ((h.bmat.isRow_frame e ob a).1 h2)

theorem IsOpt.elsewhere {u w' : World α} {op : Nat} {wm bm : Mat} {rw cw rb cb : Nat} {S : OptSpec α}
    (h : IsOpt u op rw cw rb cb S) (e : Elsewhere op wm bm rw rb u w') : IsOpt w' op rw cw rb cb S := by
  have ho : w'.opt op = u.opt op := e.opt op h.lt (fun h => h rfl)
  refine ⟨h.lt.trans_le e.next_le, by rw [ho]; exact h.fields, ?_, by rw [ho]; exact h.plain⟩
  rw [ho]
  rcases h.slots with ⟨h0, a, b, c, d⟩ | ⟨a, b, c, d⟩
  · exact .unset h0 a b c d
  · have hne : (u.opt op).weightMomentums.rows ≠ 0 := by have := a.rows; have := a.rpos; omega
    refine .set ?_ ?_ ?_ ?_
    · exact a.frame e (fun h => h (.inr (.inr (.inl rfl)))) fun a ha hn => hn (.inr ⟨hne, .inl ha⟩)
    · exact b.frame e (fun h => h (.inr (.inr (.inr (.inl rfl))))) fun a ha hn => hn (.inr ⟨hne, .inr (.inl ha)⟩)
    · intro hk
      have hk' : (u.opt op).kind = .adam := h.fields.kind.trans hk
      exact (c hk).frame e (fun h => h (.inr (.inr (.inr (.inr (.inl rfl))))))
        fun a ha hn => hn (.inr ⟨hne, .inr (.inr ⟨hk', .inl ha⟩)⟩)
    · intro hk
      have hk' : (u.opt op).kind = .adam := h.fields.kind.trans hk
      exact (d hk).frame e (fun h => h (.inr (.inr (.inr (.inr (.inr rfl))))))
        fun a ha hn => hn (.inr ⟨hne, .inr (.inr ⟨hk', .inr ha⟩)⟩)

/-- Content of the optimizer before update number t. -/
def OptSpec.at (S : OptSpec α) (GW GB : Nat → Nat → Nat → α) : Nat → OptSpec α
  | 0 => S
  | t + 1 => (OptSpec.at S GW GB t).step (GW t) (GB t)

def OptSpec.atW (S : OptSpec α) (GW GB : Nat → Nat → Nat → α) (W : Nat → Nat → α) : Nat → Nat → Nat → α
  | 0 => W
  | t + 1 => (S.at GW GB t).newW (OptSpec.atW S GW GB W t) (GW t)

def OptSpec.atB (S : OptSpec α) (GW GB : Nat → Nat → Nat → α) (B : Nat → Nat → α) : Nat → Nat → Nat → α
  | 0 => B
  | t + 1 => (S.at GW GB t).newB (OptSpec.atB S GW GB B t) (GB t)

theorem History.run {k : Nat} {w : Nat → World α} {op : Nat} {wm bm : Mat} {rw cw rb cb : Nat} {gw gb : Nat → Mat}
    {GW GB : Nat → Nat → Nat → α} {S : OptSpec α} {W B : Nat → Nat → α}
    (h : History k w op wm bm rw cw rb cb gw gb GW GB) (ho : IsOpt (w 0) op rw cw rb cb S)
    (hp : IsParams (w 0) wm bm rw cw rb cb W B) :
    Follows k w op wm bm rw cw rb cb gw gb (S.atW GW GB W) (S.atB GW GB B) := by
  have key : ∀ t, t ≤ k → IsOpt (w t) op rw cw rb cb (S.at GW GB t) ∧
      IsParams (w t) wm bm rw cw rb cb (S.atW GW GB W t) (S.atB GW GB B t) := by
    intro t
    induction t with
    | zero => intro _; exact ⟨ho, hp⟩
    | succ t ih =>
      intro ht
      obtain ⟨h1, h2⟩ := ih (by omega)
      have := optUpdate_spec h1 h2 (h.gradW t ht) (h.gradB t ht)
      rw [wp_iff] at this
      obtain ⟨e, u, hr, -, hu⟩ := this
      have he := h.next t ht e u hr
      exact ⟨hu.opt.elsewhere he, hu.params.elsewhere he⟩
  refine ⟨fun t ht => (key t ht).2, fun t ht => ?_⟩
  obtain ⟨h1, h2⟩ := key t (by omega)
  have := optUpdate_spec h1 h2 (h.gradW t ht) (h.gradB t ht)
  rw [wp_iff] at this
  obtain ⟨e, u, hr, rfl, hu⟩ := this
  exact ⟨u, hr, hu.frame⟩

/-- The content of a new optimizer. -/
def OptSpec.fresh (o : Optim α) : OptSpec α where
  kind := o.kind
  lr := o.learningRate
  decay := o.decay
  momentum := o.momentum
  epsilon := o.epsilon
  beta1 := o.beta1
  beta2 := o.beta2
  t := 0
  vw := fun _ _ => Flt.zero
  vb := fun _ _ => Flt.zero
  cw := fun _ _ => Flt.zero
  cb := fun _ _ => Flt.zero

theorem OptSpec.at_hyper (S : OptSpec α) (GW GB : Nat → Nat → Nat → α) (t : Nat) :
    (S.at GW GB t).kind = S.kind ∧ (S.at GW GB t).lr = S.lr ∧ (S.at GW GB t).decay = S.decay ∧
    (S.at GW GB t).momentum = S.momentum ∧ (S.at GW GB t).epsilon = S.epsilon ∧ (S.at GW GB t).beta1 = S.beta1 ∧
    (S.at GW GB t).beta2 = S.beta2 ∧ (S.at GW GB t).t = S.t + t := by
  induction t with
  | zero => simp [OptSpec.at]
  | succ t ih =>
    obtain ⟨h1, h2, h3, h4, h5, h6, h7, h8⟩ := ih
    refine ⟨h1, h2, h3, h4, h5, h6, h7, ?_⟩
    show (S.at GW GB t).t + 1 = _
    omega

theorem newSGD_ok {lr decay mom : α} {o : Optim α} (h : newSGDOptimizer lr decay mom = (o, none)) :
    o = { (Optim.zero .sgd : Optim α) with
      learningRate := lr, decay := decay, momentum := mom, currentRate := lr,
      useDecay := !Flt.eq decay Flt.zero, useMomentum := !Flt.eq mom Flt.zero } := by
  unfold newSGDOptimizer at h
  split at h
  · simp at h
  split at h
  · simp at h
  split at h
  · simp at h
  · simp only [Prod.mk.injEq, and_true] at h
    exact h.symm

theorem newAdam_ok {lr decay eps b1 b2 : α} {o : Optim α} (h : newAdamOptimizer lr decay eps b1 b2 = (o, none)) :
    o = { (Optim.zero .adam : Optim α) with
      learningRate := lr, decay := decay, epsilon := eps, beta1 := b1, beta2 := b2, currentRate := lr,
      useDecay := !Flt.eq decay Flt.zero } := by
  unfold newAdamOptimizer at h
  split at h
  · simp at h
  split at h
  · simp at h
  · simp only [Prod.mk.injEq, and_true] at h
    exact h.symm

theorem isOpt_newSGD {w : World α} {op : Nat} (rw cw rb cb : Nat) {lr decay mom : α} (hlt : op < w.next)
    (h : newSGDOptimizer lr decay mom = (w.opt op, none)) :
    IsOpt w op rw cw rb cb (OptSpec.fresh (w.opt op)) := by
  have e := newSGD_ok h
  refine ⟨hlt, ?_, ?_, ?_⟩
  · rw [e]
    exact ⟨rfl, rfl, rfl, fun _ => rfl, rfl, rfl, rfl, rfl, rfl, fun _ => rfl, fun _ => rfl⟩
  · refine .unset ?_ (fun _ _ => rfl) (fun _ _ => rfl) (fun _ _ => rfl) (fun _ _ => rfl)
    rw [e]; rfl
  · intro _; rw [e]; rfl

theorem isOpt_newAdam {w : World α} {op : Nat} (rw cw rb cb : Nat) {lr decay eps b1 b2 : α} (hlt : op < w.next)
    (h : newAdamOptimizer lr decay eps b1 b2 = (w.opt op, none)) :
    IsOpt w op rw cw rb cb (OptSpec.fresh (w.opt op)) := by
  have e := newAdam_ok h
  refine ⟨hlt, ?_, ?_, ?_⟩
  · rw [e]
    exact ⟨rfl, rfl, rfl, (fun h => by cases h), rfl, rfl, rfl, rfl, rfl, (fun h => by cases h), fun _ => rfl⟩
  · refine .unset ?_ (fun _ _ => rfl) (fun _ _ => rfl) (fun _ _ => rfl) (fun _ _ => rfl)
    rw [e]; rfl
  · intro _; rw [e]; rfl

/-! ### Existence of histories (for the examples) -/

/-- The state after an update, or the same state if it fails. -/
def afterUpdate (op : Nat) (wm bm dw db : Mat) (w : World α) : World α :=
  match optUpdate op (some wm) (some bm) dw db w with
  | .ok (_, u) => u
  | .error _ => w

def iterUpdate (op : Nat) (wm bm dw db : Mat) (w : World α) : Nat → World α
  | 0 => w
  | t + 1 => afterUpdate op wm bm dw db (iterUpdate op wm bm dw db w t)

/-- For all parameters, every optimizer object with fresh content and all gradients there is a history of any length (with
constant gradients and nothing happening in between). -/
theorem exists_history (k : Nat) {rw cw rb cb : Nat} (h1 : 0 < rw) (h2 : 0 < cw) (h3 : 0 < rb) (h4 : 0 < cb)
    (W B GW GB : Nat → Nat → α) (o : Optim α)
    (hok : ∀ w : World α, ∀ op, op < w.next → w.opt op = o → IsOpt w op rw cw rb cb (OptSpec.fresh o)) :
    ∃ (w : Nat → World α) (op : Nat) (wm bm dw db : Mat),
      op < (w 0).next ∧ (w 0).opt op = o ∧ IsParams (w 0) wm bm rw cw rb cb W B ∧
      History k w op wm bm rw cw rb cb (fun _ => dw) (fun _ => db) (fun _ => GW) (fun _ => GB) := by
  let w0 : World α := { (emptyWorld : World α) with opt := fun _ => o }
  have p1 := place_spec w0 W h1 h2
  have p2 := place_spec (placeW w0 rw cw W) B h3 h4
  have p3 := place_spec (placeW (placeW w0 rw cw W) rb cb B) GW h1 h2
  have p4 := place_spec (placeW (placeW (placeW w0 rw cw W) rb cb B) rw cw GW) GB h3 h4
  set w1 := placeW w0 rw cw W
  set w2 := placeW w1 rb cb B
  set w3 := placeW w2 rw cw GW
  set w4 := placeW w3 rb cb GB
  have hlt : 0 < w4.next :=
    Nat.lt_of_lt_of_le Nat.zero_lt_one
      ((p1.frame.next_le.trans p2.frame.next_le).trans (p3.frame.next_le.trans p4.frame.next_le))
  have f24 : OnlyAllocs w2 w4 := p3.frame.trans p4.frame
  have f14 : OnlyAllocs w1 w4 := p2.frame.trans f24
  have m1 := p1.mat.allocs f14
  have m2 := p2.mat.allocs f24
  have m3 := p3.mat.allocs p4.frame
  have m4 := p4.mat
  have hp : IsParams w4 (placeM w0 rw cw) (placeM w1 rb cb) rw cw rb cb W B := by
    refine ⟨m1, m2, p1.distinct.frame f14 p1.mat.addr_lt (fun h => h),
      p2.distinct.frame f24 p2.mat.addr_lt (fun h => h), ?_⟩
    intro a ha hb
    have := p2.fresh a ((p2.mat.isRow_frame f24 (fun h => h) a).1 hb)
    have := p1.mat.isRow_lt ((p1.mat.isRow_frame f14 (fun h => h) a).1 ha)
    omega
  have hopt : w4.opt 0 = o := rfl
  have hd3 : ∀ a, w4.IsRow (placeM w2 rw cw) rw a → ¬ w4.IsPRow (placeM w0 rw cw) (placeM w1 rb cb) rw rb a := by
    intro a ha
    have h3 := p3.fresh a ((p3.mat.isRow_frame p4.frame (fun h => h) a).1 ha)
    rintro (hb | hb)
    · have := p1.mat.isRow_lt ((p1.mat.isRow_frame f14 (fun h => h) a).1 hb)
      have := p2.frame.next_le
      omega
    · have := p2.mat.isRow_lt ((p2.mat.isRow_frame f24 (fun h => h) a).1 hb)
      omega
  have hd4 : ∀ a, w4.IsRow (placeM w3 rb cb) rb a → ¬ w4.IsPRow (placeM w0 rw cw) (placeM w1 rb cb) rw rb a := by
    intro a ha
    have h4 := p4.fresh a ha
    have := p3.frame.next_le
    rintro (hb | hb)
    · have := p1.mat.isRow_lt ((p1.mat.isRow_frame f14 (fun h => h) a).1 hb)
      have := p2.frame.next_le
      omega
    · have := p2.mat.isRow_lt ((p2.mat.isRow_frame f24 (fun h => h) a).1 hb)
      omega
  clear_value w4
  generalize placeM w0 rw cw = wm at *
  generalize placeM w1 rb cb = bm at *
  generalize placeM w2 rw cw = dw at *
  generalize placeM w3 rb cb = db at *
  refine ⟨iterUpdate 0 wm bm dw db w4, 0, wm, bm, dw, db, hlt, hopt, hp, ?_⟩
  have key : ∀ t, ∃ S W B, IsOpt (iterUpdate 0 wm bm dw db w4 t) 0 rw cw rb cb S ∧
      IsParams (iterUpdate 0 wm bm dw db w4 t) wm bm rw cw rb cb W B ∧
      Frame { flt := w4.IsPRow wm bm rw rb, opt := fun a => a = 0 } w4 (iterUpdate 0 wm bm dw db w4 t) := by
    intro t
    induction t with
    | zero => exact ⟨_, W, B, hok w4 0 hlt hopt, hp, Frame.refl _ _⟩
    | succ t ih =>
      obtain ⟨S, W', B', i1, i2, i3⟩ := ih
      have g1 : IsMat (iterUpdate 0 wm bm dw db w4 t) dw rw cw GW := m3.frame i3 (fun h => h) hd3
      have g2 : IsMat (iterUpdate 0 wm bm dw db w4 t) db rb cb GB := m4.frame i3 (fun h => h) hd4
      have hu := optUpdate_spec i1 i2 g1 g2
      rw [wp_iff] at hu
      obtain ⟨e, u, hr, -, hu⟩ := hu
      have hnext : iterUpdate 0 wm bm dw db w4 (t + 1) = u := by
        show afterUpdate 0 wm bm dw db _ = u
        unfold afterUpdate
        rw [hr]
      rw [hnext]
      refine ⟨_, _, _, hu.opt, hu.params, i3.trans_same (hu.frame.mono ⟨?_, fun _ h => h, fun _ h => h,
        fun _ h => h, id, id, id⟩)⟩
      rintro a (ha | ha)
      · exact .inl ((m1.isRow_frame i3 (fun h => h) a).1 ha)
      · exact .inr ((m2.isRow_frame i3 (fun h => h) a).1 ha)
  refine ⟨?_, ?_, ?_⟩
  · intro t _
    obtain ⟨S, W', B', i1, i2, i3⟩ := key t
    exact m3.frame i3 (fun h => h) hd3
  · intro t _
    obtain ⟨S, W', B', i1, i2, i3⟩ := key t
    exact m4.frame i3 (fun h => h) hd4
  · intro t _ e u hr
    have hnext : iterUpdate 0 wm bm dw db w4 (t + 1) = u := by
      show afterUpdate 0 wm bm dw db _ = u
      unfold afterUpdate
      rw [hr]
    rw [hnext]
    exact Frame.refl _ _

end NN
