import Verif.Lemmas.Matrix
import Verif.Lemmas.Layer
import Verif.Spec.Optim
import Verif.Model.Optimizers
/- Execution lemmas for optimizers.go. -/

set_option linter.unusedSectionVars false

namespace NN
variable {α : Type} [Flt α]
open Go

theorem addInto_spec {w : World α} {m u : Mat} {r c : Nat} {A B : Nat → Nat → α} (hA : IsMat w m r c A)
    (hd : DistinctRows w m r) (hB : IsMat w u r c B) (hdisj : ∀ a, w.IsRow u r a → ¬ w.IsRow m r a) :
    wp (addInto m u) w (fun _ w' => SetMat w w' m r c (fun i j => A i j +. B i j)) := by
  unfold addInto
  rw [hA.rows, hA.cols, Int.toNat_natCast, Int.toNat_natCast]
  refine wp_fill (V := fun i j => A i j +. B i j) hA ?_
  intro i j w1 hi hj hw1
  rw [wp_bind, wp_at hw1.mat hi hj, mix_self, wp_bind, wp_at (hB.frame hw1.frame (fun h => h) hdisj) hi hj]
  exact hw1.put hd hi hj rfl

theorem subInto_spec {w : World α} {m u : Mat} {r c : Nat} {A B : Nat → Nat → α} (hA : IsMat w m r c A)
    (hd : DistinctRows w m r) (hB : IsMat w u r c B) (hdisj : ∀ a, w.IsRow u r a → ¬ w.IsRow m r a) :
    wp (subInto m u) w (fun _ w' => SetMat w w' m r c (fun i j => A i j -. B i j)) := by
  unfold subInto
  rw [hA.rows, hA.cols, Int.toNat_natCast, Int.toNat_natCast]
  refine wp_fill (V := fun i j => A i j -. B i j) hA ?_
  intro i j w1 hi hj hw1
  rw [wp_bind, wp_at hw1.mat hi hj, mix_self, wp_bind, wp_at (hB.frame hw1.frame (fun h => h) hdisj) hi hj]
  exact hw1.put hd hi hj rfl

theorem adamStep_spec {w : World α} {m u v : Mat} {r c : Nat} {A B C : Nat → Nat → α} (rate eps : α)
    (hA : IsMat w m r c A) (hd : DistinctRows w m r) (hB : IsMat w u r c B) (hC : IsMat w v r c C)
    (hu : ∀ a, w.IsRow u r a → ¬ w.IsRow m r a) (hv : ∀ a, w.IsRow v r a → ¬ w.IsRow m r a) :
    wp (adamStep m u v rate eps) w (fun _ w' => SetMat w w' m r c (fun i j =>
      A i j +. Flt.neg rate *. B i j /. (Flt.sqrt (C i j) +. eps))) := by
  unfold adamStep
  rw [hA.rows, hA.cols, Int.toNat_natCast, Int.toNat_natCast]
  refine wp_fill (V := fun i j => A i j +. Flt.neg rate *. B i j /. (Flt.sqrt (C i j) +. eps)) hA ?_
  intro i j w1 hi hj hw1
  rw [wp_bind, wp_at hw1.mat hi hj, mix_self, wp_bind, wp_at (hB.frame hw1.frame (fun h => h) hu) hi hj,
    wp_bind, wp_at (hC.frame hw1.frame (fun h => h) hv) hi hj]
  exact hw1.put hd hi hj rfl

/-- The state after assigning to an optimizer object. -/
def World.setOpt (w : World α) (op : Nat) (o : Optim α) : World α := { w with opt := upd w.opt op o }

theorem optSet_run (w : World α) (op : Nat) (o : Optim α) : optSet op o w = .ok ((), w.setOpt op o) := rfl

theorem setOpt_opt (w : World α) (op : Nat) (o : Optim α) : (w.setOpt op o).opt op = o := upd_same

theorem setOpt_isRow (w : World α) (op : Nat) (o : Optim α) (m : Mat) (r a : Nat) :
    (w.setOpt op o).IsRow m r a ↔ w.IsRow m r a := Iff.rfl

theorem frame_optSet (w : World α) (op : Nat) (o : Optim α) : Frame { opt := fun a => a = op } w (w.setOpt op o) :=
  ⟨Nat.le_refl _, fun _ _ _ => rfl, fun _ _ _ => rfl, fun _ _ _ => rfl, fun _ _ h => upd_ne h, rfl, rfl,
    fun _ => rfl, fun _ => rfl, fun _ => rfl, rfl⟩

theorem Frame.then_allocs {f : Foot} {w w1 w2 : World α} (h1 : Frame f w w1) (h2 : OnlyAllocs w1 w2) : Frame f w w2 :=
  h1.trans_same (h2.mono (Foot.Le.empty f))

theorem Frame.then_opt {op : Nat} {w w1 : World α} (h1 : Frame { opt := fun a => a = op } w w1) (o : Optim α) :
    Frame { opt := fun a => a = op } w (w1.setOpt op o) :=
  h1.trans_same (frame_optSet w1 op o)

/-- A matrix allocated after some optimizer bookkeeping. -/
theorem Fresh.of_new {f : Foot} {w w1 w2 : World α} {m : Mat} {r c : Nat} {V} (h1 : Frame f w w1)
    (h2 : NewMat w1 w2 m r c V) : Fresh w w2 m r c V :=
  h2.toFresh.mono h1.next_le

theorem Fresh.opt {op : Nat} {w w1 : World α} {m : Mat} {r c : Nat} {V} (h : Fresh w w1 m r c V) (o : Optim α) :
    Fresh w (w1.setOpt op o) m r c V :=
  h.frame (frame_optSet w1 op o) (fun h => h) (fun _ _ h => h)

theorem Fresh.allocs {w w1 w2 : World α} {m : Mat} {r c : Nat} {V} (h : Fresh w w1 m r c V) (h2 : OnlyAllocs w1 w2) :
    Fresh w w2 m r c V := h.frame h2 (fun h => h) (fun _ _ h => h)

theorem IsMat.optf {op : Nat} {w w1 : World α} {m : Mat} {r c : Nat} {V} (h : IsMat w m r c V)
    (hf : Frame { opt := fun a => a = op } w w1) : IsMat w1 m r c V := h.frame hf (fun h => h) (fun _ _ h => h)

theorem decayed_rate {o : Optim α} {S : OptSpec α} (h : OptFields o S) : o.decayed.currentRate = S.rate := by
  unfold Optim.decayed OptSpec.rate
  by_cases e : Flt.eq S.decay Flt.zero = true
  · rw [h.useDecay, e, if_pos rfl]
    exact h.rate e
  · have e' : Flt.eq S.decay Flt.zero = false := by simpa using e
    rw [h.useDecay, e']
    simp only [Bool.not_false, if_true, h.lr, h.decay, h.iter]
    rfl

theorem decayed_fields (o : Optim α) : o.decayed = { o with currentRate := o.decayed.currentRate } := by
  unfold Optim.decayed
  split <;> rfl

/-- The object stored at the end of an update. -/
theorem optFields_step {o : Optim α} {S : OptSpec α} (h : OptFields o S) (m1 m2 m3 m4 : Mat) (GW GB : Nat → Nat → α) :
    OptFields (α := α)
      { o.decayed with
        weightMomentums := m1, biasMomentums := m2, weightCache := m3, biasCache := m4,
        iterations := o.decayed.iterations + 1 } (S.step GW GB) := by
  have hr := decayed_rate h
  rw [decayed_fields]
  refine ⟨h.kind, h.lr, h.decay, h.momentum, h.epsilon, h.beta1, h.beta2, ?_, h.useDecay, h.useMomentum, ?_⟩
  · show o.iterations + 1 = _
    rw [h.iter]; rfl
  · intro hd
    show o.decayed.currentRate = _
    rw [hr]
    unfold OptSpec.rate
    rw [if_pos (show Flt.eq S.decay Flt.zero = true from hd)]; rfl

/-- What a successful update establishes. -/
structure UpdOk (w w' : World α) (op : Nat) (wm bm : Mat) (rw cw rb cb : Nat) (S : OptSpec α) (W B GW GB : Nat → Nat → α) :
    Prop where
  params : IsParams w' wm bm rw cw rb cb (S.newW W GW) (S.newB B GB)
  opt : IsOpt w' op rw cw rb cb (S.step GW GB)
  fresh : ∀ a, w'.IsOptRow (w'.opt op) rw rb a → w.next ≤ a
  frame : Frame { flt := w.IsPRow wm bm rw rb, opt := fun a => a = op } w w'

/-- The common end of all updates: both parameter matrices have been overwritten, then the optimizer object is stored. -/
theorem updOk_finish {w w1 w2 w3 : World α} {op : Nat} {wm bm : Mat} {rw cw rb cb : Nat} {S : OptSpec α}
    {W B GW GB : Nat → Nat → α} {A C : Nat → Nat → α} (hp : IsParams w wm bm rw cw rb cb W B)
    (h1 : Frame { opt := fun a => a = op } w w1) (h2 : SetMat w1 w2 wm rw cw A) (h3 : SetMat w2 w3 bm rb cb C)
    (hA : A = S.newW W GW) (hC : C = S.newB B GB) (o : Optim α)
    (hlt : op < w.next) (hof : OptFields o (S.step GW GB)) (hsl : Slots w3 o rw cw rb cb (S.step GW GB))
    (hfr : ∀ a, w3.IsOptRow o rw rb a → w.next ≤ a) (hpl : ¬ S.stateful → o.weightMomentums.rows = 0) :
    UpdOk w (w3.setOpt op o) op wm bm rw cw rb cb S W B GW GB := by
  subst hA hC
  have f3 := frame_optSet w3 op o
  have iw : ∀ a, w3.IsRow wm rw a ↔ w.IsRow wm rw a := fun a => by
    rw [h3.isRow', h2.isRow, hp.wmat.isRow_frame h1 (fun h => h)]
  have ib : ∀ a, w3.IsRow bm rb a ↔ w.IsRow bm rb a := fun a => by
    rw [h3.isRow', h2.isRow', hp.bmat.isRow_frame h1 (fun h => h)]
  have hlt3 : op < w3.next := by rw [h3.next, h2.next]; exact hlt.trans_le h1.next_le
  refine ⟨⟨?_, ?_, ?_, ?_, ?_⟩, ⟨hlt3, by rw [setOpt_opt]; exact hof, ?_, fun h => by rw [setOpt_opt]; exact hpl h⟩,
    ?_, ?_⟩
  · refine (h2.mat.frame h3.frame (fun h => h) ?_).frame f3 (fun h => h) (fun _ _ h => h)
    intro a h h'
    exact hp.disj a ((iw a).1 ((h3.isRow' _ _ a).2 h)) ((ib a).1 ((h3.isRow' _ _ a).2 h'))
  · exact h3.mat.frame f3 (fun h => h) (fun _ _ h => h)
  · exact (h3.distinct _ _).2 ((h2.distinct _ _).2 (hp.wd.frame h1 hp.wmat.addr_lt (fun h => h)))
  · exact (h3.distinct _ _).2 ((h2.distinct _ _).2 (hp.bd.frame h1 hp.bmat.addr_lt (fun h => h)))
  · intro a h h'
    exact hp.disj a ((iw a).1 h) ((ib a).1 h')
  · rw [setOpt_opt]
    rcases hsl with ⟨h, a, b, c, d⟩ | ⟨a, b, c, d⟩
    · exact .unset h a b c d
    · exact .set (a.optf f3) (b.optf f3) (fun h => (c h).optf f3) (fun h => (d h).optf f3)
  · rw [setOpt_opt]; exact hfr
  · have g1 : Frame { flt := w.IsPRow wm bm rw rb, opt := fun a => a = op } w w1 :=
      h1.mono ⟨fun _ h => h.elim, fun _ h => h, fun _ h => h, fun _ h => h, id, id, id⟩
    have g2 : Frame { flt := w.IsPRow wm bm rw rb, opt := fun a => a = op } w1 w2 :=
      h2.frame.mono ⟨fun a h => .inl ((hp.wmat.isRow_frame h1 (fun h => h) a).1 h), fun _ h => h, fun _ h => h,
        fun _ h => h.elim, id, id, id⟩
    have g3 : Frame { flt := w.IsPRow wm bm rw rb, opt := fun a => a = op } w2 w3 :=
      h3.frame.mono ⟨fun a h => .inr ((ib a).1 ((h3.isRow' _ _ a).2 h)), fun _ h => h, fun _ h => h,
        fun _ h => h.elim, id, id, id⟩
    have g4 : Frame { flt := w.IsPRow wm bm rw rb, opt := fun a => a = op } w3 (w3.setOpt op o) :=
      f3.mono ⟨fun _ h => h.elim, fun _ h => h, fun _ h => h, fun _ h => h, id, id, id⟩
    exact ((g1.trans_same g2).trans_same g3).trans_same g4

theorem sgdPlain_spec {w : World α} {op : Nat} {wm bm dw db : Mat} {rw cw rb cb : Nat} {S : OptSpec α}
    {W B GW GB : Nat → Nat → α} (ho : IsOpt w op rw cw rb cb S) (hk : S.kind = .sgd)
    (hm : Flt.eq S.momentum Flt.zero = true) (hp : IsParams w wm bm rw cw rb cb W B)
    (hGW : IsMat w dw rw cw GW) (hGB : IsMat w db rb cb GB) :
    wp (sgdUpdate op wm bm dw db) w (fun e w' => e = none ∧ UpdOk w w' op wm bm rw cw rb cb S W B GW GB) := by
  have hns : ¬ S.stateful := by rintro (h | h) <;> simp_all
  have hun := ho.plain hns
  unfold sgdUpdate
  refine wp_bind_ok rfl ?_
  dsimp only
  refine wp_bind_ok (optSet_run _ _ _) ?_
  have hum : (w.opt op).decayed.useMomentum = false := by
    rw [decayed_fields]; dsimp only; rw [ho.fields.useMomentum hk, hm]; rfl
  rw [if_neg (by rw [hum]; decide)]
  have f1 := frame_optSet w op (w.opt op).decayed
  set w1 : World α := w.setOpt op (w.opt op).decayed with hw1
  refine wp_bind_mono (mulScalar_spec (hGW.optf f1) _) ?_
  intro wu w2 h2
  have f2 := f1.then_allocs h2.frame
  refine wp_bind_mono (mulScalar_spec (hGB.optf f2) _) ?_
  intro bu w3 h3
  have f3 := f2.then_allocs h3.frame
  have u3 : Fresh w w3 wu rw cw _ := (Fresh.of_new f1 h2).allocs h3.frame
  have v3 : Fresh w w3 bu rb cb _ := Fresh.of_new f2 h3
  refine wp_bind_mono (subInto_spec (hp.wmat.optf f3) (hp.wd.frame f3 hp.wmat.addr_lt (fun h => h)) u3.mat ?_) ?_
  · intro a h h'
    have := u3.fresh a h
    have := hp.wmat.isRow_lt ((hp.wmat.isRow_frame f3 (fun h => h) a).1 h')
    omega
  intro _ w4 h4
  have hb4 : IsMat w4 bm rb cb B := (hp.bmat.optf f3).frame h4.frame (fun h => h) (by
    intro a h h'
    exact hp.disj a ((hp.wmat.isRow_frame f3 (fun h => h) a).1 h') ((hp.bmat.isRow_frame f3 (fun h => h) a).1 h))
  have v4 : IsMat w4 bu rb cb _ := v3.mat.frame h4.frame (fun h => h) (by
    intro a h h'
    have := v3.fresh a h
    have := hp.wmat.isRow_lt ((hp.wmat.isRow_frame f3 (fun h => h) a).1 h')
    omega)
  refine wp_bind_mono (subInto_spec hb4 ?_ v4 ?_) ?_
  · exact (h4.distinct _ _).2 (hp.bd.frame f3 hp.bmat.addr_lt (fun h => h))
  · intro a h h'
    rw [h4.isRow'] at h h'
    have := v3.fresh a h
    have := hp.bmat.isRow_lt ((hp.bmat.isRow_frame f3 (fun h => h) a).1 h')
    omega
  intro _ w5 h5
  refine wp_bind_ok (optSet_run _ _ _) ?_
  refine ⟨rfl, updOk_finish hp f3 h4 h5 ?_ ?_ _ ?_ ?_ ?_ ?_ ?_⟩
  · funext i j
    simp only [OptSpec.newW, OptSpec.upd, hk, hm, if_true, decayed_rate ho.fields]
  · funext i j
    simp only [OptSpec.newB, OptSpec.upd, hk, hm, if_true, decayed_rate ho.fields]
  · exact ho.lt
  · exact optFields_step ho.fields (w.opt op).decayed.weightMomentums (w.opt op).decayed.biasMomentums
      (w.opt op).decayed.weightCache (w.opt op).decayed.biasCache GW GB
  · rcases ho.slots with ⟨h, a, b, c, d⟩ | ⟨h, -, -, -⟩
    · rw [decayed_fields]
      refine .unset h ?_ ?_ ?_ ?_ <;> intro i j <;>
        simp only [OptSpec.step, OptSpec.vel, OptSpec.cache, hk, hm, if_true, a, b, c, d]
    · have := h.rows
      have := h.rpos
      omega
  · intro a h
    have := h.1
    rw [decayed_fields] at this
    exact absurd hun this
  · intro _; rw [decayed_fields]; exact hun

/-- The part of the momentum update after the velocities exist. -/
def momTail (op : Nat) (weights biases dWeights dBiases : Mat) (o : Optim α) : Go α (Option Err) := do
  let mut o := o
  let sm ← o.weightMomentums.mulScalar o.momentum
  let sg ← dWeights.mulScalar o.currentRate
  let (wm, err) ← sm.sub sg
  o := { o with weightMomentums := wm }
  optSet op o
  if let some e := err then
    return some e
  let sm ← o.biasMomentums.mulScalar o.momentum
  let sg ← dBiases.mulScalar o.currentRate
  let (bm, err) ← sm.sub sg
  o := { o with biasMomentums := bm }
  optSet op o
  if let some e := err then
    return some e
  addInto weights o.weightMomentums
  addInto biases o.biasMomentums
  optSet op { o with iterations := o.iterations + 1 }
  return none

theorem momTail_spec {w w1 : World α} {op : Nat} {wm bm dw db : Mat} {rw cw rb cb : Nat} {S : OptSpec α} {o1 o2 : Mat}
    {W B GW GB : Nat → Nat → α} (ho : IsOpt w op rw cw rb cb S) (hk : S.kind = .sgd)
    (hm : Flt.eq S.momentum Flt.zero = false) (hp : IsParams w wm bm rw cw rb cb W B) (hGW : IsMat w dw rw cw GW)
    (hGB : IsMat w db rb cb GB) (f1 : Frame { opt := fun a => a = op } w w1) (hv : IsMat w1 o1 rw cw S.vw)
    (hvb : IsMat w1 o2 rb cb S.vb) :
    wp (momTail op wm bm dw db { (w.opt op).decayed with weightMomentums := o1, biasMomentums := o2 }) w1
      (fun e w' => e = none ∧ UpdOk w w' op wm bm rw cw rb cb S W B GW GB) := by
  unfold momTail
  dsimp only
  have hmom : (w.opt op).decayed.momentum = S.momentum := by rw [decayed_fields]; exact ho.fields.momentum hk
  rw [hmom, decayed_rate ho.fields]
  refine wp_bind_mono (mulScalar_spec hv _) ?_
  intro sm w2 h2
  have f2 := f1.then_allocs h2.frame
  refine wp_bind_mono (mulScalar_spec (hGW.optf f2) _) ?_
  intro sg w3 h3
  have f3 := f2.then_allocs h3.frame
  refine wp_bind_mono (sub_spec (h2.mat.allocs h3.frame) h3.mat) ?_
  rintro ⟨vm, e⟩ w4 ⟨he, h4⟩
  obtain rfl : e = none := he
  dsimp only at h4 ⊢
  have f4 := f3.then_allocs h4.frame
  refine wp_bind_ok (optSet_run _ _ _) ?_
  set w5 := w4.setOpt op _ with hw5
  have f5 : Frame _ w w5 := f4.then_opt _
  have v5 : Fresh w w5 vm rw cw _ := (Fresh.of_new f3 h4).opt _
  have a5 : Frame _ w1 w5 := (((Frame.refl { opt := fun a => a = op } w1).then_allocs h2.frame).then_allocs
    h3.frame).then_allocs h4.frame |>.then_opt _
  refine wp_bind_mono (mulScalar_spec (hvb.optf a5) _) ?_
  intro sm' w6 h6
  have f6 := f5.then_allocs h6.frame
  refine wp_bind_mono (mulScalar_spec (hGB.optf f6) _) ?_
  intro sg' w7 h7
  have f7 := f6.then_allocs h7.frame
  refine wp_bind_mono (sub_spec (h6.mat.allocs h7.frame) h7.mat) ?_
  rintro ⟨vm', e⟩ w8 ⟨he, h8⟩
  obtain rfl : e = none := he
  dsimp only at h8 ⊢
  have f8 := f7.then_allocs h8.frame
  refine wp_bind_ok (optSet_run _ _ _) ?_
  set w9 := w8.setOpt op _ with hw9
  have f9 : Frame _ w w9 := f8.then_opt _
  have u9 : Fresh w w9 vm rw cw _ := (((v5.allocs h6.frame).allocs h7.frame).allocs h8.frame).opt _
  have v9 : Fresh w w9 vm' rb cb _ := (Fresh.of_new f7 h8).opt _
  refine wp_bind_mono (addInto_spec (hp.wmat.optf f9) (hp.wd.frame f9 hp.wmat.addr_lt (fun h => h)) u9.mat ?_) ?_
  · intro a h h'
    have := u9.fresh a h
    have := hp.wmat.isRow_lt ((hp.wmat.isRow_frame f9 (fun h => h) a).1 h')
    omega
  intro _ w10 h10
  have hb10 : IsMat w10 bm rb cb B := (hp.bmat.optf f9).frame h10.frame (fun h => h) (by
    intro a h h'
    exact hp.disj a ((hp.wmat.isRow_frame f9 (fun h => h) a).1 h') ((hp.bmat.isRow_frame f9 (fun h => h) a).1 h))
  have notW : ∀ a, w.next ≤ a → ¬ w9.IsRow wm rw a := by
    intro a h h'
    have := hp.wmat.isRow_lt ((hp.wmat.isRow_frame f9 (fun h => h) a).1 h')
    omega
  have notB : ∀ a, w.next ≤ a → ¬ w9.IsRow bm rb a := by
    intro a h h'
    have := hp.bmat.isRow_lt ((hp.bmat.isRow_frame f9 (fun h => h) a).1 h')
    omega
  have v10 : Fresh w w10 vm' rb cb _ := v9.frame h10.frame (fun h => h) (fun a h => notW a (v9.fresh a h))
  have u10 : Fresh w w10 vm rw cw _ := u9.frame h10.frame (fun h => h) (fun a h => notW a (u9.fresh a h))
  refine wp_bind_mono (addInto_spec hb10 ?_ v10.mat ?_) ?_
  · exact (h10.distinct _ _).2 (hp.bd.frame f9 hp.bmat.addr_lt (fun h => h))
  · intro a h h'
    exact notB a (v10.fresh a h) ((h10.isRow' _ _ a).1 h')
  intro _ w11 h11
  have v11 : Fresh w w11 vm' rb cb _ := v10.frame h11.frame (fun h => h)
    (fun a h h' => notB a (v10.fresh a h) ((h10.isRow' _ _ a).1 h'))
  have u11 : Fresh w w11 vm rw cw _ := u10.frame h11.frame (fun h => h)
    (fun a h h' => notB a (u10.fresh a h) ((h10.isRow' _ _ a).1 h'))
  refine wp_bind_ok (optSet_run _ _ _) ?_
  have hdk : (w.opt op).decayed.kind = .sgd := by rw [decayed_fields]; exact ho.fields.kind.trans hk
  refine ⟨rfl, updOk_finish hp f9 h10 h11 ?_ ?_ _ ho.lt ?_ ?_ ?_ (fun h => absurd (.inr hm) h)⟩
  · funext i j
    simp only [OptSpec.newW, OptSpec.upd, OptSpec.vel, hk, hm]; rfl
  · funext i j
    simp only [OptSpec.newB, OptSpec.upd, OptSpec.vel, hk, hm]; rfl
  · rw [← hmom, ← decayed_rate ho.fields]
    exact optFields_step ho.fields vm vm' (w.opt op).decayed.weightCache (w.opt op).decayed.biasCache GW GB
  · refine .set (u11.mat.congr ?_) (v11.mat.congr ?_) ?_ ?_
    · intro i j _ _; simp only [OptSpec.step, OptSpec.vel, hk, hm]; rfl
    · intro i j _ _; simp only [OptSpec.step, OptSpec.vel, hk, hm]; rfl
    · intro h; exact absurd (hk.symm.trans h) (by decide)
    · intro h; exact absurd (hk.symm.trans h) (by decide)
  · rintro a ⟨-, h | h | ⟨h, -⟩⟩
    · exact u11.fresh a h
    · exact v11.fresh a h
    · exact absurd (hdk.symm.trans h) (by decide)

theorem sgdMomentum_spec {w : World α} {op : Nat} {wm bm dw db : Mat} {rw cw rb cb : Nat} {S : OptSpec α}
    {W B GW GB : Nat → Nat → α} (ho : IsOpt w op rw cw rb cb S) (hk : S.kind = .sgd)
    (hm : Flt.eq S.momentum Flt.zero = false) (hp : IsParams w wm bm rw cw rb cb W B) (hGW : IsMat w dw rw cw GW)
    (hGB : IsMat w db rb cb GB) :
    wp (sgdUpdate op wm bm dw db) w (fun e w' => e = none ∧ UpdOk w w' op wm bm rw cw rb cb S W B GW GB) := by
  unfold sgdUpdate
  refine wp_bind_ok rfl ?_
  dsimp only
  refine wp_bind_ok (optSet_run _ _ _) ?_
  have hum : (w.opt op).decayed.useMomentum = true := by
    rw [decayed_fields]; dsimp only; rw [ho.fields.useMomentum hk, hm]; rfl
  rw [if_pos hum]
  have f1 := frame_optSet w op (w.opt op).decayed
  have hwm : (w.opt op).decayed.weightMomentums = (w.opt op).weightMomentums := by rw [decayed_fields]
  have hbm : (w.opt op).decayed.biasMomentums = (w.opt op).biasMomentums := by rw [decayed_fields]
  rcases ho.slots with ⟨h, a, b, c, d⟩ | ⟨a, b, -, -⟩
  · rw [if_pos (by rw [hwm]; exact h)]
    rw [hp.wmat.rows, hp.wmat.cols, hp.bmat.rows, hp.bmat.cols]
    refine wp_bind_mono (newMatrix_spec hp.wmat.rpos hp.wmat.cpos) ?_
    rintro ⟨m1, e1⟩ w2 ⟨-, h2⟩
    refine wp_bind_mono (newMatrix_spec hp.bmat.rpos hp.bmat.cpos) ?_
    rintro ⟨m2, e2⟩ w3 ⟨-, h3⟩
    dsimp only at h2 h3 ⊢
    refine wp_bind_ok (optSet_run _ _ _) ?_
    set w4 := w3.setOpt op _ with hw4
    have f4 : Frame _ w w4 := ((f1.then_allocs h2.frame).then_allocs h3.frame).then_opt _
    refine momTail_spec ho hk hm hp hGW hGB f4 ?_ ?_
    · refine ((h2.mat.allocs h3.frame).optf (frame_optSet _ _ _)).congr ?_
      intro i j _ _; exact (a i j).symm
    · refine (h3.mat.optf (frame_optSet _ _ _)).congr ?_
      intro i j _ _; exact (b i j).symm
  · rw [if_neg (by
      rw [hwm]; have := a.rows; have := a.rpos; omega)]
    have a' := a.optf f1
    have b' := b.optf f1
    rw [← hwm] at a'
    rw [← hbm] at b'
    exact momTail_spec ho hk hm hp hGW hGB f1 a' b'

/-- The part of the Adam update after the moments exist. -/
def adamTail (op : Nat) (weights biases dWeights dBiases : Mat) (o : Optim α) : Go α (Option Err) := do
  let mut o := o
  let sm ← o.weightMomentums.mulScalar o.beta1
  let sg ← dWeights.mulScalar (Flt.one -. o.beta1)
  let (wm, err) ← sm.add sg
  o := { o with weightMomentums := wm }
  optSet op o
  if let some e := err then
    return some e
  let sm ← o.biasMomentums.mulScalar o.beta1
  let sg ← dBiases.mulScalar (Flt.one -. o.beta1)
  let (bm, err) ← sm.add sg
  o := { o with biasMomentums := bm }
  optSet op o
  if let some e := err then
    return some e
  let cwm ← o.weightMomentums.mulScalar o.correction
  let cbm ← o.biasMomentums.mulScalar o.correction
  let sm ← o.weightCache.mulScalar o.beta2
  let sg ← dWeights.powScalar (Flt.ofInt 2)
  let sg ← sg.mulScalar (Flt.one -. o.beta2)
  let (wc, err) ← sm.add sg
  o := { o with weightCache := wc }
  optSet op o
  if let some e := err then
    return some e
  let sm ← o.biasCache.mulScalar o.beta2
  let sg ← dBiases.powScalar (Flt.ofInt 2)
  let sg ← sg.mulScalar (Flt.one -. o.beta2)
  let (bc, err) ← sm.add sg
  o := { o with biasCache := bc }
  optSet op o
  if let some e := err then
    return some e
  let cwc ← o.weightCache.mulScalar o.correction
  let cbc ← o.biasCache.mulScalar o.correction
  adamStep weights cwm cwc o.currentRate o.epsilon
  adamStep biases cbm cbc o.currentRate o.epsilon
  optSet op { o with iterations := o.iterations + 1 }
  return none

theorem adamTail_spec {w w1 : World α} {op : Nat} {wm bm dw db : Mat} {rw cw rb cb : Nat} {S : OptSpec α}
    {o1 o2 o3 o4 : Mat} {W B GW GB : Nat → Nat → α} (ho : IsOpt w op rw cw rb cb S) (hk : S.kind = .adam)
    (hp : IsParams w wm bm rw cw rb cb W B) (hGW : IsMat w dw rw cw GW) (hGB : IsMat w db rb cb GB)
    (f1 : Frame { opt := fun a => a = op } w w1) (hv : IsMat w1 o1 rw cw S.vw) (hvb : IsMat w1 o2 rb cb S.vb)
    (hc : IsMat w1 o3 rw cw S.cw) (hcb : IsMat w1 o4 rb cb S.cb) {d : Optim α} (hd : d = (w.opt op).decayed) :
    wp (adamTail op wm bm dw db
        { d with weightMomentums := o1, biasMomentums := o2, weightCache := o3, biasCache := o4 }) w1
      (fun e w' => e = none ∧ UpdOk w w' op wm bm rw cw rb cb S W B GW GB) := by
  have hb1 : d.beta1 = S.beta1 := by rw [hd, decayed_fields]; exact ho.fields.beta1
  have hb2 : d.beta2 = S.beta2 := by rw [hd, decayed_fields]; exact ho.fields.beta2
  have heps : d.epsilon = S.epsilon := by rw [hd, decayed_fields]; exact ho.fields.epsilon
  have hit : d.iterations = S.t := by rw [hd, decayed_fields]; exact ho.fields.iter
  have hrate : d.currentRate = S.rate := by rw [hd]; exact decayed_rate ho.fields
  have hdk : d.kind = .adam := by rw [hd, decayed_fields]; exact ho.fields.kind.trans hk
  unfold adamTail
  dsimp only
  refine wp_bind_mono (mulScalar_spec hv _) ?_
  intro sm w2 h2
  have f2 := f1.then_allocs h2.frame
  refine wp_bind_mono (mulScalar_spec (hGW.optf f2) _) ?_
  intro sg w3 h3
  have f3 := f2.then_allocs h3.frame
  refine wp_bind_mono (add_spec (h2.mat.allocs h3.frame) h3.mat) ?_
  rintro ⟨vm, e⟩ w4 ⟨he, h4⟩
  obtain rfl : e = none := he
  dsimp only at h4 ⊢
  have f4 := f3.then_allocs h4.frame
  refine wp_bind_ok (optSet_run _ _ _) ?_
  set w5 := w4.setOpt op _ with hw5
  have f5 : Frame _ w w5 := f4.then_opt _
  have v5 : Fresh w w5 vm rw cw _ := (Fresh.of_new f3 h4).opt _
  have a5 : Frame _ w1 w5 := (((Frame.refl { opt := fun a => a = op } w1).then_allocs h2.frame).then_allocs
    h3.frame).then_allocs h4.frame |>.then_opt _
  refine wp_bind_mono (mulScalar_spec (hvb.optf a5) _) ?_
  intro sm' w6 h6
  have f6 := f5.then_allocs h6.frame
  refine wp_bind_mono (mulScalar_spec (hGB.optf f6) _) ?_
  intro sg' w7 h7
  have f7 := f6.then_allocs h7.frame
  refine wp_bind_mono (add_spec (h6.mat.allocs h7.frame) h7.mat) ?_
  rintro ⟨vb, e⟩ w8 ⟨he, h8⟩
  obtain rfl : e = none := he
  dsimp only at h8 ⊢
  have f8 := f7.then_allocs h8.frame
  refine wp_bind_ok (optSet_run _ _ _) ?_
  set w9 := w8.setOpt op _ with hw9
  have f9 : Frame _ w w9 := f8.then_opt _
  have a9 : Frame _ w1 w9 := ((a5.then_allocs h6.frame).then_allocs h7.frame).then_allocs h8.frame |>.then_opt _
  have u9 : Fresh w w9 vm rw cw _ := (((v5.allocs h6.frame).allocs h7.frame).allocs h8.frame).opt _
  have v9 : Fresh w w9 vb rb cb _ := (Fresh.of_new f7 h8).opt _
  clear_value w5 w9
  refine wp_bind_mono (mulScalar_spec u9.mat _) ?_
  intro cwm wa ha
  have fa := f9.then_allocs ha.frame
  refine wp_bind_mono (mulScalar_spec (v9.allocs ha.frame).mat _) ?_
  intro cbm wb hb
  have fb := fa.then_allocs hb.frame
  have ab : Frame _ w1 wb := (a9.then_allocs ha.frame).then_allocs hb.frame
  refine wp_bind_mono (mulScalar_spec (hc.optf ab) _) ?_
  intro smc wc hwc
  have fc := fb.then_allocs hwc.frame
  refine wp_bind_mono (powScalar_spec (hGW.optf fc) _) ?_
  intro pw wd hwd
  have fd := fc.then_allocs hwd.frame
  refine wp_bind_mono (mulScalar_spec hwd.mat _) ?_
  intro pg we hwe
  have fe := fd.then_allocs hwe.frame
  refine wp_bind_mono (add_spec ((hwc.mat.allocs hwd.frame).allocs hwe.frame) hwe.mat) ?_
  rintro ⟨cm, e⟩ wf ⟨he, hwf⟩
  obtain rfl : e = none := he
  dsimp only at hwf ⊢
  have ff := fe.then_allocs hwf.frame
  refine wp_bind_ok (optSet_run _ _ _) ?_
  set wg := wf.setOpt op _ with hwg
  have fg : Frame _ w wg := ff.then_opt _
  have ag : Frame _ w1 wg := (((ab.then_allocs hwc.frame).then_allocs hwd.frame).then_allocs hwe.frame).then_allocs
    hwf.frame |>.then_opt _
  have cg : Fresh w wg cm rw cw _ := (Fresh.of_new fe hwf).opt _
  have ug : Fresh w wg vm rw cw _ := ((((((u9.allocs ha.frame).allocs hb.frame).allocs hwc.frame).allocs
    hwd.frame).allocs hwe.frame).allocs hwf.frame).opt _
  have vg : Fresh w wg vb rb cb _ := ((((((v9.allocs ha.frame).allocs hb.frame).allocs hwc.frame).allocs
    hwd.frame).allocs hwe.frame).allocs hwf.frame).opt _
  have cug : Fresh w wg cwm rw cw _ := ((((((Fresh.of_new f9 ha).allocs hb.frame).allocs hwc.frame).allocs
    hwd.frame).allocs hwe.frame).allocs hwf.frame).opt _
  have cvg : Fresh w wg cbm rb cb _ := (((((Fresh.of_new fa hb).allocs hwc.frame).allocs
    hwd.frame).allocs hwe.frame).allocs hwf.frame).opt _
  clear_value wg
  refine wp_bind_mono (mulScalar_spec (hcb.optf ag) _) ?_
  intro smb wh hwh
  have fh := fg.then_allocs hwh.frame
  refine wp_bind_mono (powScalar_spec (hGB.optf fh) _) ?_
  intro pwb wi hwi
  have fi := fh.then_allocs hwi.frame
  refine wp_bind_mono (mulScalar_spec hwi.mat _) ?_
  intro pgb wj hwj
  have fj := fi.then_allocs hwj.frame
  refine wp_bind_mono (add_spec ((hwh.mat.allocs hwi.frame).allocs hwj.frame) hwj.mat) ?_
  rintro ⟨cb', e⟩ wk ⟨he, hwk⟩
  obtain rfl : e = none := he
  dsimp only at hwk ⊢
  have fk := fj.then_allocs hwk.frame
  refine wp_bind_ok (optSet_run _ _ _) ?_
  set wl := wk.setOpt op _ with hwl
  have fl : Frame _ w wl := fk.then_opt _
  have cl : Fresh w wl cm rw cw _ := ((((cg.allocs hwh.frame).allocs hwi.frame).allocs hwj.frame).allocs hwk.frame).opt _
  have ul : Fresh w wl vm rw cw _ := ((((ug.allocs hwh.frame).allocs hwi.frame).allocs hwj.frame).allocs hwk.frame).opt _
  have vl : Fresh w wl vb rb cb _ := ((((vg.allocs hwh.frame).allocs hwi.frame).allocs hwj.frame).allocs hwk.frame).opt _
  have cul : Fresh w wl cwm rw cw _ := ((((cug.allocs hwh.frame).allocs hwi.frame).allocs hwj.frame).allocs
    hwk.frame).opt _
  have cvl : Fresh w wl cbm rb cb _ := ((((cvg.allocs hwh.frame).allocs hwi.frame).allocs hwj.frame).allocs
    hwk.frame).opt _
  have cbl : Fresh w wl cb' rb cb _ := (Fresh.of_new fj hwk).opt _
  clear_value wl
  refine wp_bind_mono (mulScalar_spec cl.mat _) ?_
  intro cwc wm1 hm1
  have fm1 := fl.then_allocs hm1.frame
  refine wp_bind_mono (mulScalar_spec (cbl.allocs hm1.frame).mat _) ?_
  intro cbc wn hn
  have fn := fm1.then_allocs hn.frame
  have ccn : Fresh w wn cwc rw cw _ := (Fresh.of_new fl hm1).allocs hn.frame
  have cbn : Fresh w wn cbc rb cb _ := Fresh.of_new fm1 hn
  replace cul := (cul.allocs hm1.frame).allocs hn.frame
  replace cvl := (cvl.allocs hm1.frame).allocs hn.frame
  replace cl := (cl.allocs hm1.frame).allocs hn.frame
  replace cbl := (cbl.allocs hm1.frame).allocs hn.frame
  replace ul := (ul.allocs hm1.frame).allocs hn.frame
  replace vl := (vl.allocs hm1.frame).allocs hn.frame
  have notW : ∀ a, w.next ≤ a → ¬ wn.IsRow wm rw a := by
    intro a h h'
    have := hp.wmat.isRow_lt ((hp.wmat.isRow_frame fn (fun h => h) a).1 h')
    omega
  have notB : ∀ a, w.next ≤ a → ¬ wn.IsRow bm rb a := by
    intro a h h'
    have := hp.bmat.isRow_lt ((hp.bmat.isRow_frame fn (fun h => h) a).1 h')
    omega
  refine wp_bind_mono (adamStep_spec _ _ (hp.wmat.optf fn) (hp.wd.frame fn hp.wmat.addr_lt (fun h => h)) cul.mat ccn.mat
    (fun a h => notW a (cul.fresh a h)) (fun a h => notW a (ccn.fresh a h))) ?_
  intro _ wo hwo
  have keepW : ∀ {m : Mat} {r c : Nat} {V}, Fresh w wn m r c V → Fresh w wo m r c V := fun h =>
    h.frame hwo.frame (fun h => h) (fun a h' => notW a (h.fresh a h'))
  have hbo : IsMat wo bm rb cb B := (hp.bmat.optf fn).frame hwo.frame (fun h => h) (by
    intro a h h'
    exact hp.disj a ((hp.wmat.isRow_frame fn (fun h => h) a).1 h') ((hp.bmat.isRow_frame fn (fun h => h) a).1 h))
  have notB' : ∀ a, w.next ≤ a → ¬ wo.IsRow bm rb a := fun a h h' => notB a h ((hwo.isRow' _ _ a).1 h')
  refine wp_bind_mono (adamStep_spec _ _ hbo ((hwo.distinct _ _).2 (hp.bd.frame fn hp.bmat.addr_lt (fun h => h)))
    (keepW cvl).mat (keepW cbn).mat
    (fun a h => notB' a ((keepW cvl).fresh a h)) (fun a h => notB' a ((keepW cbn).fresh a h))) ?_
  intro _ wp hwp
  have keep : ∀ {m : Mat} {r c : Nat} {V}, Fresh w wn m r c V → Fresh w wp m r c V := fun h =>
    (keepW h).frame hwp.frame (fun h => h) (fun a h' => notB' a ((keepW h).fresh a h'))
  refine wp_bind_ok (optSet_run _ _ _) ?_
  refine ⟨rfl, updOk_finish hp fn hwo hwp ?_ ?_ _ ho.lt ?_ ?_ ?_ (fun h => absurd (.inl hk) h)⟩
  · funext i j
    simp only [OptSpec.newW, OptSpec.upd, OptSpec.vel, OptSpec.cache, OptSpec.corr, Optim.correction, hk, hb1, hb2,
      hrate, heps, hit]
  · funext i j
    simp only [OptSpec.newB, OptSpec.upd, OptSpec.vel, OptSpec.cache, OptSpec.corr, Optim.correction, hk, hb1, hb2,
      hrate, heps, hit]
  · subst hd
    exact optFields_step ho.fields vm vb cm cb' GW GB
  · refine .set ((keep ul).mat.congr ?_) ((keep vl).mat.congr ?_) (fun _ => (keep cl).mat.congr ?_)
      (fun _ => (keep cbl).mat.congr ?_)
    all_goals
      intro i j _ _
      simp only [OptSpec.step, OptSpec.vel, OptSpec.cache, hk, hb1, hb2]
  · rintro a ⟨-, h | h | ⟨-, h | h⟩⟩
    · exact (keep ul).fresh a h
    · exact (keep vl).fresh a h
    · exact (keep cl).fresh a h
    · exact (keep cbl).fresh a h

theorem adam_spec {w : World α} {op : Nat} {wm bm dw db : Mat} {rw cw rb cb : Nat} {S : OptSpec α}
    {W B GW GB : Nat → Nat → α} (ho : IsOpt w op rw cw rb cb S) (hk : S.kind = .adam)
    (hp : IsParams w wm bm rw cw rb cb W B) (hGW : IsMat w dw rw cw GW) (hGB : IsMat w db rb cb GB) :
    wp (adamUpdate op wm bm dw db) w (fun e w' => e = none ∧ UpdOk w w' op wm bm rw cw rb cb S W B GW GB) := by
  unfold adamUpdate
  refine wp_bind_ok rfl ?_
  dsimp only
  refine wp_bind_ok (optSet_run _ _ _) ?_
  have f1 := frame_optSet w op (w.opt op).decayed
  have hwm : (w.opt op).decayed.weightMomentums = (w.opt op).weightMomentums := by rw [decayed_fields]
  have hbm : (w.opt op).decayed.biasMomentums = (w.opt op).biasMomentums := by rw [decayed_fields]
  have hwc : (w.opt op).decayed.weightCache = (w.opt op).weightCache := by rw [decayed_fields]
  have hbc : (w.opt op).decayed.biasCache = (w.opt op).biasCache := by rw [decayed_fields]
  rcases ho.slots with ⟨h, a, b, c, d⟩ | ⟨a, b, c, d⟩
  · rw [if_pos (by rw [hwm]; exact h)]
    rw [hp.wmat.rows, hp.wmat.cols, hp.bmat.rows, hp.bmat.cols]
    refine wp_bind_mono (newMatrix_spec hp.wmat.rpos hp.wmat.cpos) ?_
    rintro ⟨m1, e1⟩ w2 ⟨-, h2⟩
    refine wp_bind_mono (newMatrix_spec hp.bmat.rpos hp.bmat.cpos) ?_
    rintro ⟨m2, e2⟩ w3 ⟨-, h3⟩
    refine wp_bind_mono (newMatrix_spec hp.wmat.rpos hp.wmat.cpos) ?_
    rintro ⟨m3, e3⟩ w4 ⟨-, h4⟩
    refine wp_bind_mono (newMatrix_spec hp.bmat.rpos hp.bmat.cpos) ?_
    rintro ⟨m4, e4⟩ w5 ⟨-, h5⟩
    dsimp only at h2 h3 h4 h5 ⊢
    refine wp_bind_ok (optSet_run _ _ _) ?_
    set w6 := w5.setOpt op _ with hw6
    have f6 : Frame _ w w6 :=
      ((((f1.then_allocs h2.frame).then_allocs h3.frame).then_allocs h4.frame).then_allocs h5.frame).then_opt _
    refine adamTail_spec ho hk hp hGW hGB f6 ?_ ?_ ?_ ?_ rfl
    · refine ((((h2.mat.allocs h3.frame).allocs h4.frame).allocs h5.frame).optf (frame_optSet _ _ _)).congr ?_
      intro i j _ _; exact (a i j).symm
    · refine (((h3.mat.allocs h4.frame).allocs h5.frame).optf (frame_optSet _ _ _)).congr ?_
      intro i j _ _; exact (b i j).symm
    · refine ((h4.mat.allocs h5.frame).optf (frame_optSet _ _ _)).congr ?_
      intro i j _ _; exact (c i j).symm
    · refine (h5.mat.optf (frame_optSet _ _ _)).congr ?_
      intro i j _ _; exact (d i j).symm
  · rw [if_neg (by rw [hwm]; have := a.rows; have := a.rpos; omega)]
    have a' := a.optf f1
    have b' := b.optf f1
    have c' := (c hk).optf f1
    have d' := (d hk).optf f1
    rw [← hwm] at a'
    rw [← hbm] at b'
    rw [← hwc] at c'
    rw [← hbc] at d'
    exact adamTail_spec ho hk hp hGW hGB f1 a' b' c' d' rfl

/-- Every update through the interface with gradients of the right shapes succeeds and follows the rule of `OptSpec`. -/
theorem optUpdate_spec {w : World α} {op : Nat} {wm bm dw db : Mat} {rw cw rb cb : Nat} {S : OptSpec α}
    {W B GW GB : Nat → Nat → α} (ho : IsOpt w op rw cw rb cb S)
    (hp : IsParams w wm bm rw cw rb cb W B) (hGW : IsMat w dw rw cw GW) (hGB : IsMat w db rb cb GB) :
    wp (optUpdate op (some wm) (some bm) dw db) w
      (fun e w' => e = none ∧ UpdOk w w' op wm bm rw cw rb cb S W B GW GB) := by
  unfold optUpdate
  refine wp_bind_ok rfl ?_
  refine wp_bind_ok rfl ?_
  refine wp_bind_ok rfl ?_
  rw [ho.fields.kind]
  rcases hk : S.kind with _ | _
  · by_cases hm : Flt.eq S.momentum Flt.zero = true
    · exact sgdPlain_spec ho hk hm hp hGW hGB
    · exact sgdMomentum_spec ho hk (by simpa using hm) hp hGW hGB
  · exact adam_spec ho hk hp hGW hGB

end NN
