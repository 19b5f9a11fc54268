import Verif.Lemmas.Optim
/- Rejected optimizer updates (optimizers.go). -/

set_option linter.unusedSectionVars false

namespace NN
variable {α : Type} [Flt α]
open Go

theorem mulScalar_empty {m : Mat} (h : m.Empty) (x : α) (w : World α) : m.mulScalar x w = .ok (Mat.zero, w) := by
  unfold Mat.mulScalar
  rw [bind_ok (newMatrix_bad (by have := h.1; omega) w), h.1]
  rfl

theorem optFields_keep {o : Optim α} {S : OptSpec α} (h : OptFields o S) (m1 m2 m3 m4 : Mat) :
    OptFields (α := α)
      { o.decayed with weightMomentums := m1, biasMomentums := m2, weightCache := m3, biasCache := m4 } S := by
  have hr := decayed_rate h
  rw [decayed_fields]
  refine ⟨h.kind, h.lr, h.decay, h.momentum, h.epsilon, h.beta1, h.beta2, h.iter, h.useDecay, h.useMomentum, ?_⟩
  intro hd
  show o.decayed.currentRate = _
  rw [hr]
  unfold OptSpec.rate
  rw [if_pos hd]

/-- What a rejected update establishes. -/
structure UpdErr (w w' : World α) (op : Nat) (rw cw rb cb : Nat) (S : OptSpec α) : Prop where
  frame : Frame { opt := fun a => a = op } w w'
  opt : OptOk w' op rw cw rb cb S

theorem updErr_mk {w w1 : World α} {op : Nat} {rw cw rb cb : Nat} {S : OptSpec α} (ho : OptOk w op rw cw rb cb S)
    (f1 : Frame { opt := fun a => a = op } w w1) (o : Optim α) (hf : OptFields o S)
    (hs : SlotsOk w1 o rw cw rb cb) : UpdErr w (w1.setOpt op o) op rw cw rb cb S := by
  refine ⟨f1.then_opt o, ho.lt.trans_le f1.next_le, by rw [setOpt_opt]; exact hf, ho.stateful, ?_⟩
  rw [setOpt_opt]
  have f := frame_optSet w1 op o
  rcases hs with h | ⟨⟨V, a⟩, b, c, d⟩
  · exact .unset h
  · exact .set ⟨V, a.optf f⟩ (b.imp (fun ⟨V, b⟩ => ⟨V, b.optf f⟩) id) (fun h => (c h).imp fun _ c => c.optf f)
      (fun h => (d h).imp fun _ d => d.optf f)

theorem IsMat.shape_ne {w w' : World α} {m b : Mat} {r c r' c' : Nat} {A B : Nat → Nat → α} (hA : IsMat w m r c A)
    (hB : IsMat w' b r' c' B) (h : ¬ (r' = r ∧ c' = c)) : m.rows ≠ b.rows ∨ m.cols ≠ b.cols := by
  rw [hA.rows, hA.cols, hB.rows, hB.cols]
  by_contra hh
  push Not at hh
  exact h ⟨by exact_mod_cast hh.1.symm, by exact_mod_cast hh.2.symm⟩

theorem momTail_err {w w1 : World α} {op : Nat} {wm bm dw db : Mat} {rw cw rb cb r1 c1 r2 c2 : Nat} {S : OptSpec α}
    {o1 o2 : Mat} {GW GB V : Nat → Nat → α} (ho : OptOk w op rw cw rb cb S) (hk : S.kind = .sgd)
    (hGW : IsMat w dw r1 c1 GW) (hGB : IsMat w db r2 c2 GB)
    (f1 : Frame { opt := fun a => a = op } w w1) (hv : IsMat w1 o1 rw cw V)
    (hvb : (∃ V, IsMat w1 o2 rb cb V) ∨ o2.Empty) {d : Optim α} (hd : d = (w.opt op).decayed)
    (hbad : ¬ (r1 = rw ∧ c1 = cw) ∨ ¬ (r2 = rb ∧ c2 = cb) ∨ o2.Empty) :
    wp (momTail op wm bm dw db { d with weightMomentums := o1, biasMomentums := o2 }) w1
      (fun e w' => e ≠ none ∧ UpdErr w w' op rw cw rb cb S) := by
  have hdk : d.kind = .sgd := by rw [hd, decayed_fields]; exact ho.fields.kind.trans hk
  unfold momTail
  dsimp only
  refine wp_bind_mono (mulScalar_spec hv _) ?_
  intro sm w2 h2
  have f2 := f1.then_allocs h2.frame
  refine wp_bind_mono (mulScalar_spec (hGW.optf f2) _) ?_
  intro sg w3 h3
  have f3 := f2.then_allocs h3.frame
  by_cases hm : r1 = rw ∧ c1 = cw
  · obtain ⟨rfl, rfl⟩ := hm
    replace hbad := hbad.resolve_left (by simp)
    refine wp_bind_mono (sub_spec (h2.mat.allocs h3.frame) h3.mat) ?_
    rintro ⟨vm, e⟩ w4 ⟨he, h4⟩
    obtain rfl : e = none := he
    dsimp only at h4 ⊢
    have f4 := f3.then_allocs h4.frame
    refine wp_bind_ok (optSet_run _ _ _) ?_
    set w5 := w4.setOpt op _ with hw5
    have f5 : Frame _ w w5 := f4.then_opt _
    have v5 : Fresh w w5 vm _ _ _ := (Fresh.of_new f3 h4).opt _
    have a5 : Frame _ w1 w5 := (((Frame.refl { opt := fun a => a = op } w1).then_allocs h2.frame).then_allocs
      h3.frame).then_allocs h4.frame |>.then_opt _
    clear_value w5
    have key : ∃ b6 w6, o2.mulScalar d.momentum w5 = .ok (b6, w6) ∧ OnlyAllocs w5 w6 ∧
        ∀ (sg' : Mat), (sg'.rows : Int) = r2 → sg'.cols = c2 → b6.rows ≠ sg'.rows ∨ b6.cols ≠ sg'.cols := by
      have hr2 := hGB.rpos
      rcases hvb with ⟨V', hvb⟩ | hvb
      · have := mulScalar_spec (hvb.optf a5) d.momentum
        rw [wp_iff] at this
        obtain ⟨b6, w6, h6, h7⟩ := this
        refine ⟨b6, w6, h6, h7.frame, ?_⟩
        intro sg' e1 e2
        rw [h7.mat.rows, h7.mat.cols, e1, e2]
        rcases hbad with hbad | hbad
        · omega
        · have := hvb.rows; have := hvb.rpos; have := hbad.1; omega
      · refine ⟨_, _, mulScalar_empty hvb _ _, Frame.refl _ _, ?_⟩
        intro sg' e1 e2
        rw [e1]; left; show (0 : Int) ≠ _; omega
    obtain ⟨b6, w6, h6, h6f, h6b⟩ := key
    have f6 := f5.then_allocs h6f
    refine wp_bind_ok h6 ?_
    refine wp_bind_mono (mulScalar_spec (hGB.optf f6) _) ?_
    intro sg' w7 h7
    have f7 := f6.then_allocs h7.frame
    refine wp_bind_ok (sub_bad (h6b _ h7.mat.rows h7.mat.cols) _) ?_
    dsimp only
    refine wp_bind_ok (optSet_run _ _ _) ?_
    refine ⟨by simp, updErr_mk ho f7 _ ?_ ?_⟩
    · subst hd
      exact optFields_keep ho.fields vm Mat.zero (w.opt op).decayed.weightCache (w.opt op).decayed.biasCache
    · refine .set ⟨_, ((v5.allocs h6f).allocs h7.frame).mat⟩ (.inr ⟨rfl, rfl⟩) ?_ ?_
      · intro h; exact absurd (hdk.symm.trans h) (by decide)
      · intro h; exact absurd (hdk.symm.trans h) (by decide)
  · refine wp_bind_ok (sub_bad (h2.mat.shape_ne h3.mat hm) _) ?_
    dsimp only
    refine wp_bind_ok (optSet_run _ _ _) ?_
    refine ⟨by simp, updErr_mk ho f3 _ ?_ (.unset rfl)⟩
    subst hd
    exact optFields_keep ho.fields Mat.zero o2 (w.opt op).decayed.weightCache (w.opt op).decayed.biasCache

theorem adamTail_err {w w1 : World α} {op : Nat} {wm bm dw db : Mat} {rw cw rb cb r1 c1 r2 c2 : Nat} {S : OptSpec α}
    {o1 o2 o3 o4 : Mat} {GW GB V : Nat → Nat → α} (ho : OptOk w op rw cw rb cb S)
    (hGW : IsMat w dw r1 c1 GW) (hGB : IsMat w db r2 c2 GB)
    (f1 : Frame { opt := fun a => a = op } w w1) (hv : IsMat w1 o1 rw cw V)
    (hvb : (∃ V, IsMat w1 o2 rb cb V) ∨ o2.Empty) (hc : ∃ V, IsMat w1 o3 rw cw V) (hcb : ∃ V, IsMat w1 o4 rb cb V)
    {d : Optim α} (hd : d = (w.opt op).decayed)
    (hbad : ¬ (r1 = rw ∧ c1 = cw) ∨ ¬ (r2 = rb ∧ c2 = cb) ∨ o2.Empty) :
    wp (adamTail op wm bm dw db
        { d with weightMomentums := o1, biasMomentums := o2, weightCache := o3, biasCache := o4 }) w1
      (fun e w' => e ≠ none ∧ UpdErr w w' op rw cw rb cb S) := by
  obtain ⟨V3, hc⟩ := hc
  obtain ⟨V4, hcb⟩ := hcb
  unfold adamTail
  dsimp only
  refine wp_bind_mono (mulScalar_spec hv _) ?_
  intro sm w2 h2
  have f2 := f1.then_allocs h2.frame
  refine wp_bind_mono (mulScalar_spec (hGW.optf f2) _) ?_
  intro sg w3 h3
  have f3 := f2.then_allocs h3.frame
  by_cases hm : r1 = rw ∧ c1 = cw
  · obtain ⟨rfl, rfl⟩ := hm
    replace hbad := hbad.resolve_left (by simp)
    refine wp_bind_mono (add_spec (h2.mat.allocs h3.frame) h3.mat) ?_
    rintro ⟨vm, e⟩ w4 ⟨he, h4⟩
    obtain rfl : e = none := he
    dsimp only at h4 ⊢
    have f4 := f3.then_allocs h4.frame
    refine wp_bind_ok (optSet_run _ _ _) ?_
    set w5 := w4.setOpt op _ with hw5
    have f5 : Frame _ w w5 := f4.then_opt _
    have v5 : Fresh w w5 vm _ _ _ := (Fresh.of_new f3 h4).opt _
    have a5 : Frame _ w1 w5 := (((Frame.refl { opt := fun a => a = op } w1).then_allocs h2.frame).then_allocs
      h3.frame).then_allocs h4.frame |>.then_opt _
    clear_value w5
    have key : ∃ b6 w6, o2.mulScalar d.beta1 w5 = .ok (b6, w6) ∧ OnlyAllocs w5 w6 ∧
        ∀ (sg' : Mat), (sg'.rows : Int) = r2 → sg'.cols = c2 → b6.rows ≠ sg'.rows ∨ b6.cols ≠ sg'.cols := by
      have hr2 := hGB.rpos
      rcases hvb with ⟨V', hvb⟩ | hvb
      · have := mulScalar_spec (hvb.optf a5) d.beta1
        rw [wp_iff] at this
        obtain ⟨b6, w6, h6, h7⟩ := this
        refine ⟨b6, w6, h6, h7.frame, ?_⟩
        intro sg' e1 e2
        rw [h7.mat.rows, h7.mat.cols, e1, e2]
        rcases hbad with hbad | hbad
        · omega
        · have := hvb.rows; have := hvb.rpos; have := hbad.1; omega
      · refine ⟨_, _, mulScalar_empty hvb _ _, Frame.refl _ _, ?_⟩
        intro sg' e1 e2
        rw [e1]; left; show (0 : Int) ≠ _; omega
    obtain ⟨b6, w6, h6, h6f, h6b⟩ := key
    have f6 := f5.then_allocs h6f
    refine wp_bind_ok h6 ?_
    refine wp_bind_mono (mulScalar_spec (hGB.optf f6) _) ?_
    intro sg' w7 h7
    have f7 := f6.then_allocs h7.frame
    have a7 := (a5.then_allocs h6f).then_allocs h7.frame
    refine wp_bind_ok (add_bad (h6b _ h7.mat.rows h7.mat.cols) _) ?_
    dsimp only
    refine wp_bind_ok (optSet_run _ _ _) ?_
    refine ⟨by simp, updErr_mk ho f7 _ ?_ ?_⟩
    · subst hd
      exact optFields_keep ho.fields vm Mat.zero o3 o4
    · exact .set ⟨_, ((v5.allocs h6f).allocs h7.frame).mat⟩ (.inr ⟨rfl, rfl⟩) (fun _ => ⟨_, hc.optf a7⟩)
        (fun _ => ⟨_, hcb.optf a7⟩)
  · refine wp_bind_ok (add_bad (h2.mat.shape_ne h3.mat hm) _) ?_
    dsimp only
    refine wp_bind_ok (optSet_run _ _ _) ?_
    refine ⟨by simp, updErr_mk ho f3 _ ?_ (.unset rfl)⟩
    subst hd
    exact optFields_keep ho.fields Mat.zero o2 o3 o4

/-- Do the gradients fit, and does the optimizer still have its bias state? -/
def Fits (o : Optim α) (rw cw rb cb r1 c1 r2 c2 : Nat) : Prop :=
  r1 = rw ∧ c1 = cw ∧ r2 = rb ∧ c2 = cb ∧ ¬ o.biasLost

theorem optUpdate_err {w : World α} {op : Nat} {wm bm dw db : Mat} {rw cw rb cb r1 c1 r2 c2 : Nat} {S : OptSpec α}
    {W B GW GB : Nat → Nat → α} (ho : OptOk w op rw cw rb cb S)
    (hp : IsParams w wm bm rw cw rb cb W B) (hGW : IsMat w dw r1 c1 GW) (hGB : IsMat w db r2 c2 GB)
    (hbad : ¬ Fits (w.opt op) rw cw rb cb r1 c1 r2 c2) :
    wp (optUpdate op (some wm) (some bm) dw db) w (fun e w' => e ≠ none ∧ UpdErr w w' op rw cw rb cb S) := by
  have hbad1 : ¬ (r1 = rw ∧ c1 = cw) ∨ ¬ (r2 = rb ∧ c2 = cb) ∨ (w.opt op).biasLost := by
    unfold Fits at hbad; tauto
  have hbad2 : ∀ o2 : Mat, ((w.opt op).biasLost → o2.Empty) →
      ¬ (r1 = rw ∧ c1 = cw) ∨ ¬ (r2 = rb ∧ c2 = cb) ∨ o2.Empty := by tauto
  unfold optUpdate
  refine wp_bind_ok rfl ?_
  refine wp_bind_ok rfl ?_
  refine wp_bind_ok rfl ?_
  rw [ho.fields.kind]
  have f1 := frame_optSet w op (w.opt op).decayed
  have hwm : (w.opt op).decayed.weightMomentums = (w.opt op).weightMomentums := by rw [decayed_fields]
  have hbm : (w.opt op).decayed.biasMomentums = (w.opt op).biasMomentums := by rw [decayed_fields]
  have hwc : (w.opt op).decayed.weightCache = (w.opt op).weightCache := by rw [decayed_fields]
  have hbc : (w.opt op).decayed.biasCache = (w.opt op).biasCache := by rw [decayed_fields]
  rcases hk : S.kind with _ | _
  · have hm : Flt.eq S.momentum Flt.zero = false := ho.stateful.resolve_left (by rw [hk]; decide)
    show wp (sgdUpdate op wm bm dw db) w _
    unfold sgdUpdate
    refine wp_bind_ok rfl ?_
    dsimp only
    refine wp_bind_ok (optSet_run _ _ _) ?_
    have hum : (w.opt op).decayed.useMomentum = true := by
      rw [decayed_fields]; dsimp only; rw [ho.fields.useMomentum hk, hm]; rfl
    rw [if_pos hum]
    rcases ho.slots with h | ⟨⟨V, a⟩, b, -, -⟩
    · rw [if_pos (by rw [hwm]; exact h)]
      rw [hp.wmat.rows, hp.wmat.cols, hp.bmat.rows, hp.bmat.cols]
      refine wp_bind_mono (newMatrix_spec hp.wmat.rpos hp.wmat.cpos) ?_
      rintro ⟨m1, e1⟩ w2 ⟨-, h2⟩
      refine wp_bind_mono (newMatrix_spec hp.bmat.rpos hp.bmat.cpos) ?_
      rintro ⟨m2, e2⟩ w3 ⟨-, h3⟩
      dsimp only at h2 h3 ⊢
      refine wp_bind_ok (optSet_run _ _ _) ?_
      set w4 := w3.setOpt op _ with hw4
      have f4 : Frame _ w w4 := ((f1.then_allocs h2.frame).then_allocs h3.frame).then_opt _
      refine momTail_err ho hk hGW hGB f4 ((h2.mat.allocs h3.frame).optf (frame_optSet _ _ _))
        (.inl ⟨_, h3.mat.optf (frame_optSet _ _ _)⟩) rfl (hbad2 m2 fun hb => absurd h hb.1)
    · rw [if_neg (by rw [hwm]; have := a.rows; have := a.rpos; omega)]
      have a' := a.optf f1
      have b' := b.imp (fun ⟨V, b⟩ => (⟨V, b.optf f1⟩ : ∃ V, IsMat _ _ _ _ V)) id
      rw [← hwm] at a'
      rw [← hbm] at b'
      refine momTail_err ho hk hGW hGB f1 a' b' rfl (hbad2 _ fun hb => ?_)
      rcases b with ⟨V, b⟩ | b
      · have := b.rows; have := b.rpos; have := hb.2; omega
      · rw [hbm]; exact b
  · have hadam : (w.opt op).kind = .adam := ho.fields.kind.trans hk
    show wp (adamUpdate op wm bm dw db) w _
    unfold adamUpdate
    refine wp_bind_ok rfl ?_
    dsimp only
    refine wp_bind_ok (optSet_run _ _ _) ?_
    rcases ho.slots with h | ⟨⟨V, a⟩, b, c, d⟩
    · rw [if_pos (by rw [hwm]; exact h)]
      rw [hp.wmat.rows, hp.wmat.cols, hp.bmat.rows, hp.bmat.cols]
      refine wp_bind_mono (newMatrix_spec hp.wmat.rpos hp.wmat.cpos) ?_
      rintro ⟨m1, e1⟩ w2 ⟨-, h2⟩
      refine wp_bind_mono (newMatrix_spec hp.bmat.rpos hp.bmat.cpos) ?_
      rintro ⟨m2, e2⟩ w3 ⟨-, h3⟩
      refine wp_bind_mono (newMatrix_spec hp.wmat.rpos hp.wmat.cpos) ?_
      rintro ⟨m3, e3⟩ w4 ⟨-, h4⟩
      refine wp_bind_mono (newMatrix_spec hp.bmat.rpos hp.bmat.cpos) ?_
      rintro ⟨m4, e4⟩ w5 ⟨-, h5⟩
      dsimp only at h2 h3 h4 h5 ⊢
      refine wp_bind_ok (optSet_run _ _ _) ?_
      set w6 := w5.setOpt op _ with hw6
      have f6 : Frame _ w w6 :=
        ((((f1.then_allocs h2.frame).then_allocs h3.frame).then_allocs h4.frame).then_allocs h5.frame).then_opt _
      exact adamTail_err ho hGW hGB f6
        ((((h2.mat.allocs h3.frame).allocs h4.frame).allocs h5.frame).optf (frame_optSet _ _ _))
        (.inl ⟨_, ((h3.mat.allocs h4.frame).allocs h5.frame).optf (frame_optSet _ _ _)⟩)
        ⟨_, (h4.mat.allocs h5.frame).optf (frame_optSet _ _ _)⟩ ⟨_, h5.mat.optf (frame_optSet _ _ _)⟩ rfl
        (hbad2 m2 fun hb => absurd h hb.1)
    · rw [if_neg (by rw [hwm]; have := a.rows; have := a.rpos; omega)]
      have a' := a.optf f1
      have b' := b.imp (fun ⟨V, b⟩ => (⟨V, b.optf f1⟩ : ∃ V, IsMat _ _ _ _ V)) id
      have c' := (c hadam).imp fun _ c => c.optf f1
      have d' := (d hadam).imp fun _ c => c.optf f1
      rw [← hwm] at a'
      rw [← hbm] at b'
      rw [← hwc] at c'
      rw [← hbc] at d'
      refine adamTail_err ho hGW hGB f1 a' b' c' d' rfl (hbad2 _ fun hb => ?_)
      rcases b with ⟨V, b⟩ | b
      · have := b.rows; have := b.rpos; have := hb.2; omega
      · rw [hbm]; exact b

/-- An optimizer that kept its state satisfies the full description, for suitable state values. -/
theorem OptOk.isOpt {w : World α} {op : Nat} {rw cw rb cb : Nat} {S : OptSpec α} (ho : OptOk w op rw cw rb cb S)
    (h : ¬ (w.opt op).biasLost) :
    ∃ vw vb dw db, IsOpt w op rw cw rb cb { S with vw := vw, vb := vb, cw := dw, cb := db } := by
  have hf : ∀ vw vb dw db, OptFields (w.opt op) { S with vw := vw, vb := vb, cw := dw, cb := db } := fun _ _ _ _ =>
    ⟨ho.fields.kind, ho.fields.lr, ho.fields.decay, ho.fields.momentum, ho.fields.epsilon, ho.fields.beta1,
      ho.fields.beta2, ho.fields.iter, ho.fields.useDecay, ho.fields.useMomentum, ho.fields.rate⟩
  rcases hs : ho.slots with hu | ⟨⟨V1, a⟩, b, c, d⟩
  · exact ⟨fun _ _ => Flt.zero, fun _ _ => Flt.zero, fun _ _ => Flt.zero, fun _ _ => Flt.zero, ho.lt, hf _ _ _ _,
      .unset hu (fun _ _ => rfl) (fun _ _ => rfl) (fun _ _ => rfl) (fun _ _ => rfl), fun hn => absurd ho.stateful hn⟩
  · rcases b with ⟨V2, b⟩ | b
    · by_cases hk : (w.opt op).kind = .adam
      · obtain ⟨V3, c⟩ := c hk
        obtain ⟨V4, d⟩ := d hk
        exact ⟨V1, V2, V3, V4, ho.lt, hf _ _ _ _, .set a b (fun _ => c) (fun _ => d),
          fun hn => absurd ho.stateful hn⟩
      · have hk' : ¬ S.kind = .adam := fun h => hk (ho.fields.kind.trans h)
        exact ⟨V1, V2, S.cw, S.cb, ho.lt, hf _ _ _ _,
          .set a b (fun h => absurd h hk') (fun h => absurd h hk'), fun hn => absurd ho.stateful hn⟩
    · exact absurd ⟨by have := a.rows; have := a.rpos; omega, b.1⟩ h

theorem IsOpt.optOk {w : World α} {op : Nat} {rw cw rb cb : Nat} {S : OptSpec α} (ho : IsOpt w op rw cw rb cb S)
    (h : S.stateful) : OptOk w op rw cw rb cb S := by
  refine ⟨ho.lt, ho.fields, h, ?_⟩
  rcases ho.slots with hu | ⟨a, b, c, d⟩
  · exact .unset ‹_›
  · exact .set ⟨_, a⟩ (.inl ⟨_, b⟩) (fun h => ⟨_, c (ho.fields.kind.symm.trans h)⟩)
      (fun h => ⟨_, d (ho.fields.kind.symm.trans h)⟩)

end NN
