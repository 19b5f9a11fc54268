import Verif.Lemmas.Conc
/-
Which addresses a read-only call reads and writes: it reads the memory that existed before it and what it has allocated itself, and writes only
the latter (and the remembered matrices of the layer objects).
-/

set_option linter.unusedSectionVars false

namespace NN
variable {α : Type} [Flt α] {R : Region}

/-- The memory that a goroutine uses. -/
structure Region where
  /-- its own allocations are at addresses from here on -/
  b : Nat
  /-- the old row tables that it may read -/
  tab : Nat → Prop
  /-- the old rows that it may read -/
  rd : Nat → Prop
  /-- of these, the rows that it may write -/
  wr : Nat → Prop
  /-- the layers whose remembered matrices it may write -/
  rem : Nat → Prop
  /-- the layers whose remembered matrices it may read -/
  lay : Nat → Prop
  /-- the optimizers that it may read and write -/
  opt : Nat → Prop
  /-- may it write to the log? -/
  log : Prop

/-- An old row table that may be read, or one that was allocated by the call itself. -/
def ValidTab (R : Region) (V : World α) (a : Nat) : Prop := R.tab a ∨ (R.b ≤ a ∧ a < V.next)

/-- An old row that may be read, or one that was allocated by the call itself. -/
def Valid (R : Region) (V : World α) (a : Nat) : Prop := R.rd a ∨ (R.b ≤ a ∧ a < V.next)

/-- A row that may be written. -/
def Mine (R : Region) (V : World α) (a : Nat) : Prop := (R.rd a ∧ R.wr a) ∨ (R.b ≤ a ∧ a < V.next)

/-- An access uses only the memory of the region. -/
def Prim.Safe {γ : Type} (R : Region) (V : World α) : Prim α γ → Prop
  | .rowRef s _ => ValidTab R V s.addr
  | .setRowRef s _ _ => R.b ≤ s.addr ∧ s.addr < V.next
  | .rowGet r _ => Valid R V r
  | .rowSet r _ _ => Mine R V r
  | .rowLen r => Valid R V r
  | .setRelu lp _ => R.rem lp
  | .setOutputs lp _ => R.rem lp
  | .setMask lp _ => R.rem lp
  | .layGet lp => R.lay lp
  | .optGet op => R.opt op
  | .optSet op _ => R.opt op
  | .log _ => R.log
  | .unif => False
  | _ => True

/-- Every access of the program is safe, as long as no access panics, and if it ends it ends with Q. -/
def Prog.grd {β : Type} (R : Region) : Prog α β → World α → (β → World α → Prop) → Prop
  | .ret x, V, Q => Q x V
  | .op p k, V, Q => ∀ c V', p.sem V = .ok (c, V') → p.Safe R V ∧ (k c).grd R V' Q

open Prog

theorem grd_mono {β : Type} {t : Prog α β} {V : World α} {P Q : β → World α → Prop} (h : t.grd R V P) (hQ : ∀ x V', P x V' → Q x V') :
    t.grd R V Q := by
  induction t generalizing V with
  | ret x => exact hQ _ _ h
  | op p k ih => exact fun c V' e => ⟨(h c V' e).1, ih c (h c V' e).2⟩

theorem grd_pure {β : Type} {x : β} {V : World α} {Q : β → World α → Prop} (h : Q x V) : (pure x : Prog α β).grd R V Q := h

theorem grd_bind {β γ : Type} {t : Prog α β} {f : β → Prog α γ} {V : World α} {P : β → World α → Prop} {Q : γ → World α → Prop}
    (h : t.grd R V P) (hf : ∀ x V', P x V' → (f x).grd R V' Q) : (t >>= f).grd R V Q := by
  induction t generalizing V with
  | ret x => exact hf _ _ h
  | op p k ih => exact fun c V' e => ⟨(h c V' e).1, ih c (h c V' e).2⟩

theorem grd_prim {γ : Type} {p : Prim α γ} {V : World α} {Q : γ → World α → Prop}
    (h : ∀ c V', p.sem V = .ok (c, V') → p.Safe R V ∧ Q c V') : (prim p).grd R V Q := h

/-- A matrix all of whose memory is valid. -/
structure MOk (R : Region) (V : World α) (m : Mat) : Prop where
  lt : m.m.len ≠ 0 → m.m.addr < V.next
  addr : m.m.len ≠ 0 → ValidTab R V m.m.addr
  row : ∀ i, i < m.m.len → ∀ a, (V.outs m.m.addr)[m.m.off + i]? = some a → Valid R V a

/-- A matrix all of whose rows may be written. -/
def Own (R : Region) (V : World α) (m : Mat) : Prop :=
  ∀ i, i < m.m.len → ∀ a, (V.outs m.m.addr)[m.m.off + i]? = some a → Mine R V a

/-- The matrices of an optimizer are valid. -/
structure OOk (R : Region) (V : World α) (o : Optim α) : Prop where
  wm : MOk R V o.weightMomentums
  bm : MOk R V o.biasMomentums
  wc : MOk R V o.weightCache
  bc : MOk R V o.biasCache

/-- What every program does to the state: addresses grow, the row tables that existed stay, the parameters of layers stay, and what a layer
remembers stays valid. -/
structure Ext (R : Region) (V V' : World α) : Prop where
  next : V.next ≤ V'.next
  outs : ∀ a, a < V.next → V'.outs a = V.outs a
  lay : ∀ lp, (V'.lay lp).params = (V.lay lp).params
  relu : ∀ lp, MOk R V (V.lay lp).reluInputs → MOk R V' (V'.lay lp).reluInputs
  outputs : ∀ lp, MOk R V (V.lay lp).outputs → MOk R V' (V'.lay lp).outputs
  opt : ∀ op, OOk R V (V.opt op) → OOk R V' (V'.opt op)

theorem Ext.refl (V : World α) : Ext R V V := ⟨le_rfl, fun _ _ => rfl, fun _ => rfl, fun _ h => h, fun _ h => h, fun _ h => h⟩

theorem Ext.trans {V V' V'' : World α} (h : Ext R V V') (h' : Ext R V' V'') : Ext R V V'' :=
  ⟨h.next.trans h'.next, fun a ha => (h'.outs a (ha.trans_le h.next)).trans (h.outs a ha), fun lp => (h'.lay lp).trans (h.lay lp),
    fun lp e => h'.relu lp (h.relu lp e), fun lp e => h'.outputs lp (h.outputs lp e), fun op e => h'.opt op (h.opt op e)⟩

theorem ValidTab.mono {V V' : World α} {a : Nat} (h : ValidTab R V a) (e : V.next ≤ V'.next) : ValidTab R V' a :=
  h.imp_right fun h => ⟨h.1, h.2.trans_le e⟩

theorem Valid.mono {V V' : World α} {a : Nat} (h : Valid R V a) (e : V.next ≤ V'.next) : Valid R V' a :=
  h.imp_right fun h => ⟨h.1, h.2.trans_le e⟩

theorem Mine.mono {V V' : World α} {a : Nat} (h : Mine R V a) (e : V.next ≤ V'.next) : Mine R V' a :=
  h.imp_right fun h => ⟨h.1, h.2.trans_le e⟩

theorem Mine.valid {V : World α} {a : Nat} (h : Mine R V a) : Valid R V a := h.imp_left fun h => h.1

theorem MOk.keep {V V' : World α} {m : Mat} (h : MOk R V m) (hn : V.next ≤ V'.next) (ho : ∀ a, a < V.next → V'.outs a = V.outs a) :
    MOk R V' m := by
  refine ⟨fun h0 => (h.lt h0).trans_le hn, fun h0 => (h.addr h0).mono hn, fun i hi a ha => ?_⟩
  rw [ho _ (h.lt (by omega))] at ha
  exact (h.row i hi a ha).mono hn

theorem OOk.keep {V V' : World α} {o : Optim α} (h : OOk R V o) (hn : V.next ≤ V'.next) (ho : ∀ a, a < V.next → V'.outs a = V.outs a) :
    OOk R V' o := ⟨h.wm.keep hn ho, h.bm.keep hn ho, h.wc.keep hn ho, h.bc.keep hn ho⟩

theorem OOk.ext {V V' : World α} {o : Optim α} (h : OOk R V o) (e : Ext R V V') : OOk R V' o := h.keep e.next e.outs

theorem MOk.ext {V V' : World α} {m : Mat} (h : MOk R V m) (e : Ext R V V') : MOk R V' m := h.keep e.next e.outs

/-- A step that changes neither layers nor optimizers. -/
theorem Ext.plain {V V' : World α} (hn : V.next ≤ V'.next) (ho : ∀ a, a < V.next → V'.outs a = V.outs a) (hl : V'.lay = V.lay) (hp : V'.opt = V.opt) :
    Ext R V V' :=
  ⟨hn, ho, fun lp => by rw [hl], fun lp h => by rw [hl]; exact h.keep hn ho, fun lp h => by rw [hl]; exact h.keep hn ho,
    fun op h => by rw [hp]; exact h.keep hn ho⟩

theorem Own.ext {V V' : World α} {m : Mat} (ho : Own R V m) (h : MOk R V m) (e : Ext R V V') : Own R V' m := by
  intro i hi a ha
  rw [e.outs _ (h.lt (by omega))] at ha
  exact (ho i hi a ha).mono e.next

theorem MOk.zero (V : World α) : MOk R V Mat.zero := ⟨fun h => absurd rfl h, fun h => absurd rfl h, fun i hi => absurd hi (Nat.not_lt_zero i)⟩

theorem Own.zero (V : World α) : Own R V Mat.zero := fun i hi => absurd hi (Nat.not_lt_zero i)

theorem rowRef_inv {V V' : World α} {s : Slice} {i : Int} {r : Nat} (e : NN.rowRef s i V = .ok (r, V')) :
    V' = V ∧ ∃ k, k < s.len ∧ (V.outs s.addr)[s.off + k]? = some r := by
  unfold NN.rowRef at e
  split at e
  · rename_i h
    split at e
    · rename_i a ha
      cases e
      exact ⟨rfl, i.toNat, by omega, ha⟩
    · cases e
  · cases e

theorem grd_rowRef {V : World α} {m : Mat} {i : Int} (h : MOk R V m) {Q : Nat → World α → Prop}
    (hQ : ∀ r k, k < m.m.len → (V.outs m.m.addr)[m.m.off + k]? = some r → Q r V) : (prim (.rowRef m.m i)).grd R V Q := by
  refine grd_prim fun r V' e => ?_
  obtain ⟨rfl, k, hk, hr⟩ := rowRef_inv e
  exact ⟨h.addr (by omega), hQ r k hk hr⟩

theorem grd_at {V : World α} {m : Mat} {i j : Int} (h : MOk R V m) : (m.atP i j : Prog α α).grd R V (fun _ V' => V' = V) := by
  refine grd_bind (P := fun r V' => V' = V ∧ Valid R V r) (grd_rowRef h fun r k hk hr => ⟨rfl, h.row k hk r hr⟩) ?_
  rintro r V' ⟨rfl, hr⟩
  refine grd_prim fun v V'' e => ⟨hr, ?_⟩
  change NN.rowGet r j V' = _ at e
  unfold NN.rowGet at e
  split at e
  · split at e <;> cases e; rfl
  · cases e

theorem grd_setAt {V : World α} {m : Mat} {i j : Int} {v : α} (h : MOk R V m) (ho : Own R V m) :
    (m.setAtP i j v).grd R V (fun _ V' => Ext R V V') := by
  refine grd_bind (P := fun r V' => V' = V ∧ Mine R V r) (grd_rowRef h fun r k hk hr => ⟨rfl, ho k hk r hr⟩) ?_
  rintro r V' ⟨rfl, hr⟩
  refine grd_prim fun u V'' e => ⟨hr, ?_⟩
  change NN.rowSet r j v V' = _ at e
  unfold NN.rowSet at e
  split at e
  · cases e
    exact Ext.plain le_rfl (fun _ _ => rfl) rfl rfl
  · cases e

theorem grd_deref {β : Type} {p : Option β} {V : World α} : (derefP p : Prog α β).grd R V (fun x V' => V' = V ∧ p = some x) := by
  cases p with
  | none => exact grd_prim fun c V' e => by cases e
  | some x => exact ⟨rfl, rfl⟩

theorem grd_listGet {β : Type} {xs : List β} {i : Int} {V : World α} :
    (listGetP xs i : Prog α β).grd R V (fun x V' => V' = V ∧ xs[i.toNat]? = some x) := by
  unfold listGetP
  split
  · cases h : xs[i.toNat]? with
    | none => exact grd_prim fun c V' e => by cases e
    | some x => exact ⟨rfl, rfl⟩
  · exact grd_prim fun c V' e => by cases e

theorem grd_forN {n : Nat} {body : Nat → Prog α Unit} {V : World α}
    (h : ∀ i V', i < n → Ext R V V' → (body i).grd R V' (fun _ V'' => Ext R V' V'')) :
    (Prog.forN n body).grd R V (fun _ V' => Ext R V V') := by
  induction n with
  | zero => exact Ext.refl V
  | succ n ih =>
    exact grd_bind (ih fun i V' hi => h i V' (by omega)) fun _ V' e => grd_mono (h n V' (by omega) e) fun _ _ e' => e.trans e'

theorem grd_foldN {β : Type} {n : Nat} {body : Nat → β → Prog α β} {x : β} {V : World α}
    (h : ∀ i x V', i < n → Ext R V V' → (body i x).grd R V' (fun _ V'' => Ext R V' V'')) :
    (Prog.foldN n body x).grd R V (fun _ V' => Ext R V V') := by
  induction n with
  | zero => exact Ext.refl V
  | succ n ih =>
    exact grd_bind (ih fun i x V' hi => h i x V' (by omega)) fun x' V' e => grd_mono (h n x' V' (by omega) e) fun _ _ e' => e.trans e'

/-- Continue after reading an element. -/
theorem grd_at_bind {γ : Type} {V : World α} {m : Mat} {i j : Int} {f : α → Prog α γ} {Q : γ → World α → Prop} (h : MOk R V m)
    (hf : ∀ x, (f x).grd R V Q) : (m.atP i j >>= f).grd R V Q :=
  grd_bind (grd_at h) fun x V' e => by rw [e]; exact hf x

theorem grd_newMatrix {V : World α} (hb : R.b ≤ V.next) (r c : Int) :
    (newMatrixP r c : Prog α (Mat × Option Err)).grd R V (fun p V' => Ext R V V' ∧ MOk R V' p.1 ∧ Own R V' p.1) := by
  unfold newMatrixP
  split
  · exact ⟨Ext.refl V, MOk.zero V, Own.zero V⟩
  · have key : ∀ (n : Nat) (V1 : World α) (s : Slice), n ≤ s.len → s.addr = V.next → s.off = 0 → V.next < V1.next →
        (∀ a, a < V.next → V1.outs a = V.outs a) → (V1.lay = V.lay ∧ V1.opt = V.opt) →
        (Prog.forN n fun i => do
          let r ← prim (.allocRow c.toNat)
          prim (.setRowRef s i r)).grd R V1 (fun _ V' => V.next < V'.next ∧ (∀ a, a < V.next → V'.outs a = V.outs a) ∧
            (V'.lay = V.lay ∧ V'.opt = V.opt) ∧
            ∀ i, i < n → ∀ a, (V'.outs s.addr)[i]? = some a → R.b ≤ a ∧ a < V'.next) := by
      intro n V1 s
      induction n with
      | zero => exact fun _ _ _ h1 h2 h3 => ⟨h1, h2, h3, fun i hi => absurd hi (Nat.not_lt_zero i)⟩
      | succ n ih =>
        intro hn hs ho h1 h2 h3
        refine grd_bind (ih (by omega) hs ho h1 h2 h3) ?_
        rintro - V2 ⟨g1, g2, g3, g4⟩
        refine grd_bind (P := fun r V3 => r = V2.next ∧ V3.next = V2.next + 1 ∧ V3.outs = V2.outs ∧ V3.lay = V2.lay ∧ V3.opt = V2.opt)
          (grd_prim fun r V3 e => by cases e; exact ⟨trivial, rfl, rfl, rfl, rfl, rfl⟩) ?_
        rintro r V3 ⟨rfl, e1, e2, e3, e4⟩
        refine grd_prim fun u V4 e => ?_
        change NN.setRowRef s n V2.next V3 = _ at e
        unfold NN.setRowRef at e
        split at e
        · cases e
          refine ⟨⟨by omega, by rw [hs]; omega⟩, by show V.next < V3.next; omega, ?_, ⟨e3.trans g3.1, e4.trans g3.2⟩, ?_⟩
          · intro a ha
            show upd V3.outs s.addr _ a = _
            rw [upd, if_neg (by omega), e2]
            exact g2 a ha
          · intro i hi a ha
            change (upd V3.outs s.addr _ s.addr)[i]? = some a at ha
            rw [upd, if_pos rfl, ho, e2] at ha
            show R.b ≤ a ∧ a < V3.next
            by_cases hin : i = n
            · subst hin
              rw [List.getElem?_set] at ha
              simp only [Nat.zero_add, Int.toNat_natCast, if_true] at ha
              split at ha
              · cases ha; omega
              · cases ha
            · rw [List.getElem?_set_ne (by simp; omega)] at ha
              have := g4 i (by omega) a ha
              omega
        · cases e
    refine grd_bind (P := fun s V1 => s = ⟨V.next, 0, r.toNat, r.toNat⟩ ∧ V1.next = V.next + 1 ∧
        (∀ a, a < V.next → V1.outs a = V.outs a) ∧ V1.lay = V.lay ∧ V1.opt = V.opt) (grd_prim fun s V1 e => ?_) ?_
    · cases e
      refine ⟨trivial, rfl, rfl, fun a ha => ?_, rfl, rfl⟩
      show upd V.outs V.next _ a = _
      rw [upd, if_neg (by omega)]
    · rintro s V1 ⟨rfl, e1, e2, e3⟩
      refine grd_bind (key r.toNat V1 ⟨V.next, 0, r.toNat, r.toNat⟩ le_rfl rfl rfl (by omega) e2 e3) ?_
      rintro - V2 ⟨g1, g2, g3, g4⟩
      refine grd_pure ⟨Ext.plain g1.le g2 g3.1 g3.2, ⟨fun _ => g1, fun _ => .inr ⟨hb, g1⟩, fun i hi a ha => .inr (g4 i hi a ?_)⟩, fun i hi a ha => .inr (g4 i hi a ?_)⟩ <;>
      simpa using ha

/-! ### The functions -/

theorem grd_sub {V : World α} (hb : R.b ≤ V.next) {m n : Mat} (hm : MOk R V m) (hn : MOk R V n) :
    (m.subP n : Prog α (Mat × Option Err)).grd R V (fun p V' => Ext R V V' ∧ MOk R V' p.1 ∧ Own R V' p.1) := by
  unfold Mat.subP
  split
  · exact ⟨Ext.refl V, MOk.zero V, Own.zero V⟩
  · refine grd_bind (grd_newMatrix hb _ _) ?_
    rintro ⟨ans, er⟩ V1 ⟨h1, h2, h3⟩
    refine grd_bind (P := fun _ V2 => Ext R V1 V2) (grd_forN fun i V2 _ e2 => grd_forN fun j V3 _ e3 => ?_) ?_
    · have e := e2.trans e3
      exact grd_at_bind (hm.ext (h1.trans e)) fun _ => grd_at_bind (hn.ext (h1.trans e)) fun _ => grd_setAt (h2.ext e) (h3.ext h2 e)
    · exact fun _ V2 e => ⟨h1.trans e, h2.ext e, h3.ext h2 e⟩

theorem grd_dot {V : World α} (hb : R.b ≤ V.next) {m n : Mat} (hm : MOk R V m) (hn : MOk R V n) :
    (m.dotP n : Prog α (Mat × Option Err)).grd R V (fun p V' => Ext R V V' ∧ MOk R V' p.1 ∧ Own R V' p.1) := by
  unfold Mat.dotP
  split
  · exact ⟨Ext.refl V, MOk.zero V, Own.zero V⟩
  · refine grd_bind (grd_newMatrix hb _ _) ?_
    rintro ⟨ans, er⟩ V1 ⟨h1, h2, h3⟩
    refine grd_bind (P := fun _ V2 => Ext R V1 V2) (grd_forN fun i V2 _ e2 => grd_forN fun j V3 _ e3 => ?_) ?_
    · have e := e2.trans e3
      refine grd_bind (P := fun _ V4 => Ext R V3 V4) (grd_foldN fun n s V4 _ e4 => ?_) ?_
      · have e := h1.trans (e.trans e4)
        exact grd_at_bind (hm.ext e) fun _ => grd_at_bind (hn.ext e) fun _ => grd_pure (Ext.refl _)
      · exact fun s V4 e4 => grd_mono (grd_setAt (h2.ext (e.trans e4)) (h3.ext h2 (e.trans e4))) fun _ _ h => e4.trans h
    · exact fun _ V2 e => ⟨h1.trans e, h2.ext e, h3.ext h2 e⟩

theorem grd_sum1 {V : World α} (hb : R.b ≤ V.next) {m : Mat} (hm : MOk R V m) :
    (m.sum1P : Prog α Mat).grd R V (fun p V' => Ext R V V' ∧ MOk R V' p) := by
  unfold Mat.sum1P
  refine grd_bind (grd_newMatrix hb _ _) ?_
  rintro ⟨ans, er⟩ V1 ⟨h1, h2, h3⟩
  refine grd_bind (P := fun _ V2 => Ext R V1 V2) (grd_forN fun i V2 _ e2 => ?_) fun _ V2 e => ⟨h1.trans e, h2.ext e⟩
  refine grd_bind (P := fun _ V3 => Ext R V2 V3) (grd_foldN fun n s V3 _ e3 => ?_) ?_
  · exact grd_at_bind (hm.ext (h1.trans (e2.trans e3))) fun _ => grd_pure (Ext.refl _)
  · exact fun s V3 e3 => grd_mono (grd_setAt (h2.ext (e2.trans e3)) (h3.ext h2 (e2.trans e3))) fun _ _ h => e3.trans h

theorem grd_clip {V : World α} {m : Mat} (hm : MOk R V m) (ho : Own R V m) :
    (clipP m : Prog α Mat).grd R V (fun p V' => Ext R V V' ∧ p = m) := by
  unfold clipP
  refine grd_bind (P := fun _ V2 => Ext R V V2) (grd_forN fun i V2 _ e2 => grd_forN fun j V3 _ e3 => ?_) fun _ V2 e => ⟨e, rfl⟩
  have e := e2.trans e3
  refine grd_at_bind (hm.ext e) fun x => ?_
  split
  · exact grd_setAt (hm.ext e) (ho.ext hm e)
  · refine grd_at_bind (hm.ext e) fun x => ?_
    split
    · exact grd_setAt (hm.ext e) (ho.ext hm e)
    · exact Ext.refl _

theorem grd_rowMax {V : World α} (hb : R.b ≤ V.next) {m : Mat} (hm : MOk R V m) :
    (rowMaxP m : Prog α Mat).grd R V (fun p V' => Ext R V V' ∧ MOk R V' p) := by
  unfold rowMaxP
  refine grd_bind (grd_newMatrix hb _ _) ?_
  rintro ⟨ans, er⟩ V1 ⟨h1, h2, h3⟩
  refine grd_bind (P := fun _ V2 => Ext R V1 V2) (grd_forN fun i V2 _ e2 => ?_) fun _ V2 e => ⟨h1.trans e, h2.ext e⟩
  refine grd_bind (P := fun _ V3 => Ext R V2 V3) (grd_foldN fun n s V3 _ e3 => ?_) ?_
  · refine grd_at_bind (hm.ext (h1.trans (e2.trans e3))) fun _ => ?_
    split
    · exact grd_at_bind (hm.ext (h1.trans (e2.trans e3))) fun _ => grd_pure (Ext.refl _)
    · exact Ext.refl _
  · exact fun s V3 e3 => grd_mono (grd_setAt (h2.ext (e2.trans e3)) (h3.ext h2 (e2.trans e3))) fun _ _ h => e3.trans h

theorem grd_outputBinaryValues {V : World α} {m : Mat} (hm : MOk R V m) (ho : Own R V m) :
    (outputBinaryValuesP m : Prog α Mat).grd R V (fun p V' => Ext R V V' ∧ p = m) := by
  unfold outputBinaryValuesP
  refine grd_bind (P := fun _ V2 => Ext R V V2) (grd_forN fun i V2 _ e2 => grd_forN fun j V3 _ e3 => ?_) fun _ V2 e => ⟨e, rfl⟩
  have e := e2.trans e3
  refine grd_at_bind (hm.ext e) fun x => ?_
  split <;> exact grd_setAt (hm.ext e) (ho.ext hm e)

theorem grd_relu {V : World α} {m : Mat} (hm : MOk R V m) (ho : Own R V m) :
    (reluP m : Prog α Mat).grd R V (fun p V' => Ext R V V' ∧ p = m) := by
  unfold reluP
  refine grd_bind (P := fun _ V2 => Ext R V V2) (grd_forN fun i V2 _ e2 => grd_forN fun j V3 _ e3 => ?_) fun _ V2 e => ⟨e, rfl⟩
  have e := e2.trans e3
  exact grd_at_bind (hm.ext e) fun x => grd_setAt (hm.ext e) (ho.ext hm e)

theorem grd_sigmoid {V : World α} {m : Mat} (hm : MOk R V m) (ho : Own R V m) :
    (sigmoidP m : Prog α Mat).grd R V (fun p V' => Ext R V V' ∧ p = m) := by
  unfold sigmoidP
  refine grd_bind (P := fun _ V2 => Ext R V V2) (grd_forN fun i V2 _ e2 => grd_forN fun j V3 _ e3 => ?_) fun _ V2 e => ⟨e, rfl⟩
  have e := e2.trans e3
  exact grd_at_bind (hm.ext e) fun x => grd_setAt (hm.ext e) (ho.ext hm e)

theorem grd_leakyRelu {V : World α} {m : Mat} {s : α} (hm : MOk R V m) (ho : Own R V m) :
    (leakyReluP m s).grd R V (fun p V' => Ext R V V' ∧ p = m) := by
  unfold leakyReluP
  refine grd_bind (P := fun _ V2 => Ext R V V2) (grd_forN fun i V2 _ e2 => grd_forN fun j V3 _ e3 => ?_) fun _ V2 e => ⟨e, rfl⟩
  have e := e2.trans e3
  refine grd_at_bind (hm.ext e) fun x => ?_
  split
  · exact grd_at_bind (hm.ext e) fun x => grd_setAt (hm.ext e) (ho.ext hm e)
  · exact Ext.refl _

theorem grd_softmax {V : World α} {m : Mat} (hm : MOk R V m) (ho : Own R V m) :
    (softmaxP m : Prog α Mat).grd R V (fun p V' => Ext R V V' ∧ p = m) := by
  unfold softmaxP
  refine grd_bind (P := fun _ V2 => Ext R V V2) (grd_forN fun i V2 _ e2 => ?_) fun _ V2 e => ⟨e, rfl⟩
  refine grd_bind (P := fun _ V3 => Ext R V2 V3) (grd_foldN fun n s V3 _ e3 => ?_) fun s V3 e3 => ?_
  · have e := e2.trans e3
    refine grd_at_bind (hm.ext e) fun x => grd_bind (grd_setAt (hm.ext e) (ho.ext hm e)) fun _ V4 e4 => ?_
    exact grd_at_bind (hm.ext (e.trans e4)) fun _ => grd_pure e4
  · refine grd_mono (Q := fun _ V4 => Ext R V2 V4) (grd_forN fun j V4 _ e4 => ?_) fun _ _ h => e3.trans h
    have e := e2.trans (e3.trans e4)
    exact grd_at_bind (hm.ext e) fun x => grd_setAt (hm.ext e) (ho.ext hm e)

/-- The parameters of a layer are valid matrices. -/
def LOk (R : Region) (V : World α) (l : Layer α) : Prop :=
  (∀ m, l.weights = some m → MOk R V m) ∧ ∀ m, l.biases = some m → MOk R V m

theorem LOk.ext {V V' : World α} {l : Layer α} (h : LOk R V l) (e : Ext R V V') : LOk R V' l :=
  ⟨fun m hm => (h.1 m hm).ext e, fun m hm => (h.2 m hm).ext e⟩

theorem LOk.step {V V' : World α} {lp : Nat} (h : LOk R V (V.lay lp)) (e : Ext R V V') : LOk R V' (V'.lay lp) := by
  have e1 : (V'.lay lp).weights = (V.lay lp).weights := by
    show (V'.lay lp).params.weights = (V.lay lp).params.weights
    rw [e.lay lp]
  have e2 : (V'.lay lp).biases = (V.lay lp).biases := by
    show (V'.lay lp).params.biases = (V.lay lp).params.biases
    rw [e.lay lp]
  unfold LOk
  rw [e1, e2]
  exact h.ext e

theorem grd_affine {V : World α} (hb : R.b ≤ V.next) {l : Layer α} {x : Mat} (hl : LOk R V l) (hx : MOk R V x) :
    (affineP l x).grd R V (fun p V' => Ext R V V' ∧ MOk R V' p.1 ∧ Own R V' p.1) := by
  unfold affineP
  split
  · exact ⟨Ext.refl V, MOk.zero V, Own.zero V⟩
  · refine grd_bind grd_deref ?_
    rintro wm V1 ⟨rfl, hwm⟩
    refine grd_bind (grd_dot hb hx (hl.1 wm hwm)) ?_
    rintro ⟨out, _ | er⟩ V2 ⟨h1, h2, h3⟩
    · refine grd_bind (P := fun _ V3 => Ext R V2 V3) (grd_forN fun i V3 _ e3 => grd_forN fun j V4 _ e4 => ?_)
        fun _ V3 e => ⟨h1.trans e, h2.ext e, h3.ext h2 e⟩
      have e := e3.trans e4
      refine grd_at_bind (h2.ext e) fun v => grd_bind grd_deref ?_
      rintro bm V5 ⟨rfl, hbm⟩
      exact grd_at_bind ((hl.2 bm hbm).ext (h1.trans e)) fun _ => grd_setAt (h2.ext e) (h3.ext h2 e)
    · exact ⟨h1, MOk.zero V2, Own.zero V2⟩

theorem params_setRelu (l : Layer α) (m : Mat) : ({ l with reluInputs := m } : Layer α).params = l.params := rfl

theorem params_setOutputs (l : Layer α) (m : Mat) : ({ l with outputs := m } : Layer α).params = l.params := rfl

theorem Ext.set {V : World α} {lp : Nat} {l : Layer α} (hp : l.params = (V.lay lp).params)
    (hr : MOk R V (V.lay lp).reluInputs → MOk R V l.reluInputs) (ho : MOk R V (V.lay lp).outputs → MOk R V l.outputs) :
    Ext R V { V with lay := upd V.lay lp l } := by
  refine ⟨le_rfl, fun _ _ => rfl, fun q => ?_, fun q h => ?_, fun q h => ?_, fun _ h => h.keep le_rfl fun _ _ => rfl⟩
  · show (upd V.lay lp _ q).params = _
    unfold upd; split
    · rename_i h; subst h; exact hp
    · rfl
  · refine MOk.keep (V := V) ?_ le_rfl fun _ _ => rfl
    show MOk R V (upd V.lay lp _ q).reluInputs
    unfold upd; split
    · rename_i h'; subst h'; exact hr h
    · exact h
  · refine MOk.keep (V := V) ?_ le_rfl fun _ _ => rfl
    show MOk R V (upd V.lay lp _ q).outputs
    unfold upd; split
    · rename_i h'; subst h'; exact ho h
    · exact h

theorem grd_setRelu {V : World α} {lp : Nat} {m : Mat} (hr : R.rem lp) (hm : MOk R V m) :
    (prim (.setRelu lp m)).grd R V (fun _ V' => Ext R V V' ∧ (V'.lay lp).reluInputs = m) := by
  refine grd_prim fun u V' e => ?_
  cases e
  refine ⟨hr, Ext.set rfl (fun _ => hm) (fun h => h), ?_⟩
  show (upd V.lay lp _ lp).reluInputs = m
  rw [upd, if_pos rfl]

theorem grd_setOutputs {V : World α} {lp : Nat} {m : Mat} (hr : R.rem lp) (hm : MOk R V m) :
    (prim (.setOutputs lp m)).grd R V (fun _ V' => Ext R V V' ∧ (V'.lay lp).outputs = m) := by
  refine grd_prim fun u V' e => ?_
  cases e
  refine ⟨hr, Ext.set rfl (fun h => h) (fun _ => hm), ?_⟩
  show (upd V.lay lp _ lp).outputs = m
  rw [upd, if_pos rfl]

/-- What the backward pass of a layer needs of what the forward pass has left in the layer. -/
def Rem (R : Region) (V : World α) (lp : Nat) : Prop :=
  ((V.lay lp).kind = .hidden ∨ (V.lay lp).kind = .leaky → MOk R V (V.lay lp).reluInputs) ∧
  ((V.lay lp).kind = .softmax → MOk R V (V.lay lp).outputs)

theorem Ext.kind {V V' : World α} (e : Ext R V V') (lp : Nat) : (V'.lay lp).kind = (V.lay lp).kind := by
  show (V'.lay lp).params.kind = (V.lay lp).params.kind
  rw [e.lay]

theorem Rem.ext {V V' : World α} {lp : Nat} (h : Rem R V lp) (e : Ext R V V') : Rem R V' lp := by
  unfold Rem
  rw [e.kind]
  exact ⟨fun hk => e.relu lp (h.1 hk), fun hk => e.outputs lp (h.2 hk)⟩

theorem grd_infer {V : World α} (hb : R.b ≤ V.next) {lp : Nat} {x : Mat} (hr : R.rem lp) (hl : LOk R V (V.lay lp)) (hx : MOk R V x) :
    (inferP lp x : Prog α (Mat × Option Err)).grd R V (fun p V' => Ext R V V' ∧ (MOk R V' p.1 ∧ Own R V' p.1) ∧ (p.2 = none → Rem R V' lp)) := by
  unfold inferP
  refine grd_bind (P := fun l V' => V' = V ∧ l = (V.lay lp).params) (grd_prim fun l V' e => by cases e; exact ⟨trivial, rfl, rfl⟩) ?_
  rintro l V' ⟨hV, rfl⟩
  rw [hV]
  clear hV V'
  refine grd_bind (grd_affine hb (l := (V.lay lp).params) hl hx) ?_
  rintro ⟨out, _ | er⟩ V1 ⟨h1, h2, h3⟩
  · have fin : ∀ (k : Prog α Mat) (V2 : World α), Ext R V1 V2 → Rem R V2 lp → k.grd R V2 (fun p V3 => Ext R V2 V3 ∧ p = out) →
        (k >>= fun o => (pure (o, none) : Prog α (Mat × Option Err))).grd R V2
          (fun p V' => Ext R V V' ∧ (MOk R V' p.1 ∧ Own R V' p.1) ∧ (p.2 = none → Rem R V' lp)) := by
      intro k V2 e hrem hk
      refine grd_bind hk ?_
      rintro o V3 ⟨e3, rfl⟩
      exact ⟨h1.trans (e.trans e3), ⟨h2.ext (e.trans e3), h3.ext h2 (e.trans e3)⟩, fun _ => hrem.ext e3⟩
    have hrelu : ∀ V2, Ext R V1 V2 → (V2.lay lp).reluInputs = out → (V.lay lp).kind ≠ .softmax → Rem R V2 lp := fun V2 e he hk =>
      ⟨fun _ => he ▸ h2.ext e, fun hk' => absurd (((h1.trans e).kind lp).symm.trans hk') hk⟩
    show Prog.grd R (match (V.lay lp).params.kind with
      | .hidden | .dropout => _
      | .linear => _
      | .sigmoid => _
      | .leaky => _
      | .softmax => _) _ _
    have hkp : (V.lay lp).params.kind = (V.lay lp).kind := rfl
    rw [hkp]
    have hid : (V.lay lp).kind ≠ .softmax → (do prim (.setRelu lp out); let out ← reluP out; return (out, none) : Prog α (Mat × Option Err)).grd R V1
        (fun p V' => Ext R V V' ∧ (MOk R V' p.1 ∧ Own R V' p.1) ∧ (p.2 = none → Rem R V' lp)) := fun hk =>
      grd_bind (grd_setRelu hr h2) fun _ V2 e => fin _ V2 e.1 (hrelu V2 e.1 e.2 hk) (grd_relu (h2.ext e.1) (h3.ext h2 e.1))
    have hnone : ∀ V2, Ext R V1 V2 → (V.lay lp).kind = .linear ∨ (V.lay lp).kind = .sigmoid → Rem R V2 lp := fun V2 e hk => by
      unfold Rem
      rw [(h1.trans e).kind lp]
      rcases hk with hk | hk <;> rw [hk] <;> exact ⟨(fun h => by rcases h with h | h <;> cases h), (fun h => by cases h)⟩
    cases hk : (V.lay lp).kind with
    | hidden => exact hid (by rw [hk]; decide)
    | dropout => exact hid (by rw [hk]; decide)
    | linear => exact ⟨h1, ⟨h2, h3⟩, fun _ => hnone V1 (Ext.refl _) (.inl hk)⟩
    | sigmoid => exact fin _ V1 (Ext.refl _) (hnone V1 (Ext.refl _) (.inr hk)) (grd_sigmoid h2 h3)
    | leaky =>
      have hk' : (V.lay lp).kind ≠ .softmax := by rw [hk]; decide
      exact grd_bind (grd_setRelu hr h2) fun _ V2 e => fin _ V2 e.1 (hrelu V2 e.1 e.2 hk') (grd_leakyRelu (h2.ext e.1) (h3.ext h2 e.1))
    | softmax =>
      refine grd_bind (grd_softmax h2 h3) ?_
      rintro o V2 ⟨e2, rfl⟩
      refine grd_bind (grd_setOutputs hr (h2.ext e2)) fun _ V3 e3 => ⟨h1.trans (e2.trans e3.1), ⟨h2.ext (e2.trans e3.1), h3.ext h2 (e2.trans e3.1)⟩, fun _ => ⟨?_, fun _ => ?_⟩⟩
      · rw [(h1.trans (e2.trans e3.1)).kind lp, hk]
        exact fun h => by rcases h with h | h <;> cases h
      · rw [e3.2]; exact h2.ext (e2.trans e3.1)
  · exact ⟨h1, ⟨MOk.zero V1, Own.zero V1⟩, (fun h => by cases h)⟩

/-- The layers of the model may be used: their parameters are valid and the matrices they remember may be written. -/
def ModelOk (R : Region) (V : World α) (m : Model α) : Prop := ∀ lp ∈ m.layers, R.rem lp ∧ LOk R V (V.lay lp)

theorem ModelOk.ext {V V' : World α} {m : Model α} (h : ModelOk R V m) (e : Ext R V V') : ModelOk R V' m :=
  fun lp hlp => ⟨(h lp hlp).1, (h lp hlp).2.step e⟩

theorem grd_forwardLoop {V : World α} (hb : R.b ≤ V.next) {m : Model α} {x : Mat} (hl : ModelOk R V m)
    (hx : MOk R V x) (n : Nat) :
    (forwardLoopP m x n).grd R V (fun p V' => Ext R V V' ∧ (p.2.2 = none → MOk R V' p.2.1 ∧ p.1.length = n + 1 ∧
      p.1[n]? = some p.2.1 ∧ (0 < n → Own R V' p.2.1))) := by
  induction n with
  | zero => exact ⟨Ext.refl V, fun _ => ⟨hx, rfl, rfl, fun h => absurd h (Nat.lt_irrefl 0)⟩⟩
  | succ n ih =>
    unfold forwardLoopP
    refine grd_bind ih ?_
    rintro ⟨outs, out, _ | er⟩ V1 ⟨h1, h2⟩
    · obtain ⟨h2, hlen, -, -⟩ := h2 rfl
      refine grd_bind grd_listGet ?_
      rintro lp V2 ⟨hV, hlp⟩
      rw [hV]
      clear hV V2
      have hlp := hl.ext h1 lp (List.mem_of_getElem? hlp)
      refine grd_bind (grd_infer (hb.trans h1.next) hlp.1 hlp.2 h2) ?_
      rintro ⟨o, _ | er⟩ V2 ⟨e2, ⟨h3, h4⟩, -⟩
      · refine ⟨h1.trans e2, fun _ => ⟨h3, ?_, ?_, fun _ => h4⟩⟩
        · show (outs ++ [o]).length = _
          simp at hlen ⊢; omega
        · show (outs ++ [o])[n + 1]? = some o
          simp at hlen
          simp [← hlen]
      · exact ⟨h1.trans e2, fun h => absurd h (by simp)⟩
    · exact ⟨h1, fun h => absurd h (by simp)⟩

theorem grd_modelForward {V : World α} (hb : R.b ≤ V.next) {m : Model α} {x : Mat} (hl : ModelOk R V m)
    (hx : MOk R V x) (h0 : 0 < m.modelSize) :
    (modelForwardP m x).grd R V (fun p V' => Ext R V V' ∧ (p.2 = none → ∀ o, p.1[m.modelSize.toNat]? = some o →
      MOk R V' o ∧ Own R V' o)) := by
  unfold modelForwardP
  refine grd_bind (grd_forwardLoop hb hl hx _) ?_
  rintro ⟨outs, out, er⟩ V1 ⟨h1, h2⟩
  refine ⟨h1, fun he o ho => ?_⟩
  obtain ⟨h3, -, h4, h5⟩ := h2 he
  cases ho.symm.trans h4
  exact ⟨h3, h5 (by omega)⟩

theorem grd_predict {V : World α} (hb : R.b ≤ V.next) {m : Model α} {x : Mat} (hl : ModelOk R V m)
    (hx : MOk R V x) (h0 : 0 < m.modelSize) : (predictP m x).grd R V (fun p V' => Ext R V V' ∧ MOk R V' p.1) := by
  unfold predictP
  refine grd_bind (grd_modelForward hb hl hx h0) ?_
  rintro ⟨outs, _ | er⟩ V1 ⟨h1, h2⟩
  · have h2 := h2 rfl
    have hb1 := hb.trans h1.next
    show Prog.grd R (if m.accType = 0 then _ else _) V1 _
    split
    · refine grd_bind grd_listGet ?_
      rintro o V2 ⟨rfl, ho⟩
      exact ⟨h1, (h2 o ho).1⟩
    · split
      · refine grd_bind grd_listGet ?_
        rintro o V2 ⟨rfl, ho⟩
        exact grd_bind (grd_rowMax hb1 (h2 o ho).1) fun _ _ h => ⟨h1.trans h.1, h.2⟩
      · split
        · refine grd_bind grd_listGet ?_
          rintro o V2 ⟨rfl, ho⟩
          refine grd_bind (grd_outputBinaryValues (h2 o ho).1 (h2 o ho).2) ?_
          rintro o' V3 ⟨e3, rfl⟩
          exact ⟨h1.trans e3, (h2 _ ho).1.ext e3⟩
        · exact ⟨h1, MOk.zero V1⟩
  · exact ⟨h1, MOk.zero V1⟩

theorem grd_mseForward {V : World α} (hb : R.b ≤ V.next) {n : Int} {x y : Mat} (hx : MOk R V x) (hy : MOk R V y) :
    (mseForwardP n x y : Prog α (α × Option Err)).grd R V (fun _ V' => Ext R V V') := by
  unfold mseForwardP
  cases lossCheck n x y with
  | some e => exact Ext.refl V
  | none =>
    refine grd_bind (grd_sub hb hx hy) ?_
    rintro ⟨s, _ | e⟩ V1 ⟨h1, h2, h3⟩
    · refine grd_bind (P := fun _ V2 => Ext R V1 V2) (grd_forN fun j V2 _ e2 => grd_at_bind (h2.ext e2) fun _ => grd_setAt (h2.ext e2) (h3.ext h2 e2))
        fun _ V2 e2 => grd_bind (grd_sum1 (hb.trans (h1.trans e2).next) (h2.ext e2)) ?_
      rintro t V3 ⟨e3, h4⟩
      exact grd_at_bind h4 fun _ => h1.trans (e2.trans e3)
    · exact h1

theorem grd_maeForward {V : World α} (hb : R.b ≤ V.next) {n : Int} {x y : Mat} (hx : MOk R V x) (hy : MOk R V y) :
    (maeForwardP n x y : Prog α (α × Option Err)).grd R V (fun _ V' => Ext R V V') := by
  unfold maeForwardP
  cases lossCheck n x y with
  | some e => exact Ext.refl V
  | none =>
    refine grd_bind (grd_sub hb hx hy) ?_
    rintro ⟨s, _ | e⟩ V1 ⟨h1, h2, h3⟩
    · refine grd_bind (P := fun _ V2 => Ext R V1 V2) (grd_forN fun j V2 _ e2 => grd_at_bind (h2.ext e2) fun _ => grd_setAt (h2.ext e2) (h3.ext h2 e2))
        fun _ V2 e2 => grd_bind (grd_sum1 (hb.trans (h1.trans e2).next) (h2.ext e2)) ?_
      rintro t V3 ⟨e3, h4⟩
      exact grd_at_bind h4 fun _ => h1.trans (e2.trans e3)
    · exact h1

theorem grd_ceForward {V : World α} (hb : R.b ≤ V.next) {n : Int} {x y : Mat} (hx : MOk R V x) (ho : Own R V x) (hy : MOk R V y) :
    (ceForwardP n x y : Prog α (α × Option Err)).grd R V (fun _ V' => Ext R V V') := by
  unfold ceForwardP
  cases lossCheck n x y with
  | some e => exact Ext.refl V
  | none =>
    refine grd_bind (grd_clip hx ho) ?_
    rintro c V1 ⟨h1, rfl⟩
    refine grd_bind (grd_newMatrix (hb.trans h1.next) _ _) ?_
    rintro ⟨l, er⟩ V2 ⟨h2, h3, h4⟩
    refine grd_bind (P := fun _ V3 => Ext R V2 V3) (grd_forN fun i V3 _ e3 => ?_) fun _ V3 e3 => ?_
    · refine grd_bind (P := fun _ V4 => Ext R V3 V4) (grd_foldN fun j s V4 _ e4 => ?_) fun s V4 e4 => ?_
      · have e := h1.trans (h2.trans (e3.trans e4))
        exact grd_at_bind (hx.ext e) fun _ => grd_at_bind (hy.ext e) fun _ => grd_pure (Ext.refl _)
      · exact grd_mono (grd_setAt (h3.ext (e3.trans e4)) (h4.ext h3 (e3.trans e4))) fun _ _ h => e4.trans h
    · exact grd_bind (P := fun _ V4 => Ext R V3 V4) (grd_foldN fun i s V4 _ e4 => grd_at_bind (h3.ext (e3.trans e4)) fun _ =>
        grd_pure (Ext.refl _)) fun _ _ e4 => h1.trans (h2.trans (e3.trans e4))

theorem grd_bceForward {V : World α} {n : Int} {x y : Mat} (hx : MOk R V x) (ho : Own R V x) (hy : MOk R V y) :
    (bceForwardP n x y : Prog α (α × Option Err)).grd R V (fun _ V' => Ext R V V') := by
  unfold bceForwardP
  cases lossCheck n x y with
  | some e => exact Ext.refl V
  | none =>
    refine grd_bind (grd_clip hx ho) ?_
    rintro c V1 ⟨h1, rfl⟩
    exact grd_bind (P := fun _ V3 => Ext R V1 V3) (grd_foldN fun i s V3 _ e3 => grd_foldN fun j s V4 _ e4 =>
      grd_at_bind (hy.ext (h1.trans (e3.trans e4))) fun _ => grd_at_bind (hx.ext (h1.trans (e3.trans e4))) fun _ => grd_pure (Ext.refl _))
      fun _ _ e => h1.trans e

theorem grd_lossForward {V : World α} (hb : R.b ≤ V.next) {l : Loss} {x y : Mat} (hx : MOk R V x) (ho : Own R V x) (hy : MOk R V y) :
    (l.forwardP x y : Prog α (α × Option Err)).grd R V (fun _ V' => Ext R V V') := by
  unfold Loss.forwardP
  cases l.kind
  · exact grd_mseForward hb hx hy
  · exact grd_maeForward hb hx hy
  · exact grd_ceForward hb hx ho hy
  · exact grd_bceForward hx ho hy

theorem grd_regressionAccuracy {V : World α} {p : α} {x y : Mat} (hx : MOk R V x) (hy : MOk R V y) :
    (regressionAccuracyP x y p).grd R V (fun _ V' => Ext R V V') := by
  unfold regressionAccuracyP
  refine grd_bind (P := fun _ V3 => Ext R V V3) (grd_foldN fun i s V3 _ e3 => grd_foldN fun j s V4 _ e4 =>
      grd_at_bind (hx.ext (e3.trans e4)) fun _ => grd_at_bind (hy.ext (e3.trans e4)) fun _ => ?_)
      fun _ _ e => e
  split <;> exact Ext.refl _

theorem grd_categoricalAccuracy {V : World α} (hb : R.b ≤ V.next) {x y : Mat} (hx : MOk R V x) (hy : MOk R V y) :
    (categoricalAccuracyP x y : Prog α α).grd R V (fun _ V' => Ext R V V') := by
  unfold categoricalAccuracyP
  refine grd_bind (grd_rowMax hb hx) ?_
  rintro o V1 ⟨h1, h2⟩
  refine grd_bind (P := fun _ V3 => Ext R V1 V3) (grd_foldN fun i s V3 _ e3 =>
      grd_at_bind (h2.ext e3) fun _ => grd_at_bind (hy.ext (h1.trans e3)) fun _ => ?_)
      fun _ _ e => h1.trans e
  split <;> exact Ext.refl _

theorem grd_binaryCategoricalAccuracy {V : World α} {x y : Mat} (hx : MOk R V x) (ho : Own R V x) (hy : MOk R V y) :
    (binaryCategoricalAccuracyP x y : Prog α α).grd R V (fun _ V' => Ext R V V') := by
  unfold binaryCategoricalAccuracyP
  refine grd_bind (grd_outputBinaryValues hx ho) ?_
  rintro o V1 ⟨h1, rfl⟩
  refine grd_bind (P := fun _ V3 => Ext R V1 V3) (grd_foldN fun i s V3 _ e3 => grd_foldN fun j s V4 _ e4 =>
      grd_at_bind (hx.ext (h1.trans (e3.trans e4))) fun _ => grd_at_bind (hy.ext (h1.trans (e3.trans e4))) fun _ => ?_)
      fun _ _ e => h1.trans e
  split <;> exact Ext.refl _

theorem grd_calculateLoss {V : World α} (hb : R.b ≤ V.next) {m : Model α} {x y : Mat} (hl : ModelOk R V m)
    (hx : MOk R V x) (hy : MOk R V y) (h0 : 0 < m.modelSize) : (calculateLossP m x y).grd R V (fun _ V' => Ext R V V') := by
  unfold calculateLossP
  refine grd_bind (grd_modelForward hb hl hx h0) ?_
  rintro ⟨outs, _ | er⟩ V1 ⟨h1, h2⟩
  · have h2 := h2 rfl
    refine grd_bind grd_listGet ?_
    rintro o V2 ⟨hV, ho⟩
    rw [hV]
    refine grd_bind grd_deref ?_
    rintro l V3 ⟨hV, -⟩
    rw [hV]
    refine grd_bind (grd_lossForward (hb.trans h1.next) (h2 o ho).1 (h2 o ho).2 (hy.ext h1)) ?_
    rintro ⟨j, _ | e⟩ V4 e4 <;> exact h1.trans e4
  · exact h1

theorem grd_calculateAccuracy {V : World α} (hb : R.b ≤ V.next) {m : Model α} {x y : Mat} (hl : ModelOk R V m)
    (hx : MOk R V x) (hy : MOk R V y) (h0 : 0 < m.modelSize) : (calculateAccuracyP m x y).grd R V (fun _ V' => Ext R V V') := by
  unfold calculateAccuracyP
  refine grd_bind (grd_modelForward hb hl hx h0) ?_
  rintro ⟨outs, _ | er⟩ V1 ⟨h1, h2⟩
  · have h2 := h2 rfl
    have hb1 := hb.trans h1.next
    show Prog.grd R (if m.accType = 0 then _ else _) V1 _
    split
    · refine grd_bind grd_listGet ?_
      rintro o V2 ⟨hV, ho⟩
      rw [hV]
      exact grd_bind (grd_regressionAccuracy (h2 o ho).1 (hy.ext h1)) fun _ _ e => h1.trans e
    · split
      · refine grd_bind grd_listGet ?_
        rintro o V2 ⟨hV, ho⟩
        rw [hV]
        exact grd_bind (grd_categoricalAccuracy hb1 (h2 o ho).1 (hy.ext h1)) fun _ _ e => h1.trans e
      · split
        · refine grd_bind grd_listGet ?_
          rintro o V2 ⟨hV, ho⟩
          rw [hV]
          exact grd_bind (grd_binaryCategoricalAccuracy (h2 o ho).1 (h2 o ho).2 (hy.ext h1)) fun _ _ e => h1.trans e
        · exact h1
  · exact h1

end NN
