import Mathlib.Algebra.BigOperators.Group.Finset.Basic
import Mathlib.Algebra.Order.BigOperators.Group.Finset
import Verif.Lemmas.ConcSafe
/-
Goroutines whose accesses are safe (Lemmas/ConcSafe.lean) do not disturb each other, whatever the schedule.
-/

set_option linter.unusedSectionVars false

namespace NN
variable {α β : Type} [Flt α]

/-- How many accesses a program makes when run alone. -/
def Prog.len : Prog α β → World α → Nat
  | .ret _, _ => 0
  | .op p k, w =>
    match p.sem w with
    | .error _ => 1
    | .ok (c, w') => (k c).len w' + 1

/-- The two states agree on the memory of the region: the old addresses that may be read, the address range of its own allocations, the parameters of
all layers, the layers and the optimizers that may be read. -/
structure AgreeOn (R : Region) (hi : Nat) (W V : World α) : Prop where
  flt : ∀ a, R.rd a ∨ (R.b ≤ a ∧ a < hi) → W.flt a = V.flt a
  outs : ∀ a, R.tab a ∨ (R.b ≤ a ∧ a < hi) → W.outs a = V.outs a
  lay : ∀ lp, (W.lay lp).params = (V.lay lp).params
  full : ∀ lp, R.lay lp → W.lay lp = V.lay lp
  opt : ∀ op, R.opt op → W.opt op = V.opt op
  logger : W.logger = V.logger

/-- W' differs from W only in the memory that the region may write. -/
structure Local (R : Region) (hi : Nat) (W W' : World α) : Prop where
  flt : ∀ a, ¬ (R.rd a ∧ R.wr a) → a < R.b ∨ hi ≤ a → W'.flt a = W.flt a
  outs : ∀ a, a < R.b ∨ hi ≤ a → W'.outs a = W.outs a
  lay : ∀ lp, (W'.lay lp).params = (W.lay lp).params
  rem : ∀ lp, ¬ R.rem lp → W'.lay lp = W.lay lp
  opt : ∀ op, ¬ R.opt op → W'.opt op = W.opt op
  log : ¬ R.log → W'.log = W.log
  logger : W'.logger = W.logger
  norm : W'.norm = W.norm ∧ W'.normPos = W.normPos
  unif : W'.unif = W.unif ∧ W'.unifPos = W.unifPos

theorem ValidTab.within {R : Region} {V : World α} {hi a : Nat} (h : ValidTab R V a) (hn : V.next ≤ hi) : R.tab a ∨ (R.b ≤ a ∧ a < hi) :=
  h.imp_right fun h => ⟨h.1, h.2.trans_le hn⟩

theorem Valid.within {R : Region} {V : World α} {hi a : Nat} (h : Valid R V a) (hn : V.next ≤ hi) : R.rd a ∨ (R.b ≤ a ∧ a < hi) :=
  h.imp_right fun h => ⟨h.1, h.2.trans_le hn⟩

theorem Mine.within {R : Region} {V : World α} {hi a : Nat} (h : Mine R V a) (hn : V.next ≤ hi) : R.rd a ∨ (R.b ≤ a ∧ a < hi) :=
  h.valid.within hn

theorem sem_next_le {γ : Type} (p : Prim α γ) {w w' : World α} {c : γ} (h : p.sem w = .ok (c, w')) : w.next ≤ w'.next := by
  cases p with
  | allocRow n => cases h; exact Nat.le_succ _
  | allocOuter n => cases h; exact Nat.le_succ _
  | rowRef s i => obtain ⟨rfl, -⟩ := rowRef_inv h; exact le_rfl
  | setRowRef s i r =>
    change NN.setRowRef s i r w = _ at h
    unfold NN.setRowRef at h
    split at h <;> cases h; exact le_rfl
  | rowGet r j =>
    change NN.rowGet r j w = _ at h
    unfold NN.rowGet at h
    split at h
    · split at h <;> cases h; exact le_rfl
    · cases h
  | rowSet r j v =>
    change NN.rowSet r j v w = _ at h
    unfold NN.rowSet at h
    split at h <;> cases h; exact le_rfl
  | rowLen r => cases h; exact le_rfl
  | layParams lp => cases h; exact le_rfl
  | setRelu lp m => cases h; exact le_rfl
  | setOutputs lp m => cases h; exact le_rfl
  | setMask lp m => cases h; exact le_rfl
  | layGet lp => cases h; exact le_rfl
  | optGet op => cases h; exact le_rfl
  | optSet op o => cases h; exact le_rfl
  | log e =>
    change NN.logEvent e w = _ at h
    unfold NN.logEvent at h
    split at h <;> cases h; exact le_rfl
  | unif => cases h; exact le_rfl
  | panic e => cases h

theorem run_next_le (t : Prog α β) {w w' : World α} {b : β} (h : t.run w = .ok (b, w')) : w.next ≤ w'.next := by
  induction t generalizing w with
  | ret x => cases h; exact le_rfl
  | op p k ih =>
    rw [prog_op] at h
    change Go.bind _ _ w = _ at h
    unfold Go.bind at h
    split at h
    · cases h
    · rename_i c w1 e
      exact (sem_next_le p e).trans (ih c h)

theorem upd_params {f g : Nat → Layer α} (h : ∀ lp, (f lp).params = (g lp).params) {lp : Nat} {l l' : Layer α} (hl : l.params = l'.params)
    (q : Nat) : (upd f lp l q).params = (upd g lp l' q).params := by
  unfold upd; split
  · exact hl
  · exact h q

theorem Local.refl (R : Region) (hi : Nat) (W : World α) : Local R hi W W :=
  ⟨fun _ _ _ => rfl, fun _ _ => rfl, fun _ => rfl, fun _ _ => rfl, fun _ _ => rfl, fun _ => rfl, rfl, ⟨rfl, rfl⟩, ⟨rfl, rfl⟩⟩

theorem Local.trans {R : Region} {hi : Nat} {W W' W'' : World α} (h : Local R hi W W') (h' : Local R hi W' W'') : Local R hi W W'' :=
  ⟨fun a hw ha => (h'.flt a hw ha).trans (h.flt a hw ha), fun a ha => (h'.outs a ha).trans (h.outs a ha), fun lp => (h'.lay lp).trans (h.lay lp),
    fun lp hl => (h'.rem lp hl).trans (h.rem lp hl), fun o ho => (h'.opt o ho).trans (h.opt o ho), fun hl => (h'.log hl).trans (h.log hl),
    h'.logger.trans h.logger, ⟨h'.norm.1.trans h.norm.1, h'.norm.2.trans h.norm.2⟩,
    ⟨h'.unif.1.trans h.unif.1, h'.unif.2.trans h.unif.2⟩⟩

/-- Setting a remembered matrix of a layer: in both memories. -/
theorem agree_setLay {R : Region} {hi : Nat} {W V : World α} (hA : AgreeOn R hi W V) {lp : Nat} (hr : R.rem lp) (f : Layer α → Layer α)
    (hf : ∀ l, (f l).params = l.params) :
    AgreeOn R hi { W with next := V.next, lay := upd W.lay lp (f (W.lay lp)) } { V with lay := upd V.lay lp (f (V.lay lp)) } ∧
      Local R hi W { W with next := V.next, lay := upd W.lay lp (f (W.lay lp)) } := by
  refine ⟨⟨hA.flt, hA.outs, upd_params hA.lay (by rw [hf, hf]; exact hA.lay lp), fun q hq => ?_, hA.opt, hA.logger⟩,
    ⟨fun _ _ _ => rfl, fun _ _ => rfl, fun q => ?_, fun q hq => ?_, fun _ _ => rfl, fun _ => rfl, rfl, ⟨rfl, rfl⟩, ⟨rfl, rfl⟩⟩⟩
  · show upd W.lay lp _ q = upd V.lay lp _ q
    unfold upd; split
    · rename_i h; subst h; rw [hA.full _ hq]
    · exact hA.full q hq
  · show (upd W.lay lp _ q).params = _
    unfold upd; split
    · rename_i h; subst h; exact hf _
    · rfl
  · show upd W.lay lp _ q = _
    rw [upd, if_neg]
    rintro rfl
    exact hq hr

/-- An access does the same in the shared memory as it does in the private one. -/
theorem sem_agree {γ : Type} (p : Prim α γ) {R : Region} {W V V' : World α} {hi : Nat} {c : γ} (hA : AgreeOn R hi W V) (hlo : R.b ≤ V.next)
    (hs : p.Safe R V) (h : p.sem V = .ok (c, V')) (hn : V'.next ≤ hi) :
    ∃ W', p.sem { W with next := V.next } = .ok (c, W') ∧ W'.next = V'.next ∧ AgreeOn R hi W' V' ∧ Local R hi W W' ∧
      ∃ l, W'.log = W.log ++ l ∧ V'.log = V.log ++ l ∧ (¬ R.log → l = []) := by
  have hVhi : V.next ≤ hi := (sem_next_le p h).trans hn
  have hL : ∀ (nx : Nat), Local R hi W { W with next := nx } := fun nx =>
    ⟨fun _ _ _ => rfl, fun _ _ => rfl, fun _ => rfl, fun _ _ => rfl, fun _ _ => rfl, fun _ => rfl, rfl, ⟨rfl, rfl⟩, ⟨rfl, rfl⟩⟩
  have hA' : ∀ (nx : Nat), AgreeOn R hi { W with next := nx } V := fun nx => ⟨hA.flt, hA.outs, hA.lay, hA.full, hA.opt, hA.logger⟩
  have hlog : ∀ {W' V' : World α}, W'.log = W.log → V'.log = V.log → ∃ l, W'.log = W.log ++ l ∧ V'.log = V.log ++ l ∧ (¬ R.log → l = []) :=
    fun h1 h2 => ⟨[], by rw [h1, List.append_nil], by rw [h2, List.append_nil], fun _ => rfl⟩
  cases p with
  | allocRow n =>
    cases h
    refine ⟨_, rfl, rfl, ⟨fun a ha => ?_, fun a ha => hA.outs a ha, hA.lay, hA.full, hA.opt, hA.logger⟩,
      ⟨fun a hw ha => ?_, fun _ _ => rfl, fun _ => rfl, fun _ _ => rfl, fun _ _ => rfl, fun _ => rfl, rfl, ⟨rfl, rfl⟩, ⟨rfl, rfl⟩⟩, hlog rfl rfl⟩
    · show upd W.flt V.next _ a = upd V.flt V.next _ a
      unfold upd; split
      · rfl
      · exact hA.flt a ha
    · show upd W.flt V.next _ a = W.flt a
      change V.next + 1 ≤ hi at hn
      rw [upd, if_neg (by omega)]
  | allocOuter n =>
    cases h
    refine ⟨_, rfl, rfl, ⟨fun a ha => hA.flt a ha, fun a ha => ?_, hA.lay, hA.full, hA.opt, hA.logger⟩,
      ⟨fun _ _ _ => rfl, fun a ha => ?_, fun _ => rfl, fun _ _ => rfl, fun _ _ => rfl, fun _ => rfl, rfl, ⟨rfl, rfl⟩, ⟨rfl, rfl⟩⟩, hlog rfl rfl⟩
    · show upd W.outs V.next _ a = upd V.outs V.next _ a
      unfold upd; split
      · rfl
      · exact hA.outs a ha
    · show upd W.outs V.next _ a = W.outs a
      change V.next + 1 ≤ hi at hn
      rw [upd, if_neg (by omega)]
  | rowRef s i =>
    have e : W.outs s.addr = V.outs s.addr := hA.outs _ (ValidTab.within hs hVhi)
    change NN.rowRef s i V = _ at h
    unfold NN.rowRef at h
    split at h
    · rename_i hi'
      split at h
      · rename_i a ha
        cases h
        refine ⟨{ W with next := V.next }, ?_, rfl, hA' _, hL _, hlog rfl rfl⟩
        show NN.rowRef s i { W with next := V.next } = _
        unfold NN.rowRef
        rw [if_pos hi']
        show (match (W.outs s.addr)[s.off + i.toNat]? with | some a => _ | none => _) = _
        rw [e, ha]
      · cases h
    · cases h
  | setRowRef s i r =>
    have hs' : R.b ≤ s.addr ∧ s.addr < V.next := hs
    have e : W.outs s.addr = V.outs s.addr := hA.outs _ (.inr ⟨hs'.1, hs'.2.trans_le hVhi⟩)
    change NN.setRowRef s i r V = _ at h
    unfold NN.setRowRef at h
    split at h
    · rename_i hi'
      cases h
      refine ⟨{ W with next := V.next, outs := upd W.outs s.addr ((W.outs s.addr).set (s.off + i.toNat) r) }, ?_, rfl,
        ⟨hA.flt, fun a ha => ?_, hA.lay, hA.full, hA.opt, hA.logger⟩,
        ⟨fun _ _ _ => rfl, fun a ha => ?_, fun _ => rfl, fun _ _ => rfl, fun _ _ => rfl, fun _ => rfl, rfl, ⟨rfl, rfl⟩, ⟨rfl, rfl⟩⟩, hlog rfl rfl⟩
      · show NN.setRowRef s i r { W with next := V.next } = _
        unfold NN.setRowRef
        rw [if_pos hi']
      · show upd W.outs s.addr _ a = upd V.outs s.addr _ a
        unfold upd; split
        · rw [e]
        · exact hA.outs a ha
      · show upd W.outs s.addr _ a = W.outs a
        rw [upd, if_neg (by omega)]
    · cases h
  | rowGet r j =>
    have e : W.flt r = V.flt r := hA.flt _ (Valid.within hs hVhi)
    change NN.rowGet r j V = _ at h
    unfold NN.rowGet at h
    split at h
    · rename_i hi'
      split at h
      · rename_i a ha
        cases h
        refine ⟨{ W with next := V.next }, ?_, rfl, hA' _, hL _, hlog rfl rfl⟩
        show NN.rowGet r j { W with next := V.next } = _
        unfold NN.rowGet
        rw [if_pos hi']
        show (match (W.flt r)[j.toNat]? with | some a => _ | none => _) = _
        rw [e, ha]
      · cases h
    · cases h
  | rowSet r j v =>
    have hs' : Mine R V r := hs
    have e : W.flt r = V.flt r := hA.flt _ (Mine.within hs' hVhi)
    change NN.rowSet r j v V = _ at h
    unfold NN.rowSet at h
    split at h
    · rename_i hi'
      cases h
      refine ⟨{ W with next := V.next, flt := upd W.flt r ((W.flt r).set j.toNat v) }, ?_, rfl,
        ⟨fun a ha => ?_, hA.outs, hA.lay, hA.full, hA.opt, hA.logger⟩,
        ⟨fun a hw ha => ?_, fun _ _ => rfl, fun _ => rfl, fun _ _ => rfl, fun _ _ => rfl, fun _ => rfl, rfl, ⟨rfl, rfl⟩, ⟨rfl, rfl⟩⟩, hlog rfl rfl⟩
      · show NN.rowSet r j v { W with next := V.next } = _
        unfold NN.rowSet
        rw [← e] at hi'
        rw [if_pos hi']
      · show upd W.flt r _ a = upd V.flt r _ a
        unfold upd; split
        · rw [e]
        · exact hA.flt a ha
      · show upd W.flt r _ a = W.flt a
        rw [upd, if_neg]
        rintro rfl
        rcases hs' with h' | h'
        · exact hw h'
        · omega
    · cases h
  | rowLen r =>
    have e : W.flt r = V.flt r := hA.flt _ (Valid.within hs hVhi)
    cases h
    refine ⟨{ W with next := V.next }, ?_, rfl, hA' _, hL _, hlog rfl rfl⟩
    show Except.ok (((W.flt r).length : Int), _) = _
    rw [e]
  | layParams lp =>
    cases h
    refine ⟨{ W with next := V.next }, ?_, rfl, hA' _, hL _, hlog rfl rfl⟩
    show Except.ok ((W.lay lp).params, _) = _
    rw [hA.lay lp]
  | setRelu lp m =>
    cases h
    have := agree_setLay hA hs (fun l => { l with reluInputs := m }) fun _ => rfl
    exact ⟨_, rfl, rfl, this.1, this.2, hlog rfl rfl⟩
  | setOutputs lp m =>
    cases h
    have := agree_setLay hA hs (fun l => { l with outputs := m }) fun _ => rfl
    exact ⟨_, rfl, rfl, this.1, this.2, hlog rfl rfl⟩
  | setMask lp m =>
    cases h
    have := agree_setLay hA hs (fun l => { l with binaryMask := m }) fun _ => rfl
    exact ⟨_, rfl, rfl, this.1, this.2, hlog rfl rfl⟩
  | layGet lp =>
    cases h
    refine ⟨{ W with next := V.next }, ?_, rfl, hA' _, hL _, hlog rfl rfl⟩
    show Except.ok (W.lay lp, _) = _
    rw [hA.full lp hs]
  | optGet op =>
    cases h
    refine ⟨{ W with next := V.next }, ?_, rfl, hA' _, hL _, hlog rfl rfl⟩
    show Except.ok (W.opt op, _) = _
    rw [hA.opt op hs]
  | optSet op o =>
    cases h
    refine ⟨_, rfl, rfl, ⟨hA.flt, hA.outs, hA.lay, hA.full, fun q hq => ?_, hA.logger⟩,
      ⟨fun _ _ _ => rfl, fun _ _ => rfl, fun _ => rfl, fun _ _ => rfl, fun q hq => ?_, fun _ => rfl, rfl, ⟨rfl, rfl⟩, ⟨rfl, rfl⟩⟩, hlog rfl rfl⟩
    · show upd W.opt op o q = upd V.opt op o q
      unfold upd; split
      · rfl
      · exact hA.opt q hq
    · show upd W.opt op o q = _
      rw [upd, if_neg]
      rintro rfl
      exact hq hs
  | log e =>
    change NN.logEvent e V = _ at h
    unfold NN.logEvent at h
    split at h
    · rename_i hl
      cases h
      refine ⟨{ W with next := V.next, log := W.log ++ [e] }, ?_, rfl, ⟨hA.flt, hA.outs, hA.lay, hA.full, hA.opt, hA.logger⟩,
        ⟨fun _ _ _ => rfl, fun _ _ => rfl, fun _ => rfl, fun _ _ => rfl, fun _ _ => rfl, fun h => absurd hs h, rfl, ⟨rfl, rfl⟩, ⟨rfl, rfl⟩⟩,
        [e], rfl, rfl, fun h => absurd hs h⟩
      show NN.logEvent e { W with next := V.next } = _
      unfold NN.logEvent
      rw [if_pos (by show W.logger = true; rw [hA.logger]; exact hl)]
    · cases h
  | unif => exact absurd hs (fun h => h)
  | panic e => cases h

/-! ### Schedules -/

/-- k accesses, by goroutines in any order. -/
inductive PoolRun (n : Nat) : Nat → Pool α β → Pool α β → Prop
  | refl {P : Pool α β} : PoolRun n 0 P P
  | step {k : Nat} {P P' P'' : Pool α β} : PoolRun n k P P' → PoolStep n P' P'' → PoolRun n (k + 1) P P''

/-- The state in which goroutine i starts when it is alone: the memory is w, and it allocates from `base i` on. -/
def alone (w : World α) (base : Nat → Nat) (i : Nat) : World α := { w with next := base i }

/-- The pool in which n goroutines start. -/
def Pool.init (w : World α) (base : Nat → Nat) (T : Nat → Prog α β) : Pool α β := ⟨w, base, T⟩

/-- The list s is an interleaving of the lists f 0, f 1, …. -/
inductive Shuffle {E : Type} : (Nat → List E) → List E → Prop
  | nil : Shuffle (fun _ => []) []
  | add {f : Nat → List E} {s : List E} (i : Nat) (l : List E) : Shuffle f s → Shuffle (upd f i (f i ++ l)) (s ++ l)

theorem Shuffle.empty {E : Type} {f : Nat → List E} {s : List E} (h : Shuffle f s) (h0 : ∀ i, f i = []) : s = [] := by
  induction h with
  | nil => rfl
  | @add f s i l _ ih =>
    have hi := h0 i
    rw [upd, if_pos rfl, List.append_eq_nil_iff] at hi
    rw [hi.2, List.append_nil]
    refine ih fun j => ?_
    by_cases hj : j = i
    · rw [hj]; exact hi.1
    · have := h0 j
      rwa [upd, if_neg hj] at this

/-- Every goroutine, when alone, ends without a panic, inside its address range, and makes only accesses to its region; what one may write another may
not read. -/
structure PoolOk (w : World α) (base : Nat → Nat) (n : Nat) (T : Nat → Prog α β) (R : Nat → Region) (Q : Nat → β → World α → Prop) : Prop where
  b : ∀ i, i < n → (R i).b = base i
  rd : ∀ i, i < n → ∀ a, (R i).rd a → a < base 0
  tab : ∀ i, i < n → ∀ a, (R i).tab a → a < base 0
  ends : ∀ i, i < n → ∃ b F, (T i).run (alone w base i) = .ok (b, F) ∧ F.next ≤ base (i + 1)
  safe : ∀ i, i < n → (T i).grd (R i) (alone w base i) (Q i)
  apart : ∀ i j, i < n → j < n → i ≠ j → (∀ a, (R i).rd a → (R i).wr a → ¬ (R j).rd a) ∧ (∀ lp, (R i).rem lp → ¬ (R j).lay lp) ∧
    ∀ op, (R i).opt op → ¬ (R j).opt op

section
variable {w : World α} {base : Nat → Nat} {n : Nat} {T : Nat → Prog α β} {R : Nat → Region} {Q : Nat → β → World α → Prop}

/-- Goroutine i, with the private world V: what it does is what it does alone. -/
structure Private (w : World α) (base : Nat → Nat) (T : Nat → Prog α β) (R : Nat → Region) (Q : Nat → β → World α → Prop) (P : Pool α β) (i : Nat)
    (V : World α) : Prop where
  agree : AgreeOn (R i) (base (i + 1)) P.mem V
  next : V.next = P.next i
  le : base i ≤ V.next
  grd : (P.thr i).grd (R i) V (Q i)
  run : (P.thr i).run V = (T i).run (alone w base i)

/-- What holds in every state that a schedule reaches. -/
structure PoolInv (w : World α) (base : Nat → Nat) (n : Nat) (T : Nat → Prog α β) (R : Nat → Region) (Q : Nat → β → World α → Prop) (k : Nat)
    (P : Pool α β) : Prop where
  flt : ∀ a, a < base 0 → (∀ i, i < n → ¬ ((R i).rd a ∧ (R i).wr a)) → P.mem.flt a = w.flt a
  outs : ∀ a, a < base 0 → P.mem.outs a = w.outs a
  lay : ∀ lp, (P.mem.lay lp).params = (w.lay lp).params
  rem : ∀ lp, (∀ i, i < n → ¬ (R i).rem lp) → P.mem.lay lp = w.lay lp
  opt : ∀ op, (∀ i, i < n → ¬ (R i).opt op) → P.mem.opt op = w.opt op
  rest : P.mem.logger = w.logger ∧ (P.mem.norm = w.norm ∧ P.mem.normPos = w.normPos) ∧
    (P.mem.unif = w.unif ∧ P.mem.unifPos = w.unifPos) ∧ P.mem.next = w.next
  priv : ∃ (V : Nat → World α) (own : Nat → List (LogEvent α)) (s : List (LogEvent α)), (∀ i, i < n → Private w base T R Q P i (V i)) ∧
    k + ∑ i ∈ Finset.range n, (P.thr i).len (V i) = ∑ i ∈ Finset.range n, (T i).len (alone w base i) ∧
    (∀ i, i < n → (V i).log = w.log ++ own i) ∧ Shuffle own s ∧ P.mem.log = w.log ++ s ∧ ∀ i, (i < n → ¬ (R i).log) → own i = []

theorem PoolOk.le (h : PoolOk w base n T R Q) {i j : Nat} (hij : i ≤ j) (hj : j ≤ n) : base i ≤ base j := by
  induction j with
  | zero => obtain rfl : i = 0 := by omega
            exact le_rfl
  | succ j ih =>
    rcases Nat.lt_or_ge j i with hlt | hge
    · obtain rfl : i = j + 1 := by omega
      exact le_rfl
    · obtain ⟨b, F, h1, h2⟩ := h.ends j (by omega)
      have := run_next_le _ h1
      change base j ≤ F.next at this
      exact (ih hge (by omega)).trans (this.trans h2)

theorem AgreeOn.refl (R : Region) (hi : Nat) (w : World α) (nx : Nat) : AgreeOn R hi w { w with next := nx } :=
  ⟨fun _ _ => rfl, fun _ _ => rfl, fun _ => rfl, fun _ _ => rfl, fun _ _ => rfl, rfl⟩

theorem PoolInv.start (h : PoolOk w base n T R Q) : PoolInv w base n T R Q 0 (Pool.init w base T) :=
  ⟨fun _ _ _ => rfl, fun _ _ => rfl, fun _ => rfl, fun _ _ => rfl, fun _ _ => rfl, ⟨rfl, ⟨rfl, rfl⟩, ⟨rfl, rfl⟩, rfl⟩, alone w base, fun _ => [], [],
    fun i hi => ⟨AgreeOn.refl _ _ _ _, rfl, le_rfl, h.safe i hi, rfl⟩, Nat.zero_add _, fun _ _ => (List.append_nil _).symm, .nil, (List.append_nil _).symm, fun _ _ => rfl⟩

/-- The next access of goroutine i, in its private world and in the shared memory. -/
theorem PoolInv.next_step (h : PoolOk w base n T R Q) {P : Pool α β} {V : World α} {i : Nat} (hi : i < n) (hV : Private w base T R Q P i V)
    {γ : Type} {p : Prim α γ} {k : γ → Prog α β} (ht : P.thr i = .op p k) :
    ∃ c V' W', p.sem V = .ok (c, V') ∧ p.sem (P.view i) = .ok (c, W') ∧ W'.next = V'.next ∧
      AgreeOn (R i) (base (i + 1)) W' V' ∧ Local (R i) (base (i + 1)) P.mem W' ∧ base i ≤ V'.next ∧
      (k c).grd (R i) V' (Q i) ∧ (k c).run V' = (T i).run (alone w base i) ∧
      (P.thr i).len V = (k c).len V' + 1 ∧ ∃ l, W'.log = P.mem.log ++ l ∧ V'.log = V.log ++ l ∧ (¬ (R i).log → l = []) := by
  obtain ⟨hA, hn, hb, hg, hr⟩ := hV
  obtain ⟨b, F, h1, h2⟩ := h.ends i hi
  rw [ht] at hg hr
  rw [h1] at hr
  rw [prog_op] at hr
  change Go.bind _ _ V = _ at hr
  unfold Go.bind at hr
  split at hr
  · cases hr
  · rename_i c V' e
    have hr' : (k c).run V' = .ok (b, F) := hr
    have hnx : V'.next ≤ base (i + 1) := (run_next_le _ hr').trans h2
    obtain ⟨hs, hg'⟩ := hg c V' e
    obtain ⟨W', g1, g2, g3, g4, g5⟩ := sem_agree p hA (by rw [h.b i hi]; exact hb) hs e hnx
    rw [hn] at g1
    refine ⟨c, V', W', e, g1, g2, g3, g4, hb.trans (sem_next_le p e), hg', by rw [hr', h1], ?_, g5⟩
    rw [ht, Prog.len, e]

/-- What goroutine i does leaves the memory of goroutine j alone. -/
theorem AgreeOn.other (h : PoolOk w base n T R Q) {i j : Nat} (hi : i < n) (hj : j < n)
    (hij : j ≠ i) {W W' V : World α} (hA : AgreeOn (R j) (base (j + 1)) W V) (hL : Local (R i) (base (i + 1)) W W') :
    AgreeOn (R j) (base (j + 1)) W' V := by
  have h0i : base 0 ≤ base i := h.le (Nat.zero_le _) hi.le
  have hdis : ∀ a, a < base 0 ∨ ((R j).b ≤ a ∧ a < base (j + 1)) → a < (R i).b ∨ base (i + 1) ≤ a := by
    intro a ha
    rw [h.b i hi]
    rw [h.b j hj] at ha
    rcases ha with ha | ha
    · omega
    · rcases Nat.lt_or_ge j i with hlt | hge
      · have := h.le (i := j + 1) (j := i) hlt hi.le
        omega
      · have := h.le (i := i + 1) (j := j) (by omega) hj.le
        omega
  obtain ⟨a1, a2, a3⟩ := h.apart i j hi hj (fun e => hij e.symm)
  refine ⟨fun a ha => (hL.flt a ?_ (hdis a (ha.imp_left (h.rd j hj a)))).trans (hA.flt a ha),
    fun a ha => (hL.outs a (hdis a (ha.imp_left (h.tab j hj a)))).trans (hA.outs a ha),
    fun lp => (hL.lay lp).trans (hA.lay lp), fun lp hl => (hL.rem lp fun h' => a2 lp h' hl).trans (hA.full lp hl),
    fun o ho => (hL.opt o fun h' => a3 o h' ho).trans (hA.opt o ho), hL.logger.trans hA.logger⟩
  rintro ⟨h1, h2⟩
  rcases ha with ha | ha
  · exact a1 a h1 h2 ha
  · have := h.rd i hi a h1
    rw [h.b j hj] at ha
    have := h.le (Nat.zero_le j) hj.le
    omega

theorem PoolInv.pres (h : PoolOk w base n T R Q) {k : Nat} {P P' : Pool α β}
    (hP : PoolInv w base n T R Q k P) (hs : PoolStep n P P') : PoolInv w base n T R Q (k + 1) P' := by
  obtain ⟨V, own, s, hV, hlen, hown, hsh, hlog, hno⟩ := hP.priv
  cases hs with
  | @step i γ p q c w' hi ht hsem =>
    obtain ⟨c', V', W', e, g1, g2, g3, g4, g5, g6, g7, g8, l, l1, l2, l3⟩ := PoolInv.next_step h hi (hV i hi) ht
    cases g1.symm.trans hsem
    have h0i : base 0 ≤ base i := h.le (Nat.zero_le _) hi.le
    have hbi := h.b i hi
    refine ⟨fun a ha hw => (g4.flt a (hw i hi) (.inl (by omega))).trans (hP.flt a ha hw),
      fun a ha => (g4.outs a (.inl (by omega))).trans (hP.outs a ha),
      fun lp => (g4.lay lp).trans (hP.lay lp), fun lp hl => (g4.rem lp (hl i hi)).trans (hP.rem lp hl),
      fun o ho => (g4.opt o (ho i hi)).trans (hP.opt o ho), ?_, fun j => if j = i then V' else V j, upd own i (own i ++ l), s ++ l,
      ?_, ?_, ?_, .add i l hsh, ?_, ?_⟩
    · obtain ⟨r3, r4, r5, r6⟩ := hP.rest
      exact ⟨g4.logger.trans r3, ⟨g4.norm.1.trans r4.1, g4.norm.2.trans r4.2⟩, ⟨g4.unif.1.trans r5.1, g4.unif.2.trans r5.2⟩, r6⟩
    · intro j hj
      by_cases hji : j = i
      · subst hji
        simp only [if_true]
        refine ⟨⟨g3.flt, g3.outs, g3.lay, g3.full, g3.opt, g3.logger⟩, ?_, g5, ?_, ?_⟩
        · show V'.next = upd P.next j w'.next j
          rw [upd, if_pos rfl, g2]
        · show Prog.grd (R j) (if j = j then q c else _) V' (Q j)
          rw [if_pos rfl]; exact g6
        · show Prog.run (if j = j then q c else _) V' = _
          rw [if_pos rfl]; exact g7
      · simp only [if_neg hji]
        obtain ⟨hA', hn', hb', hg', hr'⟩ := hV j hj
        have hA'' := AgreeOn.other h hi hj hji hA' g4
        refine ⟨⟨hA''.flt, hA''.outs, hA''.lay, hA''.full, hA''.opt, hA''.logger⟩, ?_, hb', ?_, ?_⟩
        · show (V j).next = upd P.next i w'.next j
          rw [upd, if_neg hji, hn']
        · show Prog.grd (R j) (if j = i then q c else _) _ _
          rw [if_neg hji]; exact hg'
        · show Prog.run (if j = i then q c else _) _ = _
          rw [if_neg hji]; exact hr'
    · rw [← hlen]
      rw [← Finset.add_sum_erase _ _ (Finset.mem_range.2 hi), ← Finset.add_sum_erase _ (fun j => (P.thr j).len (V j)) (Finset.mem_range.2 hi)]
      simp only [if_true]
      rw [g8]
      have : ∀ s : Finset Nat, i ∉ s → ∑ x ∈ s, (if x = i then q c else P.thr x).len (if x = i then V' else V x) = ∑ x ∈ s, (P.thr x).len (V x) :=
        fun s hs => Finset.sum_congr rfl fun x hx => by
          have hne : x ≠ i := fun h => hs (h ▸ hx)
          rw [if_neg hne, if_neg hne]
      rw [this _ (Finset.notMem_erase i _)]
      omega
    · intro j hj
      by_cases hji : j = i
      · subst hji
        simp only [if_true]
        rw [upd, if_pos rfl, l2, hown j hj, List.append_assoc]
      · simp only [if_neg hji]
        rw [upd, if_neg hji]
        exact hown j hj
    · show w'.log = _
      rw [l1, hlog, List.append_assoc]
    · intro j hj
      by_cases hji : j = i
      · subst hji
        rw [upd, if_pos rfl, hno j hj, l3 (hj hi)]; rfl
      · rw [upd, if_neg hji]; exact hno j hj

theorem PoolInv.reach (h : PoolOk w base n T R Q) {k : Nat} {P P' : Pool α β}
    (hr : PoolRun n k P P') : ∀ {k0 : Nat}, PoolInv w base n T R Q k0 P → PoolInv w base n T R Q (k0 + k) P' := by
  induction hr with
  | refl => exact fun h => h
  | step _ hs ih => exact fun h0 => (ih h0).pres h hs

/-- If no goroutine writes to the log, the log stays as it was. -/
theorem PoolInv.nolog {k : Nat} {P : Pool α β} (h : PoolInv w base n T R Q k P) (hl : ∀ i, i < n → ¬ (R i).log) : P.mem.log = w.log := by
  obtain ⟨V, own, s, -, -, -, hsh, hlog, hno⟩ := h.priv
  rw [hlog, hsh.empty fun i => hno i (hl i), List.append_nil]

/-- The result of goroutine i when it is alone. -/
theorem PoolInv.result {k : Nat} {P : Pool α β} (h : PoolInv w base n T R Q k P) {i : Nat} (hi : i < n) {x : β} (hx : P.thr i = .ret x) :
    ∃ F, (T i).run (alone w base i) = .ok (x, F) ∧ AgreeOn (R i) (base (i + 1)) P.mem F ∧ F.next = P.next i ∧ Q i x F := by
  obtain ⟨V, own, s, hV, -⟩ := h.priv
  obtain ⟨hA, hn, -, hg, hr⟩ := hV i hi
  rw [hx] at hr hg
  exact ⟨V i, hr.symm, hA, hn, hg⟩

theorem PoolInv.no_panic (hok : PoolOk w base n T R Q) {k : Nat} {P : Pool α β}
    (h : PoolInv w base n T R Q k P) {i : Nat} (hi : i < n) : ¬ P.Panics i := by
  rintro ⟨γ, p, q, e, ht, hs⟩
  obtain ⟨V, own, s, hV, -⟩ := h.priv
  obtain ⟨c', V', W', -, g1, -⟩ := PoolInv.next_step hok hi (hV i hi) ht
  rw [hs] at g1
  cases g1

theorem PoolInv.can_step (hok : PoolOk w base n T R Q) {k : Nat} {P : Pool α β}
    (h : PoolInv w base n T R Q k P) {i : Nat} (hi : i < n) (hu : ∀ x, P.thr i ≠ .ret x) : ∃ P', PoolStep n P P' := by
  cases ht : P.thr i with
  | ret x => exact absurd ht (hu x)
  | @op γ p q =>
    obtain ⟨V, own, s, hV, -⟩ := h.priv
    obtain ⟨c', V', W', -, g1, -⟩ := PoolInv.next_step hok hi (hV i hi) ht
    exact ⟨_, .step hi ht g1⟩

/-- After as many accesses as the goroutines make when they are alone all have ended, and not before. -/
theorem PoolInv.done_iff (hok : PoolOk w base n T R Q) {k : Nat} {P : Pool α β}
    (h : PoolInv w base n T R Q k P) : k ≤ ∑ i ∈ Finset.range n, (T i).len (alone w base i) ∧
      (k = ∑ i ∈ Finset.range n, (T i).len (alone w base i) ↔ ∀ i, i < n → ∃ x, P.thr i = .ret x) := by
  obtain ⟨V, own, s, hV, hlen, -⟩ := h.priv
  refine ⟨by omega, ?_⟩
  have : k = ∑ i ∈ Finset.range n, (T i).len (alone w base i) ↔ ∑ i ∈ Finset.range n, (P.thr i).len (V i) = 0 := by omega
  rw [this, Finset.sum_eq_zero_iff]
  constructor
  · intro h0 i hi
    have h0 := h0 i (Finset.mem_range.2 hi)
    cases ht : P.thr i with
    | ret x => exact ⟨x, rfl⟩
    | @op γ p q =>
      obtain ⟨c', V', W', -, -, -, -, -, -, -, -, g, -⟩ := PoolInv.next_step hok hi (hV i hi) ht
      omega
  · intro h0 i hi
    obtain ⟨x, hx⟩ := h0 i (Finset.mem_range.1 hi)
    rw [hx]
    rfl

/-! ### Running one goroutine up to a given access -/

/-- The program, run alone from V, gets to the access q. -/
inductive GetsTo {δ : Type} (q : Prim α δ) : Prog α β → World α → Prop
  | here {k : δ → Prog α β} {V : World α} : GetsTo q (.op q k) V
  | there {γ : Type} {p : Prim α γ} {k : γ → Prog α β} {V V' : World α} {c : γ} : p.sem V = .ok (c, V') → GetsTo q (k c) V' → GetsTo q (.op p k) V

theorem GetsTo.bind {δ γ : Type} {q : Prim α δ} {t : Prog α β} {V : World α} (h : GetsTo q t V) (f : β → Prog α γ) : GetsTo q (t >>= f) V := by
  induction h with
  | here => exact .here
  | there e _ ih => exact .there e ih

theorem GetsTo.after {δ γ : Type} {q : Prim α δ} {t : Prog α β} {V V' : World α} {x : β} {f : β → Prog α γ} (e : t.run V = .ok (x, V'))
    (h : GetsTo q (f x) V') : GetsTo q (t >>= f) V := by
  induction t generalizing V with
  | ret y => cases e; exact h
  | op p k ih =>
    rw [prog_op] at e
    change Go.bind _ _ V = _ at e
    unfold Go.bind at e
    split at e
    · cases e
    · rename_i c V1 e1
      exact .there e1 (ih c e)

/-- A goroutine that gets to an access when alone gets to it in the pool, without the others moving. -/
theorem PoolInv.upto (hok : PoolOk w base n T R Q) {i : Nat} (hi : i < n)
    {δ : Type} {q : Prim α δ} {t : Prog α β} {V : World α} (h : GetsTo q t V) :
    ∀ {k : Nat} {P : Pool α β}, PoolInv w base n T R Q k P → P.thr i = t → Private w base T R Q P i V →
      ∃ l P' r, PoolRun n l P P' ∧ P'.thr i = .op q r ∧ (∀ j, j ≠ i → P'.thr j = P.thr j ∧ P'.next j = P.next j) ∧
        Local (R i) (base (i + 1)) P.mem P'.mem := by
  induction h with
  | here => exact fun {k P} _ ht _ => ⟨0, P, _, .refl, ht, fun _ _ => ⟨rfl, rfl⟩, Local.refl _ _ _⟩
  | @there γ p r V V' c e _ ih =>
    intro k P hP ht hV
    obtain ⟨c', V1, W', e1, g1, g2, g3, g4, g5, g6, g7, g8, -⟩ := PoolInv.next_step hok hi hV ht
    cases e.symm.trans e1
    have hs := PoolStep.step hi ht g1
    have hP' := hP.pres hok hs
    have hthr : (if i = i then r c else P.thr i) = r c := if_pos rfl
    obtain ⟨l, P', r', h1, h2, h3, h4⟩ := ih hP' hthr ⟨⟨g3.flt, g3.outs, g3.lay, g3.full, g3.opt, g3.logger⟩,
      (by show V'.next = upd P.next i W'.next i; rw [upd, if_pos rfl, g2]), g5,
      (by show Prog.grd (R i) (if i = i then r c else P.thr i) _ _; rw [hthr]; exact g6),
      (by show Prog.run (if i = i then r c else P.thr i) _ = _; rw [hthr]; exact g7)⟩
    have hrun : ∀ {l : Nat} {P1 P2 P3 : Pool α β}, PoolStep n P1 P2 → PoolRun n l P2 P3 → PoolRun n (l + 1) P1 P3 := by
      intro l P1 P2 P3 s1 r1
      induction r1 with
      | refl => exact .step .refl s1
      | step _ s2 ih => exact .step (ih s1) s2
    exact ⟨l + 1, P', r', hrun hs h1, h2, fun j hj => ⟨(h3 j hj).1.trans (by show (if j = i then _ else _) = _; rw [if_neg hj]),
      (h3 j hj).2.trans (by show upd P.next i W'.next j = _; rw [upd, if_neg hj])⟩, Local.trans (W' := { W' with next := P.mem.next })
        ⟨g4.flt, g4.outs, g4.lay, g4.rem, g4.opt, g4.log, g4.logger, g4.norm, g4.unif⟩ h4⟩

theorem PoolRun.trans {n : Nat} {k l : Nat} {P P' P'' : Pool α β} (h : PoolRun n k P P') (h' : PoolRun n l P' P'') : PoolRun n (k + l) P P'' := by
  induction h' with
  | refl => exact h
  | step _ s ih => exact .step (ih h) s

/-- Two goroutines can both be about to make given accesses, if each gets there when alone. -/
theorem PoolInv.upto_two (hok : PoolOk w base n T R Q) {i j : Nat} (hi : i < n)
    (hj : j < n) (hij : i ≠ j) {δ ε : Type} {p : Prim α δ} {q : Prim α ε} (h1 : GetsTo p (T i) (alone w base i)) (h2 : GetsTo q (T j) (alone w base j)) :
    ∃ l P r s, PoolRun n l (Pool.init w base T) P ∧ P.thr i = .op p r ∧ P.thr j = .op q s := by
  have hI := PoolInv.start hok
  obtain ⟨l, P, r, hr, ht, ho, hL⟩ := PoolInv.upto hok hi h1 hI rfl ⟨AgreeOn.refl _ _ _ _, rfl, le_rfl, hok.safe i hi, rfl⟩
  have hI' := PoolInv.reach hok hr hI
  have hA : AgreeOn (R j) (base (j + 1)) P.mem (alone w base j) :=
    AgreeOn.other hok hi hj hij.symm (W := w) (AgreeOn.refl _ _ _ _) hL
  have hthr : P.thr j = T j := (ho j hij.symm).1
  obtain ⟨l', P', s, hr', ht', ho', -⟩ := PoolInv.upto hok hj h2 hI' hthr
    ⟨hA, (ho j hij.symm).2.symm, le_rfl, hthr ▸ hok.safe j hj, by rw [hthr]⟩
  exact ⟨l + l', P', r, s, hr.trans hr', (ho' i hij).1.trans ht, ht'⟩

end

end NN
