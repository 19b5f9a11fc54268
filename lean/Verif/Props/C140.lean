import Verif.Props.C133
import Verif.Props.C137
import Verif.Props.C138
import Mathlib.SetTheory.Cardinal.Finite
import Mathlib.Data.Fintype.Pigeonhole
/-
C140: training with SGD on numbers of a finite type, such as float64, runs into a cycle; and a training that has once stood still stands
still for good.
-/

set_option linter.unusedSectionVars false

namespace NN
open NN.Go

section Any
variable {α : Type} [Flt α]

/-! ### Specification -/

/-- The program calls Fit k times, with the same arguments and without logging, and every call succeeds: w' is the state afterwards. -/
inductive FitTimes (m : Model α) (X Y : Mat) (epochs : Int) (b : Nat) (xv yv : Mat) : Nat → World α → World α → Prop
  | none (w : World α) : FitTimes m X Y epochs b xv yv 0 w w
  | more {k : Nat} {w w1 w2 : World α} : FitTimes m X Y epochs b xv yv k w w1 → fit m X Y epochs b xv yv 0 w1 = .ok (Option.none, w2) →
      FitTimes m X Y epochs b xv yv (k + 1) w w2

/-- The number of weights and biases of a model. -/
def Net.paramCount (net : Net α) : Nat := ∑ i : Fin net.size, ((net.L i).n * (net.L i).o + (net.L i).o)

/-- SGD without decay. -/
def OptSpec.Steady (S : OptSpec α) : Prop := S.kind = .sgd ∧ Flt.eq S.decay Flt.zero = true

/-- Optimizers of the kind SGD without decay, with the same learning rate and momentum, and with the same velocities if there is momentum. -/
structure SgdLike (n o : Nat) (S S' : OptSpec α) : Prop where
  steady : S.Steady
  steady' : S'.Steady
  lr : S'.lr = S.lr
  momentum : S'.momentum = S.momentum
  vw : Flt.eq S.momentum Flt.zero = false → Agree n o S.vw S'.vw
  vb : Flt.eq S.momentum Flt.zero = false → Agree 1 o S.vb S'.vb

/-! ### The counter of the updates does not matter to SGD without decay -/

theorem OptSpec.Steady.refl {S : OptSpec α} (h : S.Steady) (n o : Nat) : SgdLike n o S S :=
  ⟨h, h, rfl, rfl, fun _ => Agree.refl _ _ _, fun _ => Agree.refl _ _ _⟩

theorem SgdLike.trans {n o : Nat} {a b c : OptSpec α} (h : SgdLike n o a b) (h' : SgdLike n o b c) : SgdLike n o a c :=
  ⟨h.steady, h'.steady', h'.lr.trans h.lr, h'.momentum.trans h.momentum,
    fun e i j hi hj => (h'.vw (by rw [h.momentum]; exact e) i j hi hj).trans (h.vw e i j hi hj),
    fun e i j hi hj => (h'.vb (by rw [h.momentum]; exact e) i j hi hj).trans (h.vb e i j hi hj)⟩

theorem OptSpec.Steady.rate {S : OptSpec α} (h : S.Steady) : S.rate = S.lr := by
  unfold OptSpec.rate
  rw [if_pos h.2]

theorem SgdLike.vel {n o : Nat} {S S' : OptSpec α} (h : SgdLike n o S S') (v g : α) : S'.vel v g = S.vel v g := by
  unfold OptSpec.vel
  rw [h.steady.1, h.steady'.1, h.steady.rate, h.steady'.rate, h.lr, h.momentum]

theorem SgdLike.upd {n o : Nat} {S S' : OptSpec α} (h : SgdLike n o S S') {x v v' g : α} (c c' : α)
    (hv : Flt.eq S.momentum Flt.zero = false → v' = v) : S'.upd x v' c' g = S.upd x v c g := by
  unfold OptSpec.upd
  rw [h.steady.1, h.steady'.1, h.steady.rate, h.steady'.rate, h.lr, h.momentum]
  dsimp only
  by_cases e : Flt.eq S.momentum Flt.zero = true
  · rw [if_pos e, if_pos e]
  · rw [if_neg e, if_neg e, h.vel, hv (by simpa using e)]

theorem SgdLike.newW {n o : Nat} {S S' : OptSpec α} (h : SgdLike n o S S') {W W' G G' : Nat → Nat → α} (hW : Agree n o W W') (hG : Agree n o G G') :
    Agree n o (S.newW W G) (S'.newW W' G') := by
  intro i j hi hj
  unfold OptSpec.newW
  rw [hW i j hi hj, hG i j hi hj]
  exact h.upd _ _ fun e => h.vw e i j hi hj

theorem SgdLike.newB {n o : Nat} {S S' : OptSpec α} (h : SgdLike n o S S') {W W' G G' : Nat → Nat → α} (hW : Agree 1 o W W') (hG : Agree 1 o G G') :
    Agree 1 o (S.newB W G) (S'.newB W' G') := by
  intro i j hi hj
  unfold OptSpec.newB
  rw [hW i j hi hj, hG i j hi hj]
  exact h.upd _ _ fun e => h.vb e i j hi hj

theorem SgdLike.step {n o : Nat} {S S' : OptSpec α} (h : SgdLike n o S S') {GW GW' GB GB' : Nat → Nat → α} (hW : Agree n o GW GW')
    (hB : Agree 1 o GB GB') : SgdLike n o (S.step GW GB) (S'.step GW' GB') :=
  ⟨h.steady, h.steady', h.lr, h.momentum,
    fun e i j hi hj => by show S'.vel _ _ = S.vel _ _; rw [h.vel, h.vw e i j hi hj, hW i j hi hj],
    fun e i j hi hj => by show S'.vel _ _ = S.vel _ _; rw [h.vel, h.vb e i j hi hj, hB i j hi hj]⟩

/-- Two runs with SGD are in the same situation. -/
structure SameSgd (net net' : Net α) (S S' : Nat → OptSpec α) : Prop where
  layers : SameNet net net'
  opt : ∀ k, k < net.size → SgdLike (net.L k).n (net.L k).o (S k) (S' k)

theorem SameSgd.trans {a b c : Net α} {S S' S2 : Nat → OptSpec α} (h : SameSgd a b S S') (h' : SameSgd b c S' S2) : SameSgd a c S S2 :=
  ⟨h.layers.trans h'.layers,
    fun k hk => (h.opt k hk).trans (by
      have := h'.opt k (by rw [h.layers.size]; exact hk)
      rwa [(h.layers.layer k hk).n, (h.layers.layer k hk).o] at this)⟩

theorem trainStep_sgd {m : Model α} {loss : LossKind} {r : Nat} {u : Nat → α}
    {X Y : Nat → Nat → α} {net net' net1 net1' : Net α} {S S' S1 S1' : Nat → OptSpec α} (h : SameSgd net net' S S') (h0 : 0 < net.size)
    (h1 : TrainStep m loss r u X Y net S net1 S1) (h2 : TrainStep m loss r u X Y net' S' net1' S1') :
    SameSgd net1 net1' S1 S1' ∧ SameShape net net1 ∧ SameShape net' net1' := by
  obtain ⟨G, D, g1, rfl, rfl⟩ := h1
  obtain ⟨G', D', g2, rfl, rfl⟩ := h2
  have hV := trainVals_same h.layers (Agree.refl r (net.dim 0) X) (fun q => rfl (a := u q))
  have hG := netGrad_same rfl h.layers h0 hV (fun k hk => by
    rw [← h.layers.outs k hk]
    refine dropBits_same (h.layers.layer k hk) (fun q => ?_) r
    rw [dropDraws_same h.layers r k (by omega)]) (Agree.refl r (net.dim net.size) Y) g1 g2
  have hGo : ∀ k, k < net.size → Agree r (net.L k).o (G k) (G' k) := fun k hk => by rw [h.layers.outs k hk]; exact hG k hk
  have hVo : ∀ k, k < net.size → Agree r (net.L k).n (trainVals net r u X k) (trainVals net' r u X k) := fun k hk => by
    rw [h.layers.ins k hk]; exact hV k (by omega)
  refine ⟨⟨⟨h.layers.size, h.layers.dim, h.layers.ins, h.layers.outs, fun k hk => ?_⟩, fun k hk => ?_⟩, ⟨rfl, rfl, rfl, rfl, rfl, fun i => ⟨_, _, rfl⟩⟩,
    ⟨rfl, rfl, rfl, rfl, rfl, fun i => ⟨_, _, rfl⟩⟩⟩
  · have hl := h.layers.layer k hk
    exact ⟨hl.kind, hl.n, hl.o, hl.slope, hl.dropout,
      fun i j hi hj => (h.opt k hk).newW (fun i j hi hj => hl.W i j hi hj) (gradW_same (hVo k hk) (hGo k hk)) i j hi hj,
      fun j hj => (h.opt k hk).newB (fun i j _ hj => hl.b j hj) (gradB_same (hGo k hk)) 0 j Nat.one_pos hj⟩
  · exact (h.opt k hk).step (gradW_same (hVo k hk) (hGo k hk)) (gradB_same (hGo k hk))

theorem descent_sgd {m : Model α} {loss : LossKind} {u : Nat → α} {p : Nat} {X Y : Nat → Nat → α} {net net' : Net α} {S S' : Nat → OptSpec α}
    (h : SameSgd net net' S S') (h0 : 0 < net.size) (bs : List (Nat × Nat)) {net1 net1' : Net α} {S1 S1' : Nat → OptSpec α} {p1 p1' : Nat}
    (h1 : Descent m loss u X Y net S p bs net1 S1 p1) (h2 : Descent m loss u X Y net' S' p bs net1' S1' p1') :
    SameSgd net1 net1' S1 S1' ∧ net1.size = net.size ∧ p1' = p1 := by
  induction bs using List.reverseRecOn generalizing net1 net1' S1 S1' p1 p1' with
  | nil =>
    obtain ⟨rfl, rfl, rfl⟩ := h1.nil
    obtain ⟨rfl, rfl, rfl⟩ := h2.nil
    exact ⟨h, rfl, rfl⟩
  | append_singleton bs b ih =>
    obtain ⟨netA, SA, pA, a1, a2, rfl⟩ := h1.snoc
    obtain ⟨netB, SB, pB, b1, b2, rfl⟩ := h2.snoc
    obtain ⟨hs, e1, rfl⟩ := ih a1 b1
    obtain ⟨r1, r2, -⟩ := trainStep_sgd hs (by omega) a2 b2
    refine ⟨r1, r2.size.trans e1, ?_⟩
    rw [hs.layers.size, dropDraws_same hs.layers _ _ le_rfl]

/-- Training does not change the settings of an optimizer. -/
theorem descent_settings {m : Model α} {loss : LossKind} {u : Nat → α} {X Y : Nat → Nat → α} {net net1 : Net α} {S S1 : Nat → OptSpec α} {p p1 : Nat}
    {bs : List (Nat × Nat)} (h : Descent m loss u X Y net S p bs net1 S1 p1) (i : Nat) :
    (S1 i).kind = (S i).kind ∧ (S1 i).lr = (S i).lr ∧ (S1 i).decay = (S i).decay ∧ (S1 i).momentum = (S i).momentum := by
  induction h with
  | start => exact ⟨rfl, rfl, rfl, rfl⟩
  | step _ hs ih =>
    obtain ⟨G, D, -, -, rfl⟩ := hs
    exact ih

/-! ### Calls of Fit -/

/-- Everything the calls of Fit need and keep: the training situation, optimizers of the kind SGD without decay, no Dropout layers, the
random source in its original position. -/
structure Turns (w0 w : World α) (m : Model α) (net0 net : Net α) (op : Nat → Nat) (S0 S : Nat → OptSpec α) (k : LossKind) (X Y : Mat) (n : Nat)
    (A B : Nat → Nat → α) : Prop where
  trains : Trains w m net op S k X Y n A B
  shape : SameShape net0 net
  noDrop : ∀ i, i < net.size → (net.L i).kind ≠ .dropout
  steady : ∀ i, i < net.size → (S i).Steady
  lr : ∀ i, (S i).lr = (S0 i).lr
  momentum : ∀ i, (S i).momentum = (S0 i).momentum
  unif : w.unif = w0.unif
  unifPos : w.unifPos = w0.unifPos

theorem SameShape.comp {a b c : Net α} (h : SameShape a b) (h' : SameShape b c) : SameShape a c :=
  ⟨h'.size.trans h.size, h'.dim.trans h.dim, h'.lp.trans h.lp, h'.wm.trans h.wm, h'.bm.trans h.bm, fun i => by
    obtain ⟨W, b, e⟩ := h.layer i
    obtain ⟨W', b', e'⟩ := h'.layer i
    exact ⟨W', b', by rw [e', e]⟩⟩

variable [FltInt α] {w0 : World α} {m : Model α} {net0 : Net α} {op : Nat → Nat} {S0 : Nat → OptSpec α} {k : LossKind} {X Y : Mat} {n : Nat}
  {A B : Nat → Nat → α}

theorem Turns.call {w : World α} {net : Net α} {S : Nat → OptSpec α} (h : Turns w0 w m net0 net op S0 S k X Y n A B) (xv yv : Mat) (epochs : Int)
    (b : Nat) (hbig : n + b ≤ 2 ^ 53) : ∃ w1 net1 S1, fit m X Y epochs b xv yv 0 w = .ok (none, w1) ∧
      Descent m k w0.unif A B net S w0.unifPos (List.replicate epochs.toNat (blocks n b)).flatten net1 S1 w0.unifPos ∧
      Turns w0 w1 m net0 net1 op S0 S1 k X Y n A B := by
  have ht := h.trains
  obtain ⟨e, w1, g, rfl, net1, S1, d, t1, s1, mx, my, fr⟩ := wp_iff.1 (C70_fit w m net op S ht.task ht.noSig _ ht.loss rfl X Y xv yv n A B ht.xs.mat ht.ys.mat
    ht.xs.cap ht.ys.cap ht.xs.sep ht.ys.sep epochs b hbig)
  have hu : w1.unifPos = w.unifPos := fr.unifPos fun ⟨i, hi, e⟩ => h.noDrop i hi e
  have hk : ∀ i, (net1.L i).kind = (net.L i).kind := fun i => by obtain ⟨W, b, e⟩ := s1.layer i; rw [e]
  rw [hu, h.unif, h.unifPos] at d
  have hset := descent_settings d
  refine ⟨w1, net1, S1, g, d, ⟨t1, ?_, fun i hi => ?_, ?_, ?_⟩, h.shape.comp s1, fun i hi => ?_, fun i hi => ?_, fun i => ?_, fun i => ?_, fr.unif.trans h.unif,
    hu.trans h.unifPos⟩
  · rw [s1.size, s1.dim]; exact ht.loss
  · rw [hk]; exact ht.noSig i (by rw [← s1.size]; exact hi)
  · rw [s1.dim]; exact ht.xs.step ht.task.isNet fr (fun _ h => h) (fun _ h => h) s1
  · rw [s1.size, s1.dim]; exact ht.ys.step ht.task.isNet fr (fun _ h => h) (fun _ h => h) s1
  · rw [hk]; exact h.noDrop i (by rw [← s1.size]; exact hi)
  · have := h.steady i (by rw [← s1.size]; exact hi)
    exact ⟨(hset i).1.trans this.1, by rw [(hset i).2.2.1]; exact this.2⟩
  · rw [(hset i).2.1, h.lr]
  · rw [(hset i).2.2.2, h.momentum]

/-- The start of the calls. -/
theorem Turns.start {w : World α} {net : Net α} {S : Nat → OptSpec α} (h : Trains w m net op S k X Y n A B)
    (hd : ∀ i, i < net.size → (net.L i).kind ≠ .dropout) (hS : ∀ i, i < net.size → (S i).Steady) :
    Turns w w m net net op S S k X Y n A B :=
  ⟨h, ⟨rfl, rfl, rfl, rfl, rfl, fun _ => ⟨_, _, rfl⟩⟩, hd, hS, fun _ => rfl, fun _ => rfl, rfl, rfl⟩

/-- One more call keeps two runs in the same situation. -/
theorem Turns.same {w w' : World α} {net net' : Net α} {S S' : Nat → OptSpec α} (h : Turns w0 w m net0 net op S0 S k X Y n A B)
    (h' : Turns w0 w' m net0 net' op S0 S' k X Y n A B) (hs : SameSgd net net' S S') (xv yv : Mat) (epochs : Int) (b : Nat)
    (hbig : n + b ≤ 2 ^ 53) : ∃ w1 w1' net1 net1' S1 S1', fit m X Y epochs b xv yv 0 w = .ok (none, w1) ∧
      fit m X Y epochs b xv yv 0 w' = .ok (none, w1') ∧ Turns w0 w1 m net0 net1 op S0 S1 k X Y n A B ∧
      Turns w0 w1' m net0 net1' op S0 S1' k X Y n A B ∧ SameSgd net1 net1' S1 S1' := by
  obtain ⟨w1, net1, S1, g, d, t⟩ := h.call xv yv epochs b hbig
  obtain ⟨w1', net1', S1', g', d', t'⟩ := h'.call xv yv epochs b hbig
  exact ⟨w1, w1', net1, net1', S1, S1', g, g', t, t', (descent_sgd hs h.trains.task.pos _ d d').1⟩

/-- Further calls keep two runs in the same situation. -/
theorem Turns.sames {w w' wA wB : World α} {net net' : Net α} {S S' : Nat → OptSpec α} (h : Turns w0 w m net0 net op S0 S k X Y n A B)
    (h' : Turns w0 w' m net0 net' op S0 S' k X Y n A B) (hs : SameSgd net net' S S') {xv yv : Mat} {epochs : Int} {b : Nat}
    (hbig : n + b ≤ 2 ^ 53) {i j : Nat} (hA : FitTimes m X Y epochs b xv yv i wA w) (hB : FitTimes m X Y epochs b xv yv j wB w') (d : Nat) :
    ∃ w1 w1' net1 net1' S1 S1', FitTimes m X Y epochs b xv yv (i + d) wA w1 ∧ FitTimes m X Y epochs b xv yv (j + d) wB w1' ∧
      Turns w0 w1 m net0 net1 op S0 S1 k X Y n A B ∧
      Turns w0 w1' m net0 net1' op S0 S1' k X Y n A B ∧ SameSgd net1 net1' S1 S1' := by
  induction d with
  | zero => exact ⟨w, w', net, net', S, S', hA, hB, h, h', hs⟩
  | succ d ih =>
    obtain ⟨w1, w1', net1, net1', S1, S1', a, a', t, t', s⟩ := ih
    obtain ⟨w2, w2', net2, net2', S2, S2', g, g', t2, t2', s2⟩ := t.same t' s xv yv epochs b hbig
    exact ⟨w2, w2', net2, net2', S2, S2', a.more g, a'.more g', t2, t2', s2⟩

/-- All numbers of calls are reached. -/
theorem Turns.reach {w : World α} {net : Net α} {S : Nat → OptSpec α} (h : Turns w0 w m net0 net op S0 S k X Y n A B) (xv yv : Mat) (epochs : Int)
    (b : Nat) (hbig : n + b ≤ 2 ^ 53) (d : Nat) :
    ∃ w1 net1 S1, FitTimes m X Y epochs b xv yv d w w1 ∧ Turns w0 w1 m net0 net1 op S0 S1 k X Y n A B := by
  induction d with
  | zero => exact ⟨w, net, S, .none w, h⟩
  | succ d ih =>
    obtain ⟨w1, net1, S1, a, t⟩ := ih
    obtain ⟨w2, net2, S2, g, -, t2⟩ := t.call xv yv epochs b hbig
    exact ⟨w2, net2, S2, a.more g, t2⟩

theorem FitTimes.unique {xv yv : Mat} {epochs : Int} {b d : Nat} {w w1 w2 : World α} (h : FitTimes m X Y epochs b xv yv d w w1)
    (h' : FitTimes m X Y epochs b xv yv d w w2) : w1 = w2 := by
  induction h generalizing w2 with
  | none => cases h'; rfl
  | more _ g ih =>
    cases h' with
    | more a' g' =>
      obtain rfl := ih a'
      rw [g] at g'
      injection g' with g'
      injection g'

/-! ### The finite set of situations -/

/-- The parameters of a model with the shape of net0. -/
abbrev ParamBox (net0 : Net α) := (i : Fin net0.size) → (Fin (net0.L i).n × Fin (net0.L i).o → α) × (Fin (net0.L i).o → α)

theorem card_paramBox [Finite α] (net0 : Net α) : Nat.card (ParamBox net0) = Nat.card α ^ net0.paramCount := by
  rw [Nat.card_pi]
  unfold Net.paramCount
  rw [← Finset.prod_pow_eq_pow_sum]
  refine Finset.prod_congr rfl fun i _ => ?_
  rw [Nat.card_prod, Nat.card_fun, Nat.card_fun, Nat.card_prod, Nat.card_fin, Nat.card_fin, pow_add]
  

/-- The parameters of net. -/
def boxOf (net0 net : Net α) : ParamBox net0 := fun i => (fun x => (net.L i).W x.1 x.2, fun j => (net.L i).b j)

/-- The velocities of S. -/
def velsOf (net0 : Net α) (S : Nat → OptSpec α) : ParamBox net0 := fun i => (fun x => (S i).vw x.1 x.2, fun j => (S i).vb 0 j)

theorem box_same {net net' : Net α} (h : SameShape net0 net) (h' : SameShape net0 net') (hi : ∀ k, k < net0.size → (net0.L k).n = net0.dim k)
    (ho : ∀ k, k < net0.size → (net0.L k).o = net0.dim (k + 1)) (e : boxOf net0 net = boxOf net0 net') : SameNet net net' := by
  refine ⟨h'.size.trans h.size.symm, fun k _ => by rw [h'.dim, h.dim], fun k hk => ?_, fun k hk => ?_, fun k hk => ?_⟩
  · rw [h.size] at hk
    obtain ⟨W, b, e⟩ := h.layer k
    rw [e, h.dim]; exact hi k hk
  · rw [h.size] at hk
    obtain ⟨W, b, e⟩ := h.layer k
    rw [e, h.dim]; exact ho k hk
  · rw [h.size] at hk
    obtain ⟨W, b, e1⟩ := h.layer k
    obtain ⟨W', b', e2⟩ := h'.layer k
    have e3 := congrFun e ⟨k, hk⟩
    unfold boxOf at e3
    dsimp only at e3
    refine ⟨by rw [e1, e2], by rw [e1, e2], by rw [e1, e2], by rw [e1, e2], by rw [e1, e2], fun i j hi hj => ?_, fun j hj => ?_⟩
    · rw [e1] at hi hj
      exact (congrFun (Prod.mk.inj e3).1 (⟨i, hi⟩, ⟨j, hj⟩)).symm
    · rw [e1] at hj
      exact (congrFun (Prod.mk.inj e3).2 ⟨j, hj⟩).symm

/-- Two situations with the same key are the same situation. -/
theorem Turns.key {w w' : World α} {net net' : Net α} {S S' : Nat → OptSpec α} (h : Turns w0 w m net0 net op S0 S k X Y n A B)
    (h' : Turns w0 w' m net0 net' op S0 S' k X Y n A B) (hN : IsNet w0 m net0) (e : boxOf net0 net = boxOf net0 net')
    (hv : (∀ i, i < net0.size → Flt.eq (S0 i).momentum Flt.zero = true) ∨ velsOf net0 S = velsOf net0 S') : SameSgd net net' S S' := by
  refine ⟨box_same h.shape h'.shape hN.ins hN.outs e, fun i hi => ?_⟩
  have hi' : i < net'.size := by rw [h'.shape.size, ← h.shape.size]; exact hi
  have hi0 : i < net0.size := by rw [← h.shape.size]; exact hi
  obtain ⟨W, b, e1⟩ := h.shape.layer i
  refine ⟨h.steady i hi, h'.steady i hi', by rw [h.lr, h'.lr], by rw [h.momentum, h'.momentum], fun hm p q hp hq => ?_, fun hm p q hp hq => ?_⟩
  all_goals
    rw [h.momentum] at hm
    rcases hv with hv | hv
    · rw [hv i hi0] at hm; cases hm
    have e3 := congrFun hv ⟨i, hi0⟩
    unfold velsOf at e3
    dsimp only at e3
    rw [e1] at hq
  · rw [e1] at hp
    exact (congrFun (Prod.mk.inj e3).1 (⟨p, hp⟩, ⟨q, hq⟩)).symm
  · obtain rfl : p = 0 := by omega
    exact (congrFun (Prod.mk.inj e3).2 ⟨q, hq⟩).symm

/-- Among the situations after 0, 1, ..., c calls two are the same, if there are at most c situations. -/
theorem Turns.pigeon {T : Type} [Finite T] (xv yv : Mat) (epochs : Int) (b : Nat) (hbig : n + b ≤ 2 ^ 53)
    (h : Turns w0 w0 m net0 net0 op S0 S0 k X Y n A B) (key : Net α → (Nat → OptSpec α) → T)
    (hkey : ∀ (w w' : World α) (net net' : Net α) (S S' : Nat → OptSpec α), Turns w0 w m net0 net op S0 S k X Y n A B →
      Turns w0 w' m net0 net' op S0 S' k X Y n A B → key net S = key net' S' → SameSgd net net' S S') :
    ∃ N p, 0 < p ∧ N + p ≤ Nat.card T ∧ ∀ d, N ≤ d → ∃ w1 w2 net1 net2 S1 S2, FitTimes m X Y epochs b xv yv d w0 w1 ∧
      FitTimes m X Y epochs b xv yv (d + p) w0 w2 ∧ IsTask w1 m net1 op S1 ∧ IsTask w2 m net2 op S2 ∧ SameNet net1 net2 ∧
      ∀ i, i < net0.size → SgdLike (net0.L i).n (net0.L i).o (S1 i) (S2 i) := by
  choose W N S hF hT using h.reach xv yv epochs b hbig
  have := Fintype.ofFinite T
  obtain ⟨x, y, hne, he⟩ := Fintype.exists_ne_map_eq_of_card_lt (fun i : Fin (Nat.card T + 1) => key (N i) (S i))
    (by rw [Fintype.card_fin, Nat.card_eq_fintype_card]; exact Nat.lt_succ_self _)
  have main : ∀ x y : Fin (Nat.card T + 1), x.val < y.val → key (N x) (S x) = key (N y) (S y) → ∃ N p, 0 < p ∧ N + p ≤ Nat.card T ∧
      ∀ d, N ≤ d → ∃ w1 w2 net1 net2 S1 S2, FitTimes m X Y epochs b xv yv d w0 w1 ∧
      FitTimes m X Y epochs b xv yv (d + p) w0 w2 ∧ IsTask w1 m net1 op S1 ∧ IsTask w2 m net2 op S2 ∧ SameNet net1 net2 ∧
      ∀ i, i < net0.size → SgdLike (net0.L i).n (net0.L i).o (S1 i) (S2 i) := by
    intro x y hlt he
    refine ⟨x, y - x, by omega, by omega, fun d hd => ?_⟩
    obtain ⟨w1, w2, net1, net2, S1, S2, a, a', t, t', s⟩ := (hT x).sames (hT y) (hkey _ _ _ _ _ _ (hT x) (hT y) he) hbig (hF x) (hF y) (d - x)
    refine ⟨w1, w2, net1, net2, S1, S2, by rwa [Nat.add_sub_cancel' hd] at a, ?_, t.trains.task, t'.trains.task, s.layers, fun i hi => ?_⟩
    · rwa [show y.val + (d - x.val) = d + (y.val - x.val) by omega] at a'
    · have := s.opt i (by rw [t.shape.size]; exact hi)
      obtain ⟨W, b, e⟩ := t.shape.layer i
      rw [e] at this
      exact this
  rcases Nat.lt_or_gt_of_ne (fun h => hne (Fin.ext h)) with h | h
  · exact main x y h he
  · exact main y x h he.symm

/-- C140: a model without Dropout layers whose optimizers are SGD without decay, in any state, trained by calling Fit over and over: all calls succeed, and
there are N and p with N + p at most the number of situations, such that for every d from N on, the model has after d + p calls the same
parameters and velocities as after d calls.  The training goes round in a circle. -/
theorem C140_cycle [Finite α] (w : World α) (m : Model α) (net : Net α) (op : Nat → Nat) (S : Nat → OptSpec α) (k : LossKind) (X Y xv yv : Mat)
    (n : Nat) (A B : Nat → Nat → α) (h : Trains w m net op S k X Y n A B) (hd : ∀ i, i < net.size → (net.L i).kind ≠ .dropout)
    (hS : ∀ i, i < net.size → (S i).Steady) (epochs : Int) (b : Nat) (hbig : n + b ≤ 2 ^ 53) :
    ∃ N p, 0 < p ∧ N + p ≤ Nat.card α ^ (2 * net.paramCount) ∧ ∀ d, N ≤ d → ∃ w1 w2 net1 net2 S1 S2, FitTimes m X Y epochs b xv yv d w w1 ∧
      FitTimes m X Y epochs b xv yv (d + p) w w2 ∧ IsTask w1 m net1 op S1 ∧ IsTask w2 m net2 op S2 ∧ SameNet net1 net2 ∧
      ∀ i, i < net.size → SgdLike (net.L i).n (net.L i).o (S1 i) (S2 i) := by
  have := (Turns.start h hd hS).pigeon (T := ParamBox net × ParamBox net) xv yv epochs b hbig (fun net' S' => (boxOf net net', velsOf net S'))
    fun w1 w2 net1 net2 S1 S2 h1 h2 e => h1.key h2 h.task.isNet (Prod.mk.inj e).1 (.inr (Prod.mk.inj e).2)
  rwa [Nat.card_prod, card_paramBox, ← pow_add, ← two_mul] at this

/-- C140, without momentum: the number of calls until the training repeats itself is at most the number of values of the parameters. -/
theorem C140_plain [Finite α] (w : World α) (m : Model α) (net : Net α) (op : Nat → Nat) (S : Nat → OptSpec α) (k : LossKind) (X Y xv yv : Mat)
    (n : Nat) (A B : Nat → Nat → α) (h : Trains w m net op S k X Y n A B) (hd : ∀ i, i < net.size → (net.L i).kind ≠ .dropout)
    (hS : ∀ i, i < net.size → (S i).Plain) (epochs : Int) (b : Nat) (hbig : n + b ≤ 2 ^ 53) :
    ∃ N p, 0 < p ∧ N + p ≤ Nat.card α ^ net.paramCount ∧ ∀ d, N ≤ d → ∃ w1 w2 net1 net2 S1 S2, FitTimes m X Y epochs b xv yv d w w1 ∧
      FitTimes m X Y epochs b xv yv (d + p) w w2 ∧ IsTask w1 m net1 op S1 ∧ IsTask w2 m net2 op S2 ∧ SameNet net1 net2 ∧
      ∀ i, i < net.size → SgdLike (net.L i).n (net.L i).o (S1 i) (S2 i) := by
  have := (Turns.start h hd fun i hi => ⟨(hS i hi).1, (hS i hi).2.1⟩).pigeon (T := ParamBox net) xv yv epochs b hbig (fun net' _ => boxOf net net')
    fun w1 w2 net1 net2 S1 S2 h1 h2 e => h1.key h2 h.task.isNet e (.inl fun i hi => (hS i hi).2.2)
  rwa [card_paramBox] at this

/-- What the state says about the content of a model is unambiguous. -/
theorem IsNet.content_unique {w : World α} {m : Model α} {net net' : Net α} (h : IsNet w m net) (h' : IsNet w m net') (h0 : 0 < net.size) :
    SameNet net net' := by
  have hs := (h.shape_unique h' h0).2.2.2.2
  refine ⟨hs, fun i hi => ?_, h.ins, h.outs, fun i hi => ?_⟩
  · rcases Nat.lt_or_ge i net.size with hlt | hge
    · rw [← h.ins i hlt, ← h'.ins i (by omega)]
      exact (h.shape_unique h' hlt).1
    · obtain ⟨j, rfl⟩ : ∃ j, i = j + 1 := ⟨i - 1, by omega⟩
      rw [← h.outs j (by omega), ← h'.outs j (by omega)]
      exact (h.shape_unique h' (by omega)).2.1
  · obtain ⟨e1, e2, -, l2, -⟩ := h.shape_unique h' hi
    have l1 := h.lay i hi
    refine ⟨by rw [← l1.kind, ← l2.kind], e1, e2, by rw [← l1.slope, ← l2.slope], by rw [← l1.dropout, ← l2.dropout],
      fun p q hp hq => (h.weight_unique h' hi hp hq).symm, fun q hq => ?_⟩
    have hb : net'.bm i = net.bm i := Option.some.inj (l2.biases.symm.trans l1.biases)
    have m2 := l2.bmat
    rw [hb, e2] at m2
    exact (l1.bmat.entries_unique m2 Nat.one_pos hq).symm

/-- What the state says about the content of an optimizer is unambiguous. -/
theorem IsOpt.steady_unique {w : World α} {p r c : Nat} {S S' : OptSpec α} (h : IsOpt w p r c 1 c S) (h' : IsOpt w p r c 1 c S') (hS : S.Steady) :
    SgdLike r c S S' := by
  have hk : S'.kind = S.kind := h'.fields.kind.symm.trans h.fields.kind
  have hk' : S'.kind = .sgd := hk.trans hS.1
  refine ⟨hS, ⟨hk', ?_⟩, h'.fields.lr.symm.trans h.fields.lr, (h'.fields.momentum hk').symm.trans (h.fields.momentum hS.1), fun _ => ?_, fun _ => ?_⟩
  · rw [← h'.fields.decay, h.fields.decay]; exact hS.2
  · cases h.slots with
    | unset e a =>
      cases h'.slots with
      | unset _ a' => exact fun i j _ _ => (a' i j).trans (a i j).symm
      | set a' => exact absurd (a'.rows.symm.trans e) (by have := a'.rpos; omega)
    | set a =>
      cases h'.slots with
      | unset e => exact absurd (a.rows.symm.trans e) (by have := a.rpos; omega)
      | set a' => exact fun i j hi hj => (a.entries_unique a' hi hj).symm
  · cases h.slots with
    | unset e _ a =>
      cases h'.slots with
      | unset _ _ a' => exact fun i j _ _ => (a' i j).trans (a i j).symm
      | set a' => exact absurd (a'.rows.symm.trans e) (by have := a'.rpos; omega)
    | set a b =>
      cases h'.slots with
      | unset e => exact absurd (a.rows.symm.trans e) (by have := a.rpos; omega)
      | set _ b' => exact fun i j hi hj => (b.entries_unique b' hi hj).symm

/-- C140: if one call of Fit leaves the parameters and the velocities as they are, all further calls do. -/
theorem C140_rest (w : World α) (m : Model α) (net : Net α) (op : Nat → Nat) (S : Nat → OptSpec α) (k : LossKind) (X Y xv yv : Mat)
    (n : Nat) (A B : Nat → Nat → α) (h : Trains w m net op S k X Y n A B) (hd : ∀ i, i < net.size → (net.L i).kind ≠ .dropout)
    (hS : ∀ i, i < net.size → (S i).Steady) (epochs : Int) (b : Nat) (hbig : n + b ≤ 2 ^ 53) (e : Option Err) (w1 : World α) (net1 : Net α)
    (S1 : Nat → OptSpec α) (h1 : fit m X Y epochs b xv yv 0 w = .ok (e, w1)) (t1 : IsTask w1 m net1 op S1) (hN : SameNet net net1)
    (hO : ∀ i, i < net.size → SgdLike (net.L i).n (net.L i).o (S i) (S1 i)) (d : Nat) :
    ∃ wd netd Sd, FitTimes m X Y epochs b xv yv d w wd ∧ IsTask wd m netd op Sd ∧ SameNet net netd ∧
      ∀ i, i < net.size → SgdLike (net.L i).n (net.L i).o (S i) (Sd i) := by
  have h0 := Turns.start h hd hS
  obtain ⟨w1', net1', S1', g, -, t⟩ := h0.call xv yv epochs b hbig
  obtain ⟨rfl, rfl⟩ : e = none ∧ w1 = w1' := by rw [h1] at g; injection g with g; injection g with g1 g2; exact ⟨g1, g2⟩
  have hs : SameSgd net net1' S S1' := by
    refine SameSgd.trans (b := net1) (S' := S1) ⟨hN, hO⟩ ⟨t1.isNet.content_unique t.trains.task.isNet t1.pos, fun i hi => ?_⟩
    have hi' : i < net.size := by rw [← hN.size]; exact hi
    have o1 := t1.opt i hi
    have o2 := t.trains.task.opt i (by rw [t.shape.size]; exact hi')
    obtain ⟨e1, e2, -⟩ := t1.isNet.shape_unique t.trains.task.isNet hi
    rw [e1, e2] at o2
    exact o1.steady_unique o2 (hO i hi').steady'
  have main : ∀ d, ∃ wd netd Sd, FitTimes m X Y epochs b xv yv d w wd ∧ Turns w wd m net netd op S Sd k X Y n A B ∧ SameSgd net netd S Sd := by
    intro d
    induction d with
    | zero => exact ⟨w, net, S, .none w, h0, ⟨rfl, fun _ _ => rfl, h.task.isNet.ins, h.task.isNet.outs, fun _ _ => SameLayer.refl _⟩,
        fun i hi => (hS i hi).refl _ _⟩
    | succ d ih =>
      obtain ⟨wd, netd, Sd, a, td, sd⟩ := ih
      obtain ⟨x1, x2, n1, n2, s1, s2, g1, g2, t1', t2', s⟩ := h0.same td sd xv yv epochs b hbig
      obtain rfl : x1 = w1 := by rw [g] at g1; injection g1 with g1; injection g1 with _ g1; exact g1.symm
      refine ⟨x2, n2, s2, a.more g2, t2', hs.trans (SameSgd.trans ?_ s)⟩
      refine ⟨t.trains.task.isNet.content_unique t1'.trains.task.isNet t.trains.task.pos, fun i hi => ?_⟩
      have o1 := t.trains.task.opt i hi
      have o2 := t1'.trains.task.opt i (by rw [t1'.shape.size, ← t.shape.size]; exact hi)
      obtain ⟨e1, e2, -⟩ := t.trains.task.isNet.shape_unique t1'.trains.task.isNet hi
      rw [e1, e2] at o2
      exact o1.steady_unique o2 (t.steady i hi)
  obtain ⟨wd, netd, Sd, a, td, sd⟩ := main d
  exact ⟨wd, netd, Sd, a, td.trains.task, sd.layers, sd.opt⟩

/-- C140, without momentum: if one call of Fit leaves the parameters as they are, all further calls do. -/
theorem C140_rest_plain (w : World α) (m : Model α) (net : Net α) (op : Nat → Nat) (S : Nat → OptSpec α) (k : LossKind) (X Y xv yv : Mat)
    (n : Nat) (A B : Nat → Nat → α) (h : Trains w m net op S k X Y n A B) (hd : ∀ i, i < net.size → (net.L i).kind ≠ .dropout)
    (hS : ∀ i, i < net.size → (S i).Plain) (epochs : Int) (b : Nat) (hbig : n + b ≤ 2 ^ 53) (e : Option Err) (w1 : World α) (net1 : Net α)
    (h1 : fit m X Y epochs b xv yv 0 w = .ok (e, w1)) (t1 : IsNet w1 m net1) (hN : SameNet net net1) (d : Nat) :
    ∃ wd netd, FitTimes m X Y epochs b xv yv d w wd ∧ IsNet wd m netd ∧ SameNet net netd := by
  have hS' : ∀ i, i < net.size → (S i).Steady := fun i hi => ⟨(hS i hi).1, (hS i hi).2.1⟩
  obtain ⟨w1', net1', S1', g, -, t⟩ := (Turns.start h hd hS').call xv yv epochs b hbig
  obtain ⟨-, rfl⟩ : e = none ∧ w1 = w1' := by rw [h1] at g; injection g with g; injection g with g1 g2; exact ⟨g1, g2⟩
  have hs := t1.content_unique t.trains.task.isNet (by rw [hN.size]; exact h.task.pos)
  obtain ⟨wd, netd, Sd, a, td, sd, -⟩ := C140_rest w m net op S k X Y xv yv n A B h hd hS' epochs b hbig _ _ net1' S1' h1 t.trains.task (hN.trans hs)
    (fun i hi => ⟨hS' i hi, t.steady i (by rw [t.shape.size]; exact hi), t.lr i, t.momentum i,
      fun e => absurd (hS i hi).2.2 (by rw [e]; decide), fun e => absurd (hS i hi).2.2 (by rw [e]; decide)⟩) d
  exact ⟨wd, netd, a, td.isNet, sd⟩

end Any

/-! ### float64 -/

/-- A float64 is one of 2^64 bit patterns. -/
def f64Equiv : F64 ≃ Fin (2 ^ 64) := ⟨fun x => x.bits.toFin, fun x => ⟨⟨x⟩⟩, fun _ => rfl, fun _ => rfl⟩

instance : Finite F64 := Finite.of_equiv _ f64Equiv.symm

theorem card_f64 : Nat.card F64 = 2 ^ 64 := by rw [Nat.card_congr f64Equiv, Nat.card_fin]

/-- C140 on float64: the training repeats itself from at most 2^(128 P) calls of Fit on, where P is the number of weights and biases; from at
most 2^(64 P) calls on without momentum. -/
theorem C140_float64 [Libm] (w : World F64) (m : Model F64) (net : Net F64) (op : Nat → Nat) (S : Nat → OptSpec F64) (k : LossKind) (X Y xv yv : Mat)
    (n : Nat) (A B : Nat → Nat → F64) (h : Trains w m net op S k X Y n A B) (hd : ∀ i, i < net.size → (net.L i).kind ≠ .dropout)
    (hS : ∀ i, i < net.size → (S i).Steady) (epochs : Int) (b : Nat) (hbig : n + b ≤ 2 ^ 53) :
    ∃ N p, 0 < p ∧ N + p ≤ 2 ^ (128 * net.paramCount) ∧ ((∀ i, i < net.size → (S i).Plain) → N + p ≤ 2 ^ (64 * net.paramCount)) ∧
      ∀ d, N ≤ d → ∃ w1 w2 net1 net2 S1 S2, FitTimes m X Y epochs b xv yv d w w1 ∧
      FitTimes m X Y epochs b xv yv (d + p) w w2 ∧ IsTask w1 m net1 op S1 ∧ IsTask w2 m net2 op S2 ∧ SameNet net1 net2 ∧
      ∀ i, i < net.size → SgdLike (net.L i).n (net.L i).o (S1 i) (S2 i) := by
  by_cases hp : ∀ i, i < net.size → (S i).Plain
  · obtain ⟨N, p, h1, h2, h3⟩ := C140_plain w m net op S k X Y xv yv n A B h hd hp epochs b hbig
    rw [card_f64, ← pow_mul] at h2
    exact ⟨N, p, h1, h2.trans (Nat.pow_le_pow_right Nat.two_pos (by omega)), fun _ => h2, h3⟩
  · obtain ⟨N, p, h1, h2, h3⟩ := C140_cycle w m net op S k X Y xv yv n A B h hd hS epochs b hbig
    rw [card_f64, ← pow_mul] at h2
    exact ⟨N, p, h1, h2.trans (Nat.pow_le_pow_right Nat.two_pos (by omega)), fun h => absurd h hp, h3⟩

/-! ### The hypotheses can be met -/

/-- C140_cycle, C140_plain and C140_float64: three layers on float64, SGD with momentum or without. -/
example [Libm] (mom : F64) : ∃ (w : World F64) (m : Model F64) (net : Net F64) (op : Nat → Nat)
    (S : Nat → OptSpec F64) (X Y : Mat) (A B : Nat → Nat → F64), Trains w m net op S .mse X Y 5 A B ∧ net.size = 3 ∧
    (∀ i, i < net.size → (net.L i).kind ≠ .dropout) ∧ (∀ i, i < net.size → (S i).Steady) ∧ (∀ i, (S i).momentum = mom) ∧
    (mom = Flt.ofInt 0 → ∀ i, i < net.size → (S i).Plain) := by
  let o : Optim F64 := { (Optim.zero .sgd : Optim F64) with learningRate := Flt.ofInt 1, decay := Flt.ofInt 0, momentum := mom }
  let L : Nat → LayerSpec F64 := fun i => { demoT i with kind := if i = 2 then .linear else .hidden }
  obtain ⟨w, net, op, XM, YM, xM, yM, -, hs, hL, hdim, hT, dX, dY, -, -⟩ := exists_task (emptyWorld : World F64) 3 (by decide) L
    (fun i => demoT_pos (α := F64) i) (fun i => demoT_chain (α := F64) i) { newModel with loss := some ⟨.mse, (L 3).n⟩ } (optFrom o)
    (OptSpec.fresh (optFrom o)) rfl (fun w p i hlt e => isOpt_from _ _ _ _ hlt e) (r := 5) (r' := 1) (by decide) (by decide)
    (fun i j => Flt.ofInt (i + j : Int)) (fun i j => Flt.ofInt (i - j : Int)) (fun _ _ => Flt.ofInt 1) (fun _ _ => Flt.ofInt 1)
  have hk : ∀ i, (L i).kind ≠ .sigmoid ∧ (L i).kind ≠ .dropout := fun i => by
    show (if i = 2 then LayerKind.linear else .hidden) ≠ .sigmoid ∧ (if i = 2 then LayerKind.linear else .hidden) ≠ .dropout
    split <;> exact ⟨by decide, by decide⟩
  have d0 : net.dim 0 = (L 0).n := by rw [hdim]
  have d1 : net.dim net.size = (L 3).n := by rw [hdim, hs]
  have hz : Flt.eq (Flt.ofInt 0 : F64) Flt.zero = true := by
    rw [show (Flt.zero : F64) = Flt.ofInt 0 from rfl, f64_eq_int 0 0 (by norm_num) (by norm_num)]; rfl
  exact ⟨w, _, net, op, _, XM, YM, _, _, ⟨hT, by rw [d1]; rfl, fun i _ => by rw [hL]; exact (hk i).1, d0 ▸ dX, d1 ▸ dY⟩, hs,
    fun i _ => by rw [hL]; exact (hk i).2, fun i _ => ⟨rfl, hz⟩, fun _ => rfl, fun e i _ => ⟨rfl, hz, by
      show Flt.eq mom Flt.zero = true
      rw [e]; exact hz⟩⟩

/-- C140_rest and C140_rest_plain: one layer with two outputs that is trained on the mean absolute error (see C133). -/
example : ∃ (w w1 : World ℝ) (m : Model ℝ) (net net1 : Net ℝ) (op : Nat → Nat) (S S1 : Nat → OptSpec ℝ) (X Y : Mat) (A B : Nat → Nat → ℝ),
    Trains w m net op S .mae X Y 1 A B ∧ (∀ i, i < net.size → (net.L i).kind ≠ .dropout) ∧ (∀ i, i < net.size → (S i).Plain) ∧
    fit m X Y 1 (0 : Nat) X Y 0 w = .ok (none, w1) ∧ IsTask w1 m net1 op S1 ∧ SameNet net net1 ∧
    ∀ i, i < net.size → SgdLike (net.L i).n (net.L i).o (S i) (S1 i) := by
  obtain ⟨w, m, net, op, S, X, Y, h, hm, d0, d1, hL⟩ := exists_absTask 2 Nat.two_pos (fun _ _ => 1)
  have hs := h.size
  have h0 : ∀ i, i < net.size → i = 0 := fun i hi => by omega
  have hT : Trains w m net op S .mae X Y 1 (fun _ _ => 1) (fun _ _ => 1) := ⟨h.task, by rw [hs]; exact h.loss, fun i hi => by
    rw [h0 i hi, h.kind]; decide, h.inputs, by rw [hs]; exact h.targets⟩
  have hfz := C133_frozen w m net op S X Y X Y 1 _ _ hT (by rw [hm]; decide) (by rw [hs, d1]) (fun i hi => by
    rw [h0 i hi]
    exact .inl ⟨h.opt.1, h.opt.2.1⟩) 1 0 (by norm_num)
  have hz : Flt.eq (0 : ℝ) Flt.zero = true := by simp [Flt.eq, Flt.zero]
  have hP : ∀ i, i < net.size → (S i).Plain := fun i hi => by
    rw [h0 i hi]
    exact ⟨h.opt.1, by rw [h.opt.2.2.1]; exact hz, by rw [h.opt.2.1]; exact hz⟩
  obtain ⟨e, w1, g, -, net1, S1, t1, sh, -, -, hfr⟩ := wp_iff.1 hfz
  have hN : SameNet net net1 := ⟨sh.size, fun _ _ => by rw [sh.dim], h.task.isNet.ins, h.task.isNet.outs, fun i hi => by
    rw [hfr i hi]; exact SameLayer.refl _⟩
  have hd : ∀ i, i < net.size → (net.L i).kind ≠ .dropout := fun i hi => by rw [h0 i hi, h.kind]; decide
  obtain ⟨w2, net2, S2, g2, -, t⟩ := (Turns.start hT hd fun i hi => ⟨(hP i hi).1, (hP i hi).2.1⟩).call X Y 1 0 (by norm_num)
  obtain rfl : w1 = w2 := by rw [g] at g2; injection g2 with g2; injection g2
  exact ⟨w, w1, m, net, net2, op, S, S2, X, Y, _, _, hT, hd, hP, g2, t.trains.task, hN.trans (t1.isNet.content_unique t.trains.task.isNet t1.pos),
    fun i hi => ⟨⟨(hP i hi).1, (hP i hi).2.1⟩, t.steady i (by rw [t.shape.size]; exact hi), t.lr i, t.momentum i,
      fun e => absurd (hP i hi).2.2 (by rw [e]; decide), fun e => absurd (hP i hi).2.2 (by rw [e]; decide)⟩⟩

end NN
