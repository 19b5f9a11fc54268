import Verif.Spec.Session
import Verif.Props.C107
/-
C137: whole programs.  Whatever sequence of calls a program makes on a finished model, every call does what it does alone; and the calls
that only look at the model could as well have been left out.
-/

set_option linter.unusedSectionVars false

namespace NN
open NN.Go

variable {α : Type} [Flt α]

/-! ### One run -/

theorem weightsBefore_eq (net : Net α) (q : Nat) : weightsBefore net q = initDraws net q := by
  induction q with
  | zero => rfl
  | succ q ih =>
    unfold weightsBefore at ih ⊢
    rw [List.range_succ, List.map_append, List.sum_append, ih]
    simp [initDraws]

theorem IsData.step {w w' : World α} {m : Model α} {net net' : Net α} {f : Foot} {X : Mat} {r c : Nat} {A : Nat → Nat → α}
    (h : IsData w net X r c A) (hN : IsNet w m net) (hf : Frame f w w') (ho : ∀ a, ¬ f.outs a) (hp : ∀ a, f.flt a → w.IsNetParam net a)
    (hs : SameShape net net') : IsData w' net' X r c A :=
  ⟨h.mat.frame hf (ho _) fun a h1 h2 => h.sep a (hp a h2) h1, h.cap, fun a h1 h2 =>
    h.sep a ((hN.isParam hf ho a).1 ((hs.isParam w' a).1 h1)) ((h.mat.isRow_frame hf (ho _) a).1 h2)⟩

/-- The conditions on the state under which programs run. -/
structure Workable (w : World α) (m : Model α) (net : Net α) (op : Nat → Nat) (S : Nat → OptSpec α) (loss : Loss) (D : Nat → Mat × Mat)
    (d : Nat → DataSet α) (N : Nat) : Prop where
  task : IsTask w m net op S
  noSig : ∀ k, k < net.size → (net.L k).kind ≠ .sigmoid
  isLoss : m.loss = some loss
  lossSize : loss.size = net.dim net.size
  big : net.dim net.size ≤ 2 ^ 53
  acc : m.accType = 0 ∨ m.accType = 1 ∨ m.accType = 2
  logger : w.logger = true
  xs : ∀ t, t < N → IsData w net (D t).1 (d t).rows (net.dim 0) (d t).X
  ys : ∀ t, t < N → IsData w net (D t).2 (d t).rows (net.dim net.size) (d t).Y

/-- After a call. -/
structure CallRun (w w' : World α) (m : Model α) (op : Nat → Nat) (loss : Loss) (D : Nat → Mat × Mat) (d : Nat → DataSet α) (N : Nat)
    (s s' : Situation α) (lines : List (LogEvent α)) : Prop where
  work : Workable w' m s'.net op s'.S loss D d N
  shape : SameShape s.net s'.net
  upos : s'.upos = w'.unifPos
  npos : s'.npos = w'.normPos
  log : w'.log = w.log ++ lines
  unif : w'.unif = w.unif
  norm : w'.norm = w.norm
  /-- Matrices that are stored apart from the parameters keep their entries, and stay apart. -/
  keeps : ∀ X r c A, IsData w s.net X r c A → IsData w' s'.net X r c A

variable {w : World α} {m : Model α} {op : Nat → Nat} {loss : Loss} {D : Nat → Mat × Mat} {d : Nat → DataSet α} {N : Nat} {s : Situation α}

theorem Workable.run (h : Workable w m s.net op s.S loss D d N) {w' : World α} {s' : Situation α} {f : Foot} {lines : List (LogEvent α)}
    (hf : Frame f w w') (ho : ∀ a, ¬ f.outs a) (hp : ∀ a, f.flt a → w.IsNetParam s.net a) (hsh : SameShape s.net s'.net)
    (hT : IsTask w' m s'.net op s'.S) (hu : s'.upos = w'.unifPos) (hn : s'.npos = w'.normPos) (hl : w'.log = w.log ++ lines) :
    CallRun w w' m op loss D d N s s' lines := by
  have keeps : ∀ X r c A, IsData w s.net X r c A → IsData w' s'.net X r c A := fun X r c A hX => hX.step h.task.isNet hf ho hp hsh
  refine ⟨⟨hT, fun k hk => ?_, h.isLoss, ?_, ?_, h.acc, hf.logger.trans h.logger, fun t ht => ?_, fun t ht => ?_⟩, hsh, hu, hn, hl, hf.unif,
    hf.norm, keeps⟩
  · rw [hsh.kind]; exact h.noSig k (by rw [← hsh.size]; exact hk)
  · rw [hsh.dim, hsh.size]; exact h.lossSize
  · rw [hsh.dim, hsh.size]; exact h.big
  · rw [hsh.dim]; exact keeps _ _ _ _ (h.xs t ht)
  · rw [hsh.dim, hsh.size]; exact keeps _ _ _ _ (h.ys t ht)

/-- The replies hold now and cannot be changed by later calls. -/
def Reply.Lasts (w : World α) (net : Net α) : Reply α → Answer α → Prop
  | .matrix x e, .matrix r c V => e = none ∧ IsData w net x r c V
  | r, a => r.Says w a

theorem Reply.Lasts.says {net : Net α} {r : Reply α} {a : Answer α} (h : r.Lasts w net a) : r.Says w a := by
  cases r <;> cases a <;> first | exact h | exact ⟨h.1, h.2.mat⟩

theorem Reply.Lasts.step {w' : World α} {net net' : Net α} {r : Reply α} {a : Answer α} (h : r.Lasts w net a)
    (hk : ∀ X r c A, IsData w net X r c A → IsData w' net' X r c A) : r.Lasts w' net' a := by
  cases r <;> cases a <;> first | exact h | exact ⟨h.1, hk _ _ _ _ h.2⟩

/-- After a call that only looks at the model. -/
theorem Workable.look (h : Workable w m s.net op s.S loss D d N) (hu : s.upos = w.unifPos) (hn : s.npos = w.normPos) {w' : World α}
    (hf : Frame s.net.foot w w') (hs : Static w w') : CallRun w w' m op loss D d N s s [] :=
  h.run hf (fun _ h => h) (fun _ h => h.elim) (SameShape.refl _)
    (h.task.frame hf hs (fun _ h => h) (fun _ h => h) (fun _ _ h => h) fun _ _ _ _ h => h)
    (hu.trans (hf.unifPos fun h => h).symm) (hn.trans (hf.normPos fun h => h).symm) (by rw [hf.log fun h => h, List.append_nil])

/-- One call. -/
theorem call_run [FltInt α] (h : Workable w m s.net op s.S loss D d N) (hu : s.upos = w.unifPos) (hn : s.npos = w.normPos) (c : Op)
    (hc : c.Uses N d) :
    wp (c.run m D) w fun r w' => ∃ a s' lines, c.Does m loss.kind w.unif w.norm d s a s' lines ∧ CallRun w w' m op loss D d N s s' lines ∧
      r.Lasts w' s'.net a := by
  have hT := h.task
  cases c with
  | fit t epochs b v k =>
    obtain ⟨ht, hb, hv⟩ := hc
    unfold Op.run
    refine wp_bind_mono (C82_fit w m s.net op s.S hT h.noSig loss h.isLoss h.lossSize h.big h.acc h.logger (D t).1 (D t).2 _ _ (d t) (v.map d)
      (h.xs t ht) (h.ys t ht) ?_ epochs k b hb) ?_
    · cases v with
      | none => rfl
      | some q =>
        have hq := hv q rfl
        exact ⟨(h.xs q hq).mat, (h.ys q hq).mat, fun a ha => ⟨(h.xs q hq).sep a ha, (h.ys q hq).sep a ha⟩⟩
    · rintro e w1 ⟨rfl, net', S', lines, hE, hlog, hT1, hsh, -, -, hf⟩
      refine wp_pure.2 ⟨.done, ⟨net', S', w1.unifPos, w1.normPos⟩, lines, ⟨rfl, ?_, ?_⟩, h.run hf (fun _ h => h) (fun _ h => h) hsh hT1 rfl rfl hlog,
        rfl⟩
      · rw [hn]; exact hf.normPos fun h => h
      · rw [hu]; exact hE
  | predict t =>
    unfold Op.run
    refine wp_bind_mono (predict_spec hT.isNet hT.pos (h.xs t hc).mat) ?_
    rintro ⟨x, e⟩ w1 ⟨hf, hst, h1, -⟩
    obtain ⟨he, hF⟩ := h1 h.acc
    dsimp only at he hF
    subst he
    have hrun := h.look hu hn hf hst
    refine wp_pure.2 ⟨_, s, [], ⟨rfl, rfl, rfl⟩, hrun, ?_⟩
    have hd : IsData w1 s.net x (d t).rows (if m.accType = 1 then 1 else s.net.dim s.net.size)
        (decoded m.accType (s.net.dim s.net.size) (netOut s.net (d t).X s.net.size)) := by
      refine ⟨hF.mat, by rw [hF.cap], fun a h1 h2 => ?_⟩
      have h3 := hF.fresh a h2
      obtain ⟨i, hi, ha⟩ := (hT.isNet.isParam hf (fun _ h => h) a).1 h1
      have : a < w.next := by
        rcases ha with ha | ha
        · exact (hT.isNet.lay i hi).wmat.isRow_lt ha
        · exact (hT.isNet.lay i hi).bmat.isRow_lt ha
      omega
    unfold answerOf
    by_cases t0 : m.accType = 0
    · rw [if_pos t0]
      rw [if_neg (by omega)] at hd
      refine ⟨rfl, hd.mat.congr fun i j _ _ => ?_, hd.cap, hd.sep⟩
      unfold decoded
      rw [if_pos t0]
    · rw [if_neg t0]
      by_cases t1 : m.accType = 1
      · rw [if_pos t1]
        rw [if_pos t1] at hd
        refine ⟨rfl, hd.mat.congr fun i j _ _ => ?_, hd.cap, hd.sep⟩
        unfold decoded
        rw [if_neg t0, if_pos t1, (scanMax_bestCol _ _).1]
      · rw [if_neg t1]
        rw [if_neg t1] at hd
        refine ⟨rfl, hd.mat.congr fun i j _ _ => ?_, hd.cap, hd.sep⟩
        unfold decoded
        rw [if_neg t0, if_neg t1]
  | loss t =>
    unfold Op.run
    refine wp_bind_mono (C81_loss w m s.net hT.isNet hT.pos loss h.isLoss h.lossSize _ _ (d t) (h.xs t hc).mat (h.ys t hc).mat) ?_
    rintro p w1 ⟨rfl, hf, hst⟩
    exact wp_pure.2 ⟨_, s, [], ⟨rfl, rfl, rfl⟩, h.look hu hn hf hst, rfl, rfl⟩
  | accuracy t =>
    unfold Op.run
    refine wp_bind_mono (C81_accuracy w m s.net hT.isNet hT.pos h.big _ _ (d t) (h.xs t hc).mat (h.ys t hc).mat) ?_
    rintro p w1 ⟨h1, -, hf, hst⟩
    rw [h1 h.acc]
    exact wp_pure.2 ⟨_, s, [], ⟨rfl, rfl, rfl⟩, h.look hu hn hf hst, rfl, rfl⟩
  | init =>
    unfold Op.run
    refine wp_bind_mono (initLayers_spec hT.isNet hT.own) ?_
    intro _ w1 hI
    have hsh := initNet_same s.net (fun q => w.norm (w.normPos + q)) s.net.size
    have hpar : ∀ a, (∃ q, q < s.net.size ∧ w.IsRow (s.net.wm q) (s.net.L q).n a) → w.IsNetParam s.net a := by
      rintro a ⟨q, hq, ha⟩
      exact ⟨q, hq, .inl ha⟩
    have hT1 : IsTask w1 m (initNet s.net (fun q => w.norm (w.normPos + q)) s.net.size) op s.S := by
      refine ⟨hI.isNet, hI.own, hT.pos, hT.optims, fun i hi => ?_, hT.inj, fun i a hi h1 h2 => ?_⟩
      · rw [initNet_n, initNet_o]
        exact (hT.opt i hi).frame hI.frame (fun h => h) (fun _ h => h) fun a h1 h2 => hT.sep i a hi h1 (hpar a h2)
      · rw [initNet_n] at h1
        exact hT.sep i a hi (((hT.opt i hi).optRow_frame hI.frame (fun h => h) (fun _ h => h) a).1 h1)
          ((hT.isNet.isParam hI.frame (fun _ h => h) a).1 ((hsh.isParam w1 a).1 h2))
    refine wp_pure.2 ⟨.done, ⟨initNet s.net (fun q => w.norm (w.normPos + q)) s.net.size, s.S, w1.unifPos, w1.normPos⟩, [],
      ⟨rfl, rfl, rfl, ?_, ?_, hsh, fun q hq => ?_⟩,
      h.run hI.frame (fun _ h => h) hpar hsh hT1 rfl rfl (by rw [hI.frame.log fun h => h, List.append_nil]), rfl⟩
    · rw [hu]; exact hI.frame.unifPos fun h => h
    · rw [hn, weightsBefore_eq]; exact hI.pos
    · unfold initNet
      dsimp only
      rw [if_pos hq, hn, weightsBefore_eq]
      exact ⟨rfl, rfl⟩

theorem runAll_run [FltInt α] (cs : List Op) : ∀ (w : World α) (s : Situation α), Workable w m s.net op s.S loss D d N → s.upos = w.unifPos →
    s.npos = w.normPos → (∀ c ∈ cs, c.Uses N d) →
    wp (runAll m D cs) w fun rs w' => ∃ as s' lines, Session m loss.kind w.unif w.norm d cs s as s' lines ∧
      CallRun w w' m op loss D d N s s' lines ∧ List.Forall₂ (fun r a => r.Lasts w' s'.net a) rs as := by
  induction cs with
  | nil =>
    intro w s h hu hn _
    exact wp_pure.2 ⟨[], s, [], .nil, ⟨h, SameShape.refl _, hu, hn, (List.append_nil _).symm, rfl, rfl, fun _ _ _ _ h => h⟩, .nil⟩
  | cons c cs ih =>
    intro w s h hu hn hc
    unfold runAll
    refine wp_bind_mono (call_run h hu hn c (hc c List.mem_cons_self)) ?_
    rintro r w1 ⟨a, s1, ls, hdo, hrun, hr⟩
    refine wp_bind_mono (ih w1 s1 hrun.work hrun.upos hrun.npos fun c' hc' => hc c' (List.mem_cons_of_mem _ hc')) ?_
    rintro rs w2 ⟨as, s2, ls', hses, hrun2, hrs⟩
    rw [hrun.unif, hrun.norm] at hses
    exact wp_pure.2 ⟨a :: as, s2, ls ++ ls', .cons hdo hses, ⟨hrun2.work, hrun.shape.trans hrun2.shape, hrun2.upos, hrun2.npos,
      by rw [hrun2.log, hrun.log, List.append_assoc], hrun2.unif.trans hrun.unif, hrun2.norm.trans hrun.norm,
      fun X r c A hX => hrun2.keeps X r c A (hrun.keeps X r c A hX)⟩, .cons (hr.step hrun2.keeps) hrs⟩

/-- C137: for every program, i.e. every sequence of calls of Fit (with every number of epochs, batch size, validation data and logging),
Predict, CalculateLoss, CalculateAccuracy and InitLayers on a finished model without sigmoid layers: no call panics or reports an error; each
does what its specification says, starting from the situation the calls before have left; the log gets exactly the lines of the calls of
Fit; the data sets still have their contents afterwards; and so do ALL matrices that the calls of Predict have returned. -/
theorem C137_session [FltInt α] (w : World α) (m : Model α) (net : Net α) (op : Nat → Nat) (S : Nat → OptSpec α)
    (hT : IsTask w m net op S) (hns : ∀ k, k < net.size → (net.L k).kind ≠ .sigmoid) (loss : Loss) (hl : m.loss = some loss)
    (hls : loss.size = net.dim net.size) (hdim : net.dim net.size ≤ 2 ^ 53) (ht : m.accType = 0 ∨ m.accType = 1 ∨ m.accType = 2)
    (hlog : w.logger = true) (D : Nat → Mat × Mat) (d : Nat → DataSet α) (N : Nat)
    (hX : ∀ t, t < N → IsData w net (D t).1 (d t).rows (net.dim 0) (d t).X)
    (hY : ∀ t, t < N → IsData w net (D t).2 (d t).rows (net.dim net.size) (d t).Y) (cs : List Op) (hcs : ∀ c ∈ cs, c.Uses N d) :
    wp (runAll m D cs) w fun rs w' => ∃ as s' lines,
      Session m loss.kind w.unif w.norm d cs ⟨net, S, w.unifPos, w.normPos⟩ as s' lines ∧ List.Forall₂ (Reply.Says w') rs as ∧
      w'.log = w.log ++ lines ∧ w'.unifPos = s'.upos ∧ w'.normPos = s'.npos ∧ IsTask w' m s'.net op s'.S ∧ SameShape net s'.net ∧
      (∀ t, t < N → IsMat w' (D t).1 (d t).rows (net.dim 0) (d t).X) ∧
      ∀ t, t < N → IsMat w' (D t).2 (d t).rows (net.dim net.size) (d t).Y := by
  refine wp_mono (runAll_run (m := m) (op := op) (loss := loss) (D := D) (d := d) (N := N) cs w ⟨net, S, w.unifPos, w.normPos⟩
    ⟨hT, hns, hl, hls, hdim, ht, hlog, hX, hY⟩ rfl rfl hcs) ?_
  rintro rs w' ⟨as, s', lines, hses, hrun, hrs⟩
  exact ⟨as, s', lines, hses, hrs.imp fun _ _ h => h.says, hrun.log, hrun.upos.symm, hrun.npos.symm, hrun.work.task, hrun.shape,
    fun t ht => (hrun.keeps _ _ _ _ (hX t ht)).mat, fun t ht => (hrun.keeps _ _ _ _ (hY t ht)).mat⟩

/-! ### Two runs -/

theorem netOut_sameNet {net net' : Net α} (h : SameNet net net') (X : Nat → Nat → α) (k : Nat) (hk : k ≤ net.size) :
    ∀ i j, j < net.dim k → netOut net' X k i j = netOut net X k i j := by
  induction k with
  | zero => exact fun _ _ _ => rfl
  | succ k ih =>
    intro i j hj
    rw [← h.outs k hk] at hj
    refine inferRow_same (r := i + 1) (h.layer k hk) (fun i q _ hq => ih (by omega) i q ?_) i j (by omega) hj
    rw [← h.ins k hk]; exact hq

theorem netLoss_sameNet {net net' : Net α} (h : SameNet net net') (l : LossKind) (d : DataSet α) : netLoss net' l d = netLoss net l d := by
  unfold netLoss
  rw [h.dim _ (h.size.le), h.size]
  exact lossOf_congr l fun i j hj => netOut_sameNet h d.X _ le_rfl i j hj

theorem netAcc_sameNet {net net' : Net α} (h : SameNet net net') (t : Int) (prec : α) (d : DataSet α) :
    netAcc net' t prec d = netAcc net t prec d := by
  unfold netAcc
  rw [h.dim _ (h.size.le), h.size]
  exact accOf_congr t prec fun i j hj => netOut_sameNet h d.X _ le_rfl i j hj

theorem epochLines_sameNet {net net' : Net α} (h : SameNet net net') (l : LossKind) (t : Int) (prec : α) (train : DataSet α)
    (val : Option (DataSet α)) (k : Int) (e : Nat) : epochLines net' l t prec train val k e = epochLines net l t prec train val k e := by
  unfold epochLines
  rw [netLoss_sameNet h, netAcc_sameNet h]
  cases val with
  | none => rfl
  | some v => dsimp only; rw [netLoss_sameNet h, netAcc_sameNet h]

/-- Two calls of Fit that start in the same situation. -/
theorem epochs_same {m : Model α} {l : LossKind} {u : Nat → α} {train : DataSet α} {val : Option (DataSet α)} {k : Int} {b : Nat}
    (hr : 0 < train.rows) {net net' : Net α} {S S' : Nat → OptSpec α} {p : Nat} (h : SameRun net net' S S') (h0 : 0 < net.size) (e : Nat) :
    ∀ {net1 net1' : Net α} {S1 S1' : Nat → OptSpec α} {p1 p1' : Nat} {ls ls' : List (LogEvent α)},
      Epochs m l u train val k b net S p e net1 S1 p1 ls → Epochs m l u train val k b net' S' p e net1' S1' p1' ls' →
      SameRun net1 net1' S1 S1' ∧ net1.size = net.size ∧ p1' = p1 ∧ ls' = ls := by
  induction e with
  | zero =>
    intro net1 net1' S1 S1' p1 p1' ls ls' h1 h2
    cases h1
    cases h2
    exact ⟨h, rfl, rfl, rfl⟩
  | succ e ih =>
    intro net1 net1' S1 S1' p1 p1' ls ls' h1 h2
    cases h1 with
    | next a1 b1 =>
    cases h2 with
    | next a2 b2 =>
    obtain ⟨i1, i2, rfl, rfl⟩ := ih a1 a2
    obtain ⟨j1, j2, -, q, rfl, rfl⟩ := descent_same rfl (fun _ => rfl) i1 (by omega) (Agree.refl _ _ _) (Agree.refl _ _ _) _
      (fun p hp => (blocks_mem hr hp).2.1) b1 b2
    exact ⟨j1, j2.trans i2, rfl, by rw [epochLines_sameNet j1.layers]⟩

/-- Situations with the same content. -/
structure SameSituation (s s' : Situation α) : Prop where
  run : SameRun s.net s'.net s.S s'.S
  upos : s'.upos = s.upos
  npos : s'.npos = s.npos

theorem weightsBefore_same {net net' : Net α} (h : SameNet net net') (q : Nat) (hq : q ≤ net.size) :
    weightsBefore net' q = weightsBefore net q := by
  unfold weightsBefore
  congr 1
  refine List.map_congr_left fun i hi => ?_
  have := h.layer i (by have := List.mem_range.1 hi; omega)
  rw [this.n, this.o]

theorem does_same {m : Model α} {l : LossKind} {u nrm : Nat → α} {d : Nat → DataSet α} (hd : ∀ t, t < N → 0 < (d t).rows) {c : Op}
    (hc : c.Uses N d) {s s' s1 s1' : Situation α} {a a' : Answer α} {ls ls' : List (LogEvent α)} (h : SameSituation s s') (h0 : 0 < s.net.size)
    (h1 : c.Does m l u nrm d s a s1 ls) (h2 : c.Does m l u nrm d s' a' s1' ls') :
    SameSituation s1 s1' ∧ SameAnswer a a' ∧ ls' = ls ∧ s1.net.size = s.net.size := by
  have hN := h.run.layers
  have hout : ∀ (X : Nat → Nat → α) (i j : Nat), j < s.net.dim s.net.size →
      netOut s'.net X s'.net.size i j = netOut s.net X s.net.size i j := fun X i j hj => by
    rw [hN.size]; exact netOut_sameNet hN X _ le_rfl i j hj
  have hdim : s'.net.dim s'.net.size = s.net.dim s.net.size := by rw [hN.dim _ hN.size.le, hN.size]
  cases c with
  | fit t epochs b v k =>
    obtain ⟨rfl, n1, e1⟩ := h1
    obtain ⟨rfl, n2, e2⟩ := h2
    rw [h.upos] at e2
    obtain ⟨i1, i2, i3, i4⟩ := epochs_same (hd t hc.1) h.run h0 _ e1 e2
    exact ⟨⟨i1, i3, by rw [n1, n2, h.npos]⟩, trivial, i4, i2⟩
  | predict t =>
    obtain ⟨rfl, rfl, rfl⟩ := h1
    obtain ⟨rfl, rfl, rfl⟩ := h2
    refine ⟨h, ?_, rfl, rfl⟩
    rw [hdim]
    unfold answerOf
    split
    · exact ⟨rfl, rfl, fun i j _ hj => hout _ i j hj⟩
    · split
      · refine ⟨rfl, rfl, fun i j _ _ => ?_⟩
        dsimp only
        rw [bestCol_congr _ fun q hq => hout (d t).X i q hq]
      · refine ⟨rfl, rfl, fun i j _ hj => ?_⟩
        dsimp only
        rw [hout _ i j hj]
  | loss t =>
    obtain ⟨rfl, rfl, rfl⟩ := h1
    obtain ⟨rfl, rfl, rfl⟩ := h2
    exact ⟨h, netLoss_sameNet hN _ _, rfl, rfl⟩
  | accuracy t =>
    obtain ⟨rfl, rfl, rfl⟩ := h1
    obtain ⟨rfl, rfl, rfl⟩ := h2
    exact ⟨h, netAcc_sameNet hN _ _ _, rfl, rfl⟩
  | init =>
    obtain ⟨rfl, rfl, s2, u1, n1, sh1, L1⟩ := h1
    obtain ⟨rfl, rfl, s3, u2, n2, sh2, L2⟩ := h2
    refine ⟨⟨⟨⟨?_, fun k hk => ?_, fun k hk => ?_, fun k hk => ?_, fun k hk => ?_⟩, fun k hk => ?_⟩, ?_, ?_⟩, trivial, rfl, sh1.size⟩
    · rw [sh1.size, sh2.size]; exact hN.size
    · rw [sh1.size] at hk; rw [sh1.dim, sh2.dim]; exact hN.dim k hk
    · rw [sh1.size] at hk; rw [sh1.dim, sh1.n]; exact hN.ins k hk
    · rw [sh1.size] at hk; rw [sh1.dim, sh1.o]; exact hN.outs k hk
    · rw [sh1.size] at hk
      have hk' : k < s'.net.size := by rw [hN.size]; exact hk
      have hl := hN.layer k hk
      obtain ⟨b1, W1⟩ := L1 k hk
      obtain ⟨b2, W2⟩ := L2 k hk'
      obtain ⟨Wa, ba, ea⟩ := sh1.layer k
      obtain ⟨Wb, bb, eb⟩ := sh2.layer k
      have e1 : (s1.net.L k).n = (s.net.L k).n := sh1.n k
      have e2 : (s1.net.L k).o = (s.net.L k).o := sh1.o k
      refine ⟨by rw [ea, eb]; exact hl.kind, by rw [ea, eb]; exact hl.n, by rw [ea, eb]; exact hl.o, by rw [ea, eb]; exact hl.slope,
        by rw [ea, eb]; exact hl.dropout, fun i j _ _ => ?_, fun j hj => ?_⟩
      · rw [W1, W2]
        dsimp only
        rw [h.npos, weightsBefore_same hN k hk.le, hl.o, hl.n]
      · rw [b1, b2]
        exact hl.b j (by rw [← e2]; exact hj)
    · rw [sh1.size] at hk
      rw [sh1.n, sh1.o, s2, s3]
      exact h.run.opt k hk
    · rw [u1, u2, h.upos]
    · rw [n1, n2, h.npos, hN.size, weightsBefore_same hN _ le_rfl]

theorem session_fewer {m : Model α} {l : LossKind} {u nrm : Nat → α} {d : Nat → DataSet α} (hd : ∀ t, t < N → 0 < (d t).rows)
    {cs cs' : List Op} (hf : Fewer cs cs') : ∀ {s s' s1 s1' : Situation α} {as as' : List (Answer α)} {ls ls' : List (LogEvent α)},
    (∀ c ∈ cs, c.Uses N d) → SameSituation s s' → 0 < s.net.size → Session m l u nrm d cs s as s1 ls →
    Session m l u nrm d cs' s' as' s1' ls' → SameSituation s1 s1' ∧ SameAnswers cs cs' as as' ∧ ls' = ls := by
  induction hf with
  | nil =>
    intro s s' s1 s1' as as' ls ls' _ h _ h1 h2
    cases h1
    cases h2
    exact ⟨h, .nil, rfl⟩
  | keep hf ih =>
    intro s s' s1 s1' as as' ls ls' hc h h0 h1 h2
    cases h1 with
    | cons a1 b1 =>
    cases h2 with
    | cons a2 b2 =>
    obtain ⟨i1, i2, rfl, i4⟩ := does_same hd (hc _ List.mem_cons_self) h h0 a1 a2
    obtain ⟨j1, j2, rfl⟩ := ih (fun c' hc' => hc c' (List.mem_cons_of_mem _ hc')) i1 (by omega) b1 b2
    exact ⟨j1, .keep i2 j2, rfl⟩
  | @drop c cs cs' hr hf ih =>
    intro s s' s1 s1' as as' ls ls' hc h h0 h1 h2
    cases h1 with
    | @cons _ _ _ sA _ _ _ lsA _ a1 b1 =>
    have e : sA = s ∧ lsA = [] := by
      cases c with
      | fit => cases hr
      | init => cases hr
      | predict t => exact ⟨a1.1, a1.2.1⟩
      | loss t => exact ⟨a1.1, a1.2.1⟩
      | accuracy t => exact ⟨a1.1, a1.2.1⟩
    obtain ⟨rfl, rfl⟩ := e
    obtain ⟨j1, j2, rfl⟩ := ih (fun c' hc' => hc c' (List.mem_cons_of_mem _ hc')) h h0 b1 h2
    exact ⟨j1, .drop hr j2, rfl⟩

theorem Fewer.mem {cs cs' : List Op} (h : Fewer cs cs') : ∀ c ∈ cs', c ∈ cs := by
  induction h with
  | nil => exact fun _ h => h
  | keep _ ih =>
    intro c hc
    rcases List.mem_cons.1 hc with rfl | hc
    · exact List.mem_cons_self
    · exact List.mem_cons_of_mem _ (ih c hc)
  | drop _ _ ih => exact fun c hc => List.mem_cons_of_mem _ (ih c hc)

/-- C137: looking at a model does not influence it.  If some calls of Predict, CalculateLoss and CalculateAccuracy are left out of a program,
the other calls get the same answers, the log gets the same lines, and the program ends with the same parameters, the same optimizer states and
the same positions in both random sources. -/
theorem C137_looking [FltInt α] (w : World α) (m : Model α) (net : Net α) (op : Nat → Nat) (S : Nat → OptSpec α)
    (hT : IsTask w m net op S) (hns : ∀ k, k < net.size → (net.L k).kind ≠ .sigmoid) (loss : Loss) (hl : m.loss = some loss)
    (hls : loss.size = net.dim net.size) (hdim : net.dim net.size ≤ 2 ^ 53) (ht : m.accType = 0 ∨ m.accType = 1 ∨ m.accType = 2)
    (hlog : w.logger = true) (D : Nat → Mat × Mat) (d : Nat → DataSet α) (N : Nat)
    (hX : ∀ t, t < N → IsData w net (D t).1 (d t).rows (net.dim 0) (d t).X)
    (hY : ∀ t, t < N → IsData w net (D t).2 (d t).rows (net.dim net.size) (d t).Y) (cs cs' : List Op) (hcs : ∀ c ∈ cs, c.Uses N d)
    (hfew : Fewer cs cs') :
    wp (runAll m D cs) w fun rs w1 => wp (runAll m D cs') w fun rs' w1' =>
      (∃ as as', List.Forall₂ (Reply.Says w1) rs as ∧ List.Forall₂ (Reply.Says w1') rs' as' ∧ SameAnswers cs cs' as as') ∧
      w1'.log = w1.log ∧ w1'.unifPos = w1.unifPos ∧ w1'.normPos = w1.normPos ∧
      ∃ net1 net1' S1 S1', IsTask w1 m net1 op S1 ∧ IsTask w1' m net1' op S1' ∧ SameNet net1 net1' ∧
        ∀ i, i < net.size → OptLike (net.L i).n (net.L i).o (S1 i) (S1' i) := by
  refine wp_mono (C137_session w m net op S hT hns loss hl hls hdim ht hlog D d N hX hY cs hcs) ?_
  rintro rs w1 ⟨as, s1, ls, hs1, hr1, hl1, hu1, hn1, t1, sh1, -⟩
  refine wp_mono (C137_session w m net op S hT hns loss hl hls hdim ht hlog D d N hX hY cs' fun c hc => hcs c (hfew.mem c hc)) ?_
  rintro rs' w1' ⟨as', s1', ls', hs1', hr1', hl1', hu1', hn1', t1', sh1', -⟩
  have hself : SameRun net net S S := ⟨⟨rfl, fun _ _ => rfl, hT.isNet.ins, hT.isNet.outs, fun _ _ => SameLayer.refl _⟩, fun i _ =>
    .inl ⟨rfl, rfl, rfl, fun _ => rfl, fun _ => rfl, fun _ => rfl, fun _ => rfl, rfl, Agree.refl _ _ _, Agree.refl _ _ _, Agree.refl _ _ _,
      Agree.refl _ _ _⟩⟩
  obtain ⟨h1, h2, rfl⟩ := session_fewer (fun t ht => (hX t ht).mat.rpos) hfew hcs ⟨hself, rfl, rfl⟩ hT.pos hs1 hs1'
  refine ⟨⟨as, as', hr1, hr1', h2⟩, by rw [hl1, hl1'], by rw [hu1, hu1', h1.upos], by rw [hn1, hn1', h1.npos], s1.net, s1'.net, s1.S, s1'.S,
    t1, t1', h1.run.layers, fun i hi => ?_⟩
  have := h1.run.opt i (by rw [sh1.size]; exact hi)
  rw [sh1.n, sh1.o] at this
  exact this

/-- Three layers, Adam, two data sets, and a program of nine calls of which five only look at the model: the hypotheses of C137_session and
C137_looking. -/
example : ∃ (w : World ℝ) (m : Model ℝ) (net : Net ℝ) (op : Nat → Nat) (S : Nat → OptSpec ℝ) (D : Nat → Mat × Mat) (d : Nat → DataSet ℝ)
    (cs cs' : List Op),
    IsTask w m net op S ∧ net.size = 3 ∧ m.loss = some ⟨.mse, net.dim net.size⟩ ∧ net.dim net.size ≤ 2 ^ 53 ∧ m.accType = 0 ∧
    (∀ k, (net.L k).kind ≠ .sigmoid) ∧ w.logger = true ∧ (∀ t, t < 2 → IsData w net (D t).1 (d t).rows (net.dim 0) (d t).X) ∧
    (∀ t, t < 2 → IsData w net (D t).2 (d t).rows (net.dim net.size) (d t).Y) ∧ (∀ c ∈ cs, c.Uses 2 d) ∧ Fewer cs cs' ∧
    cs.length = 9 ∧ cs'.length = 4 := by
  obtain ⟨o, ho⟩ := adam_ok_real (lr := 1 / 1000) (decay := 0) (by norm_num) le_rfl (1 / 10 ^ 7) (9 / 10) (999 / 1000)
  have hrows : o.weightMomentums.rows = 0 := by rw [newAdam_ok ho]; rfl
  obtain ⟨w, net, op, XM, YM, xM, yM, hf, hs, hL, hdim, hT, dX, dY, dx, dy⟩ := exists_task (emptyWorld : World ℝ) 3 (by decide)
    demoT demoT_pos demoT_chain { newModel with loss := some ⟨.mse, 5⟩, accType := 0 } o (OptSpec.fresh o) hrows
    (fun w p i hlt e => e ▸ isOpt_newAdam _ _ _ _ hlt (e.symm ▸ ho)) (r := 5) (r' := 2) (by decide) (by decide)
    (fun i j => (i : ℝ) + j) (fun i j => (i : ℝ) - j) (fun i _ => (i : ℝ)) (fun _ j => (j : ℝ))
  have d0 : net.dim 0 = (demoT 0 : LayerSpec ℝ).n := by rw [hdim]
  have d1 : net.dim net.size = (demoT 3 : LayerSpec ℝ).n := by rw [hdim, hs]
  refine ⟨w, _, net, op, _, fun t => if t = 0 then (XM, YM) else (xM, yM), fun t => if t = 0 then ⟨5, fun i j => (i : ℝ) + j, fun i j => (i : ℝ) - j⟩ else
      ⟨2, fun i _ => (i : ℝ), fun _ j => (j : ℝ)⟩,
    [.init, .predict 0, .fit 0 10 2 (some 1) 3, .loss 1, .accuracy 1, .fit 1 4 0 none 0, .predict 1, .init, .loss 0],
    [.init, .fit 0 10 2 (some 1) 3, .fit 1 4 0 none 0, .init], hT, hs, ?_, ?_, rfl, ?_, hf.logger, ?_, ?_, ?_, ?_, rfl, rfl⟩
  · rw [d1]; rfl
  · rw [d1]; show 5 ≤ 2 ^ 53; decide
  · rw [hL]; exact demoT_kind
  · intro t ht
    by_cases h : t = 0
    · simp only [if_pos h]; exact d0 ▸ dX
    · simp only [if_neg h]; exact d0 ▸ dx
  · intro t ht
    by_cases h : t = 0
    · simp only [if_pos h]; exact d1 ▸ dY
    · simp only [if_neg h]; exact d1 ▸ dy
  · simp [Op.Uses]
  · exact .keep (.drop rfl (.keep (.drop rfl (.drop rfl (.keep (.drop rfl (.keep (.drop rfl .nil))))))))

end NN
