import Verif.Lemmas.ConcFitSafe
import Verif.Lemmas.ConcFit
import Verif.Props.C124
import Verif.Props.C76
import Verif.Props.C100
/-
C139: several goroutines that call Fit at the same time, each on its own model, do not disturb each other, whatever the schedule, even if they train on
the same data.  (model.go:172-301; network.go; optimizers.go.)
-/

set_option linter.unusedSectionVars false

namespace NN
variable {α : Type} [Flt α]

/-- A call of Fit. -/
structure PoolFit (α : Type) where
  m : Model α
  X : Mat
  Y : Mat
  epochs : Int
  batch : Int
  xVal : Mat
  yVal : Mat
  logEvery : Int

/-- The call as a function of the sequential model (model.go:214-301). -/
def PoolFit.go (c : PoolFit α) : Go α (Option Err) := fit c.m c.X c.Y c.epochs c.batch c.xVal c.yVal c.logEvery

/-- The call as a program of single accesses. -/
def PoolFit.prog (c : PoolFit α) : Prog α (Option Err) := fitP c.m c.X c.Y c.epochs c.batch c.xVal c.yVal c.logEvery

/-- The program of single accesses, run alone, is the function of the sequential model. -/
theorem C139_same (c : PoolFit α) : c.prog.run = c.go := run_fitP _ _ _ _ _ _ _ _

/-- The memory of the matrix (up to the capacity of its row table) exists, and no row of it is a parameter of a model other than model i. -/
structure Usable (w : World α) (net : Nat → Net α) (n i : Nat) (x : Mat) : Prop where
  tab : x.m.len ≠ 0 ∨ x.m.cap ≠ 0 → x.m.addr < w.next
  row : ∀ k a, k < x.m.len ∨ k < x.m.cap → w.rowAddr x k = some a → a < w.next ∧ ∀ j, j < n → j ≠ i → ¬ w.IsNetParam (net j) a

/-- n calls of Fit on separate models: no layer, optimizer or parameter of one is used by another.  The models have no dropout layer, and their first
layer is not a sigmoid layer.  The data may be shared. -/
structure Apart (w : World α) (n : Nat) (c : Nat → PoolFit α) (net : Nat → Net α) : Prop where
  model : ∀ i, i < n → IsNet w (c i).m (net i) ∧ 0 < (net i).size
  kind : ∀ i, i < n → ∀ k, k < (net i).size → ((net i).L k).kind ≠ .dropout ∧ (k = 0 → ((net i).L k).kind ≠ .sigmoid)
  data : ∀ i, i < n → ∀ x ∈ [(c i).X, (c i).Y, (c i).xVal, (c i).yVal], Usable w net n i x
  state : ∀ i, i < n → ∀ op ∈ (c i).m.optims, ∀ x ∈ [(w.opt op).weightMomentums, (w.opt op).biasMomentums, (w.opt op).weightCache, (w.opt op).biasCache],
    Usable w net n i x
  layers : ∀ i j, i < n → j < n → i ≠ j → ∀ lp ∈ (c i).m.layers, lp ∉ (c j).m.layers
  optims : ∀ i j, i < n → j < n → i ≠ j → ∀ op ∈ (c i).m.optims, op ∉ (c j).m.optims
  params : ∀ i j, i < n → j < n → i ≠ j → ∀ a, w.IsNetParam (net i) a → ¬ w.IsNetParam (net j) a

/-- n goroutines make such calls, each of which, alone, returns without a panic and finds room in the address range of its goroutine. -/
structure FitPool (w : World α) (base : Nat → Nat) (n : Nat) (c : Nat → PoolFit α) (net : Nat → Net α) : Prop where
  start : base 0 = w.next
  apart : Apart w n c net
  alone : ∀ i, i < n → ∃ e w', (c i).go (alone w base i) = .ok (e, w') ∧ w'.next ≤ base (i + 1)

/-- The memory of goroutine i: it reads what existed before except the parameters of the other models, and writes the parameters, the layers and the
optimizers of its own model and the log. -/
def fitRegion (w : World α) (base : Nat → Nat) (n : Nat) (c : Nat → PoolFit α) (net : Nat → Net α) (i : Nat) : Region where
  b := base i
  tab a := a < w.next
  rd a := a < w.next ∧ ∀ j, j < n → j ≠ i → ¬ w.IsNetParam (net j) a
  wr a := w.IsNetParam (net i) a
  rem lp := lp ∈ (c i).m.layers
  lay lp := lp ∈ (c i).m.layers
  opt op := op ∈ (c i).m.optims
  log := True

variable {w : World α} {base : Nat → Nat} {n : Nat} {c : Nat → PoolFit α} {net : Nat → Net α}

theorem Usable.mok {i : Nat} {x : Mat} (h : Usable w net n i x) (hb : w.next ≤ base i) : MOk (fitRegion w base n c net i) (alone w base i) x :=
  ⟨fun h0 => (h.tab (.inl h0)).trans_le hb, fun h0 => .inl (h.tab (.inl h0)), fun k hk a ha => .inl (h.row k a (.inl hk) ha)⟩

theorem Usable.dok {i : Nat} {x : Mat} (h : Usable w net n i x) (hb : w.next ≤ base i) : DOk (fitRegion w base n c net i) (alone w base i) x :=
  ⟨h.mok hb, fun h0 => (h.tab (.inr h0)).trans_le hb, fun h0 => .inl (h.tab (.inr h0)), fun k hk a ha => .inl (h.row k a (.inr hk) ha)⟩

theorem FitPool.le (h : FitPool w base n c net) {i : Nat} (hi : i ≤ n) : w.next ≤ base i := by
  induction i with
  | zero => exact h.start.ge
  | succ i ih =>
    obtain ⟨res, w', e, hn⟩ := h.alone i hi
    rw [← C139_same] at e
    have := run_next_le _ e
    change base i ≤ w'.next at this
    exact (ih (by omega)).trans (this.trans hn)

theorem Apart.mat (h : Apart w n c net) {i k : Nat} (hi : i < n) (hb : w.next ≤ base i) {x : Mat} {r q : Nat} {A : Nat → Nat → α}
    (hx : IsMat w x r q A) (hk : k < (net i).size) (hr : ∀ a, w.IsRow x r a → w.IsParam ((net i).wm k) ((net i).bm k) ((net i).L k).n a) :
    MOk (fitRegion w base n c net i) (alone w base i) x ∧ Own (fitRegion w base n c net i) (alone w base i) x := by
  have hp : ∀ q a, q < x.m.len → w.rowAddr x q = some a → a < w.next ∧ w.IsNetParam (net i) a := by
    intro q a hq ha
    rw [hx.len] at hq
    obtain ⟨a', h1, h2, -⟩ := hx.row q hq
    cases h1.symm.trans ha
    exact ⟨h2, k, hk, hr _ ⟨q, hq, ha⟩⟩
  have hrd : ∀ a, a < w.next ∧ w.IsNetParam (net i) a → (fitRegion w base n c net i).rd a := fun a ha =>
    ⟨ha.1, fun j hj hij => h.params i j hi hj (fun e => hij e.symm) a ha.2⟩
  exact ⟨⟨fun _ => hx.addr_lt.trans_le hb, fun _ => .inl hx.addr_lt, fun q hq a ha => .inl (hrd a (hp q a hq ha))⟩,
    fun q hq a ha => .inl ⟨hrd a (hp q a hq ha), (hp q a hq ha).2⟩⟩

theorem Apart.trainOk (h : Apart w n c net) {i : Nat} (hi : i < n) (hb : w.next ≤ base i) :
    TrainOk (fitRegion w base n c net i) (alone w base i) (c i).m := by
  obtain ⟨hN, hp⟩ := h.model i hi
  refine ⟨fun lp hlp => ?_, fun op hop => ⟨hop, ?_⟩, by rw [hN.size]; omega, fun lp hlp => ?_, trivial⟩
  · have hlp' := hlp
    rw [hN.ptrs] at hlp'
    obtain ⟨k, hk, rfl⟩ := List.mem_map.1 hlp'
    rw [List.mem_range] at hk
    have hL := hN.lay k hk
    have hw := h.mat (base := base) hi hb hL.wmat hk fun a ha => .inl ha
    have hbm := h.mat (base := base) hi hb hL.bmat hk fun a ha => .inr ha
    refine ⟨hlp, hlp, ⟨fun m e => ?_, fun m e => ?_⟩, ⟨fun m e => ?_, fun m e => ?_⟩, ?_⟩
    · cases hL.weights.symm.trans e; exact hw.1
    · cases hL.biases.symm.trans e; exact hbm.1
    · cases hL.weights.symm.trans e; exact hw.2
    · cases hL.biases.symm.trans e; exact hbm.2
    · have := (h.kind i hi k hk).1
      rwa [← hL.kind] at this
  · have hs := h.state i hi op hop
    exact ⟨(hs (w.opt op).weightMomentums (by simp)).mok hb, (hs (w.opt op).biasMomentums (by simp)).mok hb, (hs (w.opt op).weightCache (by simp)).mok hb,
      (hs (w.opt op).biasCache (by simp)).mok hb⟩
  · rw [hN.ptrs] at hlp
    have h0 : ((List.range (net i).size).map (net i).lp)[0]? = some ((net i).lp 0) := by simp [hp]
    cases h0.symm.trans hlp
    have := (h.kind i hi 0 hp).2 rfl
    rwa [← (hN.lay 0 hp).kind] at this

theorem FitPool.ok (h : FitPool w base n c net) : PoolOk w base n (fun i => (c i).prog) (fitRegion w base n c net)
    (fun i _ F => Ext (fitRegion w base n c net i) (NN.alone w base i) F) := by
  refine ⟨fun _ _ => rfl, fun _ _ _ ha => h.start ▸ ha.1, fun _ _ _ ha => h.start ▸ ha, fun i hi => ?_, fun i hi => ?_,
    fun i j hi hj hij => ⟨fun a _ h2 h3 => h3.2 i hi hij h2, fun lp => h.apart.layers i j hi hj hij lp, fun op => h.apart.optims i j hi hj hij op⟩⟩
  · obtain ⟨e, w', g, hn⟩ := h.alone i hi
    exact ⟨e, w', by rw [C139_same]; exact g, hn⟩
  · have hb := h.le hi.le
    have hd := h.apart.data i hi
    exact grd_fit le_rfl (h.apart.trainOk hi hb) ((hd _ (by simp)).dok hb) ((hd _ (by simp)).dok hb) ((hd _ (by simp)).mok hb) ((hd _ (by simp)).mok hb)

/-- In the shared memory, what model i consists of, all that its goroutine has allocated, and all old memory except the parameters of the other models, are
as in F. -/
structure SeesAs (w : World α) (base : Nat → Nat) (n : Nat) (c : Nat → PoolFit α) (net : Nat → Net α) (i : Nat) (W F : World α) : Prop where
  lay : ∀ lp ∈ (c i).m.layers, W.lay lp = F.lay lp
  opt : ∀ op ∈ (c i).m.optims, W.opt op = F.opt op
  outs : ∀ a, a < w.next ∨ (base i ≤ a ∧ a < F.next) → W.outs a = F.outs a
  flt : ∀ a, (a < w.next ∧ ∀ j, j < n → j ≠ i → ¬ w.IsNetParam (net j) a) ∨ (base i ≤ a ∧ a < F.next) → W.flt a = F.flt a

theorem AgreeOn.sees {i hi : Nat} {W F : World α} (h : AgreeOn (fitRegion w base n c net i) hi W F) (hn : F.next ≤ hi) :
    SeesAs w base n c net i W F :=
  ⟨fun lp hl => h.full lp hl, fun op ho => h.opt op ho, fun a ha => h.outs a (ha.imp_right fun h => ⟨h.1, h.2.trans_le hn⟩),
    fun a ha => h.flt a (ha.imp_right fun h => ⟨h.1, h.2.trans_le hn⟩)⟩

/-- C139: whatever the schedule, after any number of accesses
no goroutine panics; a goroutine that has returned has returned the error its call returns when it is the only one, and has left its model, in the shared
memory, as it leaves it then; the data, the layers and optimizers of no model, and the streams of random numbers are as they were, and so are
the sizes, types and matrices of all layers; if not all have returned, another access is possible. -/
theorem C139_fits (h : FitPool w base n c net) (k : Nat) (P : Pool α (Option Err)) (hr : PoolRun n k (Pool.init w base fun i => (c i).prog) P) :
    (∀ i, i < n → ¬ P.Panics i) ∧
    (∀ i e, i < n → P.thr i = .ret e → ∃ F, (c i).go (alone w base i) = .ok (e, F) ∧ SeesAs w base n c net i P.mem F) ∧
    (∀ a, a < w.next → P.mem.outs a = w.outs a) ∧
    (∀ a, a < w.next → (∀ i, i < n → ¬ w.IsNetParam (net i) a) → P.mem.flt a = w.flt a) ∧
    (∀ lp, (P.mem.lay lp).params = (w.lay lp).params) ∧
    (∀ lp, (∀ i, i < n → lp ∉ (c i).m.layers) → P.mem.lay lp = w.lay lp) ∧
    (∀ op, (∀ i, i < n → op ∉ (c i).m.optims) → P.mem.opt op = w.opt op) ∧
    P.mem.normPos = w.normPos ∧ P.mem.unifPos = w.unifPos ∧
    ((∃ i, i < n ∧ ∀ e, P.thr i ≠ .ret e) → ∃ P', PoolStep n P P') := by
  have hI := PoolInv.reach h.ok hr (PoolInv.start h.ok)
  obtain ⟨-, ⟨-, r4⟩, ⟨-, r5⟩, -⟩ := hI.rest
  refine ⟨fun i hi => hI.no_panic h.ok hi, fun i e hi ht => ?_, fun a ha => hI.outs a (h.start.symm ▸ ha),
    fun a ha hp => hI.flt a (h.start.symm ▸ ha) fun i hi hx => hp i hi hx.2, hI.lay, hI.rem, hI.opt, r4, r5, ?_⟩
  · obtain ⟨F, g, hA, -, -⟩ := hI.result hi ht
    rw [C139_same] at g
    obtain ⟨e', F', g', hn⟩ := h.alone i hi
    cases g'.symm.trans g
    exact ⟨F, g, hA.sees hn⟩
  · rintro ⟨i, hi, hu⟩
    exact hI.can_step h.ok hi hu

/-- C139: every schedule ends, and all schedules have the same length. -/
theorem C139_ends (h : FitPool w base n c net) : ∃ N : Nat, ∀ k P, PoolRun n k (Pool.init w base fun i => (c i).prog) P →
    k ≤ N ∧ (k = N ↔ ∀ i, i < n → ∃ e, P.thr i = .ret e) := by
  refine ⟨∑ i ∈ Finset.range n, ((c i).prog).len (alone w base i), fun k P hr => ?_⟩
  have := (PoolInv.reach h.ok hr (PoolInv.start h.ok)).done_iff h.ok
  rwa [Nat.zero_add] at this

/-- C139: the log is at every moment an interleaving of what the goroutines have logged; a goroutine that has returned has logged what it logs alone. -/
theorem C139_log (h : FitPool w base n c net) (k : Nat) (P : Pool α (Option Err)) (hr : PoolRun n k (Pool.init w base fun i => (c i).prog) P) :
    ∃ own s, Shuffle own s ∧ P.mem.log = w.log ++ s ∧
      ∀ i e, i < n → P.thr i = .ret e → ∃ F, (c i).go (alone w base i) = .ok (e, F) ∧ F.log = w.log ++ own i := by
  obtain ⟨V, own, s, hV, -, hl, hsh, hlog, -⟩ := (PoolInv.reach h.ok hr (PoolInv.start h.ok)).priv
  refine ⟨own, s, hsh, hlog, fun i e hi ht => ⟨V i, ?_, hl i hi⟩⟩
  have := (hV i hi).run
  rw [ht, C139_same] at this
  exact this.symm

theorem rowAddr_agree {R : Region} {hi nx : Nat} {W F : World α} (hA : AgreeOn R hi W F) {x : Mat} (ht : R.tab x.m.addr) (k : Nat) :
    ({ W with next := nx } : World α).rowAddr x k = F.rowAddr x k := by
  show (W.outs x.m.addr)[x.m.off + k]? = _
  rw [hA.outs _ (.inl ht)]
  rfl

theorem isRow_agree {R : Region} {hi nx : Nat} {W F : World α} (hA : AgreeOn R hi W F) {x : Mat} (ht : R.tab x.m.addr) (r a : Nat) :
    ({ W with next := nx } : World α).IsRow x r a ↔ F.IsRow x r a := by
  unfold World.IsRow
  simp only [rowAddr_agree hA ht]

theorem isParam_agree {R : Region} {hi nx : Nat} {W F : World α} (hA : AgreeOn R hi W F) {wm bm : Mat} (hw : R.tab wm.m.addr) (hb : R.tab bm.m.addr)
    (r a : Nat) : ({ W with next := nx } : World α).IsParam wm bm r a ↔ F.IsParam wm bm r a := by
  unfold World.IsParam
  rw [isRow_agree hA hw, isRow_agree hA hb]

/-- A matrix that the region may use is the same in the shared memory. -/
theorem IsMat.agree' {R : Region} {hi : Nat} {W F : World α} (hA : AgreeOn R hi W F) (hn : F.next ≤ hi) {x : Mat} {r q : Nat} {A : Nat → Nat → α}
    (h : IsMat F x r q A) (hx : MOk R F x) : IsMat { W with next := F.next } x r q A := by
  have h0 : x.m.len ≠ 0 := by rw [h.len]; have := h.rpos; omega
  refine IsMat.agree hA h hn rfl (hx.addr h0) ?_
  rintro a ⟨k, hk, ha⟩
  exact hx.row k (by rw [h.len]; exact hk) a ha

theorem isRow_agree' {R : Region} {hi nx : Nat} {W F : World α} (hA : AgreeOn R hi W F) (hn : F.next ≤ hi) {x : Mat} {r q : Nat} {A : Nat → Nat → α}
    (h : IsMat F x r q A) (hx : MOk R F x) (a : Nat) : ({ W with next := nx } : World α).IsRow x r a ↔ F.IsRow x r a := by
  have h0 : x.m.len ≠ 0 := by rw [h.len]; have := h.rpos; omega
  unfold World.IsRow World.rowAddr
  have : W.outs x.m.addr = F.outs x.m.addr := hA.outs _ ((hx.addr h0).within hn)
  simp only [this]

/-- A model with its optimizers, in the memory of the region, is the same in the shared memory. -/
theorem IsTask.agree {R : Region} {hi : Nat} {W F : World α} (hA : AgreeOn R hi W F) (hn : F.next ≤ hi) {m : Model α} {net : Net α} {op : Nat → Nat}
    {S : Nat → OptSpec α} (h : IsTask F m net op S) (hl : ∀ lp ∈ m.layers, LOk R F (F.lay lp))
    (ht : ∀ k, k < net.size → R.tab (net.wm k).m.addr ∧ R.tab (net.bm k).m.addr)
    (ho : ∀ k, k < net.size → R.opt (op k) ∧ OOk R F (F.opt (op k))) : IsTask { W with next := F.next } m net op S := by
  have hpar : ∀ k, k < net.size → ∀ a, ({ W with next := F.next } : World α).IsParam (net.wm k) (net.bm k) (net.L k).n a ↔
      F.IsParam (net.wm k) (net.bm k) (net.L k).n a := fun k hk a => isParam_agree hA (ht k hk).1 (ht k hk).2 _ a
  have hnet : ∀ a, ({ W with next := F.next } : World α).IsNetParam net a ↔ F.IsNetParam net a := fun a =>
    ⟨fun ⟨k, hk, h⟩ => ⟨k, hk, (hpar k hk a).1 h⟩, fun ⟨k, hk, h⟩ => ⟨k, hk, (hpar k hk a).2 h⟩⟩
  have hlo : ∀ k, k < net.size → MOk R F (net.wm k) ∧ MOk R F (net.bm k) := by
    intro k hk
    have := hl (net.lp k) (by rw [h.isNet.ptrs]; exact List.mem_map.2 ⟨k, List.mem_range.2 hk, rfl⟩)
    exact ⟨this.1 _ (h.isNet.lay k hk).weights, this.2 _ (h.isNet.lay k hk).biases⟩
  refine ⟨⟨h.isNet.size, h.isNet.ptrs, fun k hk => ?_, h.isNet.ins, h.isNet.outs, h.isNet.input, h.isNet.output⟩, ⟨fun k hk => ?_, h.own.inj,
    fun i j a hi hj h1 h2 => h.own.sep i j a hi hj ((hpar i hi a).1 h1) ((hpar j hj a).1 h2)⟩, h.pos, h.optims, fun k hk => ?_, h.inj, fun k a hk h1 h2 => ?_⟩
  · have hL := h.isNet.lay k hk
    have e := hA.lay (net.lp k)
    have e1 : (W.lay (net.lp k)).kind = (F.lay (net.lp k)).kind := by have := congrArg Layer.kind e; exact this
    have e2 : (W.lay (net.lp k)).inputSize = (F.lay (net.lp k)).inputSize := by have := congrArg Layer.inputSize e; exact this
    have e3 : (W.lay (net.lp k)).outputSize = (F.lay (net.lp k)).outputSize := by have := congrArg Layer.outputSize e; exact this
    have e4 : (W.lay (net.lp k)).weights = (F.lay (net.lp k)).weights := by have := congrArg Layer.weights e; exact this
    have e5 : (W.lay (net.lp k)).biases = (F.lay (net.lp k)).biases := by have := congrArg Layer.biases e; exact this
    have e6 : (W.lay (net.lp k)).slope = (F.lay (net.lp k)).slope := by have := congrArg Layer.slope e; exact this
    have e7 : (W.lay (net.lp k)).dropout = (F.lay (net.lp k)).dropout := by have := congrArg Layer.dropout e; exact this
    exact ⟨hL.lt, e1.trans hL.kind, e2.trans hL.ins, e3.trans hL.outs, e4.trans hL.weights, e5.trans hL.biases, e6.trans hL.slope, e7.trans hL.dropout,
      hL.wmat.agree' hA hn (hlo k hk).1, hL.bmat.agree' hA hn (hlo k hk).2⟩
  · have hO := h.own.own k hk
    refine ⟨fun i j a hi hj h1 h2 => hO.distinct i j a hi hj ?_ ?_, fun a h1 h2 => hO.disjoint a ((isRow_agree hA (ht k hk).1 _ _).1 h1)
      ((isRow_agree hA (ht k hk).2 _ _).1 h2), hO.outer⟩
    · rw [← rowAddr_agree hA (ht k hk).1 i]; exact h1
    · rw [← rowAddr_agree hA (ht k hk).1 j]; exact h2
  · have hO := h.opt k hk
    have e : W.opt (op k) = F.opt (op k) := hA.opt _ (ho k hk).1
    have hoo := (ho k hk).2
    refine ⟨hO.lt, ?_, ?_, ?_⟩
    · show OptFields (W.opt (op k)) _
      rw [e]; exact hO.fields
    · show Slots _ (W.opt (op k)) _ _ _ _ _
      rw [e]
      cases hO.slots with
      | unset a1 a2 a3 a4 a5 => exact .unset a1 a2 a3 a4 a5
      | set a1 a2 a3 a4 =>
        exact .set (a1.agree' hA hn hoo.wm) (a2.agree' hA hn hoo.bm) (fun hk => (a3 hk).agree' hA hn hoo.wc) (fun hk => (a4 hk).agree' hA hn hoo.bc)
    · show _ → (W.opt (op k)).weightMomentums.rows = 0
      rw [e]; exact hO.plain
  · change World.IsOptRow _ (W.opt (op k)) _ _ a at h1
    have e : W.opt (op k) = F.opt (op k) := hA.opt _ (ho k hk).1
    have hoo := (ho k hk).2
    have hO := h.opt k hk
    rw [e] at h1
    refine h.sep k a hk ⟨h1.1, ?_⟩ ((hnet a).1 h2)
    cases hO.slots with
    | unset a1 => exact absurd a1 h1.1
    | set a1 a2 a3 a4 =>
      refine h1.2.imp (isRow_agree' hA hn a1 hoo.wm a).1 (Or.imp (isRow_agree' hA hn a2 hoo.bm a).1 ?_)
      rintro ⟨hk', h3⟩
      have hS := hO.fields.kind.symm.trans hk'
      exact ⟨hk', h3.imp (isRow_agree' hA hn (a3 hS) hoo.wc a).1 (isRow_agree' hA hn (a4 hS) hoo.bc a).1⟩

/-- The hypotheses of C70 (training follows the update equations) for the call of every goroutine: the data and the loss fit the model, there is no sigmoid
layer, nothing is logged. -/
structure Learns (w : World α) (c : PoolFit α) (net : Net α) (op : Nat → Nat) (S : Nat → OptSpec α) (k : LossKind) (r b : Nat) (A B : Nat → Nat → α) :
    Prop where
  trains : Trains w c.m net op S k c.X c.Y r A B
  batch : c.batch = b
  small : r + b ≤ 2 ^ 53
  quiet : c.logEvery = 0

/-- Fit alone, from any free address on. -/
theorem Learns.run [FltInt α] {c : PoolFit α} {net : Net α} {op : Nat → Nat} {S : Nat → OptSpec α} {k : LossKind} {r b : Nat} {A B : Nat → Nat → α}
    (h : Learns w c net op S k r b A B) {i : Nat} (hb : w.next ≤ base i) :
    ∃ F net' S', c.go (alone w base i) = .ok (none, F) ∧
      Descent c.m k w.unif A B net S w.unifPos (List.replicate c.epochs.toNat (blocks r b)).flatten net' S' F.unifPos ∧
      IsTask F c.m net' op S' ∧ SameShape net net' := by
  have hf := alone_frame hb
  have ht := h.trains.task
  have hx := h.trains.xs.allocs ht.isNet hf
  have hy := h.trains.ys.allocs ht.isNet hf
  have := C70_fit (alone w base i) c.m net op S (ht.allocs hf) h.trains.noSig _ h.trains.loss rfl c.X c.Y c.xVal c.yVal r A B hx.mat hy.mat
    hx.cap hy.cap hx.sep hy.sep c.epochs b h.small
  obtain ⟨e, F, g, rfl, net', S', h1, h2, h3, -⟩ := wp_iff.1 this
  refine ⟨F, net', S', ?_, h1, h2, h3⟩
  unfold PoolFit.go
  rw [h.batch, h.quiet]
  exact g

/-- C139, for calls that meet the hypotheses of C70: in every state that the concurrent Fit calls reach, a call that has returned has returned no error, and
in the memory as it is then its model is what the update equations give for its data, whatever the other goroutines have done meanwhile. -/
theorem C139_learns [FltInt α] (h : FitPool w base n c net) (op : Nat → Nat → Nat) (S : Nat → Nat → OptSpec α) (l : Nat → LossKind) (r b : Nat → Nat)
    (A B : Nat → Nat → Nat → α) (hl : ∀ i, i < n → Learns w (c i) (net i) (op i) (S i) (l i) (r i) (b i) (A i) (B i))
    (k : Nat) (P : Pool α (Option Err)) (hr : PoolRun n k (Pool.init w base fun i => (c i).prog) P) :
    (∀ i, i < n → ¬ P.Panics i) ∧
    ∀ i e, i < n → P.thr i = .ret e → e = none ∧ ∃ net' S' u,
      Descent (c i).m (l i) w.unif (A i) (B i) (net i) (S i) w.unifPos (List.replicate (c i).epochs.toNat (blocks (r i) (b i))).flatten net' S' u ∧
      IsTask (P.view i) (c i).m net' (op i) S' ∧ SameShape (net i) net' := by
  have hI := PoolInv.reach h.ok hr (PoolInv.start h.ok)
  refine ⟨fun i hi => hI.no_panic h.ok hi, fun i e hi ht => ?_⟩
  obtain ⟨F, g, hA, hnx, hE⟩ := hI.result hi ht
  rw [C139_same] at g
  have hb := h.le hi.le
  obtain ⟨F', net', S', g', h1, h2, h3⟩ := (hl i hi).run (base := base) hb
  cases g'.symm.trans g
  obtain ⟨e', F', g'', hn⟩ := h.alone i hi
  cases g''.symm.trans g
  have hT := (h.apart.trainOk (base := base) hi hb).ext hE
  refine ⟨rfl, net', S', F.unifPos, h1, ?_, h3⟩
  have ht0 := (hl i hi).trains.task
  have : P.view i = { P.mem with next := F.next } := by rw [hnx]; rfl
  rw [this]
  refine h2.agree hA hn (fun lp hlp => (hT.layers lp hlp).ok) (fun q hq => ?_) (fun q hq => hT.optims _ ?_)
  · rw [h3.size] at hq
    rw [h3.wm, h3.bm]
    have := ht0.isNet.lay q hq
    exact ⟨this.wmat.addr_lt, this.bmat.addr_lt⟩
  · rw [h2.optims]
    exact List.mem_map.2 ⟨q, List.mem_range.2 hq, rfl⟩

/-- Address ranges with room, for calls on models that may be shared. -/
theorem exists_base [FltInt α] (op : Nat → Nat → Nat) (S : Nat → Nat → OptSpec α) (l : Nat → LossKind) (r b : Nat → Nat)
    (A B : Nat → Nat → Nat → α) (hl : ∀ i, i < n → Learns w (c i) (net i) (op i) (S i) (l i) (r i) (b i) (A i) (B i)) :
    ∃ base : Nat → Nat, base 0 = w.next ∧ ∀ i, i < n → ∃ e w', (c i).go (alone w base i) = .ok (e, w') ∧ w'.next ≤ base (i + 1) := by
  let next (i b : Nat) : Nat := match (c i).go { w with next := b } with
    | .ok (_, w') => w'.next
    | .error _ => b
  let base : Nat → Nat := fun i => Nat.rec w.next (fun i b => next i b) i
  have hs : ∀ i, base (i + 1) = next i (base i) := fun _ => rfl
  have hle : ∀ i, base i ≤ base (i + 1) := by
    intro i
    rw [hs]
    show _ ≤ (match (c i).go { w with next := base i } with | .ok (_, w') => w'.next | .error _ => base i)
    split
    · rename_i p w' e
      rw [← C139_same] at e
      exact run_next_le _ e
    · exact le_rfl
  have h0 : ∀ i, w.next ≤ base i := fun i => Nat.rec le_rfl (fun i ih => ih.trans (hle i)) i
  refine ⟨base, rfl, fun i hi => ?_⟩
  obtain ⟨F, net', S', g, -⟩ := (hl i hi).run (base := base) (h0 i)
  refine ⟨none, F, g, ?_⟩
  rw [hs]
  show _ ≤ (match (c i).go { w with next := base i } with | .ok (_, w') => w'.next | .error _ => base i)
  change (c i).go { w with next := base i } = _ at g
  rw [g]

/-- C139: there are always address ranges with room. -/
theorem C139_room [FltInt α] (h : Apart w n c net) (op : Nat → Nat → Nat) (S : Nat → Nat → OptSpec α) (l : Nat → LossKind) (r b : Nat → Nat)
    (A B : Nat → Nat → Nat → α) (hl : ∀ i, i < n → Learns w (c i) (net i) (op i) (S i) (l i) (r i) (b i) (A i) (B i)) :
    ∃ base, FitPool w base n c net := by
  obtain ⟨base, h0, ha⟩ := exists_base op S l r b A B hl
  exact ⟨base, h0, h, ha⟩

/-- n models of k layers in one state, all with the same data. -/
theorem exists_tasks (n k : Nat) (hk : 0 < k) (L : Nat → Nat → LayerSpec α) (hL : ∀ i q, 0 < (L i q).n ∧ 0 < (L i q).o)
    (hc : ∀ i q, (L i q).o = (L i (q + 1)).n) (hin : ∀ i, (L i 0).n = (L 0 0).n) (hout : ∀ i, (L i k).n = (L 0 k).n) (m : Model α) (o : Optim α)
    (S : OptSpec α) (h0 : o.weightMomentums.rows = 0)
    (ho : ∀ (w : World α) (p i q : Nat), p < w.next → w.opt p = o → IsOpt w p (L i q).n (L i q).o 1 (L i q).o S)
    (hm : o.weightMomentums = Mat.zero ∧ o.biasMomentums = Mat.zero ∧ o.weightCache = Mat.zero ∧ o.biasCache = Mat.zero)
    (hkind : ∀ i q, (L i q).kind ≠ .sigmoid ∧ (L i q).kind ≠ .dropout) {r b : Nat} (hr : 0 < r) (hb : r + b ≤ 2 ^ 53) (l : LossKind)
    (A B : Nat → Nat → α) (ep : Nat → Int) :
    ∃ (w : World α) (net : Nat → Net α) (op : Nat → Nat → Nat) (X Y : Mat), (∀ i, (net i).size = k ∧ (net i).L = L i) ∧ (X.m.cap = r ∧ Y.m.cap = r) ∧
      Apart w n (fun i => ⟨(net i).task (op i) { m with loss := some ⟨l, (L 0 k).n⟩ }, X, Y, ep i, b, Mat.zero, Mat.zero, 0⟩) net ∧
      ∀ i, i < n → Learns w ⟨(net i).task (op i) { m with loss := some ⟨l, (L 0 k).n⟩ }, X, Y, ep i, b, Mat.zero, Mat.zero, 0⟩ (net i) (op i) (fun _ => S) l
        r b A B := by
  obtain ⟨w, lp, wm, bm, -, h1, h2, h3, h4⟩ := exists_layers (emptyWorld : World α) (fun j => L (j / k) (j % k)) (fun j => hL _ _) (n * k)
  let net : Nat → Net α := fun i => ⟨k, fun q => (L i q).n, fun q => lp (k * i + q), fun q => wm (k * i + q), fun q => bm (k * i + q), L i⟩
  let op : Nat → Nat → Nat := fun i q => w.next + (k * i + q)
  let m' : Model α := { m with loss := some ⟨l, (L 0 k).n⟩ }
  have hdiv : ∀ i q, q < k → (k * i + q) / k = i := fun i q hq => by rw [Nat.mul_add_div hk, Nat.div_eq_of_lt hq, Nat.add_zero]
  have hmod : ∀ i q, q < k → (k * i + q) % k = q := fun i q hq => by rw [Nat.mul_add_mod, Nat.mod_eq_of_lt hq]
  have hlt : ∀ i q, i < n → q < k → k * i + q < n * k := fun i q hi hq => by
    have : (i + 1) * k ≤ n * k := Nat.mul_le_mul_right k hi
    rw [Nat.add_mul, Nat.one_mul, Nat.mul_comm] at this
    omega
  have hflat : ∀ i q, q < k → L ((k * i + q) / k) ((k * i + q) % k) = L i q := fun i q hq => by rw [hdiv i q hq, hmod i q hq]
  have hN : ∀ i, i < n → IsNet w ((net i).task (op i) m') (net i) := fun i hi => ⟨rfl, rfl, fun q hq => by
      have := h1 (k * i + q) (hlt i q hi hq)
      rw [hflat i q hq] at this
      exact this, fun _ _ => rfl, fun q _ => hc i q, fun _ => rfl, fun _ => rfl⟩
  have hO : ∀ i, i < n → OwnNet w (net i) := by
    intro i hi
    refine ⟨fun q hq => ?_, fun q p hq hp e => ?_, fun q p a hq hp ha hb => ?_⟩
    · have := h2 (k * i + q) (hlt i q hi hq)
      rw [hflat i q hq] at this
      exact this
    · have := h3 _ _ (hlt i q hi hq) (hlt i p hi hp) e
      omega
    · have := h4 _ _ a (hlt i q hi hq) (hlt i p hi hp) (by rw [hflat i q hq]; exact ha) (by rw [hflat i p hp]; exact hb)
      omega
  have hf : OnlyAllocs w (withOpts w (n * k) o) := withOpts_allocs w (n * k) o
  have hT : ∀ i, i < n → IsTask (withOpts w (n * k) o) ((net i).task (op i) m') (net i) (op i) (fun _ => S) := by
    intro i hi
    refine ⟨(hN i hi).frame hf (Static.of_frame hf fun _ _ h => h) (fun _ h => h) (fun _ _ h => h), (hO i hi).frame (hN i hi) hf (fun _ h => h),
      hk, rfl, fun q hq => ho _ _ _ _ ?_ (withOpts_new w (n * k) o (hlt i q hi hq)), fun q p _ _ e => ?_, ?_⟩
    · show w.next + (k * i + q) < w.next + n * k
      exact Nat.add_lt_add_left (hlt i q hi hq) _
    · change w.next + (k * i + q) = w.next + (k * i + p) at e
      omega
    · intro q a hq h
      have e : (withOpts w (n * k) o).opt (op i q) = o := withOpts_new w (n * k) o (hlt i q hi hq)
      exact absurd (by rw [e]; exact h0) h.1
  have hx := place_spec (withOpts w (n * k) o) A hr (hL 0 0).1
  generalize placeM (withOpts w (n * k) o) r (L 0 0).n = X at hx
  generalize placeW (withOpts w (n * k) o) r (L 0 0).n A = w1 at hx
  have hy := place_spec w1 B hr (hL 0 k).1
  generalize placeM w1 r (L 0 k).n = Y at hy
  generalize placeW w1 r (L 0 k).n B = w2 at hy
  have hxm : IsMat w2 X r (L 0 0).n A := hx.mat.allocs hy.frame
  have hT1 : ∀ i, i < n → IsTask w1 ((net i).task (op i) m') (net i) (op i) (fun _ => S) := fun i hi => (hT i hi).allocs hx.frame
  have hT2 : ∀ i, i < n → IsTask w2 ((net i).task (op i) m') (net i) (op i) (fun _ => S) := fun i hi => (hT1 i hi).allocs hy.frame
  have hopt : ∀ i q, i < n → q < k → w2.opt (op i q) = o := fun i q hi hq => by
    have hq' := hlt i q hi hq
    have e : (withOpts w (n * k) o).opt (op i q) = o := withOpts_new w (n * k) o hq'
    have l1 : op i q < (withOpts w (n * k) o).next := Nat.add_lt_add_left hq' _
    rw [hy.frame.opt _ (l1.trans_le hx.frame.next_le) (fun h => h), hx.frame.opt _ l1 (fun h => h), e]
  have hpar1 : ∀ i, i < n → ∀ a, w1.IsNetParam (net i) a → a < (withOpts w (n * k) o).next := fun i hi a ha =>
    (hT i hi).isNet.param_lt (((hT i hi).isNet.isParam hx.frame (fun _ h => h) a).1 ha)
  have hpar2 : ∀ i, i < n → ∀ a, w2.IsNetParam (net i) a → a < (withOpts w (n * k) o).next := fun i hi a ha =>
    hpar1 i hi a (((hT1 i hi).isNet.isParam hy.frame (fun _ h => h) a).1 ha)
  have hparw : ∀ i, i < n → ∀ a, w2.IsNetParam (net i) a → w.IsNetParam (net i) a := fun i hi a ha =>
    ((hN i hi).isParam hf (fun _ h => h) a).1 (((hT i hi).isNet.isParam hx.frame (fun _ h => h) a).1 (((hT1 i hi).isNet.isParam hy.frame (fun _ h => h) a).1 ha))
  have hxr : ∀ a, w2.IsRow X r a → (withOpts w (n * k) o).next ≤ a := fun a ha => hx.fresh a ((hx.mat.isRow_frame hy.frame (fun h => h) a).1 ha)
  have hyr : ∀ a, w2.IsRow Y r a → (withOpts w (n * k) o).next ≤ a := fun a ha => hx.frame.next_le.trans (hy.fresh a ha)
  have hus : ∀ {x : Mat} {q : Nat} {V : Nat → Nat → α} (i : Nat), IsMat w2 x r q V → x.m.cap = r → (∀ a, w2.IsRow x r a → (withOpts w (n * k) o).next ≤ a) →
      Usable w2 net n i x := by
    intro x q V i hx hcap hrow
    refine ⟨fun _ => hx.addr_lt, fun p a hp ha => ?_⟩
    have hp' : p < r := by rw [hx.len, hcap] at hp; omega
    refine ⟨hx.isRow_lt ⟨p, hp', ha⟩, fun j hj _ hpar => ?_⟩
    have := hrow a ⟨p, hp', ha⟩
    have := hpar2 j hj a hpar
    omega
  have hzero : ∀ i, Usable w2 net n i Mat.zero := fun i =>
    ⟨fun h => h.elim (fun h => absurd rfl h) (fun h => absurd rfl h), fun p a h => h.elim (fun h => absurd h (Nat.not_lt_zero p)) (fun h => absurd h (Nat.not_lt_zero p))⟩
  refine ⟨w2, net, op, X, Y, fun i => ⟨rfl, rfl⟩, ⟨hx.cap, hy.cap⟩, ⟨fun i hi => ⟨(hT2 i hi).isNet, hk⟩, fun i _ q _ => ⟨(hkind i q).2, fun _ => (hkind i q).1⟩, fun i hi x hx' => ?_,
    fun i hi p hp x hx' => ?_, fun i j hi hj hij p hp hp' => ?_, fun i j hi hj hij p hp hp' => ?_, fun i j hi hj hij a ha ha' => ?_⟩, fun i hi => ⟨⟨hT2 i hi, ?_, ?_, ?_, ?_⟩, rfl, hb, rfl⟩⟩
  · simp only [List.mem_cons, List.not_mem_nil, or_false] at hx'
    rcases hx' with rfl | rfl | rfl | rfl
    · exact hus i hxm hx.cap hxr
    · exact hus i hy.mat hy.cap hyr
    · exact hzero i
    · exact hzero i
  · obtain ⟨q, hq, rfl⟩ := List.mem_map.1 hp
    have e := hopt i q hi (List.mem_range.1 hq)
    rw [e] at hx'
    simp only [List.mem_cons, List.not_mem_nil, or_false, hm.1, hm.2.1, hm.2.2.1, hm.2.2.2, or_self] at hx'
    rw [hx']
    exact hzero i
  · obtain ⟨q, hq, rfl⟩ := List.mem_map.1 hp
    obtain ⟨q', hq', e⟩ := List.mem_map.1 hp'
    rw [List.mem_range] at hq hq'
    have := h3 _ _ (hlt j q' hj hq') (hlt i q hi hq) e
    have d1 := hdiv i q hq
    have d2 := hdiv j q' hq'
    rw [← this, d2] at d1
    exact hij d1.symm
  · obtain ⟨q, hq, rfl⟩ := List.mem_map.1 hp
    obtain ⟨q', hq', e⟩ := List.mem_map.1 hp'
    rw [List.mem_range] at hq hq'
    have := Nat.add_left_cancel e
    have d1 := hdiv i q hq
    have d2 := hdiv j q' hq'
    rw [← this, d2] at d1
    exact hij d1.symm
  · obtain ⟨q, hq, g⟩ := hparw i hi a ha
    obtain ⟨q', hq', g'⟩ := hparw j hj a ha'
    have := h4 _ _ a (hlt i q hi hq) (hlt j q' hj hq') (by rw [hflat i q hq]; exact g) (by rw [hflat j q' hq']; exact g')
    have d1 := hdiv i q hq
    have d2 := hdiv j q' hq'
    rw [this, d2] at d1
    exact hij d1.symm
  · show some (⟨l, ((L 0 k).n : Int)⟩ : Loss) = some ⟨l, ((L i k).n : Int)⟩
    rw [hout i]
  · exact fun q _ => (hkind i q).1
  · refine ⟨?_, hx.cap.ge, fun a h1 h2 => ?_⟩
    · show IsMat w2 X r (L i 0).n A
      rw [hin i]
      exact hxm
    · have := hpar2 i hi a h1
      have := hxr a h2
      omega
  · refine ⟨?_, hy.cap.ge, fun a h1 h2 => ?_⟩
    · show IsMat w2 Y r (L i k).n B
      rw [hout i]
      exact hy.mat
    · have := hpar2 i hi a h1
      have := hyr a h2
      omega

/-- Four goroutines that train four three-layer models with different initial weights, with Adam, on the same five samples, for different numbers of epochs,
in batches of two, meet the hypotheses of C139_fits, C139_ends, C139_log and C139_learns. -/
example : ∃ (w : World ℝ) (base : Nat → Nat) (c : Nat → PoolFit ℝ) (net : Nat → Net ℝ) (op : Nat → Nat → Nat) (S : OptSpec ℝ) (A B : Nat → Nat → ℝ),
    FitPool w base 4 c net ∧ (∀ i, i < 4 → Learns w (c i) (net i) (op i) (fun _ => S) .mse 5 2 A B) ∧ (∀ i, (net i).size = 3 ∧ (c i).epochs = i + 10) ∧
    (c 0).X = (c 1).X ∧ ((net 0).L 0).W 0 0 ≠ ((net 1).L 0).W 0 0 := by
  obtain ⟨o, ho⟩ := adam_ok_real (lr := 1 / 1000) (decay := 0) (by norm_num) le_rfl (1 / 10 ^ 7) (9 / 10) (999 / 1000)
  have he := newAdam_ok ho
  obtain ⟨w, net, op, X, Y, h1, -, h2, h3⟩ := exists_tasks (α := ℝ) 4 3 (by decide) (fun i q => { plainT q with W := fun a b => (i : ℝ) + a + b })
    (fun _ q => demoT_pos (α := ℝ) q) (fun _ q => demoT_chain (α := ℝ) q) (fun _ => rfl) (fun _ => rfl) newModel o (OptSpec.fresh o)
    (by rw [he]; rfl) (fun w p i q hlt e => e ▸ isOpt_newAdam _ _ _ _ hlt (e.symm ▸ ho)) (by rw [he]; exact ⟨rfl, rfl, rfl, rfl⟩)
    (fun i q => by show (if q = 2 then LayerKind.linear else .hidden) ≠ _ ∧ (if q = 2 then LayerKind.linear else .hidden) ≠ _; split <;> simp)
    (r := 5) (b := 2) (by decide) (by norm_num) .mse (fun i j => (i : ℝ) + j) (fun i j => (i : ℝ) - j) (fun i => i + 10)
  obtain ⟨base, hb⟩ := C139_room h2 op (fun _ _ => OptSpec.fresh o) (fun _ => .mse) (fun _ => 5) (fun _ => 2) _ _ h3
  refine ⟨w, base, _, net, op, _, _, _, hb, h3, fun i => ⟨(h1 i).1, rfl⟩, rfl, ?_⟩
  rw [(h1 0).2, (h1 1).2]
  simp

/-! ### The limit: two Fit calls on the same model -/

/-- The program, run alone from V, gets to the access q, and all accesses before are to the memory of the region. -/
inductive Gets {β δ : Type} (R : Region) (q : Prim α δ) : Prog α β → World α → Prop
  | here {k : δ → Prog α β} {V : World α} : Gets R q (.op q k) V
  | there {γ : Type} {p : Prim α γ} {k : γ → Prog α β} {V V' : World α} {c : γ} : p.sem V = .ok (c, V') → p.Safe R V → Gets R q (k c) V' →
      Gets R q (.op p k) V

theorem Gets.bind {β δ γ : Type} {R : Region} {q : Prim α δ} {t : Prog α β} {V : World α} (h : Gets R q t V) (f : β → Prog α γ) : Gets R q (t >>= f) V := by
  induction h with
  | here => exact .here
  | there e hs _ ih => exact .there e hs ih

theorem Gets.after {β δ γ : Type} {R : Region} {q : Prim α δ} {t : Prog α β} {V V' : World α} {x : β} {f : β → Prog α γ} {Q : β → World α → Prop}
    (e : t.run V = .ok (x, V')) (hg : t.grd R V Q) (h : Q x V' → Gets R q (f x) V') : Gets R q (t >>= f) V := by
  induction t generalizing V with
  | ret y => cases e; exact h hg
  | op p k ih =>
    rw [prog_op] at e
    change Go.bind _ _ V = _ at e
    unfold Go.bind at e
    split at e
    · cases e
    · rename_i c V1 e1
      exact .there e1 (hg c V1 e1).1 (ih c e (hg c V1 e1).2)

/-- A goroutine that gets to an access when alone gets to it in the pool, without the others moving. -/
theorem Gets.pool {β δ : Type} {R : Region} {q : Prim α δ} {t : Prog α β} {V : World α} (h : Gets R q t V) {n i hi : Nat} (hin : i < n) :
    ∀ {P : Pool α β}, P.thr i = t → AgreeOn R hi P.mem V → V.next = P.next i → R.b ≤ V.next → (∃ x F, t.run V = .ok (x, F) ∧ F.next ≤ hi) →
      ∃ l P' r, PoolRun n l P P' ∧ P'.thr i = .op q r ∧ (∀ j, j ≠ i → P'.thr j = P.thr j ∧ P'.next j = P.next j) ∧ Local R hi P.mem P'.mem := by
  induction h with
  | here => exact fun {P} ht _ _ _ _ => ⟨0, P, _, .refl, ht, fun _ _ => ⟨rfl, rfl⟩, Local.refl _ _ _⟩
  | @there γ p r V V' c e hs _ ih =>
    intro P ht hA hnx hb hrun
    obtain ⟨x, F, hr, hF⟩ := hrun
    rw [prog_op] at hr
    have hr' : (r c).run V' = .ok (x, F) := by
      rw [← hr]
      exact (bind_ok (f := fun c => (r c).run) e).symm
    obtain ⟨W', g1, g2, g3, g4, -⟩ := sem_agree p hA hb hs e ((run_next_le _ hr').trans hF)
    rw [hnx] at g1
    have hstep := PoolStep.step hin ht g1
    have hthr : (if i = i then r c else P.thr i) = r c := if_pos rfl
    obtain ⟨l, P', r', h1, h2, h3, h4⟩ := ih (P := ⟨{ W' with next := P.mem.next }, upd P.next i W'.next, fun j => if j = i then r c else P.thr j⟩) hthr
      ⟨g3.flt, g3.outs, g3.lay, g3.full, g3.opt, g3.logger⟩
      (by show V'.next = upd P.next i W'.next i; rw [upd, if_pos rfl, g2]) (hb.trans (sem_next_le p e)) ⟨x, F, hr', hF⟩
    have hrun : ∀ {l : Nat} {P1 P2 P3 : Pool α β}, PoolStep n P1 P2 → PoolRun n l P2 P3 → PoolRun n (l + 1) P1 P3 := by
      intro l P1 P2 P3 s1 r1
      induction r1 with
      | refl => exact .step .refl s1
      | step _ s2 ih => exact .step (ih s1) s2
    exact ⟨l + 1, P', r', hrun hstep h1, h2, fun j hj => ⟨(h3 j hj).1.trans (by show (if j = i then _ else _) = _; rw [if_neg hj]),
      (h3 j hj).2.trans (by show upd P.next i W'.next j = _; rw [upd, if_neg hj])⟩, Local.trans (W' := { W' with next := P.mem.next })
        ⟨g4.flt, g4.outs, g4.lay, g4.rem, g4.opt, g4.log, g4.logger, g4.norm, g4.unif⟩ h4⟩

/-- The memory of a goroutine that reads the old memory and writes nothing of it. -/
def roRegion (b0 b : Nat) : Region := ⟨b, (· < b0), (· < b0), fun _ => False, fun _ => False, fun _ => False, fun _ => False, False⟩

theorem Gets.forRet {β δ : Type} {R : Region} {q : Prim α δ} {V : World α} {body : Nat → Prog α (Option β)} (h : Gets R q (body 0) V) (n : Nat) :
    Gets R q (Prog.forRet (n + 1) body) V := by
  induction n with
  | zero => exact h
  | succ n ih => exact ih.bind _

theorem IsMat.ro {x : Mat} {r q : Nat} {A : Nat → Nat → α} (h : IsMat w x r q A) {i : Nat} (hb : w.next ≤ base i) :
    MOk (roRegion w.next (base i)) (alone w base i) x := by
  refine ⟨fun _ => h.addr_lt.trans_le hb, fun _ => .inl h.addr_lt, fun k hk a ha => .inl ?_⟩
  rw [h.len] at hk
  obtain ⟨a', h1, h2, -⟩ := h.row k hk
  cases h1.symm.trans ha
  exact h2

/-- Fit on a model whose first layer is a ReLU or leaky ReLU layer gets to the point where it remembers the inputs of that layer. -/
theorem fit_gets [FltInt α] {c : PoolFit α} {net : Net α} {op : Nat → Nat} {S : Nat → OptSpec α} {k : LossKind} {r b : Nat} {A B : Nat → Nat → α}
    (h : Learns w c net op S k r b A B) (hc : 0 < c.epochs) (hcx : c.X.m.cap = r) (hcy : c.Y.m.cap = r)
    (hk : (net.L 0).kind = .hidden ∨ (net.L 0).kind = .leaky) {i : Nat} (hb : w.next ≤ base i) :
    ∃ o, Gets (roRegion w.next (base i)) (.setRelu (net.lp 0) o) c.prog (alone w base i) := by
  have hf := alone_frame hb
  have hT := h.trains.task.allocs hf
  have hX := h.trains.xs.mat.allocs hf
  have hY := h.trains.ys.mat.allocs hf
  have hXc : r ≤ c.X.m.cap := hcx.ge
  have hYc : r ≤ c.Y.m.cap := hcy.ge
  have hrp := hX.rpos
  have dok : ∀ {x : Mat} {q : Nat} {A : Nat → Nat → α}, IsMat w x r q A → x.m.cap = r → DOk (roRegion w.next (base i)) (alone w base i) x := by
    intro x q A hx hcap
    have := hx.ro hb
    refine ⟨this, fun _ => hx.addr_lt.trans_le hb, fun _ => .inl hx.addr_lt, fun p hp a ha => this.row p ?_ a ha⟩
    change p < x.m.cap at hp
    rw [hx.len]; omega
  -- the first batch
  obtain ⟨bs, k1, hk1, hk1r, hplan, hsteps, hhi⟩ : ∃ (bs : Int) (k1 : Nat), 0 < k1 ∧ k1 ≤ r ∧ (batchPlan c.Y.rows c.batch).2 = bs ∧
      (∃ s, (batchPlan c.Y.rows c.batch).1.toNat = s + 1) ∧ batchHi α (0 : Nat) bs c.Y.rows = (0 + k1 : Nat) := by
    rw [h.batch, hY.rows]
    have hsm := h.small
    rcases Nat.eq_zero_or_pos b with rfl | hbp
    · refine ⟨r, r, hrp, le_rfl, rfl, ⟨0, rfl⟩, ?_⟩
      rw [batchHi_eq (by omega) (by omega)]
      omega
    · obtain ⟨e1, e2⟩ := plan_steps r b hbp
      refine ⟨b, min b r, by omega, by omega, e2, ⟨(r + b - 1) / b - 1, ?_⟩, ?_⟩
      · rw [e1, Int.toNat_natCast]
        have := (lt_ceil (n := r) (b := b) (s := 0) hbp).2 (by omega)
        omega
      · rw [batchHi_eq (by omega) (by omega)]
        congr 1
        omega
  obtain ⟨s, hs⟩ := hsteps
  have hbx := hX.rowsOf hk1 (lo := 0) (by omega)
  have hL := hT.isNet.lay 0 hT.pos
  obtain ⟨⟨o, er⟩, w', e, h1, -⟩ := wp_iff.1 (affine_spec hL (x := rowsOf c.X (0, k1)) (r := k1) (X := fun i j => A (0 + i) j)
    (by rw [hT.isNet.ins 0 hT.pos]; exact hbx))
  obtain rfl : er = none := h1
  rw [← affine_params, ← run_affineP] at e
  refine ⟨o, ?_⟩
  unfold PoolFit.prog fitP
  dsimp only
  obtain ⟨ep, hep⟩ : ∃ ep, c.epochs.toNat = ep + 1 := ⟨c.epochs.toNat - 1, by omega⟩
  rw [hep]
  refine Gets.forRet ?_ ep
  unfold fitEpochP
  rw [hs, hplan]
  refine Gets.bind (Gets.forRet ?_ s) _
  unfold fitBatchP
  dsimp only
  rw [hhi, Int.natCast_zero, Int.zero_mul]
  have run : ∀ {m : Mat} {q : Nat} {V : Nat → Nat → α}, IsMat (alone w base i) m r q V → r ≤ m.m.cap →
      (resliceP m.m (0 : Int) (0 + k1 : Nat) : Prog α Slice).run (alone w base i) = .ok ((rowsOf m (0, k1)).m, alone w base i) ∧
      (newMatrixFromSliceP (rowsOf m (0, k1)).m : Prog α _).run (alone w base i) = .ok ((rowsOf m (0, k1), none), alone w base i) := by
    intro m q V hm hcap
    rw [run_resliceP, run_newMatrixFromSliceP]
    refine ⟨?_, newMatrixFromSlice_spec (hm.rowsOf hk1 (by omega))⟩
    unfold reslice
    rw [if_pos (by omega)]
    simp [NN.rowsOf]
  refine Gets.after (run hX hXc).1 (grd_reslice (dok h.trains.xs.mat hcx)) fun q1 => ?_
  refine Gets.after (run hX hXc).2 (grd_newMatrixFromSlice q1.2) fun q2 => ?_
  refine Gets.after (run hY hYc).1 (grd_reslice (dok h.trains.ys.mat hcy)) fun q3 => ?_
  refine Gets.after (run hY hYc).2 (grd_newMatrixFromSlice q3.2) fun q4 => ?_
  refine Gets.bind ?_ _
  have hinf : Gets (roRegion w.next (base i)) (.setRelu (net.lp 0) o) (forwardTrainP (net.lp 0) (rowsOf c.X (0, k1)) : Prog α _) (alone w base i) := by
    unfold forwardTrainP
    have hkind : ((alone w base i).lay (net.lp 0)).params.kind = (net.L 0).kind := hL.kind
    have hg : ∀ {V : World α}, (Prog.prim (.layParams (net.lp 0)) : Prog α _).run V = .ok ((V.lay (net.lp 0)).params, V) := by
      intro V; rw [prog_prim]; rfl
    refine Gets.after hg grd_layParams fun _ => ?_
    have hnd : ¬ ((alone w base i).lay (net.lp 0)).params.kind = .dropout := by
      rw [hkind]; rcases hk with hk | hk <;> rw [hk] <;> decide
    rw [if_neg hnd]
    unfold inferP
    refine Gets.after hg grd_layParams fun _ => ?_
    refine Gets.after e (grd_affine le_rfl ⟨fun m e => ?_, fun m e => ?_⟩ q2.2.1) fun _ => ?_
    · have hw := (h.trains.task.isNet.lay 0 h.trains.task.pos)
      cases hw.weights.symm.trans e
      exact hw.wmat.ro hb
    · have hw := (h.trains.task.isNet.lay 0 h.trains.task.pos)
      cases hw.biases.symm.trans e
      exact hw.bmat.ro hb
    · show Gets _ _ (match ((alone w base i).lay (net.lp 0)).params.kind with
        | .hidden | .dropout => _
        | .linear => _
        | .sigmoid => _
        | .leaky => _
        | .softmax => _) w'
      rw [hkind]
      rcases hk with hk | hk <;> rw [hk] <;> exact .here
  unfold modelForwardTrainP
  refine Gets.bind ?_ _
  have hloop : ∀ n, Gets (roRegion w.next (base i)) (.setRelu (net.lp 0) o) (forwardTrainLoopP c.m (rowsOf c.X (0, k1)) (n + 1)) (alone w base i) := by
    intro n
    induction n with
    | zero =>
      unfold forwardTrainLoopP
      refine Gets.after (V' := alone w base i) (x := ([rowsOf c.X (0, k1)], rowsOf c.X (0, k1), none)) (Q := fun _ _ => True) rfl trivial fun _ =>
        Gets.after (V' := alone w base i) (x := net.lp 0) ?_ grd_listGet fun _ => Gets.bind hinf _
      rw [run_listGetP, hT.isNet.ptrs]
      have := hT.pos
      simp [listGet, this]
      rfl
    | succ n ih => exact ih.bind _
  obtain ⟨n', hn'⟩ : ∃ n, c.m.modelSize.toNat = n + 1 := ⟨net.size - 1, by rw [hT.isNet.size]; have := hT.pos; omega⟩
  rw [hn']
  exact hloop n'

/-- C139, the limit of the claim: models must not be shared.  If two goroutines call Fit on the same model (whose first layer is a ReLU or leaky ReLU layer)
there is a schedule that leads to a state in which both are about to write the field `reluInputs` of the same layer object (network.go:111, 459), with
nothing to order the two writes; Backward reads that field (network.go:131, 479). -/
theorem C139_race [FltInt α] (m : Model α) (net : Net α) (op : Nat → Nat) (S : Nat → OptSpec α) (l : LossKind) (r b : Nat → Nat) (A B : Nat → Nat → Nat → α)
    (h0 : base 0 = w.next) (hl : ∀ i, i < n → (c i).m = m ∧ Learns w (c i) net op S l (r i) (b i) (A i) (B i) ∧ 0 < (c i).epochs ∧
      (c i).X.m.cap = r i ∧ (c i).Y.m.cap = r i)
    (ha : ∀ i, i < n → ∃ e w', (c i).go (alone w base i) = .ok (e, w') ∧ w'.next ≤ base (i + 1))
    (hk : (net.L 0).kind = .hidden ∨ (net.L 0).kind = .leaky) (i j : Nat) (hij : i < j) (hj : j < n) :
    ∃ k P o o' s t, PoolRun n k (Pool.init w base fun i => (c i).prog) P ∧
      P.thr i = .op (.setRelu (net.lp 0) o) s ∧ P.thr j = .op (.setRelu (net.lp 0) o') t := by
  have hi : i < n := hij.trans hj
  have hmono : ∀ a b, a ≤ b → b ≤ n → base a ≤ base b := by
    intro a b hab hb
    induction b with
    | zero => obtain rfl : a = 0 := by omega
              exact le_rfl
    | succ b ih =>
      rcases Nat.lt_or_ge b a with hlt | hge
      · obtain rfl : a = b + 1 := by omega
        exact le_rfl
      · obtain ⟨e, F, h1, h2⟩ := ha b (by omega)
        rw [← C139_same] at h1
        have := run_next_le _ h1
        change base b ≤ F.next at this
        exact (ih hge (by omega)).trans (this.trans h2)
  have hb : ∀ i, i < n → w.next ≤ base i := fun i hi => h0 ▸ hmono 0 i (Nat.zero_le i) hi.le
  have hrun : ∀ i, i < n → ∃ x F, (c i).prog.run (alone w base i) = .ok (x, F) ∧ F.next ≤ base (i + 1) := fun i hi => by
    obtain ⟨e, F, g, hn⟩ := ha i hi
    exact ⟨e, F, by rw [C139_same]; exact g, hn⟩
  obtain ⟨-, hli, hci, hxi, hyi⟩ := hl i hi
  obtain ⟨-, hlj, hcj, hxj, hyj⟩ := hl j hj
  obtain ⟨o, g1⟩ := fit_gets hli hci hxi hyi hk (hb i hi)
  obtain ⟨o', g2⟩ := fit_gets hlj hcj hxj hyj hk (hb j hj)
  obtain ⟨k1, P1, s, hr1, ht1, ho1, hL1⟩ := g1.pool (P := Pool.init w base fun i => (c i).prog) hi rfl (AgreeOn.refl _ _ _ _) rfl le_rfl (hrun i hi)
  have hA : AgreeOn (roRegion w.next (base j)) (base (j + 1)) P1.mem (alone w base j) := by
    have hlt := hmono (i + 1) j hij hj.le
    have hd : ∀ a, a < w.next ∨ (base j ≤ a ∧ a < base (j + 1)) → a < base i ∨ base (i + 1) ≤ a := by
      intro a ha
      have := hb i hi
      omega
    exact ⟨fun a ha => hL1.flt a (fun h => h.2) (hd a ha), fun a ha => hL1.outs a (hd a ha), hL1.lay, fun lp h => h.elim, fun op h => h.elim, hL1.logger⟩
  obtain ⟨k2, P2, t, hr2, ht2, ho2, -⟩ := g2.pool hj (ho1 j (by omega)).1 hA (ho1 j (by omega)).2.symm le_rfl (hrun j hj)
  exact ⟨k1 + k2, P2, o, o', s, t, hr1.trans hr2, (ho2 i (by omega)).1.trans ht1, ht2⟩

/-- Two goroutines that train the same three-layer model (the first layer a ReLU layer) on the same data meet the hypotheses of C139_race. -/
example : ∃ (w : World ℝ) (base : Nat → Nat) (c : Nat → PoolFit ℝ) (m : Model ℝ) (net : Net ℝ) (op : Nat → Nat) (S : OptSpec ℝ) (A B : Nat → Nat → ℝ),
    base 0 = w.next ∧ (∀ i, i < 2 → (c i).m = m ∧ Learns w (c i) net op (fun _ => S) .mse 5 2 A B ∧ 0 < (c i).epochs ∧ (c i).X.m.cap = 5 ∧ (c i).Y.m.cap = 5) ∧
    (∀ i, i < 2 → ∃ e w', (c i).go (alone w base i) = .ok (e, w') ∧ w'.next ≤ base (i + 1)) ∧ (net.L 0).kind = .hidden ∧ net.size = 3 := by
  obtain ⟨o, ho⟩ := adam_ok_real (lr := 1 / 1000) (decay := 0) (by norm_num) le_rfl (1 / 10 ^ 7) (9 / 10) (999 / 1000)
  have he := newAdam_ok ho
  obtain ⟨w, net, op, X, Y, h1, hcap, h2, h3⟩ := exists_tasks (α := ℝ) 1 3 (by decide) (fun _ q => plainT q)
    (fun _ q => demoT_pos (α := ℝ) q) (fun _ q => demoT_chain (α := ℝ) q) (fun _ => rfl) (fun _ => rfl) newModel o (OptSpec.fresh o)
    (by rw [he]; rfl) (fun w p i q hlt e => e ▸ isOpt_newAdam _ _ _ _ hlt (e.symm ▸ ho)) (by rw [he]; exact ⟨rfl, rfl, rfl, rfl⟩)
    (fun i q => by show (if q = 2 then LayerKind.linear else .hidden) ≠ _ ∧ (if q = 2 then LayerKind.linear else .hidden) ≠ _; split <;> simp)
    (r := 5) (b := 2) (by decide) (by norm_num) .mse (fun i j => (i : ℝ) + j) (fun i j => (i : ℝ) - j) (fun _ => 10)
  have h4 := h3 0 (by decide)
  obtain ⟨base, hb0, hb⟩ := exists_base (n := 2) (c := fun _ => ⟨(net 0).task (op 0) { newModel with loss := some ⟨.mse, (plainT 3).n⟩ }, X, Y, 10, 2, Mat.zero, Mat.zero, 0⟩)
    (net := fun _ => net 0) (fun _ => op 0) (fun _ _ => OptSpec.fresh o) (fun _ => .mse) (fun _ => 5) (fun _ => 2) (fun _ => _) (fun _ => _) (fun _ _ => h4)
  exact ⟨w, base, _, _, net 0, op 0, _, _, _, hb0, fun i _ => ⟨rfl, h4, by show (0 : Int) < 10; decide, hcap⟩, hb, by rw [(h1 0).2]; rfl, (h1 0).1⟩

end NN
