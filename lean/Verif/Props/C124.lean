import Verif.Lemmas.ConcPool
import Verif.Lemmas.Build
import Verif.Lemmas.Layer
import Verif.Spec.PlaceNet
import Verif.Real.Inst
/-
C124: read-only calls (Predict, CalculateLoss, CalculateAccuracy) made at the same time by several goroutines, on the same model or on models that
share layers, do not disturb each other, whatever the schedule.  (model.go:143-169, 304-356; network.go:92-118, 209-229, 317-340, 440-466,
558-584, 802-828.)
-/

set_option linter.unusedSectionVars false

namespace NN
variable {α : Type} [Flt α]

/-- A read-only call. -/
inductive Call
  | predict (x : Mat)
  | loss (x y : Mat)
  | accuracy (x y : Mat)

/-- The call as a function of the sequential model.  The result has a matrix (of `Predict`) or a number, and the error. -/
def Call.go (m : Model α) : Call → Go α (Option Mat × Option α × Option Err)
  | .predict x => do let (o, e) ← NN.predict m x; return (some o, none, e)
  | .loss x y => do let (j, e) ← calculateLoss m x y; return (none, some j, e)
  | .accuracy x y => do let (j, e) ← calculateAccuracy m x y; return (none, some j, e)

/-- The call as a program of single accesses. -/
def Call.prog (m : Model α) : Call → Prog α (Option Mat × Option α × Option Err)
  | .predict x => do let (o, e) ← predictP m x; return (some o, none, e)
  | .loss x y => do let (j, e) ← calculateLossP m x y; return (none, some j, e)
  | .accuracy x y => do let (j, e) ← calculateAccuracyP m x y; return (none, some j, e)

/-- The matrices of the call. -/
def Call.args : Call → List Mat
  | .predict x => [x]
  | .loss x y | .accuracy x y => [x, y]

/-- The programs of single accesses, run alone, are the functions of the sequential model. -/
theorem C124_same (m : Model α) (c : Call) : (c.prog m).run = c.go m := by
  cases c with
  | predict x => exact prog_seq (run_predictP m x) fun _ => rfl
  | loss x y => exact prog_seq (run_calculateLossP m x y) fun _ => rfl
  | accuracy x y => exact prog_seq (run_calculateAccuracyP m x y) fun _ => rfl

/-- The memory of a read-only call: it reads all that existed before, and writes the remembered matrices of layers. -/
def readRegion (b0 b : Nat) : Region := ⟨b, (· < b0), (· < b0), fun _ => False, fun _ => True, fun _ => False, fun _ => False, False⟩

theorem IsMat.mok {w : World α} {x : Mat} {r c : Nat} {X : Nat → Nat → α} (h : IsMat w x r c X) {base : Nat → Nat} (h0 : base 0 = w.next)
    {i : Nat} (hi : base 0 ≤ base i) : MOk (readRegion (base 0) (base i)) (alone w base i) x := by
  refine ⟨fun _ => ?_, fun _ => .inl (by show _ < base 0; rw [h0]; exact h.addr_lt), fun k hk a ha => .inl ?_⟩
  · show x.m.addr < base i
    have := h.addr_lt; omega
  · rw [h.len] at hk
    obtain ⟨a', h1, h2, -⟩ := h.row k hk
    cases h1.symm.trans ha
    show _ < base 0
    omega

theorem IsNet.lok {w : World α} {m : Model α} {net : Net α} (h : IsNet w m net) {base : Nat → Nat} (h0 : base 0 = w.next)
    {i : Nat} (hi : base 0 ≤ base i) : ModelOk (readRegion (base 0) (base i)) (alone w base i) m := by
  intro lp hlp
  refine ⟨trivial, ?_⟩
  rw [h.ptrs] at hlp
  obtain ⟨k, hk, rfl⟩ := List.mem_map.1 hlp
  have hL := h.lay k (List.mem_range.1 hk)
  constructor
  · intro mm e
    cases hL.weights.symm.trans e
    exact hL.wmat.mok h0 hi
  · intro mm e
    cases hL.biases.symm.trans e
    exact hL.bmat.mok h0 hi

/-- The accesses of a call alone are safe. -/
theorem Call.safe {w : World α} {m : Model α} {net : Net α} (hN : IsNet w m net) (hp : 0 < net.size) {c : Call}
    (hc : ∀ x ∈ c.args, ∃ r q X, IsMat w x r q X) {base : Nat → Nat} (h0 : base 0 = w.next) {i : Nat} (hi : base 0 ≤ base i) :
    (c.prog m).grd (readRegion (base 0) (base i)) (alone w base i) (fun _ _ => True) := by
  have hs : 0 < m.modelSize := by rw [hN.size]; omega
  have hl := hN.lok h0 hi
  have hm : ∀ x ∈ c.args, MOk (readRegion (base 0) (base i)) (alone w base i) x := fun x hx => by
    obtain ⟨r, q, X, h⟩ := hc x hx
    exact h.mok h0 hi
  cases c with
  | predict x => exact grd_bind (grd_predict le_rfl hl (hm x (by simp [Call.args])) hs) fun _ _ _ => trivial
  | loss x y =>
    exact grd_bind (grd_calculateLoss le_rfl hl (hm x (by simp [Call.args])) (hm y (by simp [Call.args])) hs) fun _ _ _ => trivial
  | accuracy x y =>
    exact grd_bind (grd_calculateAccuracy le_rfl hl (hm x (by simp [Call.args])) (hm y (by simp [Call.args])) hs) fun _ _ _ => trivial

/-- n goroutines make read-only calls on models with at least one layer, each of which, alone, returns without a panic and finds room in the address
range of its goroutine. -/
structure Calls (w : World α) (base : Nat → Nat) (n : Nat) (m : Nat → Model α) (c : Nat → Call) : Prop where
  start : base 0 = w.next
  model : ∀ i, i < n → ∃ net, IsNet w (m i) net ∧ 0 < net.size
  args : ∀ i, i < n → ∀ x ∈ (c i).args, ∃ r q X, IsMat w x r q X
  alone : ∀ i, i < n → ∃ res w', (c i).go (m i) (alone w base i) = .ok (res, w') ∧ w'.next ≤ base (i + 1)

theorem Calls.le {w : World α} {base : Nat → Nat} {n : Nat} {m : Nat → Model α} {c : Nat → Call} (h : Calls w base n m c) {i : Nat} (hi : i ≤ n) :
    base 0 ≤ base i := by
  induction i with
  | zero => exact le_rfl
  | succ i ih =>
    obtain ⟨res, w', e, hn⟩ := h.alone i hi
    rw [← C124_same] at e
    have := run_next_le _ e
    change base i ≤ w'.next at this
    exact (ih (by omega)).trans (this.trans hn)

theorem Calls.ok {w : World α} {base : Nat → Nat} {n : Nat} {m : Nat → Model α} {c : Nat → Call} (h : Calls w base n m c) :
    PoolOk w base n (fun i => (c i).prog (m i)) (fun i => readRegion (base 0) (base i)) (fun _ _ _ => True) := by
  refine ⟨fun _ _ => rfl, fun _ _ _ h => h, fun _ _ _ h => h, fun i hi => ?_, fun i hi => ?_, fun _ _ _ _ _ => ⟨fun _ _ h => h.elim, fun _ _ h => h, fun _ _ h => h⟩⟩
  · obtain ⟨res, w', e, hn⟩ := h.alone i hi
    exact ⟨res, w', by rw [C124_same]; exact e, hn⟩
  · obtain ⟨net, hN, hp⟩ := h.model i hi
    exact Call.safe hN hp (h.args i hi) h.start (h.le hi.le)

/-- C124: whatever the schedule, after any number of accesses
no goroutine panics; a goroutine that has returned has returned what its call returns when it is the only one; the memory that existed before, the
parameters of all layers, the optimizers, the log and the streams of random numbers are as they were; if not all have returned, another access
is possible. -/
theorem C124_calls (w : World α) (base : Nat → Nat) (n : Nat) (m : Nat → Model α) (c : Nat → Call) (h : Calls w base n m c)
    (k : Nat) (P : Pool α (Option Mat × Option α × Option Err))
    (hr : PoolRun n k (Pool.init w base fun i => (c i).prog (m i)) P) :
    (∀ i, i < n → ¬ P.Panics i) ∧
    (∀ i res, i < n → P.thr i = .ret res → ∃ w', (c i).go (m i) (alone w base i) = .ok (res, w')) ∧
    (∀ a, a < w.next → P.mem.flt a = w.flt a ∧ P.mem.outs a = w.outs a) ∧
    (∀ lp, (P.mem.lay lp).params = (w.lay lp).params) ∧
    P.mem.opt = w.opt ∧ P.mem.log = w.log ∧ P.mem.normPos = w.normPos ∧ P.mem.unifPos = w.unifPos ∧
    ((∃ i, i < n ∧ ∀ res, P.thr i ≠ .ret res) → ∃ P', PoolStep n P P') := by
  have hI := PoolInv.reach h.ok hr (PoolInv.start h.ok)
  obtain ⟨r3, ⟨-, r4⟩, ⟨-, r5⟩, -⟩ := hI.rest
  refine ⟨fun i hi => hI.no_panic h.ok hi, fun i res hi ht => ?_, fun a ha => ⟨hI.flt a (by rw [h.start]; exact ha) (fun _ _ h => h.2), hI.outs a (by rw [h.start]; exact ha)⟩,
    hI.lay, funext fun o => hI.opt o fun _ _ h => h, hI.nolog fun _ _ h => h, r4, r5, ?_⟩
  · obtain ⟨F, e, -, -, -⟩ := hI.result hi ht
    exact ⟨F, by rw [← C124_same]; exact e⟩
  · rintro ⟨i, hi, hu⟩
    exact hI.can_step h.ok hi hu

/-- C124: every schedule ends, and all schedules have the same length: there is a number N such that no schedule makes more than N accesses and all
goroutines have returned exactly when N accesses have been made. -/
theorem C124_ends (w : World α) (base : Nat → Nat) (n : Nat) (m : Nat → Model α) (c : Nat → Call) (h : Calls w base n m c) :
    ∃ N : Nat, ∀ k P, PoolRun n k (Pool.init w base fun i => (c i).prog (m i)) P →
      k ≤ N ∧ (k = N ↔ ∀ i, i < n → ∃ res, P.thr i = .ret res) := by
  refine ⟨∑ i ∈ Finset.range n, ((c i).prog (m i)).len (alone w base i), fun k P hr => ?_⟩
  have := (PoolInv.reach h.ok hr (PoolInv.start h.ok)).done_iff h.ok
  rwa [Nat.zero_add] at this

/-- Matrices in the memory that existed before or in the range of goroutine i are the same in the shared memory. -/
theorem IsMat.agree {R : Region} {hi nx : Nat} {W F : World α} (hA : AgreeOn R hi W F) {o : Mat} {r c : Nat} {V : Nat → Nat → α} (h : IsMat F o r c V)
    (hn : F.next ≤ hi) (hx : nx = F.next) (ho : ValidTab R F o.m.addr) (hrow : ∀ a, F.IsRow o r a → Valid R F a) :
    IsMat { W with next := nx } o r c V := by
  subst hx
  refine ⟨h.rows, h.cols, h.len, h.rpos, h.cpos, h.addr_lt, fun i hi => ?_⟩
  obtain ⟨a, h1, h2, h3⟩ := h.row i hi
  refine ⟨a, ?_, h2, ?_⟩
  · show (W.outs o.m.addr)[o.m.off + i]? = some a
    rw [hA.outs _ (ho.within hn)]
    exact h1
  · show W.flt a = _
    rw [hA.flt a ((hrow a ⟨i, hi, h1⟩).within hn), h3]

theorem alone_frame {w : World α} {base : Nat → Nat} {i : Nat} (h : w.next ≤ base i) : OnlyAllocs w (alone w base i) :=
  ⟨h, fun _ _ _ => rfl, fun _ _ _ => rfl, fun _ _ _ => rfl, fun _ _ _ => rfl, rfl, rfl, fun _ => rfl, fun _ => rfl, fun _ => rfl, rfl⟩

/-- Predict alone, from any free address on. -/
theorem predict_alone {w : World α} {m : Model α} {net : Net α} (hN : IsNet w m net) (hp : 0 < net.size) {x : Mat} {r : Nat} {X : Nat → Nat → α}
    (hX : IsMat w x r (net.dim 0) X) (hacc : m.accType = 0 ∨ m.accType = 1 ∨ m.accType = 2) {base : Nat → Nat} {i : Nat} (h : w.next ≤ base i) :
    ∃ o w', (Call.predict x).go m (alone w base i) = .ok ((some o, none, none), w') ∧
      Fresh (alone w base i) w' o r (if m.accType = 1 then 1 else net.dim net.size) (decoded m.accType (net.dim net.size) (netOut net X net.size)) := by
  have hf := alone_frame h
  obtain ⟨p, w', e, -, -, hg, -⟩ := wp_iff.1 (predict_spec (hN.frame hf (Static.of_frame hf fun _ _ h => h) (fun _ h => h) (fun _ _ h => h)) hp
    (hX.frame hf (fun h => h) (fun _ _ h => h)))
  obtain ⟨h1, h2⟩ := hg hacc
  obtain ⟨o, er⟩ := p
  obtain rfl : er = none := h1
  exact ⟨o, w', (bind_ok e).trans rfl, h2⟩

/-- n goroutines call Predict on well-formed models (the same or different ones) and inputs; every goroutine has room in its address range. -/
structure Predictions (w : World α) (base : Nat → Nat) (n : Nat) (m : Nat → Model α) (net : Nat → Net α) (x : Nat → Mat) (r : Nat → Nat)
    (X : Nat → Nat → Nat → α) : Prop where
  start : base 0 = w.next
  model : ∀ i, i < n → IsNet w (m i) (net i) ∧ 0 < (net i).size
  acc : ∀ i, i < n → (m i).accType = 0 ∨ (m i).accType = 1 ∨ (m i).accType = 2
  input : ∀ i, i < n → IsMat w (x i) (r i) ((net i).dim 0) (X i)
  room : ∀ i, i < n → base i ≤ base (i + 1) ∧ wlp (predict (m i) (x i)) (alone w base i) (fun _ w' => w'.next ≤ base (i + 1))

theorem Predictions.le {w : World α} {base : Nat → Nat} {n : Nat} {m : Nat → Model α} {net : Nat → Net α} {x : Nat → Mat} {r : Nat → Nat}
    {X : Nat → Nat → Nat → α} (h : Predictions w base n m net x r X) {i : Nat} (hi : i ≤ n) : w.next ≤ base i := by
  induction i with
  | zero => exact h.start.ge
  | succ i ih => exact (ih (by omega)).trans (h.room i hi).1

theorem Predictions.calls {w : World α} {base : Nat → Nat} {n : Nat} {m : Nat → Model α} {net : Nat → Net α} {x : Nat → Mat} {r : Nat → Nat}
    {X : Nat → Nat → Nat → α} (h : Predictions w base n m net x r X) : Calls w base n m (fun i => .predict (x i)) := by
  refine ⟨h.start, fun i hi => ⟨net i, h.model i hi⟩, fun i hi y hy => ?_, fun i hi => ?_⟩
  · obtain rfl : y = x i := by simpa [Call.args] using hy
    exact ⟨_, _, _, h.input i hi⟩
  · obtain ⟨o, w', e, -⟩ := predict_alone (h.model i hi).1 (h.model i hi).2 (h.input i hi) (h.acc i hi) (h.le hi.le)
    refine ⟨_, w', e, ?_⟩
    obtain ⟨p, w1, e1, e2⟩ : ∃ p w1, predict (m i) (x i) (alone w base i) = .ok (p, w1) ∧ w1 = w' := by
      change Go.bind _ _ _ = _ at e
      unfold Go.bind at e
      split at e
      · cases e
      · rename_i p w1 hp
        obtain ⟨o1, er⟩ := p
        cases e
        exact ⟨_, _, hp, rfl⟩
    exact e2 ▸ (h.room i hi).2 p w1 e1

/-- C124: in every state that n concurrent Predict calls reach, a call that has returned has returned no error, and its result is, in the memory as it
is then, the matrix with the decoded values of its network on its input (C31, C50), whatever the other goroutines have done meanwhile; no goroutine panics. -/
theorem C124_predict (w : World α) (base : Nat → Nat) (n : Nat) (m : Nat → Model α) (net : Nat → Net α) (x : Nat → Mat) (r : Nat → Nat)
    (X : Nat → Nat → Nat → α) (h : Predictions w base n m net x r X) (k : Nat) (P : Pool α (Option Mat × Option α × Option Err))
    (hr : PoolRun n k (Pool.init w base fun i => (Call.predict (x i)).prog (m i)) P) :
    (∀ i, i < n → ¬ P.Panics i) ∧
    ∀ i res, i < n → P.thr i = .ret res → ∃ o, res = (some o, none, none) ∧
      IsMat (P.view i) o (r i) (if (m i).accType = 1 then 1 else (net i).dim (net i).size)
        (decoded (m i).accType ((net i).dim (net i).size) (netOut (net i) (X i) (net i).size)) := by
  have hc := h.calls
  have hI := PoolInv.reach hc.ok hr (PoolInv.start hc.ok)
  refine ⟨fun i hi => hI.no_panic hc.ok hi, fun i res hi ht => ?_⟩
  obtain ⟨F, e, hA, hn, -⟩ := hI.result hi ht
  rw [C124_same] at e
  obtain ⟨o, w', e', hF⟩ := predict_alone (h.model i hi).1 (h.model i hi).2 (h.input i hi) (h.acc i hi) (h.le hi.le)
  cases e'.symm.trans e
  obtain ⟨res', w', e1, e2⟩ := hc.alone i hi
  cases e1.symm.trans e
  refine ⟨o, rfl, IsMat.agree hA hF.mat e2 hn.symm (.inr ⟨hF.fresh_outer, hF.mat.addr_lt⟩) fun a ha => .inr ⟨hF.fresh a ha, ?_⟩⟩
  obtain ⟨k, hk, h1⟩ := ha
  obtain ⟨a', h2, h3, -⟩ := hF.mat.row k hk
  cases h1.symm.trans h2
  exact h3

/-- C124: there are always address ranges with room: the hypotheses can be met for any number of goroutines. -/
theorem C124_room (w : World α) (n : Nat) (m : Nat → Model α) (net : Nat → Net α) (x : Nat → Mat) (r : Nat → Nat) (X : Nat → Nat → Nat → α)
    (hN : ∀ i, i < n → IsNet w (m i) (net i) ∧ 0 < (net i).size)
    (hacc : ∀ i, i < n → (m i).accType = 0 ∨ (m i).accType = 1 ∨ (m i).accType = 2)
    (hX : ∀ i, i < n → IsMat w (x i) (r i) ((net i).dim 0) (X i)) : ∃ base, Predictions w base n m net x r X := by
  let next (i b : Nat) : Nat := match predict (m i) (x i) { w with next := b } with
    | .ok (_, w') => w'.next
    | .error _ => b
  let base : Nat → Nat := fun i => Nat.rec w.next (fun i b => next i b) i
  have hs : ∀ i, base (i + 1) = next i (base i) := fun _ => rfl
  have hle : ∀ i, base i ≤ base (i + 1) := by
    intro i
    rw [hs]
    show _ ≤ (match predict (m i) (x i) { w with next := base i } with | .ok (_, w') => w'.next | .error _ => base i)
    split
    · rename_i p w' e
      rw [← run_predictP] at e
      exact run_next_le _ e
    · exact le_rfl
  refine ⟨base, rfl, hN, hacc, hX, fun i hi => ⟨hle i, fun p w' e => ?_⟩⟩
  rw [hs]
  show _ ≤ (match predict (m i) (x i) { w with next := base i } with | .ok (_, w') => w'.next | .error _ => base i)
  change predict (m i) (x i) { w with next := base i } = _ at e
  rw [e]

/-- Predict on a model whose first layer is a ReLU, leaky ReLU or dropout layer writes the `reluInputs` field of that layer. -/
theorem predict_upto {w : World α} {m : Model α} {net : Net α} (hN : IsNet w m net) (hp : 0 < net.size) {x : Mat} {r : Nat} {X : Nat → Nat → α}
    (hX : IsMat w x r (net.dim 0) X)
    (hk : (net.L 0).kind = .hidden ∨ (net.L 0).kind = .leaky ∨ (net.L 0).kind = .dropout) :
    ∃ o, GetsTo (.setRelu (net.lp 0) o) ((Call.predict x).prog m) w := by
  have hL := hN.lay 0 hp
  obtain ⟨⟨o, er⟩, w', e, h1, -⟩ := wp_iff.1 (affine_spec hL (x := x) (r := r) (X := X) (by rw [hN.ins 0 hp]; exact hX))
  obtain rfl : er = none := h1
  rw [← affine_params, ← run_affineP] at e
  refine ⟨o, GetsTo.bind (GetsTo.bind (GetsTo.bind ?_ _) _) _⟩
  have hinf : GetsTo (.setRelu (net.lp 0) o) (inferP (net.lp 0) x : Prog α _) w := by
    unfold inferP
    refine GetsTo.after (V' := w) (x := (w.lay (net.lp 0)).params) (by rw [prog_prim]; rfl) (GetsTo.after e ?_)
    have hkind : (w.lay (net.lp 0)).params.kind = (net.L 0).kind := hL.kind
    show GetsTo _ (match (w.lay (net.lp 0)).params.kind with
      | .hidden | .dropout => _
      | .linear => _
      | .sigmoid => _
      | .leaky => _
      | .softmax => _) w'
    rw [hkind]
    rcases hk with hk | hk | hk <;> rw [hk] <;> exact .here
  have hloop : ∀ n, GetsTo (.setRelu (net.lp 0) o) (forwardLoopP m x (n + 1)) w := by
    intro n
    induction n with
    | zero =>
      unfold forwardLoopP
      refine GetsTo.after (V' := w) (x := ([x], x, none)) rfl (GetsTo.after (V' := w) (x := net.lp 0) ?_ (GetsTo.bind hinf _))
      rw [run_listGetP, hN.ptrs]
      simp [listGet, hp]
      rfl
    | succ n ih => exact GetsTo.bind ih _
  rw [hN.size, Int.toNat_natCast]
  obtain ⟨n, hn⟩ : ∃ n, net.size = n + 1 := ⟨net.size - 1, by omega⟩
  rw [hn]
  exact hloop n

/-- C124, the limit of the claim: the calls are not free of data races in Go's sense.  On a model whose first layer is a ReLU, leaky ReLU or dropout layer
there is a schedule that leads to a state in which two goroutines are both about to write the field `reluInputs` of the same layer object
(network.go:111, 459, 821), with nothing to order the two writes.  (C124_predict holds nevertheless because Predict never reads that field.) -/
theorem C124_race (w : World α) (base : Nat → Nat) (n : Nat) (m : Model α) (net : Net α) (x : Nat → Mat) (r : Nat → Nat)
    (X : Nat → Nat → Nat → α) (h : Predictions w base n (fun _ => m) (fun _ => net) x r X)
    (hk : (net.L 0).kind = .hidden ∨ (net.L 0).kind = .leaky ∨ (net.L 0).kind = .dropout) (i j : Nat) (hi : i < n) (hj : j < n) (hij : i ≠ j) :
    ∃ k P o o' s t, PoolRun n k (Pool.init w base fun i => (Call.predict (x i)).prog m) P ∧
      P.thr i = .op (.setRelu (net.lp 0) o) s ∧ P.thr j = .op (.setRelu (net.lp 0) o') t := by
  have hup : ∀ i, i < n → ∃ o, GetsTo (.setRelu (net.lp 0) o) ((Call.predict (x i)).prog m) (alone w base i) := fun i hi => by
    have hf := alone_frame (h.le hi.le)
    exact predict_upto ((h.model i hi).1.frame hf (Static.of_frame hf fun _ _ h => h) (fun _ h => h) (fun _ _ h => h)) (h.model i hi).2
      ((h.input i hi).frame hf (fun h => h) (fun _ _ h => h)) hk
  obtain ⟨o, h1⟩ := hup i hi
  obtain ⟨o', h2⟩ := hup j hj
  obtain ⟨k, P, s, t, g⟩ := PoolInv.upto_two h.calls.ok hi hj hij h1 h2
  exact ⟨k, P, o, o', s, t, g⟩

/-- Five goroutines that call Predict on the same six-layer model (one layer of each type, the first a ReLU layer) and the same input with four rows
meet the hypotheses of C124_calls, C124_ends, C124_predict and C124_race. -/
example : ∃ (w : World ℝ) (m : Model ℝ) (net : Net ℝ) (x : Mat) (base : Nat → Nat), net.size = 6 ∧ m.accType = 1 ∧ (net.L 0).kind = .hidden ∧
    Predictions w base 5 (fun _ => m) (fun _ => net) (fun _ => x) (fun _ => 4) (fun _ i j => (i : ℝ) - j) ∧
    Calls w base 5 (fun _ => m) (fun _ => .predict x) := by
  obtain ⟨w, net, x, h1, hL, -, h2, -, h3, -, -⟩ := exists_net (α := ℝ) 6 demoL demoL_pos demoL_chain
    { newModel with accType := 1 } (r := 4) (by decide) (fun i j => (i : ℝ) - j)
  obtain ⟨base, hb⟩ := C124_room w 5 (fun _ => net.model { newModel with accType := 1 }) (fun _ => net) (fun _ => x) (fun _ => 4)
    (fun _ i j => (i : ℝ) - j) (fun _ _ => ⟨h2, by omega⟩) (fun _ _ => .inr (.inl rfl)) (fun _ _ => h3)
  exact ⟨w, _, net, x, base, h1, rfl, by rw [hL]; rfl, hb, hb.calls⟩

end NN
