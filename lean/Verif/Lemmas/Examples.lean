import Verif.Model.Examples
import Verif.Lemmas.FitRun
/- The hand-written training programs: one step of them is one training step. -/

set_option linter.unusedSectionVars false

namespace NN
variable {α β γ : Type} [Flt α]
open Go

theorem go_inv {x : Go α β} {f : β → Go α γ} {w w' : World α} {c : γ} (h : (x >>= f) w = .ok (c, w')) :
    ∃ b w1, x w = .ok (b, w1) ∧ f b w1 = .ok (c, w') := by
  change Go.bind x f w = _ at h
  unfold Go.bind at h
  cases e : x w with
  | error p => rw [e] at h; cases h
  | ok p => obtain ⟨b, w1⟩ := p; rw [e] at h; exact ⟨b, w1, rfl, h⟩

variable {w w' : World α} {m : Model α} {net : Net α} {r : Nat} {o mask : Nat → Mat} {V M G D : Nat → Nat → Nat → α}
  {op : Nat → Nat} {S : Nat → OptSpec α}

theorem listGet_ok {xs : List β} {k : Nat} {b : β} (h : xs[k]? = some b) : (listGet xs (k : Int) : Go α β) w = .ok (b, w) := by
  simp [listGet, h]; rfl

theorem listGet_inv {xs : List β} {i : Int} {b : β} (h : (listGet xs i : Go α β) w = .ok (b, w')) : w' = w := by
  by_cases hi : 0 ≤ i
  · cases hx : xs[i.toNat]? with
    | none => simp [listGet, hi, hx] at h; cases h
    | some b => simp [listGet, hi, hx] at h; cases h; rfl
  · simp [listGet, hi] at h; cases h

theorem forwardLoop_inv {x : Mat} {n : Nat} {outs : List Mat} {out : Mat} {lp : Nat} (hl : m.layers[n]? = some lp)
    (h : forwardLoop m true x (n + 1) w = .ok ((outs, out, none), w')) :
    ∃ outs0 out0 w1, forwardLoop m true x n w = .ok ((outs0, out0, none), w1) ∧ layerForward lp out0 w1 = .ok ((out, none), w') ∧
      outs = outs0 ++ [out] := by
  unfold forwardLoop at h
  obtain ⟨⟨outs0, out0, e⟩, w1, h1, h2⟩ := go_inv h
  rcases e with _ | e
  swap
  · cases h2
  dsimp only at h2
  obtain ⟨lp', w2, h3, h4⟩ := go_inv h2
  rw [listGet_ok hl] at h3
  cases h3
  obtain ⟨⟨out', e⟩, w3, h5, h6⟩ := go_inv h4
  rcases e with _ | e
  swap
  · cases h6
  cases h6
  refine ⟨outs0, out0, w1, h1, ?_, rfl⟩
  unfold forwardStep at h5
  obtain ⟨l, w4, h7, h8⟩ := go_inv h5
  cases h7
  rw [if_neg (by simp)] at h8
  exact h8

/-- The forward pass of a model of three layers consists of the forward passes of its layers. -/
theorem forward3 (hN : IsNet w m net) (hs : net.size = 3) {x : Mat} {outs : List Mat}
    (h : modelForward m x true w = .ok ((outs, none), w')) :
    ∃ o1 o2 o3 w1 w2, layerForward (net.lp 0) x w = .ok ((o1, none), w1) ∧ layerForward (net.lp 1) o1 w1 = .ok ((o2, none), w2) ∧
      layerForward (net.lp 2) o2 w2 = .ok ((o3, none), w') ∧ outs = [x, o1, o2, o3] := by
  have hms : m.modelSize.toNat = 3 := by rw [hN.size, hs]; rfl
  have gl : ∀ i, i < 3 → m.layers[i]? = some (net.lp i) := fun i hi => hN.get_layer (by omega)
  unfold modelForward at h
  rw [hms] at h
  obtain ⟨⟨outs', out, e⟩, w1, h1, h2⟩ := go_inv h
  cases h2
  obtain ⟨s2, o2, w2, h3, h4, rfl⟩ := forwardLoop_inv (gl 2 (by omega)) h1
  obtain ⟨s1, o1, w1, h5, h6, rfl⟩ := forwardLoop_inv (gl 1 (by omega)) h3
  obtain ⟨s0, o0, w0, h7, h8, rfl⟩ := forwardLoop_inv (gl 0 (by omega)) h5
  cases h7
  exact ⟨o1, o2, out, w1, w2, h8, h6, h4, rfl⟩

theorem fusedLast_inv {k : Int} {b : Bool} (h : fusedLast m k w = .ok (b, w')) : w' = w ∧ (b = true → m.lossType = 2) := by
  unfold fusedLast at h
  obtain ⟨lp, w1, h1, h2⟩ := go_inv h
  have e : w1 = w := listGet_inv h1
  obtain ⟨l, w2, h3, h4⟩ := go_inv h2
  cases h3
  cases h4
  exact ⟨e, fun h => (of_decide_eq_true h).2⟩

theorem backwardLoop_inv {outs : List Mat} {k : Nat} {gs gs' : List Gradients} {d : Mat} {lp : Nat} {x : Mat}
    (hl : m.layers[k]? = some lp) (hx : outs[k]? = some x) (hk : m.lossType = 2 → (k : Int) ≠ m.modelSize - 1)
    (h : backwardLoop m outs (k + 1) gs d w = .ok ((gs', none), w')) :
    ∃ g w1, layerBackward lp x d w = .ok (g, w1) ∧ g.err = none ∧
      backwardLoop m outs k (gs ++ [⟨g.dWeights, g.dBiases⟩]) g.dInputs w1 = .ok ((gs', none), w') := by
  unfold backwardLoop at h
  obtain ⟨b, w1, h1, h2⟩ := go_inv h
  obtain ⟨rfl, hb⟩ := fusedLast_inv h1
  rw [if_neg (fun h => hk (hb h.1) h.2)] at h2
  obtain ⟨_, _, h3, h4⟩ := go_inv h2
  rw [listGet_ok hl] at h3
  cases h3
  obtain ⟨_, _, h5, h6⟩ := go_inv h4
  rw [listGet_ok hx] at h5
  cases h5
  obtain ⟨g, w2, h7, h8⟩ := go_inv h6
  cases e : g.err with
  | some er => rw [e] at h8; cases h8
  | none =>
    rw [e] at h8
    exact ⟨g, w2, h7, e, h8⟩

/-- The backward pass of a model of three layers that does not end with softmax and cross-entropy. -/
theorem backward3 (hN : IsNet w m net) (hs : net.size = 3) (hf : m.lossType ≠ 2) {loss : Loss} (hl : m.loss = some loss) {x o1 o2 o3 y : Mat}
    {gs : List Gradients} (h : modelBackward m [x, o1, o2, o3] y w = .ok ((gs, none), w')) :
    ∃ d w1 g3 w2 g2 w3 g1, loss.backward o3 y w = .ok ((d, none), w1) ∧ layerBackward (net.lp 2) o2 d w1 = .ok (g3, w2) ∧ g3.err = none ∧
      layerBackward (net.lp 1) o1 g3.dInputs w2 = .ok (g2, w3) ∧ g2.err = none ∧ layerBackward (net.lp 0) x g2.dInputs w3 = .ok (g1, w') ∧
      g1.err = none ∧ gs = [⟨g3.dWeights, g3.dBiases⟩, ⟨g2.dWeights, g2.dBiases⟩, ⟨g1.dWeights, g1.dBiases⟩] := by
  have hms : m.modelSize = ((3 : Nat) : Int) := by rw [hN.size, hs]
  have gl : ∀ i, i < 3 → m.layers[i]? = some (net.lp i) := fun i hi => hN.get_layer (by omega)
  unfold modelBackward at h
  obtain ⟨b, w1, h1, h2⟩ := go_inv h
  obtain ⟨rfl, hb⟩ := fusedLast_inv h1
  rw [if_neg (fun h => hf (hb h))] at h2
  obtain ⟨_, _, h3, h4⟩ := go_inv h2
  rw [hms, listGet_ok (b := o3) rfl] at h3
  cases h3
  rw [hl] at h4
  obtain ⟨_, _, h5, h6⟩ := go_inv h4
  cases h5
  obtain ⟨⟨d, e⟩, w2, h7, h8⟩ := go_inv h6
  rcases e with _ | e
  swap
  · cases h8
  dsimp only at h8
  rw [hms, Int.toNat_natCast] at h8
  obtain ⟨g3, w3, a1, a2, h9⟩ := backwardLoop_inv (x := o2) (gl 2 (by omega)) rfl (fun h => absurd h hf) h8
  obtain ⟨g2, w4, a3, a4, h10⟩ := backwardLoop_inv (x := o1) (gl 1 (by omega)) rfl (fun h => absurd h hf) h9
  obtain ⟨g1, w5, a5, a6, h11⟩ := backwardLoop_inv (x := x) (gl 0 (by omega)) rfl (fun h => absurd h hf) h10
  unfold backwardLoop at h11
  cases h11
  exact ⟨d, w2, g3, w3, g2, w4, g1, h7, a1, a2, a3, a4, a5, a6, rfl⟩

/-- The backward pass of a model of three layers that ends with softmax and cross-entropy. -/
theorem backward3_fused (hN : IsNet w m net) (hs : net.size = 3) (hf : Fused m net) {x o1 o2 o3 y : Mat} {Y A B : Nat → Nat → α}
    (h2m : IsMat w o2 r (net.dim 2) A) (h3m : IsMat w o3 r (net.dim 3) B) (hym : IsMat w y r (net.dim 3) Y)
    {gs : List Gradients} (h : modelBackward m [x, o1, o2, o3] y w = .ok ((gs, none), w')) :
    ∃ g3 w2 g2 w3 g1, softmaxBackwardCE (net.lp 2) o2 y o3 w = .ok (g3, w2) ∧ g3.err = none ∧
      layerBackward (net.lp 1) o1 g3.dInputs w2 = .ok (g2, w3) ∧ g2.err = none ∧ layerBackward (net.lp 0) x g2.dInputs w3 = .ok (g1, w') ∧
      g1.err = none ∧ gs = [⟨g3.dWeights, g3.dBiases⟩, ⟨g2.dWeights, g2.dBiases⟩, ⟨g1.dWeights, g1.dBiases⟩] := by
  have hms : m.modelSize = ((3 : Nat) : Int) := by rw [hN.size, hs]
  have gl : ∀ i, i < 3 → m.layers[i]? = some (net.lp i) := fun i hi => hN.get_layer (by omega)
  have hf' : (net.L 2).kind = .softmax ∧ m.lossType = 2 := by
    have := hf
    unfold Fused at this
    rw [hs] at this
    exact this
  have h31 : m.modelSize - 1 = ((2 : Nat) : Int) := by rw [hms]; rfl
  unfold modelBackward at h
  rw [h31] at h
  obtain ⟨b, w1, h1, h2⟩ := go_inv h
  rw [fusedLast_run hN (by omega)] at h1
  cases h1
  rw [if_pos (by simpa using hf')] at h2
  obtain ⟨_, _, h3, h4⟩ := go_inv h2
  rw [listGet_ok (gl 2 (by omega))] at h3
  cases h3
  obtain ⟨_, _, h3, h5⟩ := go_inv h4
  rw [listGet_ok (b := o2) rfl] at h3
  cases h3
  obtain ⟨_, _, h3, h6⟩ := go_inv h5
  rw [hms, listGet_ok (b := o3) rfl] at h3
  cases h3
  obtain ⟨g3, w2, h7, h8⟩ := go_inv h6
  have hsp := softmaxBackwardCE_spec (hN.lay 2 (by omega)) (r := r) (x := o2) (y := y) (d := o3) (X := A) (Y := Y) (D := B)
    (by rw [hN.ins 2 (by omega)]; exact h2m) (by rw [hN.outs 2 (by omega)]; exact hym) (by rw [hN.outs 2 (by omega)]; exact h3m)
  unfold wp at hsp
  rw [h7] at hsp
  obtain ⟨hg, ha⟩ := hsp
  rw [hg.err] at h8
  dsimp only at h8
  rw [hms, Int.toNat_natCast] at h8
  have hN1 : IsNet w2 m net := hN.frame ha (Static.of_frame ha fun _ _ h => h) (fun _ h => h) (fun _ _ h => h)
  have hskip : backwardLoop m [x, o1, o2, o3] 2 [⟨g3.dWeights, g3.dBiases⟩] g3.dInputs w2 = .ok ((gs, none), w') := by
    unfold backwardLoop at h8
    obtain ⟨b, w3, h9, h10⟩ := go_inv h8
    rw [fusedLast_run hN1 (show 2 < net.size by omega)] at h9
    cases h9
    rw [if_pos ⟨by simpa using hf', h31.symm⟩] at h10
    exact h10
  obtain ⟨g2, w4, a3, a4, h10⟩ := backwardLoop_inv (x := o1) (gl 1 (by omega)) rfl (fun _ h => by rw [h31] at h; omega) hskip
  obtain ⟨g1, w5, a5, a6, h11⟩ := backwardLoop_inv (x := x) (gl 0 (by omega)) rfl (fun _ h => by rw [h31] at h; omega) h10
  unfold backwardLoop at h11
  cases h11
  exact ⟨g3, w2, g2, w4, g1, h7, hg.err, a3, a4, a5, a6, rfl⟩

/-- The state in a hand-written training step between forward and backward pass. -/
structure MidStep (w0 w : World α) (m : Model α) (net : Net α) (op : Nat → Nat) (S : Nat → OptSpec α) (r : Nat) (X Y : Nat → Nat → α)
    (y : Mat) (o mask : Nat → Mat) : Prop where
  tape : Tape w m net r o mask (trainVals net r (fun q => w0.unif (w0.unifPos + q)) X)
    (fun k => dropBits (net.L k) fun q => w0.unif (w0.unifPos + (dropDraws net r k + q)))
  free : FreeOut w net r o mask y
  y : IsMat w y r (net.dim net.size) Y
  task : IsTask w m net op S
  out : ∀ a, w.IsRow (o net.size) r a → w0.next ≤ a
  opt : ∀ i a, i < net.size → w.IsOptRow (w.opt (op i)) (net.L i).n 1 a → a < w0.next
  par : ∀ a, w.IsNetParam net a ↔ w0.IsNetParam net a
  pos : w.unifPos = w0.unifPos + dropDraws net r net.size
  stat : Static w0 w
  frame : Frame { lay := fun a => ∃ i, i < net.size ∧ a = net.lp i
                  unif := ∃ i, i < net.size ∧ (net.L i).kind = .dropout } w0 w

theorem midStep_forward (h : IsTask w m net op S) (hs : net.size = 3) {x y : Mat} {X Y : Nat → Nat → α}
    (hX : IsMat w x r (net.dim 0) X) (hY : IsMat w y r (net.dim net.size) Y) :
    ∃ o1 o2 o3 w1 w2 w3 mask, layerForward (net.lp 0) x w = .ok ((o1, none), w1) ∧ layerForward (net.lp 1) o1 w1 = .ok ((o2, none), w2) ∧
      layerForward (net.lp 2) o2 w2 = .ok ((o3, none), w3) ∧
      ∃ o, (List.range (net.size + 1)).map o = [x, o1, o2, o3] ∧ MidStep w w3 m net op S r X Y y o mask := by
  obtain ⟨⟨outs, e⟩, w3, h0, o, mask, V0, M0, he1, he2, ho, hV, hrun⟩ := wp_iff.1 (modelForward_spec h.isNet hX true)
  obtain rfl : e = none := he2
  dsimp only at he1
  obtain ⟨o1, o2, o3, w1, w2, f1, f2, f3, rfl⟩ := forward3 h.isNet hs h0
  have hdr : ∀ k, k < net.size → (net.L k).kind = .dropout → true = true := fun _ _ _ => rfl
  refine ⟨o1, o2, o3, w1, w2, w3, mask, f1, f2, f3, o, he1.symm, ?_, freeOut_of_run h.isNet h.pos hdr hrun hY,
    hY.frame hrun.frame (fun h => h) (fun _ _ h => h),
    h.frame hrun.frame hrun.stat (fun _ h => h) (fun _ h => h) (fun _ _ h => h) (fun _ _ _ _ h => h), ?_,
    fun i a hi h1 => (h.opt i hi).optRow_lt (((h.opt i hi).optRow_frame hrun.frame (fun h => h) (fun _ h => h) a).1 h1),
    h.isNet.isParam hrun.frame (fun _ h => h), ?_, hrun.stat, ?_⟩
  · exact (tape_of_run h.isNet h.own hdr hX hrun ho hV).congr
      (fun k hk => run_vals hrun hV k hk) fun k hk hd => (hrun.valD k hk ⟨rfl, hd⟩).2
  · have := hrun.res 2 (by omega)
    rw [hs]
    exact this.fresh
  · rw [hrun.pos, if_pos rfl]
  · exact hrun.frame.weaken (fun _ _ h => h) (fun _ _ h => h) (fun _ _ h => h) (fun _ _ h => h) (fun h => h.2) id id

/-- The loss may write to the predictions, if it does not change them. -/
theorem MidStep.loss {w0 : World α} {X Y : Nat → Nat → α} {y : Mat} (h : MidStep w0 w m net op S r X Y y o mask)
    (hf : Frame { flt := w.IsRow (o net.size) r } w w')
    (hm : IsMat w' (o net.size) r (net.dim net.size) (trainVals net r (fun q => w0.unif (w0.unifPos + q)) X net.size)) :
    MidStep w0 w' m net op S r X Y y o mask := by
  have ht := h.tape
  have hN := ht.isNet
  have hst : Static w w' := Static.of_frame hf fun _ _ h => h
  have hrow := (ht.mats net.size le_rfl).isRow_frame hf (fun h => h)
  have hpar := hN.isParam hf (fun _ h => h)
  have hle0 := h.frame.next_le
  have hoptlt : ∀ i a, i < net.size → w.IsOptRow (w.opt (op i)) (net.L i).n 1 a → ¬ w.IsRow (o net.size) r a := fun i a hi h1 h2 => by
    have := h.opt i a hi h1
    have := h.out a h2
    omega
  refine ⟨⟨hN.frame hf hst (fun _ h => h) h.free.params, ?_, ?_, ?_, ?_⟩, ⟨?_, ?_, ?_, ?_, ?_⟩,
    h.y.frame hf (fun h => h) h.free.targets, h.task.frame hf hst (fun _ h => h) (fun _ h => h) h.free.params hoptlt,
    fun a ha => h.out a ((hrow a).1 ha),
    fun i a hi h1 => h.opt i a hi (((h.task.opt i hi).optRow_frame hf (fun h => h) (fun _ h => h) a).1 h1), fun a => (hpar a).trans (h.par a), by rw [hf.unifPos (fun h => h)]; exact h.pos,
    h.stat.trans hle0 hst, ?_⟩
  · intro k hk
    by_cases e : k = net.size
    · subst e; exact hm
    · exact (ht.mats k hk).frame hf (fun h => h) fun a => h.free.outs k a (by omega)
  · intro k hk hd
    rw [hf.lay _ (hN.lay k hk).lt (fun h => h)]
    exact ht.relu k hk hd
  · intro k hk hd
    rw [hf.lay _ (hN.lay k hk).lt (fun h => h)]
    exact ht.soft k hk hd
  · intro k hk hd
    rw [hf.lay _ (hN.lay k hk).lt (fun h => h)]
    obtain ⟨a, b⟩ := ht.drop k hk hd
    exact ⟨a, b.frame hf (fun h => h) fun a => h.free.masks k a hk hd⟩
  · exact h.free.distinct.frame hf (ht.mats net.size le_rfl).addr_lt (fun h => h)
  · exact fun k a hk h1 h2 => h.free.outs k a hk (((ht.mats k hk.le).isRow_frame hf (fun h => h) a).1 h1) ((hrow a).1 h2)
  · exact fun k a hk hd h1 h2 => h.free.masks k a hk hd (((ht.drop k hk hd).2.isRow_frame hf (fun h => h) a).1 h1) ((hrow a).1 h2)
  · exact fun a h1 h2 => h.free.params a ((hpar a).1 h1) ((hrow a).1 h2)
  · exact fun a h1 h2 => h.free.targets a ((h.y.isRow_frame hf (fun h => h) a).1 h1) ((hrow a).1 h2)
  · frames h.frame hf
    · intro a ha h3
      have := h.out a h3
      omega

/-- The model whose layers from k on are those of `net'`. -/
def Net.from (net net' : Net α) (k : Nat) : Net α := { net with L := fun i => if k ≤ i then net'.L i else net.L i }

/-- One call of `Update`, when the layers after k have been updated already. -/
theorem updateOne_spec {w0 : World α} {gs : List Gradients} (h0 : IsTask w m net op S) (hp : ∀ a, w.IsNetParam net a → a < w0.next)
    (hg : HasGrads w0 w net r 0 V G gs) {k : Nat} (hk : k < net.size) {w1 : World α} {g : Grads}
    (hgk : gs[net.size - 1 - k]? = some ⟨g.dWeights, g.dBiases⟩)
    (ht : IsTask w1 m (net.from (stepNet net S r V G) (k + 1)) op (fun i => if k + 1 ≤ i then stepOpts S r V G i else S i))
    (hf : Frame { flt := w.IsNetParam net, opt := fun a => ∃ i, i < net.size ∧ a = op i } w w1) :
    ∃ w2, updateOne (op k) (net.lp k) g w1 = .ok (none, w2) ∧
      IsTask w2 m (net.from (stepNet net S r V G) k) op (fun i => if k ≤ i then stepOpts S r V G i else S i) ∧
      Frame { flt := w.IsNetParam net, opt := fun a => ∃ i, i < net.size ∧ a = op i } w w2 := by
  set net1 := stepNet net S r V G with hnet1
  set S1 := stepOpts S r V G with hS1
  have ek : (net.from net1 (k + 1)).L k = net.L k := by unfold Net.from; simp
  have hself : (if k + 1 ≤ k then S1 k else S k) = S k := if_neg (by omega)
  have hN := ht.isNet
  have hL : IsLayer w1 (net.lp k) (net.wm k) (net.bm k) (net.L k) := by
    have := hN.lay k hk
    rwa [ek] at this
  obtain ⟨dw, db, eg, f1, f2, -⟩ := hg.get k (Nat.zero_le _) hk
  rw [hgk] at eg
  obtain ⟨rfl, rfl⟩ : g.dWeights = dw ∧ g.dBiases = db := by simpa using eg
  have hold : ∀ {a : Nat}, w0.next ≤ a → ¬ w.IsNetParam net a := fun h1 h2 => by have := hp _ h2; omega
  have hGW := f1.mat.frame hf (fun h => h) fun a ha => hold (f1.fresh a ha)
  have hGB := f2.mat.frame hf (fun h => h) fun a ha => hold (f2.fresh a ha)
  obtain ⟨e, w2, h1, rfl, h2, h3⟩ := wp_iff.1 (task_update (net' := net.from net1 k) (S' := fun i => if k ≤ i then S1 i else S i) ht hk
    (GW := gradW r (V k) (G k)) (GB := gradB r (G k)) (dw := g.dWeights) (db := g.dBiases)
    (by rw [ek]; exact hGW) (by rw [ek]; exact hGB) rfl rfl rfl rfl rfl (by
      rw [ek, hself]
      unfold Net.from
      dsimp only
      rw [if_pos le_rfl]
      rfl) (by
      intro i hi
      unfold Net.from
      dsimp only
      by_cases hik : k ≤ i
      · rw [if_pos hik, if_pos (by omega)]
      · rw [if_neg hik, if_neg (by omega)]) (by rw [if_pos le_rfl, hself]; rfl) (by
      intro i hi
      by_cases hik : k ≤ i
      · simp only [if_pos hik, if_pos (show k + 1 ≤ i by omega)]
      · simp only [if_neg hik, if_neg (show ¬ k + 1 ≤ i by omega)]))
  refine ⟨w2, ?_, h2, ?_⟩
  · unfold updateOne
    refine (bind_ok rfl).trans ?_
    rw [hL.weights, hL.biases]
    exact h1
  · have hpe : ∀ a, w1.IsNetParam (net.from net1 (k + 1)) a ↔ w.IsNetParam net a := fun a =>
      (isNetParam_congr (net := net) (net' := net.from net1 (k + 1)) rfl rfl rfl
        (fun i => by unfold Net.from; dsimp only; split <;> rfl) w1 a).trans (h0.isNet.isParam hf (fun _ h => h) a)
    frames hf h3
    · exact fun a _ h => (hpe a).1 h

/-- The updates of three layers, last layer first. -/
theorem update3 {w0 : World α} (h : IsTask w m net op S) (hs : net.size = 3) (hp : ∀ a, w.IsNetParam net a → a < w0.next)
    {g3 g2 g1 : Grads} (hg : HasGrads w0 w net r 0 V G [⟨g3.dWeights, g3.dBiases⟩, ⟨g2.dWeights, g2.dBiases⟩, ⟨g1.dWeights, g1.dBiases⟩]) :
    ∃ w1 w2 w3, updateOne (op 2) (net.lp 2) g3 w = .ok (none, w1) ∧ updateOne (op 1) (net.lp 1) g2 w1 = .ok (none, w2) ∧
      updateOne (op 0) (net.lp 0) g1 w2 = .ok (none, w3) ∧ IsTask w3 m (stepNet net S r V G) op (stepOpts S r V G) ∧
      Frame { flt := w.IsNetParam net, opt := fun a => ∃ i, i < net.size ∧ a = op i } w w3 := by
  obtain ⟨w1, a1, a2, a3⟩ := updateOne_spec h hp hg (k := 2) (w1 := w) (g := g3) (by omega) (by rw [hs]; rfl)
    (h.congr rfl rfl rfl rfl rfl (fun i hi => if_neg (by omega)) (fun i hi => if_neg (by omega))) (Frame.refl _ _)
  obtain ⟨w2, b1, b2, b3⟩ := updateOne_spec h hp hg (k := 1) (g := g2) (by omega) (by rw [hs]; rfl) a2 a3
  obtain ⟨w3, c1, c2, c3⟩ := updateOne_spec h hp hg (k := 0) (g := g1) (by omega) (by rw [hs]; rfl) b2 b3
  exact ⟨w1, w2, w3, a1, b1, c1, c2, c3⟩

/-- What a training step on the matrices x, y of r rows does (the conclusion of `trainOn_spec`). -/
def IsStep (m : Model α) (loss : LossKind) (op : Nat → Nat) (r : Nat) (X Y : Nat → Nat → α) (net : Net α) (S : Nat → OptSpec α)
    (w : World α) (e : Option Err) (w' : World α) : Prop :=
  e = none ∧ ∃ net' S', TrainStep m loss r (fun q => w.unif (w.unifPos + q)) X Y net S net' S' ∧ IsTask w' m net' op S' ∧
    w'.unifPos = w.unifPos + dropDraws net r net.size ∧ Static w w' ∧
    Frame { flt := w.IsNetParam net, lay := fun a => ∃ i, i < net.size ∧ a = net.lp i
            opt := fun a => ∃ i, i < net.size ∧ a = op i
            unif := ∃ i, i < net.size ∧ (net.L i).kind = .dropout } w w'

/-- Backward pass and updates from the middle of a step. -/
theorem MidStep.finish {w0 : World α} {X Y : Nat → Nat → α} {y : Mat} (h : MidStep w0 w m net op S r X Y y o mask) (h0 : IsTask w0 m net op S)
    (hs : net.size = 3) (hns : ∀ k, k < net.size → (net.L k).kind ≠ .sigmoid) {loss : Loss}
    (hl : m.loss = some loss) (hls : loss.size = net.dim net.size) (hb : loss.kind ≠ .bce) :
    ∃ gs w1, modelBackward m ((List.range (net.size + 1)).map o) y w = .ok ((gs, none), w1) ∧
      ∀ g3 g2 g1 : Grads, gs = [⟨g3.dWeights, g3.dBiases⟩, ⟨g2.dWeights, g2.dBiases⟩, ⟨g1.dWeights, g1.dBiases⟩] →
        ∃ w2 w3 w4, updateOne (op 2) (net.lp 2) g3 w1 = .ok (none, w2) ∧ updateOne (op 1) (net.lp 1) g2 w2 = .ok (none, w3) ∧
          updateOne (op 0) (net.lp 0) g1 w3 = .ok (none, w4) ∧ IsStep m loss.kind op r X Y net S w0 none w4 := by
  obtain ⟨G, D, hG⟩ := exists_netGrad m net loss.kind r (trainVals net r (fun q => w0.unif (w0.unifPos + q)) X)
    (fun k => dropBits (net.L k) fun q => w0.unif (w0.unifPos + (dropDraws net r k + q))) Y
  obtain ⟨⟨gs, e⟩, w1, e1, he, hfr, hg⟩ := wp_iff.1 (modelBackward_spec h.tape h.task.pos hns hl hls h.y h.free hG)
  obtain rfl : e = none := he
  refine ⟨gs, w1, e1, ?_⟩
  rintro g3 g2 g1 rfl
  have ha : OnlyAllocs w w1 := hfr.weaken (fun _ _ h => hb h.1) (fun _ _ h => h) (fun _ _ h => h) (fun _ _ h => h) id id id
  have hst : Static w w1 := Static.of_frame ha fun _ _ h => h
  have hT : IsTask w1 m net op S := h.task.frame ha hst (fun _ h => h) (fun _ h => h) (fun _ _ h => h) (fun _ _ _ _ h => h)
  have hpar1 := h.tape.isNet.isParam ha (fun _ h => h)
  have hle := h.frame.next_le
  obtain ⟨w2, w3, w4, u1, u2, u3, u4, u5⟩ := update3 hT hs (fun a ha => h.tape.isNet.param_lt ((hpar1 a).1 ha)) hg
  refine ⟨w2, w3, w4, u1, u2, u3, rfl, _, _, ⟨G, D, hG, rfl, rfl⟩, u4, ?_, ?_, ?_⟩
  · rw [u5.unifPos (fun h => h), ha.unifPos (fun h => h), h.pos]
  · exact (h.stat.trans hle hst).trans (hle.trans ha.next_le) (Static.of_frame u5 fun _ _ h => h)
  · have h12 : Frame { lay := fun a => ∃ i, i < net.size ∧ a = net.lp i
                       unif := ∃ i, i < net.size ∧ (net.L i).kind = .dropout } w0 w1 := by
      frames h.frame ha
    frames h12 u5
    · exact fun a _ h3 => (h.par a).1 ((hpar1 a).1 h3)

theorem wp_readonly {n : Nat} {body : Nat → Go α Unit} (h : ∀ k, k < n → body k w = .ok ((), w)) : forN n body w = .ok ((), w) := by
  induction n with
  | zero => rfl
  | succ n ih =>
    unfold forN
    refine (bind_ok (ih fun k hk => h k (by omega))).trans (h n (by omega))

/-- The step of examples/sine_test.go is a training step. -/
theorem sineStep_spec (h : IsTask w m net op S) (hs : net.size = 3) (hns : ∀ k, k < net.size → (net.L k).kind ≠ .sigmoid) {loss : Loss}
    (hl : m.loss = some loss) (hls : loss.size = net.dim net.size) (hk : loss.kind = .mse) (ht : m.lossType ≠ 2) {x y : Mat}
    {X Y : Nat → Nat → α} (hX : IsMat w x r (net.dim 0) X) (hY : IsMat w y r (net.dim net.size) Y) (i : Nat) (hr : 24 ≤ r) :
    wp (sineStep (net.lp 0) (net.lp 1) (net.lp 2) (op 0) (op 1) (op 2) loss i x y) w (IsStep m loss.kind op r X Y net S w) := by
  obtain ⟨o1, o2, o3, w1, w2, w3, mask, f1, f2, f3, o, ho, hm⟩ := midStep_forward h hs hX hY
  have ho3 : o net.size = o3 := by
    rw [hs] at ho ⊢
    have := congrArg (fun l => l[3]?) ho
    simpa using this
  unfold sineStep
  refine wp_bind_ok f1 (wp_bind_ok f2 (wp_bind_ok f3 ?_))
  have hO := hm.tape.mats net.size le_rfl
  have hlf : wp (loss.forward o3 y) w3 (fun p w4 => p.2 = none ∧ OnlyAllocs w3 w4) := by
    unfold Loss.forward
    rw [hk, hls, ← ho3]
    exact wp_mono (mseForward_spec hO hm.y) fun _ _ h => ⟨h.1, h.2.1⟩
  refine wp_bind_mono hlf ?_
  rintro ⟨v, e⟩ w4 ⟨he, ha⟩
  obtain rfl : e = none := he
  dsimp only
  have hm4 : MidStep w w4 m net op S r X Y y o mask := hm.loss
    (ha.weaken (fun _ _ h => h.elim) (fun _ _ h => h) (fun _ _ h => h) (fun _ _ h => h) id id id) (hO.frame ha (fun h => h) fun _ _ h => h)
  have hO4 := hm4.tape.mats net.size le_rfl
  rw [ho3] at hO4
  have hread : (forN 24 (fun n => do
      let _ ← o3.at n 0
      let _ ← y.at n 0) : Go α Unit) w4 = .ok ((), w4) := wp_readonly fun k hk =>
    (bind_ok (at_ok hO4 (i := k) (j := 0) (by omega) hO4.cpos)).trans
      ((bind_ok (at_ok hm4.y (i := k) (j := 0) (by omega) hO4.cpos)).trans rfl)
  obtain ⟨gs, w5, e5, hfin⟩ := hm4.finish h hs hns hl hls (by rw [hk]; intro h; cases h)
  rw [ho] at e5
  obtain ⟨d, w6, g3, w7, g2, w8, g1, b1, b2, b3, b4, b5, b6, b7, rfl⟩ := backward3 hm4.tape.isNet hs ht hl e5
  obtain ⟨w9, w10, w11, u1, u2, u3, u4⟩ := hfin g3 g2 g1 rfl
  by_cases hi : i % 100 = 0
  · rw [if_pos hi]
    refine wp_bind_ok hread (wp_bind_ok b1 (wp_bind_ok b2 ?_))
    rw [b3]
    refine wp_bind_ok b4 ?_
    rw [b5]
    refine wp_bind_ok b6 ?_
    rw [b7]
    exact wp_bind_ok u1 (wp_bind_ok u2 (wp_bind_ok u3 u4))
  · rw [if_neg hi]
    refine wp_bind_ok b1 (wp_bind_ok b2 ?_)
    rw [b3]
    refine wp_bind_ok b4 ?_
    rw [b5]
    refine wp_bind_ok b6 ?_
    rw [b7]
    exact wp_bind_ok u1 (wp_bind_ok u2 (wp_bind_ok u3 u4))

/-- The step of optimizers_test.go is a training step, if clipping does not change the predictions of softmax. -/
theorem optStep_spec (h : IsTask w m net op S) (hs : net.size = 3) (hns : ∀ k, k < net.size → (net.L k).kind ≠ .sigmoid) {loss : Loss}
    (hl : m.loss = some loss) (hls : loss.size = net.dim net.size) (hk : loss.kind = .ce) (hf : Fused m net)
    (hclip : ∀ (o : Nat) (z : Nat → α) (j : Nat), j < o → clipV (actRow .softmax (net.L 2).slope o z j) = actRow .softmax (net.L 2).slope o z j)
    {x y : Mat} {X Y : Nat → Nat → α} (hX : IsMat w x r (net.dim 0) X) (hY : IsMat w y r (net.dim net.size) Y) :
    wp (optStep (net.lp 0) (net.lp 1) (net.lp 2) (op 0) (op 1) (op 2) loss x y) w (IsStep m loss.kind op r X Y net S w) := by
  obtain ⟨o1, o2, o3, w1, w2, w3, mask, f1, f2, f3, o, ho, hm⟩ := midStep_forward h hs hX hY
  have hget : ∀ k, k < 4 → some (o k) = [x, o1, o2, o3][k]? := fun k hk => by
    rw [← ho, hs]; simp [hk]
  have ho3 : o net.size = o3 := by rw [hs]; exact Option.some.inj (hget 3 (by omega))
  have ho2 : o 2 = o2 := Option.some.inj (hget 2 (by omega))
  unfold optStep
  refine wp_bind_ok f1 (wp_bind_ok f2 (wp_bind_ok f3 ?_))
  have hO := hm.tape.mats net.size le_rfl
  have hlf : wp (loss.forward o3 y) w3 (fun p w4 => p.2 = none ∧ MidStep w w4 m net op S r X Y y o mask) := by
    unfold Loss.forward
    rw [hk, hls, ← ho3]
    refine wp_mono (ceForward_spec hO hm.free.distinct hm.y le_rfl hm.free.targets) fun p w4 hp => ⟨hp.1, hm.loss hp.2.1 ?_⟩
    refine hp.2.2.1.congr fun i j hi hj => ?_
    have hL2 : (net.L 2).kind = .softmax := by
      have := hf.1
      rwa [hs] at this
    have hd : net.dim 3 = (net.L 2).o := (h.isNet.outs 2 (by omega)).symm
    rw [hs]
    show clipV (trainOut (net.L 2) _ (trainVals net r _ X 2) i j) = trainOut (net.L 2) _ (trainVals net r _ X 2) i j
    unfold trainOut
    rw [if_neg (by rw [hL2]; intro h; cases h)]
    unfold infer
    rw [hL2]
    refine hclip _ _ _ ?_
    rw [hs, hd] at hj
    exact hj
  refine wp_bind_mono hlf ?_
  rintro ⟨v, e⟩ w4 ⟨he, hm4⟩
  obtain rfl : e = none := he
  dsimp only
  have hO4 := hm4.tape.mats net.size le_rfl
  have hO2 := hm4.tape.mats 2 (by omega)
  have hy4 := hm4.y
  rw [ho3, hs] at hO4
  rw [ho2] at hO2
  rw [hs] at hy4
  obtain ⟨gs, w5, e5, hfin⟩ := hm4.finish h hs hns hl hls (by rw [hk]; intro h; cases h)
  rw [ho] at e5
  obtain ⟨g3, w7, g2, w8, g1, b2, b3, b4, b5, b6, b7, rfl⟩ := backward3_fused hm4.tape.isNet hs hf hO2 hO4 hy4 e5
  obtain ⟨w9, w10, w11, u1, u2, u3, u4⟩ := hfin g3 g2 g1 rfl
  refine wp_bind_ok b2 ?_
  rw [b3]
  refine wp_bind_ok b4 ?_
  rw [b5]
  refine wp_bind_ok b6 ?_
  rw [b7]
  exact wp_bind_ok u1 (wp_bind_ok u2 (wp_bind_ok u3 u4))

end NN
