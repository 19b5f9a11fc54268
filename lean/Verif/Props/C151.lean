import Verif.Lemmas.SigBackprop
import Verif.Props.C41_C45
import Verif.Props.C52_C57
import Verif.Props.C103
import Verif.Spec.PlaceFit
/- C151: what `Fit` does with a model that has sigmoid layers. -/

set_option linter.unusedSectionVars false

namespace NN
open Go

section Any
variable {α : Type} [Flt α]

/-- A model ready to be trained on n samples, with layers of any type. -/
structure Trainee (w : World α) (m : Model α) (net : Net α) (op : Nat → Nat) (S : Nat → OptSpec α) (lk : LossKind) (X Y : Mat) (n : Nat)
    (A B : Nat → Nat → α) : Prop where
  task : IsTask w m net op S
  loss : m.loss = some ⟨lk, net.dim net.size⟩
  x : IsData w net X n (net.dim 0) A
  y : IsData w net Y n (net.dim net.size) B

/-- The last sigmoid layer whose numbers of inputs and outputs differ is layer k. -/
structure LastUneven (net : Net α) (k : Nat) : Prop where
  lt : k < net.size
  sigmoid : (net.L k).kind = .sigmoid
  uneven : (net.L k).n ≠ (net.L k).o
  last : ∀ j, k < j → j < net.size → (net.L j).kind = .sigmoid → (net.L j).n = (net.L j).o

section Fail
attribute [local irreducible] wp
variable {wb w : World α} {m : Model α} {net : Net α} {r : Nat} {o mask : Nat → Mat} {V M G D : Nat → Nat → Nat → α}
  {op : Nat → Nat} {S : Nat → OptSpec α}

/-- What is known about the input of the uneven layer when the loop of `Backward` arrives at it. -/
theorem uneven_setup (hb : Tape wb m net r o mask V M) {k : Nat} (hu : LastUneven net k) (hdist : DistinctRows wb (o k) r)
    (hpar : ∀ a, wb.IsNetParam net a → ¬ wb.IsRow (o k) r a)
    {gs : List Gradients} {d : Mat} (hI : BackInv wb m net r o mask V M G D (k + 1) gs d w) :
    IsNet w m net ∧ IsMat w (o k) r (net.L k).n (V k) ∧ IsMat w d r (net.L k).o (D (k + 1)) ∧ DistinctRows w (o k) r ∧
      (∀ a, w.IsRow d r a → ¬ w.IsRow (o k) r a) ∧ (∀ a, w.IsNetParam net a → ¬ w.IsRow (o k) r a) := by
  obtain ⟨w0, hle, ht, ha, hd⟩ := hI.base
  have hk := hu.lt
  have hlk : late net V G (k + 1) k = V k := if_pos (by omega)
  have hN : IsNet w m net := ht.isNet.frame ha (Static.of_frame ha fun _ _ h => h) (fun _ h => h) (fun _ _ h => h)
  have hX0 := ht.mats k hk.le
  rw [hlk] at hX0
  refine ⟨hN, by rw [hN.ins k hk]; exact hX0.allocs ha, by rw [hN.outs k hk]; exact hd.mat,
    hdist.frame hI.frame (hb.mats k hk.le).addr_lt (fun h => h), fun a h1 h2 => ?_, fun a h1 h2 => ?_⟩
  · have := hd.fresh a h1
    have := hX0.isRow_lt ((hX0.isRow_frame ha (fun h => h) a).1 h2)
    omega
  · exact hpar a ((hb.isNet.isParam hI.frame (fun _ h => h) a).1 h1) (((hb.mats k hk.le).isRow_frame hI.frame (fun h => h) a).1 h2)

theorem layerBackward_sigmoid' (hN : IsNet w m net) {k : Nat} (hk : k < net.size) (hs : (net.L k).kind = .sigmoid) (x d : Mat) :
    layerBackward (net.lp k) x d w = sigmoidBackward (net.lp k) x d w := by
  unfold layerBackward
  refine (bind_ok (show layGet (net.lp k) w = .ok (w.lay (net.lp k), w) from rfl)).trans ?_
  rw [(hN.lay k hk).kind, hs]

/-- The start of a turn of the loop. -/
theorem backwardLoop_at (hN : IsNet w m net) {k : Nat} (hk : k < net.size) (hf : k + 1 = net.size → ¬ Fused m net)
    (gs : List Gradients) (d : Mat) :
    backwardLoop m ((List.range (net.size + 1)).map o) (k + 1) gs d w = (do
      let g ← layerBackward (net.lp k) (o k) d
      if let some e := g.err then
        return ([], some e)
      backwardLoop m ((List.range (net.size + 1)).map o) k (gs ++ [⟨g.dWeights, g.dBiases⟩]) g.dInputs : Go α _) w := by
  conv_lhs => unfold backwardLoop
  refine (bind_ok (fusedLast_run hN hk)).trans ?_
  rw [if_neg (by
    rw [hN.size]
    rintro ⟨h1, h2⟩
    have e : k + 1 = net.size := by omega
    refine hf e ?_
    unfold Fused
    rw [show net.size - 1 = k by omega]
    simpa using h1)]
  refine (bind_ok (b := net.lp k) (w' := w) (by simp [listGet, hN.get_layer hk]; rfl)).trans ?_
  exact bind_ok (b := o k) (w' := w) (by simp [listGet, show k < net.size + 1 by omega]; rfl)

/-- An empty gradient is refused by every layer. -/
theorem layerBackward_empty (hN : IsNet w m net) {k : Nat} (hk : k < net.size) {x : Mat} (hx : x.cols = net.dim k)
    (hsoft : (net.L k).kind = .softmax → (w.lay (net.lp k)).outputs.cols = net.dim (k + 1)) :
    layerBackward (net.lp k) x Mat.zero w = .ok (Grads.fail (.matrixDims 0 0), w) := by
  have hL := hN.lay k hk
  have hi := hN.ins k hk
  have ho := hN.outs k hk
  have hpos : 0 < (net.L k).o := hL.wmat.cpos
  have e1 : ¬ x.cols ≠ (w.lay (net.lp k)).inputSize := by rw [hx, hL.ins, hi]; simp
  have e2 : Mat.zero.cols ≠ (w.lay (net.lp k)).outputSize := by
    rw [hL.outs]
    show (0 : Int) ≠ _
    omega
  have hbc : backCheck (w.lay (net.lp k)) x Mat.zero = some (.matrixDims 0 0) := by
    unfold backCheck
    rw [if_neg e1, if_pos e2]
    rfl
  have hg : layGet (net.lp k) w = .ok (w.lay (net.lp k), w) := rfl
  unfold layerBackward
  refine (bind_ok hg).trans ?_
  rw [hL.kind]
  cases hkind : (net.L k).kind with
  | sigmoid =>
    show sigmoidBackward (net.lp k) x Mat.zero w = _
    unfold sigmoidBackward
    refine (bind_ok hg).trans ?_
    rw [hbc]
    rfl
  | linear =>
    show linearBackward (net.lp k) x Mat.zero w = _
    unfold linearBackward
    refine (bind_ok hg).trans ?_
    rw [hbc]
    rfl
  | hidden =>
    show hiddenBackward (net.lp k) x Mat.zero w = _
    unfold hiddenBackward
    refine (bind_ok hg).trans ?_
    rw [hbc]
    rfl
  | leaky =>
    show leakyBackward (net.lp k) x Mat.zero w = _
    unfold leakyBackward
    refine (bind_ok hg).trans ?_
    rw [hbc]
    rfl
  | dropout =>
    show dropoutBackward (net.lp k) x Mat.zero w = _
    unfold dropoutBackward
    refine (bind_ok hg).trans ?_
    rw [hbc]
    rfl
  | softmax =>
    show softmaxBackward (net.lp k) x Mat.zero w = _
    unfold softmaxBackward
    refine (bind_ok hg).trans ?_
    rw [if_neg e1, if_neg (by rw [hsoft hkind, hL.outs, ho]; simp), if_pos e2]
    rfl

/-- The loop panics at a sigmoid layer with more inputs than outputs. -/
theorem uneven_panics (hb : Tape wb m net r o mask V M) {k : Nat} (hu : LastUneven net k) (hdist : DistinctRows wb (o k) r)
    (hpar : ∀ a, wb.IsNetParam net a → ¬ wb.IsRow (o k) r a) (hf : k + 1 = net.size → ¬ Fused m net)
    {gs : List Gradients} {d : Mat} (hI : BackInv wb m net r o mask V M G D (k + 1) gs d w) (hlt : (net.L k).o < (net.L k).n) :
    Panics (backwardLoop m ((List.range (net.size + 1)).map o) (k + 1) gs d) w := by
  obtain ⟨hN, hX, hD, hx, hdx, hpx⟩ := uneven_setup hb hu hdist hpar hI
  obtain ⟨p, hp⟩ := sigmoidBackward_panics (hN.lay k hu.lt) hX hD hlt hx hdx
  exact ⟨p, (backwardLoop_at hN hu.lt hf gs d).trans (bind_error ((layerBackward_sigmoid' hN hu.lt hu.sigmoid _ _).trans hp))⟩

/-- At a sigmoid layer with more outputs than inputs, the gradients have the wrong shapes and there is none for the layer below. -/
theorem uneven_grads (hb : Tape wb m net r o mask V M) {k : Nat} (hu : LastUneven net k) (hdist : DistinctRows wb (o k) r)
    (hpar : ∀ a, wb.IsNetParam net a → ¬ wb.IsRow (o k) r a) (hf : k + 1 = net.size → ¬ Fused m net)
    {gs : List Gradients} {d : Mat} (hI : BackInv wb m net r o mask V M G D (k + 1) gs d w) (hlt : (net.L k).n < (net.L k).o) :
    ∃ dw db w' GW GB, backwardLoop m ((List.range (net.size + 1)).map o) (k + 1) gs d w =
        backwardLoop m ((List.range (net.size + 1)).map o) k (gs ++ [⟨dw, db⟩]) Mat.zero w' ∧
      IsMat w' dw (net.L k).n (net.L k).n GW ∧ IsMat w' db 1 (net.L k).n GB ∧ Frame { flt := w.IsRow (o k) r } w w' := by
  obtain ⟨hN, hX, hD, hx, hdx, hpx⟩ := uneven_setup hb hu hdist hpar hI
  obtain ⟨g, w', hrun, h1, -, h3, h4, h5, -, h7⟩ := wp_iff.1 (sigmoidBackward_spec (hN.lay k hu.lt) hX hD hlt.le hx hdx
    (fun a h => hpx a ⟨k, hu.lt, .inl h⟩))
  refine ⟨g.dWeights, g.dBiases, w', _, _, ?_, h3, h4, h7⟩
  refine (backwardLoop_at hN hu.lt hf gs d).trans ((bind_ok ((layerBackward_sigmoid' hN hu.lt hu.sigmoid _ _).trans hrun)).trans ?_)
  rw [h1, h5 hu.uneven]

/-- `Backward` stops with an error at the layer below such a sigmoid layer. -/
theorem uneven_error (hb : Tape wb m net r o mask V M) {k : Nat} (hu : LastUneven net k) (hk0 : 0 < k) (hS : OutSep wb net r o mask)
    (hf : k + 1 = net.size → ¬ Fused m net)
    {gs : List Gradients} {d : Mat} (hI : BackInv wb m net r o mask V M G D (k + 1) gs d w) (hlt : (net.L k).n < (net.L k).o) :
    ∃ w', backwardLoop m ((List.range (net.size + 1)).map o) (k + 1) gs d w = .ok (([], some (.matrixDims 0 0)), w') ∧
      Frame { flt := fun a => ∃ k, 0 < k ∧ k < net.size ∧ wb.IsRow (o k) r a } wb w' := by
  have hk := hu.lt
  obtain ⟨dw, db, w1, GW, GB, e1, -, -, h1⟩ := uneven_grads hb hu (hS.distinct k hk0 hk.le) (fun a => hS.params k a hk0 hk.le) hf hI hlt
  have hfr : Frame { flt := fun a => ∃ k, 0 < k ∧ k < net.size ∧ wb.IsRow (o k) r a } wb w1 := by
    have h2 := hI.frame
    frames h2 h1
    exact fun a _ h => ⟨k, hk0, hk, ((hb.mats k hk.le).isRow_frame hI.frame (fun h => h) a).1 h⟩
  have hN1 : IsNet w1 m net := hb.isNet.frame hfr (Static.of_frame hfr fun _ _ h => h) (fun _ h => h)
    (fun a h1 ⟨j, hj0, hj, h2⟩ => hS.params j a hj0 hj.le h1 h2)
  obtain ⟨j, rfl⟩ : ∃ j, k = j + 1 := ⟨k - 1, by omega⟩
  refine ⟨w1, e1.trans ((backwardLoop_at hN1 (by omega) (fun h => absurd h (by omega)) _ _).trans ?_), hfr⟩
  refine (bind_ok (layerBackward_empty hN1 (k := j) (by omega) (hb.mats j (by omega)).cols ?_)).trans rfl
  intro hs
  rw [hfr.lay _ (hb.isNet.lay j (by omega)).lt (fun h => h), hb.soft j (by omega) hs]
  exact (hb.mats (j + 1) hk.le).cols

/-- Everything up to the uneven sigmoid layer, in one training step. -/
theorem trainOn_uneven (h : IsTask w m net op S) {k : Nat} (hu : LastUneven net k) {loss : Loss}
    (hl : m.loss = some loss) (hls : loss.size = net.dim net.size) {x y : Mat} {X Y : Nat → Nat → α}
    (hX : IsMat w x r (net.dim 0) X) (hY : IsMat w y r (net.dim net.size) Y) :
    ∃ (o mask : Nat → Mat) (V M G D : Nat → Nat → Nat → α) (wb w2 : World α) (gs : List Gradients) (d : Mat),
      o 0 = x ∧ Frame { lay := fun a => ∃ i, i < net.size ∧ a = net.lp i
                        unif := ∃ i, i < net.size ∧ (net.L i).kind = .dropout } w wb ∧ Static w wb ∧
      (∀ k, 0 < k → k ≤ net.size → ∀ a, wb.IsRow (o k) r a → w.next ≤ a) ∧
      Tape wb m net r o mask V M ∧ OutSep wb net r o mask ∧ (k + 1 = net.size → ¬ Fused m net) ∧
      BackInv wb m net r o mask V M G D (k + 1) gs d w2 ∧
      trainOn m x y w = (do
        let (gradients, err) ← backwardLoop m ((List.range (net.size + 1)).map o) (k + 1) gs d
        if let some e := err then
          logEvent (.error .forward e)
          return some e
        updateLayers m gradients : Go α _) w2 := by
  obtain ⟨⟨outs, e⟩, w1, hfwd, o, mask, V0, M0, he1, he2, ho, hV, hrun⟩ := wp_iff.1 (modelForward_spec h.isNet hX true)
  obtain rfl : e = none := he2
  dsimp only at he1
  subst he1
  have hdr : ∀ k, k < net.size → (net.L k).kind = .dropout → true = true := fun _ _ _ => rfl
  have ht := tape_of_run h.isNet h.own hdr hX hrun ho hV
  have hfree := freeOut_of_run h.isNet h.pos hdr hrun hY
  have hS := outSep_of_run h.isNet hrun
  have hY1 := hY.frame hrun.frame (fun h => h) (fun _ _ h => h)
  obtain ⟨G, D, hG⟩ := exists_sigNetGrad m net loss.kind r V0 M0 Y
  obtain ⟨wb, Vb, t, gs, d, w2, htn, hf, hf', hnext, hfr, htb, hSb, hB, hVb, hback, hI⟩ :=
    modelBackward_start ht h.pos hl hls hY1 hfree hS hG
  have hlast : k + 1 = net.size → ¬ Fused m net := by
    intro e hfu
    have h1 := hfu.1
    rw [show net.size - 1 = k by omega, hu.sigmoid] at h1
    exact LayerKind.noConfusion h1
  have hkt : k + 1 ≤ t := by
    by_contra hc
    have h1 := hu.lt
    obtain ⟨h2, h3⟩ := hf' (by omega)
    exact hlast (by omega) h3
  obtain ⟨gs2, d2, w3, e2, h2⟩ := backwardLoop_down htb hSb hkt htn hf
    (fun j h1 h2 h3 => ⟨by omega, hu.last j (by omega) (by omega) h3⟩) hB hI
  have hout : ∀ k, 0 < k → k ≤ net.size → ∀ a, w1.IsRow (o k) r a → w.next ≤ a := by
    intro k h0 hk
    have := hrun.res (k - 1) (by omega)
    rw [show k - 1 + 1 = k by omega] at this
    exact this.fresh
  refine ⟨o, mask, Vb, M0, G, D, wb, w3, gs2, d2, ho, ?_,
    hrun.stat.trans hrun.frame.next_le (Static.of_frame hfr fun _ _ h => h), ?_, htb, hSb, hlast, h2, ?_⟩
  · have h1 := hrun.frame
    frames h1 hfr
    · intro a ha h3
      have := hout net.size h.pos le_rfl a h3.2
      omega
    · exact fun h => h.2
  · exact fun k h0 hk a h3 => hout k h0 hk a (((ht.mats k hk).isRow_frame hfr (fun h => h) a).1 h3)
  · unfold trainOn
    refine (bind_ok hfwd).trans ?_
    change Go.bind _ _ w1 = Go.bind _ _ w3
    unfold Go.bind
    rw [hback, e2]
    rfl

end Fail

/-- What happens on the first batch decides what Fit does if it ends there. -/
theorem fit_first [FltInt α] {w : World α} {m : Model α} {X Y xv yv : Mat} {n cx cy : Nat} {A B : Nat → Nat → α} {epochs k : Int} {b : Nat}
    (hX : IsMat w X n cx A) (hY : IsMat w Y n cy B) (hcX : n ≤ X.m.cap) (hcY : n ≤ Y.m.cap) (hbig : n + b ≤ 2 ^ 53) (he : 0 < epochs) :
    ∃ r, 0 < r ∧ r ≤ n ∧ (b ≠ 0 → r ≤ b) ∧ ∀ res : Except Panic (Err × World α), trainOn m (rowsOf X (0, r)) (rowsOf Y (0, r)) w = ends res →
      fit m X Y epochs b xv yv k w = ends res := by
  rw [fit_blocks hX hY hcX hcY epochs b hbig]
  have hn := hX.rpos
  obtain ⟨r, bs, hbs⟩ : ∃ r bs, blocks n b = (0, r) :: bs := by
    unfold blocks
    split
    · exact ⟨n, [], rfl⟩
    · rename_i hb
      obtain ⟨q, hq⟩ : ∃ q, (n + b - 1) / b = q + 1 := by
        have : 0 < (n + b - 1) / b := Nat.div_pos (by omega) (by omega)
        exact ⟨(n + b - 1) / b - 1, by omega⟩
      rw [hq, List.range_succ_eq_map]
      exact ⟨min b n, (List.map Nat.succ (List.range q)).map fun s => (s * b, min b (n - s * b)), by simp⟩
  have hmem := blocks_mem (b := b) hn (p := (0, r)) (by rw [hbs]; exact List.mem_cons_self)
  refine ⟨r, hmem.1, by have := hmem.2.1; dsimp only at this; omega, hmem.2.2, fun res h => ?_⟩
  rw [hbs]
  have h2 : forRet ((0, r) :: bs).length (fun s => trainOn m (rowsOf X (((0, r) :: bs).getD s (0, 0))) (rowsOf Y (((0, r) :: bs).getD s (0, 0)))) w = _ :=
    forRet_first (by simp) (r := res) h
  refine forRet_first (by omega) (r := res) ?_
  unfold trainEpoch
  change Go.bind _ _ w = _
  unfold Go.bind
  rw [h2]
  cases res <;> rfl

theorem rowAddr_rowsOf (w : World α) (X : Mat) (r i : Nat) : w.rowAddr (rowsOf X (0, r)) i = w.rowAddr X i := by
  unfold World.rowAddr rowsOf
  simp

theorem isRow_rowsOf {w : World α} {X : Mat} {r n : Nat} (h : r ≤ n) {a : Nat} (ha : w.IsRow (rowsOf X (0, r)) r a) : w.IsRow X n a := by
  obtain ⟨i, hi, e⟩ := ha
  rw [rowAddr_rowsOf] at e
  exact ⟨i, by omega, e⟩

theorem DistinctRows.rowsOf {w : World α} {X : Mat} {r n : Nat} (h : DistinctRows w X n) (hr : r ≤ n) :
    DistinctRows w (rowsOf X (0, r)) r := by
  intro i j a hi hj h1 h2
  rw [rowAddr_rowsOf] at h1 h2
  exact h i j a (by omega) (by omega) h1 h2

/-- The input of the uneven sigmoid layer is in separate storage. -/
theorem uneven_input {w wb : World α} {m : Model α} {net : Net α} {r n k : Nat} {o mask : Nat → Mat} {X : Mat} {f : Foot}
    {A : Nat → Nat → α}
    (hN : IsNet w m net) (hx : IsData w net X n (net.dim 0) A) (hr0 : 0 < r) (hr : r ≤ n) (ho : o 0 = rowsOf X (0, r)) (hf : Frame f w wb)
    (hfo : ∀ a, ¬ f.outs a)
    (hS : OutSep wb net r o mask) (hk : k < net.size) (hd : k = 0 → DistinctRows w X n) :
    DistinctRows wb (o k) r ∧ ∀ a, wb.IsNetParam net a → ¬ wb.IsRow (o k) r a := by
  by_cases h0 : k = 0
  · subst h0
    have hm := hx.mat.rowsOf (lo := 0) (k := r) hr0 (by omega)
    rw [ho]
    refine ⟨((hd rfl).rowsOf hr).frame hf hx.mat.addr_lt (hfo _), fun a h1 h2 => ?_⟩
    exact hx.sep a ((hN.isParam hf hfo a).1 h1) (isRow_rowsOf hr ((hm.isRow_frame hf (hfo _) a).1 h2))
  · exact ⟨hS.distinct k (by omega) hk.le, fun a => hS.params k a (by omega) hk.le⟩

/-- C151: Fit panics if the last sigmoid layer with different numbers of inputs and outputs has more inputs than outputs, as in every
binary classifier that ends in a sigmoid layer with one output. -/
theorem C151_panics [FltInt α] (w : World α) (m : Model α) (net : Net α) (op : Nat → Nat) (S : Nat → OptSpec α) (lk : LossKind) (X Y xv yv : Mat)
    (n k : Nat) (A B : Nat → Nat → α) (h : Trainee w m net op S lk X Y n A B) (hu : LastUneven net k) (hlt : (net.L k).o < (net.L k).n)
    (hd : k = 0 → DistinctRows w X n) (epochs logEvery : Int) (b : Nat) (he : 0 < epochs) (hbig : n + b ≤ 2 ^ 53) :
    ∃ p, fit m X Y epochs b xv yv logEvery w = .error p := by
  obtain ⟨r, hr0, hr, -, hfit⟩ := fit_first (m := m) (xv := xv) (yv := yv) (k := logEvery) h.x.mat h.y.mat h.x.cap h.y.cap hbig he
  obtain ⟨o, mask, V, M, G, D, wb, w2, gs, d, ho, hf, hst, hout, ht, hS, hlast, hI, hrun⟩ := trainOn_uneven h.task hu h.loss rfl
    (h.x.mat.rowsOf (lo := 0) (k := r) hr0 (by omega)) (h.y.mat.rowsOf (lo := 0) (k := r) hr0 (by omega))
  obtain ⟨h1, h2⟩ := uneven_input h.task.isNet h.x hr0 hr ho hf (fun _ h => h) hS hu.lt hd
  obtain ⟨p, hp⟩ := uneven_panics ht hu h1 h2 hlast hI hlt
  exact ⟨p, hfit (.error p) (hrun.trans (bind_error hp))⟩

/-- C151: if it has more outputs than inputs and is not the first layer, Fit ends in the first batch with an error about the size
of a matrix with no rows and columns (without InitLogger: with a panic), and has not changed any parameter. -/
theorem C151_error [FltInt α] (w : World α) (m : Model α) (net : Net α) (op : Nat → Nat) (S : Nat → OptSpec α) (lk : LossKind) (X Y xv yv : Mat)
    (n k : Nat) (A B : Nat → Nat → α) (h : Trainee w m net op S lk X Y n A B) (hu : LastUneven net k) (hlt : (net.L k).n < (net.L k).o)
    (hk : 0 < k) (epochs logEvery : Int) (b : Nat) (he : 0 < epochs) (hbig : n + b ≤ 2 ^ 53) :
    ∃ w', fit m X Y epochs b xv yv logEvery w = (if w.logger then .ok (some (.matrixDims 0 0), w') else .error .nilDeref) ∧
      IsTask w' m net op S ∧ w'.log = w.log ++ [.error .forward (.matrixDims 0 0)] ∧
      Frame { lay := fun a => ∃ i, i < net.size ∧ a = net.lp i
              unif := ∃ i, i < net.size ∧ (net.L i).kind = .dropout
              log := True } w w' := by
  obtain ⟨r, hr0, hr, -, hfit⟩ := fit_first (m := m) (xv := xv) (yv := yv) (k := logEvery) h.x.mat h.y.mat h.x.cap h.y.cap hbig he
  obtain ⟨o, mask, V, M, G, D, wb, w2, gs, d, ho, hf, hst, hout, ht, hS, hlast, hI, hrun⟩ := trainOn_uneven h.task hu h.loss rfl
    (h.x.mat.rowsOf (lo := 0) (k := r) hr0 (by omega)) (h.y.mat.rowsOf (lo := 0) (k := r) hr0 (by omega))
  obtain ⟨w3, e3, h3⟩ := uneven_error ht hu hk hS hlast hI hlt
  have hw3 : Frame { lay := fun a => ∃ i, i < net.size ∧ a = net.lp i
                     unif := ∃ i, i < net.size ∧ (net.L i).kind = .dropout } w w3 := by
    frames hf h3
    rintro a ha ⟨j, hj0, hj, h4⟩
    have := hout j hj0 hj.le a h4
    omega
  have hst3 : Static w w3 := hst.trans hf.next_le (Static.of_frame h3 fun _ _ h => h)
  have hT3 : IsTask w3 m net op S := h.task.frame hw3 hst3 (fun _ h => h) (fun _ h => h) (fun _ _ h => h) (fun _ _ _ _ h => h)
  let w4 : World α := { w3 with log := w3.log ++ [.error .forward (.matrixDims 0 0)] }
  have hlog : Frame { log := True } w3 w4 := ⟨le_rfl, fun _ _ _ => rfl, fun _ _ _ => rfl, fun _ _ _ => rfl, fun _ _ _ => rfl, rfl, rfl,
    fun _ => rfl, fun _ => rfl, fun h => absurd trivial h, rfl⟩
  refine ⟨w4, ?_, hT3.frame hlog (Static.of_frame hlog fun _ _ h => h) (fun _ h => h) (fun _ h => h) (fun _ _ h => h)
    (fun _ _ _ _ h => h), ?_, ?_⟩
  · have hlg : w3.logger = w.logger := hw3.logger
    refine (hfit (if w.logger then .ok (.matrixDims 0 0, w4) else .error .nilDeref) ?_).trans (by split <;> rfl)
    refine hrun.trans ((bind_ok e3).trans ?_)
    by_cases hl : w.logger = true
    · have e5 : logEvent (.error .forward (.matrixDims 0 0)) w3 = .ok ((), w4) := by
        unfold logEvent
        rw [if_pos (hlg.trans hl)]
      rw [if_pos hl]
      exact bind_ok e5
    · have e5 : logEvent (.error .forward (.matrixDims 0 0)) w3 = .error .nilDeref := by
        unfold logEvent
        rw [if_neg (by rw [hlg]; exact hl)]
      rw [if_neg hl]
      exact bind_error e5
  · show w3.log ++ _ = _
    rw [hw3.log (fun h => h)]
  · frames hw3 hlog

/-- SGD without momentum panics when the weight gradient has fewer columns than the weights, whatever the bias gradient. -/
theorem optUpdate_narrow {w : World α} {op : Nat} {wm bm dw db : Mat} {rw cw rb cb c1 r2 c2 : Nat}
    {W B GW GB : Nat → Nat → α} {S : OptSpec α} (ho : IsOpt w op rw cw rb cb S) (hk : S.kind = .sgd)
    (hm : Flt.eq S.momentum Flt.zero = true) (hp : IsParams w wm bm rw cw rb cb W B) (hGW : IsMat w dw rw c1 GW)
    (hGB : IsMat w db r2 c2 GB) (hc : c1 < cw) :
    Panics (optUpdate op (some wm) (some bm) dw db) w := by
  have hum : (w.opt op).decayed.useMomentum = false := by
    rw [decayed_fields]; dsimp only; rw [ho.fields.useMomentum hk, hm]; rfl
  have f1 := frame_optSet w op (w.opt op).decayed
  have r1 := mulScalar_spec (hGW.optf f1) (w.opt op).decayed.currentRate
  rw [wp_iff] at r1
  obtain ⟨wu, w2, e2, h2⟩ := r1
  have f2 := f1.then_allocs h2.frame
  have r2 := mulScalar_spec (hGB.optf f2) (w.opt op).decayed.currentRate
  rw [wp_iff] at r2
  obtain ⟨bu, w3, e3, h3⟩ := r2
  have f3 := f2.then_allocs h3.frame
  have u3 : Fresh w w3 wu rw c1 _ := (Fresh.of_new f1 h2).allocs h3.frame
  obtain ⟨p, ep⟩ := subInto_panics (hp.wmat.optf f3) (hp.wd.frame f3 hp.wmat.addr_lt (fun h => h)) u3.mat (by
    intro a h h'
    have := u3.fresh a h
    have := hp.wmat.isRow_lt ((hp.wmat.isRow_frame f3 (fun h => h) a).1 h')
    omega) hc
  refine ⟨p, ?_⟩
  unfold optUpdate
  rw [bind_ok (show optGet op w = .ok (w.opt op, w) from rfl), bind_ok (show deref (some wm) w = .ok (wm, w) from rfl),
    bind_ok (show deref (some bm) w = .ok (bm, w) from rfl), ho.fields.kind, hk]
  show sgdUpdate op wm bm dw db w = _
  unfold sgdUpdate
  refine (bind_ok (show optGet op w = .ok (w.opt op, w) from rfl)).trans ?_
  dsimp only
  refine (bind_ok (optSet_run _ _ _)).trans ?_
  rw [if_neg (by rw [hum]; decide)]
  refine (bind_ok e2).trans ?_
  refine (bind_ok e3).trans ?_
  exact bind_error ep

/-- C151: if the first layer is the only such layer and has more outputs than inputs, Fit gets as far as the first update.  Adam
and SGD with momentum reject the gradients, so that Fit returns an error (without InitLogger: panics) and no parameter has
changed; SGD without momentum panics. -/
theorem C151_first [FltInt α] (w : World α) (m : Model α) (net : Net α) (op : Nat → Nat) (S : Nat → OptSpec α) (lk : LossKind) (X Y xv yv : Mat)
    (n : Nat) (A B : Nat → Nat → α) (h : Trainee w m net op S lk X Y n A B) (hu : LastUneven net 0) (hlt : (net.L 0).n < (net.L 0).o)
    (hd : DistinctRows w X n) (hox : ∀ i a, i < net.size → w.IsOptRow (w.opt (op i)) (net.L i).n 1 a → ¬ w.IsRow X n a)
    (epochs logEvery : Int) (b : Nat) (he : 0 < epochs) (hbig : n + b ≤ 2 ^ 53) :
    ((S 0).stateful → ∃ e w', fit m X Y epochs b xv yv logEvery w = (if w.logger then .ok (some e, w') else .error .nilDeref) ∧
      IsNet w' m net ∧ w'.log = w.log ++ [.error .update e]) ∧
    (¬ (S 0).stateful → ∃ p, fit m X Y epochs b xv yv logEvery w = .error p) := by
  obtain ⟨r, hr0, hr, -, hfit⟩ := fit_first (m := m) (xv := xv) (yv := yv) (k := logEvery) h.x.mat h.y.mat h.x.cap h.y.cap hbig he
  have hmx := h.x.mat.rowsOf (lo := 0) (k := r) hr0 (by omega)
  obtain ⟨o, mask, V, M, G, D, wb, w2, gs, d, ho, hf, hst, hout, ht, hS, hlast, hI, hrun⟩ := trainOn_uneven h.task hu h.loss rfl
    hmx (h.y.mat.rowsOf (lo := 0) (k := r) hr0 (by omega))
  obtain ⟨h1, h2⟩ := uneven_input h.task.isNet h.x hr0 hr ho hf (fun _ h => h) hS hu.lt (fun _ => hd)
  obtain ⟨dw, db, w3, GW, GB, e3, hGW, hGB, f3⟩ := uneven_grads ht hu h1 h2 hlast hI hlt
  have f2 : Frame { lay := fun a => ∃ i, i < net.size ∧ a = net.lp i
                    unif := ∃ i, i < net.size ∧ (net.L i).kind = .dropout } w w2 := by
    have h4 := hI.frame
    frames hf h4
    rintro a ha ⟨j, hj0, hj, h5⟩
    have := hout j hj0 hj.le a h5
    omega
  have hw3 : Frame { flt := w.IsRow X n
                     lay := fun a => ∃ i, i < net.size ∧ a = net.lp i
                     unif := ∃ i, i < net.size ∧ (net.L i).kind = .dropout } w w3 := by
    frames f2 f3
    rw [ho]
    exact fun a _ h5 => isRow_rowsOf hr ((hmx.isRow_frame f2 (fun h => h) a).1 h5)
  have hst3 : Static w w3 := (hst.trans hf.next_le (Static.of_frame hI.frame fun _ _ h => h)).trans (hf.next_le.trans hI.frame.next_le)
    (Static.of_frame f3 fun _ _ h => h)
  have hT : IsTask w3 m net op S := h.task.frame hw3 hst3 (fun _ h => h) (fun _ h => h) h.x.sep hox
  have hL := hT.isNet.lay 0 h.task.pos
  have hP : IsParams w3 (net.wm 0) (net.bm 0) (net.L 0).n (net.L 0).o 1 (net.L 0).o (net.L 0).W (fun _ j => (net.L 0).b j) :=
    ⟨hL.wmat, hL.bmat, (hT.own.own 0 h.task.pos).distinct, fun i j _ hi hj _ _ => by omega, (hT.own.own 0 h.task.pos).disjoint⟩
  have hlen : gs.length = net.size - 1 := hI.grads.len
  have hup : trainOn m (rowsOf X (0, r)) (rowsOf Y (0, r)) w = updateLayers m (gs ++ [⟨dw, db⟩]) w3 :=
    hrun.trans ((bind_ok e3).trans rfl)
  have hend : ∀ res, (do
        let err ← optUpdate (op 0) (some (net.wm 0)) (some (net.bm 0)) dw db
        if let some e := err then
          logEvent (.error .update e)
          return some e
        return none : Go α (Option Err)) w3 = ends res → fit m X Y epochs b xv yv logEvery w = ends res := by
    intro res hres
    refine hfit res (hup.trans ?_)
    unfold updateLayers
    refine forRet_first (by rw [hT.isNet.size, Int.toNat_natCast]; exact h.task.pos) (Eq.trans ?_ hres)
    refine (bind_ok (b := net.lp 0) (w' := w3) (by simp [listGet, hT.isNet.get_layer h.task.pos]; rfl)).trans ?_
    refine (bind_ok (b := w3.lay (net.lp 0)) (w' := w3) rfl).trans ?_
    refine (bind_ok (b := op 0) (w' := w3) (by rw [h.task.optims]; simp [listGet, h.task.pos]; rfl)).trans ?_
    refine (bind_ok (b := ⟨dw, db⟩) (w' := w3) ?_).trans ?_
    · have e : m.modelSize - (0 : Nat) - 1 = ((net.size - 1 : Nat) : Int) := by
        have := h.task.pos
        rw [hT.isNet.size]
        omega
      have eg : (gs ++ [(⟨dw, db⟩ : Gradients)])[net.size - 1]? = some ⟨dw, db⟩ := by
        rw [List.getElem?_append_right (by omega), hlen]
        simp
      rw [e]
      simp [listGet, eg]
      rfl
    dsimp only
    rw [hL.weights, hL.biases]
    rfl
  constructor
  · intro hs
    obtain ⟨e, w4, e4, h5, h6, -⟩ := C44_stateful_partial w3 (op 0) (net.wm 0) (net.bm 0) dw db _ _ _ _ _ _ _ _ _ _ _ _ (S 0)
      ((hT.opt 0 h.task.pos).optOk hs) hP hGW hGB
    cases e with
    | none => exact absurd (h5.1 rfl).2.1 hu.uneven
    | some e =>
      obtain ⟨f4, -⟩ := h6 (by simp)
      let w5 : World α := { w4 with log := w4.log ++ [.error .update e] }
      have hlog : Frame { log := True } w4 w5 := ⟨le_rfl, fun _ _ _ => rfl, fun _ _ _ => rfl, fun _ _ _ => rfl, fun _ _ _ => rfl, rfl, rfl,
        fun _ => rfl, fun _ => rfl, fun h => absurd trivial h, rfl⟩
      refine ⟨e, w5, ?_, ?_, ?_⟩
      · refine (hend (if w.logger then .ok (e, w5) else .error .nilDeref) ((bind_ok e4).trans ?_)).trans (by split <;> rfl)
        have hlg : w4.logger = w.logger := f4.logger.trans hw3.logger
        by_cases hl : w.logger = true
        · have e5 : logEvent (.error .update e) w4 = .ok ((), w5) := by
            unfold logEvent
            rw [if_pos (hlg.trans hl)]
          rw [if_pos hl]
          exact bind_ok e5
        · have e5 : logEvent (.error .update e) w4 = .error .nilDeref := by
            unfold logEvent
            rw [if_neg (by rw [hlg]; exact hl)]
          rw [if_neg hl]
          exact bind_error e5
      · exact (hT.isNet.frame f4 (Static.of_frame f4 fun _ _ h => h) (fun _ h => h) (fun _ _ h => h)).frame hlog
          (Static.of_frame hlog fun _ _ h => h) (fun _ h => h) (fun _ _ h => h)
      · show w4.log ++ _ = _
        rw [f4.log (fun h => h), hw3.log (fun h => h)]
  · intro hs
    have hns : (S 0).kind = .sgd ∧ Flt.eq (S 0).momentum Flt.zero = true := by
      unfold OptSpec.stateful at hs
      push Not at hs
      refine ⟨?_, by simpa using hs.2⟩
      cases hk : (S 0).kind with
      | sgd => rfl
      | adam => exact absurd hk hs.1
    obtain ⟨p, hp⟩ := optUpdate_narrow (hT.opt 0 h.task.pos) hns.1 hns.2 hP hGW hGB hlt
    exact ⟨p, hend (.error p) (bind_error hp)⟩

/-- C151: when every sigmoid layer is square and not the first, Fit never fails: it runs all its steps, and each of them is the step
`SigTrainStep`, in which the weights of a sigmoid layer move along GᵀG (G the gradient at its pre-activations, computed from
its input) where they should move along VᵀG (V its input), and the layer below uses G for its own outputs. -/
theorem C151_fit [FltInt α] (w : World α) (m : Model α) (net : Net α) (op : Nat → Nat) (S : Nat → OptSpec α) (lk : LossKind) (X Y xv yv : Mat)
    (n : Nat) (A B : Nat → Nat → α) (h : Trainee w m net op S lk X Y n A B)
    (hsq : ∀ k, k < net.size → (net.L k).kind = .sigmoid → 0 < k ∧ (net.L k).n = (net.L k).o)
    (epochs : Int) (b : Nat) (hbig : n + b ≤ 2 ^ 53) :
    ∃ w' net' S', fit m X Y epochs b xv yv 0 w = .ok (none, w') ∧
      SigDescent m lk w.unif A B net S w.unifPos (List.replicate epochs.toNat (blocks n b)).flatten net' S' w'.unifPos ∧
      IsTask w' m net' op S' ∧ SameShape net net' ∧ IsMat w' X n (net.dim 0) A ∧ IsMat w' Y n (net.dim net.size) B ∧
      Frame { flt := w.IsNetParam net
              lay := fun a => ∃ i, i < net.size ∧ a = net.lp i
              opt := fun a => ∃ i, i < net.size ∧ a = op i
              unif := ∃ i, i < net.size ∧ (net.L i).kind = .dropout } w w' := by
  obtain ⟨e, w', hr, rfl, net', S', h1⟩ := wp_iff.1 (fit_sig (xv := xv) (yv := yv) h.task hsq h.loss rfl h.x.mat h.y.mat h.x.cap h.y.cap
    h.x.sep h.y.sep epochs b hbig)
  exact ⟨w', net', S', hr, h1.run, h1.task, h1.shape, h.x.mat.frame h1.frame (fun h => h) fun a h2 h3 => h.x.sep a h3 h2,
    h.y.mat.frame h1.frame (fun h => h) fun a h2 h3 => h.y.sep a h3 h2, h1.frame⟩

end Any

/-! ### What a sigmoid layer can learn in exact arithmetic -/

section Learn
open Finset
variable {m : Model ℝ} {lk : LossKind} {u : Nat → ℝ} {A B : Nat → Nat → ℝ} {net : Net ℝ} {S : Nat → OptSpec ℝ}

/-- A statement about a sigmoid layer and its optimizer that every step along GᵀG keeps holds at the end. -/
theorem sigDescent_keeps {p : Nat} {k : Nat} (hk : k < net.size) (hs : (net.L k).kind = .sigmoid) (P : (Nat → Nat → ℝ) → OptSpec ℝ → Prop)
    (h0 : P (net.L k).W (S k))
    (hstep : ∀ (W : Nat → Nat → ℝ) (T : OptSpec ℝ) (r : Nat) (G : Nat → Nat → ℝ), P W T → P (T.newW W (gradW r G G)) (T.step (gradW r G G) (gradB r G)))
    {bs : List (Nat × Nat)} {net' : Net ℝ} {S' : Nat → OptSpec ℝ} {p' : Nat} (hD : SigDescent m lk u A B net S p bs net' S' p') :
    P (net'.L k).W (S' k) ∧ SameShape net net' := by
  induction hD with
  | start => exact ⟨h0, SameShape.refl net⟩
  | @step bs b net1 net2 S1 S2 p1 h1 h2 ih =>
    obtain ⟨i1, i2⟩ := ih
    refine ⟨?_, i2.trans h2.shape⟩
    obtain ⟨G, D, -, rfl, rfl⟩ := h2
    have e : held net1 (trainVals net1 b.2 (fun q => u (p1 + q)) fun i j => A (b.1 + i) j) G k = G k :=
      if_pos ⟨by rw [i2.size]; exact hk, (i2.kind k).trans hs⟩
    have := hstep _ _ b.2 (G k) i1
    unfold stepNet stepOpts
    dsimp only
    rw [e]
    exact this

theorem gradW_self_comm (r : Nat) (G : Nat → Nat → ℝ) (i j : Nat) : gradW r G G i j = gradW r G G j i := by
  unfold gradW
  rw [fsum_real, fsum_real]
  exact sum_congr rfl fun s _ => mul_comm _ _

/-- The quadratic form of a matrix of n rows and columns. -/
def quad (n : Nat) (W : Nat → Nat → ℝ) (v : Nat → ℝ) : ℝ := ∑ i ∈ range n, ∑ j ∈ range n, v i * W i j * v j

theorem quad_gradW (n r : Nat) (G : Nat → Nat → ℝ) (v : Nat → ℝ) : quad n (gradW r G G) v = ∑ s ∈ range r, (∑ i ∈ range n, v i * G s i) ^ 2 := by
  unfold quad gradW
  simp only [fsum_real]
  have e : ∀ s, (∑ i ∈ range n, v i * G s i) ^ 2 = ∑ i ∈ range n, ∑ j ∈ range n, v i * G s i * (v j * G s j) := fun s => by
    rw [sq, sum_mul_sum]
  simp only [e]
  conv_rhs => rw [sum_comm]
  refine sum_congr rfl fun i _ => ?_
  conv_rhs => rw [sum_comm]
  refine sum_congr rfl fun j _ => ?_
  rw [mul_sum, sum_mul]
  refine sum_congr rfl fun s _ => ?_
  show v i * (G s i * G s j) * v j = _
  ring

theorem quad_lin (n : Nat) (W U : Nat → Nat → ℝ) (a b : ℝ) (v : Nat → ℝ) :
    quad n (fun i j => a * W i j + b * U i j) v = a * quad n W v + b * quad n U v := by
  unfold quad
  rw [mul_sum, mul_sum, ← sum_add_distrib]
  refine sum_congr rfl fun i _ => ?_
  rw [mul_sum, mul_sum, ← sum_add_distrib]
  exact sum_congr rfl fun j _ => by ring

/-- SGD with constants in their usual ranges. -/
structure SgdOk (S : OptSpec ℝ) : Prop where
  kind : S.kind = .sgd
  lr : 0 ≤ S.lr
  decay : 0 ≤ S.decay
  momentum : 0 ≤ S.momentum

theorem SgdOk.rate {S : OptSpec ℝ} (h : SgdOk S) : 0 ≤ S.rate := by
  unfold OptSpec.rate
  split
  · exact h.lr
  · have h1 : (0 : ℝ) ≤ S.decay * S.t := mul_nonneg h.decay (Nat.cast_nonneg _)
    have e : (S.lr *. (Flt.one /. (Flt.one +. S.decay *. Flt.ofInt S.t)) : ℝ) = S.lr * (1 / (1 + S.decay * S.t)) := by simp [Flt.one]
    rw [e]
    exact mul_nonneg h.lr (div_nonneg zero_le_one (by linarith))

/-- An update of SGD is linear in the gradient. -/
theorem sgd_newW {S : OptSpec ℝ} (hk : S.kind = .sgd) (W g : Nat → Nat → ℝ) (i j : Nat) :
    (S.momentum = 0 → S.newW W g i j = W i j - g i j * S.rate ∧ ∀ b, (S.step g b).vw i j = S.vw i j) ∧
    (S.momentum ≠ 0 → S.newW W g i j = W i j + (S.vw i j * S.momentum - g i j * S.rate) ∧
      ∀ b, (S.step g b).vw i j = S.vw i j * S.momentum - g i j * S.rate) := by
  unfold OptSpec.newW OptSpec.upd OptSpec.step OptSpec.vel
  rw [hk]
  dsimp only
  constructor
  · intro h
    rw [if_pos (by simp [Flt.zero, h]), if_pos (by simp [Flt.zero, h])]
    exact ⟨rfl, fun _ => rfl⟩
  · intro h
    have hn : Flt.eq S.momentum (Flt.zero : ℝ) ≠ true := by simpa [Flt.zero] using h
    rw [if_neg hn, if_neg hn]
    exact ⟨rfl, fun _ => rfl⟩

variable {w : World ℝ} {op : Nat → Nat} {X Y : Mat} {n : Nat}

/-- C151: whatever the data and the targets, SGD never changes the difference W_ij − W_ji of two weights of a sigmoid layer (with
momentum: if the velocities start symmetric, as those of a new optimizer do). -/
theorem C151_skew (w : World ℝ) (m : Model ℝ) (net : Net ℝ) (op : Nat → Nat) (S : Nat → OptSpec ℝ) (lk : LossKind) (X Y xv yv : Mat)
    (n : Nat) (A B : Nat → Nat → ℝ) (h : Trainee w m net op S lk X Y n A B)
    (hsq : ∀ k, k < net.size → (net.L k).kind = .sigmoid → 0 < k ∧ (net.L k).n = (net.L k).o)
    (epochs : Int) (b : Nat) (hbig : n + b ≤ 2 ^ 53) (k : Nat) (hk : k < net.size) (hs : (net.L k).kind = .sigmoid)
    (hS : (S k).kind = .sgd) (hv : (S k).momentum = 0 ∨ ∀ i j, (S k).vw i j = (S k).vw j i) :
    ∃ w' net' S', fit m X Y epochs b xv yv 0 w = .ok (none, w') ∧ IsTask w' m net' op S' ∧ SameShape net net' ∧
      ∀ i j, (net'.L k).W i j - (net'.L k).W j i = (net.L k).W i j - (net.L k).W j i := by
  obtain ⟨w', net', S', hr, hD, hT, hsh, -⟩ := C151_fit w m net op S lk X Y xv yv n A B h hsq epochs b hbig
  refine ⟨w', net', S', hr, hT, hsh, ?_⟩
  refine (sigDescent_keeps hk hs (fun W T => (T.kind = .sgd ∧ (T.momentum = 0 ∨ ∀ i j, T.vw i j = T.vw j i)) ∧
    ∀ i j, W i j - W j i = (net.L k).W i j - (net.L k).W j i) ⟨⟨hS, hv⟩, fun _ _ => rfl⟩ ?_ hD).1.2
  rintro W T r G ⟨⟨k1, k2⟩, k3⟩
  have u := fun i j => sgd_newW k1 W (gradW r G G) i j
  by_cases hm : T.momentum = 0
  · refine ⟨⟨k1, .inl hm⟩, fun i j => ?_⟩
    rw [((u i j).1 hm).1, ((u j i).1 hm).1, gradW_self_comm r G j i, ← k3 i j]
    ring
  · have k4 := k2.resolve_left hm
    refine ⟨⟨k1, .inr fun i j => ?_⟩, fun i j => ?_⟩
    · rw [((u i j).2 hm).2, ((u j i).2 hm).2, gradW_self_comm r G j i, k4 i j]
    · rw [((u i j).2 hm).1, ((u j i).2 hm).1, gradW_self_comm r G j i, ← k3 i j, k4 i j]
      ring

/-- C151: and it never increases the quadratic form of the weights in any direction; in particular no weight on the diagonal. -/
theorem C151_quadratic (w : World ℝ) (m : Model ℝ) (net : Net ℝ) (op : Nat → Nat) (S : Nat → OptSpec ℝ) (lk : LossKind) (X Y xv yv : Mat)
    (n : Nat) (A B : Nat → Nat → ℝ) (h : Trainee w m net op S lk X Y n A B)
    (hsq : ∀ k, k < net.size → (net.L k).kind = .sigmoid → 0 < k ∧ (net.L k).n = (net.L k).o)
    (epochs : Int) (b : Nat) (hbig : n + b ≤ 2 ^ 53) (k : Nat) (hk : k < net.size) (hs : (net.L k).kind = .sigmoid)
    (hS : SgdOk (S k)) (v : Nat → ℝ) (hv : quad (net.L k).o (S k).vw v ≤ 0) :
    ∃ w' net' S', fit m X Y epochs b xv yv 0 w = .ok (none, w') ∧ IsTask w' m net' op S' ∧ SameShape net net' ∧
      quad (net.L k).o (net'.L k).W v ≤ quad (net.L k).o (net.L k).W v := by
  obtain ⟨w', net', S', hr, hD, hT, hsh, -⟩ := C151_fit w m net op S lk X Y xv yv n A B h hsq epochs b hbig
  refine ⟨w', net', S', hr, hT, hsh, ?_⟩
  refine (sigDescent_keeps hk hs (fun W T => (SgdOk T ∧ quad (net.L k).o T.vw v ≤ 0) ∧
    quad (net.L k).o W v ≤ quad (net.L k).o (net.L k).W v) ⟨⟨hS, hv⟩, le_rfl⟩ ?_ hD).1.2
  rintro W T r G ⟨⟨k1, k2⟩, k3⟩
  have u := fun i j => sgd_newW k1.kind W (gradW r G G) i j
  have hok : SgdOk (T.step (gradW r G G) (gradB r G)) := ⟨k1.kind, k1.lr, k1.decay, k1.momentum⟩
  have hg : 0 ≤ quad (net.L k).o (gradW r G G) v := by
    rw [quad_gradW]
    exact sum_nonneg fun _ _ => sq_nonneg _
  have hgr := mul_nonneg k1.rate hg
  by_cases hm : T.momentum = 0
  · have e1 : T.newW W (gradW r G G) = fun i j => 1 * W i j + -T.rate * gradW r G G i j := by
      funext i j
      rw [((u i j).1 hm).1]
      ring
    have e2 : (T.step (gradW r G G) (gradB r G)).vw = T.vw := by
      funext i j
      exact ((u i j).1 hm).2 _
    rw [e1, e2, quad_lin]
    exact ⟨⟨hok, k2⟩, by linarith⟩
  · have e2 : (T.step (gradW r G G) (gradB r G)).vw = fun i j => T.momentum * T.vw i j + -T.rate * gradW r G G i j := by
      funext i j
      rw [((u i j).2 hm).2]
      ring
    have e1 : T.newW W (gradW r G G) = fun i j => 1 * W i j + 1 * (T.momentum * T.vw i j + -T.rate * gradW r G G i j) := by
      funext i j
      rw [((u i j).2 hm).1]
      ring
    have hmv := mul_nonneg k1.momentum (neg_nonneg.2 k2)
    have e3 := quad_lin (net.L k).o T.vw (gradW r G G) T.momentum (-T.rate) v
    have e4 := quad_lin (net.L k).o W (fun i j => T.momentum * T.vw i j + -T.rate * gradW r G G i j) 1 1 v
    rw [e1, e2, e4, e3]
    exact ⟨⟨hok, by linarith⟩, by linarith⟩

theorem quad_unit {n j : Nat} (hj : j < n) (W : Nat → Nat → ℝ) : quad n W (fun i => if i = j then 1 else 0) = W j j := by
  unfold quad
  rw [sum_eq_single j, sum_eq_single j]
  · simp
  · intro i _ hi
    simp [hi]
  · exact fun h => absurd (mem_range.2 hj) h
  · intro i _ hi
    exact sum_eq_zero fun i' _ => by simp [hi]
  · exact fun h => absurd (mem_range.2 hj) h

/-- C151: no weight on the diagonal increases. -/
theorem C151_diagonal (w : World ℝ) (m : Model ℝ) (net : Net ℝ) (op : Nat → Nat) (S : Nat → OptSpec ℝ) (lk : LossKind) (X Y xv yv : Mat)
    (n : Nat) (A B : Nat → Nat → ℝ) (h : Trainee w m net op S lk X Y n A B)
    (hsq : ∀ k, k < net.size → (net.L k).kind = .sigmoid → 0 < k ∧ (net.L k).n = (net.L k).o)
    (epochs : Int) (b : Nat) (hbig : n + b ≤ 2 ^ 53) (k : Nat) (hk : k < net.size) (hs : (net.L k).kind = .sigmoid)
    (hS : SgdOk (S k)) (j : Nat) (hj : j < (net.L k).o) (hv : (S k).vw j j ≤ 0) :
    ∃ w' net' S', fit m X Y epochs b xv yv 0 w = .ok (none, w') ∧ IsTask w' m net' op S' ∧ SameShape net net' ∧
      (net'.L k).W j j ≤ (net.L k).W j j := by
  have := C151_quadratic w m net op S lk X Y xv yv n A B h hsq epochs b hbig k hk hs hS (fun i => if i = j then 1 else 0)
  simpa only [quad_unit hj] using this (by rw [quad_unit hj]; exact hv)

/-- C151: Adam never increases a weight on the diagonal of a sigmoid layer either. -/
theorem C151_adam (w : World ℝ) (m : Model ℝ) (net : Net ℝ) (op : Nat → Nat) (S : Nat → OptSpec ℝ) (lk : LossKind) (X Y xv yv : Mat)
    (n : Nat) (A B : Nat → Nat → ℝ) (h : Trainee w m net op S lk X Y n A B)
    (hsq : ∀ k, k < net.size → (net.L k).kind = .sigmoid → 0 < k ∧ (net.L k).n = (net.L k).o)
    (epochs : Int) (b : Nat) (hbig : n + b ≤ 2 ^ 53) (k : Nat) (hk : k < net.size) (hs : (net.L k).kind = .sigmoid)
    (hS : AdamOk (S k)) (j : Nat) (hv : 0 ≤ (S k).vw j j) :
    ∃ w' net' S', fit m X Y epochs b xv yv 0 w = .ok (none, w') ∧ IsTask w' m net' op S' ∧ SameShape net net' ∧
      (net'.L k).W j j ≤ (net.L k).W j j := by
  obtain ⟨w', net', S', hr, hD, hT, hsh, -⟩ := C151_fit w m net op S lk X Y xv yv n A B h hsq epochs b hbig
  refine ⟨w', net', S', hr, hT, hsh, ?_⟩
  refine (sigDescent_keeps hk hs (fun W T => (AdamOk T ∧ 0 ≤ T.vw j j) ∧ W j j ≤ (net.L k).W j j) ⟨⟨hS, hv⟩, le_rfl⟩ ?_ hD).1.2
  rintro W T r G ⟨⟨k1, k2⟩, k3⟩
  have hg : 0 ≤ gradW r G G j j := by
    unfold gradW
    rw [fsum_real]
    exact sum_nonneg fun s _ => mul_self_nonneg (G s j)
  have hvel : 0 ≤ T.vel (T.vw j j) (gradW r G G j j) := by
    rw [k1.vel]
    have := k1.b1lt
    exact add_nonneg (mul_nonneg k2 k1.b1) (mul_nonneg hg (by linarith))
  refine ⟨⟨⟨k1.kind, k1.lr, k1.decay, k1.eps, k1.b1, k1.b1lt, k1.b2, k1.ratio⟩, hvel⟩, le_trans ?_ k3⟩
  obtain ⟨c1, -⟩ := k1.corr
  obtain ⟨r1, -⟩ := k1.rate
  have e : T.newW W (gradW r G G) j j = W j j - T.rate * ((T.vel (T.vw j j) (gradW r G G j j) * T.corr) /
      (Real.sqrt (T.cache (T.cw j j) (gradW r G G j j) * T.corr) + T.epsilon)) := by
    unfold OptSpec.newW OptSpec.upd
    rw [k1.kind]
    simp only [real_add, real_mul, real_div, real_neg]
    show W j j + -T.rate * (T.vel (T.vw j j) (gradW r G G j j) * T.corr) / (Real.sqrt (T.cache (T.cw j j) (gradW r G G j j) * T.corr) + T.epsilon) = _
    ring
  rw [e]
  have := k1.eps
  have h4 := mul_nonneg r1 (div_nonneg (mul_nonneg hvel c1.le) (add_nonneg (Real.sqrt_nonneg (T.cache (T.cw j j) (gradW r G G j j) * T.corr)) k1.eps.le))
  linarith

/-! ### Examples -/

/-- Linear layers and one sigmoid layer, at position p, with any sizes. -/
noncomputable def oneSig (d : Nat → Nat) (p i : Nat) : LayerSpec ℝ where
  kind := if i = p then .sigmoid else .linear
  n := d i
  o := d (i + 1)
  W k j := (k : ℝ) - 2 * j
  b j := j
  slope := 0
  dropout := 0

theorem oneSig_kind {d : Nat → Nat} {p i : Nat} (h : (oneSig d p i).kind = .sigmoid) : i = p := by
  by_contra hn
  have : (if i = p then LayerKind.sigmoid else LayerKind.linear) = .sigmoid := h
  rw [if_neg hn] at this
  exact LayerKind.noConfusion this

/-- There is a state with such a model and data in storage of its own. -/
theorem exists_trainee (d : Nat → Nat) (hd : ∀ i, 0 < d i) (p size : Nat) (hs : 0 < size) (o : Optim ℝ) (S : OptSpec ℝ)
    (h0 : o.weightMomentums.rows = 0)
    (ho : ∀ (w : World ℝ) (q i : Nat), q < w.next → w.opt q = o → IsOpt w q (d i) (d (i + 1)) 1 (d (i + 1)) S) {r : Nat} (hr : 0 < r)
    (logger : Bool) (A B : Nat → Nat → ℝ) : ∃ (w : World ℝ) (m : Model ℝ) (net : Net ℝ) (op : Nat → Nat) (X Y : Mat),
      Trainee w m net op (fun _ => S) .mse X Y r A B ∧ net.size = size ∧ net.L = oneSig d p ∧ w.logger = logger ∧ DistinctRows w X r ∧
      ∀ i a, i < net.size → w.IsOptRow (w.opt (op i)) (net.L i).n 1 a → ¬ w.IsRow X r a := by
  obtain ⟨w, net, op, XM, YM, xM, yM, hf, hsz, hL, hdim, hT, -, dY, -, -⟩ := exists_task ({ emptyWorld with logger := logger } : World ℝ) size hs
    (oneSig d p) (fun i => ⟨hd i, hd (i + 1)⟩) (fun i => rfl) { newModel with loss := some ⟨.mse, d size⟩, lossType := 0 } o S h0 ho
    (r := r) (r' := 1) hr Nat.one_pos A B (fun _ _ => 0) (fun _ _ => 0)
  have hx := place_spec w A hr (hd 0)
  have d0 : net.dim 0 = d 0 := by rw [hdim]; rfl
  have d1 : net.dim net.size = d size := by rw [hdim, hsz]; rfl
  refine ⟨_, _, net, op, _, YM, ⟨hT.allocs hx.frame, by rw [d1]; rfl, ⟨d0 ▸ hx.mat, hx.cap.ge, ?_⟩, d1 ▸ dY.allocs hT.isNet hx.frame⟩, hsz, hL,
    hx.frame.logger.trans hf.logger, hx.distinct, ?_⟩
  · intro a hp hrow
    have := hx.fresh a hrow
    have := hT.isNet.param_lt ((hT.isNet.isParam hx.frame (fun _ h => h) a).1 hp)
    omega
  · intro i a hi hp hrow
    have := hx.fresh a hrow
    have := (hT.opt i hi).optRow_lt (((hT.opt i hi).optRow_frame hx.frame (fun h => h) (fun _ h => h) a).1 hp)
    omega

/-- C151_panics: a binary classifier with three inputs, a linear layer of three units, a sigmoid layer with one output, SGD and 5 samples. -/
example : ∃ (w : World ℝ) (m : Model ℝ) (net : Net ℝ) (op : Nat → Nat) (S : Nat → OptSpec ℝ) (X Y : Mat) (A B : Nat → Nat → ℝ),
    Trainee w m net op S .mse X Y 5 A B ∧ LastUneven net 1 ∧ (net.L 1).o < (net.L 1).n ∧ ((1 : Nat) = 0 → DistinctRows w X 5) ∧
    w.logger = true ∧ 5 + 2 ≤ 2 ^ 53 := by
  obtain ⟨o, ho⟩ := sgd_ok_real (lr := 1 / 10) (decay := 0) (mom := 0) (by norm_num) le_rfl le_rfl
  have hrows : o.weightMomentums.rows = 0 := by rw [newSGD_ok ho]; rfl
  obtain ⟨w, m, net, op, X, Y, h, hs, hL, hl, -, -⟩ := exists_trainee (fun i => if i ≤ 1 then 3 else 1) (fun i => by split <;> decide) 1 2
    (by decide) o (OptSpec.fresh o) hrows (fun w p i hlt e => e ▸ isOpt_newSGD _ _ _ _ hlt (e.symm ▸ ho)) (r := 5) (by decide) true
    (fun i j => (i : ℝ) + j) (fun i _ => if i = 2 then 1 else 0)
  refine ⟨w, m, net, op, _, X, Y, _, _, h, ⟨by omega, by rw [hL]; rfl, by rw [hL]; decide, ?_⟩, by rw [hL]; decide, fun h => absurd h (by decide), hl, by norm_num⟩
  intro j h1 h2
  omega

/-- C151_error: the same with a linear layer of one unit and a sigmoid layer of three, and Adam. -/
example : ∃ (w : World ℝ) (m : Model ℝ) (net : Net ℝ) (op : Nat → Nat) (S : Nat → OptSpec ℝ) (X Y : Mat) (A B : Nat → Nat → ℝ),
    Trainee w m net op S .mse X Y 5 A B ∧ LastUneven net 1 ∧ (net.L 1).n < (net.L 1).o ∧ w.logger = true ∧ 5 + 2 ≤ 2 ^ 53 := by
  obtain ⟨o, ho⟩ := adam_ok_real (lr := 1 / 1000) (decay := 0) (by norm_num) le_rfl (1 / 10 ^ 7) (9 / 10) (999 / 1000)
  have hrows : o.weightMomentums.rows = 0 := by rw [newAdam_ok ho]; rfl
  obtain ⟨w, m, net, op, X, Y, h, hs, hL, hl, -, -⟩ := exists_trainee (fun i => if i ≤ 1 then 1 else 3) (fun i => by split <;> decide) 1 2
    (by decide) o (OptSpec.fresh o) hrows (fun w p i hlt e => e ▸ isOpt_newAdam _ _ _ _ hlt (e.symm ▸ ho)) (r := 5) (by decide) true
    (fun i j => (i : ℝ) + j) (fun i j => if i = j then 1 else 0)
  refine ⟨w, m, net, op, _, X, Y, _, _, h, ⟨by omega, by rw [hL]; rfl, by rw [hL]; decide, ?_⟩, by rw [hL]; decide, hl, by norm_num⟩
  intro j h1 h2
  omega

/-- C151_first: a sigmoid layer with one input and three outputs before a linear layer, with Adam and with SGD. -/
example : ∀ adam : Bool, ∃ (w : World ℝ) (m : Model ℝ) (net : Net ℝ) (op : Nat → Nat) (S : Nat → OptSpec ℝ) (X Y : Mat) (A B : Nat → Nat → ℝ),
    Trainee w m net op S .mse X Y 5 A B ∧ LastUneven net 0 ∧ (net.L 0).n < (net.L 0).o ∧ DistinctRows w X 5 ∧
    (∀ i a, i < net.size → w.IsOptRow (w.opt (op i)) (net.L i).n 1 a → ¬ w.IsRow X 5 a) ∧ w.logger = true ∧ ((S 0).stateful ↔ adam = true) ∧
    5 + 2 ≤ 2 ^ 53 := by
  intro adam
  obtain ⟨o, hrows, ho, hst⟩ : ∃ o : Optim ℝ, o.weightMomentums.rows = 0 ∧
      (∀ (w : World ℝ) (q r1 c1 r2 c2 : Nat), q < w.next → w.opt q = o → IsOpt w q r1 c1 r2 c2 (OptSpec.fresh o)) ∧
      ((OptSpec.fresh o).stateful ↔ adam = true) := by
    cases adam with
    | true =>
      obtain ⟨o, ho⟩ := adam_ok_real (lr := 1 / 1000) (decay := 0) (by norm_num) le_rfl (1 / 10 ^ 7) (9 / 10) (999 / 1000)
      refine ⟨o, by rw [newAdam_ok ho]; rfl, fun w p _ _ _ _ hlt e => e ▸ isOpt_newAdam _ _ _ _ hlt (e.symm ▸ ho), ?_⟩
      rw [newAdam_ok ho]
      exact ⟨fun _ => rfl, fun _ => .inl rfl⟩
    | false =>
      obtain ⟨o, ho⟩ := sgd_ok_real (lr := 1 / 10) (decay := 0) (mom := 0) (by norm_num) le_rfl le_rfl
      refine ⟨o, by rw [newSGD_ok ho]; rfl, fun w p _ _ _ _ hlt e => e ▸ isOpt_newSGD _ _ _ _ hlt (e.symm ▸ ho), ?_⟩
      rw [newSGD_ok ho]
      refine ⟨fun h => ?_, fun h => by cases h⟩
      rcases h with h | h
      · cases h
      · exact absurd h (by simp [OptSpec.fresh, Flt.zero])
  obtain ⟨w, m, net, op, X, Y, h, hs, hL, hl, h1, h2⟩ := exists_trainee (fun i => if i = 0 then 1 else 3) (fun i => by split <;> decide) 0 2
    (by decide) o (OptSpec.fresh o) hrows (fun w q i hlt e => ho w q _ _ _ _ hlt e) (r := 5) (by decide) true
    (fun i j => (i : ℝ) + j) (fun i j => if i = j then 1 else 0)
  refine ⟨w, m, net, op, _, X, Y, _, _, h, ⟨by omega, by rw [hL]; rfl, by rw [hL]; decide, ?_⟩, by rw [hL]; decide, h1, h2, hl, hst, by norm_num⟩
  intro j h3 h4 h5
  rw [hL] at h5
  have := oneSig_kind h5
  omega

/-- C151_fit, C151_skew, C151_quadratic, C151_diagonal: two linear layers around a square sigmoid layer, SGD with momentum and decay, 5 samples. -/
example : ∃ (w : World ℝ) (m : Model ℝ) (net : Net ℝ) (op : Nat → Nat) (S : Nat → OptSpec ℝ) (X Y : Mat) (A B : Nat → Nat → ℝ),
    Trainee w m net op S .mse X Y 5 A B ∧ (∀ k, k < net.size → (net.L k).kind = .sigmoid → 0 < k ∧ (net.L k).n = (net.L k).o) ∧ net.size = 3 ∧
    (net.L 1).kind = .sigmoid ∧ (net.L 1).o = 2 ∧ SgdOk (S 1) ∧ (S 1).momentum ≠ 0 ∧ (∀ i j, (S 1).vw i j = (S 1).vw j i) ∧
    (∀ v, quad (net.L 1).o (S 1).vw v ≤ 0) ∧ (net.L 1).W 0 1 ≠ (net.L 1).W 1 0 := by
  obtain ⟨o, ho⟩ := sgd_ok_real (lr := 1 / 10) (decay := 1 / 100) (mom := 9 / 10) (by norm_num) (by norm_num) (by norm_num)
  have hrows : o.weightMomentums.rows = 0 := by rw [newSGD_ok ho]; rfl
  obtain ⟨w, m, net, op, X, Y, h, hs, hL, hl, -, -⟩ := exists_trainee (fun _ => 2) (fun _ => by decide) 1 3
    (by decide) o (OptSpec.fresh o) hrows (fun w p i hlt e => e ▸ isOpt_newSGD _ _ _ _ hlt (e.symm ▸ ho)) (r := 5) (by decide) true
    (fun i j => (i : ℝ) + j) (fun i j => if i = j then 1 else 0)
  refine ⟨w, m, net, op, _, X, Y, _, _, h, ?_, hs, by rw [hL]; rfl, by rw [hL]; rfl, ?_, ?_, fun _ _ => rfl, ?_, ?_⟩
  · intro k _ h1
    rw [hL] at h1 ⊢
    have := oneSig_kind h1
    exact ⟨by omega, rfl⟩
  · rw [newSGD_ok ho]
    refine ⟨rfl, ?_, ?_, ?_⟩
    · show (0 : ℝ) ≤ 1 / 10
      norm_num
    · show (0 : ℝ) ≤ 1 / 100
      norm_num
    · show (0 : ℝ) ≤ 9 / 10
      norm_num
  · rw [newSGD_ok ho]
    show (9 / 10 : ℝ) ≠ 0
    norm_num
  · intro v
    unfold quad
    simp [OptSpec.fresh, Flt.zero]
  · rw [hL]
    show ((0 : Nat) : ℝ) - 2 * ((1 : Nat) : ℝ) ≠ ((1 : Nat) : ℝ) - 2 * ((0 : Nat) : ℝ)
    norm_num

/-- C151_adam: the same with Adam. -/
example : ∃ (w : World ℝ) (m : Model ℝ) (net : Net ℝ) (op : Nat → Nat) (S : Nat → OptSpec ℝ) (X Y : Mat) (A B : Nat → Nat → ℝ),
    Trainee w m net op S .mse X Y 5 A B ∧ (∀ k, k < net.size → (net.L k).kind = .sigmoid → 0 < k ∧ (net.L k).n = (net.L k).o) ∧ net.size = 3 ∧
    (net.L 1).kind = .sigmoid ∧ AdamOk (S 1) ∧ ∀ j, 0 ≤ (S 1).vw j j := by
  obtain ⟨o, ho⟩ := adam_ok_real (lr := 1 / 1000) (decay := 0) (by norm_num) le_rfl (1 / 10 ^ 7) (9 / 10) (999 / 1000)
  have hrows : o.weightMomentums.rows = 0 := by rw [newAdam_ok ho]; rfl
  obtain ⟨w, m, net, op, X, Y, h, hs, hL, hl, -, -⟩ := exists_trainee (fun _ => 2) (fun _ => by decide) 1 3
    (by decide) o (OptSpec.fresh o) hrows (fun w p i hlt e => e ▸ isOpt_newAdam _ _ _ _ hlt (e.symm ▸ ho)) (r := 5) (by decide) true
    (fun i j => (i : ℝ) + j) (fun i j => if i = j then 1 else 0)
  refine ⟨w, m, net, op, _, X, Y, _, _, h, ?_, hs, by rw [hL]; rfl, ?_, ?_⟩
  · intro k _ h1
    rw [hL] at h1 ⊢
    have := oneSig_kind h1
    exact ⟨by omega, rfl⟩
  · rw [newAdam_ok ho]
    refine ⟨rfl, ?_, ?_, ?_, ?_, ?_, ?_, ?_⟩ <;> norm_num [OptSpec.fresh]
  · intro j
    simp [OptSpec.fresh, Flt.zero]

end Learn

end NN
