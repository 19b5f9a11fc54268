import Verif.Props.C77_C78
/- Properties C92: training a model that is not ready. -/

set_option linter.unusedSectionVars false

namespace NN
open Go

section Any
variable {α : Type} [Flt α]

/-- The first t layers of a model. -/
def Net.take (net : Net α) (t : Nat) : Net α := { net with size := t }

theorem forRet_panic {β : Type} {n k : Nat} {body : Nat → Go α (Option β)} {w w1 : World α} {p : Panic} (hk : k < n)
    (h1 : forRet k body w = .ok (none, w1)) (h2 : body k w1 = .error p) : forRet n body w = .error p := by
  obtain ⟨d, rfl⟩ : ∃ d, n = k + 1 + d := ⟨n - (k + 1), by omega⟩
  clear hk
  induction d with
  | zero => exact (bind_ok h1).trans h2
  | succ d ih => exact bind_error ih

theorem blocks_pos {n b : Nat} (hn : 0 < n) : 0 < (blocks n b).length := by
  have := blocks_cover n b
  rcases h : blocks n b with _ | ⟨p, bs⟩
  · rw [h] at this; simp at this; omega
  · simp

/-- If the training step on the first batch panics, so does Fit. -/
theorem fit_panics_first [FltInt α] {w : World α} {m : Model α} {X Y xv yv : Mat} {n cx cy : Nat} {A B : Nat → Nat → α}
    (hX : IsMat w X n cx A) (hY : IsMat w Y n cy B) (hcX : n ≤ X.m.cap) (hcY : n ≤ Y.m.cap) {epochs : Int} (he : 1 ≤ epochs) {b : Nat}
    (hbig : n + b ≤ 2 ^ 53) (k : Int) {p : Panic}
    (h : ∀ x y r A B, IsMat w x r cx A → IsMat w y r cy B → trainOn m x y w = .error p) :
    fit m X Y epochs b xv yv k w = .error p := by
  rw [fit_blocks hX hY hcX hcY epochs b hbig]
  have hpos : 0 < (blocks n b).length := blocks_pos hX.rpos
  have hmem : (blocks n b).getD 0 (0, 0) ∈ blocks n b := by
    rw [List.getD_eq_getElem?_getD, List.getElem?_eq_getElem hpos]
    exact List.getElem_mem hpos
  obtain ⟨h1, h2, -⟩ := blocks_mem hX.rpos hmem
  obtain ⟨q, hq⟩ : ∃ q, (blocks n b).getD 0 (0, 0) = q := ⟨_, rfl⟩
  refine forRet_panic (k := 0) (by omega) rfl ?_
  refine bind_error (forRet_panic (k := 0) hpos rfl ?_)
  rw [hq] at h1 h2 ⊢
  exact h _ _ _ _ _ (hX.rowsOf h1 h2) (hY.rowsOf h1 h2)

/-- C92, no layers: Fit on a model without layers panics (index out of range) on any data, finalized or not. -/
theorem C92_no_layers [FltInt α] (w : World α) (m : Model α) (hm : m.modelSize = 0) (X Y xv yv : Mat) (n cx cy : Nat)
    (A B : Nat → Nat → α) (hX : IsMat w X n cx A) (hY : IsMat w Y n cy B) (hcX : n ≤ X.m.cap) (hcY : n ≤ Y.m.cap) (epochs : Int)
    (he : 1 ≤ epochs) (b : Nat) (hbig : n + b ≤ 2 ^ 53) (k : Int) :
    fit m X Y epochs b xv yv k w = .error .index := by
  refine fit_panics_first hX hY hcX hcY he hbig k ?_
  intro x y r A B _ _
  unfold trainOn
  have h1 : modelForward m x true w = .ok (([x], none), w) := by
    unfold modelForward; rw [hm]; rfl
  refine (bind_ok h1).trans ?_
  dsimp only
  refine bind_error ?_
  unfold modelBackward
  refine bind_error ?_
  unfold fusedLast
  refine bind_error ?_
  rw [hm]
  rfl

/-- C92, not finalized: Fit on a model with layers but without a loss (the state between AddLayer and Finalize) panics with a nil
dereference on all data of the right width. -/
theorem C92_not_finalized [FltInt α] (w : World α) (m : Model α) (net : Net α) (hN : IsNet w m net) (h0 : 0 < net.size)
    (hl : m.loss = none) (ht : m.lossType = 0) (X Y xv yv : Mat) (n cy : Nat)
    (A B : Nat → Nat → α) (hX : IsMat w X n (net.dim 0) A) (hY : IsMat w Y n cy B) (hcX : n ≤ X.m.cap) (hcY : n ≤ Y.m.cap) (epochs : Int)
    (he : 1 ≤ epochs) (b : Nat) (hbig : n + b ≤ 2 ^ 53) (k : Int) :
    fit m X Y epochs b xv yv k w = .error .nilDeref := by
  refine fit_panics_first hX hY hcX hcY he hbig k ?_
  intro x y r A B hx _
  obtain ⟨⟨outs, e⟩, w1, h1, o, mask, V, M, e1, e2, -, -, hrun⟩ := wp_iff.1 (modelForward_spec hN hx true)
  dsimp only at e1 e2
  subst e1 e2
  have hN1 : IsNet w1 m net := hN.frame hrun.frame hrun.stat (fun _ h => h) (fun _ _ h => h)
  refine (bind_ok h1).trans ?_
  dsimp only
  refine bind_error ?_
  unfold modelBackward
  rw [show m.modelSize - 1 = ((net.size - 1 : Nat) : Int) by rw [hN.size]; omega]
  refine (bind_ok (fusedLast_run hN1 (by omega))).trans ?_
  rw [if_neg (by simp [ht])]
  refine (bind_ok (listGet_last hN1 o)).trans ?_
  rw [hl]
  rfl

/-- C92, not finalized: CalculateLoss panics as well. -/
theorem C92_loss (w : World α) (m : Model α) (net : Net α) (hN : IsNet w m net) (hl : m.loss = none) (x y : Mat) (r : Nat)
    (A : Nat → Nat → α) (hX : IsMat w x r (net.dim 0) A) : calculateLoss m x y w = .error .nilDeref := by
  obtain ⟨⟨outs, e⟩, w1, h1, o, mask, V, M, e1, e2, -, -, hrun⟩ := wp_iff.1 (modelForward_spec hN hX false)
  dsimp only at e1 e2
  subst e1 e2
  have hN1 : IsNet w1 m net := hN.frame hrun.frame hrun.stat (fun _ h => h) (fun _ _ h => h)
  refine (bind_ok h1).trans ?_
  dsimp only
  refine (bind_ok (listGet_last hN1 o)).trans ?_
  rw [hl]
  rfl

/-- C92, not finalized: Predict works and returns the outputs of the network as for a regression model. -/
theorem C92_predict (w : World α) (m : Model α) (net : Net α) (hN : IsNet w m net) (h0 : 0 < net.size) (ht : m.accType = 0) (x : Mat)
    (r : Nat) (A : Nat → Nat → α) (hX : IsMat w x r (net.dim 0) A) :
    wp (predict m x) w (fun p w' => p.2 = none ∧ IsMat w' p.1 r (net.dim net.size) (netOut net A net.size)) := by
  obtain ⟨⟨outs, e⟩, w1, h1, o, mask, V, M, e1, e2, e3, e4, hrun⟩ := wp_iff.1 (modelForward_spec hN hX false)
  dsimp only at e1 e2
  subst e1 e2
  have hN1 : IsNet w1 m net := hN.frame hrun.frame hrun.stat (fun _ h => h) (fun _ _ h => h)
  unfold predict
  refine wp_bind_ok h1 ?_
  dsimp only
  rw [if_pos ht]
  refine wp_bind_ok (listGet_last hN1 o) ⟨rfl, ?_⟩
  have h2 := hrun.netOut (by simp) net.size le_rfl
  obtain ⟨s, hs⟩ : ∃ s, net.size = s + 1 := ⟨net.size - 1, by omega⟩
  have h3 := hrun.res s (by omega)
  rw [← hs] at h3
  rw [h2, e4] at h3
  exact h3.mat

/-- C92, no layers: Predict returns its argument, the same matrix and not a copy. -/
theorem C92_predict_empty (w : World α) (m : Model α) (hm : m.modelSize = 0) (ht : m.accType = 0) (x : Mat) :
    predict m x w = .ok ((x, none), w) := by
  have h1 : modelForward m x false w = .ok (([x], none), w) := by
    unfold modelForward; rw [hm]; rfl
  refine (bind_ok h1).trans ?_
  dsimp only
  rw [if_pos ht, hm]
  rfl

theorem IsNet.take {w : World α} {m : Model α} {net : Net α} (h : IsNet w m net) {t : Nat} (ht : t ≤ net.size) (m' : Model α)
    (h1 : m'.modelSize = t) (h2 : m'.layers = (List.range t).map net.lp) (h3 : 0 < t → m'.inputSize = net.dim 0)
    (h4 : 0 < t → m'.outputSize = net.dim t) : IsNet w m' (net.take t) :=
  ⟨h1, h2, fun i hi => h.lay i (lt_of_lt_of_le hi ht), fun i hi => h.ins i (lt_of_lt_of_le hi ht),
    fun i hi => h.outs i (lt_of_lt_of_le hi ht), h3, h4⟩

theorem OwnNet.take {w : World α} {net : Net α} (h : OwnNet w net) {t : Nat} (ht : t ≤ net.size) : OwnNet w (net.take t) :=
  ⟨fun i hi => h.own i (lt_of_lt_of_le hi ht), fun i j hi hj => h.inj i j (lt_of_lt_of_le hi ht) (lt_of_lt_of_le hj ht),
    fun i j a hi hj => h.sep i j a (lt_of_lt_of_le hi ht) (lt_of_lt_of_le hj ht)⟩

theorem IsTask.take {w : World α} {m : Model α} {net : Net α} {op : Nat → Nat} {S : Nat → OptSpec α} (h : IsTask w m net op S) {t : Nat}
    (h0 : 0 < t) (ht : t ≤ net.size) (m' : Model α) : IsTask w ((net.take t).task op m') (net.take t) op S := by
  refine ⟨h.isNet.take ht _ rfl rfl (fun _ => rfl) (fun _ => rfl), h.own.take ht, h0, rfl,
    fun i hi => h.opt i (lt_of_lt_of_le hi ht), fun i j hi hj => h.inj i j (lt_of_lt_of_le hi ht) (lt_of_lt_of_le hj ht), ?_⟩
  rintro i a hi ha ⟨j, hj, hp⟩
  exact h.sep i a (lt_of_lt_of_le hi ht) ha ⟨j, lt_of_lt_of_le hj ht, hp⟩

/-- A training step of a model with fewer optimizers than layers panics. -/
theorem trainOn_late {w : World α} {m mt : Model α} {net : Net α} {op : Nat → Nat} {S : Nat → OptSpec α} {t : Nat} (htn : t < net.size)
    (hT : IsTask w mt (net.take t) op S) (hN : IsNet w m net) (hO : OwnNet w net) (hop : m.optims = mt.optims)
    (hns : ∀ k, k < net.size → (net.L k).kind ≠ .sigmoid) {loss : Loss} (hl : m.loss = some loss) (hls : loss.size = net.dim net.size)
    {x y : Mat} {r : Nat} {X Y : Nat → Nat → α} (hX : IsMat w x r (net.dim 0) X) (hY : IsMat w y r (net.dim net.size) Y) :
    trainOn m x y w = .error .index := by
  have h0 : 0 < net.size := by omega
  obtain ⟨⟨outs, e⟩, w1, h1, o, mask, V, M, e1, e2, ho, hV, hrun⟩ := wp_iff.1 (modelForward_spec hN hX true)
  dsimp only at e1 e2
  subst e1 e2
  have hdr : ∀ k, k < net.size → (net.L k).kind = .dropout → true = true := fun _ _ _ => rfl
  have hfree := freeOut_of_run hN h0 hdr hrun hY
  have hY1 := hY.frame hrun.frame (fun h => h) (fun _ _ h => h)
  have hTape := tape_of_run hN hO hdr hX hrun ho hV
  obtain ⟨G, D, hG⟩ := exists_netGrad m net loss.kind r V M Y
  obtain ⟨⟨gs, e⟩, w2, h2, e3, hfr, hg⟩ := wp_iff.1 (modelBackward_spec hTape h0 hns hl hls hY1 hfree hG)
  dsimp only at e3 hg
  subst e3
  refine (bind_ok h1).trans ?_
  dsimp only
  refine (bind_ok h2).trans ?_
  dsimp only
  -- the first t layers are updated, then the index is out of range
  have hle1 := hrun.frame.next_le
  have hT1 : IsTask w1 mt (net.take t) op S := hT.frame hrun.frame hrun.stat (fun _ h => h) (fun _ h => h) (fun _ _ h => h)
    (fun _ _ _ _ h => h)
  have hOut : ∀ a, w1.IsRow (o net.size) r a → w.next ≤ a := by
    obtain ⟨n, hn⟩ : ∃ n, net.size = n + 1 := ⟨net.size - 1, by omega⟩
    have := hrun.res n (by omega)
    rw [← hn] at this
    exact this.fresh
  have hPar1 : ∀ a, w1.IsNetParam (net.take t) a → a < w.next := fun a ha =>
    hT.isNet.param_lt ((hT.isNet.isParam hrun.frame (fun _ h => h) a).1 ha)
  have hT2 : IsTask w2 mt (net.take t) op S := by
    refine hT1.frame hfr (Static.of_frame hfr fun _ _ h => h) (fun _ h => h) (fun _ h => h) (fun a h1 h2 => ?_) ?_
    · have := hPar1 a h1
      have := hOut a h2.2
      omega
    · intro i a hi h1 h2
      have := hOut a h2.2
      have := (hT.opt i hi).optRow_lt (((hT.opt i hi).optRow_frame hrun.frame (fun h => h) (fun _ h => h) a).1 h1)
      omega
  have hg' : HasGrads w1 w2 (net.take t) r 0 V G (gs.drop (net.size - t)) := by
    refine ⟨by rw [List.length_drop, hg.len]; show _ = t - 0; omega, fun k _ hk => ?_⟩
    have hk' : k < t := hk
    obtain ⟨dw, db, e, f⟩ := hg.get k (Nat.zero_le _) (by omega)
    refine ⟨dw, db, ?_, f⟩
    rw [List.getElem?_drop, ← e]
    show gs[net.size - t + (t - 1 - k)]? = _
    congr 1
    omega
  obtain ⟨e, w3, h3, rfl, -, -⟩ := wp_iff.1 (updateLayers_spec hT2
    (fun a ha => (hPar1 a ((hT1.isNet.isParam hfr (fun _ h => h) a).1 ha)).trans_le hle1) hg')
  unfold updateLayers at h3 ⊢
  rw [hT.isNet.size, Int.toNat_natCast] at h3
  rw [hN.size, Int.toNat_natCast]
  have hlay : ∀ i : Nat, i < t → (listGet mt.layers (i : Int) : Go α Nat) = listGet m.layers (i : Int) := by
    intro i hi
    have e1 := hT.isNet.get_layer (i := i) hi
    have e2 := hN.get_layer (i := i) (by omega)
    unfold listGet
    simp only [Int.toNat_natCast, e1, e2]
    rfl
  have hget : ∀ i : Nat, i < t → (listGet (gs.drop (net.size - t)) (((net.take t).size : Int) - i - 1) : Go α Gradients) =
      listGet gs ((net.size : Int) - i - 1) := by
    intro i hi
    have e1 : ((net.take t).size : Int) - i - 1 = ((t - 1 - i : Nat) : Int) := by show ((t : Nat) : Int) - i - 1 = _; omega
    have e2 : (net.size : Int) - i - 1 = ((net.size - 1 - i : Nat) : Int) := by omega
    rw [e1, e2]
    unfold listGet
    simp only [Int.toNat_natCast, List.getElem?_drop]
    rw [show net.size - t + (t - 1 - i) = net.size - 1 - i by omega, if_pos (Int.natCast_nonneg _), if_pos (Int.natCast_nonneg _)]
  refine forRet_panic htn (w1 := w3) ?_ ?_
  · refine Eq.trans (forRet_congr (fun _ => True) trivial (fun _ _ _ _ => fun _ _ _ _ => trivial) ?_) h3
    intro i w' hi _
    rw [hlay i hi, hop, hget i hi]
  · refine (bind_ok (b := net.lp t) (w' := w3) (by simp [listGet, hN.get_layer htn]; rfl)).trans ?_
    refine (bind_ok rfl).trans ?_
    refine bind_error ?_
    rw [hop, hT.optims]
    have : ((List.range (net.take t).size).map op)[t]? = none := by
      rw [List.getElem?_eq_none]
      simp [Net.take]
    unfold listGet
    simp only [Int.toNat_natCast, this]
    rfl

/-- C92, layers added after Finalize: if the model has layers beyond the ones that got an optimizer, Fit panics (index out of range) on
all data of the right shapes. -/
theorem C92_late [FltInt α] (w : World α) (m mt : Model α) (net : Net α) (op : Nat → Nat) (S : Nat → OptSpec α) (t : Nat)
    (htn : t < net.size) (hT : IsTask w mt (net.take t) op S) (hN : IsNet w m net) (hO : OwnNet w net) (hop : m.optims = mt.optims)
    (hns : ∀ k, k < net.size → (net.L k).kind ≠ .sigmoid) (loss : Loss) (hl : m.loss = some loss) (hls : loss.size = net.dim net.size)
    (X Y xv yv : Mat) (n : Nat) (A B : Nat → Nat → α) (hX : IsMat w X n (net.dim 0) A) (hY : IsMat w Y n (net.dim net.size) B)
    (hcX : n ≤ X.m.cap) (hcY : n ≤ Y.m.cap) (epochs : Int) (he : 1 ≤ epochs) (b : Nat) (hbig : n + b ≤ 2 ^ 53) (k : Int) :
    fit m X Y epochs b xv yv k w = .error .index :=
  fit_panics_first hX hY hcX hcY he hbig k fun _ _ _ _ _ hx hy => trainOn_late htn hT hN hO hop hns hl hls hx hy

/-- C92, a layer added after Finalize: AddLayer accepts the layer without an error, and Fit on the result panics. -/
theorem C92_add [FltInt α] (w : World α) (m : Model α) (net : Net α) (op : Nat → Nat) (S : Nat → OptSpec α)
    (hT : IsTask w m net op S) (hns : ∀ k, k < net.size → (net.L k).kind ≠ .sigmoid) (loss : Loss) (hl : m.loss = some loss)
    (lp : Nat) (wm bm : Mat) (L : LayerSpec α) (hL : IsLayer w lp wm bm L) (hLk : L.kind ≠ .sigmoid) (hn : L.n = net.dim net.size)
    (ho : loss.size = L.o) (hb1 : L.n ≤ 2 ^ 53) (hb2 : L.o ≤ 2 ^ 53) (hown : OwnParams w wm bm L.n)
    (hnew : ∀ i, i < net.size → net.lp i ≠ lp) (hsep : ∀ a, w.IsNetParam net a → ¬ w.IsParam wm bm L.n a)
    (X Y xv yv : Mat) (n : Nat) (A B : Nat → Nat → α) (hX : IsMat w X n (net.dim 0) A) (hY : IsMat w Y n L.o B)
    (hcX : n ≤ X.m.cap) (hcY : n ≤ Y.m.cap) (epochs : Int) (he : 1 ≤ epochs) (b : Nat) (hbig : n + b ≤ 2 ^ 53) (k : Int) :
    ∃ m', addLayer m lp w = .ok ((m', none), w) ∧ fit m' X Y epochs b xv yv k w = .error .index := by
  have hN := hT.isNet
  have hO := hT.own
  have h0 := hT.pos
  have ei := hL.ins
  have eo := hL.outs
  refine ⟨_, addLayer_accept ⟨by rw [ei]; omega, by rw [ei]; exact_mod_cast hb1, by rw [eo]; omega, by rw [eo]; exact_mod_cast hb2⟩
    (fun h => h.2 (by rw [hN.output h0, ei, hn])), ?_⟩
  let net' : Net α := ⟨net.size + 1, fun i => if i = net.size + 1 then L.o else net.dim i, fun i => if i = net.size then lp else net.lp i,
    fun i => if i = net.size then wm else net.wm i, fun i => if i = net.size then bm else net.bm i,
    fun i => if i = net.size then L else net.L i⟩
  have en : ∀ {i}, i < net.size → net'.lp i = net.lp i ∧ net'.wm i = net.wm i ∧ net'.bm i = net.bm i ∧ net'.L i = net.L i := by
    intro i hi
    have : ¬ i = net.size := by omega
    exact ⟨if_neg this, if_neg this, if_neg this, if_neg this⟩
  have ed : ∀ {i}, i ≤ net.size → net'.dim i = net.dim i := fun hi => if_neg (by omega)
  have el : net'.lp net.size = lp ∧ net'.wm net.size = wm ∧ net'.bm net.size = bm ∧ net'.L net.size = L :=
    ⟨if_pos rfl, if_pos rfl, if_pos rfl, if_pos rfl⟩
  have edl : net'.dim (net.size + 1) = L.o := if_pos rfl
  have hsz : net'.size = net.size + 1 := rfl
  have hcase : ∀ {i}, i < net.size + 1 → i < net.size ∨ i = net.size := fun h => by omega
  have hmap : (List.range net.size).map net'.lp = (List.range net.size).map net.lp :=
    List.map_congr_left fun i hi => (en (List.mem_range.1 hi)).1
  clear_value net'
  have hm0 : ¬ m.modelSize = 0 := by rw [hN.size]; omega
  have hpar : ∀ a, w.IsNetParam (net'.take net.size) a ↔ w.IsNetParam net a := by
    intro a
    refine exists_congr fun i => and_congr_right fun hi => ?_
    obtain ⟨-, e2, e3, e4⟩ := en (show i < net.size from hi)
    show w.IsParam (net'.wm i) (net'.bm i) (net'.L i).n a ↔ _
    rw [e2, e3, e4]
  have hlast : ∀ j a, j < net.size → w.IsParam (net.wm j) (net.bm j) (net.L j).n a → ¬ w.IsParam wm bm L.n a :=
    fun j a hj ha hb => hsep a ⟨j, hj, ha⟩ hb
  have hO' : OwnNet w net' := by
    refine ⟨fun i hi => ?_, fun i j hi hj h => ?_, fun i j a hi hj ha hb => ?_⟩
    · rw [hsz] at hi
      rcases hcase hi with h | rfl
      · obtain ⟨-, e2, e3, e4⟩ := en h
        rw [e2, e3, e4]; exact hO.own i h
      · obtain ⟨-, e2, e3, e4⟩ := el
        rw [e2, e3, e4]; exact hown
    · rw [hsz] at hi hj
      rcases hcase hi with h1 | rfl <;> rcases hcase hj with h2 | rfl
      · rw [(en h1).1, (en h2).1] at h; exact hO.inj i j h1 h2 h
      · rw [(en h1).1, el.1] at h; exact absurd h (hnew i h1)
      · rw [(en h2).1, el.1] at h; exact absurd h.symm (hnew j h2)
      · rfl
    · rw [hsz] at hi hj
      rcases hcase hi with h1 | rfl <;> rcases hcase hj with h2 | rfl
      · obtain ⟨-, e2, e3, e4⟩ := en h1
        obtain ⟨-, f2, f3, f4⟩ := en h2
        rw [e2, e3, e4] at ha; rw [f2, f3, f4] at hb
        exact hO.sep i j a h1 h2 ha hb
      · obtain ⟨-, e2, e3, e4⟩ := en h1
        obtain ⟨-, f2, f3, f4⟩ := el
        rw [e2, e3, e4] at ha; rw [f2, f3, f4] at hb
        exact absurd hb (hlast i a h1 ha)
      · obtain ⟨-, e2, e3, e4⟩ := el
        obtain ⟨-, f2, f3, f4⟩ := en h2
        rw [e2, e3, e4] at ha; rw [f2, f3, f4] at hb
        exact absurd ha (hlast j a h2 hb)
      · rfl
  have hN' : IsNet w { m with
      inputSize := if m.modelSize = 0 then (w.lay lp).inputSize else m.inputSize
      layers := m.layers ++ [lp]
      modelSize := m.modelSize + 1
      outputSize := (w.lay lp).outputSize } net' := by
    refine ⟨?_, ?_, fun i hi => ?_, fun i hi => ?_, fun i hi => ?_, fun _ => ?_, fun _ => ?_⟩
    · show m.modelSize + 1 = _; rw [hN.size, hsz]; push_cast; rfl
    · show m.layers ++ [lp] = _
      rw [hsz, List.range_succ, List.map_append, hmap, ← hN.ptrs]
      simp [el.1]
    · rw [hsz] at hi
      rcases hcase hi with h | rfl
      · obtain ⟨e1, e2, e3, e4⟩ := en h
        rw [e1, e2, e3, e4]; exact hN.lay i h
      · obtain ⟨e1, e2, e3, e4⟩ := el
        rw [e1, e2, e3, e4]; exact hL
    · rw [hsz] at hi
      rcases hcase hi with h | rfl
      · rw [(en h).2.2.2, ed h.le]; exact hN.ins i h
      · rw [el.2.2.2, ed le_rfl]; exact hn
    · rw [hsz] at hi
      rcases hcase hi with h | rfl
      · rw [(en h).2.2.2, ed h]; exact hN.outs i h
      · rw [el.2.2.2, edl]
    · show (if m.modelSize = 0 then _ else m.inputSize) = _
      rw [if_neg hm0, ed (Nat.zero_le _)]; exact hN.input h0
    · show (w.lay lp).outputSize = _
      rw [hsz, edl]; exact eo
  refine C92_late w _ m net' op S net.size (by rw [hsz]; omega) ?_ hN' hO' rfl ?_ loss hl (by rw [hsz, edl]; exact ho) X Y xv yv n A B
    (by rw [ed (Nat.zero_le _)]; exact hX) (by rw [hsz, edl]; exact hY) hcX hcY epochs he b hbig k
  · refine ⟨hN'.take (by omega) m hN.size (by rw [hmap]; exact hN.ptrs) (fun h => by rw [ed (Nat.zero_le _)]; exact hN.input h)
      (fun h => by rw [ed le_rfl]; exact hN.output h), hO'.take (by omega), h0, hT.optims, fun i hi => ?_, hT.inj, fun i a hi => ?_⟩
    · have h : i < net.size := hi
      show IsOpt w (op i) (net'.L i).n (net'.L i).o 1 (net'.L i).o (S i)
      rw [(en h).2.2.2]; exact hT.opt i h
    · have h : i < net.size := hi
      show w.IsOptRow (w.opt (op i)) (net'.L i).n 1 a → _
      rw [(en h).2.2.2, hpar]; exact hT.sep i a h
  · intro k hk
    rw [hsz] at hk
    rcases hcase hk with h | rfl
    · rw [(en h).2.2.2]; exact hns k h
    · rw [el.2.2.2]; exact hLk

end Any

/-- C92_late, C92_add: a model of two layers, finalized, to which a third layer is added; data of the shapes of the three-layer model. -/
example : ∃ (w : World ℝ) (m mt : Model ℝ) (net : Net ℝ) (op : Nat → Nat) (S : Nat → OptSpec ℝ) (XM YM : Mat) (A B : Nat → Nat → ℝ),
    net.size = 3 ∧ IsTask w mt (net.take 2) op S ∧ IsNet w m net ∧ OwnNet w net ∧ m.optims = mt.optims ∧
    (∀ k, k < net.size → (net.L k).kind ≠ .sigmoid) ∧ mt.loss = some ⟨.mse, 5⟩ ∧ m.loss = some ⟨.mse, 5⟩ ∧ (5 : Nat) = net.dim net.size ∧
    IsMat w XM 4 (net.dim 0) A ∧ IsMat w YM 4 (net.dim net.size) B ∧ 4 ≤ XM.m.cap ∧ 4 ≤ YM.m.cap ∧
    IsLayer w (net.lp 2) (net.wm 2) (net.bm 2) (net.L 2) ∧ (net.L 2).n = (net.take 2).dim (net.take 2).size ∧ (5 : Nat) = (net.L 2).o ∧
    OwnParams w (net.wm 2) (net.bm 2) (net.L 2).n ∧ (∀ i, i < (net.take 2).size → (net.take 2).lp i ≠ net.lp 2) ∧
    (∀ a, w.IsNetParam (net.take 2) a → ¬ w.IsParam (net.wm 2) (net.bm 2) (net.L 2).n a) := by
  obtain ⟨o, ho⟩ := sgd_ok_real (lr := 1) (decay := 0) (mom := 0) (by norm_num) le_rfl le_rfl
  have hrows : o.weightMomentums.rows = 0 := by rw [newSGD_ok ho]; rfl
  obtain ⟨w, net, op, XM, YM, xM, yM, -, hs, hL, hdim, hT, dX, dY, -, -⟩ := exists_task (emptyWorld : World ℝ) 3 (by decide)
    demoT demoT_pos demoT_chain { newModel with loss := some ⟨.mse, 5⟩ } o (OptSpec.fresh o) hrows
    (fun w p i hlt e => e ▸ isOpt_newSGD _ _ _ _ hlt (e.symm ▸ ho)) (r := 4) (r' := 1) (by decide) (by decide)
    (fun i j => (i : ℝ) + j) (fun i j => (i : ℝ) - j) (fun i _ => (i : ℝ)) (fun _ j => (j : ℝ))
  have d0 : net.dim 0 = (demoT 0 : LayerSpec ℝ).n := by rw [hdim]
  have d1 : net.dim net.size = (demoT 3 : LayerSpec ℝ).n := by rw [hdim, hs]
  have h2 : (2 : Nat) < net.size := by rw [hs]; decide
  refine ⟨w, { net.model { newModel with loss := some ⟨.mse, 5⟩ } with optims := (List.range 2).map op }, _, net, op, _, XM, YM, _, _, hs,
    hT.take (t := 2) (by decide) (by omega) { newModel with loss := some ⟨.mse, 5⟩ }, ?_, hT.own, rfl, ?_, rfl, rfl, by rw [d1]; rfl,
    d0 ▸ dX.mat, d1 ▸ dY.mat, dX.cap, dY.cap, hT.isNet.lay 2 h2, hT.isNet.ins 2 h2, by rw [hL]; rfl, hT.own.own 2 h2, ?_, ?_⟩
  · exact { hT.isNet with }
  · exact fun k _ => by rw [hL]; exact demoT_kind k
  · intro i hi h
    have hi : i < 2 := hi
    have := hT.own.inj i 2 (by omega) h2 h
    omega
  · rintro a ⟨i, hi, ha⟩ hb
    have hi : i < 2 := hi
    have := hT.own.sep i 2 a (by omega) h2 ha hb
    omega

/-- C92_no_layers, C92_not_finalized, C92_loss, C92_predict: a model as it is before Finalize, with data. -/
example : ∃ (w : World ℝ) (m : Model ℝ) (net : Net ℝ) (x : Mat) (X : Nat → Nat → ℝ), IsNet w m net ∧ net.size = 3 ∧ m.loss = none ∧
    m.lossType = 0 ∧ m.accType = 0 ∧ IsMat w x 4 (net.dim 0) X ∧ (newModel : Model ℝ).modelSize = 0 := by
  obtain ⟨w, net, x, h1, -, -, h2, -, h3, -⟩ := exists_net 3 demoT demoT_pos demoT_chain (newModel : Model ℝ) (r := 4) (by decide)
    (fun i j => (i : ℝ) + j)
  exact ⟨w, _, net, x, _, h2, h1, rfl, rfl, rfl, h3, rfl⟩

end NN
