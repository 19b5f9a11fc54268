import Verif.Spec.PlaceSave
import Verif.Lemmas.FitSafe
import Verif.Lemmas.ParseBad
/-
C58-C64: the file format.
-/

set_option linter.unusedSectionVars false

namespace NN
open NN.Go NN.Parser

section Any
variable {α : Type} [Flt α] [FltBits α] [FltInt α]

/-! ### C58 -/

/-- C58: saving a layer succeeds, and loading the bytes, followed by any others, in any state, makes a layer in new storage with
the same kind, sizes, settings and parameters, and leaves exactly the other bytes. -/
theorem C58_layer_roundtrip (w : World α) (lp : Nat) (wm bm : Mat) (L : LayerSpec α) (h : IsLayer w lp wm bm L) (hs : L.Saveable) :
    ∃ (d : SavedLayerData α) (bytes : List Byte), newSavedLayerData lp w = .ok (d, w) ∧
      (∀ buf, serializeLayer d buf w = .ok ((none, buf ++ bytes), w)) ∧
      ∀ (w1 : World α) (rest : List Byte), wp (loadLayer (bytes ++ rest)) w1 fun x w2 =>
        ∃ lp' wm' bm' L', x = (.ok lp', rest) ∧ NewLayer w1 w2 lp' wm' bm' L' ∧ SameLayer L L' := by
  refine ⟨_, layerBytes L, newSavedLayer_run h hs, fun buf => ?_, fun w1 rest => ?_⟩
  · rw [serializeLayer_run rfl rfl h.wmat h.bmat, recBytes_saved]
  · refine wp_mono ((corr_layer _ w1).ok (pLayer_acc L hs rest)) ?_
    rintro x w2 ⟨lp', hx, wm', bm', hn⟩
    exact ⟨lp', wm', bm', _, hx, hn, norm_same L⟩

/-! ### C59 -/

/-- C59: a finalized model with at most 127 layers is saved without error, in every iteration order of the optimizer values,
and loading the bytes, followed by any others, in any state, returns the same model in new storage and changes nothing that existed. -/
theorem C59_model_roundtrip (w : World α) (m : Model α) (net : Net α) (k : LossKind) (o : Optim α) (h : Ready w m net k o)
    (hs : ∀ i, i < net.size → (net.L i).Saveable) (h127 : net.size ≤ 127) :
    ∃ d : SavedModelData α, newSavedModelData m w = .ok (d, w) ∧
      ∀ order : GoMap α, order.Perm d.optValues → ∃ bytes : List Byte, serialize d order [] w = .ok ((none, bytes), w) ∧
        ∀ (w1 : World α) (rest : List Byte), wp (loadModel (bytes ++ rest)) w1 fun x w2 =>
          ∃ m' net', x = (.ok m', rest) ∧ SameModel m m' net net' ∧ IsNet w2 m' net' ∧ OwnNet w2 net' ∧
            (∀ i, i < net'.size → w1.next ≤ net'.lp i) ∧ (∀ a, w2.IsNetParam net' a → w1.next ≤ a) ∧ Frame { log := True } w1 w2 ∧
            (0 < net'.size → ∃ op S, IsTask w2 m' net' op S ∧ ∀ i, (S i).t = 0) := by
  refine ⟨_, newSavedModel_run h.isNet hs, fun order ho => ⟨bytesOf m net order, ?_, fun w1 rest => ?_⟩⟩
  · exact serialize_run h.isNet ho []
  · refine wp_mono (loadModel_saved h hs (by omega) ho w1 rest) ?_
    rintro x w2 ⟨m', net', k', o', op, hx, hl, hsame⟩
    exact ⟨m', net', hx, hsame, hl.isNet, hl.own, hl.fresh, fun a ⟨i, hi, hp⟩ => hl.params i a hi hp, hl.frame,
      fun hpos => ⟨op, _, hl.task hpos, fun _ => rfl⟩⟩

/-- C59: the same model predicts the same, for every input with the same entries. -/
theorem C59_predict (w w' : World α) (m m' : Model α) (net net' : Net α) (hm : SameModel m m' net net') (hN : IsNet w m net)
    (hN' : IsNet w' m' net') (hpos : 0 < net.size) (x x' : Mat) (r : Nat) (X : Nat → Nat → α) (hX : IsMat w x r (net.dim 0) X)
    (hX' : IsMat w' x' r (net.dim 0) X) :
    wp (predict m x) w fun p w1 => wp (predict m' x') w' fun p' w1' => p'.2 = p.2 ∧
      (p.2 = none → ∃ c V, IsMat w1 p.1 r c V ∧ IsMat w1' p'.1 r c V) := by
  have hd0 : net'.dim 0 = net.dim 0 := by
    rw [← hN'.ins 0 (by rw [hm.size]; exact hpos), ← hN.ins 0 hpos, (hm.layer 0 hpos).n]
  have hdn : net'.dim net'.size = net.dim net.size := by
    obtain ⟨n, hn⟩ : ∃ n, net.size = n + 1 := ⟨net.size - 1, by omega⟩
    rw [hm.size, hn, ← hN'.outs n (by rw [hm.size]; omega), ← hN.outs n (by omega), (hm.layer n (by omega)).o]
  refine wp_mono (predict_spec hN hpos hX) ?_
  rintro ⟨p, e⟩ w1 ⟨-, -, h1, h2⟩
  refine wp_mono (predict_spec hN' (by rw [hm.size]; exact hpos) (hd0 ▸ hX')) ?_
  rintro ⟨p', e'⟩ w1' ⟨-, -, h1', h2'⟩
  rw [hm.accType, hdn] at h1'
  rw [hm.accType] at h2'
  dsimp only at h1 h1' h2 h2' ⊢
  by_cases ht : m.accType = 0 ∨ m.accType = 1 ∨ m.accType = 2
  · obtain ⟨rfl, g⟩ := h1 ht
    obtain ⟨rfl, g'⟩ := h1' ht
    refine ⟨rfl, fun _ => ⟨_, _, g.mat, g'.mat.congr ?_⟩⟩
    intro i j hi hj
    have hV : ∀ j, j < net.dim net.size → netOut net' X net'.size i j = netOut net X net.size i j := by
      rw [hm.size]
      exact netOut_same hm hN (fun _ _ => rfl) net.size le_rfl
    unfold decoded
    by_cases t0 : m.accType = 0
    · rw [if_neg (by omega)] at hj
      rw [if_pos t0, if_pos t0, hV j hj]
    · rw [if_neg t0, if_neg t0]
      by_cases t1 : m.accType = 1
      · rw [if_pos t1, if_pos t1, scanMax_same fun j hj => hV j hj]
      · rw [if_neg t1] at hj
        rw [if_neg t1, if_neg t1, hV j hj]
  · have e1 := h2 ht
    have e2 := h2' ht
    rw [Prod.mk.injEq] at e1 e2
    rw [e1.2, e2.2]
    exact ⟨rfl, fun h => by cases h⟩

/-- C59: Finalize makes a model ready to be saved. -/
theorem C59_finalize (w w' : World α) (m m' : Model α) (net : Net α) (hN : IsNet w m net) (hpos : 0 < net.size) (loss : Loss) (o : Optim α)
    (accType : Int) (accPrec : α) (h1 : loss.size < 2 ^ 31) (h0 : 0 < loss.size) (ht : -128 ≤ accType ∧ accType < 128)
    (h : finalize m loss o.getValues accType accPrec w = .ok ((m', none), w')) : Ready w' m' net loss.kind o := by
  by_cases hs : m.outputSize = loss.size
  · rw [finalize_run o accType accPrec (by omega) (by omega) hs] at h
    cases hp : Flt.lt accPrec (Flt.zero : α) with
    | true => rw [hp] at h; simp at h
    | false =>
      rw [hp] at h
      simp only [Bool.false_eq_true, if_false] at h
      injection h with h
      rw [Prod.mk.injEq, Prod.mk.injEq] at h
      obtain ⟨⟨rfl, -⟩, rfl⟩ := h
      have ha := withOpts_allocs w m.modelSize.toNat (optFrom o)
      have hN' := hN.frame ha (Static.of_frame ha fun _ _ h => h) (fun _ h => h) (fun _ _ h => h)
      refine ⟨⟨hN'.size, hN'.ptrs, hN'.lay, hN'.ins, hN'.outs, hN'.input, hN'.output⟩, fun h => by omega, ?_, rfl, rfl, rfl, hp, ht.1, ht.2⟩
      show some loss = some ⟨loss.kind, m.outputSize⟩
      rw [hs]
  · rw [finalize_size o accType accPrec (by omega) (by omega) hs] at h
    simp at h

/-! ### C60 -/

/-- C60: LoadModel never returns a model with more than 127 layers; so a deeper model is not restored. -/
theorem C60_never_deep (w : World α) (buf : List Byte) : wlp (loadModel buf) w fun x _ => ∀ m, x.1 = .ok m → m.modelSize ≤ 127 := by
  have hc := corr_loadModel buf w
  cases hp : (pLoad w.logger buf : Res (RawModel α)) with
  | ok r rest =>
    refine (wp_mono (hc.ok hp) ?_).wlp
    rintro x w' ⟨m, rfl, net, k, o, op, hl⟩ m' hm
    injection hm with hm
    rw [← hm, hl.isNet.size, hl.size]
    have : r.size < 128 := (pLoad_inv hp).2.1
    omega
  | err =>
    refine (wp_mono (hc.err hp) ?_).wlp
    rintro x w' ⟨⟨e, he⟩, -⟩ m hm
    rw [he] at hm; cases hm
  | bad => exact wlp_of_panics (hc.bad hp)

/-- C60: a deeper model is saved without error, and if its number of layers is q modulo 256 (0 < q < 128) and layer q has the
right number of outputs, LoadModel returns its first q layers without an error. -/
theorem C60_silent (w : World α) (m : Model α) (net : Net α) (k : LossKind) (o : Optim α) (h : Ready w m net k o)
    (hs : ∀ i, i < net.size → (net.L i).Saveable) (q t : Nat) (hq0 : 0 < q) (hq : q < 128) (hn : net.size = q + 256 * t)
    (hd : net.dim q = net.dim net.size) (order : GoMap α) (ho : order.Perm m.optValues) :
    ∃ bytes, SavedAs w m order bytes ∧ ∀ w1, wp (loadModel bytes) w1 fun x w2 => ∃ m' net', x.1 = .ok m' ∧ IsNet w2 m' net' ∧
      m'.modelSize = q ∧ ∀ i, i < q → SameLayer (net.L i) (net'.L i) := by
  refine ⟨_, (savedAs_iff h.isNet hs ho).2 rfl, fun w1 => ?_⟩
  have hr : Ready w { m with modelSize := q, layers := (List.range q).map net.lp } { net with size := q } k o := by
    have hN := h.isNet
    refine ⟨⟨rfl, rfl, fun i (hi : i < q) => hN.lay i (by omega), fun i (hi : i < q) => hN.ins i (by omega),
      fun i (hi : i < q) => hN.outs i (by omega), fun _ => hN.input (by omega), fun _ => ?_⟩, fun h0 => ?_, h.loss, h.lossType, h.optType,
      h.optValues, h.prec, h.accLo, h.accHi⟩
    · show m.outputSize = (net.dim q : Int)
      rw [hd, hN.output (by omega)]
    · have : q = 0 := h0
      omega
  have e : bytesOf m net order = bytesOf { m with modelSize := q, layers := (List.range q).map net.lp } { net with size := q } order ++
      (List.range (net.size - q)).flatMap fun i => layerBytes (net.L (q + i)) := by
    have e8 : encInt8 m.modelSize = encInt8 (q : Int) := by
      unfold encInt8
      rw [h.isNet.size, hn]
      congr 2
      apply BitVec.eq_of_toInt_eq
      rw [BitVec.toInt_ofInt, BitVec.toInt_ofInt]
      rw [Int.bmod_eq_emod_of_lt, Int.bmod_eq_emod_of_lt] <;> push_cast <;> omega
    have e9 : (List.range net.size).flatMap (fun i => layerBytes (net.L i)) = (List.range q).flatMap (fun i => layerBytes (net.L i)) ++
        (List.range (net.size - q)).flatMap fun i => layerBytes (net.L (q + i)) := by
      conv_lhs => rw [show net.size = q + (net.size - q) by omega, List.range_add, List.flatMap_append, List.flatMap_map]
    unfold bytesOf modelBytes headBytes rawModel
    dsimp only
    rw [e8, e9]
    simp only [List.append_assoc]
  rw [e]
  refine wp_mono (loadModel_saved hr (fun i (hi : i < q) => hs i (by omega)) hq ho w1 _) ?_
  rintro x w2 ⟨m', net', k', o', op, rfl, hl, hsame⟩
  exact ⟨m', net', rfl, hl.isNet, hsame.modelSize, hsame.layer⟩

/-! ### C61 -/

/-- C61, with an initialised logger: LoadModel reports an error on every strict prefix of a saved model. -/
theorem C61_prefix_partial (w : World α) (m : Model α) (net : Net α) (k : LossKind) (o : Optim α) (h : Ready w m net k o)
    (hs : ∀ i, i < net.size → (net.L i).Saveable) (h127 : net.size ≤ 127) (order : GoMap α) (ho : order.Perm m.optValues) (bytes : List Byte)
    (hb : SavedAs w m order bytes) (n : Nat) (hn : n < bytes.length) (w1 : World α) (hlog : w1.logger = true) :
    wp (loadModel (bytes.take n)) w1 fun x _ => ∃ e, x.1 = .error e := by
  rw [savedAs_iff h.isNet hs ho] at hb
  subst hb
  have := pLoad_rej h hs (by omega) ho n hn
  rw [← hlog] at this
  exact wp_mono ((corr_loadModel _ w1).err this) fun x w2 h => h.1

/-! ### C62 -/

/-- C62: an error on everything that does not start with NNML. -/
theorem C62_magic (buf : List Byte) (h : ¬ str "NNML" <+: buf) (w : World α) :
    wp (loadModel buf) w fun x _ => ∃ e, x.1 = .error e := by
  have hp : (pModel w.logger buf : Res (RawModel α)) = .err := by
    unfold pModel
    refine Parser.bind_err ?_
    cases hm : pMagic (str "NNML") buf with
    | ok u rest => exact absurd ⟨rest, (magic_inv str_NNML_nul hm).symm⟩ h
    | err => rfl
    | bad => exact absurd hm (noBad_magic _ _)
  exact wp_mono ((corr_loadModel buf w).err (Parser.bind_err hp)) fun x w2 h => h.1

/-- C62: LoadLayer reports an error on everything that does not start with LA. -/
theorem C62_layer_magic (buf : List Byte) (h : ¬ str "LA" <+: buf) (w : World α) :
    wp (loadLayer buf) w fun x _ => ∃ e, x.1 = .error e := by
  have hp : (pLayer buf : Res (LayerSpec α)) = .err := by
    unfold pLayer
    refine Parser.bind_err ?_
    cases hm : pMagic (str "LA") buf with
    | ok u rest => exact absurd ⟨rest, (magic_inv str_LA_nul hm).symm⟩ h
    | err => rfl
    | bad => exact absurd hm (noBad_magic _ _)
  exact wp_mono ((corr_layer buf w).err hp) fun x w2 h => h.1

/-- C62: with a logger, a file with another version is treated like the same file with this version, after one warning. -/
theorem C62_version (v tail : List Byte) (hv : v.length = 5) (hne : v ≠ VERSION) (w : World α) (hl : w.logger = true) :
    loadModel (str "NNML" ++ (v ++ tail)) w = loadModel (str "NNML" ++ (VERSION ++ tail)) { w with log := w.log ++ [.warnVersion v] } :=
  loadModel_version hv hne hl

/-! ### C63 -/

/-- C63 for LoadLayer: it never panics. -/
theorem C63_layer (buf : List Byte) (w : World α) : wp (loadLayer buf) w fun _ _ => True := by
  have hc := corr_layer buf w
  cases hp : (pLayer buf : Res (LayerSpec α)) with
  | ok r rest => exact wp_mono (hc.ok hp) fun _ _ _ => trivial
  | err => exact wp_mono (hc.err hp) fun _ _ _ => trivial
  | bad => exact absurd hp (noBad_layer buf)

/-- C63, what holds: with an initialised logger LoadModel returns, unless the file contains a negative length of the key of an
optimizer value: after 29 bytes, a count, and fewer than that many well-formed values. -/
theorem C63_partial (buf : List Byte) (w : World α) (hl : w.logger = true)
    (hok : ¬ ∃ (head : List Byte) (count : Byte) (ps : List (List Byte)) (b : Byte) (rest : List Byte),
      buf = head ++ count :: (ps.flatten ++ b :: rest) ∧ head.length = 29 ∧ (ps.length : Int) < count.toInt ∧ (∀ p ∈ ps, IsPair p) ∧
        b.toInt < 0) : wp (loadModel buf) w fun _ _ => True := by
  have hc := corr_loadModel buf w
  cases hp : (pLoad w.logger buf : Res (RawModel α)) with
  | ok r rest => exact wp_mono (hc.ok hp) fun _ _ _ => trivial
  | err => exact wp_mono (hc.err hp) fun _ _ _ => trivial
  | bad =>
    rw [hl] at hp
    unfold pLoad at hp
    rcases bad_inv hp with hp | ⟨r, rest, -, hp⟩
    · exact absurd (model_bad hp) hok
    · split at hp <;> cases hp

/-- NNML, the version, 20 bytes of header, one optimizer value, the length of whose key is -1. -/
def badFile : List Byte := str "NNML" ++ (VERSION ++ (List.replicate 20 0 ++ [1, 255]))

/-- C63: LoadModel panics on `badFile`, with or without a logger. -/
theorem C63_panics (w : World α) : Panics (loadModel badFile) w := by
  refine (corr_loadModel badFile w).bad (Parser.bind_bad ?_)
  cases w.logger <;> rfl

/-- C63: without a logger LoadModel panics on every file with another version. -/
theorem C63_no_logger (v tail : List Byte) (hv : v.length = 5) (hne : v ≠ VERSION) (w : World α) (hl : w.logger = false) :
    Panics (loadModel (str "NNML" ++ (v ++ tail))) w := by
  refine (corr_loadModel _ w).bad (Parser.bind_bad ?_)
  unfold pModel
  refine (Parser.bind_ok (pMagic_acc (str "NNML") _)).trans ?_
  refine (Parser.bind_ok (b := v) (rest := tail) ?_).trans ?_
  · have := pRead_acc v tail
    rwa [hv] at this
  · rw [if_pos ⟨hne, hl⟩]; rfl

/-! ### C64 -/

/-- C64: whatever LoadModel accepts is a usable model: its layers form a chain with parameters of the right shapes in separate
storage, it is finalized with a loss of its output size, it has one optimizer per layer, all different, with the settings in
the model, Forward accepts every input of the right width, and (if it is not empty) it can be trained.  It can be saved again. -/
theorem C64_usable (w : World α) (buf : List Byte) : wlp (loadModel buf) w fun x w' => ∀ m, x.1 = .ok m →
    ∃ (net : Net α) (k : LossKind) (o : Optim α) (op : Nat → Nat), Ready w' m net k o ∧ OwnNet w' net ∧
      (∀ i, i < net.size → (net.L i).Saveable) ∧ m.optims = (List.range net.size).map op ∧
      (∀ i j, i < net.size → j < net.size → op i = op j → i = j) ∧
      (∀ i, i < net.size → op i < w'.next ∧ w'.opt (op i) = optFrom o) ∧
      (∀ (x : Mat) (r : Nat) (X : Nat → Nat → α), IsMat w' x r (net.dim 0) X → ∀ training,
        wp (modelForward m x training) w' fun p w2 => p.2 = none ∧ ∃ y Y, p.1[net.size]? = some y ∧ IsMat w2 y r (net.dim net.size) Y) ∧
      (0 < net.size → ∃ S, IsTask w' m net op S) := by
  have hc := corr_loadModel buf w
  cases hp : (pLoad w.logger buf : Res (RawModel α)) with
  | ok r rest =>
    refine (wp_mono (hc.ok hp) ?_).wlp
    rintro x w' ⟨m, rfl, net, k, o, op, hl⟩ m' hm
    injection hm with hm
    subst hm
    obtain ⟨hg, -, ha⟩ := pLoad_inv hp
    refine ⟨net, k, o, op, hl.ready ha hg.outs, hl.own, hl.saveable, hl.optims, hl.inj, fun i hi => ⟨(hl.opts i hi).1, (hl.opts i hi).2.2⟩,
      fun x n X hX training => ?_, fun h0 => ⟨_, hl.task h0⟩⟩
    refine wp_mono (modelForward_spec hl.isNet hX training) ?_
    rintro p w2 ⟨oo, mask, V, M, h1, h2, h3, h4, h5⟩
    refine ⟨h2, oo net.size, V net.size, ?_, ?_⟩
    · rw [h1]
      simp
    · cases hn : net.size with
      | zero =>
        rw [h3, h4]
        exact hX.frame h5.frame (fun h => h) (fun _ _ h => h)
      | succ n => exact (h5.res n (by omega)).mat
  | err =>
    refine (wp_mono (hc.err hp) ?_).wlp
    rintro x w' ⟨⟨e, he⟩, -⟩ m hm
    rw [he] at hm; cases hm
  | bad => exact wlp_of_panics (hc.bad hp)

end Any

/-! ### Refutations and examples over binary64 -/

/-- The model with n layers of all six types, in turn, finalized with Adam. -/
theorem exists_saveable [Libm] (n : Nat) (hn : 0 < n) (h : n < 1000) : ∃ (w : World F64) (m : Model F64) (net : Net F64) (o : Optim F64),
    net.size = n ∧ net.L = saveL ∧ Ready w m net .ce o ∧ OwnNet w net ∧ ∀ i, i < net.size → (net.L i).Saveable := by
  obtain ⟨w, m, net, h1, h2, h3, h4⟩ := exists_ready saveL (fun i => demoL_pos (α := F64) i) (fun i => demoL_chain (α := F64) i) n hn (Optim.zero .adam)
  exact ⟨w, m, net, _, h1, h2, h3, h4, fun i hi => by rw [h2]; exact saveL_saveable (by omega)⟩

/-- C58_layer_roundtrip: a dropout layer meets the hypotheses. -/
example [Libm] : ∃ (w : World F64) (lp : Nat) (wm bm : Mat) (L : LayerSpec F64), IsLayer w lp wm bm L ∧ L.Saveable ∧ L.kind = .dropout := by
  obtain ⟨w, m, net, o, h1, h2, h3, -, h5⟩ := exists_saveable 2 (by decide) (by decide)
  exact ⟨w, _, _, _, net.L 1, h3.isNet.lay 1 (by omega), h5 1 (by omega), by rw [h2]; rfl⟩

/-- C59_model_roundtrip, C61_prefix_partial: a model with 127 layers meets the hypotheses. -/
example [Libm] : ∃ (w : World F64) (m : Model F64) (net : Net F64) (o : Optim F64), net.size = 127 ∧ Ready w m net .ce o ∧ OwnNet w net ∧
    ∀ i, i < net.size → (net.L i).Saveable := by
  obtain ⟨w, m, net, o, h1, -, h3, h4, h5⟩ := exists_saveable 127 (by decide) (by decide)
  exact ⟨w, m, net, o, h1, h3, h4, h5⟩

/-- A 1x1 linear layer. -/
noncomputable def tinyL [Libm] (_ : Nat) : LayerSpec F64 := ⟨.linear, 1, 1, fun _ _ => Flt.one, fun _ => Flt.zero, Flt.zero, Flt.zero⟩

theorem tinyL_saveable [Libm] (i : Nat) : (tinyL i).Saveable :=
  ⟨Nat.one_pos, Nat.one_pos, by show 1 < 2 ^ 31; decide, by show 1 < 2 ^ 31; decide, fun _ => rfl, fun _ => rfl⟩

/-- C60_silent: a model with 257 layers meets the hypotheses; loading it returns a model with one layer. -/
example [Libm] : ∃ (w : World F64) (m : Model F64) (net : Net F64) (o : Optim F64), Ready w m net .ce o ∧ (∀ i, i < net.size → (net.L i).Saveable) ∧
    net.size = 1 + 256 * 1 ∧ net.dim 1 = net.dim net.size := by
  obtain ⟨w, m, net, h1, h2, h3, -⟩ := exists_ready tinyL (fun _ => ⟨Nat.one_pos, Nat.one_pos⟩) (fun _ => rfl) 257 (by decide) (Optim.zero .adam)
  refine ⟨w, m, net, _, h3, fun i _ => by rw [h2]; exact tinyL_saveable i, h1, ?_⟩
  have e : ∀ i, i < net.size → net.dim (i + 1) = 1 := fun i hi => by rw [← h3.isNet.outs i hi, h2]; rfl
  rw [e 0 (by omega), h1, e 256 (by omega)]

/-- C60 as stated: a finalized model of any depth is either refused when it is saved, or restored. -/
def C60_claim [Libm] : Prop := ∀ (w : World F64) (m : Model F64) (net : Net F64) (k : LossKind) (o : Optim F64), Ready w m net k o →
  (∀ i, i < net.size → (net.L i).Saveable) → ∀ order : GoMap F64, order.Perm m.optValues →
    (∃ d e bytes w1, newSavedModelData m w = .ok (d, w) ∧ serialize d order [] w = .ok ((some e, bytes), w1)) ∨
    ∃ bytes, SavedAs w m order bytes ∧ ∀ w1 : World F64, wp (loadModel bytes) w1 fun x _ => ∃ m', x.1 = .ok m' ∧ m'.modelSize = m.modelSize

/-- C60 is false: a model with 128 layers is saved without error and not restored. -/
theorem C60_false [Libm] : ¬ C60_claim := by
  intro hc
  obtain ⟨w, m, net, o, h1, -, h3, -, h5⟩ := exists_saveable 128 (by decide) (by decide)
  rcases hc w m net _ o h3 h5 m.optValues (List.Perm.refl _) with ⟨d, e, bytes, w1, hd, he⟩ | ⟨bytes, -, hl⟩
  · rw [newSavedModel_run h3.isNet h5] at hd
    injection hd with hd
    rw [Prod.mk.injEq] at hd
    rw [← hd.1, serialize_run h3.isNet (List.Perm.refl _) []] at he
    injection he with he
    rw [Prod.mk.injEq, Prod.mk.injEq] at he
    cases he.1.1
  · have := hl w
    rw [wp_iff] at this
    obtain ⟨x, w', hx, m', hm, hsz⟩ := this
    have h127 := C60_never_deep w bytes x w' hx m' hm
    rw [hsz, h3.isNet.size, h1] at h127
    exact absurd h127 (by decide)

/-- C61 as stated, with or without a logger. -/
def C61_claim [Libm] : Prop := ∀ (w : World F64) (m : Model F64) (net : Net F64) (k : LossKind) (o : Optim F64), Ready w m net k o →
  (∀ i, i < net.size → (net.L i).Saveable) → net.size ≤ 127 → ∀ (order : GoMap F64), order.Perm m.optValues → ∀ bytes, SavedAs w m order bytes →
    ∀ n, n < bytes.length → ∀ w1 : World F64, wp (loadModel (bytes.take n)) w1 fun x _ => ∃ e, x.1 = .error e

/-- C61 is false without a logger: on the first five bytes LoadModel panics. -/
theorem C61_false [Libm] : ¬ C61_claim := by
  intro hc
  obtain ⟨w, m, net, o, h1, -, h3, -, h5⟩ := exists_saveable 1 (by decide) (by decide)
  have hs := (savedAs_iff h3.isNet h5 (List.Perm.refl m.optValues)).2 rfl
  have hl : 5 < (bytesOf m net m.optValues).length := by
    unfold bytesOf modelBytes
    rw [List.length_append, List.length_append, show (str "NNML").length = 4 from rfl, show VERSION.length = 5 from rfl]
    omega
  have ht : (bytesOf m net m.optValues).take 5 = str "NNML" ++ str "1" := rfl
  have := hc w m net _ o h3 h5 (by omega) _ (List.Perm.refl _) _ hs 5 hl { w with logger := false }
  rw [ht, wp_iff] at this
  obtain ⟨x, w', hx, -⟩ := this
  have hp : Panics (loadModel (str "NNML" ++ str "1")) ({ w with logger := false } : World F64) :=
    (corr_loadModel _ _).bad (Parser.bind_bad (by rfl))
  obtain ⟨p, hp⟩ := hp
  rw [hx] at hp
  cases hp

/-- C62: inputs as in the hypotheses. -/
example : ¬ str "NNML" <+: str "NNMX1.0.3" ∧ ¬ str "LA" <+: str "L" ∧ (str "1.0.2").length = 5 ∧ str "1.0.2" ≠ VERSION := by decide

/-- C63 as stated. -/
def C63_claim [Libm] : Prop := ∀ (buf : List Byte) (w : World F64), wp (loadModel buf) w fun _ _ => True

/-- C63 is false: see `C63_panics` and `C63_no_logger`. -/
theorem C63_false [Libm] : ¬ C63_claim := by
  intro hc
  have := hc badFile emptyWorld
  rw [wp_iff] at this
  obtain ⟨x, w', hx, -⟩ := this
  obtain ⟨p, hp⟩ := C63_panics (emptyWorld : World F64)
  rw [hx] at hp
  cases hp

/-- C63_partial: every input of at most 30 bytes meets the hypothesis. -/
example (buf : List Byte) (h : buf.length ≤ 30) : ¬ ∃ (head : List Byte) (count : Byte) (ps : List (List Byte)) (b : Byte) (rest : List Byte),
    buf = head ++ count :: (ps.flatten ++ b :: rest) ∧ head.length = 29 ∧ (ps.length : Int) < count.toInt ∧ (∀ p ∈ ps, IsPair p) ∧ b.toInt < 0 := by
  rintro ⟨head, count, ps, b, rest, rfl, h1, -⟩
  simp only [List.length_append, List.length_cons] at h
  omega

/-- C64_usable: LoadModel accepts some input. -/
example [Libm] : ∃ (w : World F64) (buf : List Byte) (m : Model F64) (rest : List Byte) (w' : World F64), loadModel buf w = .ok ((.ok m, rest), w') := by
  obtain ⟨w, m, net, o, h1, -, h3, -, h5⟩ := exists_saveable 3 (by decide) (by decide)
  have := loadModel_saved h3 h5 (by omega) (List.Perm.refl _) w []
  rw [wp_iff] at this
  obtain ⟨x, w', hx, m', net', k', o', op, rfl, -⟩ := this
  exact ⟨w, _, m', _, w', hx⟩

end NN
