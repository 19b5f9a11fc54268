import Verif.Lemmas.LoadModel
import Mathlib.Data.List.Perm.Basic
/- Execution lemmas for NewSavedLayerData, SerializeLayer, NewSavedModelData, Serialize; the round trip. -/

set_option linter.unusedSectionVars false

namespace NN
variable {α : Type} [Flt α] [FltBits α]
open NN.Go NN.Parser

theorem run_foldN {β : Type} {n : Nat} {body : Nat → β → Go α β} {w : World α} (v : Nat → β)
    (h : ∀ k, k < n → body k (v k) w = .ok (v (k + 1), w)) : foldN n body (v 0) w = .ok (v n, w) := by
  induction n with
  | zero => rfl
  | succ n ih =>
    unfold foldN
    exact (bind_ok (ih fun k hk => h k (by omega))).trans (h n (by omega))

theorem flatMap_succ {f : Nat → List Byte} (n : Nat) : (List.range (n + 1)).flatMap f = (List.range n).flatMap f ++ f n := by
  rw [List.range_succ, List.flatMap_append, List.flatMap_singleton]

theorem writeMat_run {w : World α} {m : Mat} {r c : Nat} {A : Nat → Nat → α} (h : IsMat w m r c A) (buf : List Byte) :
    writeMat m buf w = .ok (buf ++ matBytes r c A, w) := by
  unfold writeMat matBytes
  rw [h.rows, h.cols, Int.toNat_natCast, Int.toNat_natCast]
  have := run_foldN (n := r) (w := w) (body := fun i buf => foldN c (fun (j : Nat) buf => do
    let x ← m.at i j
    return buf ++ encFlt x) buf) (fun k => buf ++ (List.range k).flatMap fun i => (List.range c).flatMap fun j => encFlt (A i j)) ?_
  · simpa using this
  · intro i hi
    have := run_foldN (n := c) (w := w) (body := fun (j : Nat) buf => do
      let x ← m.at i j
      return buf ++ encFlt x)
      (fun k => (buf ++ (List.range i).flatMap fun i => (List.range c).flatMap fun j => encFlt (A i j)) ++
        (List.range k).flatMap fun j => encFlt (A i j)) ?_
    · rw [flatMap_succ, ← List.append_assoc]
      simpa using this
    · intro j hj
      refine (bind_ok (at_ok h hi hj)).trans ?_
      rw [flatMap_succ, ← List.append_assoc]
      rfl

/-- The bytes of a layer record. -/
def recBytes (d : SavedLayerData α) (n o : Nat) (W B : Nat → Nat → α) : List Byte :=
  str "LA" ++ (encInt8 d.type ++ (encInt32 d.inputs ++ (encInt32 d.outputs ++ (encFlt d.slope ++ (encFlt d.dropout ++
    (matBytes n o W ++ matBytes 1 o B))))))

theorem serializeLayer_run {w : World α} {d : SavedLayerData α} {n o : Nat} {W B : Nat → Nat → α} (h1 : d.inputs = n) (h2 : d.outputs = o)
    (hW : IsMat w d.weights n o W) (hB : IsMat w d.biases 1 o B) (buf : List Byte) :
    serializeLayer d buf w = .ok ((none, buf ++ recBytes d n o W B), w) := by
  unfold serializeLayer recBytes
  have c1 : ¬ (d.weights.rows ≠ d.inputs ∨ d.weights.cols ≠ d.outputs) := by
    rw [hW.rows, hW.cols, h1, h2]; simp
  have c2 : ¬ (d.biases.rows ≠ 1 ∨ d.biases.cols ≠ d.outputs) := by
    rw [hB.rows, hB.cols, h2]; simp
  rw [if_neg c1, if_neg c2]
  refine (bind_ok (writeMat_run hW _)).trans ?_
  refine (bind_ok (writeMat_run hB _)).trans ?_
  simp only [List.append_assoc]
  rfl

theorem serializeLayer_bad {d : SavedLayerData α} (h : d.weights.rows ≠ d.inputs ∨ d.weights.cols ≠ d.outputs ∨ d.biases.rows ≠ 1 ∨
    d.biases.cols ≠ d.outputs) (buf : List Byte) (w : World α) :
    serializeLayer d buf w = .ok ((some (.layerDims d.inputs d.outputs), buf), w) := by
  unfold serializeLayer
  by_cases h1 : d.weights.rows ≠ d.inputs ∨ d.weights.cols ≠ d.outputs
  · rw [if_pos h1]; rfl
  · rw [if_neg h1, if_pos (by tauto)]; rfl

/-- The record of a layer. -/
def savedLayer (L : LayerSpec α) (wm bm : Mat) : SavedLayerData α := ⟨L.kind.code, L.n, L.o, L.slope, L.dropout, wm, bm⟩

theorem recBytes_saved (L : LayerSpec α) (wm bm : Mat) : recBytes (savedLayer L wm bm) L.n L.o L.W (fun _ j => L.b j) = layerBytes L := rfl

theorem values_type (l : Layer α) : l.values.get (str "type") = Flt.ofInt l.kind.code := by
  unfold Layer.values
  cases l.kind <;> rfl

theorem values_slope (l : Layer α) : l.values.get (str "slope") = if l.kind = .leaky then l.slope else Flt.zero := by
  unfold Layer.values
  cases l.kind <;> rfl

theorem values_dropout (l : Layer α) : l.values.get (str "dropout") = if l.kind = .dropout then l.dropout else Flt.zero := by
  unfold Layer.values
  cases l.kind <;> rfl

theorem newSavedLayer_run [FltInt α] {w : World α} {lp : Nat} {wm bm : Mat} {L : LayerSpec α} (h : IsLayer w lp wm bm L) (hs : L.Saveable) :
    newSavedLayerData lp w = .ok (savedLayer L wm bm, w) := by
  unfold newSavedLayerData
  refine (bind_ok (show layGet lp w = .ok (w.lay lp, w) from rfl)).trans ?_
  rw [h.weights, h.biases]
  have hn := hs.nlt
  have ho := hs.olt
  rw [values_type, values_inputs, values_outputs, values_slope, values_dropout, h.kind, h.ins, h.outs, h.slope, h.dropout, hs.slope_eq,
    hs.dropout_eq, FltInt.toInt_ofInt (L.n : Int) (by omega) (by omega), FltInt.toInt_ofInt (L.o : Int) (by omega) (by omega),
    FltInt.toInt_ofInt _ (by cases L.kind <;> decide) (by cases L.kind <;> decide)]
  have e : (BitVec.ofInt 8 L.kind.code).toInt = L.kind.code := code_toInt8 _
  rw [e]
  rfl

/-! ### Models -/

/-- The record of a model. -/
def savedModel (m : Model α) (net : Net α) : SavedModelData α :=
  ⟨VERSION, m.modelSize, m.inputSize, m.outputSize, m.lossType, m.accType, m.accPrec, m.optType, m.optValues,
    (List.range net.size).map fun i => savedLayer (net.L i) (net.wm i) (net.bm i)⟩

theorem listGet_map {β : Type} (f : Nat → β) {n i : Nat} (hi : i < n) (w : World α) :
    listGet ((List.range n).map f) (i : Int) w = .ok (f i, w) := by
  simp [listGet, List.getElem?_range hi]
  rfl

theorem newSavedModel_run [FltInt α] {w : World α} {m : Model α} {net : Net α} (h : IsNet w m net)
    (hs : ∀ i, i < net.size → (net.L i).Saveable) : newSavedModelData m w = .ok (savedModel m net, w) := by
  unfold newSavedModelData
  rw [h.size, h.ptrs, Int.toNat_natCast]
  have := run_foldN (n := net.size) (w := w) (body := fun (i : Nat) layers => do
    let lp ← listGet ((List.range net.size).map net.lp) i
    let d ← newSavedLayerData lp
    return layers ++ [d]) (fun k => (List.range k).map fun i => savedLayer (net.L i) (net.wm i) (net.bm i)) ?_
  · refine (bind_ok this).trans ?_
    unfold savedModel
    rw [h.size]
    rfl
  · intro i hi
    refine (bind_ok (listGet_map net.lp hi w)).trans ?_
    refine (bind_ok (newSavedLayer_run (h.lay i hi) (hs i hi))).trans ?_
    rw [List.range_succ, List.map_append]
    rfl

/-- Serializing the first k of N layers. -/
theorem serializeLayers_run {w : World α} {d : SavedModelData α} {N : Nat} {D : Nat → SavedLayerData α} {bytes : Nat → List Byte}
    (hd : d.layers = (List.range N).map D) (hD : ∀ i, i < N → ∀ buf, serializeLayer (D i) buf w = .ok ((none, buf ++ bytes i), w)) (buf : List Byte)
    (k : Nat) (hk : k ≤ N) : serializeLayers d k buf w = .ok ((none, buf ++ (List.range k).flatMap bytes), w) := by
  induction k with
  | zero => simp [serializeLayers]; rfl
  | succ k ih =>
    unfold serializeLayers
    refine (bind_ok (ih (by omega))).trans ?_
    dsimp only
    rw [hd]
    refine (bind_ok (listGet_map D (by omega) w)).trans ?_
    rw [hD k (by omega), flatMap_succ, List.append_assoc]

/-- What is written for a model. -/
def rawModel (m : Model α) (net : Net α) (order : GoMap α) : RawModel α :=
  ⟨VERSION, m.modelSize, m.inputSize, m.outputSize, m.lossType, m.accType, m.accPrec, m.optType, order,
    (List.range net.size).map fun i => (net.L i).norm⟩

/-- The bytes of a model. -/
def bytesOf (m : Model α) (net : Net α) (order : GoMap α) : List Byte := modelBytes (rawModel m net order) order.length order net.size net.L

theorem serialize_run {w : World α} {m : Model α} {net : Net α} (h : IsNet w m net) {order : GoMap α} (ho : order.Perm m.optValues)
    (buf : List Byte) : serialize (savedModel m net) order buf w = .ok ((none, buf ++ bytesOf m net order), w) := by
  unfold serialize
  have hD : ∀ i, i < net.size → ∀ buf, serializeLayer (savedLayer (net.L i) (net.wm i) (net.bm i)) buf w =
      .ok ((none, buf ++ layerBytes (net.L i)), w) := fun i hi buf => by
    rw [serializeLayer_run rfl rfl (h.lay i hi).wmat (h.lay i hi).bmat, recBytes_saved]
  have := serializeLayers_run (d := savedModel m net) rfl hD (buf ++ encHeader (savedModel m net) ++ (order.map encPair).flatten) net.size le_rfl
  have e : (savedModel m net).modelSize.toNat = net.size := by
    show m.modelSize.toNat = net.size
    rw [h.size, Int.toNat_natCast]
  rw [e, this]
  unfold bytesOf modelBytes headBytes encHeader
  rw [ho.length_eq, List.flatMap_def (l := order)]
  simp only [List.append_assoc]
  rfl

/-! ### The optimizer values -/

theorem get_perm {m m' : GoMap α} (hp : m'.Perm m) (hk : (m.map Prod.fst).Nodup) (k : Str) : m'.get k = m.get k := by
  have hk' : (m'.map Prod.fst).Nodup := (hp.map _).nodup_iff.2 hk
  have key : ∀ (m : GoMap α), (m.map Prod.fst).Nodup → ∀ v, (k, v) ∈ m → m.get k = v := by
    intro m hk v hv
    unfold GoMap.get
    cases hf : m.find? (fun p => p.1 == k) with
    | none =>
      rw [List.find?_eq_none] at hf
      exact absurd (hf _ hv) (by simp)
    | some p =>
      have h1 := List.find?_some hf
      have h2 := List.mem_of_find?_eq_some hf
      have h3 : p.1 = k := by simpa using h1
      have := List.inj_on_of_nodup_map hk h2 hv h3
      rw [this]
  by_cases h : ∃ v, (k, v) ∈ m
  · obtain ⟨v, hv⟩ := h
    rw [key m hk v hv, key m' hk' v (hp.mem_iff.2 hv)]
  · have none : ∀ m : GoMap α, (¬ ∃ v, (k, v) ∈ m) → m.get k = Flt.zero := by
      intro m h
      unfold GoMap.get
      have : m.find? (fun p => p.1 == k) = none := by
        rw [List.find?_eq_none]
        rintro ⟨k', v⟩ hp
        by_cases e : k' = k
        · exact absurd ⟨v, e ▸ hp⟩ h
        · simpa using e
      rw [this]
    rw [none m h, none m' fun ⟨v, hv⟩ => h ⟨v, hp.mem_iff.1 hv⟩]

theorem setValues_perm (k : OptKind) {m m' : GoMap α} (hp : m'.Perm m) (hk : (m.map Prod.fst).Nodup) :
    (Optim.zero k : Optim α).setValues m' = (Optim.zero k : Optim α).setValues m := by
  have := get_perm hp hk
  unfold Optim.setValues
  simp only [this]

/-- The keys of the optimizer values. -/
def optKeys : OptKind → List Str
  | .sgd => [str "learningRate", str "decay", str "momentum"]
  | .adam => [str "learningRate", str "decay", str "epsilon", str "beta1", str "beta2"]

theorem getValues_keys (o : Optim α) : (o.getValues.del (str "type")).map Prod.fst = optKeys o.kind := by
  unfold Optim.getValues GoMap.del
  cases o.kind <;> rfl

theorem optKeys_nodup (k : OptKind) : (optKeys k).Nodup := by cases k <;> decide

theorem optKeys_short (k : OptKind) : ∀ s ∈ optKeys k, s.length < 128 := by cases k <;> decide

theorem getValues_set (o : Optim α) :
    ((Optim.zero o.kind : Optim α).setValues (o.getValues.del (str "type"))).getValues.del (str "type") = o.getValues.del (str "type") := by
  unfold Optim.getValues Optim.setValues
  cases hk : o.kind <;> rfl

theorem keys_perm {o : Optim α} {order : GoMap α} (h : order.Perm (o.getValues.del (str "type"))) : order.Keys := by
  have hm : (order.map Prod.fst).Perm (optKeys o.kind) := by rw [← getValues_keys]; exact h.map _
  exact ⟨hm.nodup_iff.2 (optKeys_nodup _), fun p hp => optKeys_short o.kind _ (hm.mem_iff.1 (List.mem_map_of_mem (f := Prod.fst) hp))⟩

theorem values_length {o : Optim α} {order : GoMap α} (h : order.Perm (o.getValues.del (str "type"))) : order.length < 128 := by
  rw [h.length_eq, ← List.length_map (f := Prod.fst), getValues_keys]
  cases o.kind <;> decide

theorem setValues_order {o : Optim α} {order : GoMap α} (h : order.Perm (o.getValues.del (str "type"))) :
    ((Optim.zero o.kind : Optim α).setValues order).getValues.del (str "type") = o.getValues.del (str "type") := by
  rw [setValues_perm o.kind h, getValues_set]
  rw [getValues_keys]
  exact optKeys_nodup _

/-! ### The round trip -/

theorem Ready.sizes {w : World α} {m : Model α} {net : Net α} {k : LossKind} {o : Optim α} (h : Ready w m net k o) :
    m.inputSize = firstIn net.L net.size ∧ m.outputSize = lastOut net.L net.size := by
  cases hn : net.size with
  | zero =>
    obtain ⟨h1, h2⟩ := h.empty hn
    exact ⟨h1, h2⟩
  | succ n =>
    have hp : 0 < net.size := by omega
    rw [h.isNet.input hp, h.isNet.output hp, ← h.isNet.ins 0 hp, hn, ← h.isNet.outs n (by omega)]
    exact ⟨by simp [firstIn], rfl⟩

theorem raw_fits {w : World α} {m : Model α} {net : Net α} {k : LossKind} {o : Optim α} (h : Ready w m net k o)
    (hs : ∀ i, i < net.size → (net.L i).Saveable) (h127 : net.size < 128) {order : GoMap α} (ho : order.Perm m.optValues) :
    (rawModel m net order).Fits order.length order := by
  obtain ⟨h1, h2⟩ := h.sizes
  rw [h.optValues] at ho
  have b1 : firstIn net.L net.size < 2147483648 := by
    unfold firstIn
    split
    · omega
    · exact (hs 0 (by omega)).nlt
  have b2 : lastOut net.L net.size < 2147483648 := by
    cases hn : net.size with
    | zero => exact Nat.zero_lt_succ _
    | succ n => exact (hs n (by omega)).olt
  refine ⟨rfl, ?_, ?_, ?_, ?_, ?_, ?_, rfl, values_length ho, keys_perm ho, rfl⟩
  · show toInt8 m.modelSize = m.modelSize
    rw [h.isNet.size]
    exact toInt8_id (by omega) (by omega)
  · show -2147483648 ≤ m.inputSize ∧ m.inputSize < 2147483648
    omega
  · show -2147483648 ≤ m.outputSize ∧ m.outputSize < 2147483648
    omega
  · show toInt8 m.lossType = m.lossType
    rw [h.lossType]; cases k <;> decide
  · exact toInt8_id h.accLo (by have := h.accHi; show m.accType < _; omega)
  · show toInt8 m.optType = m.optType
    rw [h.optType]; cases o.kind <;> decide

theorem raw_good {w : World α} {m : Model α} {net : Net α} {k : LossKind} {o : Optim α} (h : Ready w m net k o) (order : GoMap α) :
    (rawModel m net order).Good := by
  refine ⟨?_, ?_, ⟨k, h.lossType.symm⟩, ⟨o.kind, h.optType.symm⟩, h.prec⟩
  · refine (chain_iff (fun i => (net.L i).norm) net.size).2 ?_
    intro i hi
    show (net.L (i + 1)).n = (net.L i).o
    rw [h.isNet.ins _ hi, h.isNet.outs i (by omega)]
  · show m.outputSize = endOut ((List.range net.size).map fun i => (net.L i).norm)
    rw [lastOut_eq, h.sizes.2]
    cases net.size <;> rfl

theorem norm_same (L : LayerSpec α) : SameLayer L L.norm :=
  ⟨rfl, rfl, rfl, rfl, rfl, fun _ _ hi hj => if_pos ⟨hi, hj⟩, fun _ hj => if_pos ⟨Nat.one_pos, hj⟩⟩

theorem pLoad_acc {w : World α} {m : Model α} {net : Net α} {k : LossKind} {o : Optim α} (h : Ready w m net k o)
    (hs : ∀ i, i < net.size → (net.L i).Saveable) (h127 : net.size < 128) {order : GoMap α} (ho : order.Perm m.optValues) (logger : Bool) :
    Accepts (pLoad logger) (bytesOf m net order) (rawModel m net order) := by
  intro rest
  unfold pLoad bytesOf
  have e : (rawModel m net order).size.toNat = net.size := by
    show m.modelSize.toNat = _
    rw [h.isNet.size, Int.toNat_natCast]
  have := pModel_acc (raw_fits h hs h127 ho) logger (L := net.L) (by rw [e]; rfl) (by rw [e]; exact hs) rest
  rw [e] at this
  refine (Parser.bind_ok this).trans ?_
  rw [if_pos (raw_good h order)]
  rfl

theorem pLoad_rej {w : World α} {m : Model α} {net : Net α} {k : LossKind} {o : Optim α} (h : Ready w m net k o)
    (hs : ∀ i, i < net.size → (net.L i).Saveable) (h127 : net.size < 128) {order : GoMap α} (ho : order.Perm m.optValues) :
    Rejects (pLoad true : Parser (RawModel α)) (bytesOf m net order) := by
  intro n hn
  unfold pLoad bytesOf
  have e : (rawModel m net order).size.toNat = net.size := by
    show m.modelSize.toNat = _
    rw [h.isNet.size, Int.toNat_natCast]
  have := pModel_rej (raw_fits h hs h127 ho) (L := net.L) (by rw [e]; exact hs)
  rw [e] at this
  exact Parser.bind_err (this n hn)

/-- A model loaded from the bytes of `m` is `m`. -/
theorem Loaded.same {w w1 w' : World α} {m m' : Model α} {net net' : Net α} {k k' : LossKind} {o o' : Optim α} {op : Nat → Nat}
    {order : GoMap α} (h : Ready w m net k o) (ho : order.Perm m.optValues) (hl : Loaded w1 w' m' (rawModel m net order) net' k' o' op) :
    SameModel m m' net net' := by
  have hsz : net'.size = net.size := by
    rw [hl.size]
    show m.modelSize.toNat = _
    rw [h.isNet.size, Int.toNat_natCast]
  have hL : ∀ i, i < net.size → net'.L i = (net.L i).norm := by
    have e := hl.layers
    rw [hsz] at e
    intro i hi
    have := congrArg (·[i]?) e
    simp only [rawModel, List.getElem?_map, List.getElem?_range hi, Option.map_some] at this
    exact (Option.some.inj this).symm
  have hkk : k' = k := by
    have e := hl.lossCode
    have e' : (rawModel m net order).lossType = k.code := h.lossType
    rw [e'] at e
    revert e
    cases k' <;> cases k <;> decide
  have hoo : o'.kind = o.kind := by
    have e := hl.optCode
    have e' : (rawModel m net order).optType = o.kind.code := h.optType
    rw [e'] at e
    revert e
    cases o'.kind <;> cases o.kind <;> decide
  have ho' := ho
  rw [h.optValues] at ho'
  refine ⟨?_, ?_, hl.output, ?_, hl.lossType, hl.accType, hl.accPrec, hl.optType, ?_, hsz, fun i hi => ?_⟩
  · rw [hl.isNet.size, h.isNet.size, hsz]
  · rw [hl.input, h.sizes.1, hsz]
    unfold firstIn
    by_cases h0 : net.size = 0
    · rw [if_pos h0, if_pos h0]
    · rw [if_neg h0, if_neg h0, hL 0 (by omega)]; rfl
  · rw [hl.loss, hkk, h.loss]; rfl
  · rw [hl.optValues, h.optValues, hl.values, hoo]
    exact setValues_order ho'
  · rw [hL i hi]; exact norm_same _

/-- A loaded model can be saved again. -/
theorem Loaded.ready {w w' : World α} {m : Model α} {r : RawModel α} {net : Net α} {k : LossKind} {o : Optim α} {op : Nat → Nat}
    (h : Loaded w w' m r net k o op) (ha : -128 ≤ r.accType ∧ r.accType < 128) (he : r.outs = endOut r.layers) : Ready w' m net k o := by
  refine ⟨h.isNet, fun h0 => ⟨?_, ?_⟩, ?_, ?_, ?_, h.optValues, ?_, ?_, ?_⟩
  · rw [h.input, firstIn, if_pos h0]; rfl
  · rw [h.output, he, h.layers, lastOut_eq, h0]; rfl
  · rw [h.loss, h.output]
  · rw [h.lossType, h.lossCode]
  · rw [h.optType, h.optCode]
  · rw [h.accPrec]; exact h.prec
  · rw [h.accType]; exact ha.1
  · rw [h.accType]; exact ha.2

theorem loadModel_saved [FltInt α] {w : World α} {m : Model α} {net : Net α} {k : LossKind} {o : Optim α} (h : Ready w m net k o)
    (hs : ∀ i, i < net.size → (net.L i).Saveable) (h127 : net.size < 128) {order : GoMap α} (ho : order.Perm m.optValues) (w1 : World α)
    (rest : List Byte) : wp (loadModel (bytesOf m net order ++ rest)) w1 fun x w' => ∃ m' net' k' o' op, x = (.ok m', rest) ∧
      Loaded w1 w' m' (rawModel m net order) net' k' o' op ∧ SameModel m m' net net' := by
  refine wp_mono ((corr_loadModel _ w1).ok (pLoad_acc h hs h127 ho w1.logger rest)) ?_
  rintro x w' ⟨m', hx, net', k', o', op, hl⟩
  exact ⟨m', net', k', o', op, hx, hl, hl.same h ho⟩

/-! ### The same model computes the same function -/

theorem infer_same {L L' : LayerSpec α} (h : SameLayer L L') {X X' : Nat → Nat → α} {i : Nat} (hX : ∀ j, j < L.n → X' i j = X i j) {j : Nat}
    (hj : j < L.o) : infer L' X' i j = infer L X i j := by
  have hp : ∀ j, j < L.o → preact L' X' i j = preact L X i j := by
    intro j hj
    unfold preact
    rw [h.n, h.b j hj]
    congr 1
    exact fsum_congr fun q hq => by rw [hX q hq, h.W q j hq hj]
  unfold infer actRow
  rw [h.kind, h.slope, h.o, hp j hj]
  cases L.kind <;> try rfl
  dsimp only
  congr 1
  exact fsum_congr fun q hq => by rw [hp q hq]

theorem netOut_same {w : World α} {m m' : Model α} {net net' : Net α} (h : SameModel m m' net net') (hN : IsNet w m net)
    {X X' : Nat → Nat → α} {i : Nat} (hX : ∀ j, j < net.dim 0 → X' i j = X i j) (k : Nat) (hk : k ≤ net.size) :
    ∀ j, j < net.dim k → netOut net' X' k i j = netOut net X k i j := by
  induction k with
  | zero => exact hX
  | succ k ih =>
    intro j hj
    have hk' : k < net.size := by omega
    refine infer_same (h.layer k hk') (fun q hq => ih (by omega) q ?_) ?_
    · rw [← hN.ins k hk']; exact hq
    · rw [hN.outs k hk']; exact hj

theorem scanMax_same {c : Nat} {f g : Nat → α} (h : ∀ j, j < c → f j = g j) : scanMax c f = scanMax c g :=
  accN_congr fun j hj p => by rw [h j hj]

/-- What saving a finalized model writes. -/
theorem savedAs_iff [FltInt α] {w : World α} {m : Model α} {net : Net α} (h : IsNet w m net) (hs : ∀ i, i < net.size → (net.L i).Saveable)
    {order : GoMap α} (ho : order.Perm m.optValues) {bytes : List Byte} : SavedAs w m order bytes ↔ bytes = bytesOf m net order := by
  constructor
  · rintro ⟨d, h1, h2⟩
    rw [newSavedModel_run h hs] at h1
    injection h1 with h1
    rw [Prod.mk.injEq] at h1
    rw [← h1.1, serialize_run h ho []] at h2
    injection h2 with h2
    rw [Prod.mk.injEq, Prod.mk.injEq] at h2
    exact h2.1.2.symm
  · rintro rfl
    exact ⟨_, newSavedModel_run h hs, serialize_run h ho []⟩

end NN
