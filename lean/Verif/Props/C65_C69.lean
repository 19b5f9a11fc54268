import Verif.Props.C58_C64
/-
C65-C69: lengths and refusals, whether saved data is a snapshot, and files.
-/

set_option linter.unusedSectionVars false

namespace NN
open NN.Go NN.Parser

section Any
variable {α : Type} [Flt α] [FltBits α]

theorem leBytes_length (k n : Nat) : (leBytes k n).length = k := by
  induction k generalizing n with
  | zero => rfl
  | succ k ih => rw [leBytes, List.length_cons, ih]

theorem encFlt_length (x : α) : (encFlt x).length = 8 := leBytes_length 8 _
theorem encInt8_length (n : Int) : (encInt8 n).length = 1 := leBytes_length 1 _
theorem encInt32_length (n : Int) : (encInt32 n).length = 4 := leBytes_length 4 _

theorem flatMap_length {f : Nat → List Byte} {n l : Nat} (h : ∀ i, i < n → (f i).length = l) : ((List.range n).flatMap f).length = n * l := by
  induction n with
  | zero => simp
  | succ n ih => rw [flatMap_succ, List.length_append, ih fun i hi => h i (by omega), h n (by omega), Nat.succ_mul]

theorem matBytes_length (n o : Nat) (W : Nat → Nat → α) : (matBytes n o W).length = 8 * (n * o) := by
  unfold matBytes
  rw [flatMap_length (l := o * 8) fun i _ => flatMap_length fun j _ => encFlt_length _]
  ring

theorem recBytes_length (d : SavedLayerData α) (n o : Nat) (W B : Nat → Nat → α) : (recBytes d n o W B).length = 27 + 8 * (n * o + o) := by
  unfold recBytes
  simp only [List.length_append, encInt8_length, encInt32_length, encFlt_length, matBytes_length, show (str "LA").length = 2 from rfl]
  ring

/-! ### C65 -/

/-- C65: a serialized layer has 27 + 8 (inputs · outputs + outputs) bytes. -/
theorem C65_layer (w : World α) (d : SavedLayerData α) (n o : Nat) (W B : Nat → Nat → α) (h1 : d.inputs = n) (h2 : d.outputs = o)
    (hW : IsMat w d.weights n o W) (hB : IsMat w d.biases 1 o B) (buf : List Byte) :
    ∃ bytes, serializeLayer d buf w = .ok ((none, buf ++ bytes), w) ∧ bytes.length = 27 + 8 * (n * o + o) :=
  ⟨_, serializeLayer_run h1 h2 hW hB buf, recBytes_length d n o W B⟩

/-- C65: a serialized model has 4+5+1+4+4+1+1+8+1+1 bytes, 1 + the length of the key + 8 for every optimizer value, and its
layers. -/
theorem C65_model [FltInt α] (w : World α) (m : Model α) (net : Net α) (h : IsNet w m net) (hs : ∀ i, i < net.size → (net.L i).Saveable)
    (order : GoMap α) (ho : order.Perm m.optValues) :
    ∃ bytes, SavedAs w m order bytes ∧ bytes.length = (4 + 5 + 1 + 4 + 4 + 1 + 1 + 8 + 1 + 1) +
      (m.optValues.map fun p => 1 + p.1.length + 8).sum + ((List.range net.size).map fun i => 27 + 8 * ((net.L i).n * (net.L i).o + (net.L i).o)).sum := by
  refine ⟨_, (savedAs_iff h hs ho).2 rfl, ?_⟩
  have e1 : (order.flatMap encPair).length = (m.optValues.map fun p => 1 + p.1.length + 8).sum := by
    rw [List.length_flatMap, (ho.map _).sum_eq]
    congr 1
    refine List.map_congr_left fun p _ => ?_
    unfold encPair
    simp only [List.length_append, encInt8_length, encFlt_length]
  have e2 : ((List.range net.size).flatMap fun i => layerBytes (net.L i)).length =
      ((List.range net.size).map fun i => 27 + 8 * ((net.L i).n * (net.L i).o + (net.L i).o)).sum := by
    rw [List.length_flatMap]
    congr 1
    refine List.map_congr_left fun i _ => ?_
    rw [← recBytes_saved (net.L i) (net.wm i) (net.bm i), recBytes_length]
  unfold bytesOf modelBytes headBytes
  simp only [List.length_append, encInt8_length, encInt32_length, encFlt_length, e1, e2, show (str "NNML").length = 4 from rfl,
    show VERSION.length = 5 from rfl]
  ring

/-! ### C66 -/

/-- The shapes of a saved layer do not match its sizes. -/
def SavedLayerData.Bad (d : SavedLayerData α) : Prop :=
  d.weights.rows ≠ d.inputs ∨ d.weights.cols ≠ d.outputs ∨ d.biases.rows ≠ 1 ∨ d.biases.cols ≠ d.outputs

/-- C66: with inconsistent shapes SerializeLayer returns an error and changes neither the buffer nor the state. -/
theorem C66_refused (d : SavedLayerData α) (h : d.Bad) (buf : List Byte) (w : World α) :
    ∃ e, serializeLayer d buf w = .ok ((some e, buf), w) := ⟨_, serializeLayer_bad h buf w⟩

/-- C66: SerializeLayer returns an error exactly for inconsistent shapes. -/
theorem C66_exactly (d : SavedLayerData α) (buf : List Byte) (w : World α) :
    wlp (serializeLayer d buf) w fun x _ => (∃ e, x.1 = some e) ↔ d.Bad := by
  by_cases h : d.Bad
  · intro x w' hx
    rw [serializeLayer_bad h buf w] at hx
    injection hx with hx
    rw [Prod.mk.injEq] at hx
    rw [← hx.1]
    exact ⟨fun _ => h, fun _ => ⟨_, rfl⟩⟩
  · unfold SavedLayerData.Bad at h
    push Not at h
    unfold serializeLayer
    rw [if_neg (by simp [h]), if_neg (by simp [h])]
    refine wlp_bind (R := fun _ _ => True) (fun _ _ _ => trivial) fun b1 w1 _ => ?_
    refine wlp_bind (R := fun _ _ => True) (fun _ _ _ => trivial) fun b2 w2 _ => wlp_pure ?_
    constructor
    · rintro ⟨e, he⟩; cases he
    · rintro (h1 | h1 | h1 | h1)
      · exact absurd h.1 h1
      · exact absurd h.2.1 h1
      · exact absurd h.2.2.1 h1
      · exact absurd h.2.2.2 h1

/-- C66_refused: the record of a layer without weights meets the hypothesis. -/
example : (⟨0, 2, 3, Flt.zero, Flt.zero, Mat.zero, Mat.zero⟩ : SavedLayerData α).Bad := .inl (by show (0 : Int) ≠ 2; decide)

theorem serializeLayers_iff (d : SavedModelData α) (buf : List Byte) (k : Nat) (w : World α) :
    wlp (serializeLayers d k buf) w fun x _ => (∃ e, x.1 = some e) ↔ ∃ i l, i < k ∧ d.layers[i]? = some l ∧ l.Bad := by
  induction k with
  | zero =>
    refine wlp_pure ⟨?_, ?_⟩
    · rintro ⟨e, he⟩; cases he
    · rintro ⟨i, l, hi, -⟩; omega
  | succ k ih =>
    unfold serializeLayers
    refine wlp_bind ih ?_
    rintro ⟨e, b1⟩ w1 h1
    dsimp only at h1 ⊢
    cases e with
    | some e =>
      obtain ⟨i, l, hi, h2, h3⟩ := h1.1 ⟨e, rfl⟩
      exact wlp_pure ⟨fun _ => ⟨i, l, by omega, h2, h3⟩, fun _ => ⟨e, rfl⟩⟩
    | none =>
      dsimp only
      have hno : ¬ ∃ i l, i < k ∧ d.layers[i]? = some l ∧ l.Bad := fun h => by
        obtain ⟨e, he⟩ := h1.2 h
        cases he
      refine wlp_bind (R := fun l _ => d.layers[k]? = some l) ?_ ?_
      · intro l w2 hl
        unfold listGet at hl
        rw [if_pos (Int.natCast_nonneg k), Int.toNat_natCast] at hl
        cases hk : d.layers[k]? with
        | none => rw [hk] at hl; cases hl
        | some l' =>
          rw [hk] at hl
          injection hl with hl
          rw [Prod.mk.injEq] at hl
          rw [← hl.1]
      · intro l w2 hl x w3 hx
        have : (∃ e, x.1 = some e) ↔ l.Bad := C66_exactly l b1 w2 x w3 hx
        rw [this]
        constructor
        · intro hb
          exact ⟨k, l, by omega, hl, hb⟩
        · rintro ⟨i, l', hi, h2, h3⟩
          rcases Nat.lt_succ_iff_lt_or_eq.1 hi with hi | rfl
          · exact absurd ⟨i, l', hi, h2, h3⟩ hno
          · rw [hl] at h2
            injection h2 with h2
            rw [h2]
            exact h3

/-- C66 for whole models: Serialize returns an error exactly if the shapes of some layer are inconsistent, whichever layer it is. -/
theorem C66_model (d : SavedModelData α) (order : GoMap α) (buf : List Byte) (w : World α) :
    wlp (serialize d order buf) w fun x _ => (∃ e, x.1 = some e) ↔ ∃ i l, i < d.modelSize.toNat ∧ d.layers[i]? = some l ∧ l.Bad :=
  serializeLayers_iff d _ _ w

/-- C66 for whole models: at the first layer with inconsistent shapes Serialize stops and returns its error.  What has been written is the
head and the layers before. -/
theorem C66_stops (d : SavedModelData α) (order : GoMap α) (buf : List Byte) (w : World α) (N t : Nat) (D : Nat → SavedLayerData α)
    (bytes : Nat → List Byte) (hd : d.layers = (List.range N).map D) (hN : d.modelSize = N) (ht : t < N)
    (hD : ∀ i, i < t → ∀ buf, serializeLayer (D i) buf w = .ok ((none, buf ++ bytes i), w)) (hbad : (D t).Bad) :
    serialize d order buf w = .ok ((some (.layerDims (D t).inputs (D t).outputs),
      buf ++ encHeader d ++ (order.map encPair).flatten ++ (List.range t).flatMap bytes), w) := by
  unfold serialize
  rw [hN, Int.toNat_natCast]
  generalize buf ++ encHeader d ++ (order.map encPair).flatten = buf
  have before : ∀ k, k ≤ t → serializeLayers d k buf w = .ok ((none, buf ++ (List.range k).flatMap bytes), w) := by
    intro k hk
    induction k with
    | zero => simp [serializeLayers]; rfl
    | succ k ih =>
      unfold serializeLayers
      refine (bind_ok (ih (by omega))).trans ?_
      dsimp only
      rw [hd]
      refine (bind_ok (listGet_map D (by omega) w)).trans ?_
      rw [hD k (by omega), flatMap_succ, List.append_assoc]
  have after : ∀ k, t < k → k ≤ N → serializeLayers d k buf w = .ok ((some (.layerDims (D t).inputs (D t).outputs),
      buf ++ (List.range t).flatMap bytes), w) := by
    intro k
    induction k with
    | zero => intro h; omega
    | succ k ih =>
      intro h1 h2
      unfold serializeLayers
      rcases Nat.lt_succ_iff_lt_or_eq.1 h1 with h | rfl
      · exact (bind_ok (ih h (by omega))).trans rfl
      · refine (bind_ok (before _ le_rfl)).trans ?_
        dsimp only
        rw [hd]
        exact (bind_ok (listGet_map D (by omega) w)).trans (serializeLayer_bad hbad _ w)
  exact after N ht le_rfl

/-- C66_stops: three records, of which the second has no weights. -/
example (w : World α) (W B : Mat) (hW : IsMat w W 2 3 fun _ _ => Flt.one) (hB : IsMat w B 1 3 fun _ _ => Flt.zero) :
    ∃ (D : Nat → SavedLayerData α) (bytes : Nat → List Byte), 1 < 3 ∧
      (∀ i, i < 1 → ∀ buf, serializeLayer (D i) buf w = .ok ((none, buf ++ bytes i), w)) ∧ (D 1).Bad :=
  ⟨fun i => if i = 0 then ⟨0, 2, 3, Flt.zero, Flt.zero, W, B⟩ else ⟨0, 2, 3, Flt.zero, Flt.zero, Mat.zero, Mat.zero⟩,
    fun _ => recBytes ⟨0, 2, 3, Flt.zero, Flt.zero, W, B⟩ 2 3 (fun _ _ => Flt.one) fun _ _ => Flt.zero, by decide,
    fun i hi buf => by
      obtain rfl : i = 0 := by omega
      exact serializeLayer_run (d := ⟨0, 2, 3, Flt.zero, Flt.zero, W, B⟩) (n := 2) (o := 3) rfl rfl hW hB buf, .inl (by show (0 : Int) ≠ 2; decide)⟩

/-! ### C67 -/

/-- C67, what happens instead: what Serialize writes are the parameters that the layers have when it is called, not those they
had when NewSavedModelData was called.  `net'` differs from `net` in the parameters only. -/
theorem C67_live [FltInt α] (w w' : World α) (m : Model α) (net net' : Net α) (h : IsNet w m net) (h' : IsNet w' m net')
    (hlp : ∀ i, i < net.size → net'.lp i = net.lp i ∧ net'.wm i = net.wm i ∧ net'.bm i = net.bm i ∧
      ∃ W b, net'.L i = { net.L i with W := W, b := b })
    (hs : ∀ i, i < net.size → (net.L i).Saveable) (order : GoMap α) (ho : order.Perm m.optValues) :
    ∃ d bytes, newSavedModelData m w = .ok (d, w) ∧ serialize d order [] w' = .ok ((none, bytes), w') ∧ SavedAs w' m order bytes := by
  have hsz : net'.size = net.size := by have := h.size; have := h'.size; omega
  have hs' : ∀ i, i < net'.size → (net'.L i).Saveable := by
    intro i hi
    obtain ⟨-, -, -, W, b, e⟩ := hlp i (by omega)
    rw [e]
    have := hs i (by omega)
    exact ⟨this.n, this.o, this.nlt, this.olt, this.slope, this.dropout⟩
  have ed : savedModel m net = savedModel m net' := by
    unfold savedModel
    rw [hsz]
    congr 1
    refine List.map_congr_left fun i hi => ?_
    obtain ⟨-, e1, e2, W, b, e⟩ := hlp i (List.mem_range.1 hi)
    rw [e, e1, e2]
    rfl
  refine ⟨_, _, newSavedModel_run h hs, ?_, (savedAs_iff h' hs' ho).2 rfl⟩
  rw [ed]
  exact serialize_run h' ho []

/-- C67, what holds: as long as the parameters are the same, so is what Serialize writes. -/
theorem C67_partial [FltInt α] (w w' : World α) (m : Model α) (net : Net α) (h : IsNet w m net) (h' : IsNet w' m net)
    (hs : ∀ i, i < net.size → (net.L i).Saveable) (order : GoMap α) (ho : order.Perm m.optValues) :
    ∃ d bytes, newSavedModelData m w = .ok (d, w) ∧ serialize d order [] w = .ok ((none, bytes), w) ∧
      serialize d order [] w' = .ok ((none, bytes), w') :=
  ⟨_, _, newSavedModel_run h hs, serialize_run h ho [], serialize_run h' ho []⟩

/-! ### C68 -/

/-- The file system after SaveFile has been interrupted, or has run to the end with or without an error. -/
def After (ops : List FsOp) (fs fs' : FS) : Prop := CrashOps ops fs fs' ∨ fs' = runOps ops fs

theorem after_cases {name : Str} {bytes : List Byte} {k : Nat} {fs fs' : FS}
    (h : After [.create name, .write name (bytes.take k)] fs fs') :
    (fs' name = fs name ∨ ∃ n, fs' name = some (bytes.take n)) ∧ ∀ f, f ≠ name → fs' f = fs f := by
  rcases h with h | rfl
  · cases h with
    | here h =>
      cases h with
      | before => exact ⟨.inl rfl, fun _ _ => rfl⟩
      | create => exact ⟨.inr ⟨0, by simp [FsOp.run]⟩, fun f hf => by simp [FsOp.run, hf]⟩
    | later h =>
      cases h with
      | here h =>
        cases h with
        | before => exact ⟨.inr ⟨0, by simp [FsOp.run]⟩, fun f hf => by simp [FsOp.run, hf]⟩
        | write _ _ n => exact ⟨.inr ⟨min n k, by simp [FsOp.run, List.take_take]⟩, fun f hf => by simp [FsOp.run, hf]⟩
      | later h => cases h
  · exact ⟨.inr ⟨k, by simp [runOps, FsOp.run]⟩, fun f hf => by simp [runOps, FsOp.run, hf]⟩

theorem saveFile_run [FltInt α] {w : World α} {m : Model α} {net : Net α} (h : IsNet w m net) (hs : ∀ i, i < net.size → (net.L i).Saveable)
    {order : GoMap α} (ho : order.Perm m.optValues) (name : Str) (createFails : Bool) (writeFails : Option Nat) :
    saveFile m name order createFails writeFails w = .ok (if createFails then (some .os, []) else match writeFails with
      | some k => (some .os, [.create name, .write name ((bytesOf m net order).take k)])
      | none => (none, [.create name, .write name (bytesOf m net order)]), w) := by
  unfold saveFile
  refine (bind_ok (newSavedModel_run h hs)).trans ?_
  cases createFails with
  | true => rfl
  | false =>
    simp only [Bool.false_eq_true, if_false]
    refine (bind_ok (serialize_run h ho [])).trans ?_
    cases writeFails <;> rfl

/-- C68: when SaveFile returns nil, LoadFile returns the same model. -/
theorem C68_roundtrip [FltInt α] (w : World α) (m : Model α) (net : Net α) (k : LossKind) (o : Optim α) (h : Ready w m net k o)
    (hs : ∀ i, i < net.size → (net.L i).Saveable) (h127 : net.size ≤ 127) (order : GoMap α) (ho : order.Perm m.optValues) (name : Str)
    (fs : FS) : ∃ ops, saveFile m name order false none w = .ok ((none, ops), w) ∧ (∀ f, f ≠ name → runOps ops fs f = fs f) ∧
      ∀ w1 : World α, wp (loadFile (runOps ops fs) name) w1 fun x w2 => ∃ m' net', x = .ok m' ∧ SameModel m m' net net' ∧ IsNet w2 m' net' ∧
        Frame { log := True } w1 w2 := by
  refine ⟨_, saveFile_run h.isNet hs ho name false none, fun f hf => by simp [runOps, FsOp.run, hf], fun w1 => ?_⟩
  unfold loadFile
  have e : runOps [.create name, .write name (bytesOf m net order)] fs name = some (bytesOf m net order ++ []) := by
    simp [runOps, FsOp.run]
  rw [e]
  refine wp_bind_mono (loadModel_saved h hs (by omega) ho w1 []) ?_
  rintro x w2 ⟨m', net', k', o', op, rfl, hl, hsame⟩
  exact wp_pure.2 ⟨m', net', rfl, hsame, hl.isNet, hl.frame⟩

/-- C68, with an initialised logger: whenever SaveFile is interrupted or fails, the file is the old one, or LoadFile returns an
error or the new model; no other file changes. -/
theorem C68_crash_partial [FltInt α] (w : World α) (m : Model α) (net : Net α) (k : LossKind) (o : Optim α) (h : Ready w m net k o)
    (hs : ∀ i, i < net.size → (net.L i).Saveable) (h127 : net.size ≤ 127) (order : GoMap α) (ho : order.Perm m.optValues) (name : Str)
    (createFails : Bool) (writeFails : Option Nat) (fs fs' : FS) :
    wp (saveFile m name order createFails writeFails) w fun r _ => After r.2 fs fs' →
      (∀ f, f ≠ name → fs' f = fs f) ∧ (fs' name = fs name ∨
        ∀ w1 : World α, w1.logger = true → wp (loadFile fs' name) w1 fun x w2 =>
          (∃ e, x = .error e) ∨ ∃ m' net', x = .ok m' ∧ SameModel m m' net net' ∧ IsNet w2 m' net') := by
  refine wp_of_ok (saveFile_run h.isNet hs ho name createFails writeFails) ?_
  intro ha
  cases createFails with
  | true =>
    rcases ha with ha | rfl
    · cases ha
    · exact ⟨fun _ _ => rfl, .inl rfl⟩
  | false =>
    have hcase : (fs' name = fs name ∨ ∃ n, fs' name = some ((bytesOf m net order).take n)) ∧ ∀ f, f ≠ name → fs' f = fs f := by
      cases writeFails with
      | some k => exact after_cases ha
      | none =>
        refine after_cases (k := (bytesOf m net order).length) ?_
        rw [List.take_length]
        exact ha
    refine ⟨hcase.2, hcase.1.imp id ?_⟩
    rintro ⟨n, hn⟩ w1 hlog
    unfold loadFile
    rw [hn]
    by_cases hlt : n < (bytesOf m net order).length
    · have hr := pLoad_rej h hs (by omega) ho n hlt
      rw [← hlog] at hr
      refine wp_bind_mono ((corr_loadModel _ w1).err hr) ?_
      rintro ⟨x, rest⟩ w2 ⟨⟨e, rfl⟩, -⟩
      exact wp_pure.2 (.inl ⟨e, rfl⟩)
    · rw [List.take_of_length_le (by omega), ← List.append_nil (bytesOf m net order)]
      refine wp_bind_mono (loadModel_saved h hs (by omega) ho w1 []) ?_
      rintro x w2 ⟨m', net', k', o', op, rfl, hl, hsame⟩
      exact wp_pure.2 (.inr ⟨m', net', rfl, hsame, hl.isNet⟩)

/-! ### C69 -/

/-- C69, what holds: if the file cannot be created, nothing is changed. -/
theorem C69_create_partial (w : World α) (m : Model α) (name : Str) (order : GoMap α) (writeFails : Option Nat) (fs : FS) :
    wlp (saveFile m name order true writeFails) w fun r _ => (∃ e, r.1 = some e) ∧ runOps r.2 fs = fs := by
  unfold saveFile
  refine wlp_bind (R := fun _ _ => True) (fun _ _ _ => trivial) fun d w1 _ => ?_
  exact wlp_pure ⟨⟨_, rfl⟩, rfl⟩

/-- C69: when the model cannot be serialized, the file is empty afterwards, whatever was in it. -/
theorem C69_lost (w w' : World α) (m : Model α) (d : SavedModelData α) (order : GoMap α) (e : Err) (buf : List Byte) (name : Str)
    (writeFails : Option Nat) (fs : FS) (h1 : newSavedModelData m w = .ok (d, w)) (h2 : serialize d order [] w = .ok ((some e, buf), w')) :
    wp (saveFile m name order false writeFails) w fun r _ => r.1 = some e ∧ runOps r.2 fs name = some [] := by
  unfold saveFile
  refine wp_bind_ok h1 ?_
  simp only [Bool.false_eq_true, if_false]
  refine wp_bind_ok h2 ?_
  exact wp_pure.2 ⟨rfl, by simp [runOps, FsOp.run]⟩

end Any

/-! ### Refutations and examples over binary64 -/

/-- C65, C66, C68: a model as in the hypotheses. -/
example [Libm] : ∃ (w : World F64) (m : Model F64) (net : Net F64) (o : Optim F64), net.size = 6 ∧ Ready w m net .ce o ∧
    ∀ i, i < net.size → (net.L i).Saveable := by
  obtain ⟨w, m, net, o, h1, -, h3, -, h5⟩ := exists_saveable 6 (by decide) (by decide)
  exact ⟨w, m, net, o, h1, h3, h5⟩

/-- C67 as stated, for the history that consists of calling Init on a layer. -/
def C67_claim [Libm] : Prop := ∀ (w : World F64) (m : Model F64) (net : Net F64) (k : LossKind) (o : Optim F64), Ready w m net k o → OwnNet w net →
  (∀ i, i < net.size → (net.L i).Saveable) → ∀ (order : GoMap F64), order.Perm m.optValues → ∀ (d : SavedModelData F64) (bytes : List Byte),
    newSavedModelData m w = .ok (d, w) → serialize d order [] w = .ok ((none, bytes), w) → ∀ i, i < net.size →
      wp (layerInit (net.lp i)) w fun _ w' => serialize d order [] w' = .ok ((none, bytes), w')

/-- What Init makes of a weight of a 1x1 layer when the random number is 0. -/
noncomputable def initC [Libm] : F64 := Flt.zero *. Flt.sqrt (Flt.ofInt 2 /. Flt.ofInt ((1 : Nat) : Int))

theorem initC_ne [Libm] : (⟨initC.bits + 1⟩ : F64) ≠ initC := by
  intro h
  have h1 : initC.bits + 1 = initC.bits := congrArg F64.bits h
  have h2 := congrArg BitVec.toNat h1
  rw [BitVec.toNat_add, show BitVec.toNat (1 : BitVec 64) = 1 from rfl] at h2
  have := initC.bits.isLt
  omega

theorem leBytes_inj {k a b : Nat} (ha : a < 256 ^ k) (hb : b < 256 ^ k) (h : leBytes k a = leBytes k b) : a = b := by
  have := congrArg leNat h
  rwa [leNat_leBytes, leNat_leBytes, Nat.mod_eq_of_lt ha, Nat.mod_eq_of_lt hb] at this

theorem encFlt_inj [Libm] {x y : F64} (h : encFlt x = encFlt y) : x = y := by
  have := leBytes_inj (lt_of_lt_of_le (BitVec.isLt _) (by norm_num)) (lt_of_lt_of_le (BitVec.isLt _) (by norm_num)) h
  have hb : (FltBits.toBits x : BitVec 64) = FltBits.toBits y := BitVec.eq_of_toNat_eq this
  rw [← FltBits.ofBits_toBits x, hb, FltBits.ofBits_toBits]

/-- C67 is false: after Init on a layer, Serialize writes the new weights. -/
theorem C67_false [Libm] : ¬ C67_claim := by
  intro hc
  obtain ⟨w, m, net, h1, h2, h3, h4⟩ := exists_ready (fun _ => { tinyL 0 with W := fun _ _ => ⟨initC.bits + 1⟩ })
    (fun _ => ⟨Nat.one_pos, Nat.one_pos⟩) (fun _ => rfl) 1 (by decide) (Optim.zero .adam)
  have hs : ∀ i, i < net.size → (net.L i).Saveable := by
    intro i _
    rw [h2]
    have := tinyL_saveable 0
    exact ⟨this.n, this.o, this.nlt, this.olt, this.slope, this.dropout⟩
  set w0 : World F64 := { w with norm := fun _ => Flt.zero, normPos := 0 } with hw0
  have hN : IsNet w0 m net := by
    have hN := h3.isNet
    refine ⟨hN.size, hN.ptrs, fun i hi => ?_, hN.ins, hN.outs, hN.input, hN.output⟩
    have hl := hN.lay i hi
    exact ⟨hl.lt, hl.kind, hl.ins, hl.outs, hl.weights, hl.biases, hl.slope, hl.dropout,
      ⟨hl.wmat.rows, hl.wmat.cols, hl.wmat.len, hl.wmat.rpos, hl.wmat.cpos, hl.wmat.addr_lt, hl.wmat.row⟩,
      ⟨hl.bmat.rows, hl.bmat.cols, hl.bmat.len, hl.bmat.rpos, hl.bmat.cpos, hl.bmat.addr_lt, hl.bmat.row⟩⟩
  have hr : Ready w0 m net .ce (Optim.zero .adam) := ⟨hN, h3.empty, h3.loss, h3.lossType, h3.optType, h3.optValues,
      h3.prec, h3.accLo, h3.accHi⟩
  have hO : OwnNet w0 net := ⟨fun i hi => ⟨(h4.own i hi).distinct, (h4.own i hi).disjoint, (h4.own i hi).outer⟩, h4.inj, h4.sep⟩
  have h0 : 0 < net.size := by omega
  have e := hc w0 m net _ _ hr hO hs _ (List.Perm.refl _) _ _ (newSavedModel_run hN hs) (serialize_run hN (List.Perm.refl _) []) 0 h0
  have hi := layerInit_spec (hN.lay 0 h0) (hO.own 0 h0)
  obtain ⟨_, w', -, he, hL, -⟩ := wp_iff.1 (wp_and e hi)
  have hN' : IsNet w' m { net with L := fun _ => { net.L 0 with W := initW w0 (net.L 0).n (net.L 0).o } } := by
    have z : ∀ i, i < net.size → i = 0 := fun i hi => by omega
    refine ⟨hN.size, hN.ptrs, fun i hi => ?_, fun i hi => ?_, fun i hi => ?_, hN.input, hN.output⟩
    · rw [z i hi]; exact hL
    · rw [z i hi]; exact hN.ins 0 h0
    · rw [z i hi]; exact hN.outs 0 h0
  obtain ⟨d, bytes, hd, hb, hsv⟩ := C67_live w0 w' m net _ hN hN' (fun i hi => ⟨rfl, rfl, rfl, initW w0 (net.L 0).n (net.L 0).o, (net.L i).b, by
    rw [show i = 0 by omega]⟩) hs _ (List.Perm.refl _)
  rw [newSavedModel_run hN hs] at hd
  injection hd with hd
  rw [Prod.mk.injEq] at hd
  rw [← hd.1, he] at hb
  injection hb with hb
  rw [Prod.mk.injEq, Prod.mk.injEq] at hb
  have hs' : ∀ i, i < net.size → ({ net.L 0 with W := initW w0 (net.L 0).n (net.L 0).o } : LayerSpec F64).Saveable := by
    have := hs 0 h0
    exact fun i hi => ⟨this.n, this.o, this.nlt, this.olt, this.slope, this.dropout⟩
  rw [savedAs_iff hN' hs' (List.Perm.refl _)] at hsv
  have hbb := hb.1.2.trans hsv
  rw [List.nil_append] at hbb
  unfold bytesOf modelBytes rawModel at hbb
  rw [List.append_cancel_left_eq, List.append_cancel_left_eq] at hbb
  have hl : ∀ L, headBytes (rawModel m net m.optValues) m.optValues.length m.optValues =
    headBytes (rawModel m { net with L := L } m.optValues) m.optValues.length m.optValues := fun _ => rfl
  unfold rawModel at hl
  rw [hl, List.append_cancel_left_eq, h1] at hbb
  simp only [List.range_one, List.flatMap_singleton] at hbb
  rw [h2] at hbb
  unfold layerBytes at hbb
  simp only [List.append_cancel_left_eq] at hbb
  have hm : ∀ f : Nat → Nat → F64, matBytes (tinyL 0).n (tinyL 0).o f = encFlt (f 0 0) := fun f => by
    show matBytes 1 1 f = _
    simp [matBytes]
  rw [hm, hm, List.append_cancel_right_eq] at hbb
  exact initC_ne (encFlt_inj hbb)

/-- C68 as stated, with or without a logger. -/
def C68_claim [Libm] : Prop := ∀ (w : World F64) (m : Model F64) (net : Net F64) (k : LossKind) (o : Optim F64), Ready w m net k o →
  (∀ i, i < net.size → (net.L i).Saveable) → net.size ≤ 127 → ∀ (order : GoMap F64), order.Perm m.optValues →
    ∀ (name : Str) (createFails : Bool) (writeFails : Option Nat) (fs fs' : FS),
    wp (saveFile m name order createFails writeFails) w fun r _ => After r.2 fs fs' → fs' name = fs name ∨
      ∀ w1 : World F64, wp (loadFile fs' name) w1 fun x w2 =>
        (∃ e, x = .error e) ∨ ∃ m' net', x = .ok m' ∧ SameModel m m' net net' ∧ IsNet w2 m' net'

/-- C68 is false without a logger: if five bytes are written, LoadFile panics. -/
theorem C68_false [Libm] : ¬ C68_claim := by
  intro hc
  obtain ⟨w, m, net, o, h1, -, h3, -, h5⟩ := exists_saveable 1 (by decide) (by decide)
  have := hc w m net _ o h3 h5 (by omega) _ (List.Perm.refl m.optValues) (str "f") false (some 5) (fun _ => none)
    (runOps [.create (str "f"), .write (str "f") ((bytesOf m net m.optValues).take 5)] fun _ => none)
  obtain ⟨r, w1, hr, hx⟩ := wp_iff.1 this
  rw [saveFile_run h3.isNet h5 (List.Perm.refl m.optValues)] at hr
  injection hr with hr
  rw [Prod.mk.injEq] at hr
  rw [← hr.1] at hx
  have hf : runOps [.create (str "f"), .write (str "f") ((bytesOf m net m.optValues).take 5)] (fun _ => none) (str "f") =
      some (str "NNML" ++ str "1") := rfl
  rcases hx (.inr rfl) with hx | hx
  · exact absurd (hf.symm.trans hx) (by simp)
  · have hp : Panics (loadModel (str "NNML" ++ str "1")) ({ w with logger := false } : World F64) :=
      (corr_loadModel _ _).bad (Parser.bind_bad (by rfl))
    obtain ⟨p, hp⟩ := hp
    obtain ⟨x, w2, hx, -⟩ := wp_iff.1 (hx { w with logger := false })
    unfold loadFile at hx
    rw [show runOps _ _ _ = _ from hf] at hx
    have := (bind_error hp).symm.trans hx
    cases this

/-- C69 as stated: os.Create and file.Write succeed, so an error comes from the serialization. -/
def C69_claim [Libm] : Prop := ∀ (w : World F64) (m : Model F64) (name : Str) (order : GoMap F64) (fs : FS), order.Perm m.optValues →
  wlp (saveFile m name order false none) w fun r _ => r.1 ≠ none → runOps r.2 fs name = fs name

/-- A 2x2 layer with empty matrices. -/
noncomputable def badLayer [Libm] : Layer F64 :=
  { (Layer.zero .linear : Layer F64) with inputSize := 2, outputSize := 2, weights := some Mat.zero, biases := some Mat.zero }

/-- C69 is false: a model with a layer of the wrong shape empties the file. -/
theorem C69_false [Libm] : ¬ C69_claim := by
  intro hc
  set w : World F64 := { emptyWorld with next := 1, lay := fun _ => badLayer } with hw
  set m : Model F64 := { newModel with modelSize := 1, layers := [0] } with hm
  have hl : newSavedLayerData 0 w = .ok (⟨1, 2, 2, Flt.zero, Flt.zero, Mat.zero, Mat.zero⟩, w) := by
    unfold newSavedLayerData
    refine (bind_ok (show layGet 0 w = .ok (badLayer, w) from rfl)).trans ?_
    show Go.pure _ _ = _
    unfold Go.pure
    congr 2
    have t : badLayer.values.get (str "type") = (Flt.ofInt 1 : F64) := rfl
    have i : badLayer.values.get (str "inputs") = (Flt.ofInt 2 : F64) := rfl
    have o : badLayer.values.get (str "outputs") = (Flt.ofInt 2 : F64) := rfl
    rw [t, i, o, FltInt.toInt_ofInt (1 : Int) (by decide) (by decide), FltInt.toInt_ofInt (2 : Int) (by decide) (by decide)]
    rfl
  have hd : newSavedModelData m w = .ok (⟨VERSION, 1, 0, 0, m.lossType, m.accType, m.accPrec, m.optType, m.optValues,
      [⟨1, 2, 2, Flt.zero, Flt.zero, Mat.zero, Mat.zero⟩]⟩, w) := by
    unfold newSavedModelData
    refine (bind_ok (b := [⟨1, 2, 2, Flt.zero, Flt.zero, Mat.zero, Mat.zero⟩]) (w' := w) ?_).trans rfl
    show foldN (0 + 1) _ _ _ = _
    unfold foldN
    refine (bind_ok (show foldN 0 _ [] w = .ok ([], w) from rfl)).trans ?_
    refine (bind_ok (show listGet m.layers ((0 : Nat) : Int) w = .ok (0, w) from rfl)).trans ?_
    exact (bind_ok hl).trans rfl
  have hbad := serializeLayer_bad (d := (⟨1, 2, 2, Flt.zero, Flt.zero, Mat.zero, Mat.zero⟩ : SavedLayerData F64))
    (.inl (by show (0 : Int) ≠ 2; decide))
  have hser : ∃ buf, serialize (⟨VERSION, 1, 0, 0, m.lossType, m.accType, m.accPrec, m.optType, m.optValues,
      [⟨1, 2, 2, Flt.zero, Flt.zero, Mat.zero, Mat.zero⟩]⟩ : SavedModelData F64) m.optValues [] w = .ok ((some (.layerDims 2 2), buf), w) :=
    ⟨_, hbad _ w⟩
  obtain ⟨buf, hser⟩ := hser
  obtain ⟨r, w1, hr, h1, h2⟩ := wp_iff.1 (C69_lost w w m _ m.optValues _ buf (str "f") none (fun _ => some [1]) hd hser)
  have := hc w m (str "f") m.optValues (fun _ => some [1]) (List.Perm.refl _) r w1 hr (by rw [h1]; simp)
  rw [h2] at this
  cases this

end NN
