import Verif.Spec.File
import Verif.Lemmas.ParseBad
import Verif.Props.C75
import Verif.IEEE.IntArith
/-
C154: exactly which files LoadModel accepts, and what is left of them when the model is saved again.
-/

set_option linter.unusedSectionVars false

namespace NN
open NN.Go NN.Parser

section Any
variable {α : Type} [Flt α] [FltBits α]

/-! ### Every such file is read -/

theorem pMat_norm {n o : Nat} (W : Nat → Nat → α) : inRange n o (inRange n o W) = inRange n o W := by
  funext i j
  unfold inRange
  by_cases h : i < n ∧ j < o
  · rw [if_pos h, if_pos h]
  · rw [if_neg h, if_neg h]

theorem pLayer_kept (L : LayerSpec α) (h : 0 < L.n ∧ L.n < 2 ^ 31 ∧ 0 < L.o ∧ L.o < 2 ^ 31) :
    Accepts pLayer (layerBytes L) L.kept.norm := by
  obtain ⟨hn, hn', ho, ho'⟩ := h
  unfold pLayer layerBytes
  refine (pMagic_acc _).bind ((pInt8_acc _).bind ((pInt32_acc _).bind ((pInt32_acc _).bind ((pFlt_acc _).bind ((pFlt_acc _).bind ?_)))))
  rw [toInt32_id (by omega) (by omega), toInt32_id (by omega) (by omega), if_neg (by omega), code_toInt8, kindOfCode_code,
    Int.toNat_natCast, Int.toNat_natCast]
  refine (pMat_acc _ _ _).bind ?_
  dsimp only
  exact acc_map (pMat_acc 1 L.o fun _ j => L.b j) fun b =>
    (⟨L.kind, L.n, L.o, inRange L.n L.o L.W, b 0, if L.kind = .leaky then L.slope else Flt.zero,
      if L.kind = .dropout then L.dropout else Flt.zero⟩ : LayerSpec α)

theorem pPair_put {values : GoMap α} {kv : Str × α} (hl : kv.1.length < 128) :
    Accepts (pPair values) (encPair kv) (values.put kv.1 kv.2) := by
  unfold pPair encPair
  rw [List.append_assoc]
  refine (pInt8_acc _).bind ?_
  rw [toInt8_id (by omega) (by omega)]
  refine (pRead_acc _).bind ?_
  exact acc_map (pFlt_acc _) _

/-- The map after reading the values. -/
def putAll (vs : List (Str × α)) : GoMap α := vs.foldl (fun m p => m.put p.1 p.2) []

theorem pPairs_put (vs : List (Str × α)) (h : ∀ p ∈ vs, p.1.length < 128) :
    Accepts (Parser.loop vs.length pPair []) (vs.flatMap encPair) (putAll vs) := by
  induction vs using List.reverseRecOn with
  | nil => exact Accepts.pure _
  | append_singleton vs p ih =>
    rw [List.length_append, List.length_singleton, List.flatMap_append, List.flatMap_singleton]
    unfold putAll
    rw [List.foldl_append]
    exact Accepts.bind (ih fun q hq => h q (List.mem_append_left _ hq)) (pPair_put (h p (by simp)))

theorem pLayers_kept (ls : List (LayerSpec α)) (h : ∀ L ∈ ls, 0 < L.n ∧ L.n < 2 ^ 31 ∧ 0 < L.o ∧ L.o < 2 ^ 31) :
    Accepts (Parser.loop ls.length pNext []) (ls.flatMap layerBytes) (ls.map fun L => L.kept.norm) := by
  induction ls using List.reverseRecOn with
  | nil => exact Accepts.pure _
  | append_singleton ls L ih =>
    rw [List.length_append, List.length_singleton, List.flatMap_append, List.flatMap_singleton, List.map_append]
    exact Accepts.bind (ih fun q hq => h q (List.mem_append_left _ hq)) (acc_map (pLayer_kept L (h L (by simp))) _)

/-- What the parser makes of a file. -/
def ModelFile.raw (F : ModelFile α) : RawModel α :=
  ⟨F.version, F.size, F.ins, F.outs, F.loss, F.acc, F.prec, F.opt, putAll F.values, F.layers.map fun L => L.kept.norm⟩

theorem ModelFile.bytes_enc (F : ModelFile α) : F.bytes = str "NNML" ++ (F.version ++ (encInt8 F.size ++ (encInt32 F.ins ++
    (encInt32 F.outs ++ (encInt8 F.loss ++ (encInt8 F.acc ++ (encFlt F.prec ++ (encInt8 F.opt ++ (encInt8 F.count ++
    (F.values.flatMap encPair ++ F.layers.flatMap layerBytes)))))))))) := by
  have e : (encPair : Str × α → List Byte) = fun p => docInt 1 p.1.length ++ p.1 ++ docFlt p.2 := funext fun p => by
    unfold encPair
    rw [encInt8_doc, encFlt_doc]
  have e2 : (layerBytes : LayerSpec α → List Byte) = docLayer := funext layerBytes_doc
  unfold ModelFile.bytes
  simp only [encInt8_doc, encInt32_doc, encFlt_doc, e, e2, List.flatMap_def, show str "NNML" = [0x4E, 0x4E, 0x4D, 0x4C] from by decide]

theorem lastOutputs_bound {F : ModelFile α} (h : F.Ok) : lastOutputs F.layers < 2 ^ 31 := by
  unfold lastOutputs
  cases hl : F.layers.getLast? with
  | none => simp
  | some L =>
    simp only [Option.map_some, Option.getD_some]
    exact (h.sizes L (List.mem_of_getLast? hl)).2.2.2

theorem ModelFile.parsed {F : ModelFile α} (h : F.Ok) {logger : Bool} (hv : logger = true ∨ F.version = VERSION) :
    Accepts (pModel logger) F.bytes F.raw := by
  rw [F.bytes_enc]
  unfold pModel
  refine (pMagic_acc _).bind ?_
  refine (show Accepts (pRead 5) F.version F.version by have := pRead_acc F.version; rwa [h.version] at this).bind ?_
  rw [if_neg (by rintro ⟨h1, h2⟩; rcases hv with h | h; · rw [h] at h2; cases h2
                 · exact h1 h)]
  unfold pBody
  refine (pInt8_acc _).bind ((pInt32_acc _).bind ((pInt32_acc _).bind ((pInt8_acc _).bind ((pInt8_acc _).bind ((pFlt_acc _).bind
    ((pInt8_acc _).bind ((pInt8_acc _).bind ?_)))))))
  have hb := lastOutputs_bound h
  have ho := h.outs
  have hi := h.ins
  have e1 : toInt8 F.loss = F.loss := by rcases h.loss with h | h | h | h <;> rw [h] <;> decide
  have e2 : toInt8 F.opt = F.opt := by rcases h.opt with h | h <;> rw [h] <;> decide
  rw [toInt8_id h.size.1 h.size.2, toInt32_id (by omega) (by omega), toInt32_id (by omega) (by omega), e1, toInt8_id h.acc.1 h.acc.2, e2,
    toInt8_id h.count.1 h.count.2, ← h.values, ← h.layers]
  exact (pPairs_put F.values h.keys).bind (acc_map (pLayers_kept F.layers h.sizes) fun ls =>
    (⟨F.version, F.size, F.ins, F.outs, F.loss, F.acc, F.prec, F.opt, putAll F.values, ls⟩ : RawModel α))

theorem endOut_last (ls : List (LayerSpec α)) : endOut ls = lastOutputs ls := by
  unfold endOut lastOutputs
  cases ls.getLast? <;> rfl

theorem lastOutputs_map {f : LayerSpec α → LayerSpec α} (hf : ∀ L, (f L).o = L.o) (ls : List (LayerSpec α)) :
    lastOutputs (ls.map f) = lastOutputs ls := by
  unfold lastOutputs
  rw [List.getLast?_map, Option.map_map]
  congr 2
  exact funext hf

theorem lossKind_code (t : Int) : (∃ k : LossKind, k.code = t) ↔ (t = 0 ∨ t = 1 ∨ t = 2 ∨ t = 3) := by
  constructor
  · rintro ⟨k, rfl⟩; cases k <;> decide
  · rintro (rfl | rfl | rfl | rfl)
    · exact ⟨.mse, rfl⟩
    · exact ⟨.mae, rfl⟩
    · exact ⟨.ce, rfl⟩
    · exact ⟨.bce, rfl⟩

theorem optKind_code (t : Int) : (∃ k : OptKind, k.code = t) ↔ (t = 0 ∨ t = 1) := by
  constructor
  · rintro ⟨k, rfl⟩; cases k <;> decide
  · rintro (rfl | rfl)
    · exact ⟨.sgd, rfl⟩
    · exact ⟨.adam, rfl⟩

theorem chain_map {f : LayerSpec α → LayerSpec α} (hn : ∀ L, (f L).n = L.n) (ho : ∀ L, (f L).o = L.o) (ls : List (LayerSpec α)) :
    (∀ i L L', (ls.map f)[i]? = some L → (ls.map f)[i + 1]? = some L' → L'.n = L.o) ↔
      ∀ i L L', ls[i]? = some L → ls[i + 1]? = some L' → L'.n = L.o := by
  constructor
  · intro h i L L' h1 h2
    have := h i (f L) (f L') (by rw [List.getElem?_map, h1]; rfl) (by rw [List.getElem?_map, h2]; rfl)
    rwa [hn, ho] at this
  · intro h i L L' h1 h2
    rw [List.getElem?_map, Option.map_eq_some_iff] at h1 h2
    obtain ⟨a, ha, rfl⟩ := h1
    obtain ⟨b, hb, rfl⟩ := h2
    rw [hn, ho]
    exact h i a b ha hb

theorem ModelFile.good {F : ModelFile α} (h : F.Ok) : F.raw.Good := by
  refine ⟨(chain_map (f := fun L => L.kept.norm) (fun _ => rfl) (fun _ => rfl) _).2 h.chain, ?_, (lossKind_code _).2 h.loss, (optKind_code _).2 h.opt, h.prec⟩
  rw [endOut_last]
  show F.outs = ((lastOutputs (F.layers.map fun L => L.kept.norm) : Nat) : Int)
  rw [lastOutputs_map (f := fun L => L.kept.norm) (fun _ => rfl)]
  exact h.outs

theorem ModelFile.loads {F : ModelFile α} (h : F.Ok) {logger : Bool} (hv : logger = true ∨ F.version = VERSION) :
    Accepts (pLoad logger) F.bytes F.raw := by
  intro rest
  unfold pLoad
  refine (Parser.bind_ok (ModelFile.parsed h hv rest)).trans ?_
  rw [if_pos (ModelFile.good h)]
  rfl

/-! ### The optimizer values -/

theorem get_put (m : GoMap α) (k key : Str) (v : α) : (m.put k v).get key = if k = key then v else m.get key := by
  have hf : ∀ m : GoMap α, GoMap.get (List.map (fun p : Str × α => if p.1 == k then (k, v) else p) m) key =
      if k = key ∧ m.any (fun p => p.1 == k) then v else m.get key := by
    intro m
    induction m with
    | nil => simp [GoMap.get]
    | cons p m ih =>
      by_cases hpk : p.1 = k
      · by_cases hk : k = key
        · simp [GoMap.get, hpk, hk]
        · have hne : ¬ p.1 = key := fun h => hk (hpk.symm.trans h)
          have := ih
          simp only [hk, false_and, if_false] at this
          unfold GoMap.get at this ⊢
          simp only [List.map_cons, hpk, beq_self_eq_true, if_true, List.find?_cons, show (k == key) = false by simpa using hk, hk, false_and, if_false]
          exact this
      · by_cases hp : p.1 = key
        · have hk : ¬ k = key := fun h => hpk (hp.trans h.symm)
          simp [GoMap.get, hp, hk, show ¬ key = k from fun h => hk h.symm]
        · unfold GoMap.get at ih ⊢
          simp only [List.map_cons, List.find?_cons, show (p.1 == k) = false by simpa using hpk, Bool.false_eq_true, if_false,
            show (p.1 == key) = false by simpa using hp, List.any_cons, Bool.false_or]
          exact ih
  unfold GoMap.put
  by_cases ha : m.any (fun p => p.1 == k) = true
  · rw [if_pos ha, hf]
    simp [ha]
  · rw [if_neg ha]
    unfold GoMap.get
    rw [List.find?_append]
    by_cases hk : k = key
    · subst hk
      have : m.find? (fun p => p.1 == k) = none := by
        rw [List.find?_eq_none]
        intro p hp hc
        exact ha (List.any_eq_true.2 ⟨p, hp, hc⟩)
      simp [this]
    · simp [hk]

theorem putAll_get (vs : List (Str × α)) (key : Str) : (putAll vs).get key = lastOf vs key := by
  induction vs using List.reverseRecOn with
  | nil => rfl
  | append_singleton vs p ih =>
    unfold putAll lastOf at ih ⊢
    rw [List.foldl_append, List.foldl_append]
    show GoMap.get (GoMap.put _ p.1 p.2) key = _
    rw [get_put, ih]
    rfl

theorem keptValues_eq {F : ModelFile α} {o : Optim α} (hk : o.kind.code = F.opt)
    (ho : o = (Optim.zero o.kind : Optim α).setValues (putAll F.values)) : o.getValues.del (str "type") = F.keptValues := by
  have hd : o.getValues.del (str "type") = docOptValues o := by
    unfold Optim.getValues docOptValues
    cases o.kind <;> rfl
  rw [hd, ho]
  unfold ModelFile.keptValues
  rw [← hk]
  cases hkk : o.kind with
  | sgd => simp [docOptValues, Optim.setValues, Optim.zero, OptKind.code, putAll_get]
  | adam => simp [docOptValues, Optim.setValues, Optim.zero, OptKind.code, putAll_get]

/-! ### Only such files are read -/

theorem leBytes_leNat (e : List Byte) : leBytes e.length (leNat e) = e := by
  induction e with
  | nil => rfl
  | cons b e ih =>
    rw [List.length_cons, leBytes, leNat]
    have hb := b.isLt
    rw [show (b.toNat + 256 * leNat e) / 256 = leNat e by omega, ih]
    congr 1
    apply BitVec.eq_of_toNat_eq
    rw [BitVec.toNat_ofNat]
    omega

theorem leNat_lt (e : List Byte) : leNat e < 256 ^ e.length := by
  induction e with
  | nil => simp [leNat]
  | cons b e ih =>
    rw [List.length_cons, leNat, pow_succ]
    have hb := b.isLt
    omega

theorem int8_enc {n : Int} {buf rest : List Byte} (h : pInt8 buf = .ok n rest) : buf = encInt8 n ++ rest := by
  obtain ⟨b, rfl, rfl⟩ := int8_inv h
  have : encInt8 b.toInt = [b] := by
    unfold encInt8
    rw [BitVec.ofInt_toInt]
    simp [leBytes]
  rw [this]; rfl

theorem int32_enc {n : Int} {buf rest : List Byte} (h : pInt32 buf = .ok n rest) : buf = encInt32 n ++ rest := by
  obtain ⟨k, r, h1, h⟩ := bind_inv h
  injection h with h2 h3
  subst h3
  obtain ⟨e, rfl, hl, rfl⟩ := full_inv h1
  congr 1
  unfold encInt32
  rw [← h2, BitVec.ofInt_toInt, BitVec.toNat_ofNat, Nat.mod_eq_of_lt]
  · have := leBytes_leNat e
    rw [hl] at this
    exact this.symm
  · have := leNat_lt e
    rw [hl] at this
    exact this

theorem flt_enc_take (hb : ∀ b, FltBits.toBits (FltBits.ofBits b : α) = b) {e tl : List Byte} (hl : e.length = 8) :
    encFlt (fltOf (e ++ tl) : α) = e := by
  unfold encFlt fltOf
  rw [hb, List.take_left' hl, BitVec.toNat_ofNat, Nat.mod_eq_of_lt]
  · have := leBytes_leNat e
    rwa [hl] at this
  · have := leNat_lt e
    rw [hl] at this
    exact this

theorem flt_enc (hb : ∀ b, FltBits.toBits (FltBits.ofBits b : α) = b) {x : α} {buf rest : List Byte} (h : pFlt buf = .ok x rest) :
    buf = encFlt x ++ rest := by
  rw [pFlt_eq] at h
  split at h
  · cases h
  · rename_i hk
    injection h with h1 h2
    have e : buf = buf.take 8 ++ rest := by rw [← h2, List.take_append_drop]
    have hl : (buf.take 8).length = 8 := by rw [List.length_take]; omega
    rw [← h1]
    conv_rhs => rw [e]
    rw [flt_enc_take hb hl]
    exact e

theorem take_chunks (s n : Nat) (l : List Byte) : l.take (s * n) = (List.range n).flatMap fun i => (l.drop (s * i)).take s := by
  induction n with
  | zero => simp
  | succ n ih =>
    rw [List.range_succ, List.flatMap_append, List.flatMap_singleton, ← ih, Nat.mul_succ, List.take_add]

theorem mat_enc (hb : ∀ b, FltBits.toBits (FltBits.ofBits b : α) = b) {n o : Nat} {W : Nat → Nat → α} {buf rest : List Byte}
    (h : pMat n o buf = .ok W rest) : buf = matBytes n o W ++ rest ∧ inRange n o W = W := by
  unfold pMat at h
  split at h
  · cases h
  · rename_i hk
    injection h with h1 h2
    constructor
    · conv_lhs => rw [← List.take_append_drop (8 * (n * o)) buf]
      rw [h2]
      congr 1
      rw [show 8 * (n * o) = (8 * o) * n by ring, take_chunks]
      unfold matBytes
      refine List.flatMap_congr fun i hi => ?_
      rw [List.mem_range] at hi
      rw [take_chunks]
      refine List.flatMap_congr fun j hj => ?_
      rw [List.mem_range] at hj
      rw [← h1]
      dsimp only
      rw [if_pos ⟨hi, hj⟩, List.drop_drop, show 8 * o * i + 8 * j = 8 * (i * o + j) by ring]
      have hle : i * o + j + 1 ≤ n * o := by nlinarith [Nat.mul_le_mul_right o (show i + 1 ≤ n from hi)]
      have hl : ((buf.drop (8 * (i * o + j))).take 8).length = 8 := by
        rw [List.length_take, List.length_drop]; omega
      conv_rhs => rw [← List.take_append_drop 8 (buf.drop (8 * (i * o + j)))]
      rw [flt_enc_take hb hl]
    · rw [← h1]
      funext i j
      unfold inRange
      by_cases hij : i < n ∧ j < o
      · simp only [if_pos hij]
      · simp only [if_neg hij]

theorem kindOfCode_inv {t : Int} {k : LayerKind} (h : kindOfCode t = some k) : t = k.code := by
  unfold kindOfCode at h
  split at h
  · injection h with h; rw [← h]; assumption
  split at h
  · injection h with h; rw [← h]; assumption
  split at h
  · injection h with h; rw [← h]; assumption
  split at h
  · injection h with h; rw [← h]; assumption
  split at h
  · injection h with h; rw [← h]; assumption
  split at h
  · injection h with h; rw [← h]; assumption
  · cases h

theorem layer_enc (hb : ∀ b, FltBits.toBits (FltBits.ofBits b : α) = b) {buf rest : List Byte} {L : LayerSpec α}
    (h : pLayer buf = .ok L rest) : ∃ L' : LayerSpec α, buf = layerBytes L' ++ rest ∧ L = L'.kept.norm ∧
      (0 < L'.n ∧ L'.n < 2 ^ 31 ∧ 0 < L'.o ∧ L'.o < 2 ^ 31) := by
  unfold pLayer at h
  obtain ⟨⟨⟩, r1, h1, h⟩ := bind_inv h
  obtain ⟨t, r2, h2, h⟩ := bind_inv h
  obtain ⟨n, r3, h3, h⟩ := bind_inv h
  obtain ⟨o, r4, h4, h⟩ := bind_inv h
  obtain ⟨sl, r5, h5, h⟩ := bind_inv h
  obtain ⟨dr, r6, h6, h⟩ := bind_inv h
  have hn := pInt32_lt h3
  have ho := pInt32_lt h4
  split at h
  · cases h
  · rename_i hpos
    obtain ⟨W, r7, h7, h⟩ := bind_inv h
    obtain ⟨b, r8, h8, h⟩ := bind_inv h
    cases hk : kindOfCode t with
    | none => rw [hk] at h; cases h
    | some k =>
      rw [hk] at h
      injection h with hL h9
      subst h9
      obtain ⟨e7, w7⟩ := mat_enc hb h7
      obtain ⟨e8, w8⟩ := mat_enc hb h8
      obtain ⟨N, rfl⟩ : ∃ N : Nat, n = N := ⟨n.toNat, by omega⟩
      obtain ⟨O, rfl⟩ : ∃ O : Nat, o = O := ⟨o.toNat, by omega⟩
      simp only [Int.toNat_natCast] at e7 e8 w7 w8 hL
      refine ⟨⟨k, N, O, W, b 0, sl, dr⟩, ?_, ?_, by dsimp only; omega, by dsimp only; omega, by dsimp only; omega, by dsimp only; omega⟩
      · rw [magic_inv str_LA_nul h1, int8_enc h2, int32_enc h3, int32_enc h4, flt_enc hb h5, flt_enc hb h6, e7, e8, kindOfCode_inv hk]
        unfold layerBytes
        have e : matBytes 1 O (fun _ => b 0) = matBytes 1 O b := by
          unfold matBytes
          simp
        simp only [e, List.append_assoc]
      · rw [← hL]
        unfold LayerSpec.norm LayerSpec.kept
        dsimp only
        congr 1
        · exact w7.symm
        · funext j
          have := congrFun (congrFun w8 0) j
          rw [← this]
          rfl

theorem pair_enc (hb : ∀ b, FltBits.toBits (FltBits.ofBits b : α) = b) {values v' : GoMap α} {buf rest : List Byte}
    (h : pPair values buf = .ok v' rest) : ∃ p : Str × α, buf = encPair p ++ rest ∧ v' = values.put p.1 p.2 ∧ p.1.length < 128 := by
  unfold pPair at h
  obtain ⟨k, r1, h1, h⟩ := bind_inv h
  obtain ⟨key, r2, h2, h⟩ := bind_inv h
  obtain ⟨x, r3, h3, h⟩ := bind_inv h
  injection h with h' h
  subst h
  have h128 := pInt8_lt h1
  have hk : 0 ≤ k := by
    by_contra hc
    unfold pRead at h2
    rw [if_pos (by omega)] at h2
    cases h2
  obtain ⟨n, rfl⟩ : ∃ n : Nat, k = n := ⟨k.toNat, by omega⟩
  rcases read_inv h2 with h | ⟨e', e, hl, rfl⟩
  · rw [h] at h3
    rw [pFlt_nil] at h3
    cases h3
  · refine ⟨(key, x), ?_, h'.symm, by show key.length < 128; omega⟩
    rw [int8_enc h1, e, flt_enc hb h3]
    unfold encPair
    show _ = encInt8 (key.length : Int) ++ key ++ encFlt x ++ r3
    rw [hl]
    simp only [List.append_assoc]

theorem pairs_enc (hb : ∀ b, FltBits.toBits (FltBits.ofBits b : α) = b) {n : Nat} {v' : GoMap α} {buf rest : List Byte}
    (h : Parser.loop n pPair [] buf = .ok v' rest) : ∃ vs : List (Str × α), buf = vs.flatMap encPair ++ rest ∧ v' = putAll vs ∧
      vs.length = n ∧ ∀ p ∈ vs, p.1.length < 128 := by
  induction n generalizing v' rest with
  | zero =>
    injection h with h1 h2
    exact ⟨[], by rw [h2]; rfl, h1.symm, rfl, by simp⟩
  | succ n ih =>
    obtain ⟨v, r, h1, h2⟩ := bind_inv h
    obtain ⟨vs, e1, rfl, hn, hk⟩ := ih h1
    obtain ⟨p, e2, rfl, hp⟩ := pair_enc hb h2
    refine ⟨vs ++ [p], ?_, ?_, by rw [List.length_append, hn]; rfl, ?_⟩
    · rw [e1, e2, List.flatMap_append, List.flatMap_singleton, List.append_assoc]
    · unfold putAll
      rw [List.foldl_append]; rfl
    · intro q hq
      rcases List.mem_append.1 hq with hq | hq
      · exact hk q hq
      · rw [List.mem_singleton.1 hq]; exact hp

theorem layers_enc (hb : ∀ b, FltBits.toBits (FltBits.ofBits b : α) = b) {n : Nat} {ls : List (LayerSpec α)} {buf rest : List Byte}
    (h : Parser.loop n pNext [] buf = .ok ls rest) : ∃ Ls : List (LayerSpec α), buf = Ls.flatMap layerBytes ++ rest ∧
      ls = Ls.map (fun L => L.kept.norm) ∧ Ls.length = n ∧ ∀ L ∈ Ls, 0 < L.n ∧ L.n < 2 ^ 31 ∧ 0 < L.o ∧ L.o < 2 ^ 31 := by
  induction n generalizing ls rest with
  | zero =>
    injection h with h1 h2
    exact ⟨[], by rw [h2]; rfl, h1.symm, rfl, by simp⟩
  | succ n ih =>
    obtain ⟨v, r, h1, h2⟩ := bind_inv h
    obtain ⟨Ls, e1, rfl, hn, hk⟩ := ih h1
    obtain ⟨L, r', h3, h4⟩ := bind_inv h2
    injection h4 with h4 h5
    subst h5
    obtain ⟨L', e2, rfl, hp⟩ := layer_enc hb h3
    refine ⟨Ls ++ [L'], ?_, ?_, by rw [List.length_append, hn]; rfl, ?_⟩
    · rw [e1, e2, List.flatMap_append, List.flatMap_singleton, List.append_assoc]
    · rw [← h4, List.map_append]; rfl
    · intro q hq
      rcases List.mem_append.1 hq with hq | hq
      · exact hk q hq
      · rw [List.mem_singleton.1 hq]; exact hp

theorem file_enc (hb : ∀ b, FltBits.toBits (FltBits.ofBits b : α) = b) {logger : Bool} {r : RawModel α} {buf rest : List Byte}
    (h : pLoad logger buf = .ok r rest) : ∃ F : ModelFile α, F.Ok ∧ buf = F.bytes ++ rest ∧ (logger = true ∨ F.version = VERSION) := by
  have hg := (pLoad_inv h).1
  unfold pLoad at h
  obtain ⟨r', b0, h0, h'⟩ := bind_inv h
  clear h
  have he : r' = r ∧ b0 = rest := by
    by_cases hg : r'.Good
    · rw [if_pos hg] at h'
      injection h' with h1 h2
      exact ⟨h1, h2⟩
    · rw [if_neg hg] at h'; cases h'
  clear h'
  obtain ⟨rfl, rfl⟩ := he
  unfold pModel at h0
  obtain ⟨⟨⟩, r1, h1, h⟩ := bind_inv h0
  obtain ⟨v, r2, h2, h⟩ := bind_inv h
  by_cases hv : v ≠ VERSION ∧ logger = false
  · rw [if_pos hv] at h; cases h
  rw [if_neg hv] at h
  unfold pBody at h
  obtain ⟨size, b1, k1, h⟩ := bind_inv h
  obtain ⟨ins, b2, k2, h⟩ := bind_inv h
  obtain ⟨outs, b3, k3, h⟩ := bind_inv h
  obtain ⟨lt, b4, k4, h⟩ := bind_inv h
  obtain ⟨at', b5, k5, h⟩ := bind_inv h
  obtain ⟨ap, b6, k6, h⟩ := bind_inv h
  obtain ⟨ot, b7, k7, h⟩ := bind_inv h
  obtain ⟨c, b8, k8, h⟩ := bind_inv h
  obtain ⟨vals, b9, k9, h⟩ := bind_inv h
  obtain ⟨ls, b10, k10, h⟩ := bind_inv h
  injection h with g1 g2
  subst g2 g1
  obtain ⟨vs, e9, rfl, n9, s9⟩ := pairs_enc hb k9
  obtain ⟨Ls, e10, rfl, n10, s10⟩ := layers_enc hb k10
  rcases read_inv (n := 5) h2 with h | ⟨e', e2, hl, rfl⟩
  · rw [h, pInt8_nil] at k1; cases k1
  refine ⟨⟨v, size, ins, outs, lt, at', ap, ot, c, vs, Ls⟩, ⟨hl, ⟨pInt8_le k1, pInt8_lt k1⟩, ⟨pInt32_le k2, pInt32_lt k2⟩,
    ⟨pInt8_le k5, pInt8_lt k5⟩, ⟨pInt8_le k8, pInt8_lt k8⟩, n9, s9, n10, s10, ?_, ?_, (lossKind_code _).1 hg.loss,
    (optKind_code _).1 hg.opt, hg.prec⟩, ?_, ?_⟩
  · exact (chain_map (f := fun L => L.kept.norm) (fun _ => rfl) (fun _ => rfl) Ls).1 hg.chain
  · have := hg.outs
    rw [endOut_last] at this
    show outs = ((lastOutputs Ls : Nat) : Int)
    rw [← lastOutputs_map (f := fun L => L.kept.norm) (fun _ => rfl) Ls]
    exact this
  · rw [ModelFile.bytes_enc, magic_inv str_NNML_nul h1, e2, int8_enc k1, int32_enc k2, int32_enc k3, int8_enc k4, int8_enc k5, flt_enc hb k6,
      int8_enc k7, int8_enc k8, e9, e10]
    simp only [List.append_assoc]
  · show logger = true ∨ v = VERSION
    by_cases hvv : v = VERSION
    · exact .inr hvv
    · cases logger with
      | true => exact .inl rfl
      | false => exact absurd ⟨hvv, rfl⟩ hv

/-! ### What is written again -/

theorem docMat_norm (n o : Nat) (W : Nat → Nat → α) : docMat n o (inRange n o W) = docMat n o W := by
  unfold docMat
  congr 1
  refine List.map_congr_left fun i hi => ?_
  congr 1
  refine List.map_congr_left fun j hj => ?_
  rw [inRange, if_pos ⟨List.mem_range.1 hi, List.mem_range.1 hj⟩]

theorem docLayer_norm (L : LayerSpec α) : docLayer L.norm = docLayer L := by
  unfold docLayer
  show _ ++ docMat L.n L.o (inRange L.n L.o L.W) ++ docMat 1 L.o (fun _ j => inRange 1 L.o (fun _ j => L.b j) 0 j) = _
  rw [docMat_norm]
  have e : docMat 1 L.o (fun _ j => inRange 1 L.o (fun _ j => L.b j) 0 j) = docMat 1 L.o (fun _ j => L.b j) := by
    unfold docMat
    congr 1
    refine List.map_congr_left fun i hi => ?_
    congr 1
    refine List.map_congr_left fun j hj => ?_
    show docFlt (inRange 1 L.o (fun _ j => L.b j) 0 j) = _
    rw [inRange, if_pos ⟨Nat.one_pos, List.mem_range.1 hj⟩]
  rw [e]
  rfl

theorem kept_saveable {L : LayerSpec α} (h : 0 < L.n ∧ L.n < 2 ^ 31 ∧ 0 < L.o ∧ L.o < 2 ^ 31) : L.kept.Saveable :=
  ⟨h.1, h.2.2.1, h.2.1, h.2.2.2, fun e => if_neg e, fun e => if_neg e⟩

section
attribute [local irreducible] wp

/-- C154: LoadModel accepts every such file, whatever follows, and reads no further.  The model then has the optimizer values
that survive, and saving it writes the file again with nothing changed but what `resaved` changes. -/
theorem C154_load [FltInt α] (F : ModelFile α) (h : F.Ok) (w : World α) (hv : w.logger = true ∨ F.version = VERSION) (rest : List Byte) :
    wp (loadModel (F.bytes ++ rest)) w fun x w' => ∃ m, x = (.ok m, rest) ∧ m.optValues = F.keptValues ∧
      ∀ order : GoMap α, order.Perm F.keptValues → ∀ bytes, SavedAs w' m order bytes ↔ bytes = F.resaved order := by
  refine wp_mono ((corr_loadModel _ w).ok (ModelFile.loads h hv rest)) ?_
  rintro x w' ⟨m, hx, net, k, o, op, hl⟩
  have hval : m.optValues = F.keptValues := by
    rw [hl.optValues]
    exact keptValues_eq hl.optCode hl.values
  refine ⟨m, hx, hval, fun order ho bytes => ?_⟩
  rw [C75_model w' m net hl.isNet hl.saveable order (by rw [hval]; exact ho) bytes]
  have hlay : F.layers.map (fun L => L.kept.norm) = (List.range net.size).map net.L := hl.layers
  have hlen : net.size = F.layers.length := by
    have := congrArg List.length hlay
    simpa using this.symm
  have hin : m.inputSize = firstInputs F.layers := by
    rw [hl.input]
    unfold firstIn firstInputs
    cases hc : F.layers with
    | nil => rw [hlen, hc]; rfl
    | cons L ls =>
      have h0 : net.size ≠ 0 := by rw [hlen, hc]; simp
      rw [if_neg h0]
      have := congrArg List.head? hlay
      rw [hc, List.map_cons, List.head?_cons, List.head?_map, List.head?_range, if_neg h0] at this
      injection this with this
      rw [← this]
      rfl
  have e : docModel net.size m.inputSize m.outputSize m.lossType m.accType m.accPrec m.optType order
      ((List.range net.size).map net.L) = F.resaved order := by
    rw [← hlay, hin, hl.output, hl.lossType, hl.accType, hl.accPrec, hl.optType, hlen]
    unfold ModelFile.resaved docModel
    congr 2
    rw [List.map_map, List.map_map]
    refine List.map_congr_left fun L _ => ?_
    exact docLayer_norm _
  rw [e]

/-- C154: LoadModel accepts nothing else: whatever it accepts is such a file followed by the bytes it has left unread, and
without a logger the version is this one. -/
theorem C154_only [FltInt α] (hb : ∀ b, FltBits.toBits (FltBits.ofBits b : α) = b) (buf rest : List Byte) (w w' : World α) (m : Model α)
    (h : loadModel buf w = .ok ((.ok m, rest), w')) :
    ∃ F : ModelFile α, F.Ok ∧ buf = F.bytes ++ rest ∧ (w.logger = true ∨ F.version = VERSION) := by
  have hc := corr_loadModel buf w
  cases hp : (pLoad w.logger buf : Res (RawModel α)) with
  | ok r rest' =>
    obtain ⟨x, w2, h1, m', hx, -⟩ := wp_iff.1 (hc.ok hp)
    rw [h1] at h
    injection h with h
    rw [Prod.mk.injEq] at h
    rw [hx, Prod.mk.injEq] at h
    rw [← h.1.2]
    exact file_enc hb hp
  | err =>
    obtain ⟨x, w2, h1, ⟨e, he⟩, -⟩ := wp_iff.1 (hc.err hp)
    rw [h1] at h
    injection h with h
    rw [Prod.mk.injEq] at h
    rw [h.1] at he
    cases he
  | bad =>
    obtain ⟨e, he⟩ := hc.bad hp
    rw [he] at h
    cases h

/-- C154: LoadLayer accepts exactly the layers with sizes from 1 to 2^31 - 1 and a known type, whatever follows. -/
theorem C154_layer (hb : ∀ b, FltBits.toBits (FltBits.ofBits b : α) = b) (buf rest : List Byte) (w : World α) :
    (∃ lp w', (loadLayer buf w : Except Panic ((Except Err Nat × List Byte) × World α)) = .ok ((.ok lp, rest), w')) ↔
      ∃ L : LayerSpec α, buf = docLayer L ++ rest ∧ (0 < L.n ∧ L.n < 2 ^ 31 ∧ 0 < L.o ∧ L.o < 2 ^ 31) := by
  have hc := corr_layer (α := α) buf w
  constructor
  · rintro ⟨lp, w', h⟩
    cases hp : (pLayer buf : Res (LayerSpec α)) with
    | ok r rest' =>
      obtain ⟨x, w2, h1, m', hx, -⟩ := wp_iff.1 (hc.ok hp)
      rw [h1] at h
      injection h with h
      rw [Prod.mk.injEq] at h
      rw [hx, Prod.mk.injEq] at h
      rw [← h.1.2]
      obtain ⟨L, e, -, hs⟩ := layer_enc hb hp
      exact ⟨L, by rw [← layerBytes_doc]; exact e, hs⟩
    | err =>
      obtain ⟨x, w2, h1, ⟨e, he⟩, -⟩ := wp_iff.1 (hc.err hp)
      rw [h1] at h
      injection h with h
      rw [Prod.mk.injEq] at h
      rw [h.1] at he
      cases he
    | bad =>
      obtain ⟨e, he⟩ := hc.bad hp
      rw [he] at h
      cases h
  · rintro ⟨L, rfl, hs⟩
    rw [← layerBytes_doc] at hc ⊢
    obtain ⟨x, w2, h1, lp, hx, -⟩ := wp_iff.1 (hc.ok (pLayer_kept L hs rest))
    exact ⟨lp, w2, by rw [h1, hx]⟩

end

/-- C154: no file is the beginning of another: how a byte string splits into file and rest is determined. -/
theorem C154_split (F F' : ModelFile α) (h : F.Ok) (h' : F'.Ok) (rest rest' : List Byte) (he : F.bytes ++ rest = F'.bytes ++ rest') :
    F.bytes = F'.bytes ∧ rest = rest' := by
  have h1 := ModelFile.loads h (logger := true) (.inl rfl) rest
  rw [he, ModelFile.loads h' (logger := true) (.inl rfl) rest'] at h1
  injection h1 with h1 h2
  subst h2
  exact ⟨List.append_cancel_right he, rfl⟩

/-- The file that is written again, as a file. -/
def ModelFile.clean (F : ModelFile α) (order : List (List Byte × α)) : ModelFile α :=
  ⟨VERSION, F.layers.length, firstInputs F.layers, F.outs, F.loss, F.acc, F.prec, F.opt, order.length, order, F.layers.map LayerSpec.kept⟩

theorem lastOf_perm {vs vs' : List (List Byte × α)} (hp : vs'.Perm vs) (hk : (vs.map Prod.fst).Nodup) (key : List Byte) :
    lastOf vs' key = lastOf vs key := by
  have h : ∀ us : List (List Byte × α), (us.map Prod.fst).Nodup → lastOf us key = GoMap.get us key := by
    intro us hu
    rw [← putAll_get]
    congr 1
    induction us using List.reverseRecOn with
    | nil => rfl
    | append_singleton us p ih =>
      rw [List.map_append, List.nodup_append] at hu
      unfold putAll at ih ⊢
      rw [List.foldl_append, ih hu.1]
      show GoMap.put us p.1 p.2 = _
      refine put_new fun hm => ?_
      exact hu.2.2 _ hm p.1 (by simp) rfl
  rw [h _ hk, h _ (((hp.map Prod.fst).nodup_iff).2 hk)]
  exact get_perm hp hk key

theorem keptValues_keys (F : ModelFile α) : (F.keptValues.map Prod.fst).Nodup ∧ F.keptValues.length < 128 ∧
    ∀ p ∈ F.keptValues, p.1.length < 128 := by
  unfold ModelFile.keptValues
  split
  · simp only [List.map_map]
    refine ⟨show ([str "learningRate", str "decay", str "momentum"] : List Str).Nodup by decide, by simp, ?_⟩
    intro p hp
    rw [List.mem_map] at hp
    obtain ⟨k, hk, rfl⟩ := hp
    show k.length < 128
    revert k
    decide
  · simp only [List.map_map]
    refine ⟨show ([str "learningRate", str "decay", str "epsilon", str "beta1", str "beta2"] : List Str).Nodup by decide, by simp, ?_⟩
    intro p hp
    rw [List.mem_map] at hp
    obtain ⟨k, hk, rfl⟩ := hp
    show k.length < 128
    revert k
    decide

theorem lastOf_kept (F : ModelFile α) (k : List Byte) (hk : k ∈ F.keptValues.map Prod.fst) : lastOf F.keptValues k = lastOf F.values k := by
  revert hk
  unfold ModelFile.keptValues
  split
  · simp only [List.map_map]
    intro hk
    rw [List.mem_map] at hk
    obtain ⟨k', hk', rfl⟩ := hk
    simp only [List.mem_cons, List.not_mem_nil, or_false] at hk'
    rcases hk' with rfl | rfl | rfl <;> simp [lastOf, str]
  · simp only [List.map_map]
    intro hk
    rw [List.mem_map] at hk
    obtain ⟨k', hk', rfl⟩ := hk
    simp only [List.mem_cons, List.not_mem_nil, or_false] at hk'
    rcases hk' with rfl | rfl | rfl | rfl | rfl <;> simp [lastOf, str]

theorem kept_kept (L : LayerSpec α) : L.kept.kept = L.kept := by
  unfold LayerSpec.kept
  dsimp only
  congr 1 <;> split <;> rfl

/-- C154: what is written is again such a file, of this version, with the same surviving values; and writing it a second time
changes nothing. -/
theorem C154_fixed (F : ModelFile α) (h : F.Ok) (order : List (List Byte × α)) (ho : order.Perm F.keptValues) :
    ∃ G : ModelFile α, G.Ok ∧ G.version = VERSION ∧ G.bytes = F.resaved order ∧ G.keptValues = F.keptValues ∧ G.resaved order = G.bytes := by
  have hkeys := keptValues_keys F
  have hlen := ho.length_eq
  have hbytes : (F.clean order).bytes = F.resaved order := by
    unfold ModelFile.bytes ModelFile.resaved docModel docValues ModelFile.clean
    simp only [List.append_assoc, show VERSION = [0x31, 0x2E, 0x30, 0x2E, 0x33] from by decide]
  have hkv : (F.clean order).keptValues = F.keptValues := by
    have hl : ∀ k ∈ F.keptValues.map Prod.fst, lastOf order k = lastOf F.values k := fun k hk => by
      rw [lastOf_perm ho hkeys.1, lastOf_kept F k hk]
    revert hl
    unfold ModelFile.keptValues
    show (_ → (if F.opt = 0 then _ else _) = _)
    split
    · intro hl
      refine List.map_congr_left fun k hk => ?_
      rw [show (F.clean order).values = order from rfl, hl k (by rw [List.map_map]; simpa using hk)]
    · intro hl
      refine List.map_congr_left fun k hk => ?_
      rw [show (F.clean order).values = order from rfl, hl k (by rw [List.map_map]; simpa using hk)]
  have hfi : firstInputs (F.layers.map LayerSpec.kept) = firstInputs F.layers := by
    unfold firstInputs
    cases F.layers <;> rfl
  have hs := h.size
  have hl := h.layers
  refine ⟨F.clean order, ?_, rfl, hbytes, hkv, ?_⟩
  · have hfb : firstInputs F.layers < 2 ^ 31 := by
      unfold firstInputs
      cases hc : F.layers with
      | nil => simp
      | cons L ls =>
        simp only [List.head?_cons, Option.map_some, Option.getD_some]
        exact (h.sizes L (by rw [hc]; simp)).2.1
    refine ⟨rfl, ?_, ?_, h.acc, ?_, ?_, ?_, ?_, ?_, ?_, ?_, h.loss, h.opt, h.prec⟩
    · show -128 ≤ (F.layers.length : Int) ∧ (F.layers.length : Int) < 128
      omega
    · show -2 ^ 31 ≤ (firstInputs F.layers : Int) ∧ (firstInputs F.layers : Int) < 2 ^ 31
      omega
    · show -128 ≤ (order.length : Int) ∧ (order.length : Int) < 128
      have := hkeys.2.1
      omega
    · show order.length = (order.length : Int).toNat
      omega
    · intro p hp
      exact hkeys.2.2 p (ho.mem_iff.1 hp)
    · show (F.layers.map LayerSpec.kept).length = (F.layers.length : Int).toNat
      rw [List.length_map]; omega
    · intro L hL
      obtain ⟨L', h1, rfl⟩ := List.mem_map.1 (show L ∈ F.layers.map LayerSpec.kept from hL)
      exact h.sizes L' h1
    · exact (chain_map (f := LayerSpec.kept) (fun _ => rfl) (fun _ => rfl) F.layers).2 h.chain
    · show F.outs = ((lastOutputs (F.layers.map LayerSpec.kept) : Nat) : Int)
      rw [lastOutputs_map (f := LayerSpec.kept) (fun _ => rfl)]
      exact h.outs
  · rw [hbytes]
    unfold ModelFile.resaved
    show docModel ((F.layers.map LayerSpec.kept).length : Int) (firstInputs (F.layers.map LayerSpec.kept) : Int) F.outs F.loss F.acc F.prec F.opt
      order ((F.layers.map LayerSpec.kept).map LayerSpec.kept) = _
    rw [List.length_map, hfi, List.map_map]
    congr 1
    refine List.map_congr_left fun L _ => ?_
    exact kept_kept L

end Any

theorem f64_bits [Libm] (b : BitVec 64) : FltBits.toBits (FltBits.ofBits b : F64) = b := rfl

/-- A file of version "9.9.9" that names 7 inputs, has a layer count of 1 and SGD values with one unknown name and a learning rate
given twice, and whose only layer, a sigmoid layer, has a slope and a dropout rate. -/
noncomputable def oddFile [Libm] : ModelFile F64 :=
  ⟨[0x39, 0x2E, 0x39, 0x2E, 0x39], 1, 7, 2, 0, 0, Flt.zero, 0, 3,
    [(str "learningRate", ⟨1⟩), (str "rate", ⟨5⟩), (str "learningRate", ⟨2⟩)], [⟨.sigmoid, 1, 2, fun _ _ => ⟨3⟩, fun _ => ⟨4⟩, ⟨6⟩, ⟨5⟩⟩]⟩

/-- C154: it is accepted; what is written afterwards has this version, 1 input, the last learning rate, no decay and no momentum,
and no slope or dropout rate. -/
example [Libm] : (oddFile.Ok) ∧ oddFile.version ≠ VERSION ∧
    oddFile.keptValues = [(str "learningRate", ⟨2⟩), (str "decay", Flt.zero), (str "momentum", Flt.zero)] ∧
    oddFile.resaved oddFile.keptValues = docModel 1 1 2 0 0 (Flt.zero : F64) 0 [(str "learningRate", ⟨2⟩), (str "decay", Flt.zero), (str "momentum", Flt.zero)]
      [⟨.sigmoid, 1, 2, fun _ _ => ⟨3⟩, fun _ => ⟨4⟩, Flt.zero, Flt.zero⟩] := by
  have e' : oddFile.keptValues = [(str "learningRate", ⟨2⟩), (str "decay", Flt.zero), (str "momentum", Flt.zero)] := by
    unfold ModelFile.keptValues
    rw [if_pos (show oddFile.opt = 0 from rfl)]
    simp only [List.map_cons, List.map_nil, lastOf, oddFile, List.foldl_cons, List.foldl_nil]
    rw [if_pos trivial]
    simp only [show ¬ str "learningRate" = str "decay" by decide, show ¬ str "rate" = str "decay" by decide,
      show ¬ str "learningRate" = str "momentum" by decide, show ¬ str "rate" = str "momentum" by decide, if_false]
  have hz : Flt.lt oddFile.prec (Flt.zero : F64) = false := by
    show Flt.lt (Flt.ofInt 0 : F64) (Flt.ofInt 0) = false
    rw [f64_lt_int _ _ (by norm_num) (by norm_num)]
    rfl
  refine ⟨⟨rfl, by norm_num [oddFile], by norm_num [oddFile], by norm_num [oddFile], by norm_num [oddFile], rfl, ?_, rfl, ?_, ?_, rfl, .inl rfl, .inl rfl, hz⟩,
    show ([0x39, 0x2E, 0x39, 0x2E, 0x39] : List Byte) ≠ VERSION by decide, e', ?_⟩
  · intro p hp
    simp only [oddFile, List.mem_cons, List.not_mem_nil, or_false] at hp
    rcases hp with rfl | rfl | rfl
    · show (str "learningRate").length < 128
      decide
    · show (str "rate").length < 128
      decide
    · show (str "learningRate").length < 128
      decide
  · intro L hL
    simp only [oddFile, List.mem_singleton] at hL
    subst hL
    show 0 < 1 ∧ 1 < 2 ^ 31 ∧ 0 < 2 ∧ 2 < 2 ^ 31
    decide
  · intro i L L' h1 h2
    simp [oddFile] at h2
  · have e : oddFile.layers.map LayerSpec.kept = [⟨.sigmoid, 1, 2, fun _ _ => ⟨3⟩, fun _ => ⟨4⟩, Flt.zero, Flt.zero⟩] := rfl
    unfold ModelFile.resaved
    rw [e, e']
    congr 1

end NN
