import Verif.Spec.Format
import Verif.Props.C65_C69
/-
C75: saved models have the documented byte layout.
-/

set_option linter.unusedSectionVars false

namespace NN
open NN.Go

section Any
variable {α : Type} [Flt α] [FltBits α]

theorem docInt_succ (k : Nat) (n : Int) : docInt (k + 1) n = BitVec.ofInt 8 n :: docInt k (n / 256) := by
  unfold docInt
  rw [List.range_succ_eq_map, List.map_cons, List.map_map, pow_zero, Int.ediv_one]
  congr 1
  refine List.map_congr_left fun i _ => ?_
  show BitVec.ofInt 8 (n / 256 ^ (i + 1)) = BitVec.ofInt 8 (n / 256 / 256 ^ i)
  rw [Int.ediv_ediv_of_nonneg (by norm_num), pow_succ']

theorem leBytes_doc (k n : Nat) : leBytes k n = docInt k n := by
  induction k generalizing n with
  | zero => rfl
  | succ k ih => rw [leBytes, docInt_succ, ih, BitVec.ofInt_natCast]; rfl

theorem docInt_mod {k : Nat} {n m : Int} (h : n % 256 ^ k = m % 256 ^ k) : docInt k n = docInt k m := by
  induction k generalizing n m with
  | zero => rfl
  | succ k ih =>
    have hd : (256 ^ (k + 1) : Int) ∣ n - m := Int.ModEq.dvd (Int.ModEq.symm h)
    obtain ⟨c, hc⟩ := hd
    have e : n = m + 256 * (256 ^ k * c) := by rw [← mul_assoc, ← pow_succ', ← hc]; ring
    rw [docInt_succ, docInt_succ, ih (n := n / 256) (m := m / 256)]
    · congr 1
      refine BitVec.eq_of_toInt_eq ?_
      rw [BitVec.toInt_ofInt, BitVec.toInt_ofInt, e]
      have e2 : (m + 256 * (256 ^ k * c)) % ((2 ^ 8 : Nat) : Int) = m % ((2 ^ 8 : Nat) : Int) := by
        norm_num [Int.add_mul_emod_self_left]
      rw [Int.bmod_eq_emod, Int.bmod_eq_emod, e2]
    · rw [e, Int.add_mul_ediv_left _ _ (by norm_num), Int.add_mul_emod_self_left]

theorem encInt8_doc (n : Int) : encInt8 n = docInt 1 n := by
  unfold encInt8
  rw [leBytes_doc]
  refine docInt_mod ?_
  rw [BitVec.toNat_ofInt, Int.toNat_of_nonneg (Int.emod_nonneg _ (by norm_num))]
  norm_num

theorem encInt32_doc (n : Int) : encInt32 n = docInt 4 n := by
  unfold encInt32
  rw [leBytes_doc]
  refine docInt_mod ?_
  rw [BitVec.toNat_ofInt, Int.toNat_of_nonneg (Int.emod_nonneg _ (by norm_num))]
  norm_num

theorem encFlt_doc (x : α) : encFlt x = docFlt x := leBytes_doc 8 _

theorem matBytes_doc (n o : Nat) (W : Nat → Nat → α) : matBytes n o W = docMat n o W := by
  unfold matBytes docMat
  simp only [List.flatMap_def, encFlt_doc]

theorem kind_doc (k : LayerKind) : (k.code : Int) = docKind k := by cases k <;> rfl

theorem layerBytes_doc (L : LayerSpec α) : layerBytes L = docLayer L := by
  unfold layerBytes docLayer
  simp only [encInt8_doc, encInt32_doc, encFlt_doc, matBytes_doc, kind_doc, List.append_assoc, show str "LA" = [0x4C, 0x41] from by decide]

/-- C75: what is written for a layer is the table of LayerData.md, and nothing before it in the buffer changes. -/
theorem C75_layer [FltInt α] (w : World α) (lp : Nat) (wm bm : Mat) (L : LayerSpec α) (h : IsLayer w lp wm bm L) (hs : L.Saveable)
    (buf : List Byte) : ∃ d, newSavedLayerData lp w = .ok (d, w) ∧ serializeLayer d buf w = .ok ((none, buf ++ docLayer L), w) :=
  ⟨_, newSavedLayer_run h hs, by
    rw [serializeLayer_run rfl rfl h.wmat h.bmat, recBytes_saved, layerBytes_doc]⟩

/-- C75: what is written for a model is the table of ModelData.md: saving succeeds with the given bytes if and only if they are
those. -/
theorem C75_model [FltInt α] (w : World α) (m : Model α) (net : Net α) (h : IsNet w m net) (hs : ∀ i, i < net.size → (net.L i).Saveable)
    (order : GoMap α) (ho : order.Perm m.optValues) (bytes : List Byte) :
    SavedAs w m order bytes ↔ bytes = docModel net.size m.inputSize m.outputSize m.lossType m.accType m.accPrec m.optType order
      ((List.range net.size).map net.L) := by
  rw [savedAs_iff h hs ho]
  unfold bytesOf modelBytes headBytes docModel docValues rawModel
  simp only [encInt8_doc, encInt32_doc, encFlt_doc, layerBytes_doc, List.append_assoc, show str "NNML" = [0x4E, 0x4E, 0x4D, 0x4C] from by decide,
    show VERSION = [0x31, 0x2E, 0x30, 0x2E, 0x33] from by decide, List.flatMap_def, List.map_map, h.size]
  have e : (encPair : Str × α → List Byte) = fun p => docInt 1 p.1.length ++ (p.1 ++ docFlt p.2) := funext fun p => by
    unfold encPair
    rw [encInt8_doc, encFlt_doc, List.append_assoc]
  rw [e]
  rfl

/-- C75: the numbers and names that a finalized model puts in the table. -/
theorem C75_finalized (w : World α) (m : Model α) (net : Net α) (k : LossKind) (o : Optim α) (h : Ready w m net k o) :
    m.lossType = docLoss k ∧ m.optType = docOpt o.kind ∧ m.optValues = docOptValues o := by
  refine ⟨h.lossType.trans (by cases k <;> rfl), h.optType.trans (by cases o.kind <;> rfl), h.optValues.trans ?_⟩
  unfold Optim.getValues docOptValues
  cases o.kind <;> rfl

end Any

/-- C75: a model with three layers, finalized with cross-entropy and Adam. -/
example [Libm] : ∃ (w : World F64) (m : Model F64) (net : Net F64) (o : Optim F64), net.size = 3 ∧ Ready w m net .ce o ∧ o.kind = .adam ∧
    (∀ i, i < net.size → (net.L i).Saveable) ∧ m.optValues.Perm m.optValues := by
  obtain ⟨w, m, net, h1, h2, h3, h4⟩ := exists_ready saveL (fun i => demoL_pos (α := F64) i) (fun i => demoL_chain (α := F64) i) 3
    (by decide) (Optim.zero .adam)
  exact ⟨w, m, net, _, h1, h3, rfl, fun i hi => by rw [h2]; exact saveL_saveable (by omega), .refl _⟩

/-- C75: the documented bytes of a small layer, in full: type 3, one input, two outputs. -/
example [Libm] : (docLayer ⟨.leaky, 1, 2, fun _ _ => (⟨1⟩ : F64), fun _ => ⟨258⟩, ⟨0⟩, ⟨0⟩⟩ : List Byte) =
    [0x4C, 0x41, 3, 1, 0, 0, 0, 2, 0, 0, 0] ++ List.replicate 16 0 ++ [1, 0, 0, 0, 0, 0, 0, 0, 1, 0, 0, 0, 0, 0, 0, 0] ++
      [2, 1, 0, 0, 0, 0, 0, 0, 2, 1, 0, 0, 0, 0, 0, 0] := by decide

end NN
