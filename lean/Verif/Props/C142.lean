import Verif.Lemmas.Cost
import Verif.Spec.Place
import Verif.IEEE.F64
import Verif.Props.C58_C64
/-
C142: the memory LoadLayer and LoadModel ask for.  A file that is accepted never makes them allocate more numbers than
are in the file.  A file that is refused can: the sizes in the file are believed before a single number is read, so a
file of 27 (57) bytes makes LoadLayer (LoadModel) allocate any amount of memory up to 8·(2³¹-1)² bytes; more than that,
beyond the length of the file, no file achieves.
-/

set_option linter.unusedSectionVars false

namespace NN
variable {α : Type} [Flt α] [FltBits α]
open Go

/-- 8·(2³¹-1)²: the bytes of the largest matrix whose sizes can be written in a file. -/
def maxMatrix : Int := 8 * ((2 ^ 31 - 1) * (2 ^ 31 - 1))

theorem cost_le {r c : Int} (hr : r < 2 ^ 31) (hc : c < 2 ^ 31) : (8 * (r.toNat * c.toNat) : Int) ≤ maxMatrix := by
  unfold maxMatrix
  have h1 : (r.toNat : Int) ≤ 2 ^ 31 - 1 := by omega
  have h2 : (c.toNat : Int) ≤ 2 ^ 31 - 1 := by omega
  have := mul_le_mul h1 h2 (by omega) (by norm_num)
  omega

theorem maxMatrix_nonneg : 0 ≤ maxMatrix := by unfold maxMatrix; norm_num

theorem pays_entry (m : Mat) (i j : Int) :
    Pays (do let x ← readFlt; Rd.lift (m.setAt i j x) : Rd α Unit) (fun _ => True) (-8) 0 :=
  pays_readFlt.bind (fun x _ => Pays.lift fun w => wlp_mono (cost_setAt m i j x w) fun _ _ h => ⟨trivial, h⟩) (by omega) le_rfl
    (by omega)

theorem pays_loadLayerBuffer : Pays (loadLayerBuffer : Rd α _) (fun _ => True) 0 maxMatrix := by
  have hM := maxMatrix_nonneg
  unfold loadLayerBuffer
  refine (pays_readBuf 2).bind (d2 := 0) (E2 := maxMatrix) (fun magic _ => ?_) (by omega) hM (by omega)
  split
  · exact Pays.fail.mono (fun _ h => h) le_rfl hM
  refine pays_readInt8.bind (d2 := 0) (E2 := maxMatrix) (fun t _ => ?_) (by omega) hM (by omega)
  refine pays_readInt32.bind (d2 := 0) (E2 := maxMatrix) (fun r hr => ?_) (by omega) hM (by omega)
  refine pays_readInt32.bind (d2 := 0) (E2 := maxMatrix) (fun c hc => ?_) (by omega) hM (by omega)
  refine pays_readFlt.bind (d2 := 0) (E2 := maxMatrix) (fun s _ => ?_) (by omega) hM (by omega)
  refine pays_readFlt.bind (d2 := 0) (E2 := maxMatrix) (fun d _ => ?_) (by omega) hM (by omega)
  have hrc := cost_le hr hc
  have h1c := cost_le (r := 1) (by norm_num) hc
  refine (pays_newMatrix r c).bind (d2 := -(8 * (r.toNat * c.toNat))) (E2 := 0) (fun wm h => ?_) (by omega) hM (by omega)
  have hpos : (1 : Int) ≤ r.toNat := by omega
  have hmul : (c.toNat : Int) ≤ r.toNat * c.toNat := le_mul_of_one_le_left (by omega) hpos
  refine (Pays.loop (k := 8 * c.toNat) (by omega) fun i _ =>
    (Pays.loop (k := 8) (by omega) fun j _ => pays_entry wm i j)).bind (d2 := 0) (E2 := 8 * c.toNat) (fun _ _ => ?_) ?_ le_rfl ?_
  · refine (pays_newMatrix 1 c).bind (d2 := -(8 * c.toNat)) (E2 := 0) (fun bm _ => ?_) (by simp) (by omega) (by simp)
    refine (Pays.loop (k := 8) (by omega) fun j _ => pays_entry bm 0 j).bind (d2 := 0) (E2 := 0) (fun _ _ => Pays.pure trivial)
      (by simp) le_rfl (by simp)
  · rw [mul_assoc, mul_comm (c.toNat : Int)]; omega
  · rw [mul_assoc, mul_comm (c.toNat : Int)]; omega

theorem pays_loadLayer : Pays (loadLayer : Rd α _) (fun _ => True) 0 maxMatrix := by
  have hM := maxMatrix_nonneg
  unfold loadLayer
  refine pays_loadLayerBuffer.bind (d2 := 0) (E2 := 0) (fun d _ => ?_) (by omega) le_rfl (by omega)
  split
  · refine Pays.lift fun w => ?_
    intro b w' e
    cases e
    exact ⟨trivial, Costs.obj rfl rfl⟩
  · exact Pays.fail

theorem cost_addLayers (layers : List Nat) (n : Nat) (m : Model α) (w : World α) :
    wlp (addLayers layers n m) w (fun _ w' => True ∧ Costs w w' 0) := by
  induction n with
  | zero => exact wlp_pure ⟨trivial, Costs.refl w⟩
  | succ n ih =>
    unfold addLayers
    refine wlp_bind ih ?_
    rintro ⟨m1, err⟩ w1 ⟨-, h1⟩
    cases err with
    | some e => exact wlp_pure ⟨trivial, h1⟩
    | none =>
      refine wlp_bind (R := fun _ w' => w' = w1) ?_ ?_
      · unfold listGet
        split
        · split
          · exact wlp_pure rfl
          · exact wlp_panic
        · exact wlp_panic
      · rintro lp _ rfl
        unfold addLayer
        refine wlp_bind (R := fun _ w2 => w2 = _) (by intro b w' e; cases e; rfl) ?_
        rintro l _ rfl
        dsimp only
        split
        · exact wlp_pure ⟨trivial, h1⟩
        · exact wlp_pure ⟨trivial, h1⟩

theorem cost_newOptimizer (t : Int) (values : GoMap α) (w : World α) :
    wlp (newOptimizerFromType t values) w (fun _ w' => Costs w w' 0) := by
  unfold newOptimizerFromType
  split
  · refine wlp_bind (R := fun _ w' => Costs w w' 0) ?_ fun _ _ h => wlp_pure h
    intro b w' e
    cases e
    exact Costs.obj rfl rfl
  · split
    · refine wlp_bind (R := fun _ w' => Costs w w' 0) ?_ fun _ _ h => wlp_pure h
      intro b w' e
      cases e
      exact Costs.obj rfl rfl
    · exact wlp_pure (Costs.refl w)

theorem cost_makeOptims (t : Int) (values : GoMap α) (n : Nat) (w : World α) :
    wlp (makeOptims t values n) w (fun _ w' => Costs w w' 0) := by
  induction n with
  | zero => exact wlp_pure (Costs.refl w)
  | succ n ih =>
    unfold makeOptims
    refine wlp_bind ih ?_
    rintro ⟨os, err⟩ w1 h1
    cases err with
    | some e => exact wlp_pure h1
    | none =>
      refine wlp_bind (cost_newOptimizer t values w1) ?_
      rintro ⟨o, err⟩ w2 h2
      cases err with
      | some e => exact wlp_pure (h1.trans h2)
      | none =>
        cases o with
        | some p => exact wlp_pure (h1.trans h2)
        | none => exact wlp_panic

theorem cost_finalize (m : Model α) (loss : Loss) (vals : GoMap α) (a : Int) (p : α) (w : World α) :
    wlp (finalize m loss vals a p) w (fun _ w' => True ∧ Costs w w' 0) := by
  unfold finalize
  dsimp only
  split
  · exact wlp_pure ⟨trivial, Costs.refl w⟩
  · refine wlp_bind (cost_makeOptims _ _ _ _) ?_
    rintro ⟨os, err⟩ w1 h1
    cases err with
    | some e => exact wlp_pure ⟨trivial, h1⟩
    | none =>
      dsimp only
      split
      · exact wlp_pure ⟨trivial, h1⟩
      · exact wlp_pure ⟨trivial, h1⟩

theorem pays_readPair (values : GoMap α) : Pays (readPair values) (fun _ => True) 0 0 := by
  unfold readPair
  refine pays_readInt8.bind (d2 := 0) (E2 := 0) (fun n _ => ?_) (by omega) le_rfl (by omega)
  refine (pays_readBuf n).bind (d2 := 0) (E2 := 0) (fun key _ => ?_) (by omega) le_rfl (by omega)
  exact pays_readFlt.bind (d2 := 0) (E2 := 0) (fun x _ => Pays.pure trivial) (by omega) le_rfl (by omega)

theorem pays_loadModel : Pays (loadModel : Rd α _) (fun _ => True) 0 maxMatrix := by
  have hM := maxMatrix_nonneg
  rw [loadModel_rest]
  refine (pays_readBuf 4).bind (d2 := 0) (E2 := maxMatrix) (fun magic _ => ?_) (by omega) hM (by omega)
  have hrest : Pays (loadRest : Rd α _) (fun _ => True) 0 maxMatrix := by
    unfold loadRest
    refine pays_readInt8.bind (d2 := 0) (E2 := maxMatrix) (fun n _ => ?_) (by omega) hM (by omega)
    refine pays_readInt32.bind (d2 := 0) (E2 := maxMatrix) (fun r hr => ?_) (by omega) hM (by omega)
    refine pays_readInt32.bind (d2 := 0) (E2 := maxMatrix) (fun c hc => ?_) (by omega) hM (by omega)
    refine pays_readInt8.bind (d2 := 0) (E2 := maxMatrix) (fun lt _ => ?_) (by omega) hM (by omega)
    refine pays_readInt8.bind (d2 := 0) (E2 := maxMatrix) (fun at' _ => ?_) (by omega) hM (by omega)
    refine pays_readFlt.bind (d2 := 0) (E2 := maxMatrix) (fun p _ => ?_) (by omega) hM (by omega)
    refine pays_readInt8.bind (d2 := 0) (E2 := maxMatrix) (fun ot _ => ?_) (by omega) hM (by omega)
    refine pays_readInt8.bind (d2 := 0) (E2 := maxMatrix) (fun lo _ => ?_) (by omega) hM (by omega)
    refine (Pays.loopAcc le_rfl fun i b _ => pays_readPair b).bind (d2 := 0) (E2 := maxMatrix) (fun vals _ => ?_) (by omega) hM
      (by omega)
    refine (Pays.loopAcc hM fun i b _ => pays_loadLayer.bind (d2 := 0) (E2 := 0) (fun lp _ => Pays.pure trivial) (by omega) le_rfl
      (by omega)).bind (d2 := 0) (E2 := 0) (fun layers _ => ?_) (by omega) le_rfl (by omega)
    refine (Pays.lift fun w => cost_addLayers layers _ _ w).bind (d2 := 0) (E2 := 0) (fun m _ => ?_) (by omega) le_rfl (by omega)
    obtain ⟨m, err⟩ := m
    cases err with
    | some e => exact Pays.fail
    | none =>
      dsimp only
      split
      · exact Pays.fail
      · split
        · exact Pays.fail
        · refine (Pays.lift fun w => cost_finalize _ _ _ _ _ w).bind (d2 := 0) (E2 := 0) (fun m _ => ?_) (by omega) le_rfl
            (by omega)
          obtain ⟨m, err⟩ := m
          cases err with
          | some e => exact Pays.fail
          | none => exact Pays.pure trivial
  split
  · exact Pays.fail.mono (fun _ h => h) le_rfl hM
  · refine (pays_readBuf 5).bind (d2 := 0) (E2 := maxMatrix) (fun v _ => ?_) (by omega) hM (by omega)
    split
    · refine (Pays.lift (P := fun _ => True) fun w => ?_).bind (d2 := 0) (E2 := maxMatrix) (fun _ _ => hrest) (by omega) hM (by omega)
      intro b w' e
      unfold logEvent at e
      split at e
      · cases e; exact ⟨trivial, Costs.none rfl rfl⟩
      · cases e
    · exact hrest

/-- C142 (accepted): a layer that LoadLayer accepts has cost no more memory than there are bytes in the buffer. -/
theorem C142_layer_accepted (buf rest : List Byte) (w w' : World α) (lp : Nat) (hw : Clean w)
    (h : loadLayer buf w = .ok ((.ok lp, rest), w')) : 8 * floats w' + rest.length ≤ 8 * floats w + buf.length := by
  obtain ⟨k, hk, -, h⟩ := pays_loadLayer buf w _ _ h
  have := (hk hw).2
  dsimp only at h
  omega

/-- C142 (accepted): a model that LoadModel accepts has cost no more memory than there are bytes in the buffer. -/
theorem C142_accepted (buf rest : List Byte) (w w' : World α) (m : Model α) (hw : Clean w)
    (h : loadModel buf w = .ok ((.ok m, rest), w')) : 8 * floats w' + rest.length ≤ 8 * floats w + buf.length := by
  obtain ⟨k, hk, -, h⟩ := pays_loadModel buf w _ _ h
  have := (hk hw).2
  dsimp only at h
  omega

/-- C142 (refused): whatever the bytes, LoadModel has allocated no more than the length of the buffer and one matrix of the
largest size that can be written in a file. -/
theorem C142_refused (buf rest : List Byte) (w w' : World α) (e : Err) (hw : Clean w)
    (h : loadModel buf w = .ok ((.error e, rest), w')) :
    8 * floats w' ≤ 8 * floats w + buf.length + 8 * ((2 ^ 31 - 1) * (2 ^ 31 - 1)) := by
  obtain ⟨k, hk, h⟩ := pays_loadModel buf w _ _ h
  have := (hk hw).2
  dsimp only [maxMatrix] at h
  omega

/-- The hypotheses hold together: a model of three layers, saved and loaded into the empty memory. -/
example [Libm] : ∃ (buf rest : List Byte) (w' : World F64) (m : Model F64), Clean (emptyWorld : World F64) ∧
    loadModel buf emptyWorld = .ok ((.ok m, rest), w') := by
  obtain ⟨w, m, net, o, h1, -, h3, -, h5⟩ := exists_saveable 3 (by decide) (by decide)
  have := loadModel_saved h3 h5 (by omega) (List.Perm.refl _) emptyWorld []
  rw [wp_iff] at this
  obtain ⟨x, w', hx, m', net', k', o', op, rfl, -⟩ := this
  exact ⟨_, _, w', m', fun _ _ => rfl, hx⟩

theorem loadFile_bound (fs : FS) (name : Str) (short : Option Nat) (bytes : List Byte) (hb : fs name = some bytes)
    (hs : ∀ k, short = some k → k ≤ bytes.length) (w w' : World α)
    (r : Except Err (Model α)) (hw : Clean w) (h : loadFile fs name short w = .ok (r, w')) (B : Nat)
    (hR : ∀ buf rest w' e, loadModel buf w = .ok ((.error e, rest), w') →
      8 * floats w' ≤ 8 * floats w + buf.length + B) :
    8 * floats w' ≤ 8 * floats w + bytes.length + (if r.isOk then 0 else B) := by
  unfold loadFile at h
  rw [hb] at h
  have hlen : (readOnce bytes short).length = bytes.length := by
    unfold readOnce
    cases short with
    | none => rfl
    | some k =>
      have := hs k rfl
      simp
      omega
  revert h
  refine wlp_bind (x := loadModel (readOnce bytes short)) (R := fun (p : Except Err (Model α) × List Byte) w' =>
      8 * floats w' ≤ 8 * floats w + bytes.length + (if p.1.isOk then 0 else B))
    (Q := fun r w' => 8 * floats w' ≤ 8 * floats w + bytes.length + (if r.isOk then 0 else B)) ?_ ?_ r w'
  · rintro ⟨p, rest⟩ w' h
    cases p with
    | ok m =>
      have := C142_accepted _ _ _ _ _ hw h
      rw [hlen] at this
      show _ ≤ _ + 0
      omega
    | error e =>
      have := hR _ _ _ _ h
      rw [hlen] at this
      exact this
  · rintro ⟨p, rest⟩ w' h
    exact wlp_pure h

/-- C142 (file): the same for LoadFile, with the length of the file. -/
theorem C142_file (fs : FS) (name : Str) (short : Option Nat) (bytes : List Byte) (hb : fs name = some bytes)
    (hs : ∀ k, short = some k → k ≤ bytes.length) (w w' : World α)
    (r : Except Err (Model α)) (hw : Clean w) (h : loadFile fs name short w = .ok (r, w')) :
    8 * floats w' ≤ 8 * floats w + bytes.length + (if r.isOk then 0 else 8 * ((2 ^ 31 - 1) * (2 ^ 31 - 1))) :=
  loadFile_bound fs name short bytes hb hs w w' r hw h _ fun _ _ _ _ h => C142_refused _ _ _ _ _ hw h

/-! ### Forged sizes -/

/-- A layer as it stands in a file, up to the numbers: magic, type code, sizes, slope and dropout rate. -/
def layerHead (t r c : Int) (s d : α) : List Byte :=
  str "LA" ++ (encInt8 t ++ (encInt32 r ++ (encInt32 c ++ (encFlt s ++ encFlt d))))

theorem readFull_app {k : Nat} {e rest : List Byte} (he : e.length = k) (w : World α) :
    (readFull k : Rd α _) (e ++ rest) w = .ok ((.ok (leNat e), rest), w) := by
  unfold readFull
  rw [if_neg (by rw [List.length_append]; omega), List.take_left' he, List.drop_left' he]
  rfl

theorem readInt8_app (n : Int) (rest : List Byte) (w : World α) :
    (readInt8 : Rd α _) (encInt8 n ++ rest) w = .ok ((.ok (toInt8 n), rest), w) := by
  have h := pInt8_acc n rest
  have h2 := (corr_readInt8 (encInt8 n ++ rest) w (E := fun _ => True) trivial).ok h
  rw [wp_iff] at h2
  obtain ⟨_, w', e, b, rfl, rfl, rfl⟩ := h2
  exact e

theorem readInt32_app (n : Int) (h0 : 1 ≤ n) (h1 : n < 2 ^ 31) (rest : List Byte) (w : World α) :
    (readInt32 : Rd α _) (encInt32 n ++ rest) w = .ok ((.ok n, rest), w) := by
  have h := pInt32_acc n rest
  have h2 := (corr_readInt32 (encInt32 n ++ rest) w (E := fun _ => True) trivial).ok h
  rw [wp_iff] at h2
  obtain ⟨_, w', e, b, rfl, rfl, rfl⟩ := h2
  rw [e, BitVec.toInt_ofInt, Int.bmod_eq_of_le (by omega) (by omega)]

theorem readFlt_app (x : α) (rest : List Byte) (w : World α) :
    (readFlt : Rd α _) (encFlt x ++ rest) w = .ok ((.ok x, rest), w) := by
  have h := pFlt_acc x rest
  have h2 := (corr_readFlt (encFlt x ++ rest) w (E := fun _ => True) trivial).ok h
  rw [wp_iff] at h2
  obtain ⟨_, w', e, b, rfl, rfl, rfl⟩ := h2
  exact e

theorem rd_bind_err {β γ : Type} {x : Rd α β} {f : β → Rd α γ} {buf rest : List Byte} {w w' : World α} {e : Err}
    (h : x buf w = .ok ((.error e, rest), w')) : (x >>= f) buf w = .ok ((.error e, rest), w') := by
  rw [rd_bind]
  exact bind_ok h

theorem loop_err {n : Nat} (hn : 0 < n) {body : Nat → Rd α Unit} {buf rest : List Byte} {w w' : World α} {e : Err}
    (h : body 0 buf w = .ok ((.error e, rest), w')) : Rd.loop n body buf w = .ok ((.error e, rest), w') := by
  induction n with
  | zero => omega
  | succ n ih =>
    unfold Rd.loop
    by_cases h0 : n = 0
    · subst h0
      exact h
    · exact rd_bind_err (ih (by omega))

theorem loopAcc_err {β : Type} {n : Nat} (hn : 0 < n) {body : Nat → β → Rd α β} {b : β} {buf rest : List Byte} {w w' : World α} {e : Err}
    (h : body 0 b buf w = .ok ((.error e, rest), w')) : Rd.loopAcc n body b buf w = .ok ((.error e, rest), w') := by
  induction n with
  | zero => omega
  | succ n ih =>
    unfold Rd.loopAcc
    by_cases h0 : n = 0
    · subst h0
      exact h
    · exact rd_bind_err (ih (by omega))

/-- C142 (forged layer): 27 bytes, with no number behind them, make LoadLayer allocate r·c numbers – any r and c below
2³¹ – before it reports the end of the file. -/
theorem C142_forged_layer (t r c : Int) (s d : α) (hr : 1 ≤ r) (hr' : r < 2 ^ 31) (hc : 1 ≤ c) (hc' : c < 2 ^ 31) (w : World α)
    (hw : Clean w) : (layerHead t r c s d).length = 27 ∧
      ∃ w', loadLayer (layerHead t r c s d) w = .ok ((.error .eof, []), w') ∧ Clean w' ∧
        floats w' = floats w + r.toNat * c.toNat := by
  refine ⟨by simp [layerHead, encInt8, encInt32, length_leBytes, length_encFlt, str], ?_⟩
  have hm := newMatrix_spec (α := α) (r := r.toNat) (c := c.toNat) (w := w) (by omega) (by omega)
  rw [Int.toNat_of_nonneg (by omega), Int.toNat_of_nonneg (by omega), wp_iff] at hm
  obtain ⟨⟨m, err⟩, w1, e1, h1⟩ := hm
  have hcost := cost_newMatrix r c w _ _ e1
  have herr : err = none := by
    exact h1.1
  subst herr
  obtain ⟨-, -, hk⟩ := hcost.1 rfl
  obtain ⟨hc1, hf⟩ := hk hw
  refine ⟨w1, ?_, hc1, hf⟩
  unfold loadLayer
  refine rd_bind_err ?_
  unfold loadLayerBuffer layerHead
  refine (rd_bind_ok (readBuf_app 2 rfl (by omega) _ rfl)).trans ?_
  rw [if_neg (by simp)]
  refine (rd_bind_ok (readInt8_app _ _ _)).trans ?_
  refine (rd_bind_ok (readInt32_app _ hr hr' _ _)).trans ?_
  refine (rd_bind_ok (readInt32_app _ hc hc' _ _)).trans ?_
  refine (rd_bind_ok (readFlt_app _ _ _)).trans ?_
  have hd := readFlt_app d [] w
  rw [List.append_nil] at hd
  refine (rd_bind_ok hd).trans ?_
  have hnm : (newMatrixRd r c : Rd α _) [] w = .ok ((.ok m, []), w1) := by
    unfold newMatrixRd
    refine (rd_bind_ok (b := (m, none)) (rest := []) (w' := w1) ?_).trans rfl
    unfold Rd.lift
    exact bind_ok e1
  refine (rd_bind_ok hnm).trans ?_
  refine rd_bind_err (loop_err (by omega) (loop_err (by omega) ?_))
  exact rd_bind_err (rd_bind_err rfl)

/-- C142 (forged model): the same inside a model: 57 bytes, whatever the other fields of the header say. -/
theorem C142_forged (n a b lt ac ot t r c : Int) (p s d : α) (hn : 1 ≤ n) (hn' : n < 128) (ha : 1 ≤ a) (ha' : a < 2 ^ 31)
    (hb : 1 ≤ b) (hb' : b < 2 ^ 31) (hr : 1 ≤ r) (hr' : r < 2 ^ 31) (hc : 1 ≤ c) (hc' : c < 2 ^ 31) (w : World α)
    (hw : Clean w) :
    ∃ bytes : List Byte, bytes = str "NNML" ++ (VERSION ++ (encInt8 n ++ (encInt32 a ++ (encInt32 b ++ (encInt8 lt ++ (encInt8 ac ++
        (encFlt p ++ (encInt8 ot ++ (encInt8 0 ++ layerHead t r c s d))))))))) ∧ bytes.length = 57 ∧
      ∃ w', loadModel bytes w = .ok ((.error .eof, []), w') ∧ Clean w' ∧ floats w' = floats w + r.toNat * c.toNat := by
  refine ⟨_, rfl, ?_, ?_⟩
  · simp [layerHead, encInt8, encInt32, length_leBytes, length_encFlt, str, VERSION]
  · obtain ⟨-, w', e, h⟩ := C142_forged_layer t r c s d hr hr' hc hc' w hw
    refine ⟨w', ?_, h⟩
    rw [loadModel_rest]
    refine (rd_bind_ok (readBuf_app 4 rfl (by omega) _ rfl)).trans ?_
    rw [if_neg (by simp)]
    refine (rd_bind_ok (readBuf_app 5 rfl (by omega) _ rfl)).trans ?_
    rw [if_neg (by simp)]
    unfold loadRest
    refine (rd_bind_ok (readInt8_app _ _ _)).trans ?_
    refine (rd_bind_ok (readInt32_app _ ha ha' _ _)).trans ?_
    refine (rd_bind_ok (readInt32_app _ hb hb' _ _)).trans ?_
    refine (rd_bind_ok (readInt8_app _ _ _)).trans ?_
    refine (rd_bind_ok (readInt8_app _ _ _)).trans ?_
    refine (rd_bind_ok (readFlt_app _ _ _)).trans ?_
    refine (rd_bind_ok (readInt8_app _ _ _)).trans ?_
    refine (rd_bind_ok (readInt8_app _ _ _)).trans ?_
    refine (rd_bind_ok (b := []) (rest := layerHead t r c s d) (w' := w) rfl).trans ?_
    refine rd_bind_err (loopAcc_err ?_ (rd_bind_err e))
    have : toInt8 n = n := by
      unfold toInt8
      rw [BitVec.toInt_ofInt, Int.bmod_eq_of_le (by omega) (by omega)]
    rw [this]
    omega

/-- The hypotheses hold together, with float64: from the empty memory, 57 bytes make LoadModel allocate (2³¹-1)² numbers, more
than 32 EiB. -/
example [Libm] : ∃ (bytes : List Byte) (w' : World F64), bytes.length = 57 ∧
    loadModel bytes emptyWorld = .ok ((.error .eof, []), w') ∧ 8 * floats w' = 8 * (2147483647 * 2147483647) := by
  obtain ⟨bytes, -, hl, w', e, -, hf⟩ := C142_forged 1 1 1 0 0 0 0 (2 ^ 31 - 1) (2 ^ 31 - 1) (Flt.zero : F64) Flt.zero Flt.zero
    (by norm_num) (by norm_num) (by norm_num) (by norm_num) (by norm_num) (by norm_num) (by norm_num) (by norm_num) (by norm_num)
    (by norm_num) emptyWorld (fun _ _ => rfl)
  have h2 : ((2 : Int) ^ 31 - 1).toNat = 2147483647 := rfl
  rw [h2] at hf
  refine ⟨bytes, w', hl, e, ?_⟩
  rw [hf]
  show 8 * (0 + _) = _
  rw [Nat.zero_add]

/-- C142 does not hold of refused files: the bound by the length of the file, which holds for accepted files, is false. -/
theorem C142_false : ¬ ∀ (buf rest : List Byte) (w w' : World α) (r : Except Err (Model α)), Clean w →
    loadModel buf w = .ok ((r, rest), w') → 8 * floats w' ≤ 8 * floats w + buf.length := by
  intro h
  have hw : Clean (emptyWorld : World α) := fun _ _ => rfl
  obtain ⟨bytes, -, hl, w', e, -, hf⟩ := C142_forged 1 1 1 0 0 0 0 (2 ^ 31 - 1) (2 ^ 31 - 1) (Flt.zero : α) Flt.zero Flt.zero
    (by norm_num) (by norm_num) (by norm_num) (by norm_num) (by norm_num) (by norm_num) (by norm_num) (by norm_num) (by norm_num)
    (by norm_num) emptyWorld hw
  have := h _ _ _ _ _ hw e
  rw [hf, hl] at this
  have h2 : ((2 : Int) ^ 31 - 1).toNat = 2147483647 := rfl
  rw [h2] at this
  omega

end NN
