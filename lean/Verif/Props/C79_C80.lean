import Verif.Props.C65_C69
import Verif.Props.C52_C57
import Verif.Props.C76
/-
C79: InitLogger.  C80: LoadFile when Read returns fewer bytes than the file has.
-/

set_option linter.unusedSectionVars false

namespace NN
open NN.Go

section Logger
variable {α : Type} [Flt α] [FltBits α]

/-- C79: InitLogger fails exactly if a log file is asked for and cannot be opened, and then changes nothing; otherwise the loggers are there
afterwards and nothing else is changed. -/
theorem C79_init (verbose useFile openFails : Bool) (w : World α) :
    wp (initLogger verbose useFile openFails) w fun e w' => (e = none ↔ ¬ (useFile = true ∧ openFails = true)) ∧
      (e = none → w' = { w with logger := true }) ∧ (e ≠ none → w' = w) := by
  cases useFile <;> cases openFails <;> simp [initLogger, wp]

/-- C79: after InitLogger has succeeded, Fit on data of the wrong width returns an error and does not panic. -/
theorem C79_then_fit [FltInt α] (verbose useFile openFails : Bool) (w w1 : World α)
    (hi : initLogger verbose useFile openFails w = .ok (none, w1)) (m : Model α) (net : Net α) (X Y xv yv : Mat) (n cx cy : Nat)
    (A B : Nat → Nat → α) (epochs k : Int) (b : Nat) (hN : IsNet w m net) (h0 : 0 < net.size) (hX : IsMat w X n cx A) (hY : IsMat w Y n cy B)
    (hcX : n ≤ X.m.cap) (hcY : n ≤ Y.m.cap) (hbig : n + b ≤ 2 ^ 53) (he : 0 < epochs) (hc : cx ≠ net.dim 0) :
    ∃ er w', fit m X Y epochs b xv yv k w1 = .ok (some er, w') := by
  have h := C79_init verbose useFile openFails w
  unfold wp at h
  rw [hi] at h
  have e := h.2.1 rfl
  have hN' : IsNet w1 m net := by
    rw [e]; exact ⟨hN.size, hN.ptrs, fun i hi => by
      have l := hN.lay i hi
      exact ⟨l.lt, l.kind, l.ins, l.outs, l.weights, l.biases, l.slope, l.dropout, ⟨l.wmat.rows, l.wmat.cols, l.wmat.len, l.wmat.rpos,
        l.wmat.cpos, l.wmat.addr_lt, l.wmat.row⟩, ⟨l.bmat.rows, l.bmat.cols, l.bmat.len, l.bmat.rpos, l.bmat.cpos, l.bmat.addr_lt, l.bmat.row⟩⟩,
      hN.ins, hN.outs, hN.input, hN.output⟩
  have hM : ∀ {Z : Mat} {r c : Nat} {C : Nat → Nat → α}, IsMat w Z r c C → IsMat w1 Z r c C := fun h => by
    rw [e]; exact ⟨h.rows, h.cols, h.len, h.rpos, h.cpos, h.addr_lt, h.row⟩
  obtain ⟨er, h⟩ := C57_width_partial w1 m net X Y xv yv n cx cy A B epochs k b hN' h0 (hM hX) (hM hY) hcX hcY hbig he hc (by rw [e])
  exact ⟨er, _, h⟩

/-- C79: after InitLogger has succeeded, LoadModel panics on no file, whatever its version, unless a key length in it is negative (C63). -/
theorem C79_then_load [FltInt α] (verbose useFile openFails : Bool) (w w1 : World α)
    (hi : initLogger verbose useFile openFails w = .ok (none, w1)) (buf : List Byte)
    (hok : ¬ ∃ (head : List Byte) (count : Byte) (ps : List (List Byte)) (b : Byte) (rest : List Byte),
      buf = head ++ count :: (ps.flatten ++ b :: rest) ∧ head.length = 29 ∧ (ps.length : Int) < count.toInt ∧ (∀ p ∈ ps, IsPair p) ∧
        b.toInt < 0) : wp (loadModel buf) w1 fun _ _ => True := by
  have h := C79_init verbose useFile openFails w
  unfold wp at h
  rw [hi] at h
  exact C63_partial buf w1 (by rw [h.2.1 rfl]) hok

/-- C79: InitLogger can succeed. -/
example (w : World α) : initLogger true true false w = .ok (none, { w with logger := true }) := rfl

end Logger

/-! ### C80 -/

/-- C80 (full claim): LoadFile returns the model that was saved, or an error, also when Read returns fewer bytes than the file has. -/
def C80_claim [Libm] : Prop := ∀ (w : World F64) (m : Model F64) (net : Net F64) (k : LossKind) (o : Optim F64), Ready w m net k o → OwnNet w net →
  (∀ i, i < net.size → (net.L i).Saveable) → net.size ≤ 127 → ∀ (order : GoMap F64) (bytes : List Byte), order.Perm m.optValues →
  SavedAs w m order bytes → ∀ (fs : FS) (name : Str), fs name = some bytes → ∀ (short : Nat) (w1 : World F64), w1.logger = true →
  wp (loadFile fs name (some short)) w1 fun x w2 => (∃ e, x = .error e) ∨ ∃ m' net', x = .ok m' ∧ IsNet w2 m' net' ∧ SameModel m m' net net'

/-- Other biases for one layer. -/
def LayerSpec.withB {α : Type} (L : LayerSpec α) (b : Nat → α) : LayerSpec α := { L with b := b }

/-- There is a model that differs in the biases of one layer only. -/
theorem exists_bias {α : Type} [Flt α] {w : World α} {m : Model α} {net : Net α} (h : IsNet w m net) (hO : OwnNet w net) {i : Nat}
    (hi : i < net.size) (b : Nat → α) : ∃ (w' : World α) (net' : Net α), IsNet w' m net' ∧ net'.size = net.size ∧ net'.dim = net.dim ∧
      net'.L = fun j => if j = i then (net.L i).withB b else net.L j := by
  have hl := h.lay i hi
  have hp := place_spec w (r := 1) (c := (net.L i).o) (fun _ j => b j) Nat.one_pos hl.wmat.cpos
  generalize placeW w 1 (net.L i).o (fun _ j => b j) = w1 at hp
  generalize placeM w 1 (net.L i).o = bm at hp
  have hl1 : ∀ j, j < net.size → IsLayer w1 (net.lp j) (net.wm j) (net.bm j) (net.L j) := fun j hj =>
    (h.lay j hj).frame hp.frame (fun h => h) (fun h => h) (fun h => h) (fun _ _ h => h)
  have hm : ∀ {Z : Mat} {r c : Nat} {C : Nat → Nat → α}, IsMat w1 Z r c C →
      IsMat { w1 with lay := upd w1.lay (net.lp i) { w1.lay (net.lp i) with biases := some bm } } Z r c C := fun h =>
    ⟨h.rows, h.cols, h.len, h.rpos, h.cpos, h.addr_lt, h.row⟩
  refine ⟨{ w1 with lay := upd w1.lay (net.lp i) { w1.lay (net.lp i) with biases := some bm } },
    { net with bm := fun j => if j = i then bm else net.bm j, L := fun j => if j = i then (net.L i).withB b else net.L j },
    ⟨h.size, h.ptrs, fun j hj => ?_, fun j hj => ?_, fun j hj => ?_, h.input, h.output⟩, rfl, rfl, rfl⟩
  · dsimp only
    by_cases hji : j = i
    · subst hji
      rw [if_pos rfl, if_pos rfl]
      have l := hl1 j hj
      have e : upd w1.lay (net.lp j) { w1.lay (net.lp j) with biases := some bm } (net.lp j) = { w1.lay (net.lp j) with biases := some bm } :=
        if_pos rfl
      refine ⟨l.lt, ?_, ?_, ?_, ?_, ?_, ?_, ?_, hm l.wmat, hm hp.mat⟩ <;> dsimp only <;> rw [e]
      exacts [l.kind, l.ins, l.outs, l.weights, l.slope, l.dropout]
    · rw [if_neg hji, if_neg hji]
      have l := hl1 j hj
      have hne : net.lp j ≠ net.lp i := fun he => hji (hO.inj j i hj hi he)
      have e : upd w1.lay (net.lp i) { w1.lay (net.lp i) with biases := some bm } (net.lp j) = w1.lay (net.lp j) := if_neg hne
      refine ⟨l.lt, ?_, ?_, ?_, ?_, ?_, ?_, ?_, hm l.wmat, hm l.bmat⟩ <;> dsimp only <;> rw [e]
      exacts [l.kind, l.ins, l.outs, l.weights, l.biases, l.slope, l.dropout]
  · dsimp only
    by_cases hji : j = i
    · subst hji; rw [if_pos rfl]; exact h.ins j hj
    · rw [if_neg hji]; exact h.ins j hj
  · dsimp only
    by_cases hji : j = i
    · subst hji; rw [if_pos rfl]; exact h.outs j hj
    · rw [if_neg hji]; exact h.outs j hj

/-- The biases of a layer with the last J of them replaced by zero. -/
noncomputable def cutB [Libm] (L : LayerSpec F64) (J : Nat) (j : Nat) : F64 := if j < L.o - J then L.b j else ⟨0⟩

theorem encFlt_zero [Libm] : encFlt (⟨0⟩ : F64) = List.replicate 8 0 := by
  show leBytes 8 (0 : BitVec 64).toNat = _
  decide

/-- The bytes of a layer end with the biases. -/
theorem layerBytes_split [Libm] (L : LayerSpec F64) {J : Nat} (hJ : J ≤ L.o) : ∃ P T : List Byte, T.length = 8 * J ∧ layerBytes L = P ++ T ∧
    layerBytes (L.withB (cutB L J)) = P ++ List.replicate (8 * J) 0 := by
  obtain ⟨a, ha⟩ : ∃ a, L.o = a + J := ⟨L.o - J, by omega⟩
  let P0 := str "LA" ++ (encInt8 L.kind.code ++ (encInt32 L.n ++ (encInt32 L.o ++ (encFlt L.slope ++ (encFlt L.dropout ++ matBytes L.n L.o L.W)))))
  have hm : ∀ b : Nat → F64, matBytes 1 L.o (fun _ j => b j) = ((List.range a).flatMap fun j => encFlt (b j)) ++
      (List.range J).flatMap fun j => encFlt (b (a + j)) := by
    intro b
    unfold matBytes
    rw [ha, List.range_add]
    simp [List.flatMap_append, List.flatMap_map]
  refine ⟨P0 ++ (List.range a).flatMap fun j => encFlt (L.b j), (List.range J).flatMap fun j => encFlt (L.b (a + j)), ?_, ?_, ?_⟩
  · have hlen : ∀ x : F64, (encFlt x).length = 8 := fun x => rfl
    simp [List.length_flatMap, hlen, mul_comm]
  · unfold layerBytes
    rw [hm]
    simp only [P0, List.append_assoc]
  · unfold layerBytes
    have e : matBytes 1 (L.withB (cutB L J)).o (fun _ j => (L.withB (cutB L J)).b j) = matBytes 1 L.o fun _ j => cutB L J j := rfl
    rw [e, hm]
    have e1 : ((List.range a).flatMap fun j => encFlt (cutB L J j)) = (List.range a).flatMap fun j => encFlt (L.b j) := by
      rw [List.flatMap_def, List.flatMap_def]
      congr 1
      refine List.map_congr_left fun j hj => ?_
      have := List.mem_range.1 hj
      unfold cutB
      rw [if_pos (by omega)]
    have e2 : ((List.range J).flatMap fun j => encFlt (cutB L J (a + j))) = List.replicate (8 * J) 0 := by
      have : (fun j => encFlt (cutB L J (a + j))) = fun _ : Nat => List.replicate 8 (0 : Byte) := funext fun j => by
        unfold cutB
        rw [if_neg (by omega), encFlt_zero]
      rw [this]
      refine List.eq_replicate_iff.2 ⟨by simp [List.length_flatMap, mul_comm], fun x hx => ?_⟩
      obtain ⟨_, -, hx⟩ := List.mem_flatMap.1 hx
      exact (List.mem_replicate.1 hx).2
    rw [e1, e2]
    simp only [P0, List.append_assoc]
    rfl

/-- C80: when Read stops 8 J bytes before the end of the file, J at most the number of outputs, LoadFile returns no error, and a model in
which the last J biases of the last layer are zero. -/
theorem C80_short [Libm] (w : World F64) (m : Model F64) (net : Net F64) (k : LossKind) (o : Optim F64) (h : Ready w m net k o) (hO : OwnNet w net)
    (hs : ∀ i, i < net.size → (net.L i).Saveable) (h127 : net.size ≤ 127) (hpos : 0 < net.size) (order : GoMap F64) (bytes : List Byte)
    (ho : order.Perm m.optValues) (hb : SavedAs w m order bytes) (fs : FS) (name : Str) (hf : fs name = some bytes) (J : Nat)
    (hJ : J ≤ (net.L (net.size - 1)).o) (w1 : World F64) :
    wp (loadFile fs name (some (bytes.length - 8 * J))) w1 fun x w2 => ∃ m' net', x = .ok m' ∧ IsNet w2 m' net' ∧ net'.size = net.size ∧
      (∀ i, i < net.size → SameLayer (if i = net.size - 1 then (net.L i).withB (cutB (net.L i) J) else net.L i) (net'.L i)) := by
  obtain ⟨w0, net0, hN0, hs0, hd0, hL0⟩ := exists_bias h.isNet hO (i := net.size - 1) (by omega) (cutB (net.L (net.size - 1)) J)
  have hR0 : Ready w0 m net0 k o := ⟨hN0, fun h => by omega, h.loss, h.lossType, h.optType, h.optValues, h.prec, h.accLo, h.accHi⟩
  have hS0 : ∀ i, i < net0.size → (net0.L i).Saveable := fun i hi => by
    have hsv := hs i (by omega)
    rw [hL0]
    dsimp only
    split
    · rename_i hi; rw [← hi]; exact ⟨hsv.n, hsv.o, hsv.nlt, hsv.olt, hsv.slope, hsv.dropout⟩
    · exact hsv
  obtain ⟨P, T, hT, h1, h2⟩ := layerBytes_split (net.L (net.size - 1)) hJ
  obtain ⟨n, hn⟩ : ∃ n, net.size = n + 1 := ⟨net.size - 1, by omega⟩
  have hn' : net.size - 1 = n := by omega
  rw [hn'] at hL0 h1 h2
  have key : readOnce bytes (some (bytes.length - 8 * J)) = bytesOf m net0 order := by
    rw [(savedAs_iff h.isNet hs ho).1 hb]
    unfold bytesOf modelBytes
    rw [hs0, hn, List.range_succ, List.flatMap_append, List.flatMap_append]
    have e3 : ((List.range n).flatMap fun i => layerBytes (net0.L i)) = (List.range n).flatMap fun i => layerBytes (net.L i) := by
      rw [List.flatMap_def, List.flatMap_def]
      congr 1
      refine List.map_congr_left fun j hj => ?_
      have := List.mem_range.1 hj
      rw [hL0]
      dsimp only
      rw [if_neg (by omega)]
    have e4 : net0.L n = (net.L n).withB (cutB (net.L n) J) := by rw [hL0]; exact if_pos rfl
    rw [e3]
    simp only [List.flatMap_cons, List.flatMap_nil, List.append_nil]
    rw [e4, h1, h2]
    have hh : headBytes (rawModel m net0 order) order.length order = headBytes (rawModel m net order) order.length order := rfl
    rw [hh]
    generalize headBytes (rawModel m net order) order.length order = H
    generalize ((List.range n).flatMap fun i => layerBytes (net.L i)) = B
    unfold readOnce
    dsimp only
    have e5 : str "NNML" ++ (VERSION ++ (H ++ (B ++ (P ++ T)))) = (str "NNML" ++ (VERSION ++ (H ++ (B ++ P)))) ++ T := by
      simp only [List.append_assoc]
    rw [e5]
    generalize hQ : str "NNML" ++ (VERSION ++ (H ++ (B ++ P))) = Q
    rw [List.length_append, hT, Nat.add_sub_cancel, List.take_left]
    have e6 : Q.length + 8 * J - Q.length = 8 * J := by omega
    rw [e6, ← hQ]
    simp only [List.append_assoc]
  unfold loadFile
  rw [hf]
  dsimp only
  rw [key]
  have hl := loadModel_saved hR0 hS0 (by omega) ho w1 []
  rw [List.append_nil] at hl
  refine wp_bind_mono hl ?_
  rintro x w2 ⟨m', net', k', o', op, rfl, hl, hsame⟩
  refine wp_pure.2 ⟨m', net', rfl, hl.isNet, hsame.size.trans hs0, fun i hi => ?_⟩
  have := hsame.layer i (by omega)
  rw [hL0] at this
  dsimp only at this
  rw [hn']
  by_cases hin : i = n
  · subst hin
    simpa using this
  · rw [if_neg hin]; rw [if_neg hin] at this; exact this

/-- C80 is false: a bias that has not been read is taken to be 0. -/
theorem C80_false [Libm] : ¬ C80_claim := by
  intro hc
  obtain ⟨w, m, net, o, h1, h2, h3, h4, h5⟩ := exists_saveable 3 (by decide) (by decide)
  have hb := (savedAs_iff h3.isNet h5 (List.Perm.refl _)).2 rfl
  have hbad := hc w m net .ce o h3 h4 h5 (by omega) _ _ (List.Perm.refl _) hb (fun _ => some (bytesOf m net m.optValues)) [] rfl
    ((bytesOf m net m.optValues).length - 8 * 1) { w with logger := true } rfl
  have hgood := C80_short w m net .ce o h3 h4 h5 (by omega) (by omega) _ _ (List.Perm.refl _) hb (fun _ => some (bytesOf m net m.optValues)) [] rfl
    1 (by rw [h1, h2]; show 1 ≤ 2 + 3; omega) { w with logger := true }
  obtain ⟨x, w2, -, hx, m1, net1, rfl, hN1, hsz, hL1⟩ := wp_iff.1 (wp_and hbad hgood)
  rcases hx with ⟨e, he⟩ | ⟨m2, net2, he, hN2, hsame⟩
  · cases he
  · injection he with he
    subst he
    obtain ⟨-, ho, -, l2, -⟩ := hN1.shape_unique hN2 (i := 2) (by omega)
    have l1 := hN1.lay 2 (by omega)
    have hbm := l1.biases
    rw [l2.biases] at hbm
    have m2 := l2.bmat
    rw [Option.some.inj hbm, ho] at m2
    have s1 := hL1 2 (by omega)
    have s2 := hsame.layer 2 (by omega)
    rw [h1, if_pos rfl] at s1
    have o1 : (net1.L 2).o = 5 := by rw [s1.o, h2]; rfl
    have u := l1.bmat.entries_unique m2 (i := 0) (j := 4) Nat.one_pos (by omega)
    rw [s1.b 4 (by rw [h2]; show 4 < 5; decide), s2.b 4 (by rw [h2]; show 4 < 5; decide), h2] at u
    have u' : (⟨0⟩ : F64) = Flt.ofInt 4 := u
    have hz : (⟨0⟩ : F64) = Flt.ofInt 0 := by
      show (⟨0⟩ : F64) = F64.round false ((0 : Int) : ℝ)
      unfold F64.round
      rw [if_pos (by norm_num)]
      rfl
    rw [hz] at u'
    have := f64_ofInt_inj (by norm_num) (by norm_num) u'
    omega

/-- C80_short: a model with three layers whose last layer has five biases meets the hypotheses, and losing two of them leaves three. -/
example [Libm] : ∃ (w : World F64) (m : Model F64) (net : Net F64) (o : Optim F64), Ready w m net .ce o ∧ OwnNet w net ∧ net.size = 3 ∧
    (∀ i, i < net.size → (net.L i).Saveable) ∧ SavedAs w m m.optValues (bytesOf m net m.optValues) ∧ 2 ≤ (net.L (net.size - 1)).o := by
  obtain ⟨w, m, net, o, h1, h2, h3, h4, h5⟩ := exists_saveable 3 (by decide) (by decide)
  exact ⟨w, m, net, o, h3, h4, h1, h5, (savedAs_iff h3.isNet h5 (List.Perm.refl _)).2 rfl, by rw [h1, h2]; show 2 ≤ 2 + 3; omega⟩

end NN
