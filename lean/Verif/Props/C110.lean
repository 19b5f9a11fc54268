import Verif.Props.C107
import Verif.Lemmas.ExamplesFit
/-
C110: the programs of the repository that make, run, save and load a small model: TestModel of model_test.go, TestModelData and
TestModelSaveLoad of model_data_test.go.
-/

set_option linter.unusedSectionVars false

namespace NN
open Go

attribute [local irreducible] wp

section Any
variable {α : Type} [Flt α] [FltInt α]

theorem IsMat.withLogger {w : World α} {x : Mat} {r c : Nat} {A : Nat → Nat → α} (h : IsMat w x r c A) (b : Bool) : IsMat { w with logger := b } x r c A :=
  ⟨h.rows, h.cols, h.len, h.rpos, h.cpos, h.addr_lt, h.row⟩

/-- The model that the three programs make: hidden 3→5, hidden 5→5, linear 5→1 of the random numbers, mean squared error. -/
theorem smallModel_spec (w : World α) (o : Optim α) (prec : α) (hprec : Flt.lt prec Flt.zero = false) {β : Type} (f : Model α → Go α β)
    {Q : β → World α → Prop} (h : ∀ m w1 net op, Frame { norm := True } w w1 →
      Made w w1 (plainArgs smallKind smallDim) 3 ⟨.mse, 1⟩ o 0 prec m net op → net.dim 0 = 3 → net.dim net.size = 1 →
      (∀ i, i < 3 → ((net.L i).kind = .hidden ∨ (net.L i).kind = .linear) ∧ (net.L i).Saveable) → wp (f m) w1 Q) :
    wp (do
      let l ← makeLayers smallKind smallDim 3
      let m ← exampleModel false l 3 ⟨.mse, 1⟩ o 0 prec
      f m) w Q := by
  refine wp_bind_mono (makeLayers_spec (fun i _ => by unfold smallKind; split <;> decide) (fun i _ => by unfold smallDim; split <;> decide) w) ?_
  rintro lp w1 ⟨hp, wm, bm, hs⟩
  refine wp_bind_mono (exampleModel_spec false (by decide) (fun i _ => by unfold smallDim; split <;> decide)
    (fun i _ => by unfold smallKind; split <;> decide) hs hp ⟨.mse, 1⟩ rfl o 0 prec hprec) ?_
  rintro m w2 ⟨hf, -, net, op, hm, hsh, -⟩
  refine h m w2 net op hf hm (by rw [hsh.dim]; rfl) (by rw [hm.size, hsh.dim]; rfl) ?_
  intro i hi
  obtain ⟨h1, h2, h3, h4, h5, -⟩ := hm.start i (by rw [hm.size]; exact hi)
  have hk : (net.L i).kind = .hidden ∨ (net.L i).kind = .linear := by
    rw [h1]
    show smallKind i = _ ∨ smallKind i = _
    unfold smallKind
    split <;> simp
  refine ⟨hk, ?_⟩
  have e1 : ((net.L i).n : Int) = (smallDim i : Int) := h2
  have e2 : ((net.L i).o : Int) = (smallDim (i + 1) : Int) := h3
  have b : ∀ j, 0 < smallDim j ∧ smallDim j < 2 ^ 31 := fun j => by unfold smallDim; split <;> decide
  have := b i
  have := b (i + 1)
  refine ⟨by omega, by omega, by omega, by omega, fun hk => ?_, fun hk => ?_⟩
  · rw [h4, if_neg (by rw [← h1]; exact hk)]
  · rw [h5, if_neg (by rw [← h1]; exact hk)]

/-- C110: TestModel reports no error on any matrices with 3 and 1 columns and equally many rows; nothing that existed has changed. -/
theorem C110_model (w : World α) (o : Optim α) (prec : α) (hprec : Flt.lt prec Flt.zero = false) (X Y : Mat) (r : Nat) (A B : Nat → Nat → α)
    (hX : IsMat w X r 3 A) (hY : IsMat w Y r 1 B) :
    wp (testModel o prec X Y) w (fun e w' => e = none ∧ Frame { norm := True } w w') := by
  unfold testModel
  refine smallModel_spec w o prec hprec _ ?_
  intro m w1 net op hf hm d0 dn hk
  have hT := hm.task
  have hN := hT.isNet
  have hsz := hm.size
  have hX1 : IsMat w1 X r (net.dim 0) A := by rw [d0]; exact hX.frame hf (fun h => h) (fun _ _ h => h)
  have hY1 : IsMat w1 Y r (net.dim net.size) B := by rw [dn]; exact hY.frame hf (fun h => h) (fun _ _ h => h)
  have hlay := hm.layers
  refine wp_bind_mono (modelForward_spec hN hX1 false) ?_
  rintro ⟨outs, e⟩ w2 ⟨os, mask, V, M, h1, h2, h3, h4, h5⟩
  obtain rfl : e = none := h2
  dsimp only at h1 ⊢
  obtain ⟨G, D, hG⟩ := exists_netGrad m net .mse r V M B
  have hdr : ∀ k, k < net.size → (net.L k).kind = .dropout → false = true := fun k h1 h2 => by
    rcases (hk k (by omega)).1 with h | h <;> rw [h] at h2 <;> cases h2
  have hTp := tape_of_run hN hT.own hdr hX1 h5 h3 h4
  have hF := freeOut_of_run hN hT.pos hdr h5 hY1
  rw [h1]
  refine wp_bind_mono (modelBackward_spec (loss := ⟨.mse, 1⟩) hTp hT.pos (fun k h => by rcases (hk k (by omega)).1 with h | h <;> rw [h] <;> decide)
    hm.hasLoss hm.lossSize (hY1.frame h5.frame (fun h => h) (fun _ _ h => h)) hF hG) ?_
  rintro ⟨gs, e⟩ w3 ⟨rfl, hf3, -⟩
  dsimp only at hf3 ⊢
  have h5f := h5.frame
  have g2 : Frame { norm := True } w w2 := by
    frames hf h5f
    · rintro a ha ⟨i, hi, rfl⟩
      have := hlay i (by omega)
      omega
    · exact fun h => by cases h.1
  have g3 : Frame { norm := True } w w3 := by
    frames g2 hf3
    exact fun a _ h => by cases h.1
  have hst := Static.of_frame hf3 fun _ _ h => h
  have hN3 : IsNet w3 m net := (hN.frame h5.frame h5.stat (fun _ h => h) (fun _ _ h => h)).frame hf3 hst (fun _ h => h) (fun _ _ h => by cases h.1)
  have hX3 : IsMat w3 X r (net.dim 0) A := by rw [d0]; exact hX.frame g3 (fun h => h) (fun _ _ h => h)
  refine wp_bind_mono (predict_spec hN3 hT.pos hX3) ?_
  rintro ⟨out, e⟩ w4 ⟨hf4, -, h6, -⟩
  obtain rfl : e = none := (h6 (.inl hm.accType)).1
  refine wp_pure.2 ⟨rfl, ?_⟩
  frames g3 hf4
  rintro a ha ⟨i, hi, rfl⟩
  have := hlay i (by omega)
  omega

end Any

section Bits
variable {α : Type} [Flt α] [FltBits α] [FltInt α]

theorem Made.ready {w w1 : World α} {a : Nat → LayerArg α} {n : Nat} {loss : Loss} {o : Optim α} {accType : Int} {accPrec : α} {m : Model α}
    {net : Net α} {op : Nat → Nat} (hm : Made w w1 a n loss o accType accPrec m net op) (hn : 0 < n) (hp : Flt.lt accPrec Flt.zero = false)
    (ht : accType = 0 ∨ accType = 1 ∨ accType = 2) : Ready w1 m net loss.kind o := by
  have hN := hm.task.isNet
  have hpos : 0 < net.size := by rw [hm.size]; exact hn
  refine ⟨hN, fun h => by omega, ?_, hm.lossType, hm.optType, hm.optValues, by rw [hm.accPrec]; exact hp,
    by rw [hm.accType]; omega, by rw [hm.accType]; omega⟩
  rw [hm.hasLoss, hN.output hpos, ← hm.lossSize]

/-- Hidden 3→5, hidden 5→5, linear 5→1. -/
theorem small_args : plainArgs smallKind smallDim = plainArgs (α := α) (fun i => if i = 2 then .linear else .hidden) (fun i => [3, 5, 5, 1].getD i 1) := by
  have h1 : smallKind = fun i => if i = 2 then .linear else .hidden := by
    funext i
    unfold smallKind
    split <;> simp_all
  have h2 : smallDim = fun i => [3, 5, 5, 1].getD i 1 := by
    funext i
    match i with
    | 0 | 1 | 2 | 3 => rfl
    | i + 4 => rfl
  rw [h1, h2]

/-- C110: TestModelData reports no error, whatever the order of the optimizer values, and the loss that it prints is, bit for bit, that of
the network that was serialized. -/
theorem C110_data (w : World α) (o : Optim α) (prec : α) (hprec : Flt.lt prec Flt.zero = false) (X Y : Mat) (r : Nat) (A B : Nat → Nat → α)
    (hX : IsMat w X r 3 A) (hY : IsMat w Y r 1 B) (order : GoMap α) (ho : order.Perm (o.getValues.del (str "type"))) :
    wp (testModelData o prec X Y order false) w (fun p _ => ∃ net : Net α,
      IsStart (plainArgs (fun i => if i = 2 then .linear else .hidden) (fun i => [3, 5, 5, 1].getD i 1)) (fun q => w.norm (w.normPos + q)) net ∧ net.size = 3 ∧
        p = (none, lossOf .mse r 1 (netOut net A 3) B)) := by
  unfold testModelData
  refine wp_bind_ok (show initLogger true true false w = .ok (none, { w with logger := true }) from rfl) ?_
  dsimp only
  refine smallModel_spec _ o prec hprec _ ?_
  intro m w1 net op hf hm d0 dn hk
  have hX1 : IsMat w1 X r 3 A := (hX.withLogger true).frame hf (fun h => h) (fun _ _ h => h)
  have hY1 : IsMat w1 Y r 1 B := (hY.withLogger true).frame hf (fun h => h) (fun _ _ h => h)
  have hN := hm.task.isNet
  have hsz := hm.size
  obtain ⟨d, e1, h1⟩ := C59_model_roundtrip w1 m net .mse o (hm.ready (by decide) hprec (.inl rfl)) (fun i hi => (hk i (by omega)).2) (by omega)
  refine wp_bind_ok e1 ?_
  have hd : d.optValues = m.optValues := by
    have e3 := newSavedModel_run hN (fun i hi => (hk i (by omega)).2)
    rw [e1] at e3
    cases e3
    rfl
  obtain ⟨bytes, e2, h2⟩ := h1 order (by rw [hd, hm.optValues]; exact ho)
  refine wp_bind_ok e2 ?_
  have h3 := h2 w1 []
  rw [List.append_nil] at h3
  refine wp_bind_mono h3 ?_
  rintro _ w2 ⟨m', net', rfl, hsame, hN', -, -, -, hf2, -⟩
  dsimp only
  have := (C107_evaluate w1 w2 m m' net net' hsame hN hN' hm.task.pos ⟨.mse, 1⟩ hm.hasLoss hm.lossSize (by rw [dn]; norm_num) (.inl hm.accType)).2
  rw [d0, dn] at this
  refine wp_bind_mono (this.loss X Y ⟨r, A, B⟩ (hX1.frame hf2 (fun h => h) (fun _ _ h => h)) (hY1.frame hf2 (fun h => h) (fun _ _ h => h))) ?_
  rintro _ w3 rfl
  refine wp_pure.2 ⟨net, small_args (α := α) ▸ hm.start, hsz, ?_⟩
  rw [hsz]

/-- C110: TestModelSaveLoad reports no error, whatever is on the disk, and the loss that it prints is, bit for bit, that of the network
that was saved. -/
theorem C110_saveLoad (w : World α) (o : Optim α) (prec : α) (hprec : Flt.lt prec Flt.zero = false) (X Y : Mat) (r : Nat) (A B : Nat → Nat → α)
    (hX : IsMat w X r 3 A) (hY : IsMat w Y r 1 B) (order : GoMap α) (ho : order.Perm (o.getValues.del (str "type"))) (fs : FS) :
    wp (testModelSaveLoad o prec X Y order false fs) w (fun p _ => ∃ net : Net α,
      IsStart (plainArgs (fun i => if i = 2 then .linear else .hidden) (fun i => [3, 5, 5, 1].getD i 1)) (fun q => w.norm (w.normPos + q)) net ∧ net.size = 3 ∧
        p = (none, lossOf .mse r 1 (netOut net A 3) B)) := by
  unfold testModelSaveLoad
  refine wp_bind_ok (show initLogger true true false w = .ok (none, { w with logger := true }) from rfl) ?_
  dsimp only
  refine smallModel_spec _ o prec hprec _ ?_
  intro m w1 net op hf hm d0 dn hk
  have hX1 : IsMat w1 X r 3 A := (hX.withLogger true).frame hf (fun h => h) (fun _ _ h => h)
  have hY1 : IsMat w1 Y r 1 B := (hY.withLogger true).frame hf (fun h => h) (fun _ _ h => h)
  have hN := hm.task.isNet
  have hsz := hm.size
  obtain ⟨ops, e1, -, h1⟩ := C68_roundtrip w1 m net .mse o (hm.ready (by decide) hprec (.inl rfl)) (fun i hi => (hk i (by omega)).2) (by omega)
    order (by rw [hm.optValues]; exact ho) (str "testmodel.model") fs
  refine wp_bind_ok e1 ?_
  dsimp only
  refine wp_bind_mono (h1 w1) ?_
  rintro _ w2 ⟨m', net', rfl, hsame, hN', hf2⟩
  dsimp only
  have := (C107_evaluate w1 w2 m m' net net' hsame hN hN' hm.task.pos ⟨.mse, 1⟩ hm.hasLoss hm.lossSize (by rw [dn]; norm_num) (.inl hm.accType)).2
  rw [d0, dn] at this
  refine wp_bind_mono (this.loss X Y ⟨r, A, B⟩ (hX1.frame hf2 (fun h => h) (fun _ _ h => h)) (hY1.frame hf2 (fun h => h) (fun _ _ h => h))) ?_
  rintro _ w3 rfl
  refine wp_pure.2 ⟨net, small_args (α := α) ▸ hm.start, hsz, ?_⟩
  rw [hsz]

/-- C110: if the log file cannot be opened the programs report the error and do nothing. -/
theorem C110_no_log (w : World α) (o : Optim α) (prec : α) (X Y : Mat) (order : GoMap α) (fs : FS) :
    testModelData o prec X Y order true w = .ok ((some .os, Flt.zero), w) ∧
      testModelSaveLoad o prec X Y order true fs w = .ok ((some .os, Flt.zero), w) := ⟨rfl, rfl⟩

end Bits

/-- C110: an input of one row 1, 2, 3, as in the programs, a target, a precision, and the optimizer values in their own order. -/
example [Libm] : ∃ (w : World F64) (X Y : Mat) (A B : Nat → Nat → F64) (o : Optim F64) (order : GoMap F64), IsMat w X 1 3 A ∧ IsMat w Y 1 1 B ∧
    A 0 2 = Flt.ofInt 3 ∧ Flt.lt (Flt.zero : F64) Flt.zero = false ∧ order.Perm (o.getValues.del (str "type")) := by
  have hx := place_spec (emptyWorld (α := F64)) (r := 1) (c := 3) (fun _ j => Flt.ofInt ((j + 1 : Nat) : Int)) (by decide) (by decide)
  have hy := place_spec (placeW (emptyWorld (α := F64)) 1 3 (fun _ j => Flt.ofInt ((j + 1 : Nat) : Int))) (r := 1) (c := 1) (fun _ _ => Flt.half) (by decide) (by decide)
  exact ⟨_, _, _, _, _, Optim.zero .adam, _, hx.mat.allocs hy.frame, hy.mat, rfl, by rw [f64_lt_int 0 0 (by norm_num) (by norm_num)]; rfl, List.Perm.refl _⟩

end NN
