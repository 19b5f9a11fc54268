import Verif.Props.C108
/-
C109: the training programs of the repository that use Fit: examples/spiral_test.go, examples/iris_test.go, TestTrainModel of model_test.go.
-/

set_option linter.unusedSectionVars false

namespace NN
open Go

attribute [local irreducible] wp

section Any
variable {α : Type} [Flt α]

/-- A program run from `w` to `w'` that installs the loggers, makes a model, whose weights are the random numbers d, and trains it with Fit
without validation data: gradient descent over the batches of the data in every epoch, starting with the fresh network and fresh
optimizers; every `k`-th epoch, beginning with the first, logs the loss and accuracy at its end, and nothing else is logged; nothing that
existed has changed. -/
structure TrainsAs (w w' : World α) (d : Nat → α) (a : Nat → LayerArg α) (n : Nat) (loss : Loss) (o : Optim α) (accType : Int) (accPrec : α)
    (train : DataSet α) (k b epochs : Nat) : Prop where
  frame : Frame { norm := True, log := True } { w with logger := true } w'
  run : ∃ m net op net' S' lines, Settings m loss o accType accPrec ∧ IsStart a d net ∧ net.size = n ∧
    Epochs m loss.kind w.unif train none k b net (fun _ => OptSpec.fresh (optFrom o)) w.unifPos epochs net' S' w'.unifPos lines ∧
    w'.log = w.log ++ lines ∧ lines.length = (epochs + (k - 1)) / k ∧ IsTask w' m net' op S' ∧ SameShape net net'

theorem FitRun.trainsAs {w w0 w1 w' : World α} {q : Nat} {a : Nat → LayerArg α} {n : Nat} {loss : Loss} {o : Optim α} {accType : Int} {accPrec : α}
    {train : DataSet α} {k b epochs : Nat} (hk : 0 < k) (h : FitRun w0 w1 w' a n loss o accType accPrec train k b epochs)
    (hf : OnlyAllocs { w with logger := true, normPos := w.normPos + q } w0) (hlog : w1.log = w0.log) :
    TrainsAs w w' (fun i => w.norm (w.normPos + q + i)) a n loss o accType accPrec train k b epochs := by
  obtain ⟨h0, m, net, op, net', S', lines, h1, h2, h3, h4, h5, h6, h7⟩ := h
  have hf' := hf
  refine ⟨?_, m, net, op, net', S', lines, h1, ?_, h3, ?_, ?_, h4.length hk, h6, h7⟩
  · have hg : Frame { norm := True, log := True } { w with logger := true, normPos := w.normPos + q } w' := by frames hf' h0
    obtain ⟨a1, a2, a3, a4, a5, a6, a7, a8, a9, a10, a11⟩ := hg
    exact ⟨a1, a2, a3, a4, a5, a6, a7, fun h => absurd trivial h, a9, a10, a11⟩
  · rw [hf.norm, hf.normPos fun h => h] at h2
    exact h2
  · rw [hf.unif, hf.unifPos fun h => h] at h4
    exact h4
  · rw [h5, hlog, hf.log fun h => h]

/-- Data made before the layers. -/
theorem DataPair.before {w0 w w1 : World α} {x y : Mat} {r cx cy : Nat} {A B : Nat → Nat → α} (h : DataPair w0 w x y r cx cy A B) {n : Nat}
    {lp : Nat → Nat} {wm bm : Nat → Mat} {kind : Nat → LayerKind} {dim : Nat → Nat} (hs : Setup w w1 n lp wm bm (plainL kind dim)) :
    IsData w1 (plainNet kind dim lp wm bm n) x r cx A ∧ IsData w1 (plainNet kind dim lp wm bm n) y r cy B := by
  have key : ∀ {Z : Mat} {c : Nat} {C : Nat → Nat → α}, IsMat w Z r c C → r ≤ Z.m.cap → IsData w1 (plainNet kind dim lp wm bm n) Z r c C := fun hm hc =>
    ⟨hm.frame hs.frame (fun h => h) (fun _ _ h => h), hc, by
      rintro a ⟨i, hi, ha⟩ hr
      have h1 := hs.params i a hi ha
      have h2 := hm.isRow_lt ((hm.isRow_frame hs.frame (fun h => h) a).1 hr)
      omega⟩
  exact ⟨key h.xm h.xcap.ge, key h.ym h.ycap.ge⟩

/-- Data made after the layers. -/
theorem DataPair.after {w0 w w1 : World α} {x y : Mat} {r cx cy : Nat} {A B : Nat → Nat → α} {n : Nat}
    {lp : Nat → Nat} {wm bm : Nat → Mat} {kind : Nat → LayerKind} {dim : Nat → Nat} (hs : Setup w0 w n lp wm bm (plainL kind dim))
    (h : DataPair w w1 x y r cx cy A B) :
    IsData w1 (plainNet kind dim lp wm bm n) x r cx A ∧ IsData w1 (plainNet kind dim lp wm bm n) y r cy B := by
  have hlt : ∀ a, w1.IsNetParam (plainNet kind dim lp wm bm n : Net α) a → a < w.next := by
    rintro a ⟨i, hi, ha⟩
    have hL := hs.laid.layer i hi
    rcases (IsParam_frame hL h.allocs (fun _ h => h) a).1 ha with h1 | h1
    · exact hL.wmat.isRow_lt h1
    · exact hL.bmat.isRow_lt h1
  refine ⟨⟨h.xm, h.xcap.ge, fun a h1 h2 => ?_⟩, ⟨h.ym, h.ycap.ge, fun a h1 h2 => ?_⟩⟩
  · have := hlt a h1
    have := h.fx a h2
    omega
  · have := hlt a h1
    have := h.fy a h2
    omega

theorem DataPair.shuffleData {w0 w : World α} {x y : Mat} {r cx cy : Nat} {A B : Nat → Nat → α} (h : DataPair w0 w x y r cx cy A B) (draw : Nat → Nat)
    (hdraw : ∀ i, 1 ≤ i → i < r → draw i ≤ i) :
    wp (shuffleDataset draw x y) w (fun p w' => p = (x, y) ∧ ∃ σ : Equiv.Perm Nat,
      (∀ i, i < r ↔ σ i < r) ∧ DataPair w0 w' x y r cx cy (fun i => A (σ i)) (fun i => B (σ i))) := by
  unfold shuffleDataset
  rw [if_neg (by rw [h.xm.rows]; omega), h.xm.rows, Int.toNat_natCast]
  refine wp_bind_mono (h.shuffle draw hdraw) ?_
  rintro _ w1 hσ
  exact wp_pure.2 ⟨rfl, hσ⟩

variable [FltInt α]

/-- Hidden 2→64, softmax 64→2. -/
theorem spiral_args : plainArgs spiralKind spiralDim = plainArgs (α := α) (fun i => if i = 0 then .hidden else .softmax) (fun i => [2, 64, 2].getD i 2) := by
  have h1 : spiralKind = fun i => if i = 0 then .hidden else .softmax := by
    funext i
    unfold spiralKind
    split <;> simp_all
  have h2 : spiralDim = fun i => [2, 64, 2].getD i 2 := by
    funext i
    match i with
    | 0 | 1 | 2 => rfl
    | i + 3 => rfl
  rw [h1, h2]

/-- Hidden 4→16, hidden 16→16, softmax 16→3. -/
theorem iris_args : plainArgs irisKind irisDim = plainArgs (α := α) (fun i => if i = 2 then .softmax else .hidden) (fun i => [4, 16, 16, 3].getD i 3) := by
  have h1 : irisKind = fun i => if i = 2 then .softmax else .hidden := by
    funext i
    unfold irisKind
    split <;> simp_all
  have h2 : irisDim = fun i => [4, 16, 16, 3].getD i 3 := by
    funext i
    match i with
    | 0 | 1 | 2 | 3 => rfl
    | i + 4 => rfl
  rw [h1, h2]

/-- Hidden 1→8, hidden 8→8, softmax 8→2. -/
theorem train_args : plainArgs trainKind trainDim = plainArgs (α := α) (fun i => if i = 2 then .softmax else .hidden) (fun i => [1, 8, 8, 2].getD i 2) := by
  have h1 : trainKind = fun i => if i = 2 then .softmax else .hidden := by
    funext i
    unfold trainKind
    split <;> simp_all
  have h2 : trainDim = fun i => [1, 8, 8, 2].getD i 2 := by
    funext i
    match i with
    | 0 | 1 | 2 | 3 => rfl
    | i + 4 => rfl
  rw [h1, h2]

/-- C109: TestSpiral. -/
theorem C109_spiral (h0 : Flt.lt (Flt.zero : α) Flt.zero = false) (w : World α) (o : Optim α) (sin cos : α → α) (draw : Nat → Nat)
    (hdraw : ∀ i, 1 ≤ i → i < 200 → draw i ≤ i) :
    wp (testSpiral o sin cos draw false) w (fun r w' => r = (none, none) ∧ ∃ σ : Equiv.Perm Nat, (∀ i, i < 200 ↔ σ i < 200) ∧
      TrainsAs w w' (fun i => w.norm (w.normPos + 200 + i)) (plainArgs (fun i => if i = 0 then .hidden else .softmax) (fun i => [2, 64, 2].getD i 2)) 2 ⟨.ce, 2⟩ o 1 Flt.zero
        ⟨200, fun i => spiralX sin cos (fun k => w.norm (w.normPos + k)) 100 (σ i), fun i => spiralY 100 (σ i)⟩ 100 0 10000) := by
  rw [← spiral_args]
  unfold testSpiral
  refine wp_bind_ok (show initLogger true true false w = .ok (none, { w with logger := true }) from rfl) ?_
  dsimp only
  refine wp_bind_mono (spiral_data sin cos 100 2 (by decide) (by decide) _) ?_
  rintro ⟨X, Y⟩ w1 hd1
  dsimp only at hd1 ⊢
  refine wp_bind_mono (hd1.shuffleData draw hdraw) ?_
  rintro _ w2 ⟨rfl, σ, hσ, hd2⟩
  dsimp only
  refine wp_bind_mono (makeLayers_spec (fun i _ => by unfold spiralKind; split <;> decide) (fun i _ => by unfold spiralDim; split <;> decide) w2) ?_
  rintro lp w3 ⟨hp, wm, bm, hs⟩
  have hdat := hd2.before hs
  refine exampleFit_spec true (by decide) (fun i _ => by unfold spiralDim; split <;> decide) (fun i _ => by unfold spiralKind; split <;> decide)
    hs hp ?_ ⟨.ce, 2⟩ rfl o 1 (by decide) Flt.zero h0 hdat.1 hdat.2 (100 : Nat) 0 10000 (by decide) _ ?_
  · rw [hs.frame.logger, hd2.allocs.logger]
  · intro w' hr
    refine wp_pure.2 ⟨rfl, σ, hσ, ?_⟩
    exact hr.trainsAs (q := 200) (by decide) hd2.allocs (hs.frame.log fun h => h)

/-- The inputs and targets that iris_test.go makes of the records: the four numbers; 1 in the column of the class. -/
def irisY (cls : Nat → Nat) (i j : Nat) : α := if j = (if cls i = 0 then 0 else if cls i = 1 then 1 else 2) then Flt.one else Flt.zero

theorem iris_data (records : Nat) (hr : 0 < records) (cell : Nat → Nat → α) (cls : Nat → Nat) (w : World α) :
    wp (irisData records cell cls) w (fun p w' => DataPair w w' p.1 p.2 records 4 3 cell (irisY cls)) := by
  unfold irisData
  obtain ⟨x, y, v1, v2, e1, e2, hd⟩ := dataPair_new hr (show 0 < 4 by decide) (show 0 < 3 by decide) w
  refine wp_bind_ok e1 (wp_bind_ok e2 ?_)
  dsimp only
  refine wp_bind_mono (wp_forN (fun n w' => DataPair w w' x y records 4 3 (fun i j => if i < n then cell i j else Flt.zero)
    (fun i j => if i < n then irisY cls i j else Flt.zero)) (by simpa using hd) ?_) ?_
  · intro i w1 hi h
    refine wp_bind_mono (wp_setAt h.xm h.xd hi (j := 0) (by decide) _) fun _ w2 hx => ?_
    have h2 := h.setX hx
    refine wp_bind_mono (wp_setAt h2.xm h2.xd hi (j := 1) (by decide) _) fun _ w3 hx => ?_
    have h3 := h2.setX hx
    refine wp_bind_mono (wp_setAt h3.xm h3.xd hi (j := 2) (by decide) _) fun _ w4 hx => ?_
    have h4 := h3.setX hx
    refine wp_bind_mono (wp_setAt h4.xm h4.xd hi (j := 3) (by decide) _) fun _ w5 hx => ?_
    have h5 := h4.setX hx
    have step : ∀ j, j < 3 → (∀ b, b < 3 → irisY cls i b = if b = j then (Flt.one : α) else Flt.zero) →
        wp (y.setAt (i : Int) (j : Int) Flt.one) w5 (fun _ w' => DataPair w w' x y records 4 3
          (fun a b => if a < i + 1 then cell a b else Flt.zero) (fun a b => if a < i + 1 then irisY cls a b else Flt.zero)) := by
      intro j hj hY
      refine wp_mono (wp_setAt h5.ym h5.yd hi hj _) ?_
      intro _ w6 hy
      refine (h5.setY hy).congr ?_ ?_
      · intro a b ha hb
        unfold upd2
        by_cases e : a = i
        · subst e
          rw [if_pos (Nat.lt_succ_self a)]
          obtain rfl | rfl | rfl | rfl : b = 0 ∨ b = 1 ∨ b = 2 ∨ b = 3 := by omega
          all_goals simp
        · by_cases h' : a < i
          · simp [e, h', show a < i + 1 by omega]
          · simp [e, h', show ¬ a < i + 1 by omega]
      · intro a b ha hb
        unfold upd2
        by_cases e : a = i
        · subst e
          rw [if_pos (Nat.lt_succ_self a), hY b hb]
          by_cases hbj : b = j
          · simp [hbj]
          · simp [hbj]
        · by_cases h' : a < i
          · simp [e, h', show a < i + 1 by omega]
          · simp [e, h', show ¬ a < i + 1 by omega]
    by_cases c0 : cls i = 0
    · rw [if_pos c0]
      exact step 0 (by decide) fun b _ => by simp [irisY, c0]
    · rw [if_neg c0]
      by_cases c1 : cls i = 1
      · rw [if_pos c1]
        exact step 1 (by decide) fun b _ => by simp [irisY, c1]
      · rw [if_neg c1]
        exact step 2 (by decide) fun b _ => by simp [irisY, c0, c1]
  · intro _ w1 h
    exact wp_pure.2 (h.congr (fun i j hi _ => if_pos hi) (fun i j hi _ => if_pos hi))

/-- C109: TestIris, if iris.data can be opened and has at least one record. -/
theorem C109_iris (h0 : Flt.lt (Flt.zero : α) Flt.zero = false) (w : World α) (o : Optim α) (records : Nat) (hr : 0 < records) (hb : records ≤ 2 ^ 53)
    (cell : Nat → Nat → α) (cls : Nat → Nat) (draw : Nat → Nat) (hdraw : ∀ i, 1 ≤ i → i < records → draw i ≤ i) :
    wp (testIris o records cell cls draw false false) w (fun r w' => r = (none, none) ∧
      ∃ σ : Equiv.Perm Nat, (∀ i, i < records ↔ σ i < records) ∧
        TrainsAs w w' (fun i => w.norm (w.normPos + i)) (plainArgs (fun i => if i = 2 then .softmax else .hidden) (fun i => [4, 16, 16, 3].getD i 3)) 3 ⟨.ce, 3⟩ o 1 Flt.zero
          ⟨records, fun i => cell (σ i), fun i => irisY cls (σ i)⟩ 100 0 500) := by
  rw [← iris_args]
  unfold testIris
  refine wp_bind_ok (show initLogger true true false w = .ok (none, { w with logger := true }) from rfl) ?_
  dsimp only
  rw [if_neg (by decide)]
  refine wp_bind_mono (iris_data records hr cell cls _) ?_
  rintro ⟨X, Y⟩ w1 hd1
  dsimp only at hd1 ⊢
  refine wp_bind_mono (hd1.shuffleData draw hdraw) ?_
  rintro _ w2 ⟨rfl, σ, hσ, hd2⟩
  dsimp only
  refine wp_bind_mono (makeLayers_spec (fun i _ => by unfold irisKind; split <;> decide) (fun i _ => by unfold irisDim; split <;> decide) w2) ?_
  rintro lp w3 ⟨hp, wm, bm, hs⟩
  have hdat := hd2.before hs
  refine exampleFit_spec true (by decide) (fun i _ => by unfold irisDim; split <;> decide) (fun i _ => by unfold irisKind; split <;> decide)
    hs hp ?_ ⟨.ce, 3⟩ rfl o 1 (by decide) Flt.zero h0 hdat.1 hdat.2 (100 : Nat) 0 500 (by omega) _ ?_
  · rw [hs.frame.logger, hd2.allocs.logger]
  · intro w' hr
    refine wp_pure.2 ⟨rfl, σ, hσ, ?_⟩
    exact hr.trainsAs (q := 0) (by decide) hd2.allocs (hs.frame.log fun h => h)

/-- C109: TestTrainModel reports no error. -/
theorem C109_trainModel (h0 : Flt.lt (Flt.zero : α) Flt.zero = false) (w : World α) (o : Optim α) (rnd : Nat → α) :
    wp (testTrainModel o rnd false) w (fun r w' => r = none ∧
      TrainsAs w w' (fun i => w.norm (w.normPos + i)) (plainArgs (fun i => if i = 2 then .softmax else .hidden) (fun i => [1, 8, 8, 2].getD i 2)) 3 ⟨.ce, 2⟩ o 1 Flt.zero
        ⟨100, fun i _ => rnd i, optY rnd⟩ 100 100 500) := by
  rw [← train_args]
  unfold testTrainModel
  refine wp_bind_ok (show initLogger true true false w = .ok (none, { w with logger := true }) from rfl) ?_
  dsimp only
  refine wp_bind_mono (makeLayers_spec (fun i _ => by unfold trainKind; split <;> decide) (fun i _ => by unfold trainDim; split <;> decide) _) ?_
  rintro lp w1 ⟨hp, wm, bm, hs⟩
  obtain ⟨x, y, v4, v5, e4, e5, hd⟩ := dataPair_new (r := 100) (cx := 1) (cy := 2) (by decide) (by decide) (by decide) w1
  refine wp_bind_ok e4 (wp_bind_ok e5 ?_)
  dsimp only
  refine wp_bind_mono (wp_forN (fun n w' => DataPair w1 w' x y 100 1 2 (fun i _ => if i < n then rnd i else Flt.zero)
    (fun i j => Flt.zero)) (by simpa using hd) ?_) ?_
  · intro i w' hi h
    refine wp_mono (wp_setAt h.xm h.xd hi (j := 0) Nat.one_pos _) ?_
    intro _ w2 hx
    refine (h.setX hx).congr ?_ fun _ _ _ _ => rfl
    intro a b ha hb
    obtain rfl : b = 0 := by omega
    unfold upd2
    by_cases h : a = i
    · subst h; simp
    · by_cases h' : a < i
      · simp [h, h', show a < i + 1 by omega]
      · simp [h, h', show ¬ a < i + 1 by omega]
  intro _ w2 h
  have h : DataPair w1 w2 x y 100 1 2 (fun i _ => rnd i) (fun i j => Flt.zero) := h.congr (fun i j hi _ => if_pos hi) (fun i j hi _ => rfl)
  refine wp_bind_mono (wp_forN (fun n w' => DataPair w1 w' x y 100 1 2 (fun i _ => rnd i) (fun i j => if i < n then optY rnd i j else Flt.zero))
    (by simpa using h) ?_) ?_
  · intro i w' hi h
    refine wp_bind_ok (at_ok h.xm hi (j := 0) Nat.one_pos) ?_
    have step : ∀ j, j < 2 → (∀ b, b < 2 → optY rnd i b = if b = j then Flt.one else Flt.zero) →
        wp (y.setAt (i : Int) (j : Int) Flt.one) w' (fun _ w'' => DataPair w1 w'' x y 100 1 2 (fun i _ => rnd i)
          (fun i' j => if i' < i + 1 then optY rnd i' j else Flt.zero)) := by
      intro j hj hY
      refine wp_mono (wp_setAt h.ym h.yd hi hj _) ?_
      intro _ w3 hy
      refine (h.setY hy).congr (fun _ _ _ _ => rfl) ?_
      intro a b ha hb
      unfold upd2
      by_cases e : a = i
      · subst e
        rw [if_pos (Nat.lt_succ_self a), hY b hb]
        by_cases hbj : b = j
        · simp [hbj]
        · simp [hbj]
      · by_cases h' : a < i
        · simp [e, h', show a < i + 1 by omega]
        · simp [e, h', show ¬ a < i + 1 by omega]
    by_cases hl : Flt.lt (rnd i) Flt.half = true
    · rw [if_pos hl]
      exact step 0 (by decide) fun b hb => by simp [optY, hl]
    · rw [if_neg hl]
      exact step 1 (by decide) fun b hb => by simp [optY, hl]
  intro _ w3 h
  have hd : DataPair w1 w3 x y 100 1 2 (fun i _ => rnd i) (optY rnd) := h.congr (fun i j hi _ => rfl) (fun i j hi _ => if_pos hi)
  have hdat := DataPair.after hs hd
  refine exampleFit_spec false (by decide) (fun i _ => by unfold trainDim; split <;> decide) (fun i _ => by unfold trainKind; split <;> decide)
    (hs.allocs hd.allocs) ((hd.allocs.normPos fun h => h).trans hp) ?_ ⟨.ce, 2⟩ rfl o 1 (by decide) Flt.zero h0 hdat.1 hdat.2 (100 : Nat) 100 500 (by decide) _ ?_
  · rw [hd.allocs.logger, hs.frame.logger]
  · intro w' hr
    refine wp_pure.2 ⟨rfl, ?_⟩
    exact hr.trainsAs (q := 0) (by decide) (Frame.refl _ _) ((hd.allocs.log fun h => h).trans (hs.frame.log fun h => h))

/-- Fit on the empty matrices that NewMatrix returns with its error. -/
theorem fit_empty {w : World α} {m : Model α} {net : Net α} (hN : IsNet w m net) (h0 : 0 < net.size) (hd : 0 < net.dim 0) (hlog : w.logger = true)
    {epochs : Int} (he : 0 < epochs) (k : Int) : ∃ er, fit m Mat.zero Mat.zero epochs 0 Mat.zero Mat.zero k w =
      .ok (some er, { w with log := w.log ++ [.error .forward er] }) := by
  obtain ⟨er, hf⟩ := modelForward_bad hN h0 (x := Mat.zero) (by show (0 : Int) ≠ _; omega) true
  refine ⟨er, ?_⟩
  have hhi : batchHi α ((0 : Nat) : Int) 0 0 = 0 := by
    unfold batchHi
    rw [FltInt.toInt_min _ _ (by norm_num) (by norm_num) (by norm_num) (by norm_num)]
    rfl
  have hb : fitBatch m Mat.zero Mat.zero 0 0 w = .ok (some er, { w with log := w.log ++ [.error .forward er] }) := by
    unfold fitBatch
    show (reslice Mat.zero.m (((0 : Nat) : Int) * 0) (batchHi α ((0 : Nat) : Int) 0 0) >>= _) w = _
    rw [hhi]
    refine (bind_ok (show reslice Mat.zero.m (((0 : Nat) : Int) * 0) 0 w = .ok (Mat.zero.m, w) from rfl)).trans ?_
    refine (bind_ok (show newMatrixFromSlice Mat.zero.m w = .ok ((Mat.zero, some (.matrixDims 0 0)), w) from rfl)).trans ?_
    refine (bind_ok (show reslice Mat.zero.m (((0 : Nat) : Int) * 0) (batchHi α ((0 : Nat) : Int) 0 0) w = .ok (Mat.zero.m, w) by rw [hhi]; rfl)).trans ?_
    refine (bind_ok (show newMatrixFromSlice Mat.zero.m w = .ok ((Mat.zero, some (.matrixDims 0 0)), w) from rfl)).trans ?_
    refine (bind_ok hf).trans ?_
    refine (bind_ok (show logEvent (.error .forward er) w = .ok ((), { w with log := w.log ++ [.error .forward er] }) by unfold logEvent; rw [if_pos hlog])).trans ?_
    rfl
  unfold fit
  refine forRet_first (by omega) (r := .ok (er, { w with log := w.log ++ [.error .forward er] })) ?_
  unfold fitEpoch
  refine (bind_ok (show forRet _ _ w = .ok (some er, { w with log := w.log ++ [.error .forward er] }) from ?_)).trans rfl
  exact forRet_first (by decide) (r := .ok (er, { w with log := w.log ++ [.error .forward er] })) hb

/-- C109: if iris.data has no records, or ReadAll fails on it (line 33 tests the error of Open instead), TestIris reports nothing although
Fit fails in its first step: its error, which the program drops, is the only thing that is logged. -/
theorem C109_iris_empty (h0 : Flt.lt (Flt.zero : α) Flt.zero = false) (w : World α) (o : Optim α) (cell : Nat → Nat → α) (cls : Nat → Nat)
    (draw : Nat → Nat) : wp (testIris o 0 cell cls draw false false) w (fun r w' => ∃ er, r = (none, some er) ∧ w'.log = w.log ++ [.error .forward er]) := by
  unfold testIris
  refine wp_bind_ok (show initLogger true true false w = .ok (none, { w with logger := true }) from rfl) ?_
  dsimp only
  rw [if_neg (by decide)]
  refine wp_bind_ok (show irisData 0 cell cls { w with logger := true } = .ok ((Mat.zero, Mat.zero), { w with logger := true }) from ?_) ?_
  · unfold irisData
    refine (bind_ok (newMatrix_bad (.inl (by decide)) _)).trans ?_
    refine (bind_ok (newMatrix_bad (.inl (by decide)) _)).trans ?_
    rfl
  dsimp only
  refine wp_bind_ok (show shuffleDataset draw Mat.zero Mat.zero { w with logger := true } = .ok ((Mat.zero, Mat.zero), { w with logger := true }) from rfl) ?_
  dsimp only
  refine wp_bind_mono (makeLayers_spec (fun i _ => by unfold irisKind; split <;> decide) (fun i _ => by unfold irisDim; split <;> decide) _) ?_
  rintro lp w3 ⟨hp, wm, bm, hs⟩
  refine wp_bind_mono (exampleModel_spec true (by decide) (fun i _ => by unfold irisDim; split <;> decide)
    (fun i _ => by unfold irisKind; split <;> decide) hs hp ⟨.ce, 3⟩ rfl o 1 Flt.zero h0) ?_
  rintro m w4 ⟨hf1, hf2, net, op, hm, hsh, -⟩
  have hsz : net.size = 3 := hm.size
  obtain ⟨er, hfit⟩ := fit_empty hm.task.isNet (by omega) (by rw [hsh.dim]; show 0 < 4; decide) (hf1.logger) (epochs := 500) (by decide) 100
  refine wp_bind_ok hfit (wp_pure.2 ⟨er, rfl, ?_⟩)
  show w4.log ++ _ = _
  rw [hf1.log fun h => h]

/-- C109: if the log file cannot be opened, the programs report the error and change nothing. -/
theorem C109_no_log (w : World α) (o : Optim α) (sin cos : α → α) (draw : Nat → Nat) (records : Nat) (cell : Nat → Nat → α) (cls : Nat → Nat)
    (dataFails : Bool) (rnd : Nat → α) :
    testSpiral o sin cos draw true w = .ok ((some .os, none), w) ∧
      testIris o records cell cls draw true dataFails w = .ok ((some .os, none), w) ∧ testTrainModel o rnd true w = .ok (some .os, w) :=
  ⟨rfl, rfl, rfl⟩

end Any

/-- C109: 0 < 0 is false in exact arithmetic and in float64; a shuffle that swaps every row with the first. -/
example [Libm] : Flt.lt (Flt.zero : ℝ) Flt.zero = false ∧ Flt.lt (Flt.zero : F64) Flt.zero = false ∧ ∀ i, 1 ≤ i → i < 200 → (fun _ => 0 : Nat → Nat) i ≤ i :=
  ⟨by simp, by rw [f64_lt_int 0 0 (by norm_num) (by norm_num)]; rfl, fun _ _ _ => Nat.zero_le _⟩

end NN
