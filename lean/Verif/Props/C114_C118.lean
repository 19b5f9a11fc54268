import Verif.Lemmas.TestsRun2
import Verif.Props.C58_C64
/-
C114: every test of matrix_test.go passes.
C115: every test of misc_test.go and accuracy_test.go passes.
C116: every test of network_test.go passes, with outputs and gradients of the textbook formulas but for TestSigmoidLayer.
C117: every test of loss_test.go and layer_data_test.go passes.
C118: what two of the passing tests do not notice: TestMatrixScalarOperations compares 0 with 9, and TestSigmoidLayer accepts gradients of the
wrong shapes and an overwritten input.
-/

namespace NN
open Go F64

attribute [local irreducible] wp

/-! ### C114 -/

/-- C114: with float64 and from any state, every test of matrix_test.go reports no error; it changes nothing that existed before. -/
theorem C114_matrix_tests [Libm] (w : World F64) :
    wp (testMatrix flit) w (fun f w' => f = [] ∧ OnlyAllocs w w') ∧
    wp testMatrixFromSlice w (fun f w' => f = [] ∧ OnlyAllocs w w') ∧
    wp testMatrixRowsCols w (fun f w' => f = [] ∧ OnlyAllocs w w') ∧
    wp testMatrixOperations w (fun p w' => p.1 = [] ∧ OnlyAllocs w w') ∧
    wp (testMatrixScalarOperations flit) w (fun p w' => p.1 = [] ∧ OnlyAllocs w w') ∧
    wp testMatrixDotProduct w (fun f w' => f = [] ∧ OnlyAllocs w w') ∧
    wp testMatrixTranspose w (fun f w' => f = [] ∧ OnlyAllocs w w') ∧
    wp testMatrixSum w (fun f w' => f = [] ∧ OnlyAllocs w w') :=
  ⟨testMatrix_run w, testMatrixFromSlice_run w, testMatrixRowsCols_run w, testMatrixOperations_run w,
    wp_mono (testMatrixScalarOperations_run w) fun _ _ h => ⟨h.1, h.2.2⟩, testMatrixDotProduct_run w, testMatrixTranspose_run w, testMatrixSum_run w⟩

/-- The tests run from a concrete state; the tests can fail: a comparison of different numbers is seen. -/
example [Libm] : (∃ w', testMatrixDotProduct (emptyWorld : World F64) = .ok ([], w')) ∧ Flt.eq (Flt.ofInt 6 : F64) (Flt.ofInt 7) = false := by
  obtain ⟨f, w', h, rfl, -⟩ := wp_iff.1 (C114_matrix_tests (emptyWorld : World F64)).2.2.2.2.2.1
  exact ⟨⟨w', h⟩, by rw [f64_eq_int _ _ (by norm_num) (by norm_num)]; rfl⟩

/-- C114: the comparison that the tests make of a row (`reflect.DeepEqual`) is true exactly if there is a row, of the expected length, and
every entry equals the expected one. -/
theorem C114_deepEqual {α : Type} [Flt α] (r : Option Nat) (l : List α) (w : World α) :
    ∃ b, deepEqual r l w = .ok (b, w) ∧
      (b = true ↔ ∃ a, r = some a ∧ (w.flt a).length = l.length ∧
        ∀ (i : Nat) (x y : α), (w.flt a)[i]? = some x → l[i]? = some y → Flt.eq x y = true) := by
  cases r with
  | none => exact ⟨false, rfl, by simp⟩
  | some a =>
    refine ⟨_, rfl, ?_⟩
    rw [Bool.and_eq_true, decide_eq_true_iff, List.all_eq_true]
    constructor
    · rintro ⟨h1, h2⟩
      refine ⟨a, rfl, h1, fun i x y hx hy => h2 (x, y) ?_⟩
      exact List.mem_of_getElem? (i := i) (by rw [List.getElem?_zip_eq_some]; exact ⟨hx, hy⟩)
    · rintro ⟨a', ha, h1, h2⟩
      obtain rfl := Option.some.inj ha
      refine ⟨h1, fun p hp => ?_⟩
      obtain ⟨i, hi⟩ := List.mem_iff_getElem?.1 hp
      rw [List.getElem?_zip_eq_some] at hi
      exact h2 i _ _ hi.1 hi.2

/-! ### C115 -/

/-- C115: with float64 and from any state, every test of misc_test.go and of accuracy_test.go reports no error and changes nothing that existed
before. -/
theorem C115_misc_tests [Libm] (w : World F64) :
    wp testSparseToOneHot w (fun f w' => f = [] ∧ OnlyAllocs w w') ∧
    wp (testRowMax flit) w (fun f w' => f = [] ∧ OnlyAllocs w w') ∧
    wp (testOutputBinaryValues flit) w (fun f w' => f = [] ∧ OnlyAllocs w w') ∧
    wp (testRegressionAccuracy flit) w (fun f w' => f = [] ∧ OnlyAllocs w w') ∧
    wp (testCategoricalAccuracy flit) w (fun f w' => f = [] ∧ OnlyAllocs w w') ∧
    wp (testBinaryCategoricalAccuracy flit) w (fun f w' => f = [] ∧ OnlyAllocs w w') :=
  ⟨testSparseToOneHot_run w, testRowMax_run w, testOutputBinaryValues_run w, testRegressionAccuracy_run w, testCategoricalAccuracy_run w,
    testBinaryCategoricalAccuracy_run w⟩

example [Libm] : ∃ w', testRegressionAccuracy flit emptyWorld = .ok ([], w') := by
  obtain ⟨f, w', h, rfl, -⟩ := wp_iff.1 (C115_misc_tests (emptyWorld : World F64)).2.2.2.1
  exact ⟨w', h⟩

section
variable {α : Type} [Flt α]

/-- C115: TestShuffleDataset passes for every sequence of draws, leaves both columns in the same new order, and so keeps every pair. -/
theorem C115_shuffle_test (draw : Nat → Nat) (hd : ∀ i, 1 ≤ i → i < 4 → draw i ≤ i) (w : World α) :
    wp (testShuffleDataset draw) w fun p w' => p.1 = [] ∧ OnlyAllocs w w' ∧ ∃ σ : Equiv.Perm Nat, (∀ i, i < 4 ↔ σ i < 4) ∧
      IsMat w' p.2.1 4 1 (fun i _ => ([1, 3, 0, 2].map Flt.ofInt)[σ i]?.getD Flt.zero) ∧
      IsMat w' p.2.2 4 1 (fun i _ => ([3, 4, 6, 7].map Flt.ofInt)[σ i]?.getD Flt.zero) :=
  testShuffleDataset_run draw hd w

/-- The draw 0 at every step is one of the sequences. -/
example : ∀ i, 1 ≤ i → i < 4 → (fun _ => 0 : Nat → Nat) i ≤ i := fun i _ _ => Nat.zero_le i

/-! ### C116 -/

/-- C116: for every number type and whatever the random numbers, the tests of the hidden, linear, leaky, softmax and dropout layers report no error
(for the leaky and the dropout layer: if the constructor accepts the constant 0.1); outputs and gradients are those of the textbook formulas on the
numbers in the test; nothing that existed before changes. -/
theorem C116_layer_tests (w : World α) (lit : Int → Nat → α) :
    (wp testHiddenLayer w fun t w' => LayerTestOk w w' t (testSpec w .hidden Flt.zero Flt.zero) 3
      (entry [ints [1, 2, 3], ints [4, 5, 6], ints [7, 8, 9]]) (entry [ints [1, 1, 1, 1, 1], ints [2, 2, 2, 2, 2], ints [3, 3, 3, 3, 3]])
      (trainOut (testSpec w .hidden Flt.zero Flt.zero) (fun q => w.unif (w.unifPos + q)) (entry [ints [1, 2, 3], ints [4, 5, 6], ints [7, 8, 9]]))
      (dropBits (testSpec w .hidden Flt.zero Flt.zero) fun q => w.unif (w.unifPos + q))) ∧
    (wp (testLinearLayer lit) w fun t w' => LayerTestOk w w' t (testSpec w .linear Flt.zero Flt.zero) 1 (entry [ints [1, 2, 3]]) (entry (gradRow lit))
      (trainOut (testSpec w .linear Flt.zero Flt.zero) (fun q => w.unif (w.unifPos + q)) (entry [ints [1, 2, 3]]))
      (dropBits (testSpec w .linear Flt.zero Flt.zero) fun q => w.unif (w.unifPos + q))) ∧
    (Flt.lt (lit 1 1) Flt.zero = false →
      wp (testLeakyLayer lit) w fun t w' => LayerTestOk w w' t (testSpec w .leaky (lit 1 1) Flt.zero) 1 (entry [ints [1, -1, 2]]) (entry (gradRow lit))
        (trainOut (testSpec w .leaky (lit 1 1) Flt.zero) (fun q => w.unif (w.unifPos + q)) (entry [ints [1, -1, 2]]))
        (dropBits (testSpec w .leaky (lit 1 1) Flt.zero) fun q => w.unif (w.unifPos + q))) ∧
    (wp (testSoftmaxLayer lit) w fun t w' => LayerTestOk w w' t (testSpec w .softmax Flt.zero Flt.zero) 1 (entry [ints [1, -1, 2]]) (entry (gradRow lit))
      (trainOut (testSpec w .softmax Flt.zero Flt.zero) (fun q => w.unif (w.unifPos + q)) (entry [ints [1, -1, 2]]))
      (dropBits (testSpec w .softmax Flt.zero Flt.zero) fun q => w.unif (w.unifPos + q))) ∧
    (Flt.lt Flt.one (lit 1 1) = false → Flt.lt (lit 1 1) Flt.zero = false →
      wp (testDropoutLayer lit) w fun t w' => LayerTestOk w w' t (testSpec w .dropout Flt.zero (lit 1 1)) 1 (entry [ints [1, -1, 2]]) (entry (gradRow lit))
        (trainOut (testSpec w .dropout Flt.zero (lit 1 1)) (fun q => w.unif (w.unifPos + q)) (entry [ints [1, -1, 2]]))
        (dropBits (testSpec w .dropout Flt.zero (lit 1 1)) fun q => w.unif (w.unifPos + q))) := by
  refine ⟨?_, ?_, fun h => ?_, ?_, fun h1 h2 => ?_⟩
  · exact testLayer_spec (by simp) (by simp [BadLayer]) (by simp) rfl (by simp [ints]) (by simp [ints])
  · exact testLayer_spec (by simp) (by simp [BadLayer]) (by simp) rfl (by simp [ints]) (by simp [gradRow])
  · exact testLayer_spec (by simp) (by simp [BadLayer, h]) (by simp) rfl (by simp [ints]) (by simp [gradRow])
  · exact testLayer_spec (by simp) (by simp [BadLayer]) (by simp) rfl (by simp [ints]) (by simp [gradRow])
  · exact testLayer_spec (by simp) (by simp [BadLayer, h1, h2]) (by simp) rfl (by simp [ints]) (by simp [gradRow])

end

/-- 0.1 as float64 is accepted as slope and as dropout rate. -/
theorem C116_tenth [Libm] : Flt.lt (flit 1 1) (Flt.zero : F64) = false ∧ Flt.lt (Flt.one : F64) (flit 1 1) = false := by
  constructor
  · exact near_not_lt (near_flit (by norm_num [abs_of_pos])) (near_int 0 (by norm_num)) (by norm_num)
  · exact near_not_lt (near_int 1 (by norm_num)) (near_flit (by norm_num [abs_of_pos])) (by norm_num)

/-- With float64 both conditional tests pass. -/
example [Libm] : (∃ t w', testLeakyLayer flit emptyWorld = .ok (t, w') ∧ t.fails = []) ∧ ∃ t w', testDropoutLayer flit emptyWorld = .ok (t, w') ∧ t.fails = [] := by
  have h := C116_layer_tests emptyWorld flit
  obtain ⟨t, w1, e1, o1⟩ := wp_iff.1 (h.2.2.1 C116_tenth.1)
  obtain ⟨s, w2, e2, o2⟩ := wp_iff.1 (h.2.2.2.2 C116_tenth.2 C116_tenth.1)
  exact ⟨⟨t, w1, e1, o1.fails⟩, s, w2, e2, o2.fails⟩

section
variable {α : Type} [Flt α]

/-- C116: TestSoftmaxCrossEntropyLayer reports no error for every number type and whatever the random numbers.  The loss printed is the cross-entropy
of the softmax outputs with the one-hot target; the gradients are those of the fused rule on the (clipped) outputs. -/
theorem C116_softmax_ce_test (w : World α) :
    wp testSoftmaxCrossEntropyLayer w fun p w' => ∀ (L : LayerSpec α) (X Y P C : Nat → Nat → α), L = testSpec w .softmax Flt.zero Flt.zero →
      X = entry [ints [1, -1, 2]] → Y = entry [ints [0, 0, 0, 1, 0]] → P = infer L X → C = (fun i j => clipped (P i j)) →
      p.1.fails = [] ∧ p.2 = lossOf .ce 1 5 P Y ∧ IsMat w' p.1.out 1 5 C ∧ IsMat w' p.1.x 1 3 X ∧
      IsMat w' p.1.grads.dWeights 3 5 (gradW 1 X (fusedGrad 1 C Y)) ∧ IsMat w' p.1.grads.dBiases 1 5 (gradB 1 (fusedGrad 1 C Y)) ∧
      IsMat w' p.1.grads.dInputs 1 3 (gradX L (fusedGrad 1 C Y)) ∧ Frame { norm := True } w w' := by
  unfold testSoftmaxCrossEntropyLayer
  refine freshLayer_spec (n := 3) (o := 5) (by simp [BadLayer]) ?_
  intro lp wm bm w1 hL hown f1 hfr hpar
  change IsLayer w1 lp wm bm (testSpec w .softmax Flt.zero Flt.zero) at hL
  refine wp_bind_mono (matLit_spec 3 (by simp) (by omega) (by simp [ints])) ?_
  rintro ⟨x, e⟩ w2 ⟨he, h2⟩
  obtain rfl : e = none := he
  dsimp only at h2 ⊢
  refine wp_bind_mono (matLit_spec 5 (by simp) (by omega) (by simp [ints])) ?_
  rintro ⟨y, e⟩ w3 ⟨he, h3⟩
  obtain rfl : e = none := he
  dsimp only at h3 ⊢
  have a23 := h2.frame.trans h3.frame
  have hL3 : IsLayer w3 lp wm bm (testSpec w .softmax Flt.zero Flt.zero) :=
    hL.frame_static a23 (Static.of_frame a23 (fun _ _ h => h) _ hL.lt) (fun h => h) (fun h => h) (fun _ _ h => h)
  refine wp_bind_mono (layerForward_tape hL3 (r := 1) (X := entry [ints [1, -1, 2]]) (h2.mat.allocs h3.frame)) ?_
  rintro ⟨out, e⟩ w4 ⟨he, ho4, f4, hL4, -⟩
  obtain rfl : e = none := he
  dsimp only at ho4 ⊢
  have hout : trainOut (testSpec w .softmax Flt.zero Flt.zero) (fun q => w3.unif (w3.unifPos + q)) (entry [ints [1, -1, 2]]) =
      infer (testSpec w .softmax Flt.zero Flt.zero) (entry [ints [1, -1, 2]]) := by
    funext i j
    exact if_neg (by simp [testSpec, newSpec])
  rw [hout] at ho4
  have hX4 : IsMat w4 x 1 3 (entry [ints [1, -1, 2]]) := (h2.mat.allocs h3.frame).frame f4 (fun h => h) (fun _ _ h => h)
  have hY4 : IsMat w4 y 1 5 (entry [ints [0, 0, 0, 1, 0]]) := h3.mat.frame f4 (fun h => h) (fun _ _ h => h)
  have old : ∀ (m : Mat) (r : Nat), (∀ a, w4.IsRow m r a → a < w3.next) → ∀ a, w4.IsRow m r a → ¬ w4.IsRow out 1 a := by
    intro m r hm a ha hb
    have := ho4.fresh a hb
    have := hm a ha
    omega
  have oldY := old y 1 fun a ha => h3.mat.isRow_lt ((h3.mat.isRow_frame f4 (fun h => h) a).1 ha)
  have oldX := old x 1 fun a ha => (h2.mat.allocs h3.frame).isRow_lt (((h2.mat.allocs h3.frame).isRow_frame f4 (fun h => h) a).1 ha)
  have oldW := old wm 3 fun a ha => hL3.wmat.isRow_lt ((hL3.wmat.isRow_frame f4 (fun h => h) a).1 ha)
  have oldB := old bm 1 fun a ha => hL3.bmat.isRow_lt ((hL3.bmat.isRow_frame f4 (fun h => h) a).1 ha)
  refine wp_bind_mono (lossForward_spec ⟨.ce, 5⟩ rfl ho4.mat ho4.distinct hY4 oldY) ?_
  rintro ⟨j, e⟩ w5 ⟨hj, f5, m5⟩
  obtain ⟨rfl, rfl⟩ := Prod.mk.inj hj
  dsimp only at m5 ⊢
  have hL5 : IsLayer w5 lp wm bm (testSpec w .softmax Flt.zero Flt.zero) :=
    hL4.frame_static f5 (Static.of_frame f5 (fun _ _ h => h) _ hL4.lt) (fun h => h) (fun h => h) fun a ha => ha.elim (oldW a) (oldB a)
  refine wp_bind_mono (softmaxBackwardCE_spec hL5 (hX4.frame f5 (fun h => h) oldX) (hY4.frame f5 (fun h => h) oldY) m5) ?_
  rintro g w6 ⟨hg, f6⟩
  rw [hg.err]
  refine wp_pure.2 ?_
  rintro L X Y P C rfl rfl rfl rfl rfl
  refine ⟨rfl, rfl, m5.allocs f6, (hX4.frame f5 (fun h => h) oldX).allocs f6, hg.dw.mat, hg.db.mat, hg.dx.mat, ?_⟩
  have g3 : Frame { norm := True } w w3 := by frames f1 a23
  have g4 : Frame { norm := True } w w4 := by
    frames g3 f4
    · intro a ha hb
      have : a = lp := hb
      omega
    · intro h; cases h
  have g5 : Frame { norm := True } w w5 := by
    frames g4 f5
    intro a ha hb
    have := ho4.fresh a hb
    have := g3.next_le
    omega
  frames g5 f6

/-- Non-trivial: the targets of that test have a 1 in column 3 and are 0 elsewhere, so the fused rule subtracts 1 in exactly one place. -/
example : entry [ints (α := α) [0, 0, 0, 1, 0]] 0 3 = Flt.one ∧ entry [ints (α := α) [0, 0, 0, 1, 0]] 0 2 = Flt.zero := ⟨rfl, rfl⟩

/-! ### C117 -/

/-- C117: for every number type the four tests of loss_test.go report no error; the loss and the gradient that they print are those of the
formulas on the numbers in the test (both cross-entropies clip the predictions first); nothing that existed before changes. -/
theorem C117_loss_tests (w : World α) (lit : Int → Nat → α) :
    (wp (testMSELoss lit) w fun t w' => ∀ P Y, P = entry [[lit 11 1, lit 19 1, lit 32 1, lit 401 2, lit 497 2]] → Y = entry [ints [1, 2, 3, 4, 5]] →
      t.1 = [] ∧ t.2.1 = lossOf .mse 1 5 P Y ∧ IsMat w' t.2.2.2.2 1 5 (lossGrad .mse 1 5 P Y) ∧ OnlyAllocs w w') ∧
    (wp (testAbsLoss lit) w fun t w' => ∀ P Y, P = entry [[lit 11 1, lit 19 1, lit 32 1, lit 401 2, lit 497 2]] → Y = entry [ints [1, 2, 3, 4, 5]] →
      t.1 = [] ∧ t.2.1 = lossOf .mae 1 5 P Y ∧ IsMat w' t.2.2.2.2 1 5 (lossGrad .mae 1 5 P Y) ∧ OnlyAllocs w w') ∧
    (wp (testCrossEntropyLoss lit) w fun t w' => ∀ P Y,
      P = entry [[lit 3 2, lit 3 2, lit 2 2, lit 2 2, lit 9 1], [lit 2 2, lit 8 1, lit 8 2, lit 5 1, lit 5 1]] →
      Y = entry [ints [0, 0, 0, 0, 1], ints [0, 1, 0, 0, 0]] →
      t.1 = [] ∧ t.2.1 = lossOf .ce 2 5 P Y ∧ IsMat w' t.2.2.2.2 2 5 (lossGrad .ce 2 5 (fun i j => clipped (P i j)) Y) ∧ OnlyAllocs w w') ∧
    (wp (testBinaryCrossEntropyLoss lit) w fun t w' => ∀ P Y, P = entry [[lit 9 1, lit 12 2], [lit 3 1, lit 35 2]] → Y = entry [ints [0, 1], ints [1, 1]] →
      t.1 = [] ∧ t.2.1 = lossOf .bce 2 2 P Y ∧ IsMat w' t.2.2.2.2 2 2 (lossGrad .bce 2 2 (fun i j => clipped (P i j)) Y) ∧ OnlyAllocs w w') := by
  refine ⟨?_, ?_, ?_, ?_⟩
  · refine wp_mono (testLoss_spec .mse (c := 5) (by omega) (by simp) rfl (by simp) (by simp [ints])) ?_
    rintro t w' h P Y rfl rfl
    exact h
  · refine wp_mono (testLoss_spec .mae (c := 5) (by omega) (by simp) rfl (by simp) (by simp [ints])) ?_
    rintro t w' h P Y rfl rfl
    exact h
  · refine wp_mono (testLoss_spec .ce (c := 5) (by omega) (by simp) rfl (by simp) (by simp [ints])) ?_
    rintro t w' h P Y rfl rfl
    exact h
  · refine wp_mono (testLoss_spec .bce (c := 2) (by omega) (by simp) rfl (by simp) (by simp [ints])) ?_
    rintro t w' h P Y rfl rfl
    exact h

/-- The target of the second sample of the cross-entropy test is class 1. -/
example : entry [ints (α := α) [0, 0, 0, 0, 1], ints [0, 1, 0, 0, 0]] 1 1 = Flt.one := rfl

/-- C117: TestLayerData reports no error; the loaded layer has the type, sizes, weights and biases of the one saved. -/
theorem C117_layer_data_test [FltBits α] [FltInt α] (w : World α) :
    wp testLayerData w fun t w' => t.1 = [] ∧ ∃ wm bm wm' bm' L', IsLayer w' t.2.1 wm bm (testSpec w .hidden Flt.zero Flt.zero) ∧
      IsLayer w' t.2.2 wm' bm' L' ∧ SameLayer (testSpec w .hidden Flt.zero Flt.zero) L' ∧ t.2.2 ≠ t.2.1 ∧ Frame { norm := True } w w' := by
  unfold testLayerData
  refine freshLayer_spec (n := 3) (o := 5) (by simp [BadLayer]) ?_
  intro lp wm bm w1 hL hown f1 hfr hpar
  change IsLayer w1 lp wm bm (testSpec w .hidden Flt.zero Flt.zero) at hL
  obtain ⟨d, bytes, e1, e2, e3⟩ := C58_layer_roundtrip w1 lp wm bm _ hL ⟨(by decide : 0 < 3), (by decide : 0 < 5), (by decide : 3 < 2 ^ 31), (by decide : 5 < 2 ^ 31),
    fun _ => rfl, fun _ => rfl⟩
  refine wp_bind_ok e1 (wp_bind_ok (e2 []) ?_)
  dsimp only
  have e4 := e3 w1 []
  rw [List.append_nil] at e4
  rw [List.nil_append]
  refine wp_bind_mono e4 ?_
  rintro ⟨r, rest⟩ w2 ⟨lq, wm', bm', L', hx, hn, hs⟩
  obtain ⟨rfl, -⟩ := Prod.mk.inj hx
  dsimp only
  refine wp_bind_ok rfl ?_
  have hk : (w2.lay lq).kind = .hidden := hn.layer.kind.trans hs.kind
  rw [if_neg (by simp [hk])]
  refine wp_pure.2 ⟨rfl, wm, bm, wm', bm', L', ?_, hn.layer, hs, ?_, ?_⟩
  · exact hL.frame_static hn.allocs (Static.of_frame hn.allocs (fun _ _ h => h) _ hL.lt) (fun h => h) (fun h => h) (fun _ _ h => h)
  · have h1 := hn.fresh
    have h2 := hL.lt
    show lq ≠ lp
    omega
  · have := hn.allocs
    frames f1 this

end

/-- With float64, from a concrete state. -/
example [Libm] : ∃ t w', testLayerData (emptyWorld : World F64) = .ok (t, w') ∧ t.1 = [] := by
  obtain ⟨t, w', h, h1, -⟩ := wp_iff.1 (C117_layer_data_test (emptyWorld : World F64))
  exact ⟨t, w', h, h1⟩

section
variable {α : Type} [Flt α]

/-! ### C118 -/

/-- C118: TestAbsLoss passes although the gradient that it prints is 0 in every place: `1 / size` is a division of whole numbers. -/
theorem C118_abs_gradient (w : World α) (lit : Int → Nat → α) :
    wp (testAbsLoss lit) w fun t w' => t.1 = [] ∧ IsMat w' t.2.2.2.2 1 5 (fun _ _ => Flt.zero) := by
  refine wp_mono (C117_loss_tests w lit).2.1 ?_
  intro t w' h
  obtain ⟨h1, -, h3, -⟩ := h _ _ rfl rfl
  refine ⟨h1, h3.congr ?_⟩
  intro i j _ _
  dsimp only [lossGrad]
  split
  · rfl
  · split <;> rfl

/-- The first prediction of that test differs from its target, so its gradient should not be 0. -/
example [Libm] : Flt.lt Flt.zero (flit 11 1 -. Flt.ofInt 1) = true :=
  near_lt (near_int 0 (by norm_num)) (near_sub (near_flit (by norm_num [abs_of_pos])) (near_int 1 (by norm_num)) (by norm_num [abs_of_pos]) (by norm_num)) (by norm_num)

/-- C118: TestSigmoidLayer reports no error for every number type and whatever the random numbers, although the layer is 3 × 5 and Backward returns a
3 × 3 matrix as the gradient of the weights, a 1 × 3 matrix as the gradient of the biases and the empty matrix as the gradient of the inputs, and has
overwritten the input x. -/
theorem C118_sigmoid_test (w : World α) (lit : Int → Nat → α) :
    wp (testSigmoidLayer lit) w fun t w' => t.fails = [] ∧
      IsMat w' t.out 1 5 (infer (testSpec w .sigmoid Flt.zero Flt.zero) (entry [ints [1, 2, 3]])) ∧
      (∃ A, IsMat w' t.grads.dWeights 3 3 A) ∧ (∃ A, IsMat w' t.grads.dBiases 1 3 A) ∧ t.grads.dInputs = Mat.zero ∧
      IsMat w' t.x 1 3 (fun i j => let s := Flt.one /. (Flt.one +. Flt.exp (Flt.neg (entry [ints [1, 2, 3]] i j)))
        entry (gradRow lit) i j *. s *. (Flt.one -. s)) := by
  unfold testSigmoidLayer testLayer
  refine freshLayer_spec (n := 3) (o := 5) (by simp [BadLayer]) ?_
  intro lp wm bm w1 hL hown f1 hfr hpar
  change IsLayer w1 lp wm bm (testSpec w .sigmoid Flt.zero Flt.zero) at hL
  refine wp_bind_mono (matLit_spec 3 (by simp) (by omega) (by simp [ints])) ?_
  rintro ⟨x, e⟩ w2 ⟨he, h2⟩
  obtain rfl : e = none := he
  dsimp only at h2 ⊢
  have hL2 : IsLayer w2 lp wm bm (testSpec w .sigmoid Flt.zero Flt.zero) :=
    hL.frame_static h2.frame (Static.of_frame h2.frame (fun _ _ h => h) _ hL.lt) (fun h => h) (fun h => h) (fun _ _ h => h)
  refine wp_bind_mono (layerForward_tape hL2 (r := 1) (X := entry [ints [1, 2, 3]]) h2.mat) ?_
  rintro ⟨out, e⟩ w3 ⟨he, ho3, f3, hL3, -⟩
  obtain rfl : e = none := he
  dsimp only at ho3 ⊢
  have hout : trainOut (testSpec w .sigmoid Flt.zero Flt.zero) (fun q => w2.unif (w2.unifPos + q)) (entry [ints [1, 2, 3]]) =
      infer (testSpec w .sigmoid Flt.zero Flt.zero) (entry [ints [1, 2, 3]]) := by
    funext i j
    exact if_neg (by simp [testSpec, newSpec])
  rw [hout] at ho3
  refine wp_bind_mono (matLit_spec (rows := gradRow lit) 5 (by simp [gradRow]) (by omega) (by simp [gradRow])) ?_
  rintro ⟨d, e⟩ w4 ⟨-, h4⟩
  dsimp only at h4 ⊢
  have hL4 : IsLayer w4 lp wm bm (testSpec w .sigmoid Flt.zero Flt.zero) :=
    hL3.frame_static h4.frame (Static.of_frame h4.frame (fun _ _ h => h) _ hL3.lt) (fun h => h) (fun h => h) (fun _ _ h => h)
  have hX3 : IsMat w3 x 1 3 (entry [ints [1, 2, 3]]) := h2.mat.frame f3 (fun h => h) (fun _ _ h => h)
  have hX4 : IsMat w4 x 1 3 (entry [ints [1, 2, 3]]) := hX3.allocs h4.frame
  have d3 : DistinctRows w3 x 1 := h2.distinct.frame f3 h2.mat.addr_lt (fun h => h)
  have ir : ∀ a, w4.IsRow x 1 a → w2.IsRow x 1 a := fun a ha =>
    (h2.mat.isRow_frame f3 (fun h => h) a).1 ((hX3.isRow_frame h4.frame (fun h => h) a).1 ha)
  have eb : layerBackward lp x d w4 = sigmoidBackward lp x d w4 := by
    unfold layerBackward
    refine (bind_ok (show layGet lp w4 = .ok (w4.lay lp, w4) from rfl)).trans ?_
    have : (w4.lay lp).kind = .sigmoid := hL4.kind
    simp only [this]
  have s1 : ∀ a, w4.IsRow d 1 a → ¬ w4.IsRow x 1 a := by
    intro a ha hx
    have := h4.fresh a ha
    have := h2.mat.isRow_lt (ir a hx)
    have := f3.next_le
    omega
  have s2 : ∀ a, w4.IsRow wm 3 a → ¬ w4.IsRow x 1 a := by
    intro a ha hx
    have h5 := h2.fresh a (ir a hx)
    have h6 : w2.IsRow wm 3 a := (hL2.wmat.isRow_frame f3 (fun h => h) a).1 ((hL3.wmat.isRow_frame h4.frame (fun h => h) a).1 ha)
    have := hL.wmat.isRow_lt ((hL.wmat.isRow_frame h2.frame (fun h => h) a).1 h6)
    omega
  have hb := sigmoidBackward_spec hL4 hX4 (D := entry (gradRow lit)) h4.mat (by decide : 3 ≤ 5) (d3.frame h4.frame hX3.addr_lt (fun h => h)) s1 s2
  obtain ⟨g, w5, e5, ge, gx, gw, gb, gi, -, f5⟩ := wp_iff.1 hb
  refine wp_bind_ok (eb.trans e5) ?_
  rw [ge]
  refine wp_pure.2 ⟨rfl, ?_, ⟨_, gw⟩, ⟨_, gb⟩, gi (by decide : 3 ≠ 5), gx⟩
  refine (ho3.mat.allocs h4.frame).frame f5 (fun h => h) ?_
  intro a ha hx
  have := ho3.fresh a ((ho3.mat.isRow_frame h4.frame (fun h => h) a).1 ha)
  have := h2.mat.isRow_lt (ir a hx)
  omega

end

/-- C118: the shapes of a correct gradient would be 3 × 5 and 1 × 5. -/
example [Libm] (w : World F64) (lit : Int → Nat → F64) :
    wp (testSigmoidLayer lit) w fun t w' => t.fails = [] ∧ ¬ (∃ A, IsMat w' t.grads.dWeights 3 5 A) ∧ ¬ ∃ A, IsMat w' t.grads.dBiases 1 5 A := by
  refine wp_mono (C118_sigmoid_test w lit) ?_
  rintro t w' ⟨h, -, ⟨A, hA⟩, ⟨B, hB⟩, -⟩
  refine ⟨h, ?_, ?_⟩
  · rintro ⟨A', hA'⟩
    have h1 := hA.cols
    have h2 := hA'.cols
    omega
  · rintro ⟨B', hB'⟩
    have h1 := hB.cols
    have h2 := hB'.cols
    omega

/-- C118: TestMatrixScalarOperations passes with float64 although the entry that it compares is 0 and the number that it compares it with is 9: the
constants 1/3 and 10/3 are divisions of whole numbers, and the check is one-sided. -/
theorem C118_scalar_test [Libm] (w : World F64) :
    wp (testMatrixScalarOperations flit) w (fun p w' => p.1 = [] ∧ p.2 = Flt.ofInt 0 ∧ OnlyAllocs w w') ∧
    Flt.pow (Flt.ofInt (10 / 3) : F64) (Flt.ofInt 2) = Flt.ofInt 9 ∧ Flt.eq (Flt.ofInt 0 : F64) (Flt.ofInt 9) = false := by
  refine ⟨testMatrixScalarOperations_run w, ?_, ?_⟩
  · rw [show (10 / 3 : Int) = 3 by norm_num, f64_sq 3 (by norm_num) (by norm_num)]
    rfl
  · rw [f64_eq_int _ _ (by norm_num) (by norm_num)]; rfl

example [Libm] : ∃ w', testMatrixScalarOperations flit (emptyWorld : World F64) = .ok (([], Flt.ofInt 0), w') := by
  obtain ⟨⟨f, x⟩, w', h, h1, h2, -⟩ := wp_iff.1 (C118_scalar_test emptyWorld).1
  dsimp only at h1 h2
  subst h1 h2
  exact ⟨w', h⟩

end NN
