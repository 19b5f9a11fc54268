import Verif.Lemmas.Fma
import Verif.Props.C97_C99
import Verif.Props.C83_C84
/-
C160: inference on processors where the compiler fuses multiplication and addition.  The bounds of C97 and C99 hold for every choice of fused steps,
so they hold for the program as compiled for arm64 and for amd64; builds may differ in their results, by at most twice the bound.
-/

set_option linter.unusedSectionVars false

namespace NN
open Finset F64 Go

variable [Libm]

/-! ## Without fusing it is the program of Verif.Model -/

theorem dotFma_none (m b : Mat) : m.dotFma (fun _ _ _ => false) b = (m.dot b : Go F64 _) := rfl

theorem stepFma_none (lp : Nat) (x : Mat) : forwardStepFma (fun _ _ _ => false) lp x = (forwardStep false lp x : Go F64 _) := by
  funext w
  have hg : (layGet lp : Go F64 _) w = .ok (w.lay lp, w) := rfl
  generalize w.lay lp = l at hg
  obtain ⟨k, a, b, c, d, e, f, g, h, i⟩ := l
  unfold forwardStepFma forwardStep
  rw [bind_ok hg, bind_ok hg]
  cases k with
  | dropout =>
    rw [if_pos ⟨rfl, rfl⟩]
    unfold dropoutForwardNo
    rw [bind_ok hg]
    rfl
  | hidden =>
    rw [if_neg (fun h => LayerKind.noConfusion h.1)]
    unfold layerForward hiddenForward
    rw [bind_ok hg]
    dsimp only
    rw [bind_ok hg]
    rfl
  | linear =>
    rw [if_neg (fun h => LayerKind.noConfusion h.1)]
    unfold layerForward linearForward
    rw [bind_ok hg]
    dsimp only
    rw [bind_ok hg]
    rfl
  | sigmoid =>
    rw [if_neg (fun h => LayerKind.noConfusion h.1)]
    unfold layerForward sigmoidForward
    rw [bind_ok hg]
    dsimp only
    rw [bind_ok hg]
    rfl
  | leaky =>
    rw [if_neg (fun h => LayerKind.noConfusion h.1)]
    unfold layerForward leakyForward
    rw [bind_ok hg]
    dsimp only
    rw [bind_ok hg]
    rfl
  | softmax =>
    rw [if_neg (fun h => LayerKind.noConfusion h.1)]
    unfold layerForward softmaxForward
    rw [bind_ok hg]
    dsimp only
    rw [bind_ok hg]
    rfl

theorem loopFma_none (m : Model F64) (x : Mat) (n : Nat) : forwardLoopFma (fun _ _ _ _ => false) m x n = forwardLoop m false x n := by
  induction n with
  | zero => rfl
  | succ n ih =>
    unfold forwardLoopFma forwardLoop
    rw [ih]
    simp only [stepFma_none]
    rfl

/-- C160: if no step is fused, Forward and Predict are those of Verif.Model, in every state. -/
theorem C160_unfused (m : Model F64) (x : Mat) : modelForwardFma (fun _ _ _ _ => false) m x = modelForward m x false ∧
    predictFma (fun _ _ _ _ => false) m x = predict m x := by
  have h : modelForwardFma (fun _ _ _ _ => false) m x = modelForward m x false := by
    unfold modelForwardFma modelForward
    rw [loopFma_none]
  refine ⟨h, ?_⟩
  unfold predictFma predict
  rw [h]
  rfl

/-! ## Dot -/

/-- C160: the bound of C97 on the error of `Dot` holds whichever steps are fused. -/
theorem C160_dot (fuse : Nat → Nat → Nat → Bool) (w : World F64) (m b : Mat) (r n c : Nat) (A B : Nat → Nat → F64) (hA : IsMat w m r n A)
    (hB : IsMat w b n c B) (fA : ∀ i k, i < r → k < n → (A i k).Finite) (fB : ∀ k j, k < n → j < c → (B k j).Finite)
    (hs : ∀ i j, i < r → j < c →
      (1 + ueps) ^ (n + 1) * ∑ k ∈ range n, |(A i k).val * (B k j).val| + n * (1 + ueps) ^ n * tiny ≤ big) :
    wp (m.dotFma fuse b) w (fun p w' => p.2 = none ∧ ∃ V, NewMat w w' p.1 r c V ∧ ∀ i j, i < r → j < c → (V i j).Finite ∧
      |(V i j).val - ∑ k ∈ range n, (A i k).val * (B k j).val| ≤
        ((1 + ueps) ^ (n + 1) - 1) * ∑ k ∈ range n, |(A i k).val * (B k j).val| + n * (1 + ueps) ^ n * tiny) := by
  refine wp_mono (dotFma_spec fuse hA hB) ?_
  rintro p w' ⟨h1, h2⟩
  refine ⟨h1, _, h2, fun i j hi hj => ?_⟩
  exact dotFma_err (fuse i j) n (fun k => A i k) (fun k => B k j) (fun k hk => fA i k hi hk) (fun k hk => fB k j hk hj) (hs i j hi hj)

/-- C160: where every product of two finite entries is a float64, as with small integers, all builds give the same bits, including infinities, NaN and the
signs of zeros: those of `Dot` without fusing. -/
theorem C160_exact (fuse : Nat → Nat → Nat → Bool) (w : World F64) (m b : Mat) (r n c : Nat) (A B : Nat → Nat → F64) (hA : IsMat w m r n A)
    (hB : IsMat w b n c B) (h : ∀ i k j, i < r → k < n → j < c → (A i k).Finite → (B k j).Finite →
      (F64.mul (A i k) (B k j)).Finite ∧ (F64.mul (A i k) (B k j)).val = (A i k).val * (B k j).val) :
    wp (m.dotFma fuse b) w (fun p w' => p.2 = none ∧ NewMat w w' p.1 r c (fun i j => fsum n fun k => A i k *. B k j)) := by
  refine wp_mono (dotFma_spec fuse hA hB) ?_
  rintro p w' ⟨h1, h2⟩
  refine ⟨h1, h2.congr fun i j hi hj => ?_⟩
  exact sumFma_exact (fuse i j) n (fun k => A i k) (fun k => B k j) fun k hk => h i k j hi hk hj

/-- Matrices of small integers, with an infinite entry. -/
example : ∃ w : World F64, ∃ m b : Mat, ∃ A B : Nat → Nat → F64, IsMat w m 2 3 A ∧ IsMat w b 3 2 B ∧ A 0 0 = F64.inf false ∧ A 1 2 = Flt.ofInt 3 ∧
    ∀ i k j, i < 2 → k < 3 → j < 2 → (A i k).Finite → (B k j).Finite →
      (F64.mul (A i k) (B k j)).Finite ∧ (F64.mul (A i k) (B k j)).val = (A i k).val * (B k j).val := by
  let A : Nat → Nat → F64 := fun i k => if i = 0 ∧ k = 0 then F64.inf false else Flt.ofInt ((i + k : ℕ) : ℤ)
  let B : Nat → Nat → F64 := fun k j => Flt.ofInt ((k + j : ℕ) : ℤ)
  obtain ⟨w, m, b, hA, -, hB, -⟩ := exists_mat2 (r := 2) (c := 3) (r' := 3) (c' := 2) (by decide) (by decide) (by decide) (by decide) A B
  refine ⟨w, m, b, A, B, hA, hB, if_pos ⟨rfl, rfl⟩, if_neg (by decide), fun i k j hi hk hj fA _ => ?_⟩
  by_cases h : i = 0 ∧ k = 0
  · have e : A i k = F64.inf false := if_pos h
    rw [e] at fA
    have := (not_special fA).2
    rw [(inf_is false).1] at this
    cases this
  · have e : A i k = Flt.ofInt ((i + k : ℕ) : ℤ) := if_neg h
    have e' : B k j = Flt.ofInt ((k + j : ℕ) : ℤ) := rfl
    have hle : (i + k) * (k + j) ≤ 16 := by
      calc (i + k) * (k + j) ≤ 4 * 4 := Nat.mul_le_mul (by omega) (by omega)
        _ = 16 := rfl
    have hm := f64_mul ((i + k : ℕ) : ℤ) ((k + j : ℕ) : ℤ) (by omega) (by omega) (.inr (by omega))
    have hm' : F64.mul (A i k) (B k j) = Flt.ofInt (((i + k : ℕ) : ℤ) * ((k + j : ℕ) : ℤ)) := by rw [e, e']; exact hm
    have hb : |(((i + k : ℕ) : ℤ) * ((k + j : ℕ) : ℤ))| ≤ 2 ^ 53 := by
      rw [← Nat.cast_mul, abs_of_nonneg (by positivity)]
      have : (((i + k) * (k + j) : ℕ) : ℤ) ≤ 16 := by exact_mod_cast hle
      linarith
    obtain ⟨p1, p2⟩ := ofInt_f64 _ hb
    obtain ⟨a1, -⟩ := ofInt_f64 ((i + k : ℕ) : ℤ) (by rw [abs_of_nonneg (by positivity)]; omega)
    obtain ⟨b1, -⟩ := ofInt_f64 ((k + j : ℕ) : ℤ) (by rw [abs_of_nonneg (by positivity)]; omega)
    rw [hm', e, e', p1, a1, b1]
    exact ⟨p2, by push_cast; ring⟩

/-! ## Forward and Predict -/

theorem layerFma_near (fuse : Nat → Nat → Nat → Bool) (L : LayerSpec F64) (hL : L.Finite) (x : Nat → Nat → F64) (X E : Nat → Nat → ℝ) (i : Nat)
    (hx : ∀ k, k < L.n → Near (x i k) (X i k) (E i k)) (hs : LayerSafe L.real X E i) (j : Nat) (hj : j < L.o) :
    Near (inferFma fuse L x i j) (infer L.real X i j) (layerErr L.real X E i j) := by
  refine act_near L.kind L.slope hL.slope L.o (preactFma fuse L x i) (preact L.real X i) (preErr L.real (X i) (E i)) ?_ hs.2 j hj
  intro j hj
  rw [preact_real]
  exact preact_err_of L hL (x i) (X i) (E i) hx hs.1 j hj _ fun h =>
    dotFma_err (fuse i j) L.n (x i) (fun k => L.W k j) (fun k hk => (hx k hk).1) (fun k hk => hL.W k j hk hj) h

theorem netFma_near (fuse : Nat → Nat → Nat → Nat → Bool) {net : Net F64} {n : Nat} (hn : n ≤ net.size)
    (hins : ∀ k, k < net.size → (net.L k).n = net.dim k) (houts : ∀ k, k < net.size → (net.L k).o = net.dim (k + 1))
    (fL : ∀ k, k < net.size → (net.L k).Finite) (r : Nat) (A : Nat → Nat → F64) (X E : Nat → Nat → ℝ)
    (hX : ∀ i k, i < r → k < net.dim 0 → Near (A i k) (X i k) (E i k)) (hs : NetSafe net r X E) (i j : Nat) (hi : i < r)
    (hj : j < net.dim n) : Near (netOutFma fuse net A n i j) (netOut net.real X n i j) (netErr net.real X E n i j) := by
  induction n generalizing j with
  | zero => exact hX i j hi hj
  | succ n ih =>
    refine layerFma_near (fuse n) (net.L n) (fL n (by omega)) (netOutFma fuse net A n) (netOut net.real X n) (netErr net.real X E n) i ?_
      (hs n i (by omega) hi) j ?_
    · intro k hk
      exact ih (by omega) k (by rwa [← hins n (by omega)])
    · rwa [houts n (by omega)]

/-- C160: the bound of C99 on the error of `Forward` holds whichever steps are fused, in any layer. -/
theorem C160_network (fuse : Nat → Nat → Nat → Nat → Bool) (w : World F64) (m : Model F64) (net : Net F64) (hN : IsNet w m net) (h0 : 0 < net.size)
    (x : Mat) (r : Nat) (A : Nat → Nat → F64) (hA : IsMat w x r (net.dim 0) A) (fL : ∀ k, k < net.size → (net.L k).Finite) (X E : Nat → Nat → ℝ)
    (hX : ∀ i k, i < r → k < net.dim 0 → Near (A i k) (X i k) (E i k)) (hs : NetSafe net r X E) :
    wp (modelForwardFma fuse m x) w (fun p w' => p.2 = none ∧ ∃ out V, p.1[net.size]? = some out ∧ Fresh w w' out r (net.dim net.size) V ∧
      ∀ i j, i < r → j < net.dim net.size →
        (V i j).Finite ∧ |(V i j).val - netOut net.real X net.size i j| ≤ netErr net.real X E net.size i j) := by
  refine wp_mono (modelFma_spec fuse hN h0 hA) ?_
  rintro p w' ⟨h1, out, h2, h3⟩
  exact ⟨h1, out, _, h2, h3.res, fun i j hi hj => netFma_near fuse le_rfl hN.ins hN.outs fL r A X E hX hs i j hi hj⟩

/-- C160: two builds of the program, started in the same state, give outputs that differ by at most twice the bound. -/
theorem C160_builds (f g : Nat → Nat → Nat → Nat → Bool) (w : World F64) (m : Model F64) (net : Net F64) (hN : IsNet w m net) (h0 : 0 < net.size)
    (x : Mat) (r : Nat) (A : Nat → Nat → F64) (hA : IsMat w x r (net.dim 0) A) (fL : ∀ k, k < net.size → (net.L k).Finite) (X E : Nat → Nat → ℝ)
    (hX : ∀ i k, i < r → k < net.dim 0 → Near (A i k) (X i k) (E i k)) (hs : NetSafe net r X E) :
    ∃ U V : Nat → Nat → F64,
      wp (modelForwardFma f m x) w (fun p w' => p.2 = none ∧ ∃ out, p.1[net.size]? = some out ∧ Fresh w w' out r (net.dim net.size) U) ∧
      wp (modelForwardFma g m x) w (fun p w' => p.2 = none ∧ ∃ out, p.1[net.size]? = some out ∧ Fresh w w' out r (net.dim net.size) V) ∧
      ∀ i j, i < r → j < net.dim net.size → (U i j).Finite ∧ (V i j).Finite ∧ |(U i j).val - (V i j).val| ≤ 2 * netErr net.real X E net.size i j := by
  refine ⟨netOutFma f net A net.size, netOutFma g net A net.size, ?_, ?_, fun i j hi hj => ?_⟩
  · refine wp_mono (modelFma_spec f hN h0 hA) ?_
    rintro p w' ⟨h1, out, h2, h3⟩
    exact ⟨h1, out, h2, h3.res⟩
  · refine wp_mono (modelFma_spec g hN h0 hA) ?_
    rintro p w' ⟨h1, out, h2, h3⟩
    exact ⟨h1, out, h2, h3.res⟩
  · obtain ⟨a1, a2⟩ := netFma_near f le_rfl hN.ins hN.outs fL r A X E hX hs i j hi hj
    obtain ⟨b1, b2⟩ := netFma_near g le_rfl hN.ins hN.outs fL r A X E hX hs i j hi hj
    refine ⟨a1, b1, ?_⟩
    rw [abs_le] at a2 b2 ⊢
    constructor <;> linarith [a2.1, a2.2, b2.1, b2.2]

/-- C160: every build returns the class that exact arithmetic gives, wherever the exact output of that class is larger than the others by more than the
two errors, and larger than its own error. -/
theorem C160_classify (fuse : Nat → Nat → Nat → Nat → Bool) (w : World F64) (m : Model F64) (net : Net F64) (hN : IsNet w m net)
    (h0 : 0 < net.size) (x : Mat) (r : Nat) (A : Nat → Nat → F64) (hA : IsMat w x r (net.dim 0) A) (fL : ∀ k, k < net.size → (net.L k).Finite)
    (X E : Nat → Nat → ℝ) (hX : ∀ i k, i < r → k < net.dim 0 → Near (A i k) (X i k) (E i k)) (hs : NetSafe net r X E) (hacc : m.accType = 1)
    (cls : Nat → Nat) (hcls : ∀ i, i < r → cls i < net.dim net.size ∧
      netErr net.real X E net.size i (cls i) < netOut net.real X net.size i (cls i) ∧
      ∀ j, j < net.dim net.size → j ≠ cls i → netOut net.real X net.size i j + netErr net.real X E net.size i j +
        netErr net.real X E net.size i (cls i) < netOut net.real X net.size i (cls i)) :
    wp (predictFma fuse m x) w (fun p w' => p.2 = none ∧ Fresh w w' p.1 r 1 (fun i _ => Flt.ofInt (cls i))) := by
  refine wp_mono (predictFma_spec fuse hN h0 hA) ?_
  rintro p w' h1
  obtain ⟨h2, h3⟩ := h1 (.inr (.inl hacc))
  rw [if_pos hacc] at h3
  refine ⟨h2, h3.congr fun i j hi hj => ?_⟩
  have hn : ∀ j, j < net.dim net.size → Near (netOutFma fuse net A net.size i j) (netOut net.real X net.size i j) (netErr net.real X E net.size i j) :=
    fun j hj => netFma_near fuse le_rfl hN.ins hN.outs fL r A X E hX hs i j hi hj
  obtain ⟨c1, c2, c3⟩ := hcls i hi
  have hc := (abs_le.1 (hn _ c1).2).1
  have e : (scanMax (net.dim net.size) (netOutFma fuse net A net.size i)).1 = cls i := by
    refine scanMax_val c1 (fun j hj => (hn j hj).1) (by linarith) ?_
    intro j hj hne
    have := (abs_le.1 (hn j hj).2).2
    have := c3 j hj hne
    linarith
  simp [decoded, hacc, e]

/-- C160: the same for yes/no outputs. -/
theorem C160_binary (fuse : Nat → Nat → Nat → Nat → Bool) (w : World F64) (m : Model F64) (net : Net F64) (hN : IsNet w m net) (h0 : 0 < net.size)
    (x : Mat) (r : Nat) (A : Nat → Nat → F64) (hA : IsMat w x r (net.dim 0) A) (fL : ∀ k, k < net.size → (net.L k).Finite) (X E : Nat → Nat → ℝ)
    (hX : ∀ i k, i < r → k < net.dim 0 → Near (A i k) (X i k) (E i k)) (hs : NetSafe net r X E) (hacc : m.accType = 2) :
    wp (predictFma fuse m x) w (fun p w' => p.2 = none ∧ ∃ V, Fresh w w' p.1 r (net.dim net.size) V ∧ ∀ i j, i < r → j < net.dim net.size →
      (1 / 2 + netErr net.real X E net.size i j ≤ netOut net.real X net.size i j → V i j = Flt.one) ∧
      (netOut net.real X net.size i j < 1 / 2 - netErr net.real X E net.size i j → V i j = Flt.zero)) := by
  refine wp_mono (predictFma_spec fuse hN h0 hA) ?_
  rintro p w' h1
  obtain ⟨h2, h3⟩ := h1 (.inr (.inr hacc))
  rw [if_neg (by rw [hacc]; decide)] at h3
  refine ⟨h2, _, h3, fun i j hi hj => ?_⟩
  obtain ⟨n1, n2⟩ := netFma_near fuse le_rfl hN.ins hN.outs fL r A X E hX hs i j hi hj
  have hd : decoded m.accType (net.dim net.size) (netOutFma fuse net A net.size) i j =
      if Flt.lt (netOutFma fuse net A net.size i j) Flt.half then Flt.zero else Flt.one := by simp [decoded, hacc]
  have hhalf : (Flt.half : F64).val = 1 / 2 ∧ (Flt.half : F64).Finite := half_f64
  have hlt : (Flt.lt (netOutFma fuse net A net.size i j) Flt.half : Bool) = decide ((netOutFma fuse net A net.size i j).val < 1 / 2) := by
    rw [← hhalf.1]; exact F64.lt_val n1 hhalf.2
  rw [hd, hlt]
  rw [abs_le] at n2
  constructor
  · intro h
    rw [if_neg]
    simp only [decide_eq_true_eq, not_lt]
    linarith [n2.1, n2.2]
  · intro h
    rw [if_pos]
    simp only [decide_eq_true_eq]
    linarith [n2.1, n2.2]

/-- Two layers, a batch of three rows: every build answers class 0. -/
example (m0 : Model F64) : ∃ w : World F64, ∃ m : Model F64, ∃ x, ∀ fuse : Nat → Nat → Nat → Nat → Bool,
    wp (predictFma fuse m x) w (fun p w' => p.2 = none ∧ Fresh w w' p.1 3 1 (fun _ _ => Flt.ofInt 0)) := by
  obtain ⟨w, m, net, x, A, h1, h2, h3, h4, h5, h6, h7, h8, -⟩ := round_case 1 m0
  exact ⟨w, m, x, fun fuse => C160_classify fuse w m net h2 (by omega) x 3 A h4 h5 roundX (fun _ _ => 0) h6 h7 h1 (fun _ => 0) h8⟩

/-! ## The builds do differ -/

theorem mulAdd_false (x y s : F64) : mulAdd false x y s = F64.add s (F64.mul x y) := rfl
theorem mulAdd_true (x y s : F64) : mulAdd true x y s = F64.fma x y s := rfl
theorem sumFma_two (fuse : Nat → Bool) (a b : Nat → F64) :
    sumFma fuse 2 a b = mulAdd (fuse 1) (a 1) (b 1) (mulAdd (fuse 0) (a 0) (b 0) Flt.zero) := rfl

/-- 2^1022. -/
noncomputable def halfTop : F64 := F64.round false (((1 : ℕ) : ℝ) * 2 ^ (1022 : ℤ))

omit [Libm] in
theorem halfTop_val : halfTop.val = 2 ^ (1022 : ℤ) ∧ halfTop.Finite := by
  have h := F64.scaled_exact (n := 1) (e := 1022) (by norm_num) (by norm_num) (by norm_num)
    (by rw [Nat.cast_one, one_mul]; exact zpow_lt_zpow_right₀ (by norm_num) (by norm_num))
  rw [Nat.cast_one, one_mul] at h
  unfold halfTop
  rw [Nat.cast_one, one_mul]
  exact h

omit [Libm] in
theorem halfTop_facts : ∃ T : ℝ, halfTop.val = T ∧ halfTop.Finite ∧ 1 ≤ T ∧ 7 / 2 * T ≤ big ∧ roundBits |T * 4| = infBits := by
  refine ⟨_, halfTop_val.1, halfTop_val.2, one_le_zpow₀ (by norm_num) (by norm_num), ?_, ?_⟩
  · unfold big
    rw [show (1022 : ℤ) = 51 + 971 by norm_num, zpow_add₀ (by norm_num), ← mul_assoc]
    refine mul_le_mul_of_nonneg_right ?_ (by positivity)
    norm_num
  · rw [abs_of_nonneg (by positivity)]
    refine roundBits_big (le_of_eq ?_)
    rw [show (1024 : ℤ) = 1022 + 2 by norm_num, zpow_add₀ (by norm_num)]
    norm_num

/-- C160: there are finite matrices whose product, as computed by `Dot`, has an infinite entry if no step is fused and a finite one if every step is. -/
theorem C160_differ : ∃ w : World F64, ∃ m b : Mat, ∃ A B : Nat → Nat → F64, IsMat w m 1 2 A ∧ IsMat w b 2 1 B ∧
    (∀ k, k < 2 → (A 0 k).Finite ∧ (B k 0).Finite) ∧
    wp (m.dotFma (fun _ _ _ => false) b) w (fun p w' => ∃ V, IsMat w' p.1 1 1 V ∧ V 0 0 = F64.inf false) ∧
    wp (m.dotFma (fun _ _ _ => true) b) w (fun p w' => ∃ V, IsMat w' p.1 1 1 V ∧ (V 0 0).Finite) := by
  let A : Nat → Nat → F64 := fun _ _ => halfTop
  let B : Nat → Nat → F64 := fun k _ => if k = 0 then Flt.ofInt (-1) else Flt.ofInt 4
  obtain ⟨w, m, b, hA, -, hB, -⟩ := exists_mat2 (r := 1) (c := 2) (r' := 2) (c' := 1) (by decide) (by decide) (by decide) (by decide) A B
  obtain ⟨T, t1, t2, hT, hbig, h4⟩ := halfTop_facts
  obtain ⟨m1, m2⟩ := ofInt_f64 (-1) (by norm_num)
  obtain ⟨q1, q2⟩ := ofInt_f64 4 (by norm_num)
  have hu := ueps_pos
  have hu1 := ueps_le
  have ht := tiny_pos
  have hts := tiny_small
  have hT0 : 0 < T := by linarith
  push_cast at m1 q1
  have hu2 : ueps ≤ 1 / 8 := hu1.trans (by norm_num)
  have huT : ueps * T ≤ 1 / 8 * T := mul_le_mul_of_nonneg_right hu2 (by linarith)
  obtain ⟨z1, z2⟩ := zero_f64
  -- what every build has after the first step
  have hp1 : ∀ fused : Bool, (mulAdd fused halfTop (Flt.ofInt (-1)) Flt.zero).Finite ∧
      |(mulAdd fused halfTop (Flt.ofInt (-1)) Flt.zero).val - -T| ≤ 1 / 2 * T := by
    have hT1 : |T * -1| = T := by rw [mul_neg_one, abs_neg, abs_of_nonneg (by linarith)]
    intro fused
    cases fused
    · obtain ⟨p1, p2⟩ := mul_err t2 m2 (by rw [t1, m1, hT1]; linarith)
      rw [t1, m1, hT1] at p2
      have p3 : |(F64.mul halfTop (Flt.ofInt (-1))).val| ≤ 9 / 8 * T + tiny := by
        rw [abs_le] at p2 ⊢
        constructor <;> linarith [p2.1, p2.2]
      obtain ⟨a1, a2⟩ := add_err z2 p1 (by rw [z1, zero_add]; linarith)
      rw [z1, zero_add] at a2
      have p4 := mul_le_mul hu2 p3 (abs_nonneg _) (by norm_num)
      rw [mulAdd_false]
      refine ⟨a1, ?_⟩
      rw [abs_le] at p2 a2 ⊢
      constructor <;> linarith [p2.1, p2.2, a2.1, a2.2]
    · obtain ⟨p1, p2⟩ := fma_err t2 m2 z2 (by rw [t1, m1, z1, add_zero, hT1]; linarith)
      rw [t1, m1, z1, add_zero, hT1] at p2
      rw [mulAdd_true]
      refine ⟨p1, ?_⟩
      rw [abs_le] at p2 ⊢
      constructor <;> linarith [p2.1, p2.2]
  have hs : ∀ fused : Bool, sumFma (fun _ => fused) 2 (fun k => A 0 k) (fun k => B k 0) =
      mulAdd fused halfTop (Flt.ofInt 4) (mulAdd fused halfTop (Flt.ofInt (-1)) Flt.zero) := by
    intro fused
    have e0 : B 0 0 = Flt.ofInt (-1) := if_pos rfl
    have e1 : B 1 0 = Flt.ofInt 4 := if_neg (by decide)
    rw [sumFma_two, e0, e1]
  refine ⟨w, m, b, A, B, hA, hB, fun k hk => ⟨t2, ?_⟩, ?_, ?_⟩
  · show (if k = 0 then Flt.ofInt (-1) else Flt.ofInt 4 : F64).Finite
    split
    exacts [m2, q2]
  · refine wp_mono (dotFma_spec _ hA hB) ?_
    rintro p w' ⟨-, h⟩
    refine ⟨_, h.mat, ?_⟩
    rw [hs]
    obtain ⟨f1, -⟩ := hp1 false
    generalize mulAdd false halfTop (Flt.ofInt (-1)) Flt.zero = s at f1
    have hm : F64.mul halfTop (Flt.ofInt 4) = F64.inf false := by
      rw [mul_fin t2 q2, t1, q1]
      unfold F64.round
      rw [if_neg (by positivity), h4]
      unfold F64.inf
      congr 1
      simp only [decide_eq_false_iff_not, not_lt]
      positivity
    rw [mulAdd_false, hm]
    obtain ⟨i1, i2, i3, i4⟩ := inf_facts
    obtain ⟨s1, s2⟩ := not_special f1
    unfold F64.add
    rw [s1, s2, i1, i2]
    simp
  · refine wp_mono (dotFma_spec _ hA hB) ?_
    rintro p w' ⟨-, h⟩
    refine ⟨_, h.mat, ?_⟩
    rw [hs]
    obtain ⟨f1, d1⟩ := hp1 true
    generalize mulAdd true halfTop (Flt.ofInt (-1)) Flt.zero = s at f1 d1
    rw [mulAdd_true]
    refine (fma_err t2 q2 f1 ?_).1
    rw [t1, q1]
    rw [abs_le] at d1 ⊢
    constructor <;> linarith [d1.1, d1.2]

end NN
