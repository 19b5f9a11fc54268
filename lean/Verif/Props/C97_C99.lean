import Verif.Lemmas.RoundSoftmax
import Verif.Lemmas.Build
import Verif.Spec.PlaceNet
import Verif.Props.C05_C12
import Mathlib.Tactic.IntervalCases
/-
C97 - C99: what float64 arithmetic does to an inference pass.  Bounds, for all sizes and all depths, on the distance between the numbers computed
with IEEE 754 binary64 arithmetic and those that exact arithmetic gives for the same parameters; with them: no overflow, no NaN.
-/

set_option linter.unusedSectionVars false

namespace NN
open Finset F64 Go

/-! ## C97 Dot -/

/-- The entries of a product of finite matrices are finite and differ from the exact product by at most ((1+u)^(n+1) - 1) Σ |a b| + n (1+u)^n η,
with u = 2^-53 and η = 2^-1075, provided that this bound leaves room below the largest float64. -/
theorem C97_dot [Libm] (w : World F64) (m b : Mat) (r n c : Nat) (A B : Nat → Nat → F64) (hA : IsMat w m r n A) (hB : IsMat w b n c B)
    (fA : ∀ i k, i < r → k < n → (A i k).Finite) (fB : ∀ k j, k < n → j < c → (B k j).Finite)
    (hs : ∀ i j, i < r → j < c →
      (1 + ueps) ^ (n + 1) * ∑ k ∈ range n, |(A i k).val * (B k j).val| + n * (1 + ueps) ^ n * tiny ≤ big) :
    wp (m.dot b) w (fun p w' => p.2 = none ∧ ∃ V, NewMat w w' p.1 r c V ∧ ∀ i j, i < r → j < c → (V i j).Finite ∧
      |(V i j).val - ∑ k ∈ range n, (A i k).val * (B k j).val| ≤
        ((1 + ueps) ^ (n + 1) - 1) * ∑ k ∈ range n, |(A i k).val * (B k j).val| + n * (1 + ueps) ^ n * tiny) := by
  refine wp_mono (C07_dot w m b r n c A B hA hB) ?_
  rintro p w' ⟨h1, h2⟩
  refine ⟨h1, _, h2, fun i j hi hj => ?_⟩
  exact dot_err n (fun k => A i k) (fun k => B k j) (fun k hk => fA i k hi hk) (fun k hk => fB k j hk hj) (hs i j hi hj)

/-- The factor in the bound is at most n u / (1 - n u). -/
theorem C97_factor (n : Nat) (h : n * (2 : ℝ) ^ (-53 : ℤ) < 1) :
    (1 + ueps) ^ n - 1 ≤ n * (2 : ℝ) ^ (-53 : ℤ) / (1 - n * (2 : ℝ) ^ (-53 : ℤ)) := gam_le h

theorem tiny_small : tiny ≤ 1 / 1000000 := by
  have := tiny_le_ueps
  have := ueps_le
  norm_num at *
  linarith

theorem gam4 : gam 4 ≤ 1 / 1000000 ∧ gam 8 ≤ 1 / 1000000 ∧ (1 + ueps) ^ 2 ≤ 2 ∧ (1 + ueps) ^ 3 ≤ 2 ∧ (1 + ueps) ^ 4 ≤ 2 := by
  have hu := ueps_pos
  have h1 := ueps_le
  have g : ∀ n : Nat, n ≤ 8 → gam n ≤ 1 / 1000000 := by
    intro n hn
    have hn' : (n : ℝ) ≤ 8 := by exact_mod_cast hn
    have h2 : n * ueps ≤ 1 / 2000000 := by
      calc n * ueps ≤ 8 * (1 / 2 ^ 53) := mul_le_mul hn' h1 hu.le (by norm_num)
        _ ≤ 1 / 2000000 := by norm_num
    refine (gam_le (by linarith)).trans ?_
    rw [div_le_iff₀ (by linarith)]
    linarith
  have e : ∀ n, (1 + ueps) ^ n = 1 + gam n := fun n => by unfold gam; ring
  have := g 2 (by norm_num)
  have := g 3 (by norm_num)
  have := g 4 (by norm_num)
  have := g 8 (by norm_num)
  refine ⟨by linarith, by linarith, ?_, ?_, ?_⟩ <;> rw [e] <;> linarith

theorem big_large : 1000000 ≤ big := by
  refine le_trans ?_ two_pow_le_big
  calc (1000000 : ℝ) ≤ 2 ^ (20 : ℤ) := by norm_num
    _ ≤ 2 ^ (1023 : ℤ) := zpow_le_zpow_right₀ (by norm_num) (by norm_num)

theorem ofInt_f64 [Libm] (n : ℤ) (h : |n| ≤ 2 ^ 53) : (Flt.ofInt n : F64).val = n ∧ (Flt.ofInt n : F64).Finite := by
  obtain ⟨h1, h2⟩ := abs_le.1 h
  exact f64_int h1 h2

/-- two 3 by 3 matrices -/
example [Libm] : ∃ w : World F64, ∃ m b, ∃ A B : Nat → Nat → F64, IsMat w m 3 3 A ∧ IsMat w b 3 3 B ∧
    (∀ i k, i < 3 → k < 3 → (A i k).Finite) ∧ (∀ k j, k < 3 → j < 3 → (B k j).Finite) ∧ (A 2 1).val = 3 ∧
    (∀ i j, i < 3 → j < 3 →
      (1 + ueps) ^ (3 + 1) * ∑ k ∈ range 3, |(A i k).val * (B k j).val| + (3 : Nat) * (1 + ueps) ^ 3 * tiny ≤ big) := by
  let A : Nat → Nat → F64 := fun i k => Flt.ofInt ((i + k : Nat) : ℤ)
  have hA : ∀ i k, i < 3 → k < 3 → (A i k).val = ((i + k : Nat) : ℝ) ∧ (A i k).Finite := by
    intro i k hi hk
    have := ofInt_f64 ((i + k : Nat) : ℤ) (by rw [abs_le]; constructor <;> (push_cast; omega))
    exact ⟨by rw [this.1]; norm_cast, this.2⟩
  obtain ⟨w, m, b, h1, -, h2, -⟩ := exists_mat2 (α := F64) (r := 3) (c := 3) (r' := 3) (c' := 3) (by decide) (by decide) (by decide) (by decide) A A
  refine ⟨w, m, b, A, A, h1, h2, fun i k hi hk => (hA i k hi hk).2, fun i k hi hk => (hA i k hi hk).2, ?_, ?_⟩
  · rw [(hA 2 1 (by norm_num) (by norm_num)).1]; norm_num
  · intro i j hi hj
    have hs : ∑ k ∈ range 3, |(A i k).val * (A k j).val| ≤ 48 := by
      have : ∀ k ∈ range 3, |(A i k).val * (A k j).val| ≤ 16 := by
        intro k hk
        have hk := mem_range.1 hk
        rw [(hA i k hi hk).1, (hA k j hk hj).1, abs_of_nonneg (by positivity)]
        have h1 : ((i + k : Nat) : ℝ) ≤ 4 := by exact_mod_cast (by omega : i + k ≤ 4)
        have h2 : ((k + j : Nat) : ℝ) ≤ 4 := by exact_mod_cast (by omega : k + j ≤ 4)
        calc _ ≤ (4 : ℝ) * 4 := mul_le_mul h1 h2 (by positivity) (by norm_num)
          _ = 16 := by norm_num
      refine (sum_le_card_nsmul _ _ _ this).trans ?_
      norm_num
    obtain ⟨-, -, -, g3, g4⟩ := gam4
    have ht := tiny_small
    have ht0 := tiny_pos
    have hb := big_large
    have h0 : 0 ≤ ∑ k ∈ range 3, |(A i k).val * (A k j).val| := sum_nonneg fun _ _ => abs_nonneg _
    have k1 := mul_le_mul g4 hs h0 (by norm_num)
    have k2 := mul_le_mul g3 ht ht0.le (by norm_num)
    push_cast
    linarith

/-! ## C98 Forward of a layer -/

theorem preact_real (L : LayerSpec ℝ) (X : Nat → Nat → ℝ) (i j : Nat) : preact L X i j = (∑ k ∈ range L.n, X i k * L.W k j) + L.b j := by
  unfold preact
  rw [fsum_real]
  simp

theorem layer_near [Libm] (L : LayerSpec F64) (hL : L.Finite) (x : Nat → Nat → F64) (X E : Nat → Nat → ℝ) (i : Nat)
    (hx : ∀ k, k < L.n → Near (x i k) (X i k) (E i k)) (hs : LayerSafe L.real X E i) (j : Nat) (hj : j < L.o) :
    Near (infer L x i j) (infer L.real X i j) (layerErr L.real X E i j) := by
  refine act_near L.kind L.slope hL.slope L.o (preact L x i) (preact L.real X i) (preErr L.real (X i) (E i)) ?_ hs.2 j hj
  intro j hj
  rw [preact_real]
  exact preact_err L hL (x i) (X i) (E i) hx hs.1 j hj

/-- A layer with finite parameters, given inputs within E of the numbers X: the outputs are finite and within layerErr of what exact arithmetic
gives for X. -/
theorem C98_layer [Libm] (w : World F64) (lp : Nat) (wm bm x : Mat) (L : LayerSpec F64) (r : Nat) (A : Nat → Nat → F64)
    (hL : IsLayer w lp wm bm L) (hA : IsMat w x r L.n A) (fL : L.Finite) (X E : Nat → Nat → ℝ)
    (hX : ∀ i k, i < r → k < L.n → Near (A i k) (X i k) (E i k)) (hs : ∀ i, i < r → LayerSafe L.real X E i) :
    wp (do let l ← layGet lp; if l.kind = .dropout then dropoutForwardNo lp x else layerForward lp x) w (fun p w' =>
      p.2 = none ∧ ∃ V, Fresh w w' p.1 r L.o V ∧ ∀ i j, i < r → j < L.o →
        (V i j).Finite ∧ |(V i j).val - infer L.real X i j| ≤ layerErr L.real X E i j) := by
  refine wp_mono (layerInfer_spec hL hA) ?_
  rintro p w' ⟨h1, h2⟩
  exact ⟨h1, _, h2.res, fun i j hi hj => layer_near L fL A X E i (fun k hk => hX i k hi hk) (hs i hi) j hj⟩

/-! ## C99 Forward and Predict of a model -/

/-- Every layer of the network, given the exact values of the layer before it and the bound on their errors, stays in range. -/
def NetSafe (net : Net F64) (r : Nat) (X E : Nat → Nat → ℝ) : Prop :=
  ∀ k i, k < net.size → i < r → LayerSafe (net.L k).real (netOut net.real X k) (netErr net.real X E k) i

theorem net_near [Libm] {net : Net F64} {n : Nat} (hn : n ≤ net.size) (hins : ∀ k, k < net.size → (net.L k).n = net.dim k)
    (houts : ∀ k, k < net.size → (net.L k).o = net.dim (k + 1)) (fL : ∀ k, k < net.size → (net.L k).Finite) (r : Nat) (A : Nat → Nat → F64)
    (X E : Nat → Nat → ℝ) (hX : ∀ i k, i < r → k < net.dim 0 → Near (A i k) (X i k) (E i k)) (hs : NetSafe net r X E) (i j : Nat) (hi : i < r)
    (hj : j < net.dim n) : Near (netOut net A n i j) (netOut net.real X n i j) (netErr net.real X E n i j) := by
  induction n generalizing j with
  | zero => exact hX i j hi hj
  | succ n ih =>
    refine layer_near (net.L n) (fL n (by omega)) (netOut net A n) (netOut net.real X n) (netErr net.real X E n) i ?_ (hs n i (by omega) hi) j ?_
    · intro k hk
      exact ih (by omega) k (by rwa [← hins n (by omega)])
    · rwa [houts n (by omega)]

/-- Forward without training on a model of any depth: every output is finite and within netErr of the exact output of the network. -/
theorem C99_network [Libm] (w : World F64) (m : Model F64) (net : Net F64) (hN : IsNet w m net) (h0 : 0 < net.size) (x : Mat) (r : Nat)
    (A : Nat → Nat → F64) (hA : IsMat w x r (net.dim 0) A) (fL : ∀ k, k < net.size → (net.L k).Finite) (X E : Nat → Nat → ℝ)
    (hX : ∀ i k, i < r → k < net.dim 0 → Near (A i k) (X i k) (E i k)) (hs : NetSafe net r X E) :
    wp (modelForward m x false) w (fun p w' => p.2 = none ∧ ∃ out V, p.1[net.size]? = some out ∧ Fresh w w' out r (net.dim net.size) V ∧
      ∀ i j, i < r → j < net.dim net.size →
        (V i j).Finite ∧ |(V i j).val - netOut net.real X net.size i j| ≤ netErr net.real X E net.size i j) := by
  refine wp_mono (modelInfer_spec hN h0 hA) ?_
  rintro p w' ⟨h1, -, out, h2, h3⟩
  exact ⟨h1, out, _, h2, h3.res, fun i j hi hj => net_near le_rfl hN.ins hN.outs fL r A X E hX hs i j hi hj⟩

theorem scanMax_val [Libm] {n : Nat} {f : Nat → F64} {c : Nat} (hc : c < n) (hf : ∀ j, j < n → (f j).Finite) (h0 : 0 < (f c).val)
    (h : ∀ j, j < n → j ≠ c → (f j).val < (f c).val) : (scanMax n f).1 = c := by
  have key : ∀ k, k ≤ n → (k ≤ c → (scanMax k f).2.Finite ∧ (scanMax k f).2.val < (f c).val) ∧ (c < k → scanMax k f = ((c : ℤ), f c)) := by
    intro k
    induction k with
    | zero =>
      intro _
      refine ⟨fun _ => ?_, fun h => absurd h (by omega)⟩
      have e : (scanMax 0 f).2 = Flt.zero := rfl
      rw [e, zero_f64.1]
      exact ⟨zero_f64.2, h0⟩
    | succ k ih =>
      intro hk
      obtain ⟨i1, i2⟩ := ih (by omega)
      have e : scanMax (k + 1) f = if Flt.lt (scanMax k f).2 (f k) then ((k : ℤ), f k) else scanMax k f := rfl
      rw [e]
      refine ⟨fun hkc => ?_, fun hkc => ?_⟩
      · split
        · exact ⟨hf k (by omega), h k (by omega) (by omega)⟩
        · exact i1 (by omega)
      · rcases Nat.lt_or_ge c k with hck | hck
        · rw [i2 hck]
          dsimp only
          rw [if_neg]
          change ¬ (F64.lt (f c) (f k) = true)
          rw [F64.lt_val (hf c hc) (hf k (by omega))]
          have := h k (by omega) (by omega)
          simp [this.le]
        · obtain rfl : c = k := by omega
          obtain ⟨j1, j2⟩ := i1 le_rfl
          rw [if_pos]
          change F64.lt _ _ = true
          rw [F64.lt_val j1 (hf c hc)]
          simpa using j2
  rw [(key n le_rfl).2 hc]

theorem half_f64 [Libm] : (Flt.half : F64).val = 1 / 2 ∧ (Flt.half : F64).Finite := by
  have h := F64.scaled_exact (n := 1) (e := -1) (by norm_num) (by norm_num) (by norm_num)
    (lt_of_lt_of_le (by norm_num : ((1 : ℕ) : ℝ) * 2 ^ (-1 : ℤ) < 1) (one_le_zpow₀ (by norm_num) (by norm_num)))
  have e : (((1 : ℕ) : ℝ) * 2 ^ (-1 : ℤ)) = 1 / 2 := by norm_num
  rw [e] at h
  exact h

/-- Predict on float64 returns the class that exact arithmetic gives, wherever the exact output of that class is larger than the others by more than
the two errors, and larger than its own error. -/
theorem C99_classify [Libm] (w : World F64) (m : Model F64) (net : Net F64) (hN : IsNet w m net) (h0 : 0 < net.size) (x : Mat) (r : Nat)
    (A : Nat → Nat → F64) (hA : IsMat w x r (net.dim 0) A) (fL : ∀ k, k < net.size → (net.L k).Finite) (X E : Nat → Nat → ℝ)
    (hX : ∀ i k, i < r → k < net.dim 0 → Near (A i k) (X i k) (E i k)) (hs : NetSafe net r X E) (hacc : m.accType = 1)
    (cls : Nat → Nat) (hcls : ∀ i, i < r → cls i < net.dim net.size ∧
      netErr net.real X E net.size i (cls i) < netOut net.real X net.size i (cls i) ∧
      ∀ j, j < net.dim net.size → j ≠ cls i → netOut net.real X net.size i j + netErr net.real X E net.size i j +
        netErr net.real X E net.size i (cls i) < netOut net.real X net.size i (cls i)) :
    wp (predict m x) w (fun p w' => p.2 = none ∧ Fresh w w' p.1 r 1 (fun i _ => Flt.ofInt (cls i))) := by
  refine wp_mono (predict_spec hN h0 hA) ?_
  rintro p w' ⟨-, -, h1, -⟩
  obtain ⟨h2, h3⟩ := h1 (.inr (.inl hacc))
  rw [if_pos hacc] at h3
  refine ⟨h2, h3.congr fun i j hi hj => ?_⟩
  have hn : ∀ j, j < net.dim net.size → Near (netOut net A net.size i j) (netOut net.real X net.size i j) (netErr net.real X E net.size i j) :=
    fun j hj => net_near le_rfl hN.ins hN.outs fL r A X E hX hs i j hi hj
  obtain ⟨c1, c2, c3⟩ := hcls i hi
  have hc := (abs_le.1 (hn _ c1).2).1
  have e : (scanMax (net.dim net.size) (netOut net A net.size i)).1 = cls i := by
    refine scanMax_val c1 (fun j hj => (hn j hj).1) (by linarith) ?_
    intro j hj hne
    have := (abs_le.1 (hn j hj).2).2
    have := c3 j hj hne
    linarith
  simp [decoded, hacc, e]

/-- The same for yes/no outputs: wherever the exact output is further from 1/2 than the error, Predict on float64 returns 1 if it is above and 0 if it
is below. -/
theorem C99_binary [Libm] (w : World F64) (m : Model F64) (net : Net F64) (hN : IsNet w m net) (h0 : 0 < net.size) (x : Mat) (r : Nat)
    (A : Nat → Nat → F64) (hA : IsMat w x r (net.dim 0) A) (fL : ∀ k, k < net.size → (net.L k).Finite) (X E : Nat → Nat → ℝ)
    (hX : ∀ i k, i < r → k < net.dim 0 → Near (A i k) (X i k) (E i k)) (hs : NetSafe net r X E) (hacc : m.accType = 2) :
    wp (predict m x) w (fun p w' => p.2 = none ∧ ∃ V, Fresh w w' p.1 r (net.dim net.size) V ∧ ∀ i j, i < r → j < net.dim net.size →
      (1 / 2 + netErr net.real X E net.size i j ≤ netOut net.real X net.size i j → V i j = Flt.one) ∧
      (netOut net.real X net.size i j < 1 / 2 - netErr net.real X E net.size i j → V i j = Flt.zero)) := by
  refine wp_mono (predict_spec hN h0 hA) ?_
  rintro p w' ⟨-, -, h1, -⟩
  obtain ⟨h2, h3⟩ := h1 (.inr (.inr hacc))
  rw [if_neg (by rw [hacc]; decide)] at h3
  refine ⟨h2, _, h3, fun i j hi hj => ?_⟩
  obtain ⟨n1, n2⟩ := net_near le_rfl hN.ins hN.outs fL r A X E hX hs i j hi hj
  have hd : decoded m.accType (net.dim net.size) (netOut net A net.size) i j =
      if Flt.lt (netOut net A net.size i j) Flt.half then Flt.zero else Flt.one := by simp [decoded, hacc]
  have hhalf : (Flt.half : F64).val = 1 / 2 ∧ (Flt.half : F64).Finite := half_f64
  have hlt : (Flt.lt (netOut net A net.size i j) Flt.half : Bool) = decide ((netOut net A net.size i j).val < 1 / 2) := by
    rw [← hhalf.1]; exact F64.lt_val n1 hhalf.2
  rw [hd, hlt]
  rw [abs_le] at n2
  constructor
  · intro h
    rw [if_neg]
    simp only [decide_eq_true_eq, not_lt]
    linarith
  · intro h
    rw [if_pos]
    simp only [decide_eq_true_eq]
    linarith

/-! ### A network that meets the hypotheses of C98 and C99 -/

/-- A hidden layer with weights 4 on the diagonal, then softmax layers with weights 1 on the diagonal. -/
noncomputable def roundL [Libm] (k : Nat) : LayerSpec F64 :=
  ⟨if k = 0 then .hidden else .softmax, 2, 2, fun i j => Flt.ofInt (if i = j then (if k = 0 then 4 else 1) else 0), fun _ => Flt.ofInt 0, Flt.zero,
    Flt.zero⟩

/-- Its input: rows (1, 0). -/
def roundX (_ k : Nat) : ℝ := if k = 0 then 1 else 0

theorem roundL_finite [Libm] (k : Nat) : (roundL k).Finite := by
  refine ⟨fun i j _ _ => ?_, fun j _ => (ofInt_f64 0 (by norm_num)).2, fun h => ?_⟩
  · refine (ofInt_f64 _ ?_).2
    split_ifs <;> norm_num
  · unfold roundL at h
    dsimp only at h
    split_ifs at h

theorem roundL_real [Libm] (k : Nat) : (roundL k).real =
    ⟨if k = 0 then .hidden else .softmax, 2, 2, fun i j => if i = j then (if k = 0 then 4 else 1) else 0, fun _ => 0, 0, 0⟩ := by
  unfold LayerSpec.real roundL
  have h1 : ∀ i j : Nat, (Flt.ofInt (if i = j then (if k = 0 then 4 else 1) else 0) : F64).val = if i = j then (if k = 0 then 4 else 1) else 0 := by
    intro i j
    rw [(ofInt_f64 _ (by split_ifs <;> norm_num)).1]
    split_ifs <;> norm_num
  have h2 : (Flt.ofInt 0 : F64).val = 0 := by rw [(ofInt_f64 0 (by norm_num)).1]; norm_num
  simp only [h1, h2]

theorem preErr_two {L : LayerSpec ℝ} (hn : L.n = 2) (X E : Nat → ℝ) (j : Nat) (h0 : 0 ≤ absPre L X E j) :
    preErr L X E j ≤ E 0 * |L.W 0 j| + E 1 * |L.W 1 j| + 1 / 1000000 * absPre L X E j + 4 / 1000000 ∧
    (1 + ueps) ^ (L.n + 2) * absPre L X E j + L.n * (1 + ueps) ^ (L.n + 1) * tiny ≤ 2 * absPre L X E j + 4 / 1000000 := by
  obtain ⟨g1, -, -, g3, g4⟩ := gam4
  have k2 := mul_le_mul g3 tiny_small tiny_pos.le (by norm_num)
  have k1 := mul_le_mul_of_nonneg_right g1 h0
  have k3 := mul_le_mul_of_nonneg_right g4 h0
  unfold preErr
  rw [hn]
  simp only [sum_range_succ, range_zero, sum_empty, zero_add]
  push_cast
  constructor <;> linarith

theorem maxOf_le {o : Nat} {e : Nat → ℝ} {c : ℝ} (hc : 0 ≤ c) (h : ∀ j, j < o → e j ≤ c) : maxOf o e ≤ c := by
  unfold maxOf
  have : ((range o).sup fun j => (e j).toNNReal) ≤ c.toNNReal := Finset.sup_le fun j hj => Real.toNNReal_le_toNNReal (h j (mem_range.1 hj))
  calc _ ≤ ((c.toNNReal : NNReal) : ℝ) := by exact_mod_cast this
    _ = c := Real.coe_toNNReal _ hc

/-- The outputs and errors of the first layer, and that it stays in range. -/
theorem round0 [Libm] (i : Nat) : (∀ j, j < 2 → infer (roundL 0).real roundX i j = if j = 0 then 4 else 0) ∧
    (∀ j, j < 2 → 0 ≤ layerErr (roundL 0).real roundX (fun _ _ => 0) i j ∧ layerErr (roundL 0).real roundX (fun _ _ => 0) i j ≤ 1 / 10000) ∧
    LayerSafe (roundL 0).real roundX (fun _ _ => 0) i := by
  rw [roundL_real]
  have hz : (Flt.zero : ℝ) = 0 := by simp [Flt.zero]
  generalize hLd : (⟨if 0 = 0 then .hidden else .softmax, 2, 2, fun i j => if i = j then (if 0 = 0 then 4 else 1) else 0, fun _ => 0, 0, 0⟩ :
    LayerSpec ℝ) = L
  have hk : L.kind = .hidden := by rw [← hLd]; rfl
  have hn : L.n = 2 := by rw [← hLd]
  have ho : L.o = 2 := by rw [← hLd]
  have hW : ∀ i j, L.W i j = if i = j then 4 else 0 := by intro i j; rw [← hLd]; simp
  have hb : ∀ j, L.b j = 0 := by intro j; rw [← hLd]
  have ha : ∀ j, j < 2 → 0 ≤ absPre L (roundX i) (fun _ => 0) j ∧ absPre L (roundX i) (fun _ => 0) j ≤ 4 := by
    intro j hj
    unfold absPre
    rw [hn, hb]
    interval_cases j <;> norm_num [roundX, sum_range_succ, hW]
  refine ⟨?_, ?_, ?_, ?_⟩
  · intro j hj
    unfold infer
    rw [hk]
    simp only [actRow, preact_real, hn, hb, hz]
    interval_cases j <;> norm_num [roundX, sum_range_succ, hW]
  · intro j hj
    obtain ⟨h1, h2⟩ := ha j hj
    obtain ⟨k1, -⟩ := preErr_two hn (roundX i) (fun _ => 0) j h1
    unfold layerErr
    rw [hk]
    change 0 ≤ preErr _ _ _ _ ∧ preErr _ _ _ _ ≤ _
    refine ⟨?_, k1.trans ?_⟩
    · unfold preErr
      have h3 := mul_nonneg (gam_nonneg (L.n + 2)) h1
      have := tiny_pos
      have := ueps_pos
      have h4 : 0 ≤ L.n * (1 + ueps) ^ (L.n + 1) * tiny := by positivity
      simp only [zero_mul, sum_const_zero]
      linarith
    · rw [zero_mul, zero_mul]
      linarith
  · intro j hj
    rw [ho] at hj
    obtain ⟨h1, h2⟩ := ha j hj
    obtain ⟨-, k2⟩ := preErr_two hn (roundX i) (fun _ => 0) j h1
    have := big_large
    exact k2.trans (by linarith)
  · rw [hk]
    trivial

/-- The same for the second layer, on inputs (4, 0) with errors of up to 1/10000. -/
theorem round1 [Libm] (i : Nat) (X E : Nat → Nat → ℝ) (hX : ∀ j, j < 2 → X i j = if j = 0 then 4 else 0) (hE : ∀ j, j < 2 → 0 ≤ E i j ∧ E i j ≤ 1 / 10000) :
    infer (roundL 1).real X i 0 ≥ 9 / 10 ∧ infer (roundL 1).real X i 1 ≤ 1 / 10 ∧
    (∀ j, j < 2 → layerErr (roundL 1).real X E i j ≤ 1 / 100) ∧ LayerSafe (roundL 1).real X E i := by
  rw [roundL_real]
  generalize hLd : (⟨if 1 = 0 then .hidden else .softmax, 2, 2, fun i j => if i = j then (if 1 = 0 then 4 else 1) else 0, fun _ => 0, 0, 0⟩ :
    LayerSpec ℝ) = L
  have hk : L.kind = .softmax := by rw [← hLd]; rfl
  have hn : L.n = 2 := by rw [← hLd]
  have ho : L.o = 2 := by rw [← hLd]
  have hW : ∀ i j, L.W i j = if i = j then 1 else 0 := by intro i j; rw [← hLd]; simp
  have hb : ∀ j, L.b j = 0 := by intro j; rw [← hLd]
  have x0 := hX 0 (by norm_num)
  have x1 := hX 1 (by norm_num)
  norm_num at x0 x1
  obtain ⟨e0, e0'⟩ := hE 0 (by norm_num)
  obtain ⟨e1, e1'⟩ := hE 1 (by norm_num)
  have ha : ∀ j, j < 2 → 0 ≤ absPre L (X i) (E i) j ∧ absPre L (X i) (E i) j ≤ 5 := by
    intro j hj
    have : absPre L (X i) (E i) j = (|X i 0| + E i 0) * |L.W 0 j| + (|X i 1| + E i 1) * |L.W 1 j| := by
      unfold absPre
      rw [hn, hb]
      simp [sum_range_succ]
    rw [this, hW, hW, x0, x1]
    interval_cases j
    · norm_num; constructor <;> linarith
    · norm_num; constructor <;> linarith
  have hp : ∀ j, j < 2 → preErr L (X i) (E i) j ≤ 1 / 1000 := by
    intro j hj
    obtain ⟨h1, h2⟩ := ha j hj
    obtain ⟨k1, -⟩ := preErr_two hn (X i) (E i) j h1
    refine k1.trans ?_
    rw [hW, hW]
    interval_cases j
    · norm_num; linarith
    · norm_num; linarith
  have hz : ∀ j, j < 2 → preact L X i j = if j = 0 then 4 else 0 := by
    intro j hj
    rw [preact_real, hn, hb]
    simp only [sum_range_succ, range_zero, sum_empty, zero_add, hW, x0, x1]
    interval_cases j <;> norm_num
  have hE4 : 9 ≤ Real.exp 4 := by
    have h1 : 2 ≤ Real.exp 1 := by have := Real.add_one_le_exp 1; linarith
    have h2 : Real.exp 4 = Real.exp 1 ^ 4 := by rw [← Real.exp_nat_mul]; norm_num
    have h3 : (2 : ℝ) ^ 4 ≤ Real.exp 1 ^ 4 := pow_le_pow_left₀ (by norm_num) h1 4
    rw [h2]
    linarith
  have hout : ∀ j, infer L X i j = Real.exp (preact L X i j) / (Real.exp (preact L X i 0) + Real.exp (preact L X i 1)) := by
    intro j
    unfold infer
    rw [hk, ho]
    simp [actRow, fsum_real, sum_range_succ]
  rw [hout, hout, hz 0 (by norm_num), hz 1 (by norm_num)]
  rw [if_pos rfl, if_neg (by norm_num), Real.exp_zero]
  have hpos : 0 < Real.exp 4 + 1 := by linarith
  refine ⟨?_, ?_, ?_, ?_, ?_⟩
  · rw [ge_iff_le, le_div_iff₀ hpos]; linarith
  · rw [div_le_iff₀ hpos]; linarith
  · intro j hj
    unfold layerErr
    rw [hk, ho]
    change (Real.exp (2 * maxOf 2 (preErr L (X i) (E i))) - 1) + (2 * gam (3 * 2 + 2) + 10 * ueps) ≤ _
    have hm := maxOf_le (o := 2) (e := preErr L (X i) (E i)) (c := 1 / 1000) (by norm_num) hp
    have h1 : Real.exp (2 * maxOf 2 (preErr L (X i) (E i))) ≤ Real.exp (1 / 500) := Real.exp_le_exp.2 (by linarith)
    have h2 : Real.exp (1 / 500) ≤ 1 + 1 / 400 := by
      have h3 := Real.add_one_le_exp (-(1 / 500) : ℝ)
      rw [Real.exp_neg] at h3
      have h4 := Real.exp_pos (1 / 500)
      have h5 : (-(1 / 500) + 1) * Real.exp (1 / 500) ≤ 1 := by
        calc _ ≤ (Real.exp (1 / 500))⁻¹ * Real.exp (1 / 500) := mul_le_mul_of_nonneg_right h3 h4.le
          _ = 1 := inv_mul_cancel₀ h4.ne'
      linarith
    obtain ⟨-, g5, -⟩ := gam4
    have hu : ueps ≤ 1 / 1000000 := ueps_le.trans (by norm_num)
    have g5 : gam (3 * 2 + 2) ≤ 1 / 1000000 := g5
    linarith
  · intro j hj
    rw [ho] at hj
    obtain ⟨h1, h2⟩ := ha j hj
    obtain ⟨-, k2⟩ := preErr_two hn (X i) (E i) j h1
    have := big_large
    exact k2.trans (by linarith)
  · rw [hk, ho]
    refine ⟨by norm_num, fun j hj => ?_, 0, by norm_num, ?_⟩
    · have := hp j hj
      rw [hz j hj]
      split_ifs <;> linarith
    · have := hp 0 (by norm_num)
      rw [hz 0 (by norm_num), if_pos rfl]
      linarith

/-- C98: one hidden layer, a batch of three rows -/
example [Libm] : ∃ w : World F64, ∃ lp wm bm x, ∃ A : Nat → Nat → F64, IsLayer w lp wm bm (roundL 0) ∧ IsMat w x 3 (roundL 0).n A ∧ (roundL 0).Finite ∧
    (∀ i k, i < 3 → k < (roundL 0).n → Near (A i k) (roundX i k) 0) ∧ ∀ i, i < 3 → LayerSafe (roundL 0).real roundX (fun _ _ => 0) i := by
  let A : Nat → Nat → F64 := fun _ k => Flt.ofInt (if k = 0 then 1 else 0)
  obtain ⟨w, lp, wm, bm, x, h1, -, h2, -⟩ := exists_layer (roundL 0) (by simp [roundL]) (by simp [roundL]) (r := 3) (by decide) A
  refine ⟨w, lp, wm, bm, x, A, h1, h2, roundL_finite 0, fun i k _ _ => ?_, fun i _ => (round0 i).2.2⟩
  have := ofInt_f64 (if k = 0 then 1 else 0) (by split_ifs <;> norm_num)
  refine ⟨this.2, ?_⟩
  rw [this.1]
  unfold roundX
  split_ifs <;> norm_num

/-- C99: two layers, a batch of three rows; the class is 0 (margin 8/10), the yes/no answers are 1 and 0. -/
theorem round_case [Libm] (acc : Int) (m0 : Model F64) : ∃ w : World F64, ∃ m : Model F64, ∃ net : Net F64, ∃ x, ∃ A : Nat → Nat → F64, m.accType = acc ∧ IsNet w m net ∧
    net.size = 2 ∧ IsMat w x 3 (net.dim 0) A ∧ (∀ k, k < net.size → (net.L k).Finite) ∧
    (∀ i k, i < 3 → k < net.dim 0 → Near (A i k) (roundX i k) 0) ∧ NetSafe net 3 roundX (fun _ _ => 0) ∧
    (∀ i, i < 3 → 0 < net.dim net.size ∧ netErr net.real roundX (fun _ _ => 0) net.size i 0 < netOut net.real roundX net.size i 0 ∧
      ∀ j, j < net.dim net.size → j ≠ 0 → netOut net.real roundX net.size i j + netErr net.real roundX (fun _ _ => 0) net.size i j +
        netErr net.real roundX (fun _ _ => 0) net.size i 0 < netOut net.real roundX net.size i 0) ∧
    (∀ i, i < 3 → 1 / 2 + netErr net.real roundX (fun _ _ => 0) net.size i 0 ≤ netOut net.real roundX net.size i 0 ∧
      netOut net.real roundX net.size i 1 < 1 / 2 - netErr net.real roundX (fun _ _ => 0) net.size i 1) := by
  let A : Nat → Nat → F64 := fun _ k => Flt.ofInt (if k = 0 then 1 else 0)
  obtain ⟨w, net, x, h1, h2, h3, h4, -, h5, -⟩ := exists_net (α := F64) 2 roundL (fun i => by simp [roundL]) (fun i => rfl)
    { m0 with accType := acc } (r := 3) (by decide) A
  have hd : ∀ i, net.dim i = 2 := fun i => by rw [h3]; rfl
  have hl : ∀ k, net.real.L k = (roundL k).real := fun k => by rw [← h2]; rfl
  have hr0 : ∀ i j, netOut net.real roundX 1 i j = infer (roundL 0).real roundX i j := fun i j => by rw [← hl]; rfl
  have he0 : ∀ i j, netErr net.real roundX (fun _ _ => 0) 1 i j = layerErr (roundL 0).real roundX (fun _ _ => 0) i j := fun i j => by rw [← hl]; rfl
  have hr1 : ∀ i j, netOut net.real roundX 2 i j = infer (roundL 1).real (netOut net.real roundX 1) i j := fun i j => by rw [← hl]; rfl
  have he1 : ∀ i j, netErr net.real roundX (fun _ _ => 0) 2 i j =
      layerErr (roundL 1).real (netOut net.real roundX 1) (netErr net.real roundX (fun _ _ => 0) 1) i j := fun i j => by rw [← hl]; rfl
  have r1 := fun i => round1 i (netOut net.real roundX 1) (netErr net.real roundX (fun _ _ => 0) 1)
    (fun j hj => by rw [hr0]; exact (round0 i).1 j hj) (fun j hj => by rw [he0]; exact (round0 i).2.1 j hj)
  refine ⟨w, net.model { m0 with accType := acc }, net, x, A, rfl, h4, h1, h5, fun k _ => by rw [h2]; exact roundL_finite k, ?_, ?_, ?_, ?_⟩
  · intro i k _ _
    have := ofInt_f64 (if k = 0 then 1 else 0) (by split_ifs <;> norm_num)
    refine ⟨this.2, ?_⟩
    rw [this.1]
    unfold roundX
    split_ifs <;> norm_num
  · intro k i hk _
    rw [h1] at hk
    rw [h2]
    interval_cases k
    · exact (round0 i).2.2
    · exact (r1 i).2.2.2
  · intro i _
    obtain ⟨a, b, c, -⟩ := r1 i
    rw [h1, hd]
    have c0 := c 0 (by norm_num)
    have c1 := c 1 (by norm_num)
    refine ⟨by norm_num, by rw [hr1, he1]; linarith, fun j hj hne => ?_⟩
    obtain rfl : j = 1 := by omega
    rw [hr1, hr1, he1, he1]
    linarith
  · intro i _
    obtain ⟨a, b, c, -⟩ := r1 i
    rw [h1, hr1, hr1, he1, he1]
    have c0 := c 0 (by norm_num)
    have c1 := c 1 (by norm_num)
    constructor <;> linarith

end NN
