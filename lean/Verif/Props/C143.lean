import Verif.Props.C97_C99
import Verif.Props.C13_C20
/-
C143: how much the outputs of a network can change when its inputs change, and inputs around which Predict cannot change its answer.
-/

set_option linter.unusedSectionVars false

namespace NN
open Finset F64 Go

/-- How much an activation stretches distances at most. -/
noncomputable def actLip (k : LayerKind) (slope : ℝ) : ℝ :=
  match k with
  | .hidden | .dropout | .linear => 1
  | .sigmoid => 1 / 4
  | .leaky => max 1 |slope|
  | .softmax => 1 / 2

/-- How much a layer stretches distances (largest entry) at most: the largest sum of the magnitudes of the weights of a unit. -/
noncomputable def layerLip (L : LayerSpec ℝ) : ℝ := actLip L.kind L.slope * maxOf L.o fun j => ∑ k ∈ range L.n, |L.W k j|

/-- The product over the first k layers. -/
noncomputable def netLip (net : Net ℝ) (k : Nat) : ℝ := ∏ l ∈ range k, layerLip (net.L l)

theorem actLip_nonneg (k : LayerKind) (s : ℝ) : 0 ≤ actLip k s := by
  cases k <;> simp [actLip]

theorem maxOf_nonneg (o : Nat) (e : Nat → ℝ) : 0 ≤ maxOf o e := NNReal.coe_nonneg _

theorem layerLip_nonneg (L : LayerSpec ℝ) : 0 ≤ layerLip L := mul_nonneg (actLip_nonneg _ _) (maxOf_nonneg _ _)

theorem netLip_nonneg (net : Net ℝ) (k : Nat) : 0 ≤ netLip net k := prod_nonneg fun _ _ => layerLip_nonneg _

/-- Softmax moves by at most m/2 if every entry moves by at most m. -/
theorem softmax_half (o : Nat) (x y : Nat → ℝ) (m : ℝ) (h : ∀ k, k < o → |x k - y k| ≤ m) (j : Nat) (hj : j < o) :
    |Real.exp (x j) / (∑ k ∈ range o, Real.exp (x k)) - Real.exp (y j) / (∑ k ∈ range o, Real.exp (y k))| ≤ m / 2 := by
  have hm : 0 ≤ m := (abs_nonneg _).trans (h j hj)
  have hmem : j ∈ range o := mem_range.2 hj
  have split : ∀ x : Nat → ℝ, ∑ k ∈ range o, Real.exp (x k) = Real.exp (x j) + ∑ k ∈ (range o).erase j, Real.exp (x k) :=
    fun x => (add_sum_erase _ _ hmem).symm
  by_cases he : (range o).erase j = ∅
  · rw [split x, split y, he, sum_empty, sum_empty, add_zero, add_zero, div_self (Real.exp_pos _).ne', div_self (Real.exp_pos _).ne',
      sub_self, abs_zero]
    linarith
  · have hne := nonempty_iff_ne_empty.2 he
    have hs : ∀ x : Nat → ℝ, 0 < ∑ k ∈ (range o).erase j, Real.exp (x k) := fun x => sum_pos (fun _ _ => Real.exp_pos _) hne
    -- softmax is the sigmoid of the distance to the logarithm of the sum of the others
    have sig : ∀ x : Nat → ℝ, Real.exp (x j) / (∑ k ∈ range o, Real.exp (x k)) =
        1 / (1 + Real.exp (-(x j - Real.log (∑ k ∈ (range o).erase j, Real.exp (x k))))) := by
      intro x
      have hp := Real.exp_pos (x j)
      rw [split x, neg_sub, Real.exp_sub, Real.exp_log (hs x)]
      field_simp
    have lse : ∀ x y : Nat → ℝ, (∀ k, k < o → |x k - y k| ≤ m) → Real.log (∑ k ∈ (range o).erase j, Real.exp (x k)) ≤
        m + Real.log (∑ k ∈ (range o).erase j, Real.exp (y k)) := by
      intro x y h
      conv_rhs => rw [← Real.log_exp m]
      rw [← Real.log_mul (Real.exp_pos _).ne' (hs y).ne']
      refine Real.log_le_log (hs x) ?_
      rw [mul_sum]
      refine sum_le_sum fun k hk => ?_
      rw [← Real.exp_add, Real.exp_le_exp]
      have := (abs_le.1 (h k (mem_range.1 (mem_of_mem_erase hk)))).2
      linarith
    rw [sig x, sig y]
    refine (sigmoid_lip _ _).trans ?_
    have h1 := lse x y h
    have h2 := lse y x fun k hk => by rw [abs_sub_comm]; exact h k hk
    have h3 := abs_le.1 (h j hj)
    have : |x j - Real.log (∑ k ∈ (range o).erase j, Real.exp (x k)) - (y j - Real.log (∑ k ∈ (range o).erase j, Real.exp (y k)))| ≤ 2 * m := by
      rw [abs_le]
      constructor <;> linarith
    linarith

theorem act_lip (k : LayerKind) (s : ℝ) (o : Nat) (x y : Nat → ℝ) (m : ℝ) (h : ∀ j, j < o → |x j - y j| ≤ m) (j : Nat) (hj : j < o) :
    |actRow k s o x j - actRow k s o y j| ≤ actLip k s * m := by
  have hj' := h j hj
  have hz : (Flt.zero : ℝ) = 0 := by simp [Flt.zero]
  have h1 : (Flt.one : ℝ) = 1 := by simp [Flt.one]
  cases k with
  | hidden =>
    simp only [actRow, actLip, one_mul, real_max, hz]
    exact (abs_max_sub_max_le_abs _ _ _).trans hj'
  | dropout =>
    simp only [actRow, actLip, one_mul, real_max, hz]
    exact (abs_max_sub_max_le_abs _ _ _).trans hj'
  | linear => simpa only [actRow, actLip, one_mul] using hj'
  | sigmoid =>
    simp only [actRow, actLip, h1, real_div, real_add, real_exp, real_neg]
    refine (sigmoid_lip _ _).trans ?_
    linarith
  | leaky =>
    simp only [actRow, actLip, real_lt, hz, real_mul, decide_eq_true_eq]
    refine (leaky_lip s _ _).trans ?_
    exact mul_le_mul_of_nonneg_left hj' (le_trans zero_le_one (le_max_left _ _))
  | softmax =>
    simp only [actRow, actLip, real_div, real_exp, fsum_real]
    refine (softmax_half o x y m h j hj).trans ?_
    linarith

theorem layer_lip (L : LayerSpec ℝ) (X Y : Nat → Nat → ℝ) (i : Nat) (d : ℝ) (h : ∀ k, k < L.n → |X i k - Y i k| ≤ d) (hd : 0 ≤ d) (j : Nat)
    (hj : j < L.o) : |infer L X i j - infer L Y i j| ≤ layerLip L * d := by
  unfold infer layerLip
  rw [mul_assoc]
  refine act_lip _ _ _ _ _ _ (fun j hj => ?_) j hj
  rw [preact_real, preact_real, add_sub_add_right_eq_sub, ← sum_sub_distrib]
  refine (abs_sum_le_sum_abs _ _).trans ?_
  have : ∀ k ∈ range L.n, |X i k * L.W k j - Y i k * L.W k j| ≤ |L.W k j| * d := by
    intro k hk
    rw [← sub_mul, abs_mul, mul_comm]
    exact mul_le_mul_of_nonneg_left (h k (mem_range.1 hk)) (abs_nonneg _)
  refine (sum_le_sum this).trans ?_
  rw [← sum_mul]
  exact mul_le_mul_of_nonneg_right (le_maxOf (e := fun j => ∑ k ∈ range L.n, |L.W k j|) hj) hd

theorem net_lip {net : Net ℝ} (hins : ∀ k, k < net.size → (net.L k).n = net.dim k) (houts : ∀ k, k < net.size → (net.L k).o = net.dim (k + 1))
    {n : Nat} (hn : n ≤ net.size) (X Y : Nat → Nat → ℝ) (i : Nat) (d : ℝ) (hd : 0 ≤ d) (h : ∀ k, k < net.dim 0 → |X i k - Y i k| ≤ d) (j : Nat)
    (hj : j < net.dim n) : |netOut net X n i j - netOut net Y n i j| ≤ netLip net n * d := by
  induction n generalizing j with
  | zero => simpa [netOut, netLip] using h j hj
  | succ n ih =>
    have e : netLip net (n + 1) = layerLip (net.L n) * netLip net n := by
      unfold netLip
      rw [prod_range_succ, mul_comm]
    rw [e, mul_assoc]
    refine layer_lip (net.L n) (netOut net X n) (netOut net Y n) i _ (fun k hk => ?_) (mul_nonneg (netLip_nonneg _ _) hd) j ?_
    · exact ih (by omega) k (by rwa [← hins n (by omega)])
    · rwa [houts n (by omega)]

/-- C143 (forward): if every entry of the inputs changes by at most d, every output of the model changes by at most the product of
the layers' constants times d. -/
theorem C143_forward (w w' : World ℝ) (m m' : Model ℝ) (net : Net ℝ) (hN : IsNet w m net) (hN' : IsNet w' m' net) (h0 : 0 < net.size)
    (x y : Mat) (r : Nat) (X Y : Nat → Nat → ℝ) (hX : IsMat w x r (net.dim 0) X) (hY : IsMat w' y r (net.dim 0) Y) (d : ℝ) (hd : 0 ≤ d)
    (h : ∀ i k, i < r → k < net.dim 0 → |X i k - Y i k| ≤ d) :
    wp (modelForward m x false) w fun p w1 => wp (modelForward m' y false) w' fun p' w1' => p.2 = none ∧ p'.2 = none ∧
      ∃ out out' V V', p.1[net.size]? = some out ∧ p'.1[net.size]? = some out' ∧ IsMat w1 out r (net.dim net.size) V ∧
        IsMat w1' out' r (net.dim net.size) V' ∧ ∀ i j, i < r → j < net.dim net.size → |V i j - V' i j| ≤ netLip net net.size * d := by
  refine wp_mono (modelInfer_spec hN h0 hX) ?_
  rintro p w1 ⟨e1, -, out, g1, i1⟩
  refine wp_mono (modelInfer_spec hN' h0 hY) ?_
  rintro p' w1' ⟨e2, -, out', g2, i2⟩
  exact ⟨e1, e2, out, out', _, _, g1, g2, i1.res.mat, i2.res.mat, fun i j hi hj =>
    net_lip hN.ins hN.outs le_rfl X Y i d hd (fun k hk => h i k hi hk) j hj⟩

theorem scanMax_exact {n : Nat} {f : Nat → ℝ} {c : Nat} (hc : c < n) (h0 : 0 < f c) (h : ∀ j, j < n → j ≠ c → f j < f c) :
    (scanMax n f).1 = c := by
  rcases scanMax_real n f with ⟨-, -, h1⟩ | ⟨j, hj, e, -, -, h1, -⟩
  · have := h1 c hc
    linarith
  · rw [e]
    by_contra hne
    have := h j hj (fun e => hne (by rw [e]))
    have := h1 c hc
    linarith

/-- C143 (classes): the class `cls i` leads on the input X by more than 2·netLip·d.  Then Predict returns that class for every input
whose entries differ from those of X by at most d. -/
theorem C143_classify (w : World ℝ) (m : Model ℝ) (net : Net ℝ) (hN : IsNet w m net) (h0 : 0 < net.size) (hacc : m.accType = 1) (r : Nat)
    (X : Nat → Nat → ℝ) (cls : Nat → Nat) (d : ℝ) (hd : 0 ≤ d)
    (hcls : ∀ i, i < r → cls i < net.dim net.size ∧ netLip net net.size * d < netOut net X net.size i (cls i) ∧
      ∀ j, j < net.dim net.size → j ≠ cls i → netOut net X net.size i j + 2 * (netLip net net.size * d) < netOut net X net.size i (cls i))
    (y : Mat) (Y : Nat → Nat → ℝ) (hY : IsMat w y r (net.dim 0) Y) (h : ∀ i k, i < r → k < net.dim 0 → |Y i k - X i k| ≤ d) :
    wp (predict m y) w (fun p w' => p.2 = none ∧ Fresh w w' p.1 r 1 (fun i _ => (cls i : ℝ))) := by
  refine wp_mono (predict_spec hN h0 hY) ?_
  rintro p w' ⟨-, -, h1, -⟩
  obtain ⟨h2, h3⟩ := h1 (.inr (.inl hacc))
  rw [if_pos hacc] at h3
  refine ⟨h2, h3.congr fun i j hi hj => ?_⟩
  have hl := fun j hj => abs_le.1 (net_lip hN.ins hN.outs le_rfl Y X i d hd (fun k hk => h i k hi hk) j hj)
  obtain ⟨c1, c2, c3⟩ := hcls i hi
  have e : (scanMax (net.dim net.size) (netOut net Y net.size i)).1 = cls i := by
    refine scanMax_exact c1 (by linarith [(hl _ c1).1]) fun j hj hne => ?_
    linarith [(hl _ c1).1, (hl j hj).2, c3 j hj hne]
  simp [decoded, hacc, e]

/-- C143 (yes/no): an output further from 1/2 than netLip·d is answered the same way for every input that differs by at most d. -/
theorem C143_binary (w : World ℝ) (m : Model ℝ) (net : Net ℝ) (hN : IsNet w m net) (h0 : 0 < net.size) (hacc : m.accType = 2) (r : Nat)
    (X : Nat → Nat → ℝ) (d : ℝ) (hd : 0 ≤ d)
    (y : Mat) (Y : Nat → Nat → ℝ) (hY : IsMat w y r (net.dim 0) Y) (h : ∀ i k, i < r → k < net.dim 0 → |Y i k - X i k| ≤ d) :
    wp (predict m y) w (fun p w' => p.2 = none ∧ ∃ V, Fresh w w' p.1 r (net.dim net.size) V ∧ ∀ i j, i < r → j < net.dim net.size →
      (1 / 2 + netLip net net.size * d ≤ netOut net X net.size i j → V i j = 1) ∧
      (netOut net X net.size i j < 1 / 2 - netLip net net.size * d → V i j = 0)) := by
  refine wp_mono (predict_spec hN h0 hY) ?_
  rintro p w' ⟨-, -, h1, -⟩
  obtain ⟨h2, h3⟩ := h1 (.inr (.inr hacc))
  rw [if_neg (by rw [hacc]; decide)] at h3
  refine ⟨h2, _, h3, fun i j hi hj => ?_⟩
  have hl := abs_le.1 (net_lip hN.ins hN.outs le_rfl Y X i d hd (fun k hk => h i k hi hk) j hj)
  have hdec : decoded m.accType (net.dim net.size) (netOut net Y net.size) i j =
      if netOut net Y net.size i j < 1 / 2 then 0 else 1 := by simp [decoded, hacc, Flt.zero, Flt.one]
  rw [hdec]
  constructor
  · intro hh
    rw [if_neg]
    linarith
  · intro hh
    rw [if_pos]
    linarith

/-- C143 (classes, float64): the same for float64 arithmetic and float64 inputs, if on the changed input the network stays in range
(`NetSafe`) and rounding costs no more than e. -/
theorem C143_float [Libm] (w : World F64) (m : Model F64) (net : Net F64) (hN : IsNet w m net) (h0 : 0 < net.size) (hacc : m.accType = 1)
    (fL : ∀ k, k < net.size → (net.L k).Finite) (r : Nat) (X : Nat → Nat → ℝ) (cls : Nat → Nat) (d e : ℝ) (hd : 0 ≤ d)
    (hcls : ∀ i, i < r → cls i < net.dim net.size ∧ netLip net.real net.size * d + e < netOut net.real X net.size i (cls i) ∧
      ∀ j, j < net.dim net.size → j ≠ cls i →
        netOut net.real X net.size i j + 2 * (netLip net.real net.size * d + e) < netOut net.real X net.size i (cls i))
    (y : Mat) (A : Nat → Nat → F64) (hA : IsMat w y r (net.dim 0) A) (fA : ∀ i k, i < r → k < net.dim 0 → (A i k).Finite)
    (h : ∀ i k, i < r → k < net.dim 0 → |(A i k).val - X i k| ≤ d) (hs : NetSafe net r (fun i k => (A i k).val) fun _ _ => 0)
    (he : ∀ i j, i < r → j < net.dim net.size → netErr net.real (fun i k => (A i k).val) (fun _ _ => 0) net.size i j ≤ e) :
    wp (predict m y) w (fun p w' => p.2 = none ∧ Fresh w w' p.1 r 1 (fun i _ => Flt.ofInt (cls i))) := by
  refine C99_classify w m net hN h0 y r A hA fL (fun i k => (A i k).val) (fun _ _ => 0)
    (fun i k hi hk => ⟨fA i k hi hk, by simp⟩) hs hacc cls fun i hi => ?_
  have hl := fun j hj => abs_le.1 (net_lip (net := net.real) (fun k hk => hN.ins k hk) (fun k hk => hN.outs k hk) (n := net.size) le_rfl
    (fun i k => (A i k).val) X i d hd (fun k hk => h i k hi hk) j hj)
  obtain ⟨c1, c2, c3⟩ := hcls i hi
  refine ⟨c1, ?_, fun j hj hne => ?_⟩
  · linarith [(hl _ c1).1, he i _ hi c1]
  · linarith [(hl _ c1).1, (hl j hj).2, c3 j hj hne, he i _ hi c1, he i j hi hj]

/-- C143 (tight): the constant of one linear layer cannot be improved: some change of the inputs by d changes an output by exactly
the constant times d. -/
theorem C143_tight (L : LayerSpec ℝ) (hk : L.kind = .linear) (ho : 0 < L.o) (X : Nat → Nat → ℝ) (d : ℝ) (hd : 0 ≤ d) :
    ∃ (Y : Nat → Nat → ℝ) (j : Nat), j < L.o ∧ (∀ i k, |X i k - Y i k| ≤ d) ∧ ∀ i, |infer L X i j - infer L Y i j| = layerLip L * d := by
  have hf : ∀ j, 0 ≤ ∑ k ∈ range L.n, |L.W k j| := fun j => sum_nonneg fun _ _ => abs_nonneg _
  obtain ⟨j, hj, e⟩ := exists_mem_eq_sup (range L.o) ⟨0, mem_range.2 ho⟩ fun j => (∑ k ∈ range L.n, |L.W k j|).toNNReal
  have hmax : maxOf L.o (fun j => ∑ k ∈ range L.n, |L.W k j|) = ∑ k ∈ range L.n, |L.W k j| := by
    unfold maxOf
    rw [e]
    exact Real.coe_toNNReal _ (hf j)
  refine ⟨fun i k => X i k - d * (if 0 ≤ L.W k j then 1 else -1), j, mem_range.1 hj, fun i k => ?_, fun i => ?_⟩
  · dsimp only
    rw [sub_sub_cancel, abs_mul, abs_of_nonneg hd]
    split <;> simp
  · unfold infer layerLip
    rw [hk, hmax]
    simp only [actRow, actLip, preact_real, one_mul]
    rw [add_sub_add_right_eq_sub, ← sum_sub_distrib]
    have : ∀ k ∈ range L.n, X i k * L.W k j - (X i k - d * (if 0 ≤ L.W k j then 1 else -1)) * L.W k j = |L.W k j| * d := by
      intro k _
      split
      · rename_i hw
        rw [abs_of_nonneg hw]; ring
      · rename_i hw
        rw [abs_of_neg (not_le.1 hw)]; ring
    rw [sum_congr rfl this, ← sum_mul, abs_of_nonneg (mul_nonneg (hf j) hd)]

/-- The constant of the network of C99's example is 4·1/2 = 2. -/
theorem round_lip [Libm] {net : Net ℝ} (h : ∀ k, net.L k = (roundL k).real) : netLip net 2 = 2 := by
  have hm : ∀ c : ℝ, 0 ≤ c → ∀ e : Nat → ℝ, (∀ j, j < 2 → e j = c) → maxOf 2 e = c := by
    intro c hc e he
    exact le_antisymm (maxOf_le hc fun j hj => (he j hj).le) ((he 0 (by norm_num)).symm.le.trans (le_maxOf (by norm_num)))
  unfold netLip
  rw [prod_range_succ, prod_range_one, h, h, roundL_real, roundL_real]
  unfold layerLip
  dsimp only
  rw [hm 4 (by norm_num) _ ?_, hm 1 (by norm_num) _ ?_]
  · simp only [actLip, if_true, one_ne_zero, if_false]
    norm_num
  · intro j hj
    interval_cases j <;> norm_num [sum_range_succ]
  · intro j hj
    interval_cases j <;> norm_num [sum_range_succ]

/-- The hypotheses of C143_classify, C143_binary and C143_forward hold together: two layers, three rows (1, 0), the class is 0 for all
inputs whose entries differ by at most 1/10. -/
example [Libm] (m0 : Model ℝ) : ∃ (w : World ℝ) (m : Model ℝ) (net : Net ℝ) (y : Mat) (Y : Nat → Nat → ℝ), IsNet w m net ∧ 0 < net.size ∧
    m.accType = 1 ∧ (∀ i, i < 3 → 0 < net.dim net.size ∧ netLip net net.size * (1 / 10) < netOut net roundX net.size i 0 ∧
      ∀ j, j < net.dim net.size → j ≠ 0 → netOut net roundX net.size i j + 2 * (netLip net net.size * (1 / 10)) < netOut net roundX net.size i 0) ∧
    IsMat w y 3 (net.dim 0) Y ∧ (∀ i k, i < 3 → k < net.dim 0 → |Y i k - roundX i k| ≤ 1 / 10) ∧ Y 0 0 ≠ roundX 0 0 := by
  obtain ⟨w, net, y, h1, h2, h3, h4, -, h5, -⟩ := exists_net (α := ℝ) 2 (fun k => (roundL k).real) (fun i => by simp [roundL, LayerSpec.real])
    (fun i => rfl) { m0 with accType := 1 } (r := 3) (by decide) (fun i k => roundX i k - 1 / 10)
  have hd : ∀ i, net.dim i = 2 := fun i => by rw [h3]; rfl
  have hl : ∀ k, net.L k = (roundL k).real := fun k => by rw [h2]
  have hr0 : ∀ i j, netOut net roundX 1 i j = infer (roundL 0).real roundX i j := fun i j => by rw [← hl]; rfl
  have hr1 : ∀ i j, netOut net roundX 2 i j = infer (roundL 1).real (netOut net roundX 1) i j := fun i j => by rw [← hl]; rfl
  have r1 := fun i => round1 i (netOut net roundX 1) (fun _ _ => 0)
    (fun j hj => by rw [hr0]; exact (round0 i).1 j hj) (fun j hj => ⟨le_rfl, by norm_num⟩)
  refine ⟨w, _, net, y, _, h4, by omega, rfl, fun i _ => ?_, h5, fun i k _ _ => ?_, ?_⟩
  · obtain ⟨a, b, -⟩ := r1 i
    rw [h1, hd, round_lip hl]
    refine ⟨by norm_num, by rw [hr1]; linarith, fun j hj hne => ?_⟩
    obtain rfl : j = 1 := by omega
    rw [hr1, hr1]
    linarith
  · rw [sub_sub_cancel_left, abs_neg]
    norm_num
  · norm_num

/-- The hypotheses of C143_float hold together, with rounding errors of at most 1/100 and inputs that may differ by 1/10. -/
example [Libm] (m0 : Model F64) : ∃ (w : World F64) (m : Model F64) (net : Net F64) (y : Mat) (A : Nat → Nat → F64), IsNet w m net ∧
    0 < net.size ∧ m.accType = 1 ∧ (∀ k, k < net.size → (net.L k).Finite) ∧
    (∀ i, i < 3 → 0 < net.dim net.size ∧ netLip net.real net.size * (1 / 10) + 1 / 100 < netOut net.real roundX net.size i 0 ∧
      ∀ j, j < net.dim net.size → j ≠ 0 →
        netOut net.real roundX net.size i j + 2 * (netLip net.real net.size * (1 / 10) + 1 / 100) < netOut net.real roundX net.size i 0) ∧
    IsMat w y 3 (net.dim 0) A ∧ (∀ i k, i < 3 → k < net.dim 0 → (A i k).Finite) ∧
    (∀ i k, i < 3 → k < net.dim 0 → |(A i k).val - roundX i k| ≤ 1 / 10) ∧ NetSafe net 3 (fun i k => (A i k).val) (fun _ _ => 0) ∧
    ∀ i j, i < 3 → j < net.dim net.size → netErr net.real (fun i k => (A i k).val) (fun _ _ => 0) net.size i j ≤ 1 / 100 := by
  let A : Nat → Nat → F64 := fun _ k => Flt.ofInt (if k = 0 then 1 else 0)
  obtain ⟨w, net, y, h1, h2, h3, h4, -, h5, -⟩ := exists_net (α := F64) 2 roundL (fun i => by simp [roundL]) (fun i => rfl)
    { m0 with accType := 1 } (r := 3) (by decide) A
  have hA : ∀ i k, (A i k).val = roundX i k ∧ (A i k).Finite := by
    intro i k
    have := ofInt_f64 (if k = 0 then 1 else 0) (by split_ifs <;> norm_num)
    refine ⟨?_, this.2⟩
    show (Flt.ofInt (if k = 0 then 1 else 0) : F64).val = _
    rw [this.1]
    unfold roundX
    split_ifs <;> norm_num
  have hAX : (fun i k => (A i k).val) = roundX := by funext i k; exact (hA i k).1
  have hd : ∀ i, net.dim i = 2 := fun i => by rw [h3]; rfl
  have hl : ∀ k, net.real.L k = (roundL k).real := fun k => by rw [← h2]; rfl
  have hr0 : ∀ i j, netOut net.real roundX 1 i j = infer (roundL 0).real roundX i j := fun i j => by rw [← hl]; rfl
  have he0 : ∀ i j, netErr net.real roundX (fun _ _ => 0) 1 i j = layerErr (roundL 0).real roundX (fun _ _ => 0) i j := fun i j => by rw [← hl]; rfl
  have hr1 : ∀ i j, netOut net.real roundX 2 i j = infer (roundL 1).real (netOut net.real roundX 1) i j := fun i j => by rw [← hl]; rfl
  have he1 : ∀ i j, netErr net.real roundX (fun _ _ => 0) 2 i j =
      layerErr (roundL 1).real (netOut net.real roundX 1) (netErr net.real roundX (fun _ _ => 0) 1) i j := fun i j => by rw [← hl]; rfl
  have r1 := fun i => round1 i (netOut net.real roundX 1) (netErr net.real roundX (fun _ _ => 0) 1)
    (fun j hj => by rw [hr0]; exact (round0 i).1 j hj) (fun j hj => by rw [he0]; exact (round0 i).2.1 j hj)
  refine ⟨w, _, net, y, A, h4, by omega, rfl, fun k _ => by rw [h2]; exact roundL_finite k, fun i _ => ?_, h5, fun i k _ _ => (hA i k).2,
    fun i k _ _ => by rw [(hA i k).1]; norm_num, ?_, ?_⟩
  · obtain ⟨a, b, -⟩ := r1 i
    rw [h1, hd, round_lip hl]
    refine ⟨by norm_num, by rw [hr1]; linarith, fun j hj hne => ?_⟩
    obtain rfl : j = 1 := by omega
    rw [hr1, hr1]
    linarith
  · rw [hAX]
    intro k i hk _
    rw [h1] at hk
    rw [h2]
    interval_cases k
    · exact (round0 i).2.2
    · exact (r1 i).2.2.2
  · rw [hAX]
    intro i j _ hj
    rw [h1] at hj ⊢
    rw [hd] at hj
    rw [he1]
    exact (r1 i).2.2.1 j hj

end NN
