import Verif.Model.Fma
import Verif.IEEE.Libm
import Verif.Lemmas.RoundSoftmax
import Verif.Lemmas.Build
/- Inference with fused multiply-add (Verif.Model.Fma): error bounds and execution lemmas. -/

set_option linter.unusedSectionVars false

namespace NN
open Finset F64 Go

theorem F64.fma_fin {x y z : F64} (hx : x.Finite) (hy : y.Finite) (hz : z.Finite) :
    fma x y z = round ((x.sign != y.sign) && z.sign) (x.val * y.val + z.val) := by
  obtain ⟨x1, x2⟩ := not_special hx
  obtain ⟨y1, y2⟩ := not_special hy
  obtain ⟨z1, z2⟩ := not_special hz
  unfold fma
  rw [x1, x2, y1, y2, z1, z2]
  simp

theorem F64.fma_err {x y z : F64} (hx : x.Finite) (hy : y.Finite) (hz : z.Finite) (h : |x.val * y.val + z.val| ≤ big) :
    (fma x y z).Finite ∧ |(fma x y z).val - (x.val * y.val + z.val)| ≤ ueps * |x.val * y.val + z.val| + tiny := by
  rw [fma_fin hx hy hz]
  have hf := round_finite (s := (x.sign != y.sign) && z.sign) h
  exact ⟨hf, round_err hf⟩

theorem F64.sign_of_val {x : F64} (h : x.val ≠ 0) : x.sign = decide (x.val < 0) := by
  have hm := mag_nonneg x.absBits
  unfold val at h ⊢
  cases hs : x.sign
  · simp [hm]
  · rw [hs] at h
    simp only [if_true, ne_eq, neg_eq_zero] at h
    have : 0 < mag x.absBits := lt_of_le_of_ne hm (Ne.symm h)
    simp [this]

/-- The sign of a product of finite numbers, also where it is zero. -/
theorem F64.mul_sign {x y : F64} (hx : x.Finite) (hy : y.Finite) : (mul x y).sign = (x.sign != y.sign) := by
  rw [mul_fin hx hy]
  unfold F64.round
  by_cases h : x.val * y.val = 0
  · rw [if_pos h]
    unfold F64.zero
    exact sign_mk' _ (by norm_num)
  · rw [if_neg h, sign_mk']
    · have h1 : x.val ≠ 0 := left_ne_zero_of_mul h
      have h2 : y.val ≠ 0 := right_ne_zero_of_mul h
      rw [sign_of_val h1, sign_of_val h2]
      rcases lt_or_gt_of_ne h1 with a | a <;> rcases lt_or_gt_of_ne h2 with b | b
      · simp [a, b, (mul_pos_of_neg_of_neg a b).le]
      · simp [a, b.le, mul_neg_of_neg_of_pos a b]
      · simp [a.le, b, mul_neg_of_pos_of_neg a b]
      · rw [decide_eq_false (not_lt.2 a.le), decide_eq_false (not_lt.2 b.le), decide_eq_false (not_lt.2 (mul_pos a b).le)]
        rfl
    · refine lt_of_le_of_lt ?_ infBits_lt
      unfold roundBits
      generalize (ulpExp |x.val * y.val| + 1074) * 2 ^ 52 + roundEven (|x.val * y.val| / (2 : ℝ) ^ ulpExp |x.val * y.val|) = b
      show (if (infBits : ℤ) ≤ b then infBits else b.toNat) ≤ infBits
      split <;> omega

/-- Where the product is a float64, one rounding and two give the same, for every z. -/
theorem F64.fma_exact {x y : F64} (hx : x.Finite) (hy : y.Finite) (h : (mul x y).Finite) (hv : (mul x y).val = x.val * y.val) (z : F64) :
    fma x y z = add z (mul x y) := by
  obtain ⟨x1, x2⟩ := not_special hx
  obtain ⟨y1, y2⟩ := not_special hy
  obtain ⟨p1, p2⟩ := not_special h
  cases hz : z.isNaN
  · cases hi : z.isInf
    · have hf := not_inf hz hi
      rw [fma_fin hx hy hf, add_fin hf h, hv, mul_sign hx hy, add_comm, Bool.and_comm]
    · unfold fma add
      rw [x1, x2, y1, y2, hz, hi, p1, p2]
      simp
  · unfold fma add
    rw [hz]
    simp

theorem F64.eq_inf {x : F64} (h : x.isInf = true) : x = inf x.sign := by
  unfold isInf at h
  rw [decide_eq_true_eq] at h
  unfold inf
  rw [← h, mk'_self]

theorem F64.inf_is (s : Bool) : (inf s).isInf = true ∧ (inf s).isNaN = false ∧ (inf s).sign = s := by
  unfold inf isInf isNaN
  rw [absBits_mk' _ infBits_lt, sign_mk' _ infBits_lt]
  simp

theorem F64.nan_is : nan.isNaN = true := by
  unfold isNaN nan
  rw [absBits_mk' _ (by unfold infBits; norm_num)]
  unfold infBits; norm_num

/-- With an infinite factor or NaN there is nothing to round. -/
theorem F64.fma_special {x y : F64} (h : ¬ (x.Finite ∧ y.Finite)) (z : F64) : fma x y z = add z (mul x y) := by
  by_cases h1 : (x.isNaN || y.isNaN) = true
  · unfold fma add mul
    rw [if_pos h1, if_pos (by simp only [Bool.or_eq_true] at h1 ⊢; tauto)]
    simp [nan_is]
  by_cases h2 : ((x.isInf && y.isZero) || (x.isZero && y.isInf)) = true
  · have hm : mul x y = nan := by unfold mul; rw [if_neg h1, if_pos h2]
    unfold fma add
    rw [hm, if_pos h2]
    simp [nan_is]
  have h3 : (x.isInf || y.isInf) = true := by
    by_contra h3
    simp only [Bool.or_eq_true, not_or, Bool.not_eq_true] at h1 h3
    exact h ⟨not_inf h1.1 h3.1, not_inf h1.2 h3.2⟩
  have hm : mul x y = inf (x.sign != y.sign) := by unfold mul; rw [if_neg h1, if_neg h2, if_pos h3]
  obtain ⟨i1, i2, i3⟩ := inf_is (x.sign != y.sign)
  unfold fma add
  rw [hm, i1, i2, i3, if_neg h2, if_pos h3]
  rw [Bool.not_eq_true] at h1
  rw [h1]
  cases hz : z.isNaN
  · cases hi : z.isInf
    · simp
    · simp only [Bool.or_self, Bool.false_eq_true, if_false, Bool.true_and, if_true]
      split
      · rfl
      · next hs =>
        have e := eq_inf hi
        simp only [bne_iff_ne, ne_eq, not_not] at hs
        rw [e, hs]
  · simp

variable [Libm]

/-- A sum of products, some of the steps fused. -/
noncomputable def sumFma (fuse : Nat → Bool) (n : Nat) (a b : Nat → F64) : F64 := accN n (fun k s => mulAdd (fuse k) (a k) (b k) s) Flt.zero

theorem sumFma_succ (fuse : Nat → Bool) (n : Nat) (a b : Nat → F64) :
    sumFma fuse (n + 1) a b = mulAdd (fuse n) (a n) (b n) (sumFma fuse n a b) := rfl

/-- `dot_err` for every choice of fused steps. -/
theorem dotFma_err (fuse : Nat → Bool) (n : Nat) (a b : Nat → F64) (ha : ∀ k, k < n → (a k).Finite) (hb : ∀ k, k < n → (b k).Finite)
    (hs : (1 + ueps) ^ (n + 1) * ∑ k ∈ range n, |(a k).val * (b k).val| + n * (1 + ueps) ^ n * tiny ≤ big) :
    (sumFma fuse n a b).Finite ∧
    |(sumFma fuse n a b).val - ∑ k ∈ range n, (a k).val * (b k).val| ≤
      gam (n + 1) * ∑ k ∈ range n, |(a k).val * (b k).val| + n * (1 + ueps) ^ n * tiny := by
  have hu := ueps_pos
  have ht := tiny_pos
  induction n with
  | zero =>
    obtain ⟨z1, z2⟩ := f64_int (n := 0) (by norm_num) (by norm_num)
    refine ⟨z2, ?_⟩
    rw [show (sumFma fuse 0 a b).val = 0 by rw [show sumFma fuse 0 a b = Flt.ofInt 0 from rfl, z1]; norm_num]
    simp
  | succ n ih =>
    have hp := one_le_pow_ueps n
    have hA : 0 ≤ ∑ k ∈ range n, |(a k).val * (b k).val| := sum_nonneg fun _ _ => abs_nonneg _
    set A := ∑ k ∈ range n, |(a k).val * (b k).val| with hAdef
    set S := ∑ k ∈ range n, (a k).val * (b k).val with hSdef
    have hSA : |S| ≤ A := abs_sum_le_sum_abs _ _
    rw [sum_range_succ, ← hAdef] at hs
    rw [sum_range_succ, sum_range_succ, ← hAdef, ← hSdef]
    set c := |(a n).val * (b n).val| with hc
    have hc0 : 0 ≤ c := abs_nonneg _
    set q := (1 + ueps) ^ n with hq
    have e1 : (1 + ueps) ^ (n + 1) = q * (1 + ueps) := pow_succ _ _
    have e2 : (1 + ueps) ^ (n + 1 + 1) = q * (1 + ueps) * (1 + ueps) := by rw [pow_succ, e1]
    rw [e2, e1] at hs
    rw [e1] at ih
    push_cast at hs
    have hn0 : (0 : ℝ) ≤ n := Nat.cast_nonneg n
    have hqu : q ≤ q * (1 + ueps) := by nlinarith
    have hquu : q * (1 + ueps) ≤ q * (1 + ueps) * (1 + ueps) := by nlinarith
    -- everything stays below `big`
    have k1 : q * (1 + ueps) * (A + c) + (n + 1) * q * tiny ≤ big := by
      refine le_trans ?_ hs
      have h1 : q * (1 + ueps) * (A + c) ≤ q * (1 + ueps) * (1 + ueps) * (A + c) := mul_le_mul_of_nonneg_right hquu (by linarith)
      have h2 : (n + 1) * q * tiny ≤ (n + 1) * (q * (1 + ueps)) * tiny :=
        mul_le_mul_of_nonneg_right (mul_le_mul_of_nonneg_left hqu (by linarith)) ht.le
      linarith
    have k2 : q * (1 + ueps) * A + n * q * tiny ≤ big := by
      refine le_trans ?_ k1
      have h1 : q * (1 + ueps) * A ≤ q * (1 + ueps) * (A + c) := mul_le_mul_of_nonneg_left (by linarith) (by positivity)
      have h2 : n * q * tiny ≤ (n + 1) * q * tiny := mul_le_mul_of_nonneg_right (mul_le_mul_of_nonneg_right (by linarith) (by linarith)) ht.le
      linarith
    obtain ⟨f1, d1⟩ := ih (fun k hk => ha k (by omega)) (fun k hk => hb k (by omega)) k2
    have g1 : gam (n + 1) = q * (1 + ueps) - 1 := by unfold gam; rw [e1]
    have g2 : gam (n + 1 + 1) = q * (1 + ueps) * (1 + ueps) - 1 := by unfold gam; rw [e2]
    rw [g1] at d1
    rw [g2, e1]
    push_cast
    have k3 : c ≤ big := by
      have h1 : c ≤ q * (1 + ueps) * (A + c) := by nlinarith [mul_nonneg (by linarith : 0 ≤ q * (1 + ueps) - 1) (by linarith : 0 ≤ A + c)]
      have h2 : 0 ≤ (n + 1) * q * tiny := by positivity
      linarith
    rw [sumFma_succ]
    unfold mulAdd
    by_cases hfu : fuse n = true
    · rw [if_pos hfu]
      set s := sumFma fuse n a b with hsdef
      have hx : |(a n).val * (b n).val + s.val - (S + (a n).val * (b n).val)| ≤ (q * (1 + ueps) - 1) * A + n * q * tiny := by
        have : (a n).val * (b n).val + s.val - (S + (a n).val * (b n).val) = s.val - S := by ring
        rw [this]
        exact d1
      have hSc : |S + (a n).val * (b n).val| ≤ A + c := (abs_add_le _ _).trans (add_le_add hSA le_rfl)
      have hsp : |(a n).val * (b n).val + s.val| ≤ A + c + ((q * (1 + ueps) - 1) * A + n * q * tiny) :=
        (abs_le_add_of hx).trans (by linarith)
      have hmul : (1 + ueps) * c ≤ q * (1 + ueps) * c := mul_le_mul_of_nonneg_right (le_mul_of_one_le_left (by linarith) hp) hc0
      have hcu : c ≤ (1 + ueps) * c := le_mul_of_one_le_left hc0 (by linarith)
      have htq : tiny ≤ q * tiny := le_mul_of_one_le_left ht.le hp
      have hsp' : |(a n).val * (b n).val + s.val| ≤ big := by
        refine hsp.trans (le_trans ?_ k1)
        linarith
      obtain ⟨f3, d3⟩ := fma_err (ha n (by omega)) (hb n (by omega)) f1 hsp'
      refine ⟨f3, ?_⟩
      have : (fma (a n) (b n) s).val - (S + (a n).val * (b n).val) =
          ((fma (a n) (b n) s).val - ((a n).val * (b n).val + s.val)) + ((a n).val * (b n).val + s.val - (S + (a n).val * (b n).val)) := by ring
      rw [this]
      refine (abs_add_le _ _).trans ?_
      have h4 : ueps * |(a n).val * (b n).val + s.val| ≤ ueps * (A + c + ((q * (1 + ueps) - 1) * A + n * q * tiny)) :=
        mul_le_mul_of_nonneg_left hsp hu.le
      refine (add_le_add (d3.trans (add_le_add_left h4 _)) hx).trans ?_
      have h5 : q * tiny ≤ q * (1 + ueps) * tiny := mul_le_mul_of_nonneg_right hqu ht.le
      have h6 : (1 + ueps) * (1 + ueps) * c ≤ q * (1 + ueps) * (1 + ueps) * c :=
        mul_le_mul_of_nonneg_right (mul_le_mul_of_nonneg_right (le_mul_of_one_le_left (by linarith) hp) (by linarith)) hc0
      have h7 : (1 + ueps) * c ≤ (1 + ueps) * (1 + ueps) * c := mul_le_mul_of_nonneg_right (le_mul_of_one_le_left (by linarith) (by linarith)) hc0
      linarith
    · rw [if_neg hfu]
      obtain ⟨f2, d2⟩ := mul_err (ha n (by omega)) (hb n (by omega)) k3
      set s := sumFma fuse n a b with hsdef
      set p := F64.mul (a n) (b n) with hpdef
      have hx : |s.val + p.val - (S + (a n).val * (b n).val)| ≤ (q * (1 + ueps) - 1) * A + n * q * tiny + (ueps * c + tiny) := by
        have : s.val + p.val - (S + (a n).val * (b n).val) = (s.val - S) + (p.val - (a n).val * (b n).val) := by ring
        rw [this]
        exact (abs_add_le _ _).trans (add_le_add d1 d2)
      have hSc : |S + (a n).val * (b n).val| ≤ A + c := (abs_add_le _ _).trans (add_le_add hSA le_rfl)
      have hsp : |s.val + p.val| ≤ A + c + ((q * (1 + ueps) - 1) * A + n * q * tiny + (ueps * c + tiny)) :=
        (abs_le_add_of hx).trans (by linarith)
      have hmul : (1 + ueps) * c ≤ q * (1 + ueps) * c := mul_le_mul_of_nonneg_right (le_mul_of_one_le_left (by linarith) hp) hc0
      have htq : tiny ≤ q * tiny := le_mul_of_one_le_left ht.le hp
      have hsp' : |s.val + p.val| ≤ big := by
        refine hsp.trans (le_trans ?_ k1)
        linarith
      obtain ⟨f3, d3⟩ := add_err f1 f2 hsp'
      refine ⟨f3, ?_⟩
      show |(F64.add s p).val - (S + (a n).val * (b n).val)| ≤ _
      have : (F64.add s p).val - (S + (a n).val * (b n).val) =
          ((F64.add s p).val - (s.val + p.val)) + (s.val + p.val - (S + (a n).val * (b n).val)) := by ring
      rw [this]
      refine (abs_add_le _ _).trans ?_
      have h4 : ueps * |s.val + p.val| ≤ ueps * (A + c + ((q * (1 + ueps) - 1) * A + n * q * tiny + (ueps * c + tiny))) :=
        mul_le_mul_of_nonneg_left hsp hu.le
      refine (add_le_add (d3.trans h4) hx).trans ?_
      have h5 : 0 ≤ ueps * (q - 1) * tiny := mul_nonneg (mul_nonneg hu.le (by linarith)) ht.le
      have h6 : (1 + ueps) * (1 + ueps) * c ≤ q * (1 + ueps) * (1 + ueps) * c :=
        mul_le_mul_of_nonneg_right (mul_le_mul_of_nonneg_right (le_mul_of_one_le_left (by linarith) hp) (by linarith)) hc0
      linarith

/-- One rounding and two give the same if the product of finite factors is a float64. -/
theorem mulAdd_exact {x y : F64} (h : x.Finite → y.Finite → (F64.mul x y).Finite ∧ (F64.mul x y).val = x.val * y.val) (fused : Bool) (z : F64) :
    mulAdd fused x y z = z +. x *. y := by
  cases fused
  · rfl
  · show fma x y z = F64.add z (F64.mul x y)
    by_cases hf : x.Finite ∧ y.Finite
    · obtain ⟨h1, h2⟩ := h hf.1 hf.2
      exact fma_exact hf.1 hf.2 h1 h2 z
    · exact fma_special hf z

theorem sumFma_exact (fuse : Nat → Bool) (n : Nat) (a b : Nat → F64) (h : ∀ k, k < n → (a k).Finite → (b k).Finite →
      (F64.mul (a k) (b k)).Finite ∧ (F64.mul (a k) (b k)).val = (a k).val * (b k).val) :
    sumFma fuse n a b = fsum n fun k => a k *. b k := by
  induction n with
  | zero => rfl
  | succ n ih =>
    rw [sumFma_succ, ih fun k hk => h k (by omega), mulAdd_exact (h n (by omega))]
    rfl

/-! ### Execution -/

/-- XW + b. -/
noncomputable def preactFma (fuse : Nat → Nat → Nat → Bool) (L : LayerSpec F64) (X : Nat → Nat → F64) (i j : Nat) : F64 :=
  sumFma (fuse i j) L.n (fun k => X i k) (fun k => L.W k j) +. L.b j

noncomputable def inferFma (fuse : Nat → Nat → Nat → Bool) (L : LayerSpec F64) (X : Nat → Nat → F64) (i j : Nat) : F64 :=
  actRow L.kind L.slope L.o (preactFma fuse L X i) j

noncomputable def netOutFma (fuse : Nat → Nat → Nat → Nat → Bool) (net : Net F64) (X : Nat → Nat → F64) : Nat → Nat → Nat → F64
  | 0 => X
  | k + 1 => inferFma (fuse k) (net.L k) (netOutFma fuse net X k)

theorem dotFma_spec (fuse : Nat → Nat → Nat → Bool) {w : World F64} {m b : Mat} {r n c : Nat} {A B : Nat → Nat → F64} (hA : IsMat w m r n A)
    (hB : IsMat w b n c B) :
    wp (m.dotFma fuse b) w (fun p w' => p.2 = none ∧ NewMat w w' p.1 r c (fun i j => sumFma (fuse i j) n (fun k => A i k) (fun k => B k j))) := by
  unfold Mat.dotFma
  rw [if_neg (by rw [hA.cols, hB.rows]; simp)]
  rw [hA.rows, hA.cols, hB.cols, Int.toNat_natCast, Int.toNat_natCast, Int.toNat_natCast]
  refine wp_bind_mono (newMatrix_spec hA.rpos hB.cpos) ?_
  rintro ⟨ans, e⟩ w0 ⟨_, hm⟩
  refine wp_bind_mono (wp_fill (V := fun i j => sumFma (fuse i j) n (fun k => A i k) (fun k => B k j)) hm.mat ?_)
    fun _ w' hw' => ⟨rfl, hm.set hw'⟩
  intro i j w1 hi hj hw1
  refine wp_bind_mono (wp_foldN_read (fun k s => mulAdd (fuse i j k) (A i k) (B k j) s) ?_) ?_
  · intro k s hk
    rw [wp_bind, wp_at (hm.old hw1 hA) hi hk, wp_bind, wp_at (hm.old hw1 hB) hk hj]
    exact ⟨rfl, rfl⟩
  · rintro s w2 ⟨rfl, rfl⟩
    exact hw1.put hm.distinct hi hj rfl

theorem affineFma_spec (fuse : Nat → Nat → Nat → Bool) {w : World F64} {lp : Nat} {wm bm : Mat} {L : LayerSpec F64} (hL : IsLayer w lp wm bm L)
    {x : Mat} {r : Nat} {X : Nat → Nat → F64} (hX : IsMat w x r L.n X) :
    wp (affineFma fuse (w.lay lp) x) w (fun p w' => p.2 = none ∧ NewMat w w' p.1 r L.o (preactFma fuse L X)) := by
  unfold affineFma
  rw [if_neg (by rw [hX.cols, hL.ins]; simp), hL.weights]
  refine wp_bind_ok rfl ?_
  refine wp_bind_mono (dotFma_spec fuse hX hL.wmat) ?_
  rintro ⟨out, e⟩ w1 ⟨rfl, h1⟩
  dsimp only
  rw [h1.mat.rows, h1.mat.cols, Int.toNat_natCast, Int.toNat_natCast]
  refine wp_bind_mono (wp_fill (V := preactFma fuse L X) h1.mat ?_) fun _ w' hw' => ⟨rfl, h1.set hw'⟩
  intro i j w2 hi hj hw2
  rw [wp_bind, wp_at hw2.mat hi hj, mix_self, hL.biases]
  refine wp_bind_ok rfl ?_
  have h0 : wp (bm.at 0 (j : Int)) w2 (fun v w3 => v = L.b j ∧ w3 = w2) :=
    (wp_at (i := 0) (h1.old hw2 hL.bmat) Nat.one_pos hj).2 ⟨rfl, rfl⟩
  refine wp_bind_mono h0 ?_
  rintro _ w3 ⟨rfl, rfl⟩
  exact hw2.put h1.distinct hi hj rfl

theorem stepFma_spec (fuse : Nat → Nat → Nat → Bool) {w : World F64} {lp : Nat} {wm bm : Mat} {L : LayerSpec F64} (hL : IsLayer w lp wm bm L)
    {x : Mat} {r : Nat} {X : Nat → Nat → F64} (hX : IsMat w x r L.n X) :
    wp (forwardStepFma fuse lp x) w (fun p w' => p.2 = none ∧ FwdOk w w' lp L r p.1 (inferFma fuse L X)) := by
  unfold forwardStepFma
  refine wp_bind_ok rfl ?_
  refine wp_bind_mono (affineFma_spec fuse hL hX) ?_
  rintro ⟨out, e⟩ w1 ⟨he, h1⟩
  obtain rfl : e = none := he
  dsimp only at h1 ⊢
  unfold activate
  split
  next hk =>
    have hkind := hL.kind.symm.trans hk
    refine wp_bind_ok rfl ?_
    have hf := frame_laySet w1 lp { w.lay lp with reluInputs := out }
    refine wp_bind_mono (relu_spec (h1.mat.frame hf (fun h => h) fun _ _ h => h)
      ((distinctRows_eq rfl).2 h1.distinct)) ?_
    rintro out w2 ⟨rfl, h2⟩
    obtain ⟨a, b, c⟩ := act_frame hL.lt h1 h2
    refine ⟨rfl, a.congr ?_, b, ?_⟩
    · intro i j _ _; simp [inferFma, actRow, hkind]
    · rw [c]; simp [remember, hkind]
  next hk =>
    have hkind := hL.kind.symm.trans hk
    refine wp_bind_ok rfl ?_
    have hf := frame_laySet w1 lp { w.lay lp with reluInputs := out }
    refine wp_bind_mono (relu_spec (h1.mat.frame hf (fun h => h) fun _ _ h => h)
      ((distinctRows_eq rfl).2 h1.distinct)) ?_
    rintro out w2 ⟨rfl, h2⟩
    obtain ⟨a, b, c⟩ := act_frame hL.lt h1 h2
    refine ⟨rfl, a.congr ?_, b, ?_⟩
    · intro i j _ _; simp [inferFma, actRow, hkind]
    · rw [c]; simp [remember, hkind]
  next hk =>
    have hkind := hL.kind.symm.trans hk
    refine ⟨rfl, h1.toFresh.congr ?_, h1.frame.mono (Foot.Le.empty _), ?_⟩
    · intro i j _ _; simp [inferFma, actRow, hkind]
    · rw [h1.frame.lay lp hL.lt (fun h => h)]; simp [remember, hkind]
  next hk =>
    have hkind := hL.kind.symm.trans hk
    refine wp_bind_mono (sigmoid_spec h1.mat h1.distinct) ?_
    rintro out w2 ⟨rfl, h2⟩
    have h3 := h1.set h2
    refine ⟨rfl, h3.toFresh.congr ?_, h3.frame.mono (Foot.Le.empty _), ?_⟩
    · intro i j _ _; simp [inferFma, actRow, hkind]
    · rw [h3.frame.lay lp hL.lt (fun h => h)]; simp [remember, hkind]
  next hk =>
    have hkind := hL.kind.symm.trans hk
    refine wp_bind_ok rfl ?_
    have hf := frame_laySet w1 lp { w.lay lp with reluInputs := out }
    refine wp_bind_mono (leakyRelu_spec _ (h1.mat.frame hf (fun h => h) fun _ _ h => h)
      ((distinctRows_eq rfl).2 h1.distinct)) ?_
    rintro out w2 ⟨rfl, h2⟩
    obtain ⟨a, b, c⟩ := act_frame hL.lt h1 h2
    refine ⟨rfl, a.congr ?_, b, ?_⟩
    · intro i j _ _; simp [inferFma, actRow, hkind, hL.slope]
    · rw [c]; simp [remember, hkind]
  next hk =>
    have hkind := hL.kind.symm.trans hk
    refine wp_bind_mono (softmax_spec h1.mat h1.distinct) ?_
    rintro out w2 ⟨rfl, h2⟩
    have h3 := h1.set h2
    refine wp_bind_ok rfl ?_
    have hf := frame_laySet w2 lp { w.lay lp with outputs := out }
    refine ⟨rfl, (h3.toFresh.frame hf (fun h => h) fun _ _ h => h).congr ?_, ?_, ?_⟩
    · intro i j _ _; simp [inferFma, actRow, hkind]
    · frames h3.frame hf
    · simp [remember, hkind]

theorem loopFma_spec (fuse : Nat → Nat → Nat → Nat → Bool) {w : World F64} {m : Model F64} {net : Net F64} (hN : IsNet w m net) {x : Mat} {r : Nat}
    {X : Nat → Nat → F64} (hX : IsMat w x r (net.dim 0) X) (n : Nat) (hn : n ≤ net.size) :
    wp (forwardLoopFma fuse m x n) w (fun p w' => p.1.length = n + 1 ∧ p.1[n]? = some p.2.1 ∧ p.2.2 = none ∧
      IsMat w' p.2.1 r (net.dim n) (netOutFma fuse net X n) ∧ (0 < n → Fresh w w' p.2.1 r (net.dim n) (netOutFma fuse net X n)) ∧
      Frame net.foot w w' ∧ Static w w') := by
  induction n with
  | zero =>
    unfold forwardLoopFma
    exact ⟨rfl, rfl, rfl, hX, fun h => absurd h (by omega),
      (Frame.refl {} w).weaken (fun _ _ h => h) (fun _ _ h => h) (fun _ _ h => h.elim) (fun _ _ h => h) False.elim id id, Static.refl w⟩
  | succ n ih =>
    unfold forwardLoopFma
    refine wp_bind_mono (ih (by omega)) ?_
    rintro ⟨outs, out, e⟩ w1 ⟨h1, h2, h3, h4, -, h6, h7⟩
    dsimp only at h1 h2 h3 h4 ⊢
    subst h3
    have hN1 : IsNet w1 m net := hN.frame h6 h7 (fun _ h => h) (fun _ _ h => h)
    refine wp_bind_ok (b := net.lp n) (w' := w1) ?_ ?_
    · simp [listGet, hN1.get_layer (i := n) (by omega)]; rfl
    have hL := hN1.lay n (by omega)
    have h4' : IsMat w1 out r (net.L n).n (netOutFma fuse net X n) := by rw [hN.ins n (by omega)]; exact h4
    refine wp_bind_mono (stepFma_spec (fuse n) hL h4') ?_
    rintro ⟨out', e⟩ w2 ⟨he, h8⟩
    obtain rfl : e = none := he
    dsimp only at h8 ⊢
    have hf : Frame net.foot w w2 := by
      frames h6 h8.frame
      rintro a _ rfl
      exact ⟨n, by omega, rfl⟩
    have hr := h8.res
    rw [hN.outs n (by omega)] at hr
    refine ⟨by simp [h1], by simp [← h1], rfl, hr.mat, fun _ => hr.mono h6.next_le, hf,
      h7.trans h6.next_le (Static.of_one h8.frame (fun _ h => h) (by rw [h8.mem, remember_static]))⟩

/-- After Forward without training: the last output is new and holds V. -/
structure InferredAs (w w' : World F64) (net : Net F64) (r : Nat) (V : Nat → Nat → F64) (out : Mat) : Prop where
  res : Fresh w w' out r (net.dim net.size) V
  frame : Frame net.foot w w'
  stat : Static w w'

theorem modelFma_spec (fuse : Nat → Nat → Nat → Nat → Bool) {w : World F64} {m : Model F64} {net : Net F64} (hN : IsNet w m net)
    (h0 : 0 < net.size) {x : Mat} {r : Nat} {X : Nat → Nat → F64} (hX : IsMat w x r (net.dim 0) X) :
    wp (modelForwardFma fuse m x) w (fun p w' => p.2 = none ∧
      ∃ out, p.1[net.size]? = some out ∧ InferredAs w w' net r (netOutFma fuse net X net.size) out) := by
  unfold modelForwardFma
  rw [hN.size, Int.toNat_natCast]
  refine wp_bind_mono (loopFma_spec fuse hN hX net.size (Nat.le_refl _)) ?_
  rintro ⟨outs, out, e⟩ w' ⟨-, h2, h3, -, h5, h6, h7⟩
  exact ⟨h3, out, h2, h5 h0, h6, h7⟩

theorem predictFma_spec (fuse : Nat → Nat → Nat → Nat → Bool) {w : World F64} {m : Model F64} {net : Net F64} (hN : IsNet w m net)
    (h0 : 0 < net.size) {x : Mat} {r : Nat} {X : Nat → Nat → F64} (hX : IsMat w x r (net.dim 0) X) :
    wp (predictFma fuse m x) w (fun p w' => (m.accType = 0 ∨ m.accType = 1 ∨ m.accType = 2 → p.2 = none ∧
        Fresh w w' p.1 r (if m.accType = 1 then 1 else net.dim net.size)
          (decoded m.accType (net.dim net.size) (netOutFma fuse net X net.size)))) := by
  unfold predictFma
  refine wp_bind_mono (modelFma_spec fuse hN h0 hX) ?_
  rintro ⟨outs, e⟩ w1 ⟨he, out, h1, h2⟩
  obtain rfl : e = none := he
  dsimp only at h1 ⊢
  have hl := listGet_size hN h1 w1
  by_cases t0 : m.accType = 0
  · rw [if_pos t0]
    refine wp_bind_ok hl ?_
    refine fun _ => ⟨rfl, ?_⟩
    rw [if_neg (by omega)]
    exact h2.res.congr fun i j _ _ => by simp [decoded, t0]
  · rw [if_neg t0]
    by_cases t1 : m.accType = 1
    · rw [if_pos t1]
      refine wp_bind_ok hl ?_
      refine wp_bind_mono (rowMax_spec h2.res.mat) ?_
      intro p w2 h3
      refine fun _ => ⟨rfl, ?_⟩
      rw [if_pos t1]
      exact (h3.toFresh.mono h2.frame.next_le).congr fun i j _ _ => by simp [decoded, t1]
    · rw [if_neg t1]
      by_cases t2 : m.accType = 2
      · rw [if_pos t2]
        refine wp_bind_ok hl ?_
        refine wp_bind_mono (outputBinaryValues_spec h2.res.mat h2.res.distinct) ?_
        rintro p w2 ⟨rfl, h3⟩
        refine fun _ => ⟨rfl, ?_⟩
        rw [if_neg t1]
        exact (h2.res.set h3).congr fun i j _ _ => by simp [decoded, t2]
      · rw [if_neg t2]
        exact fun h => by omega

end NN
