import Verif.Spec.Rounding
import Verif.Props.C83_C84
/- Proofs about the error of float64 inference. -/

set_option linter.unusedSectionVars false

namespace NN
open Finset F64 Go

theorem ueps_le : ueps ≤ 1 / 2 ^ 53 := by
  unfold ueps
  rw [show (-53 : ℤ) = -(53 : ℕ) by norm_num, zpow_neg, zpow_natCast]
  norm_num

theorem one_le_pow_ueps (n : Nat) : 1 ≤ (1 + ueps) ^ n := one_le_pow₀ (by have := ueps_pos; linarith)

theorem gam_nonneg (n : Nat) : 0 ≤ gam n := by unfold gam; have := one_le_pow_ueps n; linarith

/-- |a + (b - c)| bounds used again and again. -/
theorem abs_le_add_of {a b d : ℝ} (h : |a - b| ≤ d) : |a| ≤ |b| + d := by
  have := abs_add_le b (a - b)
  rw [show b + (a - b) = a by ring] at this
  linarith

/-- A sum of products, computed from left to right. -/
theorem dot_err [Libm] (n : Nat) (a b : Nat → F64) (ha : ∀ k, k < n → (a k).Finite) (hb : ∀ k, k < n → (b k).Finite)
    (hs : (1 + ueps) ^ (n + 1) * ∑ k ∈ range n, |(a k).val * (b k).val| + n * (1 + ueps) ^ n * tiny ≤ big) :
    (fsum n fun k => a k *. b k : F64).Finite ∧
    |(fsum n fun k => a k *. b k : F64).val - ∑ k ∈ range n, (a k).val * (b k).val| ≤
      gam (n + 1) * ∑ k ∈ range n, |(a k).val * (b k).val| + n * (1 + ueps) ^ n * tiny := by
  have hu := ueps_pos
  have ht := tiny_pos
  induction n with
  | zero =>
    obtain ⟨z1, z2⟩ := f64_int (n := 0) (by norm_num) (by norm_num)
    refine ⟨z2, ?_⟩
    rw [fsum, show (Flt.zero : F64).val = 0 by rw [show (Flt.zero : F64) = Flt.ofInt 0 from rfl, z1]; norm_num]
    simp
  | succ n ih =>
    have hp := one_le_pow_ueps n
    have hA : 0 ≤ ∑ k ∈ range n, |(a k).val * (b k).val| := sum_nonneg fun _ _ => abs_nonneg _
    set A := ∑ k ∈ range n, |(a k).val * (b k).val| with hAdef
    set S := ∑ k ∈ range n, (a k).val * (b k).val with hSdef
    have hSA : |S| ≤ A := abs_sum_le_sum_abs _ _
    rw [sum_range_succ, ← hAdef] at hs
    rw [sum_range_succ, sum_range_succ, ← hAdef, ← hSdef]
    set c := |(a n).val * (b n).val| with hc
    have hc0 : 0 ≤ c := abs_nonneg _
    set q := (1 + ueps) ^ n with hq
    have e1 : (1 + ueps) ^ (n + 1) = q * (1 + ueps) := pow_succ _ _
    have e2 : (1 + ueps) ^ (n + 1 + 1) = q * (1 + ueps) * (1 + ueps) := by rw [pow_succ, e1]
    rw [e2, e1] at hs
    rw [e1] at ih
    push_cast at hs
    have hn0 : (0 : ℝ) ≤ n := Nat.cast_nonneg n
    have hqu : q ≤ q * (1 + ueps) := by nlinarith
    have hquu : q * (1 + ueps) ≤ q * (1 + ueps) * (1 + ueps) := by nlinarith
    -- everything stays below `big`
    have k1 : q * (1 + ueps) * (A + c) + (n + 1) * q * tiny ≤ big := by
      refine le_trans ?_ hs
      have h1 : q * (1 + ueps) * (A + c) ≤ q * (1 + ueps) * (1 + ueps) * (A + c) := mul_le_mul_of_nonneg_right hquu (by linarith)
      have h2 : (n + 1) * q * tiny ≤ (n + 1) * (q * (1 + ueps)) * tiny :=
        mul_le_mul_of_nonneg_right (mul_le_mul_of_nonneg_left hqu (by linarith)) ht.le
      linarith
    have k2 : q * (1 + ueps) * A + n * q * tiny ≤ big := by
      refine le_trans ?_ k1
      have h1 : q * (1 + ueps) * A ≤ q * (1 + ueps) * (A + c) := mul_le_mul_of_nonneg_left (by linarith) (by positivity)
      have h2 : n * q * tiny ≤ (n + 1) * q * tiny := mul_le_mul_of_nonneg_right (mul_le_mul_of_nonneg_right (by linarith) (by linarith)) ht.le
      linarith
    obtain ⟨f1, d1⟩ := ih (fun k hk => ha k (by omega)) (fun k hk => hb k (by omega)) k2
    have g1 : gam (n + 1) = q * (1 + ueps) - 1 := by unfold gam; rw [e1]
    have g2 : gam (n + 1 + 1) = q * (1 + ueps) * (1 + ueps) - 1 := by unfold gam; rw [e2]
    rw [g1] at d1
    rw [g2, e1]
    push_cast
    have k3 : c ≤ big := by
      have h1 : c ≤ q * (1 + ueps) * (A + c) := by nlinarith [mul_nonneg (by linarith : 0 ≤ q * (1 + ueps) - 1) (by linarith : 0 ≤ A + c)]
      have h2 : 0 ≤ (n + 1) * q * tiny := by positivity
      linarith
    obtain ⟨f2, d2⟩ := mul_err (ha n (by omega)) (hb n (by omega)) k3
    set s := (fsum n fun k => a k *. b k : F64) with hsdef
    set p := F64.mul (a n) (b n) with hpdef
    have hx : |s.val + p.val - (S + (a n).val * (b n).val)| ≤ (q * (1 + ueps) - 1) * A + n * q * tiny + (ueps * c + tiny) := by
      have : s.val + p.val - (S + (a n).val * (b n).val) = (s.val - S) + (p.val - (a n).val * (b n).val) := by ring
      rw [this]
      exact (abs_add_le _ _).trans (add_le_add d1 d2)
    have hSc : |S + (a n).val * (b n).val| ≤ A + c := (abs_add_le _ _).trans (add_le_add hSA le_rfl)
    have hsp : |s.val + p.val| ≤ A + c + ((q * (1 + ueps) - 1) * A + n * q * tiny + (ueps * c + tiny)) :=
      (abs_le_add_of hx).trans (by linarith)
    have hmul : (1 + ueps) * c ≤ q * (1 + ueps) * c := mul_le_mul_of_nonneg_right (by nlinarith) hc0
    have htq : tiny ≤ q * tiny := by nlinarith
    have hsp' : |s.val + p.val| ≤ big := by
      refine hsp.trans (le_trans ?_ k1)
      linarith
    obtain ⟨f3, d3⟩ := add_err f1 f2 hsp'
    refine ⟨f3, ?_⟩
    show |(F64.add s p).val - (S + (a n).val * (b n).val)| ≤ _
    have : (F64.add s p).val - (S + (a n).val * (b n).val) =
        ((F64.add s p).val - (s.val + p.val)) + (s.val + p.val - (S + (a n).val * (b n).val)) := by ring
    rw [this]
    refine (abs_add_le _ _).trans ?_
    have h4 : ueps * |s.val + p.val| ≤ ueps * (A + c + ((q * (1 + ueps) - 1) * A + n * q * tiny + (ueps * c + tiny))) :=
      mul_le_mul_of_nonneg_left hsp hu.le
    refine (add_le_add (d3.trans h4) hx).trans ?_
    have h5 : 0 ≤ ueps * (q - 1) * tiny := mul_nonneg (mul_nonneg hu.le (by linarith)) ht.le
    have h6 : (1 + ueps) * (1 + ueps) * c ≤ q * (1 + ueps) * (1 + ueps) * c :=
      mul_le_mul_of_nonneg_right (mul_le_mul_of_nonneg_right (le_mul_of_one_le_left (by linarith) hp) (by linarith)) hc0
    linarith

/-- XW + b for one entry, where the sum s of products is within the bound of `dot_err`. -/
theorem preact_err_of [Libm] (L : LayerSpec F64) (hL : L.Finite) (x : Nat → F64) (X E : Nat → ℝ) (hx : ∀ k, k < L.n → Near (x k) (X k) (E k))
    (hs : PreSafe L.real X E) (j : Nat) (hj : j < L.o) (s : F64)
    (hdot : (1 + ueps) ^ (L.n + 1) * ∑ k ∈ range L.n, |(x k).val * (L.W k j).val| + L.n * (1 + ueps) ^ L.n * tiny ≤ big →
      s.Finite ∧ |s.val - ∑ k ∈ range L.n, (x k).val * (L.W k j).val| ≤
        gam (L.n + 1) * ∑ k ∈ range L.n, |(x k).val * (L.W k j).val| + L.n * (1 + ueps) ^ L.n * tiny) :
    Near (s +. L.b j) ((∑ k ∈ range L.n, X k * (L.W k j).val) + (L.b j).val) (preErr L.real X E j) := by
  have hu := ueps_pos
  have ht := tiny_pos
  have hs := hs j hj
  unfold preErr
  set B := ∑ k ∈ range L.n, (|X k| + E k) * |(L.W k j).val| with hB
  have hAP : absPre L.real X E j = B + |(L.b j).val| := rfl
  have hn : L.real.n = L.n := rfl
  have hW : ∀ k, L.real.W k j = (L.W k j).val := fun _ => rfl
  simp only [hn, hW, hAP] at hs ⊢
  set A := ∑ k ∈ range L.n, |(x k).val * (L.W k j).val| with hA
  have hA0 : 0 ≤ A := sum_nonneg fun _ _ => abs_nonneg _
  have hAB : A ≤ B := by
    refine sum_le_sum fun k hk => ?_
    rw [abs_mul]
    exact mul_le_mul_of_nonneg_right (abs_le_add_of (hx k (mem_range.1 hk)).2) (abs_nonneg _)
  set c := |(L.b j).val| with hc
  have hc0 : 0 ≤ c := abs_nonneg _
  set q := (1 + ueps) ^ L.n with hq
  have hq1 : 1 ≤ q := one_le_pow_ueps _
  have e1 : (1 + ueps) ^ (L.n + 1) = q * (1 + ueps) := pow_succ _ _
  have e2 : (1 + ueps) ^ (L.n + 2) = q * (1 + ueps) * (1 + ueps) := by rw [pow_succ, e1]
  have g1 : gam (L.n + 1) = q * (1 + ueps) - 1 := by unfold gam; rw [e1]
  have g2 : gam (L.n + 2) = q * (1 + ueps) * (1 + ueps) - 1 := by unfold gam; rw [e2]
  rw [e1, e2] at hs
  rw [g2, e1]
  have hn0 : (0 : ℝ) ≤ L.n := Nat.cast_nonneg _
  have hq0 : 0 < q := by linarith
  have hqu1 : 1 ≤ q * (1 + ueps) := by nlinarith
  have hqu : q * (1 + ueps) ≤ q * (1 + ueps) * (1 + ueps) := le_mul_of_one_le_right (by linarith) (by linarith)
  have hnt : L.n * q * tiny ≤ L.n * (q * (1 + ueps)) * tiny :=
    mul_le_mul_of_nonneg_right (mul_le_mul_of_nonneg_left (le_mul_of_one_le_right hq0.le (by linarith)) hn0) ht.le
  have hAq : q * (1 + ueps) * A ≤ q * (1 + ueps) * B := mul_le_mul_of_nonneg_left hAB (by positivity)
  have hBq : q * (1 + ueps) * (B + c) ≤ q * (1 + ueps) * (1 + ueps) * (B + c) := mul_le_mul_of_nonneg_right hqu (by linarith)
  have hcq : c ≤ q * (1 + ueps) * c := le_mul_of_one_le_left hc0 hqu1
  obtain ⟨f1, d1⟩ := hdot (by rw [e1]; linarith)
  rw [g1] at d1
  set S := ∑ k ∈ range L.n, (x k).val * (L.W k j).val with hS
  have hSA : |S| ≤ A := abs_sum_le_sum_abs _ _
  have hx1 : |s.val + (L.b j).val - (S + (L.b j).val)| ≤ (q * (1 + ueps) - 1) * A + L.n * q * tiny := by
    rw [show s.val + (L.b j).val - (S + (L.b j).val) = s.val - S by ring]; exact d1
  have hsb : |s.val + (L.b j).val| ≤ A + c + ((q * (1 + ueps) - 1) * A + L.n * q * tiny) :=
    (abs_le_add_of hx1).trans (by have := abs_add_le S (L.b j).val; linarith)
  obtain ⟨f2, d2⟩ := add_err f1 (hL.b j hj) (by linarith)
  refine ⟨f2, ?_⟩
  have h3 : |S - ∑ k ∈ range L.n, X k * (L.W k j).val| ≤ ∑ k ∈ range L.n, E k * |(L.W k j).val| := by
    rw [hS, ← sum_sub_distrib]
    refine (abs_sum_le_sum_abs _ _).trans (sum_le_sum fun k hk => ?_)
    rw [← sub_mul, abs_mul]
    exact mul_le_mul_of_nonneg_right (hx k (mem_range.1 hk)).2 (abs_nonneg _)
  show |(F64.add s (L.b j)).val - _| ≤ _
  have e : (F64.add s (L.b j)).val - ((∑ k ∈ range L.n, X k * (L.W k j).val) + (L.b j).val) =
      ((F64.add s (L.b j)).val - (s.val + (L.b j).val)) + (s.val + (L.b j).val - (S + (L.b j).val)) + (S - ∑ k ∈ range L.n, X k * (L.W k j).val) := by ring
  rw [e]
  refine (abs_add_le _ _).trans ((add_le_add ((abs_add_le _ _).trans (add_le_add (d2.trans (mul_le_mul_of_nonneg_left hsb hu.le)) hx1)) h3).trans ?_)
  have h5 : (1 + ueps) * c ≤ q * (1 + ueps) * (1 + ueps) * c := by
    have := mul_le_mul_of_nonneg_right (hqu) hc0
    have := mul_le_mul_of_nonneg_right (le_mul_of_one_le_left (by linarith : (0 : ℝ) ≤ 1 + ueps) hq1) hc0
    linarith
  have h6 : (q * (1 + ueps) * (1 + ueps) - 1) * A ≤ (q * (1 + ueps) * (1 + ueps) - 1) * B := mul_le_mul_of_nonneg_left hAB (by linarith)
  linarith

/-- XW + b for one entry. -/
theorem preact_err [Libm] (L : LayerSpec F64) (hL : L.Finite) (x : Nat → F64) (X E : Nat → ℝ) (hx : ∀ k, k < L.n → Near (x k) (X k) (E k))
    (hs : PreSafe L.real X E) (j : Nat) (hj : j < L.o) :
    Near ((fsum L.n fun k => x k *. L.W k j) +. L.b j) ((∑ k ∈ range L.n, X k * (L.W k j).val) + (L.b j).val) (preErr L.real X E j) :=
  preact_err_of L hL x X E hx hs j hj _ fun h =>
    dot_err L.n x (fun k => L.W k j) (fun k hk => (hx k hk).1) (fun k hk => hL.W k j hk hj) h

end NN
