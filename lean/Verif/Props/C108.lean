import Verif.Lemmas.ExamplesFit
import Verif.IEEE.IntArith
import Verif.Props.C88_C91
import Verif.IEEE.Error
import Mathlib.Analysis.SpecialFunctions.Trigonometric.Basic
/-
C108: the data of examples/spiral_test.go.
-/

set_option linter.unusedSectionVars false

namespace NN
open Go

section Any
variable {α : Type} [Flt α]

/-! ### The data: sample k belongs to arm k / points and is number k % points of the arm -/

/-- The distance from the centre grows in equal steps from 0 to 1. -/
def spiralRadius (points k : Nat) : α :=
  Flt.zero +. Flt.ofInt ((k % points : Nat) : Int) *. ((Flt.one -. Flt.zero) /. Flt.ofInt ((points : Int) - 1))

/-- The angle grows in equal steps from 4c to 4(c+1), c being the arm, plus 0.2 times the k-th random number, all times 2.5. -/
def spiralAngle (d : Nat → α) (points k : Nat) : α :=
  (Flt.ofInt ((k / points * 4 : Nat) : Int) +. Flt.ofInt ((k % points : Nat) : Int) *.
    ((Flt.ofInt (((k / points + 1) * 4 : Nat) : Int) -. Flt.ofInt ((k / points * 4 : Nat) : Int)) /. Flt.ofInt ((points : Int) - 1)) +.
    (Flt.ofInt 2 /. Flt.ofInt 10) *. d k) *. (Flt.ofInt 5 /. Flt.ofInt 2)

/-- The two coordinates of sample k. -/
def spiralX (sin cos : α → α) (d : Nat → α) (points k j : Nat) : α :=
  if j = 0 then spiralRadius points k *. sin (spiralAngle d points k) else spiralRadius points k *. cos (spiralAngle d points k)

/-- The label of sample k: 1 in the column of its arm. -/
def spiralY (points k j : Nat) : α := if j = k / points then Flt.one else Flt.zero

/-! ### The program -/

theorem addNoise_spec (t : Nat → α) (n : Nat) (w : World α) :
    wp (addNoise t n) w (fun t' w' => w' = { w with normPos := w.normPos + n } ∧
      ∀ i, i < n → t' i = t i +. (Flt.ofInt 2 /. Flt.ofInt 10) *. w.norm (w.normPos + i)) := by
  refine wp_mono (wp_foldN (fun k t' w' => w' = { w with normPos := w.normPos + k } ∧ (∀ i, k ≤ i → t' i = t i) ∧
    ∀ i, i < k → t' i = t i +. (Flt.ofInt 2 /. Flt.ofInt 10) *. w.norm (w.normPos + i)) ⟨rfl, fun _ _ => rfl, fun i hi => absurd hi (by omega)⟩ ?_) ?_
  · rintro k t' w' hk ⟨rfl, h1, h2⟩
    refine wp_bind_ok (show drawNorm _ = .ok (w.norm (w.normPos + k), { w with normPos := w.normPos + k + 1 }) from rfl) (wp_pure.2 ⟨rfl, fun i hi => ?_, fun i hi => ?_⟩)
    · rw [upd_ne (by omega)]
      exact h1 i (by omega)
    · by_cases e : i = k
      · subst e
        rw [upd_same, h1 i le_rfl]
      · rw [upd_ne e]
        exact h2 i (by omega)
  · rintro t' w' ⟨h1, -, h2⟩
    exact ⟨h1, h2⟩

theorem DataPair.draw {w0 w : World α} {x y : Mat} {r cx cy : Nat} {A B : Nat → Nat → α} (h : DataPair w0 w x y r cx cy A B) (p : Nat) :
    DataPair { w0 with normPos := p } { w with normPos := p } x y r cx cy A B := by
  obtain ⟨a1, a2, a3, a4, a5, a6, a7, a8, a9, a10, a11⟩ := h.allocs
  obtain ⟨x1, x2, x3, x4, x5, x6, x7⟩ := h.xm
  obtain ⟨y1, y2, y3, y4, y5, y6, y7⟩ := h.ym
  exact ⟨⟨a1, a2, a3, a4, a5, a6, a7, fun _ => rfl, a9, a10, a11⟩, ⟨x1, x2, x3, x4, x5, x6, x7⟩, ⟨y1, y2, y3, y4, y5, y6, y7⟩, h.xd, h.yd, h.sep, h.ne, h.fx, h.fy, h.ox, h.oy, h.xcap, h.ycap⟩

theorem spiral_data (sin cos : α → α) (points classes : Nat) (hp : 0 < points) (hc : 0 < classes) (w : World α) :
    wp (newSpiralData sin cos points classes) w (fun p w' => DataPair { w with normPos := w.normPos + classes * points } w' p.1 p.2 (points * classes) 2 classes
      (spiralX sin cos (fun k => w.norm (w.normPos + k)) points) (spiralY points)) := by
  have hr : 0 < points * classes := Nat.mul_pos hp hc
  unfold newSpiralData
  obtain ⟨x, y, v1, v2, e1, e2, hd⟩ := dataPair_new hr (show 0 < 2 by decide) hc w
  refine wp_bind_ok e1 (wp_bind_ok e2 ?_)
  dsimp only
  set F : Nat → Nat → Nat → α := fun n k j => if k < n then spiralX sin cos (fun k => w.norm (w.normPos + k)) points k j else Flt.zero with hF
  set G : Nat → Nat → Nat → α := fun n k j => if k < n then spiralY points k j else Flt.zero with hG
  refine wp_bind_mono (wp_forN (fun c w' => DataPair { w with normPos := w.normPos + c * points } w' x y (points * classes) 2 classes (F (c * points)) (G (c * points))) ?_ ?_) ?_
  · simpa [hF, hG] using hd
  · intro c w1 hcc h
    have hnp : w1.normPos = w.normPos + c * points := h.allocs.normPos fun h => h
    have hnm : w1.norm = w.norm := h.allocs.norm
    have hcl : c * points + points ≤ points * classes := by
      have : (c + 1) * points ≤ classes * points := Nat.mul_le_mul_right _ (by omega)
      rw [Nat.mul_comm points, ← Nat.succ_mul]
      exact this
    refine wp_bind_mono (addNoise_spec _ points w1) ?_
    rintro t _ ⟨rfl, ht⟩
    have h2 := h.draw (w.normPos + (c + 1) * points)
    have en : w1.normPos + points = w.normPos + (c + 1) * points := by rw [hnp, Nat.succ_mul]; omega
    rw [en]
    have e0 : ∀ n, F (c * points + n) = F (c * points + n) := fun _ => rfl
    refine wp_mono (wp_forN (fun i w' => DataPair { w with normPos := w.normPos + (c + 1) * points } w' x y (points * classes) 2 classes
      (F (c * points + i)) (G (c * points + i))) h2 ?_) ?_
    · intro i w2 hi h2
      have hlt : c * points + i < points * classes := by omega
      have ediv : (c * points + i) / points = c := by
        rw [Nat.add_comm, Nat.add_mul_div_right _ _ hp, Nat.div_eq_of_lt hi]; omega
      have emod : (c * points + i) % points = i := by
        rw [Nat.add_comm, Nat.add_mul_mod_self_right, Nat.mod_eq_of_lt hi]
      refine wp_bind_mono (wp_setAt h2.xm h2.xd hlt (j := 0) (by decide) _) ?_
      intro _ w3 hx
      have h3 := h2.setX hx
      refine wp_bind_mono (wp_setAt h3.xm h3.xd hlt (j := 1) (by decide) _) ?_
      intro _ w4 hx'
      have h4 := h3.setX hx'
      refine wp_mono (wp_setAt h4.ym h4.yd hlt hcc _) ?_
      intro _ w5 hy
      have ea : t i *. (Flt.ofInt 5 /. Flt.ofInt 2) = spiralAngle (fun k => w.norm (w.normPos + k)) points (c * points + i) := by
        unfold spiralAngle
        rw [ediv, emod, ht i hi, hnm, hnp, Nat.add_assoc]
        rfl
      have er : linspace Flt.zero Flt.one points i = spiralRadius points (c * points + i) (α := α) := by
        unfold spiralRadius
        rw [emod]
        rfl
      refine (h4.setY hy).congr ?_ ?_
      · intro a b ha hb
        unfold upd2
        simp only [hF]
        by_cases h : a = c * points + i
        · subst h
          rw [if_pos (by omega : c * points + i < c * points + (i + 1))]
          obtain rfl | rfl : b = 0 ∨ b = 1 := by omega
          · simp [spiralX, ← er, ← ea]
          · simp [spiralX, ← er, ← ea]
        · by_cases h' : a < c * points + i
          · simp [h, h', show a < c * points + (i + 1) by omega]
          · simp [h, h', show ¬ a < c * points + (i + 1) by omega]
      · intro a b ha hb
        unfold upd2
        simp only [hG]
        by_cases h : a = c * points + i
        · subst h
          rw [if_pos (by omega : c * points + i < c * points + (i + 1))]
          unfold spiralY
          rw [ediv]
          by_cases hb : b = c
          · simp [hb]
          · simp [hb]
        · by_cases h' : a < c * points + i
          · simp [h, h', show a < c * points + (i + 1) by omega]
          · simp [h, h', show ¬ a < c * points + (i + 1) by omega]
    · intro _ w3 h3
      rw [← Nat.succ_mul] at h3
      exact h3
  · intro _ w1 h
    refine wp_pure.2 (h.congr (fun i j hi _ => if_pos ?_) (fun i j hi _ => if_pos ?_))
    all_goals rw [Nat.mul_comm]; exact hi

/-- C108: NewSpiralData makes points*classes samples with their labels, uses one random number for each, and changes nothing that existed. -/
theorem C108_spiral (sin cos : α → α) (points classes : Nat) (hp : 0 < points) (hc : 0 < classes) (w : World α) :
    wp (newSpiralData sin cos points classes) w (fun p w' =>
      IsMat w' p.1 (points * classes) 2 (spiralX sin cos (fun k => w.norm (w.normPos + k)) points) ∧
      IsMat w' p.2 (points * classes) classes (spiralY points) ∧
      (∀ a, w'.IsRow p.1 (points * classes) a → ¬ w'.IsRow p.2 (points * classes) a) ∧
      w'.normPos = w.normPos + points * classes ∧ Frame { norm := True } w w') := by
  refine wp_mono (spiral_data sin cos points classes hp hc w) ?_
  intro p w' h
  obtain ⟨a1, a2, a3, a4, a5, a6, a7, a8, a9, a10, a11⟩ := h.allocs
  refine ⟨h.xm, h.ym, h.sep, ?_, ⟨a1, a2, a3, a4, a5, a6, a7, fun h => absurd trivial h, a9, a10, a11⟩⟩
  rw [a8 fun h => h, Nat.mul_comm points]

end Any

/-- C108, exact arithmetic: sample i of an arm lies at distance i/(points-1) from the centre: the first at the centre, the last on the unit
circle. -/
theorem C108_distance (d : Nat → ℝ) (points k : Nat) (hp : 2 ≤ points) :
    spiralX Real.sin Real.cos d points k 0 ^ 2 + spiralX Real.sin Real.cos d points k 1 ^ 2 = (((k % points : Nat) : ℝ) / ((points - 1 : Nat) : ℝ)) ^ 2 ∧
      ((k % points : Nat) : ℝ) / ((points - 1 : Nat) : ℝ) ≤ 1 := by
  have hlt := Nat.mod_lt k (show 0 < points by omega)
  have hpos : (0 : ℝ) < ((points - 1 : Nat) : ℝ) := by exact_mod_cast (show 0 < points - 1 by omega)
  constructor
  · have e : spiralRadius points k = ((k % points : Nat) : ℝ) / ((points - 1 : Nat) : ℝ) := by
      unfold spiralRadius
      rw [show ((points : Int) - 1) = ((points - 1 : Nat) : Int) by omega]
      show ((0 : Int) : ℝ) + (((k % points : Nat) : Int) : ℝ) * ((((1 : Int) : ℝ) - ((0 : Int) : ℝ)) / (((points - 1 : Nat) : Int) : ℝ)) = _
      rw [Int.cast_natCast, Int.cast_natCast, Int.cast_zero, Int.cast_one]
      ring
    unfold spiralX
    rw [if_pos rfl, if_neg (by decide), e, real_mul, real_mul]
    have := Real.sin_sq_add_cos_sq (spiralAngle d points k)
    linear_combination (((k % points : Nat) : ℝ) / ((points - 1 : Nat) : ℝ)) ^ 2 * this
  · rw [div_le_one hpos]
    exact_mod_cast (show k % points ≤ points - 1 by omega)

section Float
open F64

theorem two_le_big : (2 : ℝ) ≤ big := by
  unfold big
  have h : (1 : ℝ) ≤ (2 : ℝ) ^ (971 : ℤ) := one_le_zpow₀ (by norm_num) (by norm_num)
  generalize (2 : ℝ) ^ (971 : ℤ) = t at h
  norm_num
  linarith

/-- Rounding to nearest does not leave the interval up to 1 if the number is at most half a unit in the last place above 1. -/
theorem round_le_one [Libm] {s : Bool} {y : ℝ} (h : y ≤ 1 + ueps) : (F64.round s y).key ≤ (Flt.one : F64).key := by
  have h1 := f64_int (n := 1) (by norm_num) (by norm_num)
  by_cases hy : y ≤ 1
  · exact round_le h1.2 (by rw [h1.1]; simpa using hy)
  · have hy := not_le.1 hy
    have hu : ueps = 1 / 2 ^ 53 := by unfold ueps; rw [show (-53 : ℤ) = -(53 : ℕ) by norm_num, zpow_neg, zpow_natCast]; norm_num
    have hlog : Int.log 2 y = 0 := by
      refine le_antisymm ?_ ?_
      · have : Int.log 2 y < 1 := by
          rw [← Int.lt_zpow_iff_log_lt (by norm_num) (by linarith)]
          rw [hu] at h
          norm_num at h ⊢
          linarith
        omega
      · rw [← Int.zpow_le_iff_le_log (by norm_num) (by linarith)]
        norm_num
        linarith
    have hx : ulpExp y = -52 := by unfold ulpExp; rw [hlog]; rfl
    have hf : (F64.round s y).Finite := round_finite (by
      rw [abs_of_pos (by linarith)]
      have := two_le_big
      rw [hu] at h
      norm_num at h
      linarith)
    rw [← val_le_iff, h1.1, val_round hf (by linarith), abs_of_pos (by linarith), if_neg (by linarith), hx, one_mul]
    have e : (2 : ℝ) ^ (-52 : ℤ) = 1 / 2 ^ 52 := by rw [show (-52 : ℤ) = -(52 : ℕ) by norm_num, zpow_neg, zpow_natCast]; norm_num
    have hre : roundEven (y / (2 : ℝ) ^ (-52 : ℤ)) ≤ 2 ^ 52 := by
      refine (roundEven_mono (y' := ((2 ^ 52 : ℤ) : ℝ) + 1 / 2) ?_).trans ?_
      · rw [e]
        rw [hu] at h
        rw [div_le_iff₀ (by positivity)]
        push_cast
        norm_num at h ⊢
        linarith
      · have hfl : ⌊((2 ^ 52 : ℤ) : ℝ) + 1 / 2⌋ = 2 ^ 52 := by
          rw [Int.floor_intCast_add]
          norm_num
        unfold roundEven
        rw [hfl]
        norm_num
    rw [e]
    have : (roundEven (y / (1 / 2 ^ 52)) : ℝ) ≤ 2 ^ 52 := by
      rw [e] at hre
      exact_mod_cast hre
    push_cast
    linarith

/-- In float64 the distances from the centre lie between 0 and 1. -/
theorem spiralRadius_float [Libm] (points k : Nat) (hp : 2 ≤ points) (hb : points ≤ 2 ^ 53) :
    (spiralRadius points k : F64).Finite ∧ 0 ≤ (spiralRadius points k : F64).val ∧ (spiralRadius points k : F64).val ≤ 1 := by
  have hlt := Nat.mod_lt k (show 0 < points by omega)
  generalize hi : k % points = i at hlt
  have h1 := f64_int (n := 1) (by norm_num) (by norm_num)
  have h0 := f64_int (n := 0) (by norm_num) (by norm_num)
  have hI := f64_int (n := (i : Int)) (by omega) (by omega)
  have hN := f64_int (n := (points : Int) - 1) (by omega) (by omega)
  have hn0 : (0 : ℝ) < (((points : Int) - 1 : Int) : ℝ) := by exact_mod_cast (show (0 : Int) < points - 1 by omega)
  have hn1 : (1 : ℝ) ≤ (((points : Int) - 1 : Int) : ℝ) := by exact_mod_cast (show (1 : Int) ≤ points - 1 by omega)
  have hin : ((i : Int) : ℝ) ≤ (((points : Int) - 1 : Int) : ℝ) := by exact_mod_cast (show (i : Int) ≤ points - 1 by omega)
  have hi0 : (0 : ℝ) ≤ ((i : Int) : ℝ) := by positivity
  have hN53 : (((points : Int) - 1 : Int) : ℝ) ≤ 2 ^ 53 := by exact_mod_cast (show ((points : Int) - 1) ≤ 2 ^ 53 by omega)
  have hbig : (1 : ℝ) ≤ big := by linarith [two_le_big]
  have hk0 : (0 : ℝ) = (Flt.zero : F64).val := by rw [h0.1]; simp
  -- the step
  set q : F64 := Flt.one /. Flt.ofInt ((points : Int) - 1) with hq
  set N : ℝ := (((points : Int) - 1 : Int) : ℝ) with hNd
  have eq1 : q = F64.round ((Flt.one : F64).sign != (Flt.ofInt ((points : Int) - 1) : F64).sign) (1 / N) := by
    rw [hq]
    show F64.div _ _ = _
    rw [div_fin h1.2 hN.2 (by rw [hN.1]; exact hn0.ne'), h1.1, hN.1]
    simp
  have hy1 : 1 / N ≤ 1 := by rw [div_le_one hn0]; exact hn1
  have hy0 : 0 < 1 / N := by positivity
  have hqf : q.Finite := by
    rw [eq1]
    exact round_finite (by rw [abs_of_pos hy0]; exact hy1.trans hbig)
  have hq0 : 0 ≤ q.val := by
    rw [val_nonneg, eq1]
    exact round_nonneg hy0.le
  have hqu : q.val ≤ (1 / N) * (1 + ueps) := by
    have hd := round_dist (s := ((Flt.one : F64).sign != (Flt.ofInt ((points : Int) - 1) : F64).sign)) (y := 1 / N) (by rw [← eq1]; exact hqf) hy0.ne'
    rw [← eq1, abs_of_pos hy0] at hd
    have hl : ulpExp (1 / N) ≠ -1074 := by
      unfold ulpExp
      have : -53 ≤ Int.log 2 (1 / N) := by
        rw [← Int.zpow_le_iff_le_log (by norm_num) hy0]
        rw [show (-53 : ℤ) = -(53 : ℕ) by norm_num, zpow_neg, zpow_natCast, le_div_iff₀ hn0]
        push_cast
        rw [inv_mul_le_iff₀ (by positivity)]
        linarith
      omega
    have hh := (half_ulp hy0).resolve_right hl
    have := (abs_le.1 hd).2
    linarith
  -- the product
  set p : F64 := Flt.ofInt (i : Int) *. q with hpd
  have ep : p = F64.round ((Flt.ofInt (i : Int) : F64).sign != q.sign) (((i : Int) : ℝ) * q.val) := by
    rw [hpd]
    show F64.mul _ _ = _
    rw [mul_fin hI.2 hqf, hI.1]
  have hle : ((i : Int) : ℝ) * q.val ≤ 1 + ueps := by
    calc ((i : Int) : ℝ) * q.val ≤ N * ((1 / N) * (1 + ueps)) := mul_le_mul hin hqu hq0 hn0.le
      _ = 1 + ueps := by field_simp
  have hpk : p.key ≤ (Flt.one : F64).key := by rw [ep]; exact round_le_one hle
  have hp0 : 0 ≤ p.key := by rw [ep]; exact round_nonneg (mul_nonneg hi0 hq0)
  have hpf : p.absBits < infBits := fin_of_key h1.2 hp0 hpk
  have e : (spiralRadius points k : F64) = F64.round ((Flt.zero : F64).sign && p.sign) p.val := by
    unfold spiralRadius
    rw [hi, show (Flt.one : F64) -. Flt.zero = Flt.one from f64_sub 1 0 (by norm_num) (by norm_num), ← hq, ← hpd]
    show F64.add _ _ = _
    rw [add_fin h0.2 hpf, h0.1]
    simp
  have hkey : (spiralRadius points k : F64).key = p.key := by rw [e]; exact key_round_val hpf
  refine ⟨fin_of_key h1.2 (by rw [hkey]; exact hp0) (by rw [hkey]; exact hpk), ?_, ?_⟩
  · rw [val_nonneg, hkey]; exact hp0
  · have := (val_le_iff (spiralRadius points k) Flt.one).2 (by rw [hkey]; exact hpk)
    rw [h1.1] at this
    simpa using this

/-- C108: every sample of a data set with the given number of classes has exactly one label. -/
theorem C108_labels [Libm] (points classes k : Nat) (h : k < points * classes) : ∃! j, j < classes ∧ spiralY points k j = (Flt.one : F64) := by
  refine ⟨k / points, ⟨Nat.div_lt_of_lt_mul h, if_pos rfl⟩, ?_⟩
  rintro j ⟨-, hj⟩
  unfold spiralY at hj
  by_contra hne
  rw [if_neg hne] at hj
  have := f64_ofInt_inj (by norm_num) (by norm_num) hj
  omega

/-- C108, float64: if the sine and cosine return numbers between -1 and 1, so are all coordinates, in spite of rounding. -/
theorem C108_float [Libm] (sin cos : F64 → F64) (d : Nat → F64) (points k j : Nat) (hp : 2 ≤ points) (hb : points ≤ 2 ^ 53)
    (hs : ∀ x, (sin (spiralAngle d points x)).Finite ∧ |(sin (spiralAngle d points x)).val| ≤ 1)
    (hc : ∀ x, (cos (spiralAngle d points x)).Finite ∧ |(cos (spiralAngle d points x)).val| ≤ 1) :
    (spiralX sin cos d points k j).Finite ∧ |(spiralX sin cos d points k j).val| ≤ 1 := by
  obtain ⟨r1, r2, r3⟩ := spiralRadius_float points k hp hb
  have h1 := f64_int (n := 1) (by norm_num) (by norm_num)
  have h2 := f64_int (n := -1) (by norm_num) (by norm_num)
  have key : ∀ v : F64, v.Finite ∧ |v.val| ≤ 1 → (spiralRadius points k *. v).Finite ∧ |(spiralRadius points k *. v).val| ≤ 1 := by
    rintro v ⟨v1, v2⟩
    have e : spiralRadius points k *. v = F64.round ((spiralRadius points k : F64).sign != v.sign) ((spiralRadius points k : F64).val * v.val) := by
      show F64.mul _ _ = _
      rw [mul_fin r1 v1]
    generalize (spiralRadius points k : F64) = r at *
    have hy : |r.val * v.val| ≤ 1 := by
      rw [abs_mul, abs_of_nonneg r2]
      exact mul_le_one₀ r3 (abs_nonneg _) v2
    have hbig : (1 : ℝ) ≤ big := by linarith [two_le_big]
    have hf : (r *. v).Finite := by rw [e]; exact round_finite (hy.trans hbig)
    refine ⟨hf, ?_⟩
    obtain ⟨y1, y2⟩ := abs_le.1 hy
    have k1 := round_le (s := (r.sign != v.sign)) (y := r.val * v.val) h1.2 (by rw [h1.1]; simpa using y2)
    have k2 := le_round (s := (r.sign != v.sign)) (y := r.val * v.val) h2.2 (by rw [h2.1]; simpa using y1)
    rw [← e, ← val_le_iff] at k1 k2
    rw [h1.1] at k1
    rw [h2.1] at k2
    rw [abs_le]
    constructor
    · simpa using k2
    · simpa using k1
  unfold spiralX
  split
  · exact key _ (hs k)
  · exact key _ (hc k)

/-- C108, float64: with one point per arm the step is 1/0 = +Inf, and every coordinate is NaN (0 times +Inf). -/
theorem C108_one_point [Libm] (sin cos : F64 → F64) (d : Nat → F64) (k j : Nat) : (spiralX sin cos d 1 k j).isNaN = true := by
  have hr : (spiralRadius 1 k : F64).isNaN = true := by
    have h1 := f64_int (n := 1) (by norm_num) (by norm_num)
    have h0 := f64_int (n := 0) (by norm_num) (by norm_num)
    have z0 : (Flt.ofInt 0 : F64).isZero = true := isZero_iff.2 (by rw [h0.1]; simp)
    have z1 : (Flt.ofInt 1 : F64).isZero = false := by
      rw [← Bool.not_eq_true, isZero_iff, h1.1]; simp
    unfold spiralRadius
    rw [Nat.mod_one, show (Flt.one : F64) -. Flt.zero = Flt.one from f64_sub 1 0 (by norm_num) (by norm_num)]
    have e : (Flt.one : F64) /. Flt.ofInt (((1 : Nat) : Int) - 1) = F64.inf ((Flt.one : F64).sign != (Flt.zero : F64).sign) := by
      show F64.div (Flt.ofInt 1) (Flt.ofInt 0) = _
      unfold F64.div
      rw [(not_special h1.2).1, (not_special h0.2).1, (not_special h1.2).2, (not_special h0.2).2, z0, z1]
      rfl
    rw [e]
    refine add_nan (.inr ?_)
    show (F64.mul (Flt.ofInt 0) _).isNaN = true
    generalize hs : ((Flt.one : F64).sign != (Flt.zero : F64).sign) = s
    have hi : (F64.inf s).isInf = true ∧ (F64.inf s).isNaN = false := by
      unfold F64.inf F64.isInf F64.isNaN
      rw [absBits_mk' _ infBits_lt]
      simp
    unfold F64.mul
    rw [(not_special h0.2).1, (not_special h0.2).2, hi.1, hi.2, z0]
    exact F64.nan_nan
  unfold spiralX
  split
  · exact mul_nan (.inl hr)
  · exact mul_nan (.inl hr)

end Float

/-- C108_spiral, C108_labels, C108_distance, C108_float: 100 points in each of 2 arms; a sine and cosine that return 0. -/
example [Libm] : (0 : Nat) < 100 ∧ 0 < 2 ∧ 199 < 100 * 2 ∧ 2 ≤ 100 ∧ 100 ≤ 2 ^ 53 ∧ ∀ (d : Nat → F64) (x : Nat),
    ((fun _ => Flt.zero : F64 → F64) (spiralAngle d 100 x)).Finite ∧ |((fun _ => Flt.zero : F64 → F64) (spiralAngle d 100 x)).val| ≤ 1 := by
  have h0 := f64_int (n := 0) (by norm_num) (by norm_num)
  refine ⟨by decide, by decide, by decide, by decide, by decide, fun d x => ⟨h0.2, ?_⟩⟩
  show |(Flt.ofInt 0 : F64).val| ≤ 1
  rw [h0.1]
  simp

end NN
