import Verif.Props.C85_C87
import Verif.Props.C38_C39
import Verif.Props.C41_C45
import Verif.Props.C46_C50
import Verif.Props.C52_C57
import Verif.Props.C29_C30
import Verif.Props.C81_C82
/- C88, C89, C90, C91: NaN on float64. -/

set_option linter.unusedSectionVars false

namespace NN
open Go F64

namespace F64

theorem mul_nan [Libm] {x y : F64} (h : x.isNaN = true ∨ y.isNaN = true) : (mul x y).isNaN = true := by
  have e : mul x y = nan := by
    unfold mul
    rw [if_pos (by rcases h with h | h <;> simp [h])]
  rw [e, nan_nan]

theorem sub_nan [Libm] {x y : F64} (h : x.isNaN = true ∨ y.isNaN = true) : (Flt.sub x y : F64).isNaN = true := by
  change (add x y.neg).isNaN = true
  exact add_nan (h.imp id fun h => by rw [isNaN_neg]; exact h)

theorem exp_nan [Libm] {x : F64} (h : x.isNaN = true) : (exp x).isNaN = true := Libm.exp_nan x h

theorem log_nan [Libm] {x : F64} (h : x.isNaN = true) : (log x).isNaN = true := Libm.log_nan x h

theorem abs_nan [Libm] {x : F64} (h : x.isNaN = true) : (abs x).isNaN = true := by
  unfold isNaN at h ⊢
  simp at h ⊢
  unfold abs
  rwa [absBits_mk' _ (by unfold absBits; exact Nat.mod_lt _ (by norm_num))]

theorem lt_nan [Libm] {x y : F64} (h : x.isNaN = true ∨ y.isNaN = true) : lt x y = false := by
  unfold lt; rcases h with h | h <;> simp [h]

theorem eq_nan [Libm] {x y : F64} (h : x.isNaN = true ∨ y.isNaN = true) : eq x y = false := by
  unfold eq; rcases h with h | h <;> simp [h]

theorem nan_not_inf [Libm] {x : F64} (h : x.isNaN = true) : x.isInf = false ∧ x.isZero = false := by
  unfold isNaN at h; unfold isInf isZero
  unfold infBits at *
  simp at h ⊢
  constructor <;> omega

/-- math.Max(NaN, 0) is NaN. -/
theorem max_nan_zero [Libm] {x z : F64} (h : x.isNaN = true) (hz : z.absBits < infBits) : (max x z).isNaN = true := by
  unfold max
  rw [(nan_not_inf h).1, (not_special hz).2, h]
  simp [nan_nan]

/-- NaN squared is NaN. -/
theorem pow_two_nan [Libm] {x : F64} (h : x.isNaN = true) : (pow x (Flt.ofInt 2)).isNaN = true := by
  obtain ⟨t1, t2⟩ := f64_int (n := 2) (by norm_num) (by norm_num)
  have hz : (Flt.ofInt 2 : F64).isZero = false := by rw [← Bool.not_eq_true, isZero_iff, t1]; norm_num
  exact Libm.pow_nan x _ h hz

end F64

theorem fsum_nan [Libm] {c j : Nat} {f : Nat → F64} (hj : j < c) (h : (f j).isNaN = true) : (fsum c f).isNaN = true := by
  induction c with
  | zero => omega
  | succ c ih =>
    rcases Nat.lt_succ_iff_lt_or_eq.1 hj with h' | rfl
    · exact F64.add_nan (.inl (ih h'))
    · exact F64.add_nan (.inr h)

/-! ## C88: dropout -/

/-- The float64s below 1 are at most 1 - 2^-53. -/
theorem val_lt_one [Libm] {x : F64} (h : x.val < 1) : x.val ≤ 1 - (2 : ℝ) ^ (-53 : ℤ) := by
  have e1 : F64.mag (1023 * 2 ^ 52) = 1 := by unfold F64.mag; norm_num
  have e2 : F64.mag (1023 * 2 ^ 52 - 1) = 1 - (2 : ℝ) ^ (-53 : ℤ) := by unfold F64.mag; norm_num
  have h0 : (0 : ℝ) ≤ 1 - (2 : ℝ) ^ (-53 : ℤ) := by norm_num
  unfold F64.val at h ⊢
  split_ifs at h ⊢
  · have := F64.mag_nonneg x.absBits
    linarith
  · rw [← e1, F64.mag_strictMono.lt_iff_lt] at h
    rw [← e2]
    exact F64.mag_strictMono.monotone (by omega)

/-- A number that NewDropoutLayer accepts. -/
def IsDropout [Libm] (d : F64) : Prop := d.absBits < infBits ∧ 0 ≤ d.val ∧ d.val ≤ 1

/-- 1 - d and 1/(1 - d) for a dropout rate below 1. -/
theorem keep_facts [Libm] {d : F64} (hd : IsDropout d) (h1 : d.val < 1) :
    (Flt.sub Flt.one d : F64).absBits < infBits ∧ (2 : ℝ) ^ (-53 : ℤ) ≤ (Flt.sub Flt.one d : F64).val := by
  obtain ⟨o1, o2⟩ := f64_int (n := 1) (by norm_num) (by norm_num)
  rw [Int.cast_one] at o1
  obtain ⟨df, d0, -⟩ := hd
  have hlt := val_lt_one h1
  have e : (Flt.sub Flt.one d : F64) = F64.round ((Flt.one : F64).sign && d.neg.sign) (1 - d.val) := by
    change F64.add _ d.neg = _
    rw [F64.add_fin o2 (by rw [F64.absBits_neg]; exact df), F64.val_neg]
    change F64.round _ ((Flt.ofInt 1 : F64).val + _) = _
    rw [o1, sub_eq_add_neg]
  obtain ⟨t1, t2⟩ := F64.scaled_exact (n := 1) (e := -53) (by norm_num) (by norm_num) (by norm_num) (by
    rw [Nat.cast_one, one_mul]; exact zpow_lt_zpow_right₀ (by norm_num) (by norm_num))
  rw [Nat.cast_one, one_mul] at t1 t2
  have hlo : (F64.round false ((2 : ℝ) ^ (-53 : ℤ))).key ≤ (Flt.sub Flt.one d : F64).key := by rw [e]; exact F64.round_mono (by linarith)
  have hhi : (Flt.sub Flt.one d : F64).key ≤ (Flt.ofInt 1 : F64).key := by rw [e]; exact F64.round_le o2 (by rw [o1]; linarith)
  refine ⟨F64.fin_between t2 o2 hlo hhi, ?_⟩
  have := (F64.val_le_iff _ _).2 hlo
  rwa [t1] at this

/-- The mask is 0 or 1. -/
theorem bern_bit [Libm] (P u : F64) : IsBit (bern P u) := by
  obtain ⟨o1, o2⟩ := f64_int (n := 1) (by norm_num) (by norm_num)
  obtain ⟨z1, z2⟩ := f64_int (n := 0) (by norm_num) (by norm_num)
  have hone : IsBit (Flt.ofInt 1 : F64) := ⟨o2, .inr (by rw [o1]; norm_num)⟩
  have hzero : IsBit (Flt.ofInt 0 : F64) := ⟨z2, .inl (by rw [z1]; norm_num)⟩
  have e1 : (Flt.zero +. Flt.one : F64) = Flt.ofInt 1 := f64_add 0 1 (by norm_num) (by norm_num)
  have e2 : (Flt.one -. Flt.ofInt 1 : F64) = Flt.ofInt 0 := f64_sub 1 1 (by norm_num) (by norm_num)
  have e3 : (Flt.one -. Flt.ofInt 0 : F64) = Flt.ofInt 1 := f64_sub 1 0 (by norm_num) (by norm_num)
  have key : ∀ (b c : Bool), IsBit (if c then (if b then Flt.zero +. Flt.one else Flt.zero) else Flt.one -. (if b then Flt.zero +. Flt.one else Flt.zero) : F64) := by
    intro b c
    cases b <;> cases c <;> simp only [if_true, if_false, Bool.false_eq_true]
    · change IsBit (Flt.one -. Flt.ofInt 0); rw [e3]; exact hone
    · exact hzero
    · rw [e1, e2]; exact hzero
    · rw [e1]; exact hone
  exact key _ _

/-- C88, the claim: for every dropout rate that NewDropoutLayer accepts, a training pass with finite pre-activations returns no NaN.
(The uniform numbers are not NaN and not negative.) -/
def C88_claim [Libm] : Prop := ∀ (w : World F64) (lp : Nat) (wm bm x : Mat) (L : LayerSpec F64) (r : Nat) (X : Nat → Nat → F64), L.kind = .dropout →
  IsLayer w lp wm bm L → IsMat w x r L.n X → (∀ k, Flt.le Flt.zero (w.unif k) = true) → IsDropout L.dropout →
  (∀ i j, i < r → j < L.o → (preact L X i j).absBits < infBits) →
  wp (layerForward lp x) w (fun p w' => p.2 = none ∧ ∃ V, IsMat w' p.1 r L.o V ∧ ∀ i j, i < r → j < L.o → (V i j).isNaN = false)

theorem dropForward [Libm] {w : World F64} {lp : Nat} {wm bm x : Mat} {L : LayerSpec F64} {r : Nat} {X : Nat → Nat → F64} (hk : L.kind = .dropout)
    (hL : IsLayer w lp wm bm L) (hX : IsMat w x r L.n X) :
    wp (layerForward lp x) w (fun p w' => p.2 = none ∧ IsMat w' p.1 r L.o
      (fun i j => Flt.max (preact L X i j) Flt.zero *. (maskAt w L i j /. (Flt.one -. L.dropout)))) := by
  have e : layerForward lp x w = dropoutForward lp x w := by
    unfold layerForward
    refine (bind_ok (show layGet lp w = .ok (w.lay lp, w) from rfl)).trans ?_
    rw [hL.kind.trans hk]
  unfold wp
  rw [e]
  refine wp_mono (dropoutForward_spec hL hX) ?_
  rintro p w' ⟨h1, mask, h2⟩
  exact ⟨h1, h2.res.mat⟩

/-- C88: NewDropoutLayer accepts the rate 1 (C29), and then every entry of every training pass is NaN. -/
theorem C88_one [Libm] (w : World F64) (lp : Nat) (wm bm x : Mat) (L : LayerSpec F64) (r : Nat) (X : Nat → Nat → F64) (hk : L.kind = .dropout)
    (hL : IsLayer w lp wm bm L) (hX : IsMat w x r L.n X) (hu : ∀ k, Flt.le Flt.zero (w.unif k) = true)
    (hd : L.dropout.absBits < infBits ∧ L.dropout.val = 1) :
    wp (layerForward lp x) w (fun p w' => p.2 = none ∧ ∃ V, IsMat w' p.1 r L.o V ∧ ∀ i j, (V i j).isNaN = true) := by
  refine wp_mono (dropForward hk hL hX) ?_
  rintro p w' ⟨h1, h2⟩
  refine ⟨h1, _, h2, fun i j => F64.mul_nan (.inr ?_)⟩
  obtain ⟨o1, o2⟩ := f64_int (n := 1) (by norm_num) (by norm_num)
  obtain ⟨z1, z2⟩ := f64_int (n := 0) (by norm_num) (by norm_num)
  rw [Int.cast_one] at o1
  rw [Int.cast_zero] at z1
  obtain ⟨k1, k2⟩ := F64.one_sub_bit o2 o1 hd.1 (.inr hd.2)
  rw [hd.2, sub_self] at k2
  refine F64.div_zero_zero (bern_bit _ _).1 ?_ k1 k2
  obtain ⟨P, hP⟩ : ∃ P, P = F64.add (Flt.one : F64) L.dropout.neg := ⟨_, rfl⟩
  rw [← hP] at k1 k2
  have pk := F64.key_of_val_zero k2
  have hhalf : F64.lt (Flt.half : F64) P = false := by
    unfold F64.lt
    have : 0 ≤ (Flt.half : F64).key := F64.round_nonneg (by norm_num)
    rw [decide_eq_false (by rw [pk]; omega)]; simp
  have hlt : F64.lt (w.unif (w.unifPos + i * L.o + j)) P = false := by
    obtain ⟨-, u1, u2⟩ := le_iff.1 (hu (w.unifPos + i * L.o + j))
    rw [F64.key_of_val_zero (x := Flt.zero) z1] at u2
    unfold F64.lt
    rw [decide_eq_false (by rw [pk]; omega)]; simp
  have heq : F64.eq P P = true := by
    unfold F64.eq
    rw [(F64.not_special k1).1]; simp
  have e : ∀ u : F64, F64.lt u P = false → bern P u = Flt.zero := fun u hu' => by
    unfold bern
    rw [show Flt.lt (Flt.half : F64) P = false from hhalf]
    simp only [Bool.false_eq_true, if_false]
    rw [show Flt.lt u P = false from hu', show Flt.eq P P = true from heq]
    simp
  rw [show maskAt w L i j = bern P (w.unif (w.unifPos + i * L.o + j)) from by rw [hP]; rfl, e _ hlt]
  exact z1

/-- C88, what holds: the claim for rates below 1; the outputs are not negative, and 0 where the mask is 0.  Missing: the rate 1. -/
theorem C88_dropout_partial [Libm] (w : World F64) (lp : Nat) (wm bm x : Mat) (L : LayerSpec F64) (r : Nat) (X : Nat → Nat → F64) (hk : L.kind = .dropout)
    (hL : IsLayer w lp wm bm L) (hX : IsMat w x r L.n X) (hd : IsDropout L.dropout) (h1 : L.dropout.val < 1)
    (hf : ∀ i j, i < r → j < L.o → (preact L X i j).absBits < infBits) :
    wp (layerForward lp x) w (fun p w' => p.2 = none ∧ ∃ V, IsMat w' p.1 r L.o V ∧ ∀ i j, i < r → j < L.o → Flt.le Flt.zero (V i j) = true) := by
  refine wp_mono (dropForward hk hL hX) ?_
  rintro p w' ⟨e1, h2⟩
  refine ⟨e1, _, h2, fun i j hi hj => ?_⟩
  obtain ⟨z1, z2⟩ := f64_int (n := 0) (by norm_num) (by norm_num)
  rw [Int.cast_zero] at z1
  have zk := F64.key_of_val_zero z1
  obtain ⟨k1, k2⟩ := keep_facts hd h1
  have kp : 0 < (Flt.sub Flt.one L.dropout : F64).val := lt_of_lt_of_le (by positivity) k2
  obtain ⟨b1, b2⟩ := bern_bit (Flt.one -. L.dropout) (w.unif (w.unifPos + i * L.o + j))
  -- the scale factor is finite
  have hs : (F64.div (maskAt w L i j) (Flt.sub Flt.one L.dropout)).absBits < infBits ∧ 0 ≤ (F64.div (maskAt w L i j) (Flt.sub Flt.one L.dropout)).val := by
    obtain ⟨t1, t2⟩ := F64.scaled_exact (n := 1) (e := 53) (by norm_num) (by norm_num) (by norm_num) (by
      rw [Nat.cast_one, one_mul]; exact zpow_lt_zpow_right₀ (by norm_num) (by norm_num))
    rw [Nat.cast_one, one_mul] at t1 t2
    change (maskAt w L i j).absBits < infBits at b1
    rw [F64.div_fin b1 k1 kp.ne']
    have hm : 0 ≤ (maskAt w L i j).val ∧ (maskAt w L i j).val ≤ 1 := by rcases b2 with h | h <;> rw [show (maskAt w L i j).val = _ from h] <;> norm_num
    have hlo := F64.round_nonneg (s := (maskAt w L i j).sign != (Flt.sub Flt.one L.dropout : F64).sign) (div_nonneg hm.1 kp.le)
    have hhi := F64.round_le (s := (maskAt w L i j).sign != (Flt.sub Flt.one L.dropout : F64).sign) (y := (maskAt w L i j).val / (Flt.sub Flt.one L.dropout : F64).val) t2 (by
      rw [t1, div_le_iff₀ kp]
      have : (2 : ℝ) ^ (53 : ℤ) * (2 : ℝ) ^ (-53 : ℤ) = 1 := by norm_num
      have h3 := mul_le_mul_of_nonneg_left k2 (by positivity : (0 : ℝ) ≤ (2 : ℝ) ^ (53 : ℤ))
      linarith)
    exact ⟨F64.fin_of_key t2 hlo hhi, F64.val_nonneg.2 hlo⟩
  -- the activation is finite and not negative
  have ha : (F64.max (preact L X i j) (Flt.ofInt 0)).absBits < infBits ∧ 0 ≤ (F64.max (preact L X i j) (Flt.ofInt 0)).val := by
    obtain ⟨p1, p2⟩ := F64.not_special (hf i j hi hj)
    obtain ⟨q1, q2⟩ := F64.not_special z2
    unfold F64.max
    rw [p1, p2, q1, q2]
    simp only [Bool.false_and, Bool.or_self, Bool.false_eq_true, if_false]
    split_ifs with hz hg
    · have : ∀ s, (F64.zero s).absBits < infBits ∧ 0 ≤ (F64.zero s).val := fun s => by
        have := F64.round_zero_val s
        unfold F64.round at this
        rw [if_pos rfl] at this
        exact ⟨this.2, this.1.ge⟩
      exact this _
    · refine ⟨hf i j hi hj, F64.val_nonneg.2 ?_⟩
      simp at hg
      omega
    · exact ⟨z2, z1.ge⟩
  change Flt.le Flt.zero (F64.mul (F64.max (preact L X i j) (Flt.ofInt 0)) (F64.div (maskAt w L i j) (Flt.sub Flt.one L.dropout))) = true
  rw [F64.mul_fin ha.1 hs.1]
  exact le_iff.2 ⟨(F64.not_special z2).1, F64.round_not_nan _ _, by rw [show (Flt.zero : F64).key = 0 from zk]; exact F64.round_nonneg (mul_nonneg ha.2 hs.2)⟩

/-- A dropout layer with rate d, one input and two outputs. -/
noncomputable def dropDemo [Libm] (d : F64) : LayerSpec F64 :=
  ⟨.dropout, 1, 2, fun _ _ => Flt.ofInt 1, fun j => Flt.ofInt (j : Int), Flt.zero, d⟩

theorem dropDemo_pre [Libm] (d : F64) (i j : Nat) (hj : j < 2) : (preact (dropDemo d) (fun i _ => Flt.ofInt ((i % 3 : Nat) : Int)) i j).absBits < infBits := by
  have e : preact (dropDemo d) (fun i _ => Flt.ofInt ((i % 3 : Nat) : Int)) i j = Flt.ofInt (((i % 3 : Nat) : Int) + (j : Int)) := by
    change (Flt.ofInt 0 +. Flt.ofInt ((i % 3 : Nat) : Int) *. Flt.ofInt 1) +. Flt.ofInt (j : Int) = _
    have : i % 3 < 3 := Nat.mod_lt _ (by decide)
    rw [f64_mul _ _ (by norm_num; omega) (by norm_num) (by right; constructor <;> omega), f64_add _ _ (by norm_num) (by norm_num; omega), f64_add _ _ (by norm_num; omega) (by norm_num; omega)]
    simp
  rw [e]
  have : i % 3 < 3 := Nat.mod_lt _ (by decide)
  exact (f64_int (by norm_num; omega) (by norm_num; omega)).2

/-- A state with that layer, an input of 4 rows and uniform numbers 1/2. -/
theorem exists_drop [Libm] (d : F64) : ∃ (w : World F64) (lp : Nat) (wm bm x : Mat), IsLayer w lp wm bm (dropDemo d) ∧
    IsMat w x 4 1 (fun i _ => Flt.ofInt ((i % 3 : Nat) : Int)) ∧ ∀ k, Flt.le Flt.zero (w.unif k) = true := by
  obtain ⟨w, lp, wm, bm, x, hL, -, hX, -⟩ := exists_layer (dropDemo d) Nat.one_pos Nat.two_pos (r := 4) (by decide) fun i _ => Flt.ofInt ((i % 3 : Nat) : Int)
  refine ⟨{ w with unif := fun _ => Flt.half }, lp, wm, bm, x, hL.withUnif _, hX.withUnif _, fun k => ?_⟩
  obtain ⟨z1, z2⟩ := f64_int (n := 0) (by norm_num) (by norm_num)
  rw [Int.cast_zero] at z1
  refine le_iff.2 ⟨(F64.not_special z2).1, F64.round_not_nan _ _, ?_⟩
  rw [show (Flt.zero : F64).key = 0 from F64.key_of_val_zero z1]
  exact F64.round_nonneg (by norm_num)

/-- C88 is false of the code: rate 1. -/
theorem C88_false [Libm] : ¬ C88_claim := by
  intro hc
  obtain ⟨w, lp, wm, bm, x, hL, hX, hu⟩ := exists_drop (Flt.ofInt 1)
  obtain ⟨o1, o2⟩ := f64_int (n := 1) (by norm_num) (by norm_num)
  rw [Int.cast_one] at o1
  have a := hc w lp wm bm x _ 4 _ rfl hL hX hu ⟨o2, by change 0 ≤ (Flt.ofInt 1 : F64).val; rw [o1]; norm_num, by change (Flt.ofInt 1 : F64).val ≤ 1; rw [o1]⟩
    fun i j _ hj => dropDemo_pre _ i j hj
  have b := C88_one w lp wm bm x _ 4 _ rfl hL hX hu ⟨o2, o1⟩
  obtain ⟨p, w', e, -, V, v1, v2⟩ := wp_iff.1 a
  obtain ⟨p', w'', e', -, V', u1, u2⟩ := wp_iff.1 b
  rw [e] at e'
  obtain ⟨rfl, rfl⟩ : p = p' ∧ w' = w'' := by simpa using e'
  have := v1.entries_unique u1 (i := 0) (j := 0) (by decide) Nat.two_pos
  have h1 := v2 0 0 (by decide) Nat.two_pos
  rw [this, u2] at h1
  cases h1

example [Libm] : ∃ (w : World F64) (lp : Nat) (wm bm x : Mat) (L : LayerSpec F64) (X : Nat → Nat → F64), L.kind = .dropout ∧ IsLayer w lp wm bm L ∧
    IsMat w x 4 L.n X ∧ (∀ k, Flt.le Flt.zero (w.unif k) = true) ∧ L.dropout.absBits < infBits ∧ L.dropout.val = 1 := by
  obtain ⟨w, lp, wm, bm, x, hL, hX, hu⟩ := exists_drop (Flt.ofInt 1)
  obtain ⟨o1, o2⟩ := f64_int (n := 1) (by norm_num) (by norm_num)
  rw [Int.cast_one] at o1
  exact ⟨w, lp, wm, bm, x, _, _, rfl, hL, hX, hu, o2, o1⟩

example [Libm] : ∃ (w : World F64) (lp : Nat) (wm bm x : Mat) (L : LayerSpec F64) (X : Nat → Nat → F64), L.kind = .dropout ∧ IsLayer w lp wm bm L ∧
    IsMat w x 4 L.n X ∧ IsDropout L.dropout ∧ 0 < L.dropout.val ∧ L.dropout.val < 1 ∧ ∀ i j, i < 4 → j < L.o → (preact L X i j).absBits < infBits := by
  obtain ⟨t1, t2⟩ := F64.scaled_exact (n := 1) (e := -2) (by norm_num) (by norm_num) (by norm_num) (by
    rw [Nat.cast_one, one_mul]; exact zpow_lt_zpow_right₀ (by norm_num) (by norm_num))
  rw [Nat.cast_one, one_mul] at t1 t2
  obtain ⟨w, lp, wm, bm, x, hL, hX, hu⟩ := exists_drop (F64.round false ((2 : ℝ) ^ (-2 : ℤ)))
  have hd : (dropDemo (F64.round false ((2 : ℝ) ^ (-2 : ℤ)))).dropout.val = (2 : ℝ) ^ (-2 : ℤ) := t1
  refine ⟨w, lp, wm, bm, x, _, _, rfl, hL, hX, ⟨t2, ?_, ?_⟩, ?_, ?_, fun i j _ hj => dropDemo_pre _ i j hj⟩ <;> rw [hd] <;> norm_num

/-! ## C89: NaN as a hyper-parameter -/

namespace F64
theorem le_zero_iff [Libm] {x y : F64} (hy : y.isNaN = false) : le x y = false ↔ x.isNaN = true ∨ lt y x = true := by
  unfold le lt
  rw [hy]
  cases hx : x.isNaN <;> simp

theorem lt_zero_iff [Libm] {x y : F64} (hy : y.isNaN = false) : lt x y = false ↔ x.isNaN = true ∨ le y x = true := by
  unfold le lt
  rw [hy]
  cases hx : x.isNaN <;> simp

theorem one_lt_iff [Libm] {x y : F64} (hy : y.isNaN = false) : lt y x = false ↔ x.isNaN = true ∨ le x y = true := by
  unfold le lt
  rw [hy]
  cases hx : x.isNaN <;> simp
end F64

theorem zero_num [Libm] : (Flt.zero : F64).isNaN = false := (F64.not_special (f64_int (n := 0) (by norm_num) (by norm_num)).2).1

theorem one_num [Libm] : (Flt.one : F64).isNaN = false := (F64.not_special (f64_int (n := 1) (by norm_num) (by norm_num)).2).1

/-- C89, the claim: a constructor that returns no error was given numbers. -/
def C89_claim [Libm] : Prop :=
  (∀ lr decay mom : F64, (newSGDOptimizer lr decay mom).2 = none → lr.isNaN = false ∧ decay.isNaN = false ∧ mom.isNaN = false) ∧
  (∀ lr decay eps b1 b2 : F64, (newAdamOptimizer lr decay eps b1 b2).2 = none →
    lr.isNaN = false ∧ decay.isNaN = false ∧ eps.isNaN = false ∧ b1.isNaN = false ∧ b2.isNaN = false) ∧
  (∀ (w : World F64) (n o : Int) (slope : F64), slope.isNaN = true → wp (newLayer .leaky n o slope Flt.zero) w (fun p _ => p.2 ≠ none)) ∧
  ∀ (w : World F64) (n o : Int) (dropout : F64), dropout.isNaN = true → wp (newLayer .dropout n o Flt.zero dropout) w (fun p _ => p.2 ≠ none)

/-- C89, what holds: NewSGDOptimizer on float64 succeeds exactly if the learning rate is positive or NaN, decay and momentum are at least 0 or NaN. -/
theorem C89_sgd_partial [Libm] (lr decay mom : F64) : (newSGDOptimizer lr decay mom).2 = none ↔
    (lr.isNaN = true ∨ Flt.lt Flt.zero lr = true) ∧ (decay.isNaN = true ∨ Flt.le Flt.zero decay = true) ∧
      (mom.isNaN = true ∨ Flt.le Flt.zero mom = true) := by
  rw [← not_iff_not, ← ne_eq, C45_sgd_errs]
  have h1 := F64.le_zero_iff (x := lr) zero_num
  have h2 := F64.lt_zero_iff (x := decay) zero_num
  have h3 := F64.lt_zero_iff (x := mom) zero_num
  change F64.le lr _ = true ∨ F64.lt decay _ = true ∨ F64.lt mom _ = true ↔ ¬((_ ∨ F64.lt _ lr = true) ∧ (_ ∨ F64.le _ decay = true) ∧ (_ ∨ F64.le _ mom = true))
  rw [← h1, ← h2, ← h3]
  cases F64.le lr Flt.zero <;> cases F64.lt decay Flt.zero <;> cases F64.lt mom Flt.zero <;> simp

/-- C89, what holds: NewAdamOptimizer on float64 succeeds exactly if the learning rate is positive or NaN and decay is at least 0 or NaN; the other
parameters are arbitrary. -/
theorem C89_adam_partial [Libm] (lr decay eps b1 b2 : F64) : (newAdamOptimizer lr decay eps b1 b2).2 = none ↔
    (lr.isNaN = true ∨ Flt.lt Flt.zero lr = true) ∧ (decay.isNaN = true ∨ Flt.le Flt.zero decay = true) := by
  rw [← not_iff_not, ← ne_eq, C45_adam_errs]
  have h1 := F64.le_zero_iff (x := lr) zero_num
  have h2 := F64.lt_zero_iff (x := decay) zero_num
  change F64.le lr _ = true ∨ F64.lt decay _ = true ↔ ¬((_ ∨ F64.lt _ lr = true) ∧ (_ ∨ F64.le _ decay = true))
  rw [← h1, ← h2]
  cases F64.le lr Flt.zero <;> cases F64.lt decay Flt.zero <;> simp

/-- C89, what holds: the layer constructors on float64 accept exactly: positive sizes, slopes that are at least 0 or NaN, dropout rates between 0 and 1 or NaN. -/
theorem C89_layer_partial [Libm] (w : World F64) (k : LayerKind) (n o : Int) (slope dropout : F64) :
    wp (newLayer k n o slope dropout) w (fun p _ => p.2 = none ↔ 1 ≤ n ∧ 1 ≤ o ∧ (k = .leaky → slope.isNaN = true ∨ Flt.le Flt.zero slope = true) ∧
      (k = .dropout → dropout.isNaN = true ∨ Flt.le Flt.zero dropout = true ∧ Flt.le dropout Flt.one = true)) := by
  refine wp_mono (C29_iff w k n o slope dropout) ?_
  rintro p w' ⟨-, h⟩
  rw [← not_iff_not, ← ne_eq, h]
  have h1 := F64.lt_zero_iff (x := slope) zero_num
  have h2 := F64.lt_zero_iff (x := dropout) zero_num
  have h3 := F64.one_lt_iff (x := dropout) one_num
  change _ ∨ _ ∨ (_ ∧ F64.lt slope _ = true) ∨ (_ ∧ (F64.lt _ dropout = true ∨ F64.lt dropout _ = true)) ↔
    ¬ (_ ∧ _ ∧ (_ → _ ∨ F64.le _ slope = true) ∧ (_ → _ ∨ F64.le _ dropout = true ∧ F64.le dropout _ = true))
  have h4 : (dropout.isNaN = true ∨ F64.le Flt.zero dropout = true ∧ F64.le dropout Flt.one = true) ↔
      F64.lt dropout Flt.zero = false ∧ F64.lt Flt.one dropout = false := by rw [h2, h3, or_and_left]
  have e1 : (1 ≤ n) ↔ ¬ n < 1 := by omega
  have e2 : (1 ≤ o) ↔ ¬ o < 1 := by omega
  rw [h4, ← h1, e1, e2]
  clear h h1 h2 h3 h4 e1 e2
  generalize F64.lt slope Flt.zero = a
  generalize F64.lt dropout Flt.zero = b
  generalize F64.lt Flt.one dropout = c
  by_cases k1 : n < 1 <;> by_cases k2 : o < 1 <;> by_cases k3 : k = .leaky <;> by_cases k4 : k = .dropout <;> cases a <;> cases b <;> cases c <;>
    simp [k1, k2, k3, k4]

/-- C89 is false of the code: no constructor rejects NaN. -/
theorem C89_false [Libm] : ¬ C89_claim := by
  rintro ⟨h, -⟩
  have := (h F64.nan F64.nan F64.nan ((C89_sgd_partial _ _ _).2 ⟨.inl F64.nan_nan, .inl F64.nan_nan, .inl F64.nan_nan⟩)).1
  rw [F64.nan_nan] at this
  cases this

theorem upd_rate_nan [Libm] {S : OptSpec F64} (h : S.rate.isNaN = true) (x v c g : F64) : (S.upd x v c g).isNaN = true := by
  have hg : (g *. S.rate : F64).isNaN = true := F64.mul_nan (.inr h)
  unfold OptSpec.upd OptSpec.vel
  split
  · split
    · exact F64.sub_nan (.inr hg)
    · exact F64.add_nan (.inr (F64.sub_nan (.inr hg)))
  · exact F64.add_nan (.inr (F64.div_nan (.inl (F64.mul_nan (.inl (by rw [← h]; exact F64.isNaN_neg _))))))

theorem rate_nan [Libm] {S : OptSpec F64} (h : S.lr.isNaN = true ∨ S.decay.isNaN = true) : S.rate.isNaN = true := by
  unfold OptSpec.rate
  split
  · rename_i hd
    rcases h with h | h
    · exact h
    · rw [show Flt.eq S.decay Flt.zero = F64.eq S.decay Flt.zero from rfl, F64.eq_nan (.inl h)] at hd
      cases hd
  · exact F64.mul_nan (h.imp id fun h => F64.div_nan (.inr (F64.add_nan (.inr (F64.mul_nan (.inl h))))))

/-- C89: an optimizer with learning rate or decay NaN (both accepted): every Update makes every weight and every bias NaN. -/
theorem C89_update [Libm] (w : World F64) (op : Nat) (wm bm dw db : Mat) (rw cw rb cb : Nat) (S : OptSpec F64) (W B GW GB : Nat → Nat → F64)
    (ho : IsOpt w op rw cw rb cb S) (hp : IsParams w wm bm rw cw rb cb W B) (hGW : IsMat w dw rw cw GW) (hGB : IsMat w db rb cb GB)
    (hn : S.lr.isNaN = true ∨ S.decay.isNaN = true) :
    wp (optUpdate op (some wm) (some bm) dw db) w (fun e w' => e = none ∧ ∃ W' B', IsMat w' wm rw cw W' ∧ IsMat w' bm rb cb B' ∧
      (∀ i j, (W' i j).isNaN = true) ∧ ∀ i j, (B' i j).isNaN = true) := by
  refine wp_mono (optUpdate_spec ho hp hGW hGB) ?_
  rintro e w' ⟨he, h⟩
  exact ⟨he, _, _, h.params.wmat, h.params.bmat, fun i j => upd_rate_nan (rate_nan hn) _ _ _ _, fun i j => upd_rate_nan (rate_nan hn) _ _ _ _⟩

theorem descent_lr [Libm] {m : Model F64} {loss : LossKind} {u : Nat → F64} {X Y : Nat → Nat → F64} {net : Net F64} {S : Nat → OptSpec F64} {p : Nat}
    {bs : List (Nat × Nat)} {net' : Net F64} {S' : Nat → OptSpec F64} {p' : Nat} (h : Descent m loss u X Y net S p bs net' S' p') (i : Nat) :
    (S' i).lr = (S i).lr ∧ (S' i).decay = (S i).decay := by
  induction h with
  | start => exact ⟨rfl, rfl⟩
  | step _ h ih =>
    obtain ⟨G, D, -, -, rfl⟩ := h
    exact ih

theorem descent_nan_rate [Libm] {m : Model F64} {loss : LossKind} {u : Nat → F64} {X Y : Nat → Nat → F64} {net : Net F64} {S : Nat → OptSpec F64} {p : Nat}
    {bs : List (Nat × Nat)} {net' : Net F64} {S' : Nat → OptSpec F64} {p' : Nat} (h : Descent m loss u X Y net S p bs net' S' p') (hb : bs ≠ [])
    (k : Nat) (hk : (S k).lr.isNaN = true ∨ (S k).decay.isNaN = true) :
    (∀ i j, ((net'.L k).W i j).isNaN = true) ∧ ∀ j, ((net'.L k).b j).isNaN = true := by
  cases h with
  | start => exact absurd rfl hb
  | step h1 h2 =>
    obtain ⟨e1, e2⟩ := descent_lr h1 k
    obtain ⟨G, D, -, rfl, -⟩ := h2
    rw [← e1, ← e2] at hk
    exact ⟨fun i j => upd_rate_nan (rate_nan hk) _ _ _ _, fun j => upd_rate_nan (rate_nan hk) _ _ _ _⟩

/-! ## C90: NaN never goes away -/

theorem upd_nan [Libm] {S : OptSpec F64} {x : F64} (h : x.isNaN = true) (v c g : F64) : (S.upd x v c g).isNaN = true := by
  unfold OptSpec.upd
  split
  · split
    · exact F64.sub_nan (.inl h)
    · exact F64.add_nan (.inl h)
  · exact F64.add_nan (.inl h)

theorem descent_nan [Libm] {m : Model F64} {loss : LossKind} {u : Nat → F64} {X Y : Nat → Nat → F64} {net : Net F64} {S : Nat → OptSpec F64} {p : Nat}
    {bs : List (Nat × Nat)} {net' : Net F64} {S' : Nat → OptSpec F64} {p' : Nat} (h : Descent m loss u X Y net S p bs net' S' p') (k : Nat) :
    (∀ i j, ((net.L k).W i j).isNaN = true → ((net'.L k).W i j).isNaN = true) ∧
      ∀ j, ((net.L k).b j).isNaN = true → ((net'.L k).b j).isNaN = true := by
  induction h with
  | start => exact ⟨fun _ _ h => h, fun _ h => h⟩
  | step _ h ih =>
    obtain ⟨G, D, -, rfl, -⟩ := h
    exact ⟨fun i j hn => upd_nan (ih.1 i j hn) _ _ _, fun j hn => upd_nan (ih.2 j hn) _ _ _⟩

/-- C89, training: if the optimizer of layer k has learning rate or decay NaN, a Fit of at least one epoch returns no error and leaves every
parameter of that layer NaN. -/
theorem C89_fit [Libm] (w : World F64) (m : Model F64) (net : Net F64) (op : Nat → Nat) (S : Nat → OptSpec F64) (loss : Loss) (X Y xv yv : Mat) (n : Nat)
    (A B : Nat → Nat → F64) (h : FitArgs w m net op S loss X Y n A B) (epochs : Int) (he : 1 ≤ epochs) (b : Nat) (hbig : n + b ≤ 2 ^ 53)
    (k : Nat) (hk : (S k).lr.isNaN = true ∨ (S k).decay.isNaN = true) :
    wp (fit m X Y epochs b xv yv 0) w (fun e w' => e = none ∧ ∃ net' S', IsTask w' m net' op S' ∧ SameShape net net' ∧
      (∀ i j, ((net'.L k).W i j).isNaN = true) ∧ ∀ j, ((net'.L k).b j).isNaN = true) := by
  refine wp_mono (C70_fit w m net op S h.task h.noSigmoid loss h.loss_eq h.loss_size X Y xv yv n A B h.x h.y h.xcap h.ycap h.xsep h.ysep epochs b hbig) ?_
  rintro e w' ⟨e1, net', S', h1, h2, h3, -⟩
  refine ⟨e1, net', S', h2, h3, descent_nan_rate h1 ?_ k hk⟩
  intro hc
  have hn := h.x.rpos
  rw [List.flatten_eq_nil_iff] at hc
  have := hc (blocks n b) (List.mem_replicate.2 ⟨by omega, rfl⟩)
  unfold blocks at this
  split at this
  · cases this
  · rw [List.map_eq_nil_iff, List.range_eq_nil, Nat.div_eq_zero_iff] at this
    omega

/-- C90: a weight or bias that is NaN before Fit is NaN after Fit. -/
theorem C90_fit [Libm] (w : World F64) (m : Model F64) (net : Net F64) (op : Nat → Nat) (S : Nat → OptSpec F64) (loss : Loss) (X Y xv yv : Mat) (n : Nat)
    (A B : Nat → Nat → F64) (h : FitArgs w m net op S loss X Y n A B) (epochs : Int) (b : Nat) (hbig : n + b ≤ 2 ^ 53) :
    wp (fit m X Y epochs b xv yv 0) w (fun e w' => e = none ∧ ∃ net' S', IsTask w' m net' op S' ∧ SameShape net net' ∧
      ∀ k, (∀ i j, ((net.L k).W i j).isNaN = true → ((net'.L k).W i j).isNaN = true) ∧
        ∀ j, ((net.L k).b j).isNaN = true → ((net'.L k).b j).isNaN = true) := by
  refine wp_mono (C70_fit w m net op S h.task h.noSigmoid loss h.loss_eq h.loss_size X Y xv yv n A B h.x h.y h.xcap h.ycap h.xsep h.ysep epochs b hbig) ?_
  rintro e w' ⟨e1, net', S', h1, h2, h3, -⟩
  exact ⟨e1, net', S', h2, h3, fun k => descent_nan h1 k⟩

/-! ## C91: one NaN parameter -/

theorem actRow_nan [Libm] {k : LayerKind} {slope : F64} {o j : Nat} {z : Nat → F64} (h : (z j).isNaN = true) : k ≠ .softmax → (actRow k slope o z j).isNaN = true := by
  intro hk
  have z2 := (f64_int (n := 0) (by norm_num) (by norm_num)).2
  unfold actRow
  cases k with
  | hidden => exact F64.max_nan_zero h z2
  | dropout => exact F64.max_nan_zero h z2
  | linear => exact h
  | sigmoid => exact F64.div_nan (.inr (F64.add_nan (.inr (F64.exp_nan (by rw [← h]; exact F64.isNaN_neg _)))))
  | leaky =>
    dsimp only
    rw [show Flt.lt (z j) Flt.zero = false from F64.lt_nan (.inl h)]
    exact h
  | softmax => exact absurd rfl hk

theorem softmax_nan [Libm] {slope : F64} {o j : Nat} {z : Nat → F64} (hj : j < o) (h : (z j).isNaN = true) (c : Nat) :
    (actRow .softmax slope o z c).isNaN = true :=
  F64.div_nan (.inr (fsum_nan (f := fun k => Flt.exp (z k)) hj (F64.exp_nan h)))

/-- One NaN among the pre-activations of a row: the same entry of the output is NaN. -/
theorem infer_nan [Libm] {L : LayerSpec F64} {X : Nat → Nat → F64} {i j : Nat} (hj : j < L.o) (h : (preact L X i j).isNaN = true) :
    (infer L X i j).isNaN = true := by
  unfold infer
  by_cases hk : L.kind = .softmax
  · rw [hk]; exact softmax_nan hj h j
  · exact actRow_nan h hk

/-- One NaN among the inputs of a row: all outputs are NaN. -/
theorem infer_nan_input [Libm] {L : LayerSpec F64} {X : Nat → Nat → F64} {i k : Nat} (hk : k < L.n) (h : (X i k).isNaN = true) {j : Nat} (hj : j < L.o) :
    (infer L X i j).isNaN = true :=
  infer_nan hj (F64.add_nan (.inl (fsum_nan (f := fun k => X i k *. L.W k j) hk (F64.mul_nan (.inl h)))))

/-- Consecutive layers fit together. -/
def Net.Chained [Libm] (net : Net F64) : Prop :=
  ∀ i, i < net.size → (net.L i).n = net.dim i ∧ (net.L i).o = net.dim (i + 1) ∧ 0 < net.dim i ∧ 0 < net.dim (i + 1)

theorem netOut_nan [Libm] {net : Net F64} (hc : net.Chained) {X : Nat → Nat → F64} {i k j : Nat} (hj : j < net.dim k) (h : (netOut net X k i j).isNaN = true) :
    ∀ d, k + (d + 1) ≤ net.size → ∀ c, c < net.dim (k + (d + 1)) → (netOut net X (k + (d + 1)) i c).isNaN = true := by
  intro d
  induction d with
  | zero =>
    intro hd c hcd
    obtain ⟨h1, h2, -⟩ := hc k (by omega)
    exact infer_nan_input (h1.symm ▸ hj) h (h2.symm ▸ hcd)
  | succ d ih =>
    intro hd c hcd
    obtain ⟨h1, h2, h3, h4⟩ := hc (k + (d + 1)) (by omega)
    exact infer_nan_input (L := net.L (k + (d + 1))) (k := 0) (h1.symm ▸ h3) (ih (by omega) 0 h3) (h2.symm ▸ hcd)

theorem chained_of [Libm] {w : World F64} {m : Model F64} {net : Net F64} (hN : IsNet w m net) : net.Chained := fun i hi =>
  have e := (hN.lay i hi).wmat
  ⟨hN.ins i hi, hN.outs i hi, hN.ins i hi ▸ e.rpos, hN.outs i hi ▸ e.cpos⟩

/-- Layer k has a parameter that is NaN and that contributes to column j: a weight in column j, or the bias of column j. -/
def NaNParam [Libm] (L : LayerSpec F64) (j : Nat) : Prop := (∃ i, i < L.n ∧ (L.W i j).isNaN = true) ∨ (L.b j).isNaN = true

theorem infer_nan_param [Libm] {L : LayerSpec F64} {X : Nat → Nat → F64} {i j : Nat} (hj : j < L.o) (h : NaNParam L j) : (infer L X i j).isNaN = true := by
  refine infer_nan hj ?_
  rcases h with ⟨q, hq, h⟩ | h
  · exact F64.add_nan (.inl (fsum_nan (f := fun k => X i k *. L.W k j) hq (F64.mul_nan (.inr h))))
  · exact F64.add_nan (.inr h)

/-- Which entries of the output of the model are NaN if layer k has a NaN parameter of column j. -/
theorem netOut_param [Libm] {net : Net F64} (hc : net.Chained) {k j : Nat} (hk : k < net.size) (hj : j < (net.L k).o) (h : NaNParam (net.L k) j)
    (X : Nat → Nat → F64) (i : Nat) :
    (k + 1 = net.size → (netOut net X net.size i j).isNaN = true) ∧
      (k + 1 < net.size ∨ (net.L k).kind = .softmax → ∀ c, c < net.dim net.size → (netOut net X net.size i c).isNaN = true) := by
  have h1 : (netOut net X (k + 1) i j).isNaN = true := infer_nan_param hj h
  refine ⟨fun e => e ▸ h1, ?_⟩
  have later : k + 1 < net.size → ∀ c, c < net.dim net.size → (netOut net X net.size i c).isNaN = true := fun hlt c hcd => by
    obtain ⟨d, hd⟩ : ∃ d, net.size = (k + 1) + (d + 1) := ⟨net.size - k - 2, by omega⟩
    have := netOut_nan hc (k := k + 1) (j := j) (by rw [← (hc k hk).2.1]; exact hj) h1 d (by omega) c (by rw [← hd]; exact hcd)
    rwa [hd]
  rintro (hlt | hs)
  · exact later hlt
  · intro c hcd
    by_cases hlt : k + 1 < net.size
    · exact later hlt c hcd
    · have e : net.size = k + 1 := by omega
      rw [e]
      change (infer (net.L k) (netOut net X k) i c).isNaN = true
      unfold infer
      rw [hs]
      refine softmax_nan hj ?_ c
      rcases h with ⟨q, hq, h⟩ | h
      · exact F64.add_nan (.inl (fsum_nan (f := fun a => netOut net X k i a *. (net.L k).W a j) hq (F64.mul_nan (.inr h))))
      · exact F64.add_nan (.inr h)

theorem clipped_nan [Libm] {x : F64} (h : x.isNaN = true) : clipped x = x := by
  unfold clipped
  rw [show Flt.lt x Flt.zero = false from F64.lt_nan (.inl h), show Flt.lt Flt.one x = false from F64.lt_nan (.inr h)]
  rfl

/-- The loss of predictions with a NaN in each row is NaN. -/
theorem lossOf_nan [Libm] (k : LossKind) {r c j : Nat} {P T : Nat → Nat → F64} (hr : 0 < r) (hj : j < c) (h : ∀ i, (P i j).isNaN = true) :
    (lossOf k r c P T).isNaN = true := by
  unfold lossOf
  cases k with
  | mse => exact F64.div_nan (.inl (fsum_nan (f := fun j => Flt.pow (P 0 j -. T 0 j) (Flt.ofInt 2)) hj (F64.pow_two_nan (F64.sub_nan (.inl (h 0))))))
  | mae => exact F64.div_nan (.inl (fsum_nan (f := fun j => Flt.abs (P 0 j -. T 0 j)) hj (F64.abs_nan (F64.sub_nan (.inl (h 0))))))
  | ce =>
    refine fsum_nan (f := fun i => Flt.neg (Flt.log (fsum c fun j => clipped (P i j) *. T i j)) /. Flt.ofInt (r : Int)) hr (F64.div_nan (.inl ?_))
    refine (F64.isNaN_neg _).trans (F64.log_nan (fsum_nan (f := fun j => clipped (P 0 j) *. T 0 j) hj (F64.mul_nan (.inl ?_))))
    rw [clipped_nan (h 0)]; exact h 0
  | bce =>
    rw [← fsum2_sum2]
    refine fsum2_nan hr hj (F64.div_nan (.inl (F64.div_nan (.inl ?_))))
    refine (F64.isNaN_neg _).trans (F64.add_nan (.inl (F64.mul_nan (.inr (F64.log_nan ?_)))))
    rw [clipped_nan (h 0)]; exact h 0

/-- C91: one NaN among the weights and biases makes the output NaN, for every input and without an error: the whole output, unless the NaN is in
the last layer and that is not a softmax layer; then the column to which the parameter belongs. -/
theorem C91_forward [Libm] (w : World F64) (m : Model F64) (net : Net F64) (hN : IsNet w m net) (x : Mat) (r : Nat) (X : Nat → Nat → F64)
    (hX : IsMat w x r (net.dim 0) X) (k j : Nat) (hk : k < net.size) (hj : j < (net.L k).o) (h : NaNParam (net.L k) j) :
    wp (modelForward m x false) w (fun p w' => p.2 = none ∧ ∃ o V, p.1.getLast? = some o ∧ IsMat w' o r (net.dim net.size) V ∧
      (k + 1 = net.size → ∀ i, (V i j).isNaN = true) ∧
      (k + 1 < net.size ∨ (net.L k).kind = .softmax → ∀ i c, c < net.dim net.size → (V i c).isNaN = true)) := by
  refine wp_mono (modelInfer_spec hN (by omega) hX) ?_
  rintro p w' ⟨h1, hlen, o, h2, h3⟩
  refine ⟨h1, o, _, ?_, h3.res.mat, fun e i => (netOut_param (chained_of hN) hk hj h X i).1 e, fun e i => (netOut_param (chained_of hN) hk hj h X i).2 e⟩
  rw [List.getLast?_eq_getElem?, hlen]
  exact h2

/-- C91: then CalculateLoss returns NaN, whatever the loss and the data. -/
theorem C91_loss [Libm] (w : World F64) (m : Model F64) (net : Net F64) (hN : IsNet w m net) (loss : Loss) (hl : m.loss = some loss)
    (hls : loss.size = net.dim net.size) (x y : Mat) (r : Nat) (X Y : Nat → Nat → F64) (hX : IsMat w x r (net.dim 0) X)
    (hY : IsMat w y r (net.dim net.size) Y) (k j : Nat) (hk : k < net.size) (hj : j < (net.L k).o) (h : NaNParam (net.L k) j) :
    wp (calculateLoss m x y) w (fun p _ => p.2 = none ∧ p.1.isNaN = true) := by
  refine wp_mono (C81_loss w m net hN (by omega) loss hl hls x y ⟨r, X, Y⟩ hX hY) ?_
  rintro p w' ⟨rfl, -⟩
  refine ⟨rfl, ?_⟩
  have hc := chained_of hN
  by_cases hlt : k + 1 < net.size
  · exact lossOf_nan loss.kind hX.rpos hY.cpos fun i => (netOut_param hc hk hj h X i).2 (.inl hlt) 0 hY.cpos
  · have e : k + 1 = net.size := by omega
    exact lossOf_nan loss.kind hX.rpos (by rw [← e, ← (hc k hk).2.1]; exact hj) fun i => (netOut_param hc hk hj h X i).1 e

theorem F64.sub_self_inf [Libm] {x : F64} (h : x.isInf = true) : (Flt.sub x x : F64).isNaN = true := by
  have hn : x.isNaN = false := by
    unfold F64.isInf at h
    have h := of_decide_eq_true h
    unfold F64.isNaN
    rw [h]
    decide
  have hs : x.neg.sign = !x.sign := F64.sign_neg x
  have hi : x.neg.isInf = true := by unfold F64.isInf; rw [F64.absBits_neg]; exact h
  show (F64.add x x.neg).isNaN = true
  unfold F64.add
  rw [F64.isNaN_neg, hn, h, hi, hs]
  cases x.sign <;> exact F64.nan_nan

/-- C91, infinite predictions: a prediction that equals its target is no help if both are infinite: the mean squared error and the mean absolute
error are NaN. -/
theorem C91_infinite [Libm] (w : World F64) (m : Model F64) (net : Net F64) (hN : IsNet w m net) (h0 : 0 < net.size) (loss : Loss)
    (hl : m.loss = some loss) (hls : loss.size = net.dim net.size) (hk : loss.kind = .mse ∨ loss.kind = .mae) (x y : Mat) (r : Nat)
    (X Y : Nat → Nat → F64) (hX : IsMat w x r (net.dim 0) X) (hY : IsMat w y r (net.dim net.size) Y) (j : Nat) (hj : j < net.dim net.size)
    (hi : (Y 0 j).isInf = true) (he : netOut net X net.size 0 j = Y 0 j) :
    wp (calculateLoss m x y) w (fun p _ => p.2 = none ∧ p.1.isNaN = true) := by
  refine wp_mono (C81_loss w m net hN h0 loss hl hls x y ⟨r, X, Y⟩ hX hY) ?_
  rintro p w' ⟨rfl, -⟩
  refine ⟨rfl, ?_⟩
  have hd : (netOut net X net.size 0 j -. Y 0 j).isNaN = true := by rw [he]; exact F64.sub_self_inf hi
  show (lossOf loss.kind r (net.dim net.size) (netOut net X net.size) Y).isNaN = true
  unfold lossOf
  rcases hk with e | e <;> rw [e]
  · exact F64.div_nan (.inl (fsum_nan (f := fun j => Flt.pow (netOut net X net.size 0 j -. Y 0 j) (Flt.ofInt 2)) hj (F64.pow_two_nan hd)))
  · exact F64.div_nan (.inl (fsum_nan (f := fun j => Flt.abs (netOut net X net.size 0 j -. Y 0 j)) hj (F64.abs_nan hd)))

theorem scanMax_nan [Libm] {c : Nat} {f : Nat → F64} (h : ∀ j, j < c → (f j).isNaN = true) : (scanMax c f).1 = 0 := by
  have : scanMax c f = (0, Flt.zero) := by
    unfold scanMax
    induction c with
    | zero => rfl
    | succ c ih =>
      have := ih fun j hj => h j (by omega)
      change (fun p : Int × F64 => if Flt.lt p.2 (f c) then ((c : Int), f c) else p) (accN c _ _) = _
      rw [this]
      dsimp only
      rw [show Flt.lt (_ : F64) (f c) = false from F64.lt_nan (.inr (h c (by omega)))]
      rfl
  rw [this]

/-- C91: Predict reports nothing: with a NaN parameter before the last layer (or in a softmax layer) it returns class 0 for every input if the
accuracy is categorical, 1 for every output if it is binary, and NaN if it is regression. -/
theorem C91_predict [Libm] (w : World F64) (m : Model F64) (net : Net F64) (hN : IsNet w m net) (x : Mat) (r : Nat) (X : Nat → Nat → F64)
    (hX : IsMat w x r (net.dim 0) X) (k j : Nat) (hk : k < net.size) (hj : j < (net.L k).o) (h : NaNParam (net.L k) j)
    (hlast : k + 1 < net.size ∨ (net.L k).kind = .softmax) :
    (m.accType = 0 → wp (predict m x) w (fun p w' => p.2 = none ∧ ∃ V, IsMat w' p.1 r (net.dim net.size) V ∧
      ∀ i c, c < net.dim net.size → (V i c).isNaN = true)) ∧
    (m.accType = 1 → wp (predict m x) w (fun p w' => p.2 = none ∧ IsMat w' p.1 r 1 (fun _ _ => Flt.zero))) ∧
    (m.accType = 2 → wp (predict m x) w (fun p w' => p.2 = none ∧ IsMat w' p.1 r (net.dim net.size) (fun _ _ => Flt.one))) := by
  obtain ⟨V, hV, h0, h1, h2, -⟩ := C50_decode w m net hN (by omega) x r X hX
  have hn : ∀ i c, i < r → c < net.dim net.size → (V i c).isNaN = true := by
    have a := C91_forward w m net hN x r X hX k j hk hj h
    obtain ⟨p, w', e, -, o, e1, v1⟩ := wp_iff.1 hV
    obtain ⟨p', w'', e', -, o', U, e1', u1, -, u2⟩ := wp_iff.1 a
    rw [e] at e'
    obtain ⟨rfl, rfl⟩ : p = p' ∧ w' = w'' := by simpa using e'
    rw [e1] at e1'
    obtain rfl : o = o' := by simpa using e1'
    intro i c hi hc
    rw [v1.entries_unique u1 hi hc]
    exact u2 hlast i c hc
  refine ⟨fun e => ?_, fun e => ?_, fun e => ?_⟩
  · refine wp_mono (h0 e) ?_
    rintro p w' ⟨p1, p2⟩
    refine ⟨p1, fun i c => if i < r then V i c else F64.nan, p2.congr fun i c hi hc => ?_, fun i c hc => ?_⟩
    · rw [if_pos hi]
    · dsimp only
      split
      · rename_i hi; exact hn i c hi hc
      · exact F64.nan_nan
  · refine wp_mono (h1 e) ?_
    rintro p w' ⟨p1, p2⟩
    refine ⟨p1, p2.congr fun i c hi _ => ?_⟩
    rw [scanMax_nan fun c hc => hn i c hi hc]
  · refine wp_mono (h2 e) ?_
    rintro p w' ⟨p1, p2⟩
    refine ⟨p1, p2.congr fun i c hi hc => ?_⟩
    rw [show Flt.lt (V i c) Flt.half = false from F64.lt_nan (.inl (hn i c hi hc))]
    rfl

/-- C91, inputs: a NaN in row i of the input makes row i of the output NaN (the other rows do not depend on it: C31). -/
theorem C91_input [Libm] (w : World F64) (m : Model F64) (net : Net F64) (hN : IsNet w m net) (h0 : 0 < net.size) (x : Mat) (r : Nat) (X : Nat → Nat → F64)
    (hX : IsMat w x r (net.dim 0) X) (i q : Nat) (hq : q < net.dim 0) (h : (X i q).isNaN = true) :
    wp (modelForward m x false) w (fun p w' => p.2 = none ∧ ∃ o V, p.1.getLast? = some o ∧ IsMat w' o r (net.dim net.size) V ∧
      ∀ c, c < net.dim net.size → (V i c).isNaN = true) := by
  refine wp_mono (modelInfer_spec hN h0 hX) ?_
  rintro p w' ⟨h1, hlen, o, h2, h3⟩
  refine ⟨h1, o, _, ?_, h3.res.mat, fun c hc => ?_⟩
  · rw [List.getLast?_eq_getElem?, hlen]
    exact h2
  · obtain ⟨d, hd⟩ : ∃ d, net.size = 0 + (d + 1) := ⟨net.size - 1, by omega⟩
    have := netOut_nan (chained_of hN) (X := X) (i := i) (k := 0) (j := q) hq h d (by omega) c (by rw [← hd]; exact hc)
    rwa [hd]

/-- C89, C90, C91: a model with a NaN in the first of three layers, an optimizer with learning rate NaN, data of 5 rows. -/
example [Libm] : ∃ (w : World F64) (m : Model F64) (net : Net F64) (op : Nat → Nat) (S : Nat → OptSpec F64) (X Y : Mat) (A B : Nat → Nat → F64),
    FitArgs w m net op S ⟨.ce, net.dim net.size⟩ X Y 5 A B ∧ net.size = 3 ∧ (∀ k, (S k).lr.isNaN = true) ∧ 1 < (net.L 0).o ∧ NaNParam (net.L 0) 1 := by
  have hm : (newSGDOptimizer F64.nan Flt.zero Flt.zero : Optim F64 × Option Err).2 = none :=
    (C89_sgd_partial _ _ _).2 ⟨.inl F64.nan_nan, .inr (le_iff.2 ⟨zero_num, zero_num, le_rfl⟩), .inr (le_iff.2 ⟨zero_num, zero_num, le_rfl⟩)⟩
  obtain ⟨o, ho⟩ : ∃ o, newSGDOptimizer (F64.nan : F64) Flt.zero Flt.zero = (o, none) := ⟨_, Prod.ext rfl hm⟩
  have hrows : o.weightMomentums.rows = 0 := by rw [newSGD_ok ho]; rfl
  have hlr : o.learningRate = F64.nan := by rw [newSGD_ok ho]
  obtain ⟨w, net, op, XM, YM, xM, yM, hf, hs, hL, hdim, hT, dX, dY, dx, dy⟩ := exists_task (emptyWorld : World F64) 3 (by decide)
    (fun i => { demoT i with W := fun _ _ => F64.nan }) (fun i => demoT_pos (α := F64) i) (fun i => demoT_chain (α := F64) i) { newModel with loss := some ⟨.ce, 5⟩ } o (OptSpec.fresh o) hrows
    (fun w p i hlt e => e ▸ isOpt_newSGD _ _ _ _ hlt (e.symm ▸ ho)) (r := 5) (r' := 2) (by decide) (by decide)
    (fun _ _ => Flt.one) (fun _ _ => Flt.one) (fun _ _ => Flt.one) (fun _ _ => Flt.one)
  have d0 : net.dim 0 = (demoT 0 : LayerSpec F64).n := by rw [hdim]
  have d1 : net.dim net.size = (demoT 3 : LayerSpec F64).n := by rw [hdim, hs]
  refine ⟨w, _, net, op, _, XM, YM, _, _, ⟨hT, ?_, ?_, rfl, d0 ▸ dX.mat, d1 ▸ dY.mat, ?_, ?_, ?_, ?_⟩, hs, fun k => ?_, ?_, ?_⟩
  · intro k _; rw [hL]; exact demoT_kind (α := F64) k
  · rw [d1]; rfl
  · exact dX.cap
  · exact dY.cap
  · exact dX.sep
  · exact dY.sep
  · change o.learningRate.isNaN = true; rw [hlr]; exact F64.nan_nan
  · rw [hL]; change 1 < 3; decide
  · rw [hL]; exact .inl ⟨0, by change 0 < 2; decide, F64.nan_nan⟩

/-- C89_update -/
example [Libm] : ∃ (w : World F64) (op : Nat) (wm bm dw db : Mat) (S : OptSpec F64) (W B GW GB : Nat → Nat → F64), IsOpt w op 2 3 1 3 S ∧
    IsParams w wm bm 2 3 1 3 W B ∧ IsMat w dw 2 3 GW ∧ IsMat w db 1 3 GB ∧ S.lr.isNaN = true := by
  have hm : (newAdamOptimizer F64.nan Flt.zero Flt.eps7 Flt.half Flt.half : Optim F64 × Option Err).2 = none :=
    (C89_adam_partial _ _ _ _ _).2 ⟨.inl F64.nan_nan, .inr (le_iff.2 ⟨zero_num, zero_num, le_rfl⟩)⟩
  obtain ⟨o, ho⟩ : ∃ o, newAdamOptimizer (F64.nan : F64) Flt.zero Flt.eps7 Flt.half Flt.half = (o, none) := ⟨_, Prod.ext rfl hm⟩
  obtain ⟨w, op, wm, bm, dw, db, h1, h2, h3, h4, h5⟩ := exists_update_state (rw := 2) (cw := 3) (rb := 1) (cb := 3)
    (r1 := 2) (c1 := 3) (r2 := 1) (c2 := 3) (by decide) (by decide) (by decide) (by decide) (by decide) (by decide)
    (by decide) (by decide) (fun _ _ => (Flt.one : F64)) (fun _ _ => Flt.one) (fun _ _ => Flt.one) (fun _ _ => Flt.one) o
  refine ⟨w, op, wm, bm, dw, db, _, _, _, _, _, isOpt_newAdam _ _ _ _ h1 (h2.symm ▸ ho), h3, h4, h5, ?_⟩
  change (w.opt op).learningRate.isNaN = true
  rw [h2, newAdam_ok ho]
  exact F64.nan_nan

/-- C91_infinite: a linear layer with bias +Inf, five rows of zeros, targets +Inf, mean squared error. -/
example [Libm] : ∃ (w : World F64) (m : Model F64) (net : Net F64) (loss : Loss) (x y : Mat) (X Y : Nat → Nat → F64), IsNet w m net ∧ 0 < net.size ∧
    m.loss = some loss ∧ loss.size = net.dim net.size ∧ loss.kind = .mse ∧ IsMat w x 5 (net.dim 0) X ∧ IsMat w y 5 (net.dim net.size) Y ∧
    0 < net.dim net.size ∧ (Y 0 0).isInf = true ∧ netOut net X net.size 0 0 = Y 0 0 := by
  have hm : (newSGDOptimizer F64.nan Flt.zero Flt.zero : Optim F64 × Option Err).2 = none :=
    (C89_sgd_partial _ _ _).2 ⟨.inl F64.nan_nan, .inr (le_iff.2 ⟨zero_num, zero_num, le_rfl⟩), .inr (le_iff.2 ⟨zero_num, zero_num, le_rfl⟩)⟩
  obtain ⟨o, ho⟩ : ∃ o, newSGDOptimizer (F64.nan : F64) Flt.zero Flt.zero = (o, none) := ⟨_, Prod.ext rfl hm⟩
  have hrows : o.weightMomentums.rows = 0 := by rw [newSGD_ok ho]; rfl
  obtain ⟨w, net, op, XM, YM, xM, yM, hf, hs, hL, hdim, hT, dX, dY, dx, dy⟩ := exists_task (emptyWorld : World F64) 1 (by decide)
    (fun i => ⟨.linear, 1, 1, fun _ _ => Flt.zero, fun _ => F64.inf false, Flt.zero, Flt.zero⟩) (fun i => ⟨Nat.one_pos, Nat.one_pos⟩) (fun i => rfl)
    { newModel with loss := some ⟨.mse, 1⟩ } o (OptSpec.fresh o) hrows
    (fun w p i hlt e => e ▸ isOpt_newSGD _ _ _ _ hlt (e.symm ▸ ho)) (r := 5) (r' := 2) (by decide) (by decide)
    (fun _ _ => Flt.zero) (fun _ _ => F64.inf false) (fun _ _ => Flt.one) (fun _ _ => Flt.one)
  have d0 : net.dim 0 = 1 := by rw [hdim]
  have d1 : net.dim net.size = 1 := by rw [hdim]
  refine ⟨w, _, net, ⟨.mse, 1⟩, XM, YM, _, _, hT.isNet, hT.pos, rfl, by rw [d1]; rfl, rfl, d0 ▸ dX.mat, d1 ▸ dY.mat, by omega, inf_facts.1, ?_⟩
  rw [hs]
  show infer (net.L 0) (fun _ _ => Flt.zero) 0 0 = _
  rw [hL]
  show F64.add (F64.add Flt.zero (F64.mul Flt.zero Flt.zero)) (F64.inf false) = F64.inf false
  obtain ⟨t1, t2⟩ := f64_int (n := 0) (by norm_num) (by norm_num)
  have hfin : (F64.add Flt.zero (F64.mul Flt.zero Flt.zero)).absBits < infBits := by
    have t1 : (Flt.zero : F64).val = 0 := by simpa using t1
    rw [F64.mul_fin t2 t2, t1, mul_zero, F64.add_fin t2 (F64.round_zero_val _).2, (F64.round_zero_val _).1, t1, add_zero]
    exact (F64.round_zero_val _).2
  generalize F64.add Flt.zero (F64.mul Flt.zero Flt.zero) = z at hfin
  unfold F64.add
  rw [(F64.not_special hfin).1, (F64.not_special hfin).2, inf_facts.1, inf_facts.2.1]
  rfl

end NN
