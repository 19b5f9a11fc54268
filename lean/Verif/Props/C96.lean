import Verif.Model.BinomialFull
import Verif.Props.C38_C39
import Verif.Props.C88_C91
import Mathlib.Analysis.SpecialFunctions.Gamma.Basic
import Mathlib.Analysis.SpecialFunctions.Trigonometric.Basic
/- Property C96: binomial.Rand for every N. -/

set_option linter.unusedSectionVars false

namespace NN
open Go Finset MeasureTheory ProbabilityTheory

noncomputable instance : FltMath ℝ where
  floor x := ⌊x⌋
  tan := Real.tan
  log1p x := Real.log (1 + x)
  lgamma x := Real.log |Real.Gamma x|
  pi := Real.pi
  sixth := 1 / 6
  logM := 26 / 1000
  c1p2 := 12 / 10

/-! ### Running to the end -/

section Any
variable {α : Type} [Flt α] [FltMath α]

theorem poissonLoop_mono {d : Draws α} {N am pclog : α} {fuel : Nat} {q : DrawPos} {r : α × DrawPos}
    (h : poissonLoop d N am pclog fuel q = some r) : poissonLoop d N am pclog (fuel + 1) q = some r := by
  induction fuel generalizing q with
  | zero => cases h
  | succ f ih =>
    rw [poissonLoop] at h ⊢
    dsimp only at h ⊢
    split at h
    · rename_i hc
      rw [if_pos hc]; exact h
    · rename_i hc
      rw [if_neg hc]; exact ih h

theorem cauchyLoop_mono {d : Draws α} {N am g plog pclog sq : α} {fuel : Nat} {q : DrawPos} {r : α × DrawPos}
    (h : cauchyLoop d N am g plog pclog sq fuel q = some r) : cauchyLoop d N am g plog pclog sq (fuel + 1) q = some r := by
  induction fuel generalizing q with
  | zero => cases h
  | succ f ih =>
    rw [cauchyLoop] at h ⊢
    dsimp only at h ⊢
    split at h
    · rename_i hc
      rw [if_pos hc]
      split at h
      · rename_i hd
        rw [if_pos hd]; exact h
      · rename_i hd
        rw [if_neg hd]; exact ih h
    · rename_i hc
      rw [if_neg hc]; exact ih h

/-- C96: the fuel of the model is no limit: with more of it the result is the same. -/
theorem C96_fuel (d : Draws α) (N P : α) (fuel more : Nat) (q : DrawPos) (r : α × DrawPos) (h : binomialFull d N P fuel q = some r) :
    binomialFull d N P (fuel + more) q = some r := by
  induction more with
  | zero => exact h
  | succ m ih =>
    clear h
    rw [← Nat.add_assoc]
    unfold binomialFull at ih ⊢
    split at ih
    · rename_i hc
      rw [if_pos hc]; exact ih
    · rename_i hc
      rw [if_neg hc]
      split at ih
      · rename_i hd
        rw [if_pos hd]
        obtain ⟨a, ha, hb⟩ := Option.map_eq_some_iff.1 ih
        rw [poissonLoop_mono ha]
        exact congrArg some hb
      · rename_i hd
        rw [if_neg hd]
        obtain ⟨a, ha, hb⟩ := Option.map_eq_some_iff.1 ih
        rw [cauchyLoop_mono ha]
        exact congrArg some hb

theorem directCount_run (p : α) (n e : Nat) (w : World α) (x : Nat → α) :
    foldN n (fun _ bnl => do
      let u ← drawUnif
      if Flt.lt u p then return bnl +. Flt.one else return bnl) Flt.zero w =
    .ok (directCount ⟨w.unif, x⟩ p ⟨w.unifPos, e⟩ n, { w with unifPos := w.unifPos + n }) := by
  induction n with
  | zero => rfl
  | succ n ih =>
    rw [foldN]
    refine (bind_ok ih).trans ?_
    refine (bind_ok (b := w.unif (w.unifPos + n)) (w' := { w with unifPos := w.unifPos + n + 1 }) rfl).trans ?_
    rw [directCount]
    show (if _ then _ else _ : Go α α) _ = _
    split <;> rfl

/-- C96, the package's use of it: for N < 25 the model `binomialRand` of the dropout layer is `Rand`: same value, same draws. -/
theorem C96_package [FltInt α] (w : World α) (n : Nat) (hn : n ≤ 2 ^ 53) (h : Flt.lt (Flt.ofInt n : α) (Flt.ofInt 25) = true) (P : α)
    (x : Nat → α) (e fuel : Nat) :
    ∃ v, binomialRand n P w = .ok (v, { w with unifPos := w.unifPos + n }) ∧
      binomialFull ⟨w.unif, x⟩ (Flt.ofInt n) P fuel ⟨w.unifPos, e⟩ = some (v, ⟨w.unifPos + n, e⟩) := by
  have ht : (Flt.toInt (Flt.ofInt (n : Int) : α)).toNat = n := by
    rw [FltInt.toInt_ofInt _ (by omega) (by exact_mod_cast hn)]; rfl
  refine ⟨mirror (Flt.ofInt n) P (directCount ⟨w.unif, x⟩ (smallP P) ⟨w.unifPos, e⟩ n), ?_, ?_⟩
  · unfold binomialRand
    refine (bind_ok (directCount_run _ n e w x)).trans ?_
    unfold mirror smallP
    split <;> split <;> rfl
  · unfold binomialFull
    rw [if_pos h, ht]

end Any

/-! ### The result is a number of successes -/

theorem directCount_nat (d : Draws ℝ) (p : ℝ) (q : DrawPos) (k : Nat) :
    directCount d p q k = (((range k).filter fun i => d.unif (q.u + i) < p).card : ℝ) := by
  induction k with
  | zero => simp [directCount, Flt.zero]
  | succ k ih =>
    rw [directCount, Finset.range_add_one, Finset.filter_insert]
    by_cases h : d.unif (q.u + k) < p
    · rw [if_pos (by simpa using h), if_pos h, Finset.card_insert_of_notMem (by simp), ih]
      simp [Flt.one]
    · rw [if_neg (by simpa using h), if_neg h, ih]

theorem poissonCount_nat (d : Draws ℝ) (am : ℝ) (k : Nat) (t : ℝ) (j : Nat) (q : DrawPos) :
    ∃ i, i ≤ j + k ∧ (poissonCount d am k t (j : ℝ) q).1 = (i : ℝ) := by
  induction k generalizing t j q with
  | zero => exact ⟨j, le_rfl, rfl⟩
  | succ k ih =>
    rw [poissonCount]
    split
    · exact ⟨j, by omega, rfl⟩
    · have e : (j : ℝ) +. (Flt.one : ℝ) = ((j + 1 : Nat) : ℝ) := by simp [Flt.one]
      rw [e]
      obtain ⟨i, h1, h2⟩ := ih (t +. d.exp q.e) (j + 1) { q with e := q.e + 1 }
      exact ⟨i, by omega, h2⟩

theorem poissonLoop_nat {d : Draws ℝ} {n : Nat} {am pclog : ℝ} {fuel : Nat} {q : DrawPos} {r : ℝ × DrawPos}
    (h : poissonLoop d (n : ℝ) am pclog fuel q = some r) : ∃ k, k ≤ n ∧ r.1 = (k : ℝ) := by
  induction fuel generalizing q with
  | zero => cases h
  | succ f ih =>
    rw [poissonLoop] at h
    dsimp only at h
    split at h
    · have e : (Flt.toInt (n : ℝ)).toNat = n := by
        have := FltInt.toInt_ofInt (α := ℝ) (n : Int)
        simp [Flt.toInt]
      obtain ⟨i, h1, h2⟩ := poissonCount_nat d am (Flt.toInt (n : ℝ)).toNat (Flt.zero : ℝ) 0 q
      have h := Option.some.inj h
      rw [← h]
      refine ⟨i, by omega, ?_⟩
      rw [← h2]
      simp [Flt.zero]
    · exact ih h

theorem cauchyLoop_nat {d : Draws ℝ} {n : Nat} {am g plog pclog sq : ℝ} {fuel : Nat} {q : DrawPos} {r : ℝ × DrawPos}
    (h : cauchyLoop d (n : ℝ) am g plog pclog sq fuel q = some r) : ∃ k, k ≤ n ∧ r.1 = (k : ℝ) := by
  induction fuel generalizing q with
  | zero => cases h
  | succ f ih =>
    rw [cauchyLoop] at h
    dsimp only at h
    split at h
    · rename_i hc
      split at h
      · have h := Option.some.inj h
        rw [← h]
        dsimp only
        generalize sq *. FltMath.tan (FltMath.pi *. d.unif q.u) +. am = em at hc ⊢
        simp [Flt.zero, Flt.one] at hc
        have h0 : 0 ≤ ⌊em⌋ := Int.floor_nonneg.2 hc.1
        have h1 : ⌊em⌋ < n + 1 := Int.floor_lt.2 (by push_cast; exact hc.2)
        refine ⟨⌊em⌋.toNat, by omega, ?_⟩
        show ((⌊em⌋ : Int) : ℝ) = _
        have : ((⌊em⌋.toNat : Int) : ℝ) = ((⌊em⌋ : Int) : ℝ) := by rw [Int.toNat_of_nonneg h0]
        rw [← this]
        exact Int.cast_natCast _
      · exact ih h
    · exact ih h

theorem mirror_nat {n k : Nat} (h : k ≤ n) (P : ℝ) : ∃ j, j ≤ n ∧ mirror (n : ℝ) P (k : ℝ) = (j : ℝ) := by
  unfold mirror
  split
  · exact ⟨n - k, by omega, by rw [Nat.cast_sub h]; simp⟩
  · exact ⟨k, h, rfl⟩

/-- C96: for every number of trials N, every P and every outcome of the random source, the value returned is a whole number from 0 to N. -/
theorem C96_range (d : Draws ℝ) (n : Nat) (P : ℝ) (fuel : Nat) (q : DrawPos) (r : ℝ × DrawPos)
    (h : binomialFull d (n : ℝ) P fuel q = some r) : ∃ k, k ≤ n ∧ r.1 = (k : ℝ) := by
  unfold binomialFull at h
  split at h
  · have h := Option.some.inj h
    rw [← h]
    dsimp only
    rw [directCount_nat]
    refine mirror_nat ?_ P
    refine (Finset.card_filter_le _ _).trans ?_
    simp [Flt.toInt]
  · split at h
    · obtain ⟨a, ha, hb⟩ := Option.map_eq_some_iff.1 h
      obtain ⟨k, hk, e⟩ := poissonLoop_nat ha
      rw [← hb]
      dsimp only
      rw [e]
      exact mirror_nat hk P
    · obtain ⟨a, ha, hb⟩ := Option.map_eq_some_iff.1 h
      obtain ⟨k, hk, e⟩ := cauchyLoop_nat ha
      rw [← hb]
      dsimp only
      rw [e]
      exact mirror_nat hk P

/-! ### Distribution of the direct method -/

/-- The draws that `Rand` counts as a success. -/
def hits (P : ℝ) : Set ℝ := if 1 / 2 < P then {u | 1 - P ≤ u} else {u | u < P}

theorem measurableSet_hits (P : ℝ) : MeasurableSet (hits P) := by
  unfold hits
  split
  · exact measurableSet_Ici
  · exact measurableSet_Iio

theorem volume_hits {P : ℝ} (h1 : P ≤ 1) : volume.restrict (Set.Ico (0 : ℝ) 1) (hits P) = ENNReal.ofReal P := by
  have e : hits P = keptDraws (1 - P) := by
    unfold hits keptDraws
    by_cases h1 : 1 / 2 < P
    · rw [if_pos h1, if_pos (by linarith)]
    · rw [if_neg h1, if_neg (by intro h2; linarith)]
      simp
  rw [e, volume_keptDraws (by linarith)]
  simp

open Classical in
theorem mirror_count (d : Draws ℝ) (n : Nat) (P : ℝ) (q : DrawPos) :
    mirror (n : ℝ) P (directCount d (smallP P) q n) =
      (((range n).filter fun i => d.unif (q.u + i) ∈ hits P).card : ℝ) := by
  rw [directCount_nat]
  unfold mirror smallP hits
  by_cases h : 1 / 2 < P
  · have e1 : (Flt.lt (Flt.half : ℝ) P) = true := by simpa using h
    have e2 : (!Flt.eq (Flt.one -. P : ℝ) P) = true := by
      simp [Flt.one]
      intro h'
      linarith
    rw [if_pos e1, if_pos e2, if_pos h]
    have hc := Finset.card_filter_add_card_filter_not (s := range n) (fun i => d.unif (q.u + i) < 1 - P)
    rw [card_range] at hc
    have e3 : ((range n).filter fun i => ¬ d.unif (q.u + i) < 1 - P) = (range n).filter fun i => d.unif (q.u + i) ∈ {u | 1 - P ≤ u} := by
      ext i; simp
    rw [e3] at hc
    have e4 : (Flt.one -. P : ℝ) = 1 - P := by simp [Flt.one]
    rw [e4, show ((n : ℝ)) = (((range n).filter fun i => d.unif (q.u + i) < 1 - P).card : ℝ) +
      (((range n).filter fun i => d.unif (q.u + i) ∈ {u | 1 - P ≤ u}).card : ℝ) by exact_mod_cast hc.symm]
    simp
  · have e1 : ¬ (Flt.lt (Flt.half : ℝ) P) = true := by simpa using h
    rw [if_neg e1, if_neg (by simp), if_neg h]
    rfl

open Classical in
/-- C96: for N < 25 the value is the number of successes among the next N uniform draws, and exactly these draws are used. -/
theorem C96_direct (d : Draws ℝ) (n : Nat) (hn : n < 25) (P : ℝ) (fuel : Nat) (q : DrawPos) :
    binomialFull d (n : ℝ) P fuel q =
      some ((((range n).filter fun i => d.unif (q.u + i) ∈ hits P).card : ℝ), { q with u := q.u + n }) := by
  have e : (Flt.toInt (n : ℝ)).toNat = n := by simp [Flt.toInt]
  have h : Flt.lt (n : ℝ) (Flt.ofInt 25) = true := by
    simp
    exact_mod_cast hn
  unfold binomialFull
  rw [if_pos h, e, mirror_count]

/-- C96: for N < 25, 0 ≤ P ≤ 1 and independent uniform draws the value has the binomial distribution with parameters N and P. -/
theorem C96_distribution {Ω : Type} [MeasurableSpace Ω] (μ : Measure Ω) [IsProbabilityMeasure μ] (U : Nat → Ω → ℝ)
    (hU : UniformSource μ U) (hI : iIndepFun U μ) (E : Nat → Ω → ℝ) (n : Nat) (hn : n < 25) (P : ℝ) (h0 : 0 ≤ P) (h1 : P ≤ 1) (fuel : Nat)
    (q : DrawPos) (k : Nat) :
    μ {ω | ∃ q', binomialFull ⟨fun i => U i ω, fun i => E i ω⟩ (n : ℝ) P fuel q = some ((k : ℝ), q')} =
      ENNReal.ofReal (n.choose k * P ^ k * (1 - P) ^ (n - k)) := by
  classical
  let K : Finset Nat → Set Ω := fun S => ⋂ i ∈ range n, U (q.u + i) ⁻¹' (if i ∈ S then hits P else (hits P)ᶜ)
  have hm : ∀ (S : Finset Nat) (i : Nat), MeasurableSet (if i ∈ S then hits P else (hits P)ᶜ : Set ℝ) := fun S i => by
    split
    · exact measurableSet_hits P
    · exact (measurableSet_hits P).compl
  have hev : {ω | ∃ q', binomialFull ⟨fun i => U i ω, fun i => E i ω⟩ (n : ℝ) P fuel q = some ((k : ℝ), q')} =
      ⋃ S ∈ (range n).powersetCard k, K S := by
    ext ω
    simp only [Set.mem_ofPred_eq, C96_direct _ n hn, Set.mem_iUnion, K, Set.mem_iInter, Set.mem_preimage, mem_powersetCard]
    constructor
    · rintro ⟨q', h⟩
      have h := congrArg Prod.fst (Option.some.inj h)
      dsimp only at h
      refine ⟨_, ⟨Finset.filter_subset _ _, Nat.cast_injective h⟩, fun i hi => ?_⟩
      by_cases hh : U (q.u + i) ω ∈ hits P
      · rw [if_pos (by simp [hh, mem_range.1 hi])]; exact hh
      · rw [if_neg (by simp [hh])]; exact hh
    · rintro ⟨S, ⟨hS, hc⟩, h⟩
      refine ⟨_, congrArg some (Prod.ext ?_ rfl)⟩
      dsimp only
      have : ((range n).filter fun i => U (q.u + i) ω ∈ hits P) = S := by
        ext i
        rw [mem_filter]
        constructor
        · rintro ⟨hi, hh⟩
          by_contra hc
          have := h i hi
          rw [if_neg hc] at this
          exact this hh
        · intro hi
          have := h i (hS hi)
          rw [if_pos hi] at this
          exact ⟨hS hi, this⟩
      rw [this, hc]
  have hK : ∀ S ∈ (range n).powersetCard k, μ (K S) = ENNReal.ofReal (P ^ k * (1 - P) ^ (n - k)) := by
    intro S hS
    obtain ⟨hS, hc⟩ := mem_powersetCard.1 hS
    have hinj : Function.Injective (fun i : Nat => q.u + i) := fun i j h => Nat.add_left_cancel h
    have := (hI.precomp hinj).measure_inter_preimage_eq_mul (range n) (sets := fun i => if i ∈ S then hits P else (hits P)ᶜ)
      fun i _ => hm S i
    show μ (⋂ i ∈ range n, U (q.u + i) ⁻¹' (if i ∈ S then hits P else (hits P)ᶜ)) = _
    rw [this]
    have hp : ∀ i, μ (U (q.u + i) ⁻¹' (if i ∈ S then hits P else (hits P)ᶜ)) = if i ∈ S then ENNReal.ofReal P else ENNReal.ofReal (1 - P) := by
      intro i
      have hh : μ (U (q.u + i) ⁻¹' hits P) = ENNReal.ofReal P := by
        rw [← Measure.map_apply (hU.meas _) (measurableSet_hits P), hU.unif, volume_hits h1]
      split
      · exact hh
      · rw [Set.preimage_compl, prob_compl_eq_one_sub (hU.meas _ (measurableSet_hits P)), hh, ← ENNReal.ofReal_one,
          ENNReal.ofReal_sub _ h0]
    rw [Finset.prod_congr rfl fun i _ => hp i, Finset.prod_ite, Finset.prod_const, Finset.prod_const]
    have c1 : ((range n).filter fun i => i ∈ S) = S := by
      ext i; simp only [mem_filter]; exact ⟨fun h => h.2, fun h => ⟨hS h, h⟩⟩
    have c2 : ((range n).filter fun i => i ∉ S).card = n - k := by
      have := Finset.card_filter_add_card_filter_not (s := range n) (fun i => i ∈ S)
      rw [c1, hc, card_range] at this
      omega
    rw [c1, c2, hc, ← ENNReal.ofReal_pow h0, ← ENNReal.ofReal_pow (by linarith), ← ENNReal.ofReal_mul (by positivity)]
  rw [hev, measure_biUnion_finset ?_ ?_, Finset.sum_congr rfl hK, Finset.sum_const, card_powersetCard, card_range, nsmul_eq_mul, mul_assoc,
    ENNReal.ofReal_mul (p := (n.choose k : ℝ)) (by positivity), ENNReal.ofReal_natCast]
  · intro S hS T hT hne
    obtain ⟨hS, -⟩ := mem_powersetCard.1 hS
    obtain ⟨hT, -⟩ := mem_powersetCard.1 hT
    refine Set.disjoint_left.2 fun ω h1 h2 => hne ?_
    simp only [K, Set.mem_iInter, Set.mem_preimage] at h1 h2
    ext i
    constructor
    · intro hi
      by_contra hc
      have a := h1 i (hS hi)
      have b := h2 i (hS hi)
      rw [if_pos hi] at a
      rw [if_neg hc] at b
      exact b a
    · intro hi
      by_contra hc
      have a := h1 i (hT hi)
      have b := h2 i (hT hi)
      rw [if_neg hc] at a
      rw [if_pos hi] at b
      exact a b
  · intro S _
    exact Finset.measurableSet_biInter _ fun i _ => hU.meas _ (hm S i)

/-! ### NaN -/

theorem cauchyLoop_nan [Libm] [FltMath F64] {d : Draws F64} {N am g plog pclog sq : F64} (h : am.isNaN = true) (fuel : Nat) (q : DrawPos) :
    cauchyLoop d N am g plog pclog sq fuel q = none := by
  induction fuel generalizing q with
  | zero => rfl
  | succ f ih =>
    rw [cauchyLoop]
    dsimp only
    rw [if_neg, ih]
    have : Flt.le (Flt.zero : F64) (sq *. FltMath.tan (FltMath.pi *. d.unif q.u) +. am) = false := by
      have := F64.add_nan (x := sq *. FltMath.tan (FltMath.pi *. d.unif q.u)) (.inr h)
      show F64.le _ _ = false
      unfold F64.le
      rw [show (sq *. FltMath.tan (FltMath.pi *. d.unif q.u) +. am : F64).isNaN = true from this]
      simp
    rw [this]
    simp

/-- C96: with P = NaN and N ≥ 25 on float64 `Rand` never returns: no amount of fuel suffices, whatever the draws. -/
theorem C96_nan [Libm] [FltMath F64] (d : Draws F64) (N P : F64) (hN : Flt.lt N (Flt.ofInt 25) = false) (hP : P.isNaN = true) (fuel : Nat) (q : DrawPos) :
    binomialFull d N P fuel q = none := by
  have hp : (smallP P).isNaN = true := by
    unfold smallP
    rw [show Flt.lt (Flt.half : F64) P = false from F64.lt_nan (.inr hP)]
    exact hP
  have ha : (N *. smallP P : F64).isNaN = true := F64.mul_nan (.inr hp)
  unfold binomialFull
  rw [hN, show Flt.lt (N *. smallP P : F64) Flt.one = false from F64.lt_nan (.inl ha)]
  simp only [Bool.false_eq_true, if_false]
  rw [cauchyLoop_nan ha]
  rfl

/-! ### The hypotheses can be met -/

/-- 30 trials with P = 1/60 and exponential draws of 100: the Poisson proposal is accepted at once with value 0. -/
example : binomialFull (⟨fun _ => 0, fun _ => 100⟩ : Draws ℝ) ((30 : Nat) : ℝ) (1 / 60) 1 ⟨0, 0⟩ = some (((0 : Nat) : ℝ), ⟨0, 2⟩) := by
  have e : (Flt.toInt ((30 : Nat) : ℝ)).toNat = 29 + 1 := by simp [Flt.toInt]
  have e1 : smallP (1 / 60 : ℝ) = 1 / 60 := by
    unfold smallP
    rw [if_neg]
    simp
    norm_num
  have e2 : poissonCount (⟨fun _ => 0, fun _ => 100⟩ : Draws ℝ) (1 / 2) (29 + 1) 0 0 ⟨0, 0⟩ = (0, ⟨0, 1⟩) := by
    rw [poissonCount]
    dsimp only
    rw [if_pos]
    simp
    norm_num
  unfold binomialFull
  rw [if_neg (by simp; norm_num), e1, if_pos (by simp [Flt.one]; norm_num), poissonLoop, e,
    show (((30 : Nat) : ℝ) *. (1 / 60)) = 1 / 2 by simp; norm_num]
  dsimp only
  rw [show (Flt.zero : ℝ) = 0 by simp [Flt.zero], e2]
  dsimp only
  rw [if_pos]
  · have : mirror ((30 : Nat) : ℝ) (1 / 60) 0 = 0 := by
      unfold mirror
      rw [e1]
      simp
    show some (mirror ((30 : Nat) : ℝ) (1 / 60) 0, _) = _
    rw [this]
    simp
  · simp [pade, FltMath.sixth, FltMath.logM, Flt.one]
    norm_num

example : ∃ (Ω : Type) (_ : MeasurableSpace Ω) (μ : Measure Ω) (_ : IsProbabilityMeasure μ) (U : Nat → Ω → ℝ),
    UniformSource μ U ∧ iIndepFun U μ := by
  obtain ⟨Ω, i1, μ, i2, U, hU, hi⟩ := exists_uniformSource
  exact ⟨Ω, i1, μ, i2, U, hU, hi⟩

example [Libm] : Flt.lt (Flt.ofInt 1 : ℝ) (Flt.ofInt 25) = true ∧ Flt.lt (Flt.ofInt 25 : F64) (Flt.ofInt 25) = false ∧
    ∃ P : F64, P.isNaN = true := by
  refine ⟨by simp, by show F64.lt _ _ = false; unfold F64.lt; simp, F64.nan, by decide⟩

end NN
