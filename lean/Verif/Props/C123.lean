import Verif.Props.C96
import Verif.Props.C97_C99
/- Property C123: the two rejection methods of binomial.Rand. -/

set_option linter.unusedSectionVars false

namespace NN
open Go Finset

/-! ### What the two methods are to do -/

/-- k of the n arrivals with gaps x e, x (e+1), … come before time am: arrivals 1 to k come before am, and arrival k + 1, if k < n, does not. -/
structure ArrivalCount (x : Nat → ℝ) (am : ℝ) (n e k : Nat) : Prop where
  le : k ≤ n
  before : ∀ i, i < k → ∑ l ∈ range (i + 1), x (e + l) < am
  stop : k < n → am ≤ ∑ l ∈ range (k + 1), x (e + l)

/-- The [2/2] Padé approximant of log (1 + z). -/
noncomputable def logPade (z : ℝ) : ℝ := z * (6 + 3 * z) / (6 + 6 * z + z ^ 2)

/-- The bound a further exponential draw must reach for the count k to be accepted. -/
noncomputable def poissonBound (n : Nat) (p : ℝ) (k : Nat) : ℝ :=
  (n - k + 1 / 2) * logPade (-k / n) + k - (n - k) * logPade (-p) + 1 / (12 * (n - k)) - n * p + 13 / 500

/-- Rounds of the Poisson method with exponential draws x from position e: the first accepted count is k, and the position after it is e'. -/
inductive PoissonRun (x : Nat → ℝ) (n : Nat) (p : ℝ) : Nat → Nat → Nat → Prop
  | accept {e k : Nat} : ArrivalCount x (n * p) n e k → poissonBound n p k ≤ x (e + min (k + 1) n) →
      PoissonRun x n p e k (e + min (k + 1) n + 1)
  | reject {e j k e' : Nat} : ArrivalCount x (n * p) n e j → x (e + min (j + 1) n) < poissonBound n p j →
      PoissonRun x n p (e + min (j + 1) n + 1) k e' → PoissonRun x n p e k e'

/-- The binomial probability of k successes in n trials. -/
noncomputable def binomProb (n : Nat) (p : ℝ) (k : Nat) : ℝ := n.choose k * p ^ k * (1 - p) ^ (n - k)

/-- The Cauchy proposal of the uniform draw u. -/
noncomputable def cauchyProposal (n : Nat) (p u : ℝ) : ℝ := Real.sqrt (2 * (n * p) * (1 - p)) * Real.tan (Real.pi * u) + n * p

/-- Rounds of the Cauchy method with uniform draws u from position i: the first accepted count is k, and the position after it is i'. -/
inductive CauchyRun (u : Nat → ℝ) (n : Nat) (p : ℝ) : Nat → Nat → Nat → Prop
  | accept {i k : Nat} : k ≤ n → (k : ℝ) ≤ cauchyProposal n p (u i) → cauchyProposal n p (u i) < k + 1 →
      u (i + 1) ≤ 6 / 5 * Real.sqrt (2 * (n * p) * (1 - p)) * (1 + Real.tan (Real.pi * u i) ^ 2) * binomProb n p k →
      CauchyRun u n p i k (i + 2)
  | outside {i k i' : Nat} : ¬ (0 ≤ cauchyProposal n p (u i) ∧ cauchyProposal n p (u i) < n + 1) → CauchyRun u n p (i + 1) k i' →
      CauchyRun u n p i k i'
  | reject {i j k i' : Nat} : j ≤ n → (j : ℝ) ≤ cauchyProposal n p (u i) → cauchyProposal n p (u i) < j + 1 →
      6 / 5 * Real.sqrt (2 * (n * p) * (1 - p)) * (1 + Real.tan (Real.pi * u i) ^ 2) * binomProb n p j < u (i + 1) →
      CauchyRun u n p (i + 2) k i' → CauchyRun u n p i k i'

/-! ### The Poisson method -/

theorem ArrivalCount.unique {x : Nat → ℝ} {am : ℝ} {n e j k : Nat} (hj : ArrivalCount x am n e j) (hk : ArrivalCount x am n e k) : j = k := by
  rcases Nat.lt_trichotomy j k with h | h | h
  · exact absurd (hj.stop (lt_of_lt_of_le h hk.le)) (not_le.2 (hk.before j h))
  · exact h
  · exact absurd (hk.stop (lt_of_lt_of_le h hj.le)) (not_le.2 (hj.before k h))

theorem poissonCount_arrivals (d : Draws ℝ) (am : ℝ) (n : Nat) (t : ℝ) (j : Nat) (q : DrawPos) :
    ∃ K, K ≤ n ∧ (∀ i, i < K → t + ∑ l ∈ range (i + 1), d.exp (q.e + l) < am) ∧
      (K < n → am ≤ t + ∑ l ∈ range (K + 1), d.exp (q.e + l)) ∧
      poissonCount d am n t (j : ℝ) q = (((j + K : Nat) : ℝ), ⟨q.u, q.e + min (K + 1) n⟩) := by
  induction n generalizing t j q with
  | zero => exact ⟨0, le_rfl, fun i h => absurd h (Nat.not_lt_zero i), fun h => absurd h (lt_irrefl 0), by simp [poissonCount]⟩
  | succ n ih =>
    rw [poissonCount]
    by_cases h : am ≤ t + d.exp q.e
    · rw [if_pos (by simpa using h)]
      refine ⟨0, by omega, fun i h => absurd h (Nat.not_lt_zero i), fun _ => by simpa using h, ?_⟩
      simp
    · rw [if_neg (by simpa using h)]
      have e : (j : ℝ) +. (Flt.one : ℝ) = ((j + 1 : Nat) : ℝ) := by simp [Flt.one]
      rw [e]
      obtain ⟨K, h1, h2, h3, h4⟩ := ih (t +. d.exp q.e) (j + 1) { q with e := q.e + 1 }
      have hs : ∀ i, t + ∑ l ∈ range (i + 1 + 1), d.exp (q.e + l) = t + d.exp q.e + ∑ l ∈ range (i + 1), d.exp (q.e + 1 + l) := by
        intro i
        rw [Finset.sum_range_succ' _ (i + 1)]
        simp only [Nat.add_zero, Nat.add_assoc, Nat.add_comm 1]
        ring
      refine ⟨K + 1, by omega, fun i hi => ?_, fun hK => ?_, ?_⟩
      · rcases i with _ | i
        · simpa using not_le.1 h
        · rw [hs]; exact h2 i (by omega)
      · rw [hs]; exact h3 (by omega)
      · rw [h4]
        refine Prod.ext ?_ ?_
        · dsimp only; congr 1; omega
        · dsimp only; congr 1; omega

theorem pade_real (z : ℝ) : pade z = logPade z := by
  unfold pade logPade
  have h : (1 + 1 / 2 * z) * z / (1 + (1 + 1 / 6 * z) * z) = z * (6 + 3 * z) / 6 / ((6 + 6 * z + z ^ 2) / 6) := by
    congr 1 <;> ring
  rw [div_div_div_cancel_right₀ (by norm_num)] at h
  rw [← h]
  simp [Flt.one, FltMath.sixth]

theorem toInt_nat (n : Nat) : (Flt.toInt (n : ℝ)).toNat = n := by simp [Flt.toInt]

theorem poissonLoop_step (d : Draws ℝ) (n : Nat) (p : ℝ) (fuel : Nat) (q : DrawPos) :
    ∃ K, ArrivalCount d.exp (n * p) n q.e K ∧
      poissonLoop d (n : ℝ) ((n : ℝ) *. p) (pade (Flt.neg p)) (fuel + 1) q =
        if poissonBound n p K ≤ d.exp (q.e + min (K + 1) n) then some ((K : ℝ), ⟨q.u, q.e + min (K + 1) n + 1⟩)
        else poissonLoop d (n : ℝ) ((n : ℝ) *. p) (pade (Flt.neg p)) fuel ⟨q.u, q.e + min (K + 1) n + 1⟩ := by
  obtain ⟨K, h1, h2, h3, h4⟩ := poissonCount_arrivals d (n * p) n 0 0 q
  simp only [zero_add] at h2 h3
  refine ⟨K, ⟨h1, h2, h3⟩, ?_⟩
  rw [poissonLoop, toInt_nat]
  have e0 : (Flt.zero : ℝ) = ((0 : Nat) : ℝ) := by simp [Flt.zero]
  have e1 : (Flt.zero : ℝ) = 0 := by simp [Flt.zero]
  have h5 : poissonCount d ((n : ℝ) *. p) n Flt.zero Flt.zero q = ((K : ℝ), ⟨q.u, q.e + min (K + 1) n⟩) := by
    have := h4
    rw [Nat.zero_add] at this
    rw [← this, e1]
    simp
  rw [h5]
  dsimp only
  have hb : ((n : ℝ) -. (K : ℝ) +. Flt.half) *. pade (Flt.neg (K : ℝ) /. (n : ℝ)) +. (K : ℝ) -. ((n : ℝ) -. (K : ℝ)) *. pade (Flt.neg p) +.
      Flt.one /. (Flt.ofInt 12 *. ((n : ℝ) -. (K : ℝ))) -. (n : ℝ) *. p +. FltMath.logM = poissonBound n p K := by
    rw [pade_real, pade_real]
    unfold poissonBound
    simp [Flt.one, FltMath.logM]
    norm_num
  rw [hb]
  simp only [real_le, decide_eq_true_eq]

theorem poissonLoop_sound {d : Draws ℝ} {n : Nat} {p : ℝ} {fuel : Nat} {q : DrawPos} {r : ℝ × DrawPos}
    (h : poissonLoop d (n : ℝ) ((n : ℝ) *. p) (pade (Flt.neg p)) fuel q = some r) :
    ∃ k e', PoissonRun d.exp n p q.e k e' ∧ r = ((k : ℝ), ⟨q.u, e'⟩) := by
  induction fuel generalizing q with
  | zero => cases h
  | succ f ih =>
    obtain ⟨K, hK, e⟩ := poissonLoop_step d n p f q
    rw [e] at h
    split at h
    · rename_i hc
      exact ⟨K, _, .accept hK hc, (Option.some.inj h).symm⟩
    · rename_i hc
      obtain ⟨k, e', h1, h2⟩ := ih h
      exact ⟨k, e', .reject hK (not_le.1 hc) h1, h2⟩

theorem poissonLoop_complete {d : Draws ℝ} {n : Nat} {p : ℝ} {e k e' : Nat} (h : PoissonRun d.exp n p e k e') (u : Nat) :
    ∃ fuel, poissonLoop d (n : ℝ) ((n : ℝ) *. p) (pade (Flt.neg p)) fuel ⟨u, e⟩ = some ((k : ℝ), ⟨u, e'⟩) := by
  induction h with
  | @accept e k hk hb =>
    obtain ⟨K, hK, E⟩ := poissonLoop_step d n p 0 ⟨u, e⟩
    obtain rfl := hK.unique hk
    exact ⟨1, by rw [E, if_pos hb]⟩
  | @reject e j k e' hk hb _ ih =>
    obtain ⟨f, ih⟩ := ih
    obtain ⟨K, hK, E⟩ := poissonLoop_step d n p f ⟨u, e⟩
    obtain rfl := hK.unique hk
    exact ⟨f + 1, by rw [E, if_neg (not_le.2 hb)]; exact ih⟩

theorem smallP_real (P : ℝ) : smallP P = min P (1 - P) := by
  unfold smallP
  by_cases h : 1 / 2 < P
  · rw [if_pos (by simpa using h), min_eq_right (by linarith)]; simp [Flt.one]
  · rw [if_neg (by simpa using h), min_eq_left (by linarith)]

theorem mirror_real (n P k : ℝ) : mirror n P k = if 1 / 2 < P then n - k else k := by
  unfold mirror
  rw [smallP_real]
  by_cases h : 1 / 2 < P
  · rw [if_pos h, min_eq_right (by linarith), if_pos]
    · simp
    · simp; intro h'; linarith
  · rw [if_neg h, min_eq_left (by linarith), if_neg]
    simp

/-- C123: for N ≥ 25 and N·min(P, 1-P) < 1, `Rand` returns v exactly if v is the first accepted count of the Poisson method (N minus
the count if P > 1/2), and it takes exactly the draws of these rounds.  (Real arithmetic; 1/0 is 0 here, see `C123_never_all` for float64.) -/
theorem C123_poisson (d : Draws ℝ) (n : Nat) (hn : 25 ≤ n) (P : ℝ) (h : n * min P (1 - P) < 1) (q q' : DrawPos) (v : ℝ) :
    (∃ fuel, binomialFull d (n : ℝ) P fuel q = some (v, q')) ↔
      ∃ k e', PoissonRun d.exp n (min P (1 - P)) q.e k e' ∧ v = (if 1 / 2 < P then (n : ℝ) - k else k) ∧ q' = ⟨q.u, e'⟩ := by
  have hn' : (25 : ℝ) ≤ n := by exact_mod_cast hn
  have c1 : ¬ Flt.lt (n : ℝ) (Flt.ofInt 25) = true := by simpa using hn'
  have c2 : Flt.lt ((n : ℝ) *. smallP P) Flt.one = true := by rw [smallP_real]; simpa [Flt.one] using h
  unfold binomialFull
  simp only [if_neg c1, if_pos c2]
  rw [smallP_real]
  constructor
  · rintro ⟨fuel, hf⟩
    obtain ⟨a, ha, hb⟩ := Option.map_eq_some_iff.1 hf
    obtain ⟨k, e', h1, rfl⟩ := poissonLoop_sound ha
    rw [mirror_real] at hb
    exact ⟨k, e', h1, (congrArg Prod.fst hb).symm, (congrArg Prod.snd hb).symm⟩
  · rintro ⟨k, e', h1, rfl, rfl⟩
    obtain ⟨fuel, hf⟩ := poissonLoop_complete h1 q.u
    refine ⟨fuel, ?_⟩
    rw [show q = ⟨q.u, q.e⟩ from rfl, hf]
    simp only [Option.map_some, mirror_real]

/-! ### The Cauchy method -/

theorem lgamma_nat (k : Nat) : (FltMath.lgamma ((k : ℝ) +. Flt.one) : ℝ) = Real.log (k.factorial : ℝ) := by
  show Real.log |Real.Gamma ((k : ℝ) +. Flt.one)| = _
  have : ((k : ℝ) +. Flt.one) = (k : ℝ) + 1 := by simp [Flt.one]
  rw [this, Real.Gamma_nat_eq_factorial, abs_of_nonneg (by positivity)]

theorem exp_lgamma {n k : Nat} (h : k ≤ n) {p : ℝ} (h0 : 0 < p) (h1 : p < 1) :
    Real.exp (Real.log (n.factorial : ℝ) - Real.log (k.factorial : ℝ) - Real.log ((n - k).factorial : ℝ) + k * Real.log p +
      ((n - k : Nat) : ℝ) * Real.log (1 - p)) = binomProb n p k := by
  have f1 : (0 : ℝ) < n.factorial := by exact_mod_cast n.factorial_pos
  have f2 : (0 : ℝ) < k.factorial := by exact_mod_cast k.factorial_pos
  have f3 : (0 : ℝ) < (n - k).factorial := by exact_mod_cast (n - k).factorial_pos
  have f4 : 0 < 1 - p := by linarith
  rw [Real.exp_add, Real.exp_add, Real.exp_sub, Real.exp_sub, Real.exp_log f1, Real.exp_log f2, Real.exp_log f3,
    Real.exp_nat_mul, Real.exp_log h0, Real.exp_nat_mul, Real.exp_log f4]
  unfold binomProb
  congr 2
  have := Nat.choose_mul_factorial_mul_factorial h
  have : (n.choose k : ℝ) * k.factorial * (n - k).factorial = n.factorial := by exact_mod_cast this
  field_simp
  linarith

section Cauchy
variable (d : Draws ℝ) (n : Nat) (p : ℝ)

/-- The loop of the Cauchy method as `Rand` calls it. -/
noncomputable abbrev cauchyRand (fuel : Nat) (q : DrawPos) : Option (ℝ × DrawPos) :=
  cauchyLoop d (n : ℝ) ((n : ℝ) *. p) (FltMath.lgamma ((n : ℝ) +. Flt.one)) (Flt.log p) (FltMath.log1p (Flt.neg p))
    (Flt.sqrt (Flt.ofInt 2 *. ((n : ℝ) *. p) *. (Flt.one -. p))) fuel q

theorem proposal_real (u : ℝ) : Flt.sqrt (Flt.ofInt 2 *. ((n : ℝ) *. p) *. (Flt.one -. p)) *. FltMath.tan (FltMath.pi *. u) +. (n : ℝ) *. p =
    cauchyProposal n p u := by
  unfold cauchyProposal
  simp [Flt.one, FltMath.tan, FltMath.pi]

theorem cauchy_outside (fuel : Nat) (q : DrawPos)
    (h : ¬ (0 ≤ cauchyProposal n p (d.unif q.u) ∧ cauchyProposal n p (d.unif q.u) < n + 1)) :
    cauchyRand d n p (fuel + 1) q = cauchyRand d n p fuel ⟨q.u + 1, q.e⟩ := by
  show cauchyLoop _ _ _ _ _ _ _ _ _ = _
  rw [cauchyLoop]
  dsimp only
  rw [proposal_real, if_neg]
  have e : ((n : ℝ) +. Flt.one) = (n : ℝ) + 1 := by simp [Flt.one]
  have e0 : (Flt.zero : ℝ) = 0 := by simp [Flt.zero]
  rw [e, e0]
  simpa using h

theorem cauchy_inside (h0 : 0 < p) (h1 : p < 1) (fuel : Nat) (q : DrawPos) {k : Nat} (hk : k ≤ n) (hl : (k : ℝ) ≤ cauchyProposal n p (d.unif q.u))
    (hu : cauchyProposal n p (d.unif q.u) < k + 1) :
    cauchyRand d n p (fuel + 1) q =
      if d.unif (q.u + 1) ≤ 6 / 5 * Real.sqrt (2 * (n * p) * (1 - p)) * (1 + Real.tan (Real.pi * d.unif q.u) ^ 2) * binomProb n p k then
        some ((k : ℝ), ⟨q.u + 2, q.e⟩) else cauchyRand d n p fuel ⟨q.u + 2, q.e⟩ := by
  show cauchyLoop _ _ _ _ _ _ _ _ _ = _
  rw [cauchyLoop]
  dsimp only
  rw [proposal_real, if_pos]
  · have hf : (FltMath.floor (cauchyProposal n p (d.unif q.u)) : ℝ) = (k : ℝ) := by
      show ((⌊_⌋ : Int) : ℝ) = _
      rw [Int.floor_eq_iff.2 (show (((k : Int) : ℝ) ≤ _ ∧ _ < ((k : Int) : ℝ) + 1) from ⟨by exact_mod_cast hl, by exact_mod_cast hu⟩)]
      exact Int.cast_natCast k
    have hs : ((n : ℝ) -. (k : ℝ)) = ((n - k : Nat) : ℝ) := by rw [Nat.cast_sub hk]; rfl
    rw [hf, hs, lgamma_nat, lgamma_nat, lgamma_nat]
    have he : (Flt.exp (Real.log (n.factorial : ℝ) -. Real.log (k.factorial : ℝ) -. Real.log ((n - k).factorial : ℝ) +. (k : ℝ) *. Flt.log p +.
        ((n - k : Nat) : ℝ) *. FltMath.log1p (Flt.neg p)) : ℝ) = binomProb n p k := by
      rw [← exp_lgamma hk h0 h1]
      simp [FltMath.log1p, sub_eq_add_neg]
    rw [he]
    have ht : ((FltMath.c1p2 : ℝ) *. Flt.sqrt (Flt.ofInt 2 *. ((n : ℝ) *. p) *. (Flt.one -. p)) *.
        (Flt.one +. FltMath.tan (FltMath.pi *. d.unif q.u) *. FltMath.tan (FltMath.pi *. d.unif q.u)) *. binomProb n p k) =
        6 / 5 * Real.sqrt (2 * (n * p) * (1 - p)) * (1 + Real.tan (Real.pi * d.unif q.u) ^ 2) * binomProb n p k := by
      simp [FltMath.c1p2, Flt.one, FltMath.tan, FltMath.pi]
      left
      ring
    rw [ht]
    simp only [real_le, decide_eq_true_eq]
    unfold cauchyRand
    rw [lgamma_nat]
  · have e : ((n : ℝ) +. Flt.one) = (n : ℝ) + 1 := by simp [Flt.one]
    have e0 : (Flt.zero : ℝ) = 0 := by simp [Flt.zero]
    rw [e, e0]
    have : (k : ℝ) ≤ n := by exact_mod_cast hk
    have : (0 : ℝ) ≤ k := by positivity
    simp
    constructor <;> linarith

end Cauchy

theorem cauchy_sound {d : Draws ℝ} {n : Nat} {p : ℝ} (h0 : 0 < p) (h1 : p < 1) {fuel : Nat} {q : DrawPos} {r : ℝ × DrawPos}
    (h : cauchyRand d n p fuel q = some r) : ∃ k i', CauchyRun d.unif n p q.u k i' ∧ r = ((k : ℝ), ⟨i', q.e⟩) := by
  induction fuel generalizing q with
  | zero => cases h
  | succ f ih =>
    by_cases hc : 0 ≤ cauchyProposal n p (d.unif q.u) ∧ cauchyProposal n p (d.unif q.u) < n + 1
    · have g0 : 0 ≤ ⌊cauchyProposal n p (d.unif q.u)⌋ := Int.floor_nonneg.2 hc.1
      obtain ⟨k, hk⟩ := Int.eq_ofNat_of_zero_le g0
      have l1 := Int.floor_le (cauchyProposal n p (d.unif q.u))
      have l2 := Int.lt_floor_add_one (cauchyProposal n p (d.unif q.u))
      rw [hk] at l1 l2
      have l1 : (k : ℝ) ≤ cauchyProposal n p (d.unif q.u) := by exact_mod_cast l1
      have l2 : cauchyProposal n p (d.unif q.u) < k + 1 := by exact_mod_cast l2
      have hkn : k ≤ n := by
        have : (k : ℝ) < ((n + 1 : Nat) : ℝ) := by push_cast; linarith [hc.2]
        have : k < n + 1 := by exact_mod_cast this
        omega
      rw [cauchy_inside d n p h0 h1 f q hkn l1 l2] at h
      split at h
      · rename_i ha
        exact ⟨k, _, .accept hkn l1 l2 ha, (Option.some.inj h).symm⟩
      · rename_i ha
        obtain ⟨k', i', g1, g2⟩ := ih h
        exact ⟨k', i', .reject hkn l1 l2 (not_le.1 ha) g1, g2⟩
    · rw [cauchy_outside d n p f q hc] at h
      obtain ⟨k', i', g1, g2⟩ := ih h
      exact ⟨k', i', .outside hc g1, g2⟩

theorem cauchy_complete {d : Draws ℝ} {n : Nat} {p : ℝ} (h0 : 0 < p) (h1 : p < 1) {i k i' : Nat} (h : CauchyRun d.unif n p i k i') (e : Nat) :
    ∃ fuel, cauchyRand d n p fuel ⟨i, e⟩ = some ((k : ℝ), ⟨i', e⟩) := by
  induction h with
  | @accept i k hk hl hu ha => exact ⟨1, by rw [cauchy_inside d n p h0 h1 0 ⟨i, e⟩ hk hl hu, if_pos ha]⟩
  | @outside i k i' ho _ ih =>
    obtain ⟨f, ih⟩ := ih
    exact ⟨f + 1, by rw [cauchy_outside d n p f ⟨i, e⟩ ho]; exact ih⟩
  | @reject i j k i' hk hl hu ha _ ih =>
    obtain ⟨f, ih⟩ := ih
    exact ⟨f + 1, by rw [cauchy_inside d n p h0 h1 f ⟨i, e⟩ hk hl hu, if_neg (not_le.2 ha)]; exact ih⟩

/-- C123: for N ≥ 25 and N·min(P, 1-P) ≥ 1, `Rand` returns v exactly if v is the first accepted count of the Cauchy method (N minus
the count if P > 1/2), and it takes exactly the draws of these rounds.  The bound of the acceptance test is 1.2·√(2Np(1-p))·(1+y²)
times the binomial probability of the count. -/
theorem C123_cauchy (d : Draws ℝ) (n : Nat) (hn : 25 ≤ n) (P : ℝ) (h : 1 ≤ n * min P (1 - P)) (q q' : DrawPos) (v : ℝ) :
    (∃ fuel, binomialFull d (n : ℝ) P fuel q = some (v, q')) ↔
      ∃ k i', CauchyRun d.unif n (min P (1 - P)) q.u k i' ∧ v = (if 1 / 2 < P then (n : ℝ) - k else k) ∧ q' = ⟨i', q.e⟩ := by
  have hn' : (25 : ℝ) ≤ n := by exact_mod_cast hn
  have c1 : ¬ Flt.lt (n : ℝ) (Flt.ofInt 25) = true := by simpa using hn'
  have c2 : ¬ Flt.lt ((n : ℝ) *. smallP P) Flt.one = true := by rw [smallP_real]; simpa [Flt.one] using h
  have h0 : 0 < min P (1 - P) := by
    by_contra hc
    nlinarith [not_lt.1 hc]
  have h1 : min P (1 - P) < 1 := by
    rcases le_total P (1 - P) with hh | hh
    · rw [min_eq_left hh]; linarith
    · rw [min_eq_right hh]; linarith
  unfold binomialFull
  simp only [if_neg c1, if_neg c2]
  rw [smallP_real]
  constructor
  · rintro ⟨fuel, hf⟩
    obtain ⟨a, ha, hb⟩ := Option.map_eq_some_iff.1 hf
    obtain ⟨k, e', g1, rfl⟩ := cauchy_sound h0 h1 ha
    rw [mirror_real] at hb
    exact ⟨k, e', g1, (congrArg Prod.fst hb).symm, (congrArg Prod.snd hb).symm⟩
  · rintro ⟨k, e', g1, rfl, rfl⟩
    obtain ⟨fuel, hf⟩ := cauchy_complete h0 h1 g1 q.e
    unfold cauchyRand at hf
    refine ⟨fuel, ?_⟩
    rw [show q = ⟨q.u, q.e⟩ from rfl, hf]
    simp only [Option.map_some, mirror_real]

/-! ### The Poisson method on float64 -/

/-- NaN or +Inf. -/
def Huge (x : F64) : Prop := x.isNaN = true ∨ x.isInf = true ∧ x.sign = false

theorem huge_add_inf [Libm] (x : F64) {y : F64} (h : Huge y) : Huge (x +. y) := by
  show Huge (F64.add x y)
  unfold F64.add
  rcases h with h | ⟨h, hs⟩
  · rw [h]; simp; exact .inl (by decide)
  · have hn : y.isNaN = false := by
      by_contra hc
      have := (F64.nan_not_inf (by simpa using hc)).1
      rw [this] at h; cases h
    rw [hn]
    by_cases hx : x.isNaN = true
    · rw [hx]; simp; exact .inl (by decide)
    · rw [Bool.not_eq_true] at hx
      rw [hx, h, hs]
      cases hi : x.isInf <;> cases hg : x.sign <;> simp
      · exact .inr ⟨h, hs⟩
      · exact .inr ⟨h, hs⟩
      · exact .inr ⟨hi, hg⟩
      · exact .inl (by decide)

theorem inf_add_huge [Libm] (x : F64) {y : F64} (h : Huge y) : Huge (y +. x) := by
  show Huge (F64.add y x)
  unfold F64.add
  rcases h with h | ⟨h, hs⟩
  · rw [h]; simp; exact .inl (by decide)
  · have hn : y.isNaN = false := by
      by_contra hc
      have := (F64.nan_not_inf (by simpa using hc)).1
      rw [this] at h; cases h
    rw [hn]
    by_cases hx : x.isNaN = true
    · rw [hx]; simp; exact .inl (by decide)
    · rw [Bool.not_eq_true] at hx
      rw [hx, h, hs]
      cases hi : x.isInf <;> cases hg : x.sign <;> simp
      · exact .inr ⟨h, hs⟩
      · exact .inr ⟨h, hs⟩
      · exact .inr ⟨h, hs⟩
      · exact .inl (by decide)

theorem huge_sub [Libm] (x : F64) {y : F64} (h : Huge y) : Huge (y -. x) := inf_add_huge (F64.neg x) h

theorem huge_not_le [Libm] {t x : F64} (h : Huge t) (hx : x.absBits < F64.infBits) : Flt.le t x = false := by
  show F64.le t x = false
  unfold F64.le
  rcases h with h | ⟨h, hs⟩
  · rw [h]; simp
  · have h2 : t.absBits = F64.infBits := by unfold F64.isInf at h; exact of_decide_eq_true h
    have hk : ¬ t.key ≤ x.key := by
      have := F64.absBits_eq x
      have := abs_le.1 (le_of_eq this.symm)
      unfold F64.key
      rw [hs, h2]
      unfold F64.key at this
      simp only [Bool.false_eq_true, if_false]
      omega
    simp [hk]

theorem huge_inv_zero [Libm] : Huge ((Flt.one : F64) /. (Flt.ofInt 12 *. Flt.ofInt 0)) := by
  have e : (Flt.ofInt 12 *. Flt.ofInt 0 : F64) = Flt.ofInt 0 := by
    rw [f64_mul 12 0 (by omega) (by omega) (.inr (by omega))]; rfl
  rw [e]
  show Huge (F64.div (F64.round false ((1 : Int) : ℝ)) (F64.round false ((0 : Int) : ℝ)))
  have h1 := F64.isInt_round (n := 1) (by omega) (by omega)
  have h2 := F64.isInt_round (n := 0) (by omega) (by omega)
  have z1 : (F64.round false ((1 : Int) : ℝ)).isZero = false := by
    rw [← Bool.not_eq_true, F64.isZero_iff, h1.val]; norm_num
  have z2 : (F64.round false ((0 : Int) : ℝ)).isZero = true := by
    rw [F64.isZero_iff, h2.val]; norm_num
  unfold F64.div
  rw [(F64.not_special h1.fin).1, (F64.not_special h1.fin).2, (F64.not_special h2.fin).1, (F64.not_special h2.fin).2, z1, z2, h1.sign, h2.sign]
  simp
  exact .inr ⟨by decide, by decide⟩

theorem poissonCount_f64 [Libm] (d : Draws F64) (am : F64) (k : Nat) (t : F64) (j : Nat) (hj : j + k ≤ 2 ^ 52) (q : DrawPos) :
    ∃ i, i ≤ j + k ∧ (poissonCount d am k t (Flt.ofInt j) q).1 = Flt.ofInt i := by
  induction k generalizing t j q with
  | zero => exact ⟨j, le_rfl, rfl⟩
  | succ k ih =>
    rw [poissonCount]
    split
    · exact ⟨j, by omega, rfl⟩
    · have e : (Flt.ofInt j : F64) +. Flt.one = Flt.ofInt ((j + 1 : Nat) : Int) := by
        rw [show (Flt.one : F64) = Flt.ofInt 1 from rfl, f64_add _ _ (by omega) (by omega)]; push_cast; rfl
      rw [e]
      obtain ⟨i, h1, h2⟩ := ih (t +. d.exp q.e) (j + 1) (by omega) { q with e := q.e + 1 }
      exact ⟨i, by omega, h2⟩

theorem poissonLoop_f64 [Libm] [FltMath F64] {d : Draws F64} (hd : ∀ i, (d.exp i).absBits < F64.infBits) {n : Nat} (hn : n ≤ 2 ^ 52) {am pclog : F64}
    {fuel : Nat} {q : DrawPos} {r : F64 × DrawPos} (h : poissonLoop d (Flt.ofInt n) am pclog fuel q = some r) :
    ∃ k, k < n ∧ r.1 = Flt.ofInt k := by
  induction fuel generalizing q with
  | zero => cases h
  | succ f ih =>
    have e : (Flt.toInt (Flt.ofInt (n : Int) : F64)).toNat = n := by
      rw [FltInt.toInt_ofInt _ (by omega) (by omega)]; rfl
    obtain ⟨i, h1, h2⟩ := poissonCount_f64 d am n Flt.zero 0 (by omega) q
    have h2 : (poissonCount d am n Flt.zero Flt.zero q).1 = Flt.ofInt i := h2
    rw [poissonLoop, e] at h
    dsimp only at h
    rw [h2] at h
    split at h
    · rename_i hc
      refine ⟨i, ?_, by rw [← Option.some.inj h]⟩
      by_contra hlt
      have hi : i = n := by omega
      rw [hi, f64_sub _ _ (by omega) (by omega), sub_self,
        huge_not_le (inf_add_huge _ (huge_sub _ (huge_add_inf _ huge_inv_zero))) (hd _)] at hc
      cases hc
    · exact ih h

theorem half_lt_mirror [Libm] {P : F64} (h : Flt.lt (Flt.half : F64) P = true) (h1 : Flt.le P (Flt.one : F64) = true) : Flt.eq (smallP P) P = false := by
  have h1' : F64.le P (Flt.one : F64) = true := h1
  have h' : F64.lt (Flt.half : F64) P = true := h
  unfold F64.le at h1'
  unfold F64.lt at h'
  simp only [Bool.and_eq_true, decide_eq_true_eq] at h1' h'
  have i1 := F64.isInt_round (n := 1) (by omega) (by omega)
  have hp : 0 ≤ P.key := by
    have : 0 ≤ (Flt.half : F64).key := F64.round_nonneg (by norm_num)
    omega
  have fin : P.Finite := F64.fin_of_key (z := (Flt.one : F64)) i1.fin hp h1'.2
  have hv : 1 / 2 < P.val := by rw [← half_f64.1]; exact (F64.val_lt_iff _ _).2 h'.2
  unfold smallP
  rw [if_pos h]
  show F64.eq (F64.add (F64.round false ((1 : Int) : ℝ)) P.neg) P = false
  rw [F64.add_fin i1.fin (by rw [F64.absBits_neg]; exact fin), i1.val, F64.val_neg]
  have hk := F64.round_le (s := (F64.round false ((1 : Int) : ℝ)).sign && P.neg.sign) (y := ((1 : Int) : ℝ) + -P.val) (z := (Flt.half : F64)) half_f64.2
    (by rw [half_f64.1]; push_cast; linarith)
  unfold F64.eq
  rw [decide_eq_false (by omega : ¬ (F64.round ((F64.round false ((1 : Int) : ℝ)).sign && P.neg.sign) (((1 : Int) : ℝ) + -P.val)).key = P.key),
    Bool.and_false]

/-- C123, float64: the Poisson method never returns "all trials": for 25 ≤ N ≤ 2⁵² and N·min(P, 1-P) < 1 the value is a whole number k with
0 ≤ k < N if P ≤ 1/2, and 0 < k ≤ N if 1/2 < P ≤ 1.  (With all arrivals counted the bound contains 1/(12·0) = +Inf.)  The draws of `rand.ExpFloat64` are
finite; nothing else is assumed of them. -/
theorem C123_never_all [Libm] [FltMath F64] (d : Draws F64) (hd : ∀ i, (d.exp i).absBits < F64.infBits) (n : Nat) (hn : 25 ≤ n) (hn2 : n ≤ 2 ^ 52) (P : F64)
    (hP : Flt.le P (Flt.one : F64) = true) (h : Flt.lt (Flt.ofInt n *. smallP P) (Flt.one : F64) = true) (fuel : Nat) (q : DrawPos)
    (r : F64 × DrawPos) (hr : binomialFull d (Flt.ofInt n) P fuel q = some r) :
    ∃ k : Nat, r.1 = Flt.ofInt k ∧ (Flt.lt (Flt.half : F64) P = false → k < n) ∧ (Flt.lt (Flt.half : F64) P = true → 0 < k ∧ k ≤ n) := by
  have c1 : Flt.lt (Flt.ofInt n : F64) (Flt.ofInt 25) = false := by
    rw [f64_lt_int _ _ (by omega) (by omega)]; simp; omega
  unfold binomialFull at hr
  rw [c1, h] at hr
  simp only [Bool.false_eq_true, if_false, if_true] at hr
  obtain ⟨a, ha, rfl⟩ := Option.map_eq_some_iff.1 hr
  obtain ⟨k, hk, e⟩ := poissonLoop_f64 hd hn2 ha
  dsimp only
  rw [e]
  cases hc : Flt.lt (Flt.half : F64) P
  · refine ⟨k, ?_, fun _ => hk, (fun h => by cases h)⟩
    unfold mirror smallP
    rw [hc]
    simp only [Bool.false_eq_true, if_false]
    rw [if_neg]
    have hPn : P.isNaN = false := by
      by_contra hh
      have : F64.le P (Flt.one : F64) = true := hP
      unfold F64.le at this
      rw [show P.isNaN = true by simpa using hh] at this
      simp at this
    show ¬ (!F64.eq P P) = true
    unfold F64.eq
    simp [hPn]
  · refine ⟨n - k, ?_, (fun h => by cases h), fun _ => ⟨by omega, by omega⟩⟩
    unfold mirror
    rw [half_lt_mirror hc hP]
    simp only [Bool.not_false, if_true]
    rw [f64_sub _ _ (by omega) (by omega), Nat.cast_sub hk.le]

/-! ### The hypotheses can be met -/

/-- 30 trials with P = 1/60: in the first round no arrival comes in time but the next draw, 0, is too small; the second round is accepted. -/
example : PoissonRun (fun i => if i = 1 then 0 else 100) 30 (1 / 60) 0 0 4 := by
  have hb1 : 0 < poissonBound 30 (1 / 60) 0 ∧ poissonBound 30 (1 / 60) 0 ≤ 100 := by
    unfold poissonBound logPade
    norm_num
  refine .reject (j := 0) ⟨by omega, fun i h => absurd h (Nat.not_lt_zero i), fun _ => ?_⟩ ?_ (.accept (k := 0) ⟨by omega, fun i h => absurd h (Nat.not_lt_zero i), fun _ => ?_⟩ ?_)
  · norm_num
  · norm_num; exact hb1.1
  · norm_num
  · norm_num; exact hb1.2

/-- 50 trials with P = 1/2: the draw 0 proposes the mean, 25, which is accepted with the draw 0. -/
example : CauchyRun (fun _ => 0) 50 (1 / 2) 0 25 2 := by
  have e : cauchyProposal 50 (1 / 2) 0 = 25 := by unfold cauchyProposal; norm_num
  refine .accept (by omega) ?_ ?_ ?_
  · rw [e]; norm_num
  · rw [e]; norm_num
  · unfold binomProb; positivity

section Example

/-- A float64 whose value is the integer n. -/
def ValInt (x : F64) (n : Int) : Prop := x.Finite ∧ x.val = n

theorem valInt_ofInt [Libm] {n : Int} (h1 : -(2 ^ 53) ≤ n) (h2 : n ≤ 2 ^ 53) : ValInt (Flt.ofInt n) n :=
  ⟨(F64.isInt_round h1 h2).fin, (F64.isInt_round h1 h2).val⟩

theorem valInt_round [Libm] {s : Bool} {n : Int} (h1 : -(2 ^ 53) ≤ n) (h2 : n ≤ 2 ^ 53) : ValInt (F64.round s n) n := by
  by_cases h : n = 0
  · subst h
    exact ⟨by rw [Int.cast_zero]; exact F64.round_finite (by rw [abs_zero]; exact F64.big_pos.le), by rw [Int.cast_zero]; exact F64.round_val_zero s⟩
  · rw [F64.round_ne (s' := false) (by exact_mod_cast h)]
    exact valInt_ofInt h1 h2

theorem ValInt.add [Libm] {x y : F64} {a b : Int} (hx : ValInt x a) (hy : ValInt y b) (h1 : -(2 ^ 53) ≤ a + b) (h2 : a + b ≤ 2 ^ 53) :
    ValInt (x +. y) (a + b) := by
  show ValInt (F64.add x y) _
  rw [F64.add_fin hx.1 hy.1, hx.2, hy.2, ← Int.cast_add]
  exact valInt_round h1 h2

theorem ValInt.neg [Libm] {x : F64} {a : Int} (hx : ValInt x a) : ValInt (Flt.neg x) (-a) :=
  ⟨by show (F64.neg x).Finite; unfold F64.Finite; rw [F64.absBits_neg]; exact hx.1, by
    show (F64.neg x).val = _; rw [F64.val_neg, hx.2]; push_cast; rfl⟩

theorem ValInt.mul0 [Libm] {x y : F64} (hx : x.Finite) (hy : ValInt y 0) : ValInt (x *. y) 0 := by
  show ValInt (F64.mul x y) _
  rw [F64.mul_fin hx hy.1, hy.2, Int.cast_zero, mul_zero, ← Int.cast_zero]
  exact valInt_round (by omega) (by omega)

theorem ValInt.div0 [Libm] {x y : F64} (hx : ValInt x 0) (hy : y.Finite) (h : y.val ≠ 0) : ValInt (x /. y) 0 := by
  show ValInt (F64.div x y) _
  rw [F64.div_fin hx.1 hy h, hx.2, Int.cast_zero, zero_div, ← Int.cast_zero]
  exact valInt_round (by omega) (by omega)

theorem ValInt.key_add [Libm] {x z : F64} (hx : x.Finite) (hz : ValInt z 0) : (z +. x).Finite ∧ (z +. x).key = x.key ∧ (x +. z).Finite ∧ (x +. z).key = x.key := by
  have k : ∀ s, (F64.round s x.val).Finite ∧ (F64.round s x.val).key = x.key := fun s =>
    ⟨F64.round_finite (F64.abs_val_le hx), F64.key_round_val hx⟩
  have e1 : (z +. x) = F64.round (z.sign && x.sign) x.val := by
    show F64.add z x = _
    rw [F64.add_fin hz.1 hx, hz.2, Int.cast_zero, zero_add]
  have e2 : (x +. z) = F64.round (x.sign && z.sign) x.val := by
    show F64.add x z = _
    rw [F64.add_fin hx hz.1, hz.2, Int.cast_zero, add_zero]
  rw [e1, e2]
  exact ⟨(k _).1, (k _).2, (k _).1, (k _).2⟩

/-- A table of constants with logM = 0. -/
@[instance_reducible] noncomputable def zeroMath [Libm] : FltMath F64 := ⟨id, id, id, id, Flt.zero, Flt.zero, Flt.zero, Flt.zero⟩

theorem pade_zero [Libm] {z : F64} (hz : ValInt z 0) : ValInt (@pade F64 _ zeroMath z) 0 := by
  have one : ValInt (Flt.one : F64) 1 := valInt_ofInt (by omega) (by omega)
  have zero : ValInt (Flt.zero : F64) 0 := valInt_ofInt (by omega) (by omega)
  have a1 := one.add (ValInt.mul0 half_f64.2 hz) (by omega) (by omega)
  have a2 := one.add (ValInt.mul0 zero.1 hz) (by omega) (by omega)
  have a3 := one.add (ValInt.mul0 a2.1 hz) (by omega) (by omega)
  exact ValInt.div0 (ValInt.mul0 a1.1 hz) a3.1 (by have := a3.2; exact ne_of_eq_of_ne this (by norm_num))

/-- 25 trials with P = 0 and exponential draws of 100 on float64: the value is 0. -/
example [Libm] : ∃ r, @binomialFull F64 _ zeroMath ⟨fun _ => Flt.zero, fun _ => Flt.ofInt 100⟩ (Flt.ofInt ((25 : Nat) : Int)) Flt.zero 1 ⟨0, 0⟩ = some r ∧
    Flt.le (Flt.zero : F64) Flt.one = true ∧ Flt.lt (Flt.ofInt ((25 : Nat) : Int) *. smallP Flt.zero) (Flt.one : F64) = true ∧
    (Flt.ofInt 100 : F64).absBits < F64.infBits := by
  let _ := zeroMath
  have v100 : ValInt (Flt.ofInt 100 : F64) 100 := valInt_ofInt (by omega) (by omega)
  have one : ValInt (Flt.one : F64) 1 := valInt_ofInt (by omega) (by omega)
  have zero : ValInt (Flt.zero : F64) 0 := valInt_ofInt (by omega) (by omega)
  have le : ∀ {x y : F64}, x.Finite → y.Finite → x.key ≤ y.key → Flt.le x y = true := by
    intro x y hx hy h
    show F64.le x y = true
    unfold F64.le
    rw [(F64.not_special hx).1, (F64.not_special hy).1]
    simpa using h
  have hs : smallP (Flt.zero : F64) = Flt.zero := by
    unfold smallP
    rw [if_neg]
    show ¬ F64.lt _ _ = true
    rw [F64.lt_val half_f64.2 zero.1, half_f64.1, zero.2]
    norm_num
  have ham : (Flt.ofInt ((25 : Nat) : Int) *. Flt.zero : F64) = Flt.zero := f64_mul 25 0 (by omega) (by omega) (.inr (by omega))
  have k1 : (Flt.one : F64).key ≤ (Flt.ofInt 100 : F64).key := (F64.val_le_iff _ _).1 (by rw [one.2, v100.2]; norm_num)
  have k0 : (Flt.zero : F64).key ≤ (Flt.one : F64).key := (F64.val_le_iff _ _).1 (by rw [one.2, zero.2]; norm_num)
  have l1 : Flt.lt (Flt.zero : F64) Flt.one = true := f64_lt_int 0 1 (by omega) (by omega)
  refine ⟨(mirror (Flt.ofInt ((25 : Nat) : Int)) Flt.zero Flt.zero, ⟨0, 2⟩), ?_, le zero.1 one.1 k0, by rw [hs, ham]; exact l1, v100.1⟩
  have c1 : Flt.lt (Flt.ofInt ((25 : Nat) : Int) : F64) (Flt.ofInt 25) = false := f64_lt_int 25 25 (by omega) (by omega)
  have e : (Flt.toInt (Flt.ofInt ((25 : Nat) : Int) : F64)).toNat = 24 + 1 := by
    rw [FltInt.toInt_ofInt _ (by omega) (by omega)]; rfl
  have h2 : poissonCount (⟨fun _ => Flt.zero, fun _ => Flt.ofInt 100⟩ : Draws F64) Flt.zero (24 + 1) Flt.zero Flt.zero ⟨0, 0⟩ = (Flt.zero, ⟨0, 1⟩) := by
    rw [poissonCount]
    have a := zero.add v100 (by omega) (by omega)
    rw [if_pos (le zero.1 a.1 ((F64.val_le_iff _ _).1 (by rw [zero.2, a.2]; norm_num)))]
  unfold binomialFull
  rw [c1, hs, ham, l1]
  simp only [Bool.false_eq_true, if_false, if_true]
  rw [poissonLoop, e, h2]
  dsimp only
  have s25 : (Flt.ofInt ((25 : Nat) : Int) -. Flt.zero : F64) = Flt.ofInt 25 := f64_sub 25 0 (by omega) (by omega)
  have v25 : ValInt (Flt.ofInt 25 : F64) 25 := valInt_ofInt (by omega) (by omega)
  have z1 := pade_zero (ValInt.div0 (y := Flt.ofInt ((25 : Nat) : Int)) (by simpa using zero.neg) v25.1 (by show (Flt.ofInt 25 : F64).val ≠ 0; rw [v25.2]; norm_num))
  have z2 := pade_zero (z := Flt.neg Flt.zero) (by simpa using zero.neg)
  have f1 : ((Flt.ofInt 25 : F64) +. Flt.half).Finite := by
    show (F64.add _ _).Finite
    rw [F64.add_fin v25.1 half_f64.2, v25.2, half_f64.1]
    refine F64.round_finite ?_
    have : (26 : ℝ) ≤ F64.big := by
      have := F64.abs_val_le (valInt_ofInt (n := 26) (by omega) (by omega)).1
      rw [(valInt_ofInt (n := 26) (by omega) (by omega)).2] at this
      norm_num at this
      exact this
    norm_num
    linarith
  have t1 := (ValInt.mul0 f1 z1).add zero (by omega) (by omega)
  have t2 : ValInt ((Flt.ofInt 25 : F64) *. pade (Flt.neg Flt.zero)) 0 := ValInt.mul0 v25.1 z2
  have t3 := t1.add t2.neg (by omega) (by omega)
  have e300 : (Flt.ofInt 12 *. Flt.ofInt 25 : F64) = Flt.ofInt 300 := f64_mul 12 25 (by omega) (by omega) (.inr (by omega))
  have v300 : ValInt (Flt.ofInt 300 : F64) 300 := valInt_ofInt (by omega) (by omega)
  have t4 : ((Flt.one : F64) /. Flt.ofInt 300).Finite ∧ ((Flt.one : F64) /. Flt.ofInt 300).key ≤ (Flt.one : F64).key := by
    have e : ((Flt.one : F64) /. Flt.ofInt 300) = F64.round ((Flt.one : F64).sign != (Flt.ofInt 300 : F64).sign) (1 / 300) := by
      show F64.div _ _ = _
      rw [F64.div_fin one.1 v300.1 (by rw [v300.2]; norm_num), one.2, v300.2]
      norm_num
    rw [e]
    have k := F64.round_le (s := (Flt.one : F64).sign != (Flt.ofInt 300 : F64).sign) (y := 1 / 300) one.1 (by rw [one.2]; norm_num)
    exact ⟨F64.fin_of_key one.1 (F64.round_nonneg (by norm_num)) k, k⟩
  have t5 := ValInt.key_add t4.1 t3
  have t6 := ValInt.key_add t5.1 zero.neg
  have t7 := ValInt.key_add t6.2.2.1 zero
  rw [if_pos]
  · rfl
  · rw [s25, e300]
    refine le t7.2.2.1 v100.1 ?_
    exact (t7.2.2.2.trans (t6.2.2.2.trans t5.2.1)).le.trans (t4.2.trans k1)

end Example

end NN
