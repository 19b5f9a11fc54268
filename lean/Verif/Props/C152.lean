import Verif.Props.C38_C39
import Verif.Props.C135
import Verif.Props.C151
/- C152: training with dropout is, on average over the masks, training on a penalised objective, in exact arithmetic. -/

set_option linter.unusedSectionVars false

namespace NN
open Go Finset MeasureTheory ProbabilityTheory

/-! ### The objective -/

/-- The squared errors of a linear layer with weights W and biases b on the signals h (n samples, a signals, c outputs), divided by c,
plus the penalty: the squares of the weights, each times the squares of its signals, with the factor d/(1-d). -/
noncomputable def dropObj (d : ℝ) (n a c : Nat) (Y h W : Nat → Nat → ℝ) (b : Nat → ℝ) : ℝ :=
  (∑ i ∈ range n, ∑ k ∈ range c, ((∑ j ∈ range a, h i j * W j k) + b k - Y i k) ^ 2) / c +
    d / (1 - d) * ((∑ i ∈ range n, ∑ k ∈ range c, ∑ j ∈ range a, (h i j) ^ 2 * (W j k) ^ 2) / c)

/-- Its partial derivative in W j k. -/
noncomputable def dropW (d : ℝ) (n a c : Nat) (Y h W : Nat → Nat → ℝ) (b : Nat → ℝ) (j k : Nat) : ℝ :=
  ∑ i ∈ range n, (h i j * ((∑ j ∈ range a, h i j * W j k) + b k - Y i k) + d / (1 - d) * ((h i j) ^ 2 * W j k)) * (2 / c)

/-- Its partial derivative in b k. -/
noncomputable def dropB (n a c : Nat) (Y h W : Nat → Nat → ℝ) (b : Nat → ℝ) (k : Nat) : ℝ :=
  ∑ i ∈ range n, ((∑ j ∈ range a, h i j * W j k) + b k - Y i k) * (2 / c)

/-- Its partial derivative in h i j. -/
noncomputable def dropH (d : ℝ) (a c : Nat) (Y h W : Nat → Nat → ℝ) (b : Nat → ℝ) (i j : Nat) : ℝ :=
  ∑ k ∈ range c, (((∑ j ∈ range a, h i j * W j k) + b k - Y i k) * W j k + d / (1 - d) * (h i j * (W j k) ^ 2)) * (2 / c)

/-- A matrix with the entry (j, k) replaced. -/
def put (W : Nat → Nat → ℝ) (j k : Nat) (t : ℝ) (j' k' : Nat) : ℝ := if j' = j ∧ k' = k then t else W j' k'

theorem put_self (W : Nat → Nat → ℝ) (j k : Nat) : put W j k (W j k) = W := by
  funext j' k'
  unfold put
  split
  · next h => rw [h.1, h.2]
  · rfl

theorem put_deriv (W : Nat → Nat → ℝ) (j k : Nat) (x : ℝ) (j' k' : Nat) :
    HasDerivAt (fun t => put W j k t j' k') (if j' = j ∧ k' = k then 1 else 0) x := by
  unfold put
  by_cases h : j' = j ∧ k' = k
  · simp only [if_pos h]
    exact hasDerivAt_id x
  · simp only [if_neg h]
    exact hasDerivAt_const x _

theorem pick_sum {n k : Nat} (hk : k < n) (p : Prop) [Decidable p] (f : Nat → ℝ) :
    ∑ k' ∈ range n, f k' * (if k' = k ∧ p then 1 else 0) = if p then f k else 0 := by
  by_cases hp : p
  · simp [hp, hk]
  · simp [hp]

theorem pick_sum' {n k : Nat} (hk : k < n) (p : Prop) [Decidable p] (f : Nat → ℝ) :
    ∑ k' ∈ range n, f k' * (if p ∧ k' = k then 1 else 0) = if p then f k else 0 := by
  by_cases hp : p
  · simp [hp, hk]
  · simp [hp]

theorem pick_sum1 {n k : Nat} (hk : k < n) (f g : Nat → ℝ) :
    ∑ k' ∈ range n, f k' * (if k' = k then g k' else 0) = f k * g k := by
  simp [hk]

/-- dropW, dropB and dropH are the partial derivatives of the objective. -/
theorem C152_derivW (d : ℝ) (n a c : Nat) (Y h W : Nat → Nat → ℝ) (b : Nat → ℝ) {j k : Nat} (hj : j < a) (hk : k < c) :
    HasDerivAt (fun t => dropObj d n a c Y h (put W j k t) b) (dropW d n a c Y h W b j k) (W j k) := by
  have hp := put_deriv W j k (W j k)
  have h1 : ∀ i k', HasDerivAt (fun t => (∑ j' ∈ range a, h i j' * put W j k t j' k') + b k' - Y i k') (if k' = k then h i j else 0) (W j k) := by
    intro i k'
    have := ((HasDerivAt.fun_sum fun j' (_ : j' ∈ range a) => (hp j' k').const_mul (h i j')).add_const (b k')).sub_const (Y i k')
    rwa [pick_sum hj] at this
  have h2 : ∀ i k', HasDerivAt (fun t => ∑ j' ∈ range a, (h i j') ^ 2 * (put W j k t j' k') ^ 2)
      (if k' = k then (h i j) ^ 2 * (2 * W j k') else 0) (W j k) := by
    intro i k'
    have := HasDerivAt.fun_sum fun j' (_ : j' ∈ range a) => ((hp j' k').fun_pow 2).const_mul ((h i j') ^ 2)
    simp only [← mul_assoc] at this
    rw [pick_sum hj] at this
    refine this.congr_deriv ?_
    rw [put_self]
    simp [mul_assoc]
  have h3 := ((HasDerivAt.fun_sum fun i (_ : i ∈ range n) => HasDerivAt.fun_sum fun k' (_ : k' ∈ range c) => (h1 i k').fun_pow 2).div_const (c : ℝ)).add
    (((HasDerivAt.fun_sum fun i (_ : i ∈ range n) => HasDerivAt.fun_sum fun k' (_ : k' ∈ range c) => h2 i k').div_const (c : ℝ)).const_mul (d / (1 - d)))
  refine h3.congr_deriv ?_
  rw [put_self]
  simp only [pick_sum1 hk, sum_ite_eq', mem_range, hk, if_true]
  unfold dropW
  rw [sum_div, sum_div, mul_sum, ← sum_add_distrib]
  refine sum_congr rfl fun i _ => ?_
  simp
  ring

theorem C152_derivB (d : ℝ) (n a c : Nat) (Y h W : Nat → Nat → ℝ) (b : Nat → ℝ) {k : Nat} (hk : k < c) :
    HasDerivAt (fun t => dropObj d n a c Y h W (fun k' => if k' = k then t else b k')) (dropB n a c Y h W b k) (b k) := by
  have hp : ∀ k', HasDerivAt (fun t => if k' = k then t else b k') (if k' = k then 1 else 0) (b k) := by
    intro k'
    by_cases h : k' = k
    · simp only [if_pos h]
      exact hasDerivAt_id _
    · simp only [if_neg h]
      exact hasDerivAt_const _ _
  have h1 : ∀ i k', HasDerivAt (fun t => (∑ j' ∈ range a, h i j' * W j' k') + (if k' = k then t else b k') - Y i k') (if k' = k then 1 else 0) (b k) :=
    fun i k' => ((hp k').const_add _).sub_const (Y i k')
  have h3 := ((HasDerivAt.fun_sum fun i (_ : i ∈ range n) => HasDerivAt.fun_sum fun k' (_ : k' ∈ range c) => (h1 i k').fun_pow 2).div_const (c : ℝ)).add_const
    (d / (1 - d) * ((∑ i ∈ range n, ∑ k ∈ range c, ∑ j ∈ range a, (h i j) ^ 2 * (W j k) ^ 2) / c))
  refine h3.congr_deriv ?_
  simp only [pick_sum1 hk]
  unfold dropB
  rw [sum_div]
  refine sum_congr rfl fun i _ => ?_
  simp
  ring

theorem C152_derivH (d : ℝ) (n a c : Nat) (Y h W : Nat → Nat → ℝ) (b : Nat → ℝ) {i j : Nat} (hi : i < n) (hj : j < a) :
    HasDerivAt (fun t => dropObj d n a c Y (put h i j t) W b) (dropH d a c Y h W b i j) (h i j) := by
  have hp := put_deriv h i j (h i j)
  have h1 : ∀ i' k, HasDerivAt (fun t => (∑ j' ∈ range a, put h i j t i' j' * W j' k) + b k - Y i' k) (if i' = i then W j k else 0) (h i j) := by
    intro i' k
    have := ((HasDerivAt.fun_sum fun j' (_ : j' ∈ range a) => (hp i' j').mul_const (W j' k)).add_const (b k)).sub_const (Y i' k)
    simp only [mul_comm _ (W _ k)] at this ⊢
    rwa [pick_sum' hj] at this
  have h2 : ∀ i' k, HasDerivAt (fun t => ∑ j' ∈ range a, (put h i j t i' j') ^ 2 * (W j' k) ^ 2)
      (if i' = i then (W j k) ^ 2 * (2 * h i' j) else 0) (h i j) := by
    intro i' k
    have := HasDerivAt.fun_sum fun j' (_ : j' ∈ range a) => ((hp i' j').fun_pow 2).mul_const ((W j' k) ^ 2)
    simp only [mul_comm _ ((W _ k) ^ 2), ← mul_assoc] at this
    rw [pick_sum' hj] at this
    simp only [mul_comm _ ((W _ k) ^ 2)]
    refine this.congr_deriv ?_
    rw [put_self]
    simp [mul_assoc]
  have h3 := ((HasDerivAt.fun_sum fun i' (_ : i' ∈ range n) => HasDerivAt.fun_sum fun k (_ : k ∈ range c) => (h1 i' k).fun_pow 2).div_const (c : ℝ)).add
    (((HasDerivAt.fun_sum fun i' (_ : i' ∈ range n) => HasDerivAt.fun_sum fun k (_ : k ∈ range c) => h2 i' k).div_const (c : ℝ)).const_mul (d / (1 - d)))
  refine h3.congr_deriv ?_
  rw [put_self, sum_comm]
  simp only [pick_sum1 hi]
  rw [sum_comm]
  simp only [sum_ite_eq', mem_range, hi, if_true]
  unfold dropH
  rw [sum_div, sum_div, mul_sum, ← sum_add_distrib]
  refine sum_congr rfl fun k _ => ?_
  simp
  ring

/-! ### Independent bits -/

variable {Ω : Type} [MeasurableSpace Ω] {μ : Measure Ω} [IsProbabilityMeasure μ]

/-- Random numbers X 0, .., X (n-1) with the moments of independent bits that are 1 with probability q. -/
structure Bits (μ : Measure Ω) (n : Nat) (q : ℝ) (X : Nat → Ω → ℝ) : Prop where
  int : ∀ j, j < n → Integrable (X j) μ
  mean : ∀ j, j < n → ∫ ω, X j ω ∂μ = q
  int2 : ∀ j k, j < n → k < n → Integrable (fun ω => X j ω * X k ω) μ
  mean2 : ∀ j k, j < n → k < n → ∫ ω, X j ω * X k ω ∂μ = if j = k then q else q * q

variable {n : Nat} {q : ℝ} {X : Nat → Ω → ℝ}

theorem Bits.lin (h : Bits μ n q X) (a : Nat → ℝ) (c : ℝ) : Integrable (fun ω => (∑ j ∈ range n, a j * X j ω) + c) μ ∧
    ∫ ω, ((∑ j ∈ range n, a j * X j ω) + c) ∂μ = (∑ j ∈ range n, a j * q) + c := by
  have h1 : ∀ j ∈ range n, Integrable (fun ω => a j * X j ω) μ := fun j hj => (h.int j (mem_range.1 hj)).const_mul _
  have h2 : Integrable (fun ω => ∑ j ∈ range n, a j * X j ω) μ := integrable_finsetSum _ h1
  refine ⟨h2.add (integrable_const c), ?_⟩
  rw [integral_add h2 (integrable_const c), integral_finsetSum _ h1, integral_const]
  simp only [probReal_univ, one_smul]
  congr 1
  exact sum_congr rfl fun j hj => by rw [integral_const_mul, h.mean j (mem_range.1 hj)]

theorem Bits.bitLin (h : Bits μ n q X) (a : Nat → ℝ) (c : ℝ) {j : Nat} (hj : j < n) :
    Integrable (fun ω => X j ω * ((∑ k ∈ range n, a k * X k ω) + c)) μ ∧
    ∫ ω, X j ω * ((∑ k ∈ range n, a k * X k ω) + c) ∂μ = q * ((∑ k ∈ range n, a k * q) + c) + a j * (q - q * q) := by
  have e : (fun ω => X j ω * ((∑ k ∈ range n, a k * X k ω) + c)) = fun ω => (∑ k ∈ range n, a k * (X j ω * X k ω)) + c * X j ω := by
    funext ω
    rw [mul_add, mul_sum, mul_comm c]
    congr 1
    exact sum_congr rfl fun k _ => by ring
  have h1 : ∀ k ∈ range n, Integrable (fun ω => a k * (X j ω * X k ω)) μ := fun k hk => (h.int2 j k hj (mem_range.1 hk)).const_mul _
  have h2 : Integrable (fun ω => ∑ k ∈ range n, a k * (X j ω * X k ω)) μ := integrable_finsetSum _ h1
  have h3 : Integrable (fun ω => c * X j ω) μ := (h.int j hj).const_mul _
  rw [e]
  refine ⟨h2.add h3, ?_⟩
  rw [integral_add h2 h3, integral_finsetSum _ h1, integral_const_mul, h.mean j hj]
  have e2 : ∀ k ∈ range n, ∫ ω, a k * (X j ω * X k ω) ∂μ = a k * q * q + if j = k then a k * (q - q * q) else 0 := by
    intro k hk
    rw [integral_const_mul, h.mean2 j k hj (mem_range.1 hk)]
    split <;> ring
  rw [sum_congr rfl e2, sum_add_distrib, sum_ite_eq, if_pos (mem_range.2 hj), ← sum_mul]
  ring

theorem Bits.sq (h : Bits μ n q X) (a : Nat → ℝ) (c : ℝ) :
    Integrable (fun ω => ((∑ k ∈ range n, a k * X k ω) + c) ^ 2) μ ∧
    ∫ ω, ((∑ k ∈ range n, a k * X k ω) + c) ^ 2 ∂μ = ((∑ k ∈ range n, a k * q) + c) ^ 2 + ∑ k ∈ range n, (a k) ^ 2 * (q - q * q) := by
  have e : (fun ω => ((∑ k ∈ range n, a k * X k ω) + c) ^ 2) = fun ω =>
      (∑ j ∈ range n, a j * (X j ω * ((∑ k ∈ range n, a k * X k ω) + c))) + c * ((∑ k ∈ range n, a k * X k ω) + c) := by
    funext ω
    rw [_root_.sq]
    nth_rw 1 [add_mul]
    rw [sum_mul]
    congr 1
    exact sum_congr rfl fun k _ => by ring
  have h1 : ∀ j ∈ range n, Integrable (fun ω => a j * (X j ω * ((∑ k ∈ range n, a k * X k ω) + c))) μ := fun j hj =>
    (h.bitLin a c (mem_range.1 hj)).1.const_mul _
  have h2 : Integrable (fun ω => ∑ j ∈ range n, a j * (X j ω * ((∑ k ∈ range n, a k * X k ω) + c))) μ := integrable_finsetSum _ h1
  have h3 : Integrable (fun ω => c * ((∑ k ∈ range n, a k * X k ω) + c)) μ := (h.lin a c).1.const_mul _
  rw [e]
  refine ⟨h2.add h3, ?_⟩
  rw [integral_add h2 h3, integral_finsetSum _ h1, integral_const_mul, (h.lin a c).2]
  have e2 : ∀ j ∈ range n, ∫ ω, a j * (X j ω * ((∑ k ∈ range n, a k * X k ω) + c)) ∂μ =
      a j * q * ((∑ k ∈ range n, a k * q) + c) + (a j) ^ 2 * (q - q * q) := by
    intro j hj
    rw [integral_const_mul, (h.bitLin a c (mem_range.1 hj)).2]
    ring
  rw [sum_congr rfl e2, sum_add_distrib, ← sum_mul]
  ring

/-- The bits of one row of a mask. -/
theorem bits_row {U : Nat → Ω → ℝ} (hU : UniformSource μ U) (hI : iIndepFun U μ) (L : LayerSpec ℝ) (h0 : 0 ≤ L.dropout) (h1 : L.dropout ≤ 1)
    (k0 i : Nat) : Bits μ L.o (1 - L.dropout) (fun j ω => dropBits L (fun q => U (k0 + q) ω) i j) := by
  have e : ∀ j ω, dropBits L (fun q => U (k0 + q) ω) i j = (keptDraws L.dropout).indicator (fun _ => (1 : ℝ)) (U (k0 + (i * L.o + j)) ω) := by
    intro j ω
    unfold dropBits
    simpa [Flt.one] using bern_real L.dropout (U (k0 + (i * L.o + j)) ω)
  have hms := measurableSet_keptDraws L.dropout
  have hmi : Measurable ((keptDraws L.dropout).indicator fun _ => (1 : ℝ)) := measurable_const.indicator hms
  have hm : ∀ j, MeasurableSet (U (k0 + (i * L.o + j)) ⁻¹' keptDraws L.dropout) := fun j => hU.meas _ hms
  have ei : ∀ j, (fun ω => dropBits L (fun q => U (k0 + q) ω) i j) =
      (U (k0 + (i * L.o + j)) ⁻¹' keptDraws L.dropout).indicator (fun _ => (1 : ℝ)) := by
    intro j
    funext ω
    rw [e]
    rfl
  have hint : ∀ j, Integrable (fun ω => dropBits L (fun q => U (k0 + q) ω) i j) μ := fun j => by
    rw [ei]
    exact (integrable_const _).indicator (hm j)
  have hmean : ∀ j, ∫ ω, dropBits L (fun q => U (k0 + q) ω) i j ∂μ = 1 - L.dropout := by
    intro j
    rw [ei, integral_indicator_const _ (hm j), measureReal_def, ← Measure.map_apply (hU.meas _) hms, hU.unif, volume_keptDraws h0,
      ENNReal.toReal_ofReal (by linarith), smul_eq_mul, mul_one]
  have hsq : ∀ j ω, dropBits L (fun q => U (k0 + q) ω) i j * dropBits L (fun q => U (k0 + q) ω) i j =
      dropBits L (fun q => U (k0 + q) ω) i j := by
    intro j ω
    rw [e]
    by_cases h : U (k0 + (i * L.o + j)) ω ∈ keptDraws L.dropout <;> simp [h]
  have hind : ∀ j k, j ≠ k → IndepFun (fun ω => dropBits L (fun q => U (k0 + q) ω) i j) (fun ω => dropBits L (fun q => U (k0 + q) ω) i k) μ := by
    intro j k hjk
    have := (hI.indepFun (show k0 + (i * L.o + j) ≠ k0 + (i * L.o + k) by omega)).comp hmi hmi
    have e1 : ∀ j, (fun ω => dropBits L (fun q => U (k0 + q) ω) i j) =
        ((keptDraws L.dropout).indicator fun _ => (1 : ℝ)) ∘ U (k0 + (i * L.o + j)) := fun j => by
      funext ω
      exact e j ω
    rw [e1, e1]
    exact this
  refine ⟨fun j _ => hint j, fun j _ => hmean j, fun j k _ _ => ?_, fun j k _ _ => ?_⟩
  · by_cases hjk : j = k
    · subst hjk
      simp only [hsq]
      exact hint j
    · exact (hind j k hjk).integrable_mul (hint j) (hint k)
  · by_cases hjk : j = k
    · subst hjk
      simp only [hsq, if_true]
      exact hmean j
    · rw [if_neg hjk]
      have := (hind j k hjk).integral_mul_eq_mul_integral (hint j).aestronglyMeasurable (hint k).aestronglyMeasurable
      rw [hmean, hmean] at this
      exact this

/-! ### Expectations -/

/-- The random number f has the expectation x. -/
def HasMean (μ : Measure Ω) (f : Ω → ℝ) (x : ℝ) : Prop := Integrable f μ ∧ ∫ ω, f ω ∂μ = x

theorem HasMean.const (x : ℝ) : HasMean μ (fun _ => x) x := ⟨integrable_const x, by simp⟩

theorem HasMean.mul_left {f : Ω → ℝ} {x : ℝ} (h : HasMean μ f x) (a : ℝ) : HasMean μ (fun ω => a * f ω) (a * x) :=
  ⟨h.1.const_mul a, by rw [integral_const_mul, h.2]⟩

theorem HasMean.mul_right {f : Ω → ℝ} {x : ℝ} (h : HasMean μ f x) (a : ℝ) : HasMean μ (fun ω => f ω * a) (x * a) :=
  ⟨h.1.mul_const a, by rw [integral_mul_const, h.2]⟩

theorem HasMean.sum {f : Nat → Ω → ℝ} {x : Nat → ℝ} {n : Nat} (h : ∀ i, i < n → HasMean μ (f i) (x i)) :
    HasMean μ (fun ω => ∑ i ∈ range n, f i ω) (∑ i ∈ range n, x i) := by
  have h1 : ∀ i ∈ range n, Integrable (f i) μ := fun i hi => (h i (mem_range.1 hi)).1
  refine ⟨integrable_finsetSum _ h1, ?_⟩
  rw [integral_finsetSum _ h1]
  exact sum_congr rfl fun i hi => (h i (mem_range.1 hi)).2

theorem HasMean.sub_from {f : Ω → ℝ} {x : ℝ} (h : HasMean μ f x) (a : ℝ) : HasMean μ (fun ω => a - f ω) (a - x) :=
  ⟨(integrable_const a).sub h.1, by rw [integral_sub (integrable_const a) h.1, h.2]; simp⟩

theorem HasMean.of_eq {f g : Ω → ℝ} {x y : ℝ} (h : HasMean μ f x) (e : ∀ ω, g ω = f ω) (e' : y = x) : HasMean μ g y := by
  rw [e', show g = f from funext e]
  exact h

/-- The gradient at the pre-activations of a layer without dropout is linear in the gradient at its outputs. -/
theorem actBack_mean {L : LayerSpec ℝ} (hk : L.kind ≠ .dropout) (P : Nat → Nat → ℝ) (M : Ω → Nat → Nat → ℝ) (M' : Nat → Nat → ℝ)
    {D : Ω → Nat → Nat → ℝ} {D' : Nat → Nat → ℝ} {c : ℝ} (h : ∀ i j, HasMean μ (fun ω => D ω i j) (c * D' i j)) (i j : Nat) :
    HasMean μ (fun ω => actBack L P (M ω) (D ω) i j) (c * actBack L P M' D' i j) := by
  unfold actBack
  cases hL : L.kind with
  | dropout => exact absurd hL hk
  | linear => exact h i j
  | sigmoid => exact h i j
  | hidden =>
    dsimp only
    split
    · exact (HasMean.const 0).of_eq (fun _ => by simp [Flt.zero]) (by simp [Flt.zero])
    · exact h i j
  | leaky =>
    dsimp only
    split
    · exact ((h i j).mul_right L.slope).of_eq (fun _ => rfl) (mul_assoc _ _ _).symm
    · exact h i j
  | softmax =>
    dsimp only
    simp only [fsum_real]
    exact (HasMean.sum fun k (_ : k < L.o) => (h i k).mul_left ((if j = k then P i j else Flt.zero) - ∑ _x ∈ range 1, P i j * P i k)).of_eq
      (fun _ => rfl) (by
        rw [mul_sum]
        refine sum_congr rfl fun k _ => ?_
        show c * (((if j = k then P i j else Flt.zero) - ∑ _x ∈ range 1, P i j * P i k) * D' i k) = _
        ring)

theorem gradX_mean {L : LayerSpec ℝ} {G : Ω → Nat → Nat → ℝ} {G' : Nat → Nat → ℝ} {c : ℝ} {i : Nat}
    (h : ∀ j, j < L.o → HasMean μ (fun ω => G ω i j) (c * G' i j)) (k : Nat) : HasMean μ (fun ω => gradX L (G ω) i k) (c * gradX L G' i k) := by
  unfold gradX
  simp only [fsum_real]
  refine (HasMean.sum fun j hj => (h j hj).mul_right (L.W k j)).of_eq (fun _ => rfl) ?_
  rw [mul_sum]
  exact sum_congr rfl fun j _ => (mul_assoc _ _ _).symm

theorem gradW_mean {r : Nat} (V : Nat → Nat → ℝ) {G : Ω → Nat → Nat → ℝ} {G' : Nat → Nat → ℝ} {c : ℝ} {j : Nat}
    (h : ∀ i, i < r → HasMean μ (fun ω => G ω i j) (c * G' i j)) (k : Nat) : HasMean μ (fun ω => gradW r V (G ω) k j) (c * gradW r V G' k j) := by
  unfold gradW
  simp only [fsum_real]
  refine (HasMean.sum fun i hi => (h i hi).mul_left (V i k)).of_eq (fun _ => rfl) ?_
  rw [mul_sum]
  refine sum_congr rfl fun i _ => ?_
  show c * (V i k * G' i j) = _
  ring

theorem gradB_mean {r : Nat} {G : Ω → Nat → Nat → ℝ} {G' : Nat → Nat → ℝ} {c : ℝ} {j : Nat}
    (h : ∀ i, i < r → HasMean μ (fun ω => G ω i j) (c * G' i j)) (k : Nat) : HasMean μ (fun ω => gradB r (G ω) k j) (c * gradB r G' k j) := by
  unfold gradB
  simp only [fsum_real]
  exact (HasMean.sum h).of_eq (fun _ => rfl) (mul_sum _ _ _)

/-! ### The network -/

/-- A dropout layer, a linear layer after it at the end, and any layers without dropout before it. -/
structure DropNet (net : Net ℝ) (p : Nat) : Prop where
  size : net.size = p + 2
  drop : (net.L p).kind = .dropout
  last : (net.L (p + 1)).kind = .linear
  rest : ∀ k, k < p → (net.L k).kind ≠ .dropout
  nonneg : 0 ≤ (net.L p).dropout
  lt : (net.L p).dropout < 1
  chain : (net.L p).o = (net.L (p + 1)).n
  width : (net.L (p + 1)).o = net.dim net.size

variable {net : Net ℝ} {p : Nat} {U : Nat → Ω → ℝ} {r : Nat} {A : Nat → Nat → ℝ}

theorem DropNet.vals_drop (h : DropNet net p) (u : Nat → ℝ) (i j : Nat) :
    trainVals net r u A (p + 1) i j = netOut net A (p + 1) i j *
      (dropBits (net.L p) (fun q => u (dropDraws net r p + q)) i j / (1 - (net.L p).dropout)) := by
  show trainOut _ _ (trainVals net r u A p) i j = infer _ _ i j * _
  rw [trainVals_netOut r u A p h.rest]
  unfold trainOut infer actRow
  rw [if_pos h.drop, h.drop]
  simp [Flt.one]

theorem DropNet.out (h : DropNet net p) (i k : Nat) : netOut net A (p + 2) i k =
    (∑ j ∈ range (net.L (p + 1)).n, netOut net A (p + 1) i j * (net.L (p + 1)).W j k) + (net.L (p + 1)).b k := by
  show infer _ _ i k = _
  unfold infer actRow
  rw [h.last]
  exact preact_real _ _ _ _

/-- The outputs in training are linear in the mask. -/
theorem DropNet.vals_out (h : DropNet net p) (u : Nat → ℝ) (i k : Nat) : trainVals net r u A (p + 2) i k =
    (∑ j ∈ range (net.L (p + 1)).n, netOut net A (p + 1) i j * (net.L (p + 1)).W j k / (1 - (net.L p).dropout) *
      dropBits (net.L p) (fun q => u (dropDraws net r p + q)) i j) + (net.L (p + 1)).b k := by
  show trainOut _ _ (trainVals net r u A (p + 1)) i k = _
  unfold trainOut infer actRow
  rw [if_neg (by rw [h.last]; exact LayerKind.noConfusion), h.last]
  dsimp only
  rw [preact_real]
  congr 1
  refine sum_congr rfl fun j _ => ?_
  rw [h.vals_drop]
  ring

theorem DropNet.bits (h : DropNet net p) (hU : UniformSource μ U) (hI : iIndepFun U μ) (r i : Nat) :
    Bits μ (net.L (p + 1)).n (1 - (net.L p).dropout) (fun j ω => dropBits (net.L p) (fun q => U (dropDraws net r p + q) ω) i j) := by
  rw [← h.chain]
  exact bits_row hU hI (net.L p) h.nonneg h.lt.le _ i

/-- The mean output is the output of the network without dropout. -/
theorem DropNet.mean_out (h : DropNet net p) (hU : UniformSource μ U) (hI : iIndepFun U μ) (i k : Nat) :
    HasMean μ (fun ω => trainVals net r (fun q => U q ω) A (p + 2) i k) (netOut net A (p + 2) i k) := by
  have hq : 1 - (net.L p).dropout ≠ 0 := by have := h.lt; linarith
  obtain ⟨h1, h2⟩ := (h.bits hU hI r i).lin (fun j => netOut net A (p + 1) i j * (net.L (p + 1)).W j k / (1 - (net.L p).dropout)) ((net.L (p + 1)).b k)
  refine HasMean.of_eq ⟨h1, h2⟩ (fun ω => h.vals_out _ i k) ?_
  rw [h.out]
  congr 1
  exact sum_congr rfl fun j _ => by field_simp

theorem DropNet.mean_err (h : DropNet net p) (hU : UniformSource μ U) (hI : iIndepFun U μ) (i k : Nat) (y : ℝ) :
    HasMean μ (fun ω => trainVals net r (fun q => U q ω) A (p + 2) i k - y) (netOut net A (p + 2) i k - y) :=
  (((h.mean_out hU hI i k).sub_from y).mul_left (-1)).of_eq (fun _ => by ring) (by ring)

/-- The mean square error of an output: that without dropout, plus the penalty. -/
theorem DropNet.mean_sq (h : DropNet net p) (hU : UniformSource μ U) (hI : iIndepFun U μ) (i k : Nat) (y : ℝ) :
    HasMean μ (fun ω => (trainVals net r (fun q => U q ω) A (p + 2) i k - y) ^ 2) ((netOut net A (p + 2) i k - y) ^ 2 +
      (net.L p).dropout / (1 - (net.L p).dropout) * ∑ j ∈ range (net.L (p + 1)).n, (netOut net A (p + 1) i j) ^ 2 * ((net.L (p + 1)).W j k) ^ 2) := by
  have hq : 1 - (net.L p).dropout ≠ 0 := by have := h.lt; linarith
  obtain ⟨h1, h2⟩ := (h.bits hU hI r i).sq (fun j => netOut net A (p + 1) i j * (net.L (p + 1)).W j k / (1 - (net.L p).dropout))
    ((net.L (p + 1)).b k - y)
  refine HasMean.of_eq ⟨h1, h2⟩ (fun ω => by rw [h.vals_out]; ring) ?_
  have e : ∑ k' ∈ range (net.L (p + 1)).n, netOut net A (p + 1) i k' * (net.L (p + 1)).W k' k / (1 - (net.L p).dropout) * (1 - (net.L p).dropout) =
      ∑ k' ∈ range (net.L (p + 1)).n, netOut net A (p + 1) i k' * (net.L (p + 1)).W k' k := sum_congr rfl fun j _ => by field_simp
  rw [h.out, mul_sum, add_sub_assoc, e]
  congr 1
  refine sum_congr rfl fun j _ => ?_
  field_simp
  ring

/-- The mean of a mask bit times the error of an output. -/
theorem DropNet.mean_bit (h : DropNet net p) (hU : UniformSource μ U) (hI : iIndepFun U μ) (i k : Nat) (y : ℝ) {j : Nat} (hj : j < (net.L (p + 1)).n) :
    HasMean μ (fun ω => dropBits (net.L p) (fun q => U (dropDraws net r p + q) ω) i j * (trainVals net r (fun q => U q ω) A (p + 2) i k - y))
      ((1 - (net.L p).dropout) * ((netOut net A (p + 2) i k - y) +
        (net.L p).dropout / (1 - (net.L p).dropout) * (netOut net A (p + 1) i j * (net.L (p + 1)).W j k))) := by
  have hq : 1 - (net.L p).dropout ≠ 0 := by have := h.lt; linarith
  obtain ⟨h1, h2⟩ := (h.bits hU hI r i).bitLin (fun j => netOut net A (p + 1) i j * (net.L (p + 1)).W j k / (1 - (net.L p).dropout))
    ((net.L (p + 1)).b k - y) hj
  refine HasMean.of_eq ⟨h1, h2⟩ (fun ω => by rw [h.vals_out]; ring) ?_
  have e : ∑ k' ∈ range (net.L (p + 1)).n, netOut net A (p + 1) i k' * (net.L (p + 1)).W k' k / (1 - (net.L p).dropout) * (1 - (net.L p).dropout) =
      ∑ k' ∈ range (net.L (p + 1)).n, netOut net A (p + 1) i k' * (net.L (p + 1)).W k' k := sum_congr rfl fun j _ => by field_simp
  rw [h.out, e]
  field_simp
  ring

/-! ### The gradients -/

/-- The masks that a forward pass on r rows in training makes from the uniform numbers u. -/
noncomputable def masks (net : Net ℝ) (r : Nat) (u : Nat → ℝ) (k : Nat) : Nat → Nat → ℝ := dropBits (net.L k) fun q => u (dropDraws net r k + q)

theorem lossGrad_mse (r c : Nat) (P Y : Nat → Nat → ℝ) (i j : Nat) : lossGrad .mse r c P Y i j = (P i j - Y i j) * (2 / c) := by
  show (P i j - Y i j) * (((2 : Int) : ℝ) / ((c : Int) : ℝ)) = _
  push_cast
  rfl

/-- Back-propagation starts from the errors of the last layer. -/
theorem DropNet.grads (h : DropNet net p) {m : Model ℝ} {V M : Nat → Nat → Nat → ℝ} {Y : Nat → Nat → ℝ} {G D : Nat → Nat → Nat → ℝ}
    (hG : NetGrad m net .mse r V M Y G D) : (∀ i k, G (p + 1) i k = (V (p + 2) i k - Y i k) * (2 / (net.dim net.size : ℝ))) ∧
    Backprop net V M G D (p + 1) ∧ D (p + 1) = gradX (net.L (p + 1)) (G (p + 1)) := by
  have hs := h.size
  have hF : ¬ Fused m net := fun hF => by
    have h1 := hF.1
    rw [hs, show p + 2 - 1 = p + 1 from rfl, h.last] at h1
    exact LayerKind.noConfusion h1
  obtain ⟨h1, h2⟩ := hG.plain hF
  refine ⟨fun i k => ?_, ⟨fun k hk => ?_, fun k hk => h2.inp k (by omega)⟩, h2.inp (p + 1) (by omega)⟩
  · rw [h2.act (p + 1) (by omega)]
    unfold actBack
    rw [h.last]
    dsimp only
    rw [show p + 1 + 1 = net.size from hs.symm, h1, lossGrad_mse]
  · have := h2.act k (by omega)
    rwa [if_neg (by omega)] at this

/-- The gradient of the penalised objective at the signals of the dropout layer, without a mask. -/
noncomputable def DropNet.top (net : Net ℝ) (p : Nat) (A Y : Nat → Nat → ℝ) : Nat → Nat → ℝ :=
  dropH (net.L p).dropout (net.L (p + 1)).n (net.dim net.size) Y (netOut net A (p + 1)) (net.L (p + 1)).W (net.L (p + 1)).b

/-- The gradients at the layers up to the dropout layer are, on average, those of the penalised objective times 1-d. -/
theorem DropNet.lower (h : DropNet net p) (hU : UniformSource μ U) (hI : iIndepFun U μ) {m : Model ℝ} {Y : Nat → Nat → ℝ}
    {G D : Ω → Nat → Nat → Nat → ℝ} (hG : ∀ ω, NetGrad m net .mse r (trainVals net r (fun q => U q ω) A) (masks net r fun q => U q ω) Y (G ω) (D ω))
    {G' D' : Nat → Nat → Nat → ℝ} (hB : Backprop net (netOut net A) (fun _ _ _ => 1) G' D' (p + 1)) (hD : D' (p + 1) = DropNet.top net p A Y)
    (t : Nat) (ht : t ≤ p) (i j : Nat) (hj : j < (net.L (p - t)).o) :
    HasMean μ (fun ω => G ω (p - t) i j) ((1 - (net.L p).dropout) * G' (p - t) i j) := by
  have hq : 1 - (net.L p).dropout ≠ 0 := by have := h.lt; linarith
  induction t generalizing i j with
  | zero =>
    rw [Nat.sub_zero] at hj ⊢
    have e : ∀ ω, G ω p i j = if netOut net A (p + 1) i j ≤ 0 then 0 else
        ∑ k ∈ range (net.L (p + 1)).o, masks net r (fun q => U q ω) p i j * (trainVals net r (fun q => U q ω) A (p + 2) i k - Y i k) *
          (2 / (net.dim net.size : ℝ) * (net.L (p + 1)).W j k) := by
      intro ω
      obtain ⟨h1, h2, h3⟩ := h.grads (hG ω)
      rw [h2.act p (by omega)]
      unfold actBack
      rw [h.drop]
      dsimp only
      rw [h.vals_drop, h3]
      unfold gradX
      rw [fsum_real]
      simp only [h1]
      have hb : masks net r (fun q => U q ω) p i j = 0 ∨ masks net r (fun q => U q ω) p i j = 1 := by
        have hbr := bern_real (net.L p).dropout (U (dropDraws net r p + (i * (net.L p).o + j)) ω)
        have hm : masks net r (fun q => U q ω) p i j = bern (1 - (net.L p).dropout) (U (dropDraws net r p + (i * (net.L p).o + j)) ω) := by
          simp [masks, dropBits, Flt.one]
        rw [hm, hbr]
        exact (Set.indicator_eq_zero_or_self _ _ _)
      have hp : 0 < 1 - (net.L p).dropout := by have := h.lt; linarith
      change (if Flt.le (netOut net A (p + 1) i j * (masks net r (fun q => U q ω) p i j / (1 - (net.L p).dropout))) Flt.zero = true then _ else
        (∑ k ∈ range (net.L (p + 1)).o, (trainVals net r (fun q => U q ω) A (p + 2) i k - Y i k) * (2 / (net.dim net.size : ℝ)) * (net.L (p + 1)).W j k) *
          masks net r (fun q => U q ω) p i j) = _
      rcases hb with hb | hb
      · simp [hb, Flt.zero]
      · have hle : Flt.le (netOut net A (p + 1) i j * (1 / (1 - (net.L p).dropout))) (Flt.zero : ℝ) = true ↔ netOut net A (p + 1) i j ≤ 0 := by
          have h0 : 0 < 1 / (1 - (net.L p).dropout) := by positivity
          rw [show (Flt.zero : ℝ) = 0 by simp [Flt.zero]]
          simp only [Flt.le, decide_eq_true_eq]
          constructor
          · intro h; by_contra hc; exact absurd (mul_pos (not_le.1 hc) h0) (not_lt.2 h)
          · intro h; exact mul_nonpos_of_nonpos_of_nonneg h h0.le
        rw [hb]
        simp only [hle]
        split
        · simp [Flt.zero]
        · rw [sum_mul]
          exact sum_congr rfl fun k _ => by ring
    have e' : G' p i j = if netOut net A (p + 1) i j ≤ 0 then 0 else DropNet.top net p A Y i j := by
      rw [hB.act p (by omega), hD]
      unfold actBack
      rw [h.drop]
      simp [Flt.le, Flt.zero]
    rw [e']
    by_cases h0 : netOut net A (p + 1) i j ≤ 0
    · simp only [e, if_pos h0, mul_zero]
      exact HasMean.const 0
    · simp only [e, if_neg h0]
      refine (HasMean.sum fun k _ => (h.mean_bit hU hI i k (Y i k) (h.chain ▸ hj)).mul_right _).of_eq (fun _ => rfl) ?_
      unfold DropNet.top dropH
      rw [mul_sum, h.width]
      refine sum_congr rfl fun k _ => ?_
      rw [h.out]
      ring
  | succ t ih =>
    have ht' : p - t = p - (t + 1) + 1 := by omega
    have hD1 : ∀ i j, HasMean μ (fun ω => D ω (p - t) i j) ((1 - (net.L p).dropout) * D' (p - t) i j) := by
      intro i j
      refine (gradX_mean (fun k hk => ih (by omega) i k hk) j).of_eq (fun ω => ?_) ?_
      · rw [(h.grads (hG ω)).2.1.inp (p - t) (by omega)]
      · rw [hB.inp (p - t) (by omega)]
    refine (actBack_mean (h.rest (p - (t + 1)) (by omega)) (netOut net A (p - t)) (fun ω => masks net r (fun q => U q ω) (p - (t + 1)))
      (fun _ _ => 1) hD1 i j).of_eq (fun ω => ?_) ?_
    · rw [(h.grads (hG ω)).2.1.act (p - (t + 1)) (by omega), ← ht', trainVals_netOut r _ A (p - t) fun k hk => h.rest k (by omega)]
    · rw [hB.act (p - (t + 1)) (by omega), ← ht']

theorem descent_one {m : Model ℝ} {lk : LossKind} {u : Nat → ℝ} {X Y : Nat → Nat → ℝ} {S : Nat → OptSpec ℝ} {k : Nat} {q : Nat × Nat}
    {net' : Net ℝ} {S' : Nat → OptSpec ℝ} {k' : Nat} (h : Descent m lk u X Y net S k [q] net' S' k') :
    TrainStep m lk q.2 (fun j => u (k + j)) (fun i j => X (q.1 + i) j) (fun i j => Y (q.1 + i) j) net S net' S' := by
  generalize hl : [q] = bs at h
  cases h with
  | start => cases hl
  | step h1 h2 =>
    next bs b net1 S1 p1 =>
    have h3 := List.append_eq_singleton_iff.1 hl.symm
    rcases h3 with ⟨e1, e2⟩ | ⟨e1, e2⟩
    · subst e1
      generalize hl' : ([] : List (Nat × Nat)) = bs' at h1
      cases h1 with
      | start =>
        injection e2 with e2 _
        subst e2
        exact h2
      | step h4 h5 => exact absurd hl'.symm (by simp)
    · cases e2

theorem sgd_newB {S : OptSpec ℝ} (hk : S.kind = .sgd) (hm : S.momentum = 0) (W g : Nat → Nat → ℝ) (i j : Nat) :
    S.newB W g i j = W i j - g i j * S.rate := by
  unfold OptSpec.newB OptSpec.upd
  rw [hk]
  dsimp only
  rw [if_pos (by simp [Flt.zero, hm])]
  rfl

/-! ### The theorems -/

/-- C152 (a): a forward pass in training through a network with one dropout layer, before its last layer, which is linear: the mean
of every prediction over the masks is the prediction of the network without dropout, and the mean of its squared errors against any
targets is the penalised objective. -/
theorem C152_loss (hU : UniformSource μ U) (hI : iIndepFun U μ) (w : Ω → World ℝ) (m : Model ℝ) (net : Net ℝ) (p : Nat) (x : Mat) (r : Nat)
    (A Y : Nat → Nat → ℝ) (hN : ∀ ω, IsNet (w ω) m net) (hX : ∀ ω, IsMat (w ω) x r (net.dim 0) A)
    (hu : ∀ ω k, (w ω).unif ((w ω).unifPos + k) = U k ω) (h : DropNet net p) :
    ∃ F : Ω → Nat → Nat → ℝ, (∀ ω, wp (modelForward m x true) (w ω) fun o w' => o.2 = none ∧
        ∃ out, o.1[net.size]? = some out ∧ IsMat w' out r (net.dim net.size) (F ω)) ∧
      (∀ i k, HasMean μ (fun ω => F ω i k) (netOut net A net.size i k)) ∧
      HasMean μ (fun ω => (∑ i ∈ range r, ∑ k ∈ range (net.dim net.size), (F ω i k - Y i k) ^ 2) / net.dim net.size)
        (dropObj (net.L p).dropout r (net.L (p + 1)).n (net.dim net.size) Y (netOut net A (p + 1)) (net.L (p + 1)).W (net.L (p + 1)).b) := by
  refine ⟨fun ω => trainVals net r (fun q => U q ω) A net.size, fun ω => ?_, fun i k => ?_, ?_⟩
  · refine wp_mono (modelForward_spec (hN ω) (hX ω) true) ?_
    rintro ⟨outs, e⟩ w' ⟨o, mask, V, M, h1, h2, h3, h4, h5⟩
    refine ⟨h2, o net.size, ?_, ?_⟩
    · dsimp only at h1
      rw [h1]
      simp
    · have e : (fun q => (w ω).unif ((w ω).unifPos + q)) = fun q => U q ω := funext (hu ω)
      show IsMat w' _ r _ (trainVals net r (fun q => U q ω) A net.size)
      rw [← e, ← run_vals h5 h4 net.size le_rfl, h.size]
      exact (h5.res (p + 1) (by rw [h.size]; omega)).mat
  · rw [h.size]; exact h.mean_out hU hI i k
  · have key := (HasMean.sum fun i (_ : i < r) => HasMean.sum fun k (_ : k < net.dim net.size) =>
      h.mean_sq (A := A) (r := r) hU hI i k (Y i k)).mul_right ((net.dim net.size : ℝ))⁻¹
    refine key.of_eq (fun ω => by rw [h.size]; exact div_eq_mul_inv _ _) ?_
    unfold dropObj
    simp only [h.out, sum_add_distrib, ← mul_sum]
    ring

/-- C152 (b): Fit for one epoch, with all samples in one batch, the mean squared error and gradient descent without momentum.
The weights and biases of the last layer move, on average over the masks, by the rate times the gradient of the penalised objective.
All layers below it, the dropout layer included, move on average by the rate times 1-d times the gradient of that objective,
back-propagated from the signals of the dropout layer through the network without dropout. -/
theorem C152_step (hU : UniformSource μ U) (hI : iIndepFun U μ) (w : Ω → World ℝ) (m : Model ℝ) (net : Net ℝ) (op : Nat → Nat)
    (S : Nat → OptSpec ℝ) (p : Nat) (X Y xv yv : Mat) (n b : Nat) (A B : Nat → Nat → ℝ)
    (hT : ∀ ω, Trains (w ω) m net op S .mse X Y n A B) (hu : ∀ ω k, (w ω).unif ((w ω).unifPos + k) = U k ω) (h : DropNet net p)
    (hS : ∀ k, k < net.size → (S k).kind = .sgd ∧ (S k).momentum = 0) (hn : 0 < n) (hb : b = 0 ∨ n ≤ b) (hbig : n + b ≤ 2 ^ 53) :
    ∃ (net' : Ω → Net ℝ) (G D : Nat → Nat → Nat → ℝ),
      (∀ ω, wp (fit m X Y 1 b xv yv 0) (w ω) fun e w' => e = none ∧ IsNet w' m (net' ω) ∧ SameShape net (net' ω)) ∧
      (∀ j k, j < (net.L (p + 1)).n → HasMean μ (fun ω => ((net' ω).L (p + 1)).W j k) ((net.L (p + 1)).W j k - (S (p + 1)).rate *
        dropW (net.L p).dropout n (net.L (p + 1)).n (net.dim net.size) B (netOut net A (p + 1)) (net.L (p + 1)).W (net.L (p + 1)).b j k)) ∧
      (∀ k, HasMean μ (fun ω => ((net' ω).L (p + 1)).b k) ((net.L (p + 1)).b k - (S (p + 1)).rate *
        dropB n (net.L (p + 1)).n (net.dim net.size) B (netOut net A (p + 1)) (net.L (p + 1)).W (net.L (p + 1)).b k)) ∧
      Backprop net (netOut net A) (fun _ _ _ => 1) G D (p + 1) ∧
      D (p + 1) = dropH (net.L p).dropout (net.L (p + 1)).n (net.dim net.size) B (netOut net A (p + 1)) (net.L (p + 1)).W (net.L (p + 1)).b ∧
      (∀ l j k, l ≤ p → k < (net.L l).o → HasMean μ (fun ω => ((net' ω).L l).W j k) ((net.L l).W j k - (S l).rate *
        ((1 - (net.L p).dropout) * gradW n (netOut net A l) (G l) j k))) ∧
      (∀ l k, l ≤ p → k < (net.L l).o → HasMean μ (fun ω => ((net' ω).L l).b k) ((net.L l).b k - (S l).rate *
        ((1 - (net.L p).dropout) * gradB n (G l) 0 k))) := by
  have hs := h.size
  have hq : 1 - (net.L p).dropout ≠ 0 := by have := h.lt; linarith
  have step : ∀ ω, ∃ (net' : Net ℝ) (G D : Nat → Nat → Nat → ℝ), (wp (fit m X Y 1 b xv yv 0) (w ω) fun e w' => e = none ∧ IsNet w' m net' ∧ SameShape net net') ∧
      NetGrad m net .mse n (trainVals net n (fun q => U q ω) A) (masks net n fun q => U q ω) B G D ∧
      net' = stepNet net S n (trainVals net n (fun q => U q ω) A) G := by
    intro ω
    have hω := hT ω
    obtain ⟨e, w', h1, h2, net', S', h3, h4, h7, -⟩ := wp_iff.1 (C70_fit (w ω) m net op S hω.task hω.noSig _ hω.loss rfl X Y xv yv n A B hω.xs.mat hω.ys.mat
      hω.xs.cap hω.ys.cap hω.xs.sep hω.ys.sep 1 b hbig)
    rw [blocks_full hn hb] at h3
    obtain ⟨G, D, h5, h6, -⟩ := descent_one (q := (0, n)) h3
    dsimp only at h5 h6
    have eu : (fun q => (w ω).unif ((w ω).unifPos + q)) = fun q => U q ω := funext (hu ω)
    have eA : (fun i j => A (0 + i) j) = A := by funext i j; rw [Nat.zero_add]
    have eB : (fun i j => B (0 + i) j) = B := by funext i j; rw [Nat.zero_add]
    rw [eA, eB] at h5
    rw [eA, eu] at h6
    refine ⟨net', G, D, wp_iff.2 ⟨e, w', h1, h2, h4.isNet, h7⟩, ?_, h6⟩
    have e' : ∀ q, (w ω).unif ((w ω).unifPos + q) = U q ω := hu ω
    simp only [e'] at h5
    exact h5
  choose net' G D h1 h2 h3 using step
  obtain ⟨G', D', hD, hB⟩ := exists_backprop net (netOut net A) (fun _ _ _ => 1) (p + 1) (DropNet.top net p A B)
  have hW : ∀ ω l j k, l < net.size → ((net' ω).L l).W j k = (net.L l).W j k - gradW n (trainVals net n (fun q => U q ω) A l) (G ω l) j k * (S l).rate :=
    fun ω l j k hl => by
      rw [h3]
      exact ((sgd_newW (hS l hl).1 _ _ j k).1 (hS l hl).2).1
  have hb' : ∀ ω l k, l < net.size → ((net' ω).L l).b k = (net.L l).b k - gradB n (G ω l) 0 k * (S l).rate :=
    fun ω l k hl => by
      rw [h3]
      exact sgd_newB (hS l hl).1 (hS l hl).2 (fun _ j => (net.L l).b j) (gradB n (G ω l)) 0 k
  have low := fun l (hl : l ≤ p) i k (hk : k < (net.L l).o) => by
    have := h.lower hU hI h2 hB hD (p - l) (by omega) i k
    rw [show p - (p - l) = l by omega] at this
    exact this hk
  refine ⟨net', G', D', h1, fun j k hj => ?_, fun k => ?_, hB, hD, fun l j k hl hk => ?_, fun l k hl hk => ?_⟩
  · have key := (HasMean.sum fun i (_ : i < n) => ((h.mean_bit (A := A) (r := n) hU hI i k (B i k) hj).mul_left
      (netOut net A (p + 1) i j / (1 - (net.L p).dropout) * (2 / (net.dim net.size : ℝ))))).mul_right (S (p + 1)).rate
    refine (key.sub_from ((net.L (p + 1)).W j k)).of_eq (fun ω => ?_) ?_
    · rw [hW ω (p + 1) j k (by omega)]
      unfold gradW
      rw [fsum_real]
      congr 2
      refine sum_congr rfl fun i _ => ?_
      show trainVals net n _ A (p + 1) i j * G ω (p + 1) i k = _
      rw [(h.grads (h2 ω)).1, h.vals_drop]
      ring
    · unfold dropW
      rw [mul_comm (S (p + 1)).rate]
      congr 2
      refine sum_congr rfl fun i _ => ?_
      rw [h.out]
      field_simp
  · have key := (HasMean.sum fun i (_ : i < n) => ((h.mean_err (A := A) (r := n) hU hI i k (B i k)).mul_right
      (2 / (net.dim net.size : ℝ)))).mul_right (S (p + 1)).rate
    refine (key.sub_from ((net.L (p + 1)).b k)).of_eq (fun ω => ?_) ?_
    · rw [hb' ω (p + 1) k (by omega)]
      unfold gradB
      rw [fsum_real]
      congr 2
      exact sum_congr rfl fun i _ => (h.grads (h2 ω)).1 i k
    · unfold dropB
      rw [mul_comm (S (p + 1)).rate]
      congr 2
      exact sum_congr rfl fun i _ => by rw [h.out]
  · refine (((gradW_mean (netOut net A l) (fun i _ => low l hl i k hk) j).mul_right (S l).rate).sub_from ((net.L l).W j k)).of_eq (fun ω => ?_) (by ring)
    rw [hW ω l j k (by omega), trainVals_netOut n _ A l fun k' hk' => h.rest k' (by omega)]
  · refine (((gradB_mean (fun i (_ : i < n) => low l hl i k hk) 0).mul_right (S l).rate).sub_from ((net.L l).b k)).of_eq (fun ω => ?_) (by ring)
    rw [hb' ω l k (by omega)]

/-! ### The hypotheses can be met -/

theorem IsTask.withUnif {w : World ℝ} {m : Model ℝ} {op : Nat → Nat} {S : Nat → OptSpec ℝ} (h : IsTask w m net op S) (u : Nat → ℝ) :
    IsTask { w with unif := u } m net op S := by
  obtain ⟨h1, h2, h3, h4, h5, h6, h7⟩ := h
  refine ⟨⟨h1.size, h1.ptrs, fun i hi => (h1.lay i hi).withUnif u, h1.ins, h1.outs, h1.input, h1.output⟩,
    ⟨fun i hi => ⟨(h2.own i hi).distinct, (h2.own i hi).disjoint, (h2.own i hi).outer⟩, h2.inj, h2.sep⟩, h3, h4, fun i hi => ?_, h6, h7⟩
  obtain ⟨k1, k2, k3, k4⟩ := h5 i hi
  refine ⟨k1, k2, ?_, k4⟩
  cases k3 with
  | unset a b c d e => exact .unset a b c d e
  | set a b c d => exact .set (a.withUnif u) (b.withUnif u) (fun h => (c h).withUnif u) fun h => (d h).withUnif u

/-- Three layers: ReLU, dropout with rate 1/2, linear, gradient descent with decay, and 5 samples. -/
example : ∃ (Ω : Type) (_ : MeasurableSpace Ω) (μ : Measure Ω) (_ : IsProbabilityMeasure μ) (U : Nat → Ω → ℝ) (w : Ω → World ℝ) (m : Model ℝ)
    (net : Net ℝ) (op : Nat → Nat) (S : Nat → OptSpec ℝ) (X Y : Mat) (A B : Nat → Nat → ℝ), UniformSource μ U ∧ iIndepFun U μ ∧
    (∀ ω, Trains (w ω) m net op S .mse X Y 5 A B) ∧ (∀ ω k, (w ω).unif ((w ω).unifPos + k) = U k ω) ∧ DropNet net 1 ∧
    (∀ k, k < net.size → (S k).kind = .sgd ∧ (S k).momentum = 0) ∧ (net.L 1).dropout = 1 / 2 ∧ (S 0).decay ≠ 0 ∧ (net.L 0).kind = .hidden ∧
    (∀ ω, IsNet (w ω) m net) ∧ ∀ ω, IsMat (w ω) X 5 (net.dim 0) A := by
  obtain ⟨Ω, i1, μ, i2, U, hU, hI⟩ := exists_uniformSource
  obtain ⟨o, ho⟩ := sgd_ok_real (lr := 1 / 10) (decay := 1 / 100) (mom := 0) (by norm_num) (by norm_num) le_rfl
  have hrows : o.weightMomentums.rows = 0 := by rw [newSGD_ok ho]; rfl
  obtain ⟨w, net, op, XM, YM, xM, yM, hf, hs, hL, hdim, hT, dX, dY, -, -⟩ := exists_task emptyWorld 3 (by decide)
    demoT (fun i => demoT_pos (α := ℝ) i) (fun i => demoT_chain (α := ℝ) i) { newModel with loss := some ⟨.mse, (demoT 3 : LayerSpec ℝ).n⟩, lossType := 0 } o
    (OptSpec.fresh o) hrows
    (fun w p i hlt e => e ▸ isOpt_newSGD _ _ _ _ hlt (e.symm ▸ ho)) (r := 5) (r' := 2) (by decide) (by decide)
    (fun i _ => (i : ℝ) + 1) (fun i j => if j = i then 1 else 0) (fun i _ => (i : ℝ)) (fun _ j => (j : ℝ))
  have d0 : net.dim 0 = (demoT 0 : LayerSpec ℝ).n := by rw [hdim]
  have d1 : net.dim net.size = (demoT 3 : LayerSpec ℝ).n := by rw [hdim, hs]
  have hh : (Flt.half : ℝ) = 1 / 2 := by simp [real_half]
  have hTu : ∀ u : Nat → ℝ, IsTask { w with unif := u } _ net op _ := fun u => hT.withUnif u
  have hX : ∀ u : Nat → ℝ, IsMat { w with unif := u } XM 5 (net.dim 0) _ := fun u => d0 ▸ dX.mat.withUnif u
  refine ⟨Ω, i1, μ, i2, U, fun ω => { w with unif := fun k => U (k - w.unifPos) ω }, _, net, op, _, XM, YM, _, _, hU, hI,
    fun ω => ⟨hTu _, by rw [d1]; rfl, fun i _ => by rw [hL]; exact demoT_kind i, ⟨hX _, dX.cap, dX.sep⟩, ⟨d1 ▸ dY.mat.withUnif _, dY.cap, dY.sep⟩⟩,
    fun ω k => ?_, ⟨hs, ?_, ?_, fun k hk => ?_, ?_, ?_, ?_, ?_⟩, fun k _ => ⟨by rw [newSGD_ok ho]; rfl, by rw [newSGD_ok ho]; rfl⟩, ?_, ?_, ?_,
    fun ω => (hTu _).isNet, fun ω => hX _⟩
  · show U (w.unifPos + k - w.unifPos) ω = U k ω
    rw [Nat.add_sub_cancel_left]
  · rw [hL]; rfl
  · rw [hL]; rfl
  · obtain rfl : k = 0 := by omega
    rw [hL]; exact LayerKind.noConfusion
  · rw [hL]; show 0 ≤ (Flt.half : ℝ); rw [hh]; norm_num
  · rw [hL]; show (Flt.half : ℝ) < 1; rw [hh]; norm_num
  · rw [hL]; rfl
  · rw [d1, hL]; rfl
  · rw [hL]; exact hh
  · rw [newSGD_ok ho]; norm_num [OptSpec.fresh]
  · rw [hL]; rfl

end NN
