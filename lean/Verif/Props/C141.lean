import Verif.Props.C140
import Verif.IEEE.Error
import Verif.Lemmas.Client
import Mathlib.Probability.Moments.SubGaussian
import Mathlib.MeasureTheory.Measure.Dirac
/-
C141: the accuracy that CalculateAccuracy returns for random samples is close to the accuracy of the model on the distribution of the
samples, for a model that does not depend on the samples, and, on float64 and with enough samples, for every model trained on them.
-/

set_option linter.unusedSectionVars false

namespace NN
open NN.Go MeasureTheory ProbabilityTheory

/-! ### Specification -/

section Spec
variable {α : Type} [Flt α]

/-- Is entry j of the prediction p right, if y is the target?  For regression (accuracy type 0) closer than prec, else the same when rounded
to 0 or 1. -/
def entryRight (t : Int) (prec : α) (p y : Nat → α) (j : Nat) : Bool :=
  if t = 0 then Flt.lt (Flt.abs (p j -. y j)) prec else Flt.eq (if Flt.lt (p j) Flt.half then Flt.zero else Flt.one) (y j)

/-- The score of the prediction p with c entries, if y is the target: categorical (1): 1 if the target is 1 in the best column, else 0;
otherwise the share of right entries. -/
noncomputable def scoreOf (t : Int) (prec : α) (c : Nat) (p y : Nat → α) : ℝ :=
  if t = 1 then (if Flt.eq (y (bestCol p c).1) Flt.one then 1 else 0)
  else (((Finset.range c).filter fun j => entryRight t prec p y j).card : ℝ) / c

/-- The output of the network for the input row x. -/
def outRow (net : Net α) (x : Nat → α) : Nat → α := netOut net (fun _ => x) net.size 0

variable {Ω Z : Type} [MeasurableSpace Ω] [MeasurableSpace Z]

/-- The score of the network for the sample s: its input is fx s, its target fy s. -/
noncomputable def netScore (net : Net α) (t : Int) (prec : α) (fx fy : Z → Nat → α) (s : Z) : ℝ :=
  scoreOf t prec (net.dim net.size) (outRow net (fx s)) (fy s)

/-- The accuracy of the network on the distribution D: its mean score. -/
noncomputable def trueAcc (net : Net α) (t : Int) (prec : α) (fx fy : Z → Nat → α) (D : Measure Z) : ℝ := ∫ s, netScore net t prec fx fy s ∂D

/-- n independent samples with distribution D. -/
structure Samples (μ : Measure Ω) (D : Measure Z) (n : Nat) (z : Fin n → Ω → Z) : Prop where
  meas : ∀ i, Measurable (z i)
  law : ∀ i, μ.map (z i) = D
  indep : iIndepFun z μ

/-- The matrix entries made of the samples: row i is f of sample i. -/
def sampleRows {n : Nat} (f : Z → Nat → α) (z : Fin n → Ω → Z) (ω : Ω) (i j : Nat) : α := if h : i < n then f (z ⟨i, h⟩ ω) j else Flt.zero

end Spec

/-! ### Hoeffding's inequality for the mean of n samples -/

section Mean
variable {Ω Z : Type} [MeasurableSpace Ω] [MeasurableSpace Z] {μ : Measure Ω} [IsProbabilityMeasure μ] {D : Measure Z} {n : Nat} {z : Fin n → Ω → Z}

theorem Samples.upper (h : Samples μ D n z) (hn : 0 < n) {f : Z → ℝ} (hf : Measurable f) (h01 : ∀ s, f s ∈ Set.Icc (0 : ℝ) 1) {ε : ℝ} (hε : 0 ≤ ε) :
    μ.real {ω | ε ≤ (∑ i, f (z i ω)) / n - ∫ s, f s ∂D} ≤ Real.exp (-(2 * n * ε ^ 2)) := by
  have hE : ∀ i, ∫ ω, f (z i ω) ∂μ = ∫ s, f s ∂D := fun i => by
    rw [← h.law i, integral_map (h.meas i).aemeasurable hf.aestronglyMeasurable]
  have hsub : ∀ i ∈ (Finset.univ : Finset (Fin n)), HasSubgaussianMGF (fun ω => f (z i ω) - ∫ s, f s ∂D) ((‖(1 : ℝ) - 0‖₊ / 2) ^ 2) μ := fun i _ => by
    have := hasSubgaussianMGF_of_mem_Icc (μ := μ) (X := fun ω => f (z i ω)) (a := 0) (b := 1) (hf.comp (h.meas i)).aemeasurable
      (ae_of_all _ fun ω => h01 _)
    rwa [hE i] at this
  have hind : iIndepFun (fun (i : Fin n) ω => f (z i ω) - ∫ s, f s ∂D) μ :=
    h.indep.comp (fun _ s => f s - ∫ s, f s ∂D) fun _ => hf.sub_const _
  have key := HasSubgaussianMGF.measure_sum_ge_le_of_iIndepFun hind (c := fun _ => (‖(1 : ℝ) - 0‖₊ / 2) ^ 2) (s := Finset.univ) hsub (ε := n * ε) (by positivity)
  have hn' : (0 : ℝ) < n := by exact_mod_cast hn
  have hset : {ω | ε ≤ (∑ i, f (z i ω)) / n - ∫ s, f s ∂D} = {ω | (n : ℝ) * ε ≤ ∑ i ∈ Finset.univ, (f (z i ω) - ∫ s, f s ∂D)} := by
    ext ω
    simp only [Set.mem_ofPred_eq, Finset.sum_sub_distrib, Finset.sum_const, Finset.card_univ, Fintype.card_fin, nsmul_eq_mul]
    rw [le_sub_iff_add_le, le_div_iff₀ hn', le_sub_iff_add_le, add_mul, mul_comm ε, mul_comm (∫ s, f s ∂D)]
  rw [hset]
  refine key.trans (le_of_eq ?_)
  congr 1
  simp only [Finset.sum_const, Finset.card_univ, Fintype.card_fin, nsmul_eq_mul, sub_zero, NNReal.coe_mul, NNReal.coe_natCast, NNReal.coe_pow, NNReal.coe_div,
    coe_nnnorm, norm_one, NNReal.coe_ofNat]
  field_simp

/-- Except with probability 2 exp(-2nε²), the mean over n samples is within ε of the expected value. -/
theorem Samples.hoeffding (h : Samples μ D n z) (hn : 0 < n) {f : Z → ℝ} (hf : Measurable f) (h01 : ∀ s, f s ∈ Set.Icc (0 : ℝ) 1) {ε : ℝ} (hε : 0 ≤ ε) :
    μ.real {ω | ε ≤ |(∑ i, f (z i ω)) / n - ∫ s, f s ∂D|} ≤ 2 * Real.exp (-(2 * n * ε ^ 2)) := by
  have : IsProbabilityMeasure D := by
    rw [← h.law ⟨0, hn⟩]
    exact Measure.isProbabilityMeasure_map (h.meas _).aemeasurable
  have hn' : (n : ℝ) ≠ 0 := by exact_mod_cast hn.ne'
  have h1 := h.upper hn hf h01 hε
  have h2 := h.upper hn (f := fun s => 1 - f s) (measurable_const.sub hf) (fun s => ⟨sub_nonneg.2 (h01 s).2, sub_le_self _ (h01 s).1⟩) hε
  have hint : Integrable f D := Integrable.of_mem_Icc 0 1 hf.aemeasurable (ae_of_all _ h01)
  have e : ∀ ω, (∑ i, (1 - f (z i ω))) / n - ∫ s, (1 - f s) ∂D = -((∑ i, f (z i ω)) / n - ∫ s, f s ∂D) := fun ω => by
    rw [integral_sub (integrable_const _) hint, Finset.sum_sub_distrib]
    simp only [Finset.sum_const, Finset.card_univ, Fintype.card_fin, nsmul_eq_mul, mul_one, integral_const, probReal_univ, smul_eq_mul]
    field_simp
    ring
  simp only [e] at h2
  calc μ.real {ω | ε ≤ |(∑ i, f (z i ω)) / n - ∫ s, f s ∂D|}
      ≤ μ.real ({ω | ε ≤ (∑ i, f (z i ω)) / n - ∫ s, f s ∂D} ∪ {ω | ε ≤ -((∑ i, f (z i ω)) / n - ∫ s, f s ∂D)}) :=
        measureReal_mono (fun ω hω => by
          have : ε ≤ |(∑ i, f (z i ω)) / n - ∫ s, f s ∂D| := hω
          exact le_abs.1 this)
    _ ≤ _ := measureReal_union_le _ _
    _ ≤ _ := by rw [two_mul]; exact add_le_add h1 h2

end Mean

/-! ### The accuracy is the mean score -/

section Score
variable {α : Type} [Flt α]

theorem scoreOf_mem (t : Int) (prec : α) (c : Nat) (p y : Nat → α) : scoreOf t prec c p y ∈ Set.Icc (0 : ℝ) 1 := by
  unfold scoreOf
  split
  · split <;> simp
  · refine ⟨by positivity, div_le_one_of_le₀ ?_ (Nat.cast_nonneg _)⟩
    exact_mod_cast (Finset.card_filter_le _ _).trans (by simp)

theorem cellsWith_sum (r c : Nat) (p : Nat → Nat → Bool) : cellsWith r c p = ∑ i ∈ Finset.range r, ((Finset.range c).filter fun j => p i j).card := by
  unfold cellsWith
  rw [Finset.card_filter, Finset.sum_product]
  exact Finset.sum_congr rfl fun i _ => (Finset.card_filter _ _).symm

/-- The accuracy is a quotient of two whole numbers, and this quotient is the mean score of the rows. -/
theorem accOf_score (t : Int) (ht : t = 0 ∨ t = 1 ∨ t = 2) (prec : α) {r c : Nat} (hc : 0 < c) (P T : Nat → Nat → α) :
    ∃ K N : Nat, accOf t prec r c P T = Flt.ofInt K /. Flt.ofInt N ∧ K ≤ N ∧ (N = r ∨ N = r * c) ∧
      (K : ℝ) / N = (∑ i ∈ Finset.range r, scoreOf t prec c (P i) (T i)) / r := by
  have hc' : (c : ℝ) ≠ 0 := by exact_mod_cast hc.ne'
  have cells : ∀ p : Nat → Nat → Bool, (∀ i j, p i j = entryRight t prec (P i) (T i) j) → t ≠ 1 → cellsWith r c p ≤ r * c ∧
      ((cellsWith r c p : Nat) : ℝ) / ((r * c : Nat) : ℝ) = (∑ i ∈ Finset.range r, scoreOf t prec c (P i) (T i)) / r := by
    intro p hp h1
    constructor
    · exact (Finset.card_filter_le _ _).trans (by simp)
    rw [cellsWith_sum]
    unfold scoreOf
    simp only [if_neg h1, hp]
    rw [← Finset.sum_div]
    push_cast
    rw [div_div, mul_comm (c : ℝ)]
  rcases ht with rfl | rfl | rfl
  · obtain ⟨h1, h2⟩ := cells (fun i j => Flt.lt (Flt.abs (P i j -. T i j)) prec) (fun _ _ => rfl) (by decide)
    exact ⟨_, r * c, by unfold accOf; rw [if_pos rfl]; push_cast; rfl, h1, .inr rfl, h2⟩
  · refine ⟨rowsWith r fun i => Flt.eq (T i (bestCol (P i) c).1) Flt.one, r, rfl, (Finset.card_filter_le _ _).trans (by simp), .inl rfl, ?_⟩
    unfold rowsWith scoreOf
    rw [Finset.card_filter]
    push_cast
    simp
  · obtain ⟨h1, h2⟩ := cells (fun i j => Flt.eq (if Flt.lt (P i j) Flt.half then Flt.zero else Flt.one) (T i j)) (fun _ _ => rfl) (by decide)
    exact ⟨_, r * c, by unfold accOf; rw [if_neg (by decide), if_neg (by decide)]; push_cast; rfl, h1, .inr rfl, h2⟩

theorem netOut_outRow (net : Net α) (X : Nat → Nat → α) (i k : Nat) : netOut net X k i = netOut net (fun _ => X i) k 0 := by
  induction k with
  | zero => rfl
  | succ k ih =>
    funext j
    show infer (net.L k) _ i j = infer (net.L k) _ 0 j
    unfold infer preact
    rw [ih]

variable {Ω Z : Type} [MeasurableSpace Ω] [MeasurableSpace Z]

/-- The accuracy on a data set made of samples. -/
theorem netAcc_score {n : Nat} (net : Net α) (hc : 0 < net.dim net.size) (t : Int) (ht : t = 0 ∨ t = 1 ∨ t = 2) (prec : α) (fx fy : Z → Nat → α)
    (z : Fin n → Ω → Z) (ω : Ω) : ∃ K N : Nat, netAcc net t prec ⟨n, sampleRows fx z ω, sampleRows fy z ω⟩ = Flt.ofInt K /. Flt.ofInt N ∧ K ≤ N ∧
      (N = n ∨ N = n * net.dim net.size) ∧ (K : ℝ) / N = (∑ i, netScore net t prec fx fy (z i ω)) / n := by
  obtain ⟨K, N, h1, h2, h3, h4⟩ := accOf_score t ht prec (r := n) hc (netOut net (sampleRows fx z ω) net.size) (sampleRows fy z ω)
  refine ⟨K, N, h1, h2, h3, h4.trans ?_⟩
  congr 1
  rw [← Fin.sum_univ_eq_sum_range (fun i => scoreOf t prec (net.dim net.size) (netOut net (sampleRows fx z ω) net.size i) (sampleRows fy z ω i))]
  refine Finset.sum_congr rfl fun i _ => ?_
  unfold netScore outRow
  rw [netOut_outRow]
  have e : ∀ f : Z → Nat → α, sampleRows f z ω i = f (z i ω) := fun f => by
    funext j
    unfold sampleRows
    rw [dif_pos i.2]
  rw [e, e]

theorem outRow_sameNet {net net' : Net α} (h : SameNet net net') (x : Nat → α) {j : Nat} (hj : j < net.dim net.size) : outRow net' x j = outRow net x j := by
  unfold outRow
  rw [h.size]
  exact netOut_sameNet h _ _ le_rfl 0 j hj

theorem scoreOf_congr (t : Int) (prec : α) {c : Nat} {p p' : Nat → α} (y : Nat → α) (h : ∀ j, j < c → p j = p' j) :
    scoreOf t prec c p y = scoreOf t prec c p' y := by
  unfold scoreOf
  rw [bestCol_congr c h]
  congr 3
  refine congrArg Finset.card (Finset.filter_congr fun j hj => ?_)
  unfold entryRight
  rw [h j (Finset.mem_range.1 hj)]

theorem netScore_sameNet {net net' : Net α} (h : SameNet net net') (t : Int) (prec : α) (fx fy : Z → Nat → α) :
    netScore net' t prec fx fy = netScore net t prec fx fy := by
  funext s
  unfold netScore
  rw [h.size, h.dim _ le_rfl]
  exact scoreOf_congr t prec _ fun j hj => outRow_sameNet h _ hj

theorem trueAcc_sameNet {net net' : Net α} (h : SameNet net net') (t : Int) (prec : α) (fx fy : Z → Nat → α) (D : Measure Z) :
    trueAcc net' t prec fx fy D = trueAcc net t prec fx fy D := by
  unfold trueAcc
  rw [netScore_sameNet h]

/-- Models with the same layers except for the values of the weights and biases. -/
structure SameArch (net net' : Net α) : Prop where
  size : net'.size = net.size
  dim : ∀ k, k ≤ net.size → net'.dim k = net.dim k
  kind : ∀ k, k < net.size → (net'.L k).kind = (net.L k).kind
  n : ∀ k, k < net.size → (net'.L k).n = (net.L k).n
  o : ∀ k, k < net.size → (net'.L k).o = (net.L k).o
  slope : ∀ k, k < net.size → (net'.L k).slope = (net.L k).slope
  dropout : ∀ k, k < net.size → (net'.L k).dropout = (net.L k).dropout

/-- The model net with other parameters. -/
def netWith (net : Net α) (x : ParamBox net) : Net α :=
  { net with L := fun i => { net.L i with
      W := fun p q => if h : ∃ _ : i < net.size, p < (net.L i).n ∧ q < (net.L i).o then (x ⟨i, h.1⟩).1 (⟨p, h.2.1⟩, ⟨q, h.2.2⟩) else Flt.zero
      b := fun q => if h : ∃ _ : i < net.size, q < (net.L i).o then (x ⟨i, h.1⟩).2 ⟨q, h.2⟩ else Flt.zero } }

theorem netWith_box {net net' : Net α} (h : SameArch net net') (hi : ∀ k, k < net.size → (net.L k).n = net.dim k)
    (ho : ∀ k, k < net.size → (net.L k).o = net.dim (k + 1)) : SameNet (netWith net (boxOf net net')) net' := by
  refine ⟨h.size, h.dim, hi, ho, fun k hk => ⟨h.kind k hk, h.n k hk, h.o k hk, h.slope k hk, h.dropout k hk, fun p q hp hq => ?_, fun q hq => ?_⟩⟩
  · have e : ∃ _ : k < net.size, p < (net.L k).n ∧ q < (net.L k).o := ⟨hk, hp, hq⟩
    show _ = dite _ _ _
    rw [dif_pos e]; rfl
  · have e : ∃ _ : k < net.size, q < (net.L k).o := ⟨hk, hq⟩
    show _ = dite _ _ _
    rw [dif_pos e]; rfl

end Score

/-! ### One model -/

section Test
variable {Ω Z : Type} [MeasurableSpace Ω] [MeasurableSpace Z] {μ : Measure Ω} [IsProbabilityMeasure μ] {D : Measure Z} {n : Nat} {z : Fin n → Ω → Z}

/-- C141 for exact numbers: a model whose parameters do not depend on the samples; the state, the model object and the matrices may.  Except with
probability at most 2 exp(-2nε²), CalculateAccuracy on n independent samples returns no error and a number within ε of the accuracy of the model
on the distribution of the samples. -/
theorem C141_test (h : Samples μ D n z) (hn : 0 < n) (net : Net ℝ) (t : Int) (ht : t = 0 ∨ t = 1 ∨ t = 2) (prec : ℝ) (fx fy : Z → Nat → ℝ)
    (hf : Measurable (netScore net t prec fx fy)) (h0 : 0 < net.size) (hbig : net.dim net.size ≤ 2 ^ 53)
    (w : Ω → World ℝ) (m : Ω → Model ℝ) (net' : Ω → Net ℝ) (X Y : Ω → Mat) (hN : ∀ ω, IsNet (w ω) (m ω) (net' ω)) (hs : ∀ ω, SameNet net (net' ω))
    (hm : ∀ ω, (m ω).accType = t ∧ (m ω).accPrec = prec) (hX : ∀ ω, IsMat (w ω) (X ω) n (net.dim 0) (sampleRows fx z ω))
    (hY : ∀ ω, IsMat (w ω) (Y ω) n (net.dim net.size) (sampleRows fy z ω)) (ε : ℝ) (hε : 0 ≤ ε) :
    μ.real {ω | ¬ wp (calculateAccuracy (m ω) (X ω) (Y ω)) (w ω) fun p _ => p.2 = none ∧ |p.1 - trueAcc net t prec fx fy D| < ε} ≤
      2 * Real.exp (-(2 * n * ε ^ 2)) := by
  refine le_trans (measureReal_mono fun ω hω => ?_) (h.hoeffding hn hf (fun s => scoreOf_mem _ _ _ _ _) hε)
  by_contra hlt
  have hlt : ¬ ε ≤ |(∑ i, netScore net t prec fx fy (z i ω)) / n - ∫ s, netScore net t prec fx fy s ∂D| := hlt
  refine hω ?_
  have hz := (hs ω).size
  have hd := (hs ω).dim
  refine wp_mono (C81_accuracy (w ω) (m ω) (net' ω) (hN ω) (by rw [hz]; exact h0) (by rw [hz, hd _ le_rfl]; exact hbig) (X ω) (Y ω)
    ⟨n, sampleRows fx z ω, sampleRows fy z ω⟩ (by rw [hd _ (Nat.zero_le _)]; exact hX ω) (by rw [hz, hd _ le_rfl]; exact hY ω)) ?_
  rintro p w' ⟨hp, -⟩
  rw [(hm ω).1, (hm ω).2] at hp
  obtain rfl := hp ht
  refine ⟨rfl, ?_⟩
  show |netAcc (net' ω) t prec _ - _| < ε
  rw [netAcc_sameNet (hs ω)]
  obtain ⟨K, N, h1, -, -, h4⟩ := netAcc_score net (hY ω).cpos t ht prec fx fy z ω
  rw [h1]
  show |((K : Int) : ℝ) / ((N : Int) : ℝ) - _| < ε
  rw [Int.cast_natCast, Int.cast_natCast, h4]
  exact not_le.1 hlt

end Test

/-! ### float64 -/

section Float
open F64
variable [Libm] {Ω Z : Type} [MeasurableSpace Ω] [MeasurableSpace Z] {μ : Measure Ω} [IsProbabilityMeasure μ] {D : Measure Z} {n : Nat}
  {z : Fin n → Ω → Z}

/-- The float64 quotient of two counts K ≤ N is a finite number within 2^-52 of the exact one. -/
theorem count_div (K N : Nat) (hK : K ≤ N) (hN : 0 < N) (hb : N ≤ 2 ^ 53) :
    ((Flt.ofInt (K : Int) : F64) /. Flt.ofInt (N : Int)).Finite ∧
      |((Flt.ofInt (K : Int) : F64) /. Flt.ofInt (N : Int)).val - (K : ℝ) / N| < 2 * ueps := by
  have hbI : (N : Int) ≤ 2 ^ 53 := by exact_mod_cast hb
  have hKI : (K : Int) ≤ 2 ^ 53 := le_trans (by exact_mod_cast hK) hbI
  obtain ⟨k1, k2⟩ := f64_int (n := (K : Int)) (by omega) hKI
  obtain ⟨n1, n2⟩ := f64_int (n := (N : Int)) (by omega) hbI
  rw [Int.cast_natCast] at k1 n1
  have hNp : (0 : ℝ) < N := by exact_mod_cast hN
  have hq0 : (0 : ℝ) ≤ (K : ℝ) / N := by positivity
  have hq1 : (K : ℝ) / N ≤ 1 := by rw [div_le_one hNp]; exact_mod_cast hK
  have hb1 : (1 : ℝ) ≤ big := by
    unfold big
    have : (1 : ℝ) ≤ 2 ^ (971 : ℤ) := one_le_zpow₀ (by norm_num) (by norm_num)
    exact le_trans this (le_mul_of_one_le_left (by positivity) (by norm_num))
  obtain ⟨e1, e2⟩ := F64.div_err (x := Flt.ofInt (K : Int)) (y := Flt.ofInt (N : Int)) k2 n2 (by rw [n1]; exact hNp.ne')
    (by rw [k1, n1, abs_of_nonneg hq0]; linarith)
  refine ⟨e1, lt_of_le_of_lt (b := ueps * ((K : ℝ) / N) + tiny) (by rwa [k1, n1, abs_of_nonneg hq0] at e2) ?_⟩
  have hu : 0 < ueps := by unfold ueps; positivity
  have ht : tiny < ueps := by unfold tiny ueps; exact zpow_lt_zpow_right₀ (by norm_num) (by norm_num)
  nlinarith

/-- The float64 accuracy differs from the mean score by less than 2^-52. -/
theorem netAcc_float (net : Net F64) (hn : 0 < n) (hc : 0 < net.dim net.size) (hb : n * net.dim net.size ≤ 2 ^ 53) (t : Int)
    (ht : t = 0 ∨ t = 1 ∨ t = 2) (prec : F64) (fx fy : Z → Nat → F64) (ω : Ω) :
    (netAcc net t prec ⟨n, sampleRows fx z ω, sampleRows fy z ω⟩).Finite ∧
      |(netAcc net t prec ⟨n, sampleRows fx z ω, sampleRows fy z ω⟩).val - (∑ i, netScore net t prec fx fy (z i ω)) / n| < 2 * ueps := by
  obtain ⟨K, N, h1, h2, h3, h4⟩ := netAcc_score net hc t ht prec fx fy z ω
  rw [h1, ← h4]
  have hN : 0 < N := by rcases h3 with h3 | h3 <;> rw [h3]; exacts [hn, Nat.mul_pos hn hc]
  have hN2 : N ≤ 2 ^ 53 := by
    rcases h3 with h3 | h3 <;> rw [h3]
    · exact le_trans (Nat.le_mul_of_pos_right n hc) hb
    · exact hb
  exact count_div K N h2 hN hN2

/-- C141 for float64: the samples may be anything that can be told apart, and the error has 2^-52 for the rounding of the result. -/
theorem C141_float64 [DiscreteMeasurableSpace Z] (h : Samples μ D n z) (hn : 0 < n) (net : Net F64) (t : Int) (ht : t = 0 ∨ t = 1 ∨ t = 2)
    (prec : F64) (fx fy : Z → Nat → F64) (h0 : 0 < net.size) (hbig : n * net.dim net.size ≤ 2 ^ 53)
    (w : Ω → World F64) (m : Ω → Model F64) (net' : Ω → Net F64) (X Y : Ω → Mat) (hN : ∀ ω, IsNet (w ω) (m ω) (net' ω))
    (hs : ∀ ω, SameNet net (net' ω)) (hm : ∀ ω, (m ω).accType = t ∧ (m ω).accPrec = prec)
    (hX : ∀ ω, IsMat (w ω) (X ω) n (net.dim 0) (sampleRows fx z ω)) (hY : ∀ ω, IsMat (w ω) (Y ω) n (net.dim net.size) (sampleRows fy z ω))
    (ε : ℝ) (hε : 0 ≤ ε) :
    μ.real {ω | ¬ wp (calculateAccuracy (m ω) (X ω) (Y ω)) (w ω) fun p _ => p.2 = none ∧ p.1.Finite ∧
        |p.1.val - trueAcc net t prec fx fy D| < ε + 2 * ueps} ≤ 2 * Real.exp (-(2 * n * ε ^ 2)) := by
  refine le_trans (measureReal_mono fun ω hω => ?_) (h.hoeffding hn (Measurable.of_discrete (f := netScore net t prec fx fy))
    (fun s => scoreOf_mem _ _ _ _ _) hε)
  by_contra hlt
  have hlt : ¬ ε ≤ |(∑ i, netScore net t prec fx fy (z i ω)) / n - ∫ s, netScore net t prec fx fy s ∂D| := hlt
  refine hω ?_
  have hz := (hs ω).size
  have hd := (hs ω).dim
  have hc : 0 < net.dim net.size := (hY ω).cpos
  refine wp_mono (C81_accuracy (w ω) (m ω) (net' ω) (hN ω) (by rw [hz]; exact h0)
    (by rw [hz, hd _ le_rfl]; exact le_trans (Nat.le_mul_of_pos_left _ hn) hbig) (X ω) (Y ω)
    ⟨n, sampleRows fx z ω, sampleRows fy z ω⟩ (by rw [hd _ (Nat.zero_le _)]; exact hX ω) (by rw [hz, hd _ le_rfl]; exact hY ω)) ?_
  rintro p w' ⟨hp, -⟩
  rw [(hm ω).1, (hm ω).2] at hp
  obtain rfl := hp ht
  rw [netAcc_sameNet (hs ω)]
  obtain ⟨f1, f2⟩ := netAcc_float (z := z) net hn hc hbig t ht prec fx fy ω
  refine ⟨rfl, f1, lt_of_le_of_lt (abs_sub_le _ ((∑ i, netScore net t prec fx fy (z i ω)) / n) _) ?_⟩
  have := not_le.1 hlt
  unfold trueAcc
  linarith

/-- All the models with the layers of net at once: the probability that one of them has an accuracy on the samples that is not close to its
accuracy on the distribution.  There are 2^(64 P) of them, P the number of their parameters. -/
theorem C141_uniform [DiscreteMeasurableSpace Z] (h : Samples μ D n z) (hn : 0 < n) (net : Net F64)
    (hi : ∀ k, k < net.size → (net.L k).n = net.dim k) (ho : ∀ k, k < net.size → (net.L k).o = net.dim (k + 1)) (t : Int)
    (ht : t = 0 ∨ t = 1 ∨ t = 2) (prec : F64) (fx fy : Z → Nat → F64) (hc : 0 < net.dim net.size) (hbig : n * net.dim net.size ≤ 2 ^ 53)
    (ε : ℝ) (hε : 0 ≤ ε) :
    μ.real {ω | ∃ net', SameArch net net' ∧ ε + 2 * ueps ≤
        |(netAcc net' t prec ⟨n, sampleRows fx z ω, sampleRows fy z ω⟩).val - trueAcc net' t prec fx fy D|} ≤
      2 ^ (64 * net.paramCount) * (2 * Real.exp (-(2 * n * ε ^ 2))) := by
  classical
  have : Fintype (ParamBox net) := Fintype.ofFinite _
  let bad : ParamBox net → Set Ω := fun x => {ω | ε ≤ |(∑ i, netScore (netWith net x) t prec fx fy (z i ω)) / n -
    ∫ s, netScore (netWith net x) t prec fx fy s ∂D|}
  have hbad : ∀ x, μ.real (bad x) ≤ 2 * Real.exp (-(2 * n * ε ^ 2)) := fun x =>
    h.hoeffding hn (Measurable.of_discrete (f := netScore (netWith net x) t prec fx fy)) (fun s => scoreOf_mem _ _ _ _ _) hε
  refine le_trans (measureReal_mono (s₂ := ⋃ x, bad x) fun ω hω => ?_) (le_trans (measureReal_iUnion_fintype_le bad) ?_)
  · obtain ⟨net', hA, hω⟩ := hω
    refine Set.mem_iUnion.2 ⟨boxOf net net', ?_⟩
    have hsm := netWith_box hA hi ho
    rw [netAcc_sameNet hsm, trueAcc_sameNet hsm] at hω
    obtain ⟨-, f2⟩ := netAcc_float (z := z) (netWith net (boxOf net net')) hn hc hbig t ht prec fx fy ω
    have h3 := abs_sub_le (netAcc (netWith net (boxOf net net')) t prec ⟨n, sampleRows fx z ω, sampleRows fy z ω⟩).val
      ((∑ i, netScore (netWith net (boxOf net net')) t prec fx fy (z i ω)) / n) (trueAcc (netWith net (boxOf net net')) t prec fx fy D)
    show ε ≤ |_ - trueAcc (netWith net (boxOf net net')) t prec fx fy D|
    linarith
  · refine le_trans (Finset.sum_le_card_nsmul _ _ _ fun x _ => hbad x) ?_
    rw [nsmul_eq_mul, Finset.card_univ, ← Nat.card_eq_fintype_card, card_paramBox, card_f64, ← pow_mul, Nat.cast_pow, Nat.cast_ofNat]

theorem SameArch.shape {net net' net'' : Net F64} (h : SameArch net net') (hs : SameShape net' net'') : SameArch net net'' := by
  have e : ∀ k, ∃ W b, net''.L k = { net'.L k with W := W, b := b } := hs.layer
  refine ⟨hs.size.trans h.size, fun k hk => by rw [hs.dim]; exact h.dim k hk, fun k hk => ?_, fun k hk => ?_, fun k hk => ?_, fun k hk => ?_, fun k hk => ?_⟩ <;>
    obtain ⟨W, b, e⟩ := hs.layer k <;> rw [e]
  exacts [h.kind k hk, h.n k hk, h.o k hk, h.slope k hk, h.dropout k hk]

/-- C141, training: everything about the training (the weights it starts with, the optimizers, the loss, the number of epochs, the size of the
batches, the random numbers) may depend on the samples in any way, only the layers are fixed.  Except with probability at most
2^(64P) 2 exp(-2nε²), P the number of parameters, Fit on the samples succeeds, and CalculateAccuracy afterwards on the same samples is within
ε + 2^-52 of the accuracy of the trained model on the distribution. -/
theorem C141_trained [DiscreteMeasurableSpace Z] (h : Samples μ D n z) (hn : 0 < n) (net0 : Net F64)
    (hi : ∀ k, k < net0.size → (net0.L k).n = net0.dim k) (ho : ∀ k, k < net0.size → (net0.L k).o = net0.dim (k + 1)) (t : Int)
    (ht : t = 0 ∨ t = 1 ∨ t = 2) (prec : F64) (fx fy : Z → Nat → F64) (hbig : n * net0.dim net0.size ≤ 2 ^ 53)
    (w : Ω → World F64) (m : Ω → Model F64) (net : Ω → Net F64) (op : Ω → Nat → Nat) (S : Ω → Nat → OptSpec F64) (k : Ω → LossKind)
    (X Y xv yv : Ω → Mat) (epochs : Ω → Int) (b : Ω → Nat)
    (hT : ∀ ω, Trains (w ω) (m ω) (net ω) (op ω) (S ω) (k ω) (X ω) (Y ω) n (sampleRows fx z ω) (sampleRows fy z ω))
    (hA : ∀ ω, SameArch net0 (net ω)) (hm : ∀ ω, (m ω).accType = t ∧ (m ω).accPrec = prec) (hb : ∀ ω, n + b ω ≤ 2 ^ 53) (ε : ℝ) (hε : 0 ≤ ε) :
    μ.real {ω | ¬ wp (fit (m ω) (X ω) (Y ω) (epochs ω) (b ω) (xv ω) (yv ω) 0) (w ω) fun e w1 => e = none ∧ ∃ net1, IsNet w1 (m ω) net1 ∧
        wp (calculateAccuracy (m ω) (X ω) (Y ω)) w1 fun p _ => p.2 = none ∧ p.1.Finite ∧
          |p.1.val - trueAcc net1 t prec fx fy D| < ε + 2 * ueps} ≤
      2 ^ (64 * net0.paramCount) * (2 * Real.exp (-(2 * n * ε ^ 2))) := by
  obtain ⟨ω0⟩ : Nonempty Ω := μ.nonempty_of_neZero
  have hc : 0 < net0.dim net0.size := by
    have := (hT ω0).ys.mat.cpos
    rwa [(hA ω0).size, (hA ω0).dim _ le_rfl] at this
  refine le_trans (measureReal_mono fun ω hω => ?_) (C141_uniform h hn net0 hi ho t ht prec fx fy hc hbig ε hε)
  by_contra hlt
  refine hω ?_
  have hω := hT ω
  refine wp_mono (C70_fit (w ω) (m ω) (net ω) (op ω) (S ω) hω.task hω.noSig _ hω.loss rfl (X ω) (Y ω) (xv ω) (yv ω) n _ _ hω.xs.mat hω.ys.mat
    hω.xs.cap hω.ys.cap hω.xs.sep hω.ys.sep (epochs ω) (b ω) (hb ω)) ?_
  rintro e w1 ⟨rfl, net1, S1, -, hT1, hsh, hX1, hY1, -⟩
  have hA1 := (hA ω).shape hsh
  refine ⟨rfl, net1, hT1.isNet, ?_⟩
  refine wp_mono (C81_accuracy w1 (m ω) net1 hT1.isNet hT1.pos
    (by rw [hA1.size, hA1.dim _ le_rfl]; exact le_trans (Nat.le_mul_of_pos_left _ hn) hbig) (X ω) (Y ω)
    ⟨n, sampleRows fx z ω, sampleRows fy z ω⟩ (by rw [hsh.dim]; exact hX1) (by rw [hsh.dim, hsh.size]; exact hY1)) ?_
  rintro p w' ⟨hp, -⟩
  rw [(hm ω).1, (hm ω).2] at hp
  obtain rfl := hp ht
  refine ⟨rfl, (netAcc_float (z := z) net1 hn (by rw [hA1.size, hA1.dim _ le_rfl]; exact hc) (by rw [hA1.size, hA1.dim _ le_rfl]; exact hbig)
    t ht prec fx fy ω).1, not_le.1 fun hle => hlt ⟨net1, hA1, hle⟩⟩

end Float

/-- C141, number of samples: with n ≥ (64 P + j + 1) ln 2 / (2 ε²) samples the bound of `C141_trained` is at most 2^-j. -/
theorem C141_samples (P j n : Nat) (ε : ℝ) (h : (64 * P + j + 1) * Real.log 2 ≤ 2 * n * ε ^ 2) :
    (2 : ℝ) ^ (64 * P) * (2 * Real.exp (-(2 * n * ε ^ 2))) ≤ (1 / 2) ^ j := by
  have h1 : Real.exp (-(2 * n * ε ^ 2)) ≤ (2 ^ (64 * P + j + 1))⁻¹ := by
    have : ((2 : ℝ) ^ (64 * P + j + 1))⁻¹ = Real.exp (-((64 * P + j + 1) * Real.log 2)) := by
      rw [Real.exp_neg, mul_comm (_ : ℝ) (Real.log 2), Real.exp_mul, Real.exp_log (by norm_num), ← Real.rpow_natCast]
      push_cast
      rfl
    rw [this]
    exact Real.exp_le_exp.2 (by linarith)
  calc (2 : ℝ) ^ (64 * P) * (2 * Real.exp (-(2 * n * ε ^ 2))) ≤ 2 ^ (64 * P) * (2 * (2 ^ (64 * P + j + 1))⁻¹) := by gcongr
    _ = (1 / 2) ^ j := by
      rw [pow_succ, pow_add, one_div, inv_pow]
      field_simp

/-! ### The hypotheses can be met -/

section Examples

/-- Independent samples of every distribution exist. -/
theorem exists_samples {Z : Type} [MeasurableSpace Z] (D : Measure Z) [IsProbabilityMeasure D] (n : Nat) :
    Samples (Measure.pi fun _ : Fin n => D) D n fun i ω => ω i :=
  ⟨fun i => measurable_pi_apply i, fun i => (measurePreserving_eval (fun _ => D) i).map_eq, iIndepFun_pi (X := fun _ => id) fun _ => aemeasurable_id⟩

/-- A model with three layers and the samples of every outcome, and its training. -/
theorem exists_sampleTask {α : Type} [Flt α] {Ω Z : Type} {n : Nat} (hn : 0 < n) (z : Fin n → Ω → Z) (fx fy : Z → Nat → α) (prec : α) :
    ∃ (w : Ω → World α) (m : Ω → Model α) (net : Ω → Net α) (op : Ω → Nat → Nat) (S : Ω → Nat → OptSpec α) (X Y : Ω → Mat),
      ∀ ω, Trains (w ω) (m ω) (net ω) (op ω) (S ω) .mse (X ω) (Y ω) n (sampleRows fx z ω) (sampleRows fy z ω) ∧
        (m ω).accType = 2 ∧ (m ω).accPrec = prec ∧ (net ω).size = 3 ∧ (net ω).dim = (fun i => (demoT i : LayerSpec α).n) ∧
        (net ω).L = fun i => { demoT i with kind := if i = 2 then .linear else .hidden } := by
  let o : Optim α := { (Optim.zero .sgd : Optim α) with learningRate := Flt.ofInt 1, decay := Flt.ofInt 0, momentum := Flt.ofInt 0 }
  let L : Nat → LayerSpec α := fun i => { demoT i with kind := if i = 2 then .linear else .hidden }
  have key : ∀ ω, ∃ (w : World α) (m : Model α) (net : Net α) (op : Nat → Nat) (S : Nat → OptSpec α) (X Y : Mat),
      Trains w m net op S .mse X Y n (sampleRows fx z ω) (sampleRows fy z ω) ∧
        m.accType = 2 ∧ m.accPrec = prec ∧ net.size = 3 ∧ net.dim = (fun i => (demoT i : LayerSpec α).n) ∧ net.L = L := fun ω => by
    obtain ⟨w, net, op, XM, YM, xM, yM, -, hs, hL, hdim, hT, dX, dY, -, -⟩ := exists_task (emptyWorld : World α) 3 (by decide) L
      (fun i => demoT_pos (α := α) i) (fun i => demoT_chain (α := α) i)
      { newModel with loss := some ⟨.mse, (L 3).n⟩, accType := 2, accPrec := prec } (optFrom o)
      (OptSpec.fresh (optFrom o)) rfl (fun w p i hlt e => isOpt_optFrom _ _ _ _ _ hlt e) (r := n) (r' := 1) hn (by decide)
      (sampleRows fx z ω) (sampleRows fy z ω) (fun _ _ => Flt.ofInt 1) (fun _ _ => Flt.ofInt 1)
    have hk : ∀ i, (L i).kind ≠ .sigmoid := fun i => by
      show (if i = 2 then LayerKind.linear else .hidden) ≠ .sigmoid
      split <;> decide
    have d0 : net.dim 0 = (L 0).n := by rw [hdim]
    have d1 : net.dim net.size = (L 3).n := by rw [hdim, hs]
    exact ⟨w, _, net, op, _, XM, YM, ⟨hT, by rw [d1]; rfl, fun i _ => by rw [hL]; exact hk i, d0 ▸ dX, d1 ▸ dY⟩, rfl, rfl, hs, hdim, hL⟩
  choose w m net op S X Y h using key
  exact ⟨w, m, net, op, S, X, Y, h⟩

/-- C141_test: every distribution on a set of samples that can be told apart, n > 0 samples, binary accuracy. -/
example {Z : Type} [MeasurableSpace Z] [DiscreteMeasurableSpace Z] (D : Measure Z) [IsProbabilityMeasure D] (n : Nat) (hn : 0 < n)
    (fx fy : Z → Nat → ℝ) : ∃ (net : Net ℝ) (w : (Fin n → Z) → World ℝ) (m : (Fin n → Z) → Model ℝ) (net' : (Fin n → Z) → Net ℝ)
      (X Y : (Fin n → Z) → Mat), 0 < net.size ∧ net.dim net.size ≤ 2 ^ 53 ∧ Measurable (netScore net 2 (1 / 10) fx fy) ∧
      (∀ ω, IsNet (w ω) (m ω) (net' ω)) ∧ (∀ ω, SameNet net (net' ω)) ∧ (∀ ω, (m ω).accType = 2 ∧ (m ω).accPrec = 1 / 10) ∧
      (∀ ω, IsMat (w ω) (X ω) n (net.dim 0) (sampleRows fx (fun i ω => ω i) ω)) ∧
      ∀ ω, IsMat (w ω) (Y ω) n (net.dim net.size) (sampleRows fy (fun i ω => ω i) ω) := by
  obtain ⟨w, m, net, op, S, X, Y, h⟩ := exists_sampleTask hn (fun i (ω : Fin n → Z) => ω i) fx fy (1 / 10)
  obtain ⟨s⟩ : Nonempty Z := D.nonempty_of_neZero
  have e1 := fun ω => (h ω).2.2.2.1
  have e2 := fun ω => (h ω).2.2.2.2.1
  have e3 := fun ω => (h ω).2.2.2.2.2
  have hN := fun ω => (h ω).1.task.isNet
  refine ⟨net fun _ => s, w, m, net, X, Y, by rw [e1]; decide, by rw [e1, e2]; decide, Measurable.of_discrete, hN, fun ω => ?_,
    fun ω => ⟨(h ω).2.1, (h ω).2.2.1⟩, fun ω => ?_, fun ω => ?_⟩
  · exact ⟨(e1 ω).trans (e1 _).symm, fun k _ => by rw [e2, e2], (hN _).ins, (hN _).outs, fun k _ => by rw [e3, e3]; exact SameLayer.refl _⟩
  · rw [e2, ← e2 ω]; exact (h ω).1.xs.mat
  · rw [e1, e2, ← e2 ω, ← e1 ω]; exact (h ω).1.ys.mat

/-- C141_trained (and C141_float64): every distribution, n samples. -/
example [Libm] {Z : Type} [MeasurableSpace Z] (D : Measure Z) [IsProbabilityMeasure D] (n : Nat) (hn : 0 < n)
    (hb : n * (demoT 3 : LayerSpec F64).n ≤ 2 ^ 53) (fx fy : Z → Nat → F64) (prec : F64) :
    ∃ (net0 : Net F64) (w : (Fin n → Z) → World F64) (m : (Fin n → Z) → Model F64) (net : (Fin n → Z) → Net F64)
      (op : (Fin n → Z) → Nat → Nat) (S : (Fin n → Z) → Nat → OptSpec F64) (X Y : (Fin n → Z) → Mat),
      (∀ k, k < net0.size → (net0.L k).n = net0.dim k) ∧ (∀ k, k < net0.size → (net0.L k).o = net0.dim (k + 1)) ∧
      n * net0.dim net0.size ≤ 2 ^ 53 ∧ (∀ ω, Trains (w ω) (m ω) (net ω) (op ω) (S ω) .mse (X ω) (Y ω) n
        (sampleRows fx (fun i ω => ω i) ω) (sampleRows fy (fun i ω => ω i) ω)) ∧ (∀ ω, SameArch net0 (net ω)) ∧
      (∀ ω, SameNet net0 (net ω)) ∧ ∀ ω, (m ω).accType = 2 ∧ (m ω).accPrec = prec := by
  obtain ⟨w, m, net, op, S, X, Y, h⟩ := exists_sampleTask hn (fun i (ω : Fin n → Z) => ω i) fx fy prec
  obtain ⟨s⟩ : Nonempty Z := D.nonempty_of_neZero
  have e1 := fun ω => (h ω).2.2.2.1
  have e2 := fun ω => (h ω).2.2.2.2.1
  have e3 := fun ω => (h ω).2.2.2.2.2
  have hN := fun ω => (h ω).1.task.isNet
  exact ⟨net fun _ => s, w, m, net, op, S, X, Y, (hN _).ins, (hN _).outs, by rw [e1, e2]; exact hb, fun ω => (h ω).1,
    fun ω => ⟨(e1 ω).trans (e1 _).symm, fun k _ => by rw [e2, e2], fun k _ => by rw [e3, e3], fun k _ => by rw [e3, e3], fun k _ => by rw [e3, e3],
      fun k _ => by rw [e3, e3], fun k _ => by rw [e3, e3]⟩,
    fun ω => ⟨(e1 ω).trans (e1 _).symm, fun k _ => by rw [e2, e2], (hN _).ins, (hN _).outs, fun k _ => by rw [e3, e3]; exact SameLayer.refl _⟩,
    fun ω => ⟨(h ω).2.1, (h ω).2.2.1⟩⟩

/-- C141_samples: 1000 parameters, an error of one percent, and probability 2^-20: 3.3 · 10^8 samples are enough. -/
example : (64 * (1000 : Nat) + (20 : Nat) + 1) * Real.log 2 ≤ 2 * (330000000 : Nat) * (1 / 100 : ℝ) ^ 2 := by
  have := Real.log_two_lt_d9
  push_cast
  norm_num
  linarith

end Examples
end NN
