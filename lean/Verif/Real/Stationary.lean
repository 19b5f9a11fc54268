import Verif.Real.Smooth
import Verif.Spec.Descend
/-
One step of gradient descent on a network whose parameters stay bounded and whose ReLU units stay on their sides.
-/

namespace NN
open Finset

section
variable (net : Net ℝ) (A : Nat → Nat → ℝ)

/-- A width that no layer exceeds. -/
def wide : Nat := ∑ l ∈ range net.size, ((net.L l).n + (net.L l).o)

theorem n_le_wide {l : Nat} (hl : l < net.size) : (net.L l).n ≤ wide net :=
  (Nat.le_add_right _ _).trans (Finset.single_le_sum (f := fun l => (net.L l).n + (net.L l).o) (fun _ _ => Nat.zero_le _) (mem_range.2 hl))

theorem o_le_wide {l : Nat} (hl : l < net.size) : (net.L l).o ≤ wide net :=
  (Nat.le_add_left _ _).trans (Finset.single_le_sum (f := fun l => (net.L l).n + (net.L l).o) (fun _ _ => Nat.zero_le _) (mem_range.2 hl))

/-- The factors by which the activations of the network multiply its pre-activations. -/
noncomputable def factors (l i j : Nat) : ℝ :=
  match (net.L l).kind with
  | .hidden => if 0 < preact (net.L l) (netOut net A l) i j then 1 else 0
  | .leaky => if preact (net.L l) (netOut net A l) i j < 0 then (net.L l).slope else 1
  | _ => 1

/-- A network with the layers of `net` but other parameters. -/
structure LikeNet (net' : Net ℝ) : Prop where
  size : net'.size = net.size
  dim : net'.dim = net.dim
  layer : ∀ l, l < net.size → ∃ W b, net'.L l = { net.L l with W := W, b := b }

/-- The vector of parameters. -/
def parOf (net' : Net ℝ) : ParIdx net.size (wide net) → ℝ :=
  parPack net.size (wide net) (fun l => (net.L l).n) (fun l => (net.L l).o) (fun l => (net'.L l).W) (fun l => (net'.L l).b)

/-- The pre-activations with the factors of `net` and other parameters. -/
noncomputable def facPre (θ : ParIdx net.size (wide net) → ℝ) (l : Nat) : Nat → Nat → ℝ :=
  maskPre (fun l => (net.L l).n) θ l
    (maskOut (fun l => (net.L l).n) (fun l => (net.L l).o) (fun l => (net.L l).kind = .softmax) (factors net A) A θ l)

/-- The outputs of the layers with the factors of `net` and other parameters. -/
noncomputable def facOut (θ : ParIdx net.size (wide net) → ℝ) (l : Nat) : Nat → Nat → ℝ :=
  maskOut (fun l => (net.L l).n) (fun l => (net.L l).o) (fun l => (net.L l).kind = .softmax) (factors net A) A θ l

variable {net A}

theorem parOf_W (net' : Net ℝ) {l k j : Nat} (hl : l < net.size) (hk : k < (net.L l).n) (hj : j < (net.L l).o) :
    parRead (parOf net net') l k j = (net'.L l).W k j :=
  parRead_packW (n := fun l => (net.L l).n) (o := fun l => (net.L l).o) _ _ hl (n_le_wide net hl) (o_le_wide net hl) hk hj

theorem parOf_b (net' : Net ℝ) {l j : Nat} (hl : l < net.size) (hj : j < (net.L l).o) :
    parRead (parOf net net') l (wide net) j = (net'.L l).b j :=
  parRead_packB (n := fun l => (net.L l).n) (o := fun l => (net.L l).o) _ _ hl (o_le_wide net hl) hj

/-- With every unit on the side it has in `net`, a network computes what its parameters give with the factors of `net`. -/
theorem LikeNet.out (hc : Covered net) (hins : ∀ i, i < net.size → (net.L i).n = net.dim i)
    (houts : ∀ i, i < net.size → (net.L i).o = net.dim (i + 1)) {net' : Net ℝ} (h : LikeNet net net') {r : Nat}
    (hs : ∀ l, l < net.size → (net.L l).kind = .hidden ∨ (net.L l).kind = .leaky → ∀ i j, i < r → j < (net.L l).o →
      preact (net'.L l) (netOut net' A l) i j = facPre net A (parOf net net') l i j →
      0 < facPre net A (parOf net net') l i j * preact (net.L l) (netOut net A l) i j) :
    ∀ l, l ≤ net.size → (∀ i j, i < r → j < net.dim l → netOut net' A l i j = facOut net A (parOf net net') l i j) ∧
      (l < net.size → ∀ i j, i < r → j < (net.L l).o → preact (net'.L l) (netOut net' A l) i j = facPre net A (parOf net net') l i j) := by
  have pre : ∀ l, l < net.size → (∀ i j, i < r → j < net.dim l → netOut net' A l i j = facOut net A (parOf net net') l i j) →
      ∀ i j, i < r → j < (net.L l).o → preact (net'.L l) (netOut net' A l) i j = facPre net A (parOf net net') l i j := by
    intro l hl ih i j hi hj
    obtain ⟨W, b, e⟩ := h.layer l hl
    rw [preact_real]
    unfold facPre maskPre
    rw [parOf_b net' hl hj, show (net'.L l).n = (net.L l).n by rw [e]]
    congr 1
    refine Finset.sum_congr rfl fun k hk => ?_
    have hk := mem_range.1 hk
    rw [parOf_W net' hl hk hj, ih i k hi (by rw [← hins l hl]; exact hk)]
    rfl
  intro l
  induction l with
  | zero => exact fun _ => ⟨fun i j _ _ => rfl, fun hl => pre 0 hl fun i j _ _ => rfl⟩
  | succ l ih =>
    intro hl
    obtain ⟨ih1, ih2⟩ := ih (by omega)
    have ih2 := ih2 (by omega)
    have main : ∀ i j, i < r → j < net.dim (l + 1) → netOut net' A (l + 1) i j = facOut net A (parOf net net') (l + 1) i j := by
      intro i j hi hj
      rw [← houts l (by omega)] at hj
      obtain ⟨W, b, e⟩ := h.layer l (by omega)
      have ek : (net'.L l).kind = (net.L l).kind := by rw [e]
      have eo : (net'.L l).o = (net.L l).o := by rw [e]
      have es : (net'.L l).slope = (net.L l).slope := by rw [e]
      show actRow (net'.L l).kind (net'.L l).slope (net'.L l).o (preact (net'.L l) (netOut net' A l) i) j =
        (if (net.L l).kind = .softmax then Real.exp (facPre net A (parOf net net') l i j) /
          ∑ q ∈ range (net.L l).o, Real.exp (facPre net A (parOf net net') l i q)
        else facPre net A (parOf net net') l i j * factors net A l i j)
      rw [ek, eo, es]
      have hz := hs l (by omega)
      have hij := ih2 i j hi hj
      rcases hc.2 l (by omega) with hk | hk | ⟨hk, -⟩ | hk
      · rw [hk, if_neg (by decide)]
        simp only [actRow, factors, hk, mul_one]
        exact hij
      · have := hz (.inl hk) i j hi hj hij
        rw [← hij] at this ⊢
        rw [hk, if_neg (by decide)]
        simp only [actRow, factors, hk, Flt.zero, real_ofInt, Int.cast_zero, real_max]
        split
        · rename_i hp
          rw [mul_one, max_eq_left]
          exact (pos_of_mul_pos_left this hp.le).le
        · rename_i hp
          rw [mul_zero, max_eq_right]
          by_contra hn
          push Not at hn hp
          have := mul_nonpos_of_nonneg_of_nonpos hn.le hp
          linarith
      · have := hz (.inr hk) i j hi hj hij
        rw [← hij] at this ⊢
        rw [hk, if_neg (by decide)]
        simp only [actRow, factors, hk, Flt.zero, real_ofInt, Int.cast_zero, real_lt, decide_eq_true_eq]
        split
        · rename_i hp
          rw [if_pos]
          · rfl
          · by_contra hn
            push Not at hn
            have := mul_nonpos_of_nonpos_of_nonneg hp.le hn
            linarith
        · rename_i hp
          rw [if_neg, mul_one]
          intro hn
          push Not at hp
          have := mul_nonpos_of_nonneg_of_nonpos hp hn.le
          linarith
      · rw [hk, if_pos rfl]
        simp only [actRow, fsum_real, real_exp, real_div]
        rw [hij]
        congr 1
        exact Finset.sum_congr rfl fun q hq => by rw [ih2 i q hi (mem_range.1 hq)]
    exact ⟨main, fun hl' => pre _ hl' main⟩

theorem SameSides.out (hc : Covered net) (hins : ∀ i, i < net.size → (net.L i).n = net.dim i)
    (houts : ∀ i, i < net.size → (net.L i).o = net.dim (i + 1)) {net' : Net ℝ} (h : LikeNet net net') {r : Nat} (hs : SameSides net net' r A) :
    ∀ l, l ≤ net.size → (∀ i j, i < r → j < net.dim l → netOut net' A l i j = facOut net A (parOf net net') l i j) ∧
      (l < net.size → ∀ i j, i < r → j < (net.L l).o → preact (net'.L l) (netOut net' A l) i j = facPre net A (parOf net net') l i j) :=
  h.out hc hins houts fun l hl hk i j hi hj e => by
    rw [← e]
    exact hs l hl hk i j hi (by rw [← houts l hl]; exact hj)

/-- The signs of the pre-activations with the factors of `net` are those of `net`. -/
def SidesAt (net : Net ℝ) (A : Nat → Nat → ℝ) (r : Nat) (θ : ParIdx net.size (wide net) → ℝ) : Prop :=
  ∀ l, l < net.size → (net.L l).kind = .hidden ∨ (net.L l).kind = .leaky → ∀ i j, i < r → j < (net.L l).o →
    0 < facPre net A θ l i j * preact (net.L l) (netOut net A l) i j

theorem SidesAt.out (hc : Covered net) (hins : ∀ i, i < net.size → (net.L i).n = net.dim i)
    (houts : ∀ i, i < net.size → (net.L i).o = net.dim (i + 1)) {net' : Net ℝ} (h : LikeNet net net') {r : Nat}
    (hs : SidesAt net A r (parOf net net')) :
    (∀ i j, i < r → j < net.dim net.size → netOut net' A net.size i j = facOut net A (parOf net net') net.size i j) ∧ SameSides net net' r A := by
  have := h.out hc hins houts (A := A) (r := r) fun l hl hk i j hi hj _ => hs l hl hk i j hi hj
  refine ⟨(this net.size le_rfl).1, fun l hl hk i j hi hj => ?_⟩
  rw [← houts l hl] at hj
  rw [(this l hl.le).2 hl i j hi hj]
  exact hs l hl hk i j hi hj

theorem SameSides.at (hc : Covered net) (hins : ∀ i, i < net.size → (net.L i).n = net.dim i)
    (houts : ∀ i, i < net.size → (net.L i).o = net.dim (i + 1)) {net' : Net ℝ} (h : LikeNet net net') {r : Nat} (hs : SameSides net net' r A) :
    SidesAt net A r (parOf net net') := by
  intro l hl hk i j hi hj
  rw [← (hs.out hc hins houts h l hl.le).2 hl i j hi hj]
  exact hs l hl hk i j hi (by rw [← houts l hl]; exact hj)

theorem contDiff_facOut (ho : ∀ l, l < net.size → 0 < (net.L l).o) (l : Nat) (hl : l ≤ net.size) :
    ∀ i j, ContDiff ℝ 2 (fun θ => facOut net A θ l i j) := by
  induction l with
  | zero => exact fun i j => contDiff_const
  | succ l ih =>
    intro i j
    have hp := contDiff_maskPre (s := net.size) (N := wide net) (fun l => (net.L l).n) (ih (by omega)) l
    show ContDiff ℝ 2 (fun θ => if (net.L l).kind = .softmax then _ else _)
    by_cases hs : (net.L l).kind = .softmax
    · simp only [if_pos hs]
      refine (hp i j).exp.div (ContDiff.sum fun q _ => (hp i q).exp) fun θ => ?_
      exact (Finset.sum_pos (fun q _ => Real.exp_pos _) ⟨0, mem_range.2 (ho l (by omega))⟩).ne'
    · simp only [if_neg hs]
      exact (hp i j).mul contDiff_const

theorem SidesAt.eventually (ho : ∀ l, l < net.size → 0 < (net.L l).o) {r : Nat} {θ : ParIdx net.size (wide net) → ℝ}
    (h : SidesAt net A r θ) : ∀ᶠ θ' in nhds θ, SidesAt net A r θ' := by
  have key : ∀ l ∈ range net.size, ∀ i ∈ range r, ∀ j ∈ range (net.L l).o, ∀ᶠ θ' in nhds θ, (net.L l).kind = .hidden ∨ (net.L l).kind = .leaky →
      0 < facPre net A θ' l i j * preact (net.L l) (netOut net A l) i j := by
    intro l hl i hi j hj
    by_cases hk : (net.L l).kind = .hidden ∨ (net.L l).kind = .leaky
    · have hc : Continuous (fun θ' => facPre net A θ' l i j * preact (net.L l) (netOut net A l) i j) :=
        ((contDiff_maskPre (s := net.size) (N := wide net) (fun l => (net.L l).n)
          (contDiff_facOut ho l (mem_range.1 hl).le) l i j).continuous).mul continuous_const
      exact (hc.continuousAt.eventually (lt_mem_nhds (h l (mem_range.1 hl) hk i j (mem_range.1 hi) (mem_range.1 hj)))).mono fun _ h _ => h
    · exact Filter.Eventually.of_forall fun _ h => absurd h hk
  have := (Finset.eventually_all _).2 fun l hl => (Finset.eventually_all _).2 fun i hi => (Finset.eventually_all _).2 (key l hl i hi)
  refine this.mono fun θ' h' l hl hk i j hi hj => h' l (mem_range.2 hl) i (mem_range.2 hi) j (mem_range.2 hj) hk

/-- The objective with the factors of `net` and other parameters. -/
noncomputable def facObj (net : Net ℝ) (loss : LossKind) (r : Nat) (A B : Nat → Nat → ℝ) (θ : ParIdx net.size (wide net) → ℝ) : ℝ :=
  objective loss r (net.dim net.size) (facOut net A θ net.size) B

theorem objective_agree {loss : LossKind} {r c : Nat} {P P' Y : Nat → Nat → ℝ} (h : ∀ i j, i < r → j < c → P i j = P' i j) :
    objective loss r c P Y = objective loss r c P' Y := by
  have e : ∀ (f : ℝ → ℝ → ℝ), ∀ i ∈ range r, ∑ j ∈ range c, f (P i j) (Y i j) = ∑ j ∈ range c, f (P' i j) (Y i j) := fun f i hi =>
    Finset.sum_congr rfl fun j hj => by rw [h i j (mem_range.1 hi) (mem_range.1 hj)]
  cases loss
  · exact Finset.sum_congr rfl fun i hi => by rw [e (fun p y => (p - y) ^ 2) i hi]
  · exact Finset.sum_congr rfl fun i hi => by rw [e (fun p y => |p - y|) i hi]
  · exact congrArg (· / (r : ℝ)) (Finset.sum_congr rfl fun i hi => by rw [e (fun p y => p * y) i hi])
  · exact congrArg (· / ((r : ℝ) * c)) (Finset.sum_congr rfl fun i hi =>
      e (fun p y => -(y * Real.log p + (1 - y) * Real.log (1 - p))) i hi)

theorem facOut_soft_pos (h0 : 0 < net.size) (ho : ∀ l, l < net.size → 0 < (net.L l).o) (hk : (net.L (net.size - 1)).kind = .softmax)
    (θ : ParIdx net.size (wide net) → ℝ) (i j : Nat) : 0 < facOut net A θ net.size i j := by
  obtain ⟨l, hl⟩ : ∃ l, net.size = l + 1 := ⟨net.size - 1, by omega⟩
  rw [hl, Nat.add_sub_cancel] at hk
  have e : facOut net A θ net.size i j = facOut net A θ (l + 1) i j := congrArg (fun q => facOut net A θ q i j) hl
  rw [e]
  show 0 < (if (net.L l).kind = .softmax then _ else _)
  rw [if_pos hk]
  exact div_pos (Real.exp_pos _) (Finset.sum_pos (fun q _ => Real.exp_pos _) ⟨0, mem_range.2 (ho l (by omega))⟩)

theorem oneHotRow_sum {c q : Nat} (hq : q < c) {P Y : Nat → ℝ} (hY : ∀ j, j < c → Y j = if j = q then 1 else 0) :
    ∑ j ∈ range c, P j * Y j = P q := by
  rw [Finset.sum_eq_single q]
  · rw [hY q hq, if_pos rfl, mul_one]
  · intro j hj hne
    rw [hY j (mem_range.1 hj), if_neg hne, mul_zero]
  · intro h; exact absurd (mem_range.2 hq) h

theorem contDiff_facObj (h0 : 0 < net.size) (ho : ∀ l, l < net.size → 0 < (net.L l).o) {loss : LossKind} {r : Nat} {B : Nat → Nat → ℝ}
    (hl : SmoothLoss net loss r B) : ContDiff ℝ 2 (facObj net loss r A B) := by
  have hV := contDiff_facOut (A := A) ho net.size le_rfl
  rcases hl with rfl | ⟨rfl, hk, lab, hlab⟩
  · show ContDiff ℝ 2 (fun θ => ∑ i ∈ range r, (∑ j ∈ range (net.dim net.size), (facOut net A θ net.size i j - B i j) ^ 2) / (net.dim net.size : ℝ))
    exact ContDiff.sum fun i _ => (ContDiff.sum fun j _ => ((hV i j).sub contDiff_const).pow 2).div_const _
  · show ContDiff ℝ 2 (fun θ => (∑ i ∈ range r, -Real.log (∑ j ∈ range (net.dim net.size), facOut net A θ net.size i j * B i j)) / (r : ℝ))
    refine (ContDiff.sum fun i hi => ?_).div_const _
    obtain ⟨hq, hY⟩ := hlab i (mem_range.1 hi)
    simp only [oneHotRow_sum hq hY]
    exact ((hV i (lab i)).log fun θ => (facOut_soft_pos h0 ho hk θ i (lab i)).ne').neg

/-! ### One step -/

theorem NetCurve.pair_down (net : Net ℝ) (dW : Nat → Nat → Nat → ℝ) (dB : Nat → Nat → ℝ) :
    (NetCurve.down net dW dB).pair dW dB = -gradSq net dW dB := by
  unfold NetCurve.pair NetCurve.down gradSq
  rw [← Finset.sum_neg_distrib]
  refine Finset.sum_congr rfl fun l _ => ?_
  rw [neg_add, ← Finset.sum_neg_distrib, ← Finset.sum_neg_distrib]
  congr 1
  · refine Finset.sum_congr rfl fun k _ => ?_
    rw [← Finset.sum_neg_distrib]
    exact Finset.sum_congr rfl fun j _ => by dsimp only; ring
  · exact Finset.sum_congr rfl fun j _ => by dsimp only; ring

theorem LikeNet.gradSq_eq {net' : Net ℝ} (h : LikeNet net net') (dW : Nat → Nat → Nat → ℝ) (dB : Nat → Nat → ℝ) :
    gradSq net' dW dB = gradSq net dW dB := by
  unfold gradSq
  rw [h.size]
  refine Finset.sum_congr rfl fun l hl => ?_
  obtain ⟨W, b, e⟩ := h.layer l (mem_range.1 hl)
  rw [e]

theorem gradSq_layer_nonneg (dW : Nat → Nat → Nat → ℝ) (dB : Nat → Nat → ℝ) (l : Nat) :
    0 ≤ (∑ k ∈ range (net.L l).n, ∑ j ∈ range (net.L l).o, dW l k j ^ 2) + ∑ j ∈ range (net.L l).o, dB l j ^ 2 :=
  add_nonneg (Finset.sum_nonneg fun _ _ => Finset.sum_nonneg fun _ _ => sq_nonneg _) (Finset.sum_nonneg fun _ _ => sq_nonneg _)

theorem gradSq_nonneg (net : Net ℝ) (dW : Nat → Nat → Nat → ℝ) (dB : Nat → Nat → ℝ) : 0 ≤ gradSq net dW dB :=
  Finset.sum_nonneg fun l _ => gradSq_layer_nonneg dW dB l

theorem le_gradSq {dW : Nat → Nat → Nat → ℝ} {dB : Nat → Nat → ℝ} {l : Nat} (hl : l < net.size) :
    (∀ k j, k < (net.L l).n → j < (net.L l).o → dW l k j ^ 2 ≤ gradSq net dW dB) ∧ ∀ j, j < (net.L l).o → dB l j ^ 2 ≤ gradSq net dW dB := by
  have h1 := Finset.single_le_sum (f := fun l => (∑ k ∈ range (net.L l).n, ∑ j ∈ range (net.L l).o, dW l k j ^ 2) + ∑ j ∈ range (net.L l).o, dB l j ^ 2)
    (fun l _ => gradSq_layer_nonneg dW dB l) (mem_range.2 hl)
  have p1 : 0 ≤ ∑ k ∈ range (net.L l).n, ∑ j ∈ range (net.L l).o, dW l k j ^ 2 :=
    Finset.sum_nonneg fun k _ => Finset.sum_nonneg fun j _ => sq_nonneg _
  have p2 : 0 ≤ ∑ j ∈ range (net.L l).o, dB l j ^ 2 := Finset.sum_nonneg fun j _ => sq_nonneg _
  refine ⟨fun k j hk hj => ?_, fun j hj => ?_⟩
  · have a := Finset.single_le_sum (f := fun j => dW l k j ^ 2) (fun _ _ => sq_nonneg _) (mem_range.2 hj)
    have b := Finset.single_le_sum (f := fun k => ∑ j ∈ range (net.L l).o, dW l k j ^ 2) (fun k _ => Finset.sum_nonneg fun j _ => sq_nonneg _)
      (mem_range.2 hk)
    exact (a.trans b).trans ((le_add_of_nonneg_right p2).trans h1)
  · have a := Finset.single_le_sum (f := fun j => dB l j ^ 2) (fun _ _ => sq_nonneg _) (mem_range.2 hj)
    exact a.trans ((le_add_of_nonneg_left p1).trans h1)

/-- The vector of a gradient. -/
def parGrad (net : Net ℝ) (dW : Nat → Nat → Nat → ℝ) (dB : Nat → Nat → ℝ) : ParIdx net.size (wide net) → ℝ :=
  parPack net.size (wide net) (fun l => (net.L l).n) (fun l => (net.L l).o) dW dB

theorem parGrad_norm (dW : Nat → Nat → Nat → ℝ) (dB : Nat → Nat → ℝ) : ‖parGrad net dW dB‖ ^ 2 ≤ gradSq net dW dB := by
  have h : ‖parGrad net dW dB‖ ≤ Real.sqrt (gradSq net dW dB) :=
    parPack_norm (Real.sqrt_nonneg _) (fun l k j hl hk hj => Real.abs_le_sqrt ((le_gradSq hl).1 k j hk hj))
      fun l j hl hj => Real.abs_le_sqrt ((le_gradSq hl).2 j hj)
  calc ‖parGrad net dW dB‖ ^ 2 ≤ Real.sqrt (gradSq net dW dB) ^ 2 := by gcongr
    _ = _ := Real.sq_sqrt (gradSq_nonneg _ _ _)

theorem ParamsIn.norm {net' : Net ℝ} (h : LikeNet net net') {R : ℝ} (hR : 0 ≤ R) (hp : ParamsIn net' R) : ‖parOf net net'‖ ≤ R := by
  have e : ∀ l, l < net.size → (net'.L l).n = (net.L l).n ∧ (net'.L l).o = (net.L l).o := by
    intro l hl
    obtain ⟨W, b, e⟩ := h.layer l hl
    rw [e]; exact ⟨rfl, rfl⟩
  refine parPack_norm hR (fun l k j hl hk hj => ?_) fun l j hl hj => ?_
  · exact (hp l (h.size.symm ▸ hl)).1 k j ((e l hl).1.symm ▸ hk) ((e l hl).2.symm ▸ hj)
  · exact (hp l (h.size.symm ▸ hl)).2 j ((e l hl).2.symm ▸ hj)

theorem LikeNet.down {net' : Net ℝ} (h : LikeNet net net') (dW : Nat → Nat → Nat → ℝ) (dB : Nat → Nat → ℝ) (t : ℝ) :
    LikeNet net ((NetCurve.down net' dW dB).at t) ∧ parOf net ((NetCurve.down net' dW dB).at t) = parOf net net' - t • parGrad net dW dB := by
  refine ⟨⟨h.size, h.dim, fun l hl => ?_⟩, parPack_sub _ _ _ _ t⟩
  obtain ⟨W, b, e⟩ := h.layer l hl
  refine ⟨(NetCurve.down net' dW dB).Wt l t, (NetCurve.down net' dW dB).bt l t, ?_⟩
  show { net'.L l with W := (NetCurve.down net' dW dB).Wt l t, b := (NetCurve.down net' dW dB).bt l t } = _
  rw [e]

/-- What `step_bound` needs: a network of the layers that back-propagation differentiates, a smooth objective. -/
structure SmoothSetup (net : Net ℝ) (loss : LossKind) (r : Nat) (B : Nat → Nat → ℝ) : Prop where
  cov : Covered net
  ins : ∀ i, i < net.size → (net.L i).n = net.dim i
  outs : ∀ i, i < net.size → (net.L i).o = net.dim (i + 1)
  pos : ∀ i, i < net.size → 0 < (net.L i).o
  loss : SmoothLoss net loss r B

theorem SmoothSetup.smoothAt {loss : LossKind} {r : Nat} {B : Nat → Nat → ℝ} (hset : SmoothSetup net loss r B) {net1 : Net ℝ}
    (h1 : LikeNet net net1) (hs : SameSides net net1 r A) : SmoothAt loss r (net1.dim net1.size) (netOut net1 A net1.size) B := by
  rw [h1.size, h1.dim]
  rcases hset.loss with rfl | ⟨rfl, hk, lab, hlab⟩
  · trivial
  · refine ⟨lab, hlab, fun i hi => ?_⟩
    rw [(hs.out hset.cov hset.ins hset.outs h1 net.size le_rfl).1 i _ hi (hlab i hi).1]
    exact facOut_soft_pos hset.cov.1 hset.pos hk _ _ _

theorem SmoothSetup.regular {loss : LossKind} {r : Nat} {B : Nat → Nat → ℝ} (hset : SmoothSetup net loss r B) {net1 : Net ℝ}
    (h1 : LikeNet net net1) (hs : SameSides net net1 r A) : ∀ k, k < net1.size → Regular (net1.L k) r (netOut net1 A k) := by
  intro k hk
  rw [h1.size] at hk
  obtain ⟨W, b, e⟩ := h1.layer k hk
  have ek : (net1.L k).kind = (net.L k).kind := by rw [e]
  have eo : (net1.L k).o = (net.L k).o := by rw [e]
  have es : (net1.L k).slope = (net.L k).slope := by rw [e]
  refine ⟨?_, ?_, ?_, eo.symm ▸ hset.pos k hk⟩
  · rw [ek]
    rcases hset.cov.2 k hk with h | h | ⟨h, -⟩ | h <;> simp [h]
  · rw [ek, es]
    intro e
    rcases hset.cov.2 k hk with h | h | ⟨-, h⟩ | h
    · rw [e] at h; cases h
    · rw [e] at h; cases h
    · exact h
    · rw [e] at h; cases h
  · rw [ek, eo]
    intro e i j hi hj hz
    have := hs k hk e i j hi (by rw [← hset.outs k hk]; exact hj)
    rw [hz, zero_mul] at this
    exact lt_irrefl _ this

theorem LikeNet.wf {net1 : Net ℝ} (h1 : LikeNet net net1) (hins : ∀ i, i < net.size → (net.L i).n = net.dim i)
    (houts : ∀ i, i < net.size → (net.L i).o = net.dim (i + 1)) :
    (∀ i, i < net1.size → (net1.L i).n = net1.dim i) ∧ ∀ i, i < net1.size → (net1.L i).o = net1.dim (i + 1) := by
  rw [h1.size, h1.dim]
  refine ⟨fun i hi => ?_, fun i hi => ?_⟩
  · obtain ⟨W, b, e⟩ := h1.layer i hi
    rw [e]; exact hins i hi
  · obtain ⟨W, b, e⟩ := h1.layer i hi
    rw [e]; exact houts i hi

/-- The derivative of the objective with fixed factors in the direction of the gradient of back-propagation. -/
theorem SmoothSetup.grad {loss : LossKind} {r : Nat} {B : Nat → Nat → ℝ} (hset : SmoothSetup net loss r B) {net1 : Net ℝ}
    (h1 : LikeNet net net1) (hs : SameSides net net1 r A) {m : Model ℝ} (hm : m.lossType = loss.code) {Mk G D : Nat → Nat → Nat → ℝ}
    (hG : NetGrad m net1 loss r (netOut net1 A) Mk B G D) :
    fderiv ℝ (facObj net loss r A B) (parOf net net1) (parGrad net (fun l => gradW r (netOut net1 A l) (G l)) fun l => gradB r (G l) 0) =
      gradSq net (fun l => gradW r (netOut net1 A l) (G l)) fun l => gradB r (G l) 0 := by
  set dW : Nat → Nat → Nat → ℝ := fun l => gradW r (netOut net1 A l) (G l)
  set dB : Nat → Nat → ℝ := fun l => gradB r (G l) 0
  obtain ⟨i1, i2⟩ := h1.wf hset.ins hset.outs
  have hmae : loss ≠ .mae := by
    rcases hset.loss with h | ⟨h, -⟩ <;> rw [h] <;> exact fun h => by cases h
  have hd := hG.deriv (h1.size.symm ▸ hset.cov.1) i1 i2 (fun _ _ => rfl) (hset.regular h1 hs) (fun e => by
    rw [hm] at e
    cases loss <;> first | rfl | exact absurd e (by decide)) (hset.smoothAt h1 hs) (fun e => absurd e hmae) (NetCurve.down net1 dW dB)
  rw [NetCurve.pair_down, h1.gradSq_eq] at hd
  set x := parOf net net1
  set g := parGrad net dW dB
  have hf : DifferentiableAt ℝ (facObj net loss r A B) x :=
    (contDiff_facObj (A := A) hset.cov.1 hset.pos hset.loss).differentiable (by norm_num) x
  have hcurve : HasDerivAt (fun t : ℝ => x - t • g) (-g) 0 := by
    have := ((hasDerivAt_id (0 : ℝ)).smul_const g).const_sub x
    simpa using this
  have hf' : HasFDerivAt (facObj net loss r A B) (fderiv ℝ (facObj net loss r A B) x) (x - (0 : ℝ) • g) := by
    rw [zero_smul, sub_zero]; exact hf.hasFDerivAt
  have h2 := hf'.comp_hasDerivAt (0 : ℝ) hcurve
  have hev : ∀ᶠ t in nhds (0 : ℝ), SidesAt net A r (x - t • g) := by
    have ht : Filter.Tendsto (fun t : ℝ => x - t • g) (nhds 0) (nhds x) := by
      have := hcurve.continuousAt.tendsto
      simpa using this
    exact ht.eventually ((hs.at hset.cov hset.ins hset.outs h1).eventually hset.pos)
  have heq : (fun t => objective loss r (net1.dim net1.size) (netOut ((NetCurve.down net1 dW dB).at t) A net1.size) B) =ᶠ[nhds 0]
      (facObj net loss r A B ∘ fun t : ℝ => x - t • g) := by
    refine hev.mono fun t ht => ?_
    obtain ⟨l1, l2⟩ := h1.down dW dB t
    have ht' : SidesAt net A r (parOf net ((NetCurve.down net1 dW dB).at t)) := by rw [l2]; exact ht
    have := (ht'.out hset.cov hset.ins hset.outs l1).1
    rw [l2] at this
    show objective _ _ _ _ _ = objective _ _ _ _ _
    rw [h1.size, h1.dim]
    exact objective_agree this
  have := h2.unique (hd.congr_of_eventuallyEq heq.symm)
  rw [map_neg] at this
  exact neg_injective this

theorem SmoothSetup.obj {loss : LossKind} {r : Nat} {B : Nat → Nat → ℝ} (hset : SmoothSetup net loss r B) {net1 : Net ℝ}
    (h1 : LikeNet net net1) (hs : SameSides net net1 r A) :
    objective loss r (net.dim net.size) (netOut net1 A net.size) B = facObj net loss r A B (parOf net net1) :=
  objective_agree (hs.out hset.cov hset.ins hset.outs h1 net.size le_rfl).1

/-- One step of gradient descent. -/
theorem SmoothSetup.step {loss : LossKind} {r : Nat} {B : Nat → Nat → ℝ} (hset : SmoothSetup net loss r B) (A : Nat → Nat → ℝ) {R : ℝ} (hR : 0 ≤ R) :
    ∃ C > 0, ∀ net1, LikeNet net net1 → ParamsIn net1 R → SameSides net net1 r A → ∀ (m : Model ℝ) (Mk G D : Nat → Nat → Nat → ℝ),
      m.lossType = loss.code → NetGrad m net1 loss r (netOut net1 A) Mk B G D →
      ‖parGrad net (fun l => gradW r (netOut net1 A l) (G l)) (fun l => gradB r (G l) 0)‖ ≤ C ∧
      ∀ net2, LikeNet net net2 → ParamsIn net2 R → SameSides net net2 r A → ∀ lr : ℝ, 0 < lr → lr * C ≤ 1 / 2 →
        parOf net net2 = parOf net net1 - lr • parGrad net (fun l => gradW r (netOut net1 A l) (G l)) (fun l => gradB r (G l) 0) →
        objective loss r (net.dim net.size) (netOut net2 A net.size) B +
            lr / 2 * gradSq net (fun l => gradW r (netOut net1 A l) (G l)) (fun l => gradB r (G l) 0) ≤
          objective loss r (net.dim net.size) (netOut net1 A net.size) B := by
  obtain ⟨C, hC, hq, hb⟩ := smooth_ball (contDiff_facObj (A := A) hset.cov.1 hset.pos hset.loss) R
  refine ⟨C, hC, fun net1 h1 hp hs m Mk G D hm hG => ?_⟩
  have hgr := hset.grad h1 hs hm hG
  set dW : Nat → Nat → Nat → ℝ := fun l => gradW r (netOut net1 A l) (G l)
  set dB : Nat → Nat → ℝ := fun l => gradB r (G l) 0
  have hn := parGrad_norm (net := net) dW dB
  have hx := hp.norm h1 hR
  have h0 := gradSq_nonneg net dW dB
  refine ⟨?_, fun net2 h2 hp2 hs2 lr hlr hlC e => ?_⟩
  · have a := (fderiv ℝ (facObj net loss r A B) (parOf net net1)).le_opNorm (parGrad net dW dB)
    rw [hgr, Real.norm_eq_abs, abs_of_nonneg h0] at a
    have b := hb _ hx
    by_contra hcon
    push Not at hcon
    have hpos : 0 < ‖parGrad net dW dB‖ := hC.trans hcon
    have : ‖fderiv ℝ (facObj net loss r A B) (parOf net net1)‖ * ‖parGrad net dW dB‖ < ‖parGrad net dW dB‖ ^ 2 := by
      rw [pow_two]
      exact mul_lt_mul_of_pos_right (b.trans_lt hcon) hpos
    linarith
  · have a := hq _ _ hx (hp2.norm h2 hR)
    rw [hset.obj h1 hs, hset.obj h2 hs2]
    rw [e] at a ⊢
    rw [sub_sub_cancel_left, map_neg, map_smul, hgr, norm_neg, norm_smul, Real.norm_eq_abs, abs_of_pos hlr, mul_pow, smul_eq_mul] at a
    have : C * (lr ^ 2 * ‖parGrad net dW dB‖ ^ 2) ≤ lr / 2 * gradSq net dW dB := by
      calc C * (lr ^ 2 * ‖parGrad net dW dB‖ ^ 2) = (lr * C) * (lr * ‖parGrad net dW dB‖ ^ 2) := by ring
        _ ≤ 1 / 2 * (lr * gradSq net dW dB) := by
          refine mul_le_mul hlC (mul_le_mul_of_nonneg_left hn hlr.le) (by positivity) (by norm_num)
        _ = _ := by ring
    linarith

end

end NN
