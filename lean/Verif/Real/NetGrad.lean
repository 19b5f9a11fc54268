import Verif.Spec.NetGrad
import Verif.Spec.Backprop
import Verif.Real.Grad
import Verif.Lemmas.Train
import Verif.Props.C21_C28
/- The chain rule through a whole model. -/

set_option linter.unusedSectionVars false

namespace NN
open Finset Go

/-- The kinds of layers whose backward pass is exact, at points where the activation is differentiable. -/
structure Regular (L : LayerSpec ℝ) (r : Nat) (X : Nat → Nat → ℝ) : Prop where
  kind : L.kind = .linear ∨ L.kind = .hidden ∨ L.kind = .leaky ∨ L.kind = .softmax
  slope : L.kind = .leaky → 0 < L.slope
  ne : L.kind = .hidden ∨ L.kind = .leaky → ∀ i j, i < r → j < L.o → preact L X i j ≠ 0
  pos : 0 < L.o

theorem Regular.actGrad {L : LayerSpec ℝ} {r : Nat} {X : Nat → Nat → ℝ} (h : Regular L r X) (M D G : Nat → Nat → ℝ)
    (hG : ∀ i j, i < r → j < L.o → G i j = actBack L (infer L X) M D i j) :
    ActGrad (actRow L.kind L.slope L.o) r L.o (preact L X) D G := by
  rcases h.kind with hk | hk | hk | hk
  · rw [hk]
    refine actGrad_of_entry (φ := fun x => x) (fun _ _ => rfl) (fun _ _ => 1) (fun i j _ _ => hasDerivAt_id _)
      (fun i j hi hj => ?_)
    rw [hG i j hi hj]; simp [actBack, hk]
  · rw [hk]
    refine actGrad_of_entry (φ := fun x => max x 0) (fun _ _ => by simp [actRow, Flt.zero])
      (fun i j => if preact L X i j ≤ 0 then 0 else 1) (fun i j hi hj => hasDerivAt_relu (h.ne (.inl hk) i j hi hj)) ?_
    intro i j hi hj
    rw [hG i j hi hj]
    simp only [actBack, infer, actRow, hk, real_le, real_max, Flt.zero, real_ofInt, Int.cast_zero, decide_eq_true_eq,
      max_le_iff, le_refl, and_true]
    split <;> simp
  · have hs := h.slope hk
    rw [hk]
    refine actGrad_of_entry (φ := fun x => if x < 0 then x * L.slope else x) (fun _ _ => by simp [actRow, Flt.zero])
      (fun i j => if preact L X i j < 0 then L.slope else 1)
      (fun i j hi hj => hasDerivAt_leaky (h.ne (.inr hk) i j hi hj)) ?_
    intro i j hi hj
    rw [hG i j hi hj]
    simp only [actBack, infer, actRow, hk, real_lt, Flt.zero, real_ofInt, Int.cast_zero, decide_eq_true_eq, real_mul]
    by_cases h : preact L X i j < 0
    · rw [if_pos h, if_pos h, if_pos (mul_neg_of_neg_of_pos h hs)]
    · rw [if_neg h, if_neg h, if_neg h, mul_one]
  · have h1 := actGrad_softmax (r := r) h.pos (Z0 := preact L X) (D := D) L.slope
    have e : infer L X = fun i j => actRow .softmax L.slope L.o (preact L X i) j := by
      funext i j; simp [infer, hk]
    rw [← e] at h1
    rw [hk]
    intro Zt Z' hZ h0
    refine (h1 Zt Z' hZ h0).congr_deriv ?_
    refine Finset.sum_congr rfl fun i hi => Finset.sum_congr rfl fun j hj => ?_
    rw [hG i j (mem_range.1 hi) (mem_range.1 hj)]
    simp only [actBack, hk]
    rfl

theorem Regular.differentiable {L : LayerSpec ℝ} {r : Nat} {X : Nat → Nat → ℝ} (h : Regular L r X) (c : Curve L r X) :
    ∃ P' : Nat → Nat → ℝ, (∀ i j, i < r → j < L.o → HasDerivAt (fun t => infer (c.at t) (c.Xt t) i j) (P' i j) 0) ∧
      ∀ M D G : Nat → Nat → ℝ, (∀ i j, i < r → j < L.o → G i j = actBack L (infer L X) M D i j) →
        ∑ i ∈ range r, ∑ j ∈ range L.o, D i j * P' i j =
          c.pair (gradW r X G) (gradB r G 0) (gradX L G) := by
  have key : ∀ M D G : Nat → Nat → ℝ, (∀ i j, i < r → j < L.o → G i j = actBack L (infer L X) M D i j) →
      HasDerivAt (fun t => ∑ i ∈ range r, ∑ j ∈ range L.o, D i j * infer (c.at t) (c.Xt t) i j)
        (c.pair (gradW r X G) (gradB r G 0) (gradX L G)) 0 := by
    intro M D G hG
    have := h.actGrad M D G hG (fun t => preact (c.at t) (c.Xt t)) c.Z' (fun i j hi hj => c.hZ hi hj)
      (fun i j hi hj => c.Z0 hi hj)
    rw [c.pair_eq G] at this
    exact this
  let E : Nat → Nat → Nat → Nat → ℝ := fun i0 j0 i j => if i = i0 ∧ j = j0 then 1 else 0
  let A : (Nat → Nat → ℝ) → Nat → Nat → ℝ := fun D => actBack L (infer L X) (fun _ _ => 0) D
  refine ⟨fun i j => c.pair (gradW r X (A (E i j))) (gradB r (A (E i j)) 0) (gradX L (A (E i j))), ?_, ?_⟩
  · intro i0 j0 hi hj
    have := key (fun _ _ => 0) (E i0 j0) (A (E i0 j0)) (fun _ _ _ _ => rfl)
    refine this.congr_of_eventuallyEq (Filter.Eventually.of_forall fun t => ?_)
    show _ = ∑ i ∈ range r, ∑ j ∈ range L.o, (if i = i0 ∧ j = j0 then (1 : ℝ) else 0) * infer (c.at t) (c.Xt t) i j
    rw [Finset.sum_eq_single i0, Finset.sum_eq_single j0]
    · simp
    · intro j _ hne; simp [hne]
    · intro h; exact absurd (mem_range.2 hj) h
    · intro i _ hne; simp [hne]
    · intro h; exact absurd (mem_range.2 hi) h
  · intro M D G hG
    refine HasDerivAt.unique ?_ (key M D G hG)
    refine HasDerivAt.fun_sum fun i hi => HasDerivAt.fun_sum fun j hj => ?_
    refine HasDerivAt.const_mul (D i j) ?_
    have hi := mem_range.1 hi
    have hj := mem_range.1 hj
    have := key (fun _ _ => 0) (E i j) (A (E i j)) (fun _ _ _ _ => rfl)
    refine this.congr_of_eventuallyEq (Filter.Eventually.of_forall fun t => ?_)
    show _ = ∑ i' ∈ range r, ∑ j' ∈ range L.o, (if i' = i ∧ j' = j then (1 : ℝ) else 0) * infer (c.at t) (c.Xt t) i' j'
    rw [Finset.sum_eq_single i, Finset.sum_eq_single j]
    · simp
    · intro j _ hne; simp [hne]
    · intro h; exact absurd (mem_range.2 hj) h
    · intro i _ hne; simp [hne]
    · intro h; exact absurd (mem_range.2 hi) h

/-- The derivative of the values after k layers, and what back-propagation makes of it. -/
theorem netOut_deriv {net : Net ℝ} {r : Nat} {X : Nat → Nat → ℝ} (c : NetCurve net)
    (hins : ∀ i, i < net.size → (net.L i).n = net.dim i) (houts : ∀ i, i < net.size → (net.L i).o = net.dim (i + 1))
    (hreg : ∀ k, k < net.size → Regular (net.L k) r (netOut net X k)) (t : Nat) (ht : t ≤ net.size) :
    (∀ i j, i < r → j < net.dim t → netOut (c.at 0) X t i j = netOut net X t i j) ∧
    ∃ V' : Nat → Nat → ℝ,
      (∀ i j, i < r → j < net.dim t → HasDerivAt (fun s => netOut (c.at s) X t i j) (V' i j) 0) ∧
      ∀ (M G D : Nat → Nat → Nat → ℝ),
        (∀ k, k < t → ∀ i j, i < r → j < (net.L k).o →
          G k i j = actBack (net.L k) (netOut net X (k + 1)) (M k) (D (k + 1)) i j) →
        (∀ k, k < t → D k = gradX (net.L k) (G k)) →
        ∑ i ∈ range r, ∑ j ∈ range (net.dim t), D t i j * V' i j =
          ∑ l ∈ range t, ((∑ k ∈ range (net.L l).n, ∑ j ∈ range (net.L l).o,
            gradW r (netOut net X l) (G l) k j * c.W' l k j) +
            ∑ j ∈ range (net.L l).o, gradB r (G l) 0 j * c.b' l j) := by
  induction t with
  | zero =>
    refine ⟨fun _ _ _ _ => rfl, fun _ _ => 0, fun _ _ _ _ => hasDerivAt_const _ _, ?_⟩
    intro M G D _ _
    simp
  | succ t ih =>
    obtain ⟨h0, V', hV, hsum⟩ := ih (by omega)
    have htl : t < net.size := by omega
    have en := hins t htl
    have eo := houts t htl
    let cu : Curve (net.L t) r (netOut net X t) :=
      { Wt := c.Wt t, bt := c.bt t, Xt := fun s => netOut (c.at s) X t, W' := c.W' t, b' := c.b' t, X' := V'
        hW := fun k j hk hj => c.hW t k j htl hk hj
        hb := fun j hj => c.hb t j htl hj
        hX := fun i k hi hk => hV i k hi (by rw [← en]; exact hk)
        W0 := fun k j hk hj => c.W0 t k j htl hk hj
        b0 := fun j hj => c.b0 t j htl hj
        X0 := fun i k hi hk => h0 i k hi (by rw [← en]; exact hk) }
    obtain ⟨P', hP, hpair⟩ := (hreg t htl).differentiable cu
    refine ⟨?_, P', ?_, ?_⟩
    · intro i j hi hj
      have hz : ∀ j, j < (net.L t).o → preact (cu.at 0) (cu.Xt 0) i j = preact (net.L t) (netOut net X t) i j :=
        fun j hj => cu.Z0 hi hj
      show actRow (net.L t).kind (net.L t).slope (net.L t).o (preact (cu.at 0) (cu.Xt 0) i) j =
        actRow (net.L t).kind (net.L t).slope (net.L t).o (preact (net.L t) (netOut net X t) i) j
      have hj' : j < (net.L t).o := by rw [eo]; exact hj
      unfold actRow
      cases (net.L t).kind <;> simp only [hz j hj']
      rw [fsum_real, fsum_real]
      congr 1
      exact Finset.sum_congr rfl fun k hk => by rw [hz k (mem_range.1 hk)]
    · intro i j hi hj
      exact hP i j hi (by rw [eo]; exact hj)
    · intro M G D hG hD
      rw [Finset.sum_range_succ, ← hsum M G D (fun k hk => hG k (by omega)) (fun k hk => hD k (by omega)), ← eo,
        hpair (M t) (D (t + 1)) (G t) (hG t (by omega))]
      unfold Curve.pair
      rw [hD t (by omega), ← en]
      show _ + _ + _ = _ + (_ + _)
      ring

/-! ### The objective -/

theorem abs_deriv {x : ℝ} (h : x ≠ 0) : HasDerivAt (fun y : ℝ => |y|) (if 0 < x then 1 else -1) x := by
  rcases lt_or_gt_of_ne h with h | h
  · rw [if_neg (by linarith)]; exact hasDerivAt_abs_neg h
  · rw [if_pos h]; exact hasDerivAt_abs_pos h

/-- The gradient of the loss is the derivative of the objective, except for the absolute loss of width above 1. -/
theorem objective_deriv {loss : LossKind} {r c : Nat} {P : Nat → Nat → ℝ} {Y : Nat → Nat → ℝ}
    (hs : SmoothAt loss r c P Y) (hm : loss = .mae → c = 1) {Pt : ℝ → Nat → Nat → ℝ} {P' : Nat → Nat → ℝ}
    (hP : ∀ i j, i < r → j < c → HasDerivAt (fun t => Pt t i j) (P' i j) 0)
    (h0 : ∀ i j, i < r → j < c → Pt 0 i j = P i j) :
    HasDerivAt (fun t => objective loss r c (Pt t) Y)
      (∑ i ∈ range r, ∑ j ∈ range c, lossGrad loss r c P Y i j * P' i j) 0 := by
  cases loss with
  | mse =>
    refine HasDerivAt.fun_sum fun i hi => ?_
    have hi := mem_range.1 hi
    have h1 : HasDerivAt (fun t => (∑ j ∈ range c, (Pt t i j - Y i j) ^ 2))
        (∑ j ∈ range c, 2 * (P i j - Y i j) * P' i j) 0 := by
      refine HasDerivAt.fun_sum fun j hj => ?_
      have := ((hP i j hi (mem_range.1 hj)).sub_const (Y i j)).pow 2
      rw [h0 i j hi (mem_range.1 hj)] at this
      refine this.congr_deriv ?_
      simp
    refine (h1.div_const (c : ℝ)).congr_deriv ?_
    rw [Finset.sum_div]
    refine Finset.sum_congr rfl fun j _ => ?_
    simp only [lossGrad, real_mul, real_sub, real_div, real_ofInt, Int.cast_natCast]
    push_cast
    ring
  | mae =>
    obtain rfl := hm rfl
    refine HasDerivAt.fun_sum fun i hi => ?_
    have hi := mem_range.1 hi
    simp only [Finset.sum_range_one]
    have hne : P i 0 - Y i 0 ≠ 0 := sub_ne_zero.2 (hs i 0 hi Nat.one_pos)
    have h1 := (hP i 0 hi Nat.one_pos).sub_const (Y i 0)
    have h2 : HasDerivAt (fun y : ℝ => |y|) (if 0 < P i 0 - Y i 0 then 1 else -1) (Pt 0 i 0 - Y i 0) := by
      rw [h0 i 0 hi Nat.one_pos]; exact abs_deriv hne
    refine ((h2.comp (0 : ℝ) h1).div_const ((1 : ℕ) : ℝ)).congr_deriv ?_
    simp only [lossGrad, real_sub, real_lt, Flt.zero, real_ofInt, Int.cast_zero, decide_eq_true_eq]
    rcases lt_or_gt_of_ne hne with h | h
    · rw [if_neg (by linarith), if_neg (by linarith), if_pos h]; simp
    · rw [if_pos h, if_pos h]; simp
  | ce =>
    obtain ⟨lab, hlab, hpos⟩ := hs
    have e : ∀ t, objective .ce r c (Pt t) Y = (∑ i ∈ range r, -Real.log (Pt t i (lab i))) / r := by
      intro t
      show (∑ i ∈ range r, -Real.log (∑ j ∈ range c, Pt t i j * Y i j)) / (r : ℝ) = _
      congr 1
      exact Finset.sum_congr rfl fun i hi => by rw [oneHot_sum (lab := lab) hlab (Pt t i) (mem_range.1 hi)]
    simp only [e]
    have h1 : HasDerivAt (fun t => ∑ i ∈ range r, -Real.log (Pt t i (lab i)))
        (∑ i ∈ range r, -(P' i (lab i) / P i (lab i))) 0 := by
      refine HasDerivAt.fun_sum fun i hi => ?_
      have hi := mem_range.1 hi
      obtain ⟨hl, -⟩ := hlab i hi
      have := (hP i (lab i) hi hl).log (by rw [h0 i _ hi hl]; exact (hpos i hi).ne')
      rw [h0 i _ hi hl] at this
      exact this.neg
    refine (h1.div_const (r : ℝ)).congr_deriv ?_
    rw [Finset.sum_div]
    refine Finset.sum_congr rfl fun i hi => ?_
    obtain ⟨hl, hY⟩ := hlab i (mem_range.1 hi)
    rw [Finset.sum_eq_single (lab i)]
    · simp only [lossGrad, hY _ hl, if_true, real_div, real_neg, real_ofInt, Int.cast_natCast]
      ring
    · intro j hj hne
      simp [lossGrad, hY j (mem_range.1 hj), hne]
    · intro h; exact absurd (mem_range.2 hl) h
  | bce =>
    have h1 : HasDerivAt (fun t => ∑ i ∈ range r, ∑ j ∈ range c,
        -(Y i j * Real.log (Pt t i j) + (1 - Y i j) * Real.log (1 - Pt t i j)))
        (∑ i ∈ range r, ∑ j ∈ range c, -(Y i j * (P' i j / P i j) + (1 - Y i j) * (-P' i j / (1 - P i j)))) 0 := by
      refine HasDerivAt.fun_sum fun i hi => HasDerivAt.fun_sum fun j hj => ?_
      have hi := mem_range.1 hi
      have hj := mem_range.1 hj
      obtain ⟨p0, p1⟩ := hs i j hi hj
      have a1 := (hP i j hi hj).log (by rw [h0 i j hi hj]; exact p0.ne')
      have a2 := ((hP i j hi hj).const_sub 1).log (by rw [h0 i j hi hj]; linarith)
      rw [h0 i j hi hj] at a1 a2
      exact ((a1.const_mul (Y i j)).add (a2.const_mul (1 - Y i j))).neg
    refine (h1.div_const ((r : ℝ) * c)).congr_deriv ?_
    rw [Finset.sum_div]
    refine Finset.sum_congr rfl fun i hi => ?_
    rw [Finset.sum_div]
    refine Finset.sum_congr rfl fun j hj => ?_
    obtain ⟨p0, p1⟩ := hs i j (mem_range.1 hi) (mem_range.1 hj)
    have hcl : clipped (P i j) = P i j := clipV_id p0.le p1.le
    simp only [lossGrad, hcl, real_div, real_neg, real_sub, real_ofInt, Int.cast_natCast, Flt.one, Int.cast_one]
    have : (1 - P i j) ≠ 0 := by linarith
    have := p0.ne'
    rcases Nat.eq_zero_or_pos r with rfl | hr
    · simp
    rcases Nat.eq_zero_or_pos c with rfl | hc
    · simp
    have hr' : (r : ℝ) ≠ 0 := by exact_mod_cast hr.ne'
    have hc' : (c : ℝ) ≠ 0 := by exact_mod_cast hc.ne'
    field_simp
    ring

/-- For one-hot targets the fused gradient is the gradient of the cross-entropy taken through the softmax. -/
theorem fused_eq {L : LayerSpec ℝ} (hk : L.kind = .softmax) {r : Nat} {P Y M : Nat → Nat → ℝ} {lab : Nat → Nat}
    (hone : OneHot r L.o lab Y) (hpos : ∀ i j, 0 < P i j) {i j : Nat} (hi : i < r) (hj : j < L.o) :
    fusedGrad r P Y i j = actBack L P M (lossGrad .ce r L.o P Y) i j := by
  obtain ⟨ht, hYe⟩ := hone i hi
  have hY1 : Y i (lab i) = 1 := by rw [hYe _ ht, if_pos rfl]
  have hY0 : ∀ j, j < L.o → j ≠ lab i → Y i j = 0 := fun j hj hne => by rw [hYe _ hj, if_neg hne]
  generalize lab i = t at ht hY1 hY0
  have hsum : ∀ k ∈ range L.o, ((if j = k then P i j else 0) - P i j * P i k) * (-(Y i k) / P i k / r) =
      ((if j = k then 1 else 0) - P i j) * (-(Y i k)) / r := by
    intro k _
    have := (hpos i k).ne'
    by_cases e : j = k
    · subst e; simp only [if_true]; field_simp
    · simp only [e, if_false]; field_simp; ring
  simp only [actBack, hk, fusedGrad, lossGrad, fsum_real, real_mul, real_sub, real_div, real_neg, real_ofInt,
    Int.cast_natCast, Finset.sum_range_one, real_eq, decide_eq_true_eq, Flt.zero, Flt.one, Int.cast_zero, Int.cast_one]
  rw [Finset.sum_congr rfl hsum, Finset.sum_eq_single t]
  · rw [hY1]
    by_cases e : j = t
    · subst e; rw [if_pos rfl, if_pos hY1]; ring
    · rw [if_neg e, if_neg (by rw [hY0 j hj e]; simp)]; ring
  · intro k hk hkt
    rw [hY0 k (mem_range.1 hk) hkt]; simp
  · intro h; exact absurd (mem_range.2 ht) h

/-! ### The whole model -/

theorem netComputes_netOut {net : Net ℝ} (hk : ∀ k, k < net.size → (net.L k).kind ≠ .dropout) (r : Nat)
    (X : Nat → Nat → ℝ) : NetComputes net r X (netOut net X net.size) := by
  intro w m x training lp wm bm hN hX
  refine wp_mono (modelForward_spec hN hX training) ?_
  rintro p w' ⟨o, mask, V, M, h1, h2, h3, h4, h5⟩
  refine ⟨h2, o net.size, by rw [h1, List.range_succ]; simp, ?_⟩
  have hv : ∀ k, k ≤ net.size → V k = netOut net X k := by
    intro k
    induction k with
    | zero => intro _; exact h4
    | succ k ih => intro hk'; rw [h5.val k (by exact hk') (fun h => hk k (by omega) h.2), ih (by omega)]; rfl
  rw [← hv _ le_rfl]
  rcases Nat.eq_zero_or_pos net.size with h0 | h0
  · rw [h0, h3, h4]
    exact hX.frame h5.frame (fun h => h) (fun _ _ h => h)
  · have := (h5.res (net.size - 1) (by show _ < net.size; omega)).mat
    rwa [Nat.sub_add_cancel h0] at this

/-- Back-propagation computes the derivative of the objective of the outputs along every curve. -/
theorem NetGrad.deriv {m : Model ℝ} {net : Net ℝ} {loss : LossKind} {r : Nat} {X Y : Nat → Nat → ℝ}
    {V M G D : Nat → Nat → Nat → ℝ} (hG : NetGrad m net loss r V M Y G D) (h0 : 0 < net.size)
    (hins : ∀ i, i < net.size → (net.L i).n = net.dim i) (houts : ∀ i, i < net.size → (net.L i).o = net.dim (i + 1))
    (hV : ∀ k, k ≤ net.size → V k = netOut net X k)
    (hreg : ∀ k, k < net.size → Regular (net.L k) r (netOut net X k))
    (hcode : m.lossType = 2 → loss = .ce)
    (hs : SmoothAt loss r (net.dim net.size) (netOut net X net.size) Y) (hm : loss = .mae → net.dim net.size = 1)
    (c : NetCurve net) : HasDerivAt (fun t => objective loss r (net.dim net.size) (netOut (c.at t) X net.size) Y)
      (c.pair (fun l => gradW r (V l) (G l)) (fun l => gradB r (G l) 0)) 0 := by
  obtain ⟨hz, V', hV', hsum⟩ := netOut_deriv c hins houts hreg net.size le_rfl
  refine (objective_deriv hs hm hV' hz).congr_deriv ?_
  have eo := houts (net.size - 1) (by omega)
  rw [Nat.sub_add_cancel h0] at eo
  have fin : ∀ D' : Nat → Nat → Nat → ℝ, (D' net.size = lossGrad loss r (net.dim net.size) (netOut net X net.size) Y) →
      (∀ k, k < net.size → ∀ i j, i < r → j < (net.L k).o →
          G k i j = actBack (net.L k) (netOut net X (k + 1)) (M k) (D' (k + 1)) i j) →
      (∀ k, k < net.size → D' k = gradX (net.L k) (G k)) →
      ∑ i ∈ range r, ∑ j ∈ range (net.dim net.size), lossGrad loss r (net.dim net.size) (netOut net X net.size) Y i j * V' i j =
        c.pair (fun l => gradW r (V l) (G l)) (fun l => gradB r (G l) 0) := by
    intro D' h1 h2 h3
    have := hsum M G D' h2 h3
    rw [h1] at this
    rw [this]
    unfold NetCurve.pair
    refine Finset.sum_congr rfl fun l hl => ?_
    dsimp only
    rw [hV l (by have := mem_range.1 hl; omega)]
  by_cases hf : Fused m net
  · obtain ⟨g1, g2, g3⟩ := hG.fused hf
    obtain rfl := hcode hf.2
    obtain ⟨lab, hlab, hpos⟩ := hs
    refine fin (fun k => if k = net.size then lossGrad .ce r (net.dim net.size) (netOut net X net.size) Y else D k)
      (if_pos rfl) ?_ ?_
    · intro k hk i j hi hj
      by_cases hkl : k = net.size - 1
      · have e1 : k + 1 = net.size := by omega
        rw [if_pos e1, e1, ← eo]
        rw [← hkl] at g1 eo ⊢
        rw [g1, hV _ le_rfl]
        have hsk : (net.L k).kind = .softmax := by rw [hkl]; exact hf.1
        refine fused_eq hsk (lab := lab) ?_ ?_ hi hj
        · rw [eo]; exact hlab
        · intro i' j'
          rw [← e1]
          show 0 < infer (net.L k) (netOut net X k) i' j'
          simp only [infer, hsk, actRow, real_exp, real_div, fsum_real]
          exact div_pos (Real.exp_pos _) (Finset.sum_pos (fun k _ => Real.exp_pos _)
            ⟨0, mem_range.2 (hreg k hk).pos⟩)
      · rw [if_neg (by omega), g3.act k (by omega), hV (k + 1) (by omega)]
    · intro k hk
      rw [if_neg (by omega)]
      by_cases hkl : k = net.size - 1
      · rw [hkl]; exact g2
      · exact g3.inp k (by omega)
  · obtain ⟨g1, g2⟩ := hG.plain hf
    refine fin D (by rw [g1, hV _ le_rfl]) ?_ g2.inp
    intro k hk i j hi hj
    rw [g2.act k hk]
    by_cases hkl : k + 1 = net.size
    · rw [if_pos hkl, hV _ (by omega)]
      by_cases hb : loss = .bce
      · subst hb
        have hcl : ∀ j, j < (net.L k).o → afterLoss .bce (netOut net X (k + 1)) i j = netOut net X (k + 1) i j := by
          intro j hj
          have := hs i j hi (by rw [← hkl, ← houts k hk]; exact hj)
          rw [← hkl] at this
          exact clipV_id this.1.le this.2.le
        unfold actBack
        cases (net.L k).kind <;> simp only [hcl j hj]
        rw [fsum_real, fsum_real]
        refine Finset.sum_congr rfl fun q hq => ?_
        rw [fsum_real, fsum_real]
        simp only [hcl q (mem_range.1 hq)]
      · have : afterLoss loss (netOut net X (k + 1)) = netOut net X (k + 1) := by
          funext i j
          cases loss <;> first | rfl | exact absurd rfl hb
        rw [this]
    · rw [if_neg hkl, hV _ (by omega)]

/-- Back-propagation computes the exact gradient. -/
theorem NetGrad.exact {m : Model ℝ} {net : Net ℝ} {loss : LossKind} {r : Nat} {X Y : Nat → Nat → ℝ}
    {V M G D : Nat → Nat → Nat → ℝ} (hG : NetGrad m net loss r V M Y G D) (h0 : 0 < net.size)
    (hins : ∀ i, i < net.size → (net.L i).n = net.dim i) (houts : ∀ i, i < net.size → (net.L i).o = net.dim (i + 1))
    (hV : ∀ k, k ≤ net.size → V k = netOut net X k)
    (hreg : ∀ k, k < net.size → Regular (net.L k) r (netOut net X k))
    (hcode : m.lossType = 2 → loss = .ce)
    (hs : SmoothAt loss r (net.dim net.size) (netOut net X net.size) Y) (hm : loss = .mae → net.dim net.size = 1) :
    ExactNetGrad net loss r X Y (fun l => gradW r (V l) (G l)) (fun l => gradB r (G l) 0) :=
  fun c => ⟨fun t => netOut (c.at t) X net.size, fun t => netComputes_netOut (net := c.at t) (fun k hk => by
    show (net.L k).kind ≠ .dropout
    rcases (hreg k hk).kind with h | h | h | h <;> rw [h] <;> decide) r X, hG.deriv h0 hins houts hV hreg hcode hs hm c⟩

end NN
