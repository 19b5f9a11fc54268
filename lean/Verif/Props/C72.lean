import Verif.Props.C51
import Verif.Props.C52_C57
import Mathlib.Analysis.Calculus.Deriv.Slope
/- C72: a small enough step of plain gradient descent decreases the training objective. -/

set_option linter.unusedSectionVars false

namespace NN
open Go Finset

/-! ### Back-propagation has only one result -/

theorem actBack_mask {α : Type} [Flt α] {L : LayerSpec α} (h : L.kind ≠ .dropout) (P M M' D : Nat → Nat → α) :
    actBack L P M D = actBack L P M' D := by
  funext i j
  unfold actBack
  cases hk : L.kind <;> first | rfl | exact absurd hk h

theorem Backprop.unique {α : Type} [Flt α] {net : Net α} {V V' M M' G G' D D' : Nat → Nat → Nat → α} {t : Nat}
    (h : Backprop net V M G D t) (h' : Backprop net V' M' G' D' t) (hV : ∀ k, k ≤ t → V k = V' k) (hd : ∀ k, k < t → (net.L k).kind ≠ .dropout) (e : D t = D' t) :
    ∀ k, k < t → G k = G' k := by
  have key : ∀ s, s ≤ t → D (t - s) = D' (t - s) ∧ (0 < s → G (t - s) = G' (t - s)) := by
    intro s
    induction s with
    | zero => intro _; exact ⟨e, fun h => absurd h (by omega)⟩
    | succ s ih =>
      intro hs
      have hG : G (t - (s + 1)) = G' (t - (s + 1)) := by
        rw [h.act _ (by omega), h'.act _ (by omega), show t - (s + 1) + 1 = t - s by omega, (ih (by omega)).1,
          hV _ (by omega)]
        exact actBack_mask (hd _ (by omega)) _ _ _ _
      exact ⟨by rw [h.inp _ (by omega), h'.inp _ (by omega), hG], fun _ => hG⟩
  intro k hk
  have := (key (t - k) (by omega)).2 (by omega)
  rwa [show t - (t - k) = k by omega] at this

theorem NetGrad.unique {α : Type} [Flt α] {m m' : Model α} {net : Net α} {loss : LossKind} {r : Nat}
    {V V' M M' : Nat → Nat → Nat → α} {Y : Nat → Nat → α} {G G' D D' : Nat → Nat → Nat → α} (h : NetGrad m net loss r V M Y G D)
    (h' : NetGrad m' net loss r V' M' Y G' D') (hV : ∀ k, k ≤ net.size → V k = V' k) (hm : m.lossType = m'.lossType) (hd : ∀ k, k < net.size → (net.L k).kind ≠ .dropout) :
    ∀ k, k < net.size → G k = G' k := by
  have hff : Fused m net ↔ Fused m' net := by unfold Fused; rw [hm]
  intro k hk
  by_cases hf : Fused m net
  · obtain ⟨g1, g2, g3⟩ := h.fused hf
    obtain ⟨g1', g2', g3'⟩ := h'.fused (hff.1 hf)
    by_cases hk' : k = net.size - 1
    · rw [hk', g1, g1', hV _ le_rfl]
    · exact g3.unique g3' (fun k hk => hV k (by omega)) (fun k hk => hd k (by omega)) (by rw [g2, g2', g1, g1', hV _ le_rfl]) k (by omega)
  · obtain ⟨g1, g2⟩ := h.plain hf
    obtain ⟨g1', g2'⟩ := h'.plain fun h => hf (hff.2 h)
    exact g2.unique g2' (fun k hk => by rw [hV k hk]) hd (by rw [g1, g1', hV _ le_rfl]) k hk

theorem trainVals_netOut {α : Type} [Flt α] {net : Net α} (r : Nat) (u : Nat → α) (X : Nat → Nat → α) (n : Nat)
    (hd : ∀ k, k < n → (net.L k).kind ≠ .dropout) : trainVals net r u X n = netOut net X n := by
  induction n with
  | zero => rfl
  | succ n ih =>
    show trainOut _ _ _ = infer _ _
    rw [ih fun k hk => hd k (by omega)]
    funext i j
    unfold trainOut
    rw [if_neg (hd n (by omega))]

theorem netOut_ptrs {α : Type} [Flt α] (net : Net α) (lp : Nat → Nat) (wm bm : Nat → Mat) (X : Nat → Nat → α) (k : Nat) :
    netOut { net with lp, wm, bm } X k = netOut net X k := by
  induction k with
  | zero => rfl
  | succ k ih =>
    show infer _ _ = infer _ _
    rw [ih]

theorem NetGrad.ptrs {α : Type} [Flt α] {m : Model α} {net : Net α} {loss : LossKind} {r : Nat} {V M : Nat → Nat → Nat → α}
    {Y : Nat → Nat → α} {G D : Nat → Nat → Nat → α} (h : NetGrad m net loss r V M Y G D) (lp : Nat → Nat) (wm bm : Nat → Mat) :
    NetGrad m { net with lp, wm, bm } loss r V M Y G D :=
  ⟨fun hf => ⟨(h.fused hf).1, (h.fused hf).2.1, ⟨(h.fused hf).2.2.act, (h.fused hf).2.2.inp⟩⟩,
    fun hf => ⟨(h.plain hf).1, ⟨(h.plain hf).2.act, (h.plain hf).2.inp⟩⟩⟩

/-- What a model computes depends on its layers only. -/
theorem NetComputes.congr {net net' : Net ℝ} (h1 : net'.size = net.size) (h2 : net'.dim = net.dim)
    (h3 : ∀ i, i < net.size → net'.L i = net.L i) {r : Nat} {X F : Nat → Nat → ℝ} (h : NetComputes net r X F) :
    NetComputes net' r X F := by
  intro w m x training lp wm bm hN hX
  rw [h1, h2]
  rw [h2] at hX
  refine h w m x training lp wm bm ⟨?_, ?_, ?_, ?_, ?_, ?_, ?_⟩ hX
  · rw [hN.size]; exact congrArg _ h1
  · rw [hN.ptrs]; exact congrArg (fun n => (List.range n).map lp) h1
  · intro i hi
    have := hN.lay i (h1.symm ▸ hi)
    dsimp only at this hi ⊢
    rwa [h3 i hi] at this
  · intro i hi
    have := hN.ins i (h1.symm ▸ hi)
    dsimp only at this hi ⊢
    rwa [h3 i hi, h2] at this
  · intro i hi
    have := hN.outs i (h1.symm ▸ hi)
    dsimp only at this hi ⊢
    rwa [h3 i hi, h2] at this
  · intro hp
    have := hN.input (h1.symm ▸ hp)
    rw [this]; exact congrArg (fun d : Nat → Nat => ((d 0 : Nat) : Int)) h2
  · intro hp
    have := hN.output (h1.symm ▸ hp)
    rw [this]
    dsimp only
    rw [h1, h2]

/-! ### C72 -/

/-- The straight line from the parameters of `net` in the direction opposite to (dW, dB). -/
noncomputable def NetCurve.down (net : Net ℝ) (dW : Nat → Nat → Nat → ℝ) (dB : Nat → Nat → ℝ) : NetCurve net where
  Wt l t k j := (net.L l).W k j - dW l k j * t
  bt l t j := (net.L l).b j - dB l j * t
  W' l k j := -dW l k j
  b' l j := -dB l j
  hW l k j _ _ _ := by
    have := ((hasDerivAt_id (0 : ℝ)).const_mul (dW l k j)).const_sub ((net.L l).W k j)
    simpa using this
  hb l j _ _ := by
    have := ((hasDerivAt_id (0 : ℝ)).const_mul (dB l j)).const_sub ((net.L l).b j)
    simpa using this
  W0 l k j _ _ _ := by simp
  b0 l j _ _ := by simp

theorem NetCurve.down_zero (net : Net ℝ) (dW : Nat → Nat → Nat → ℝ) (dB : Nat → Nat → ℝ) : (NetCurve.down net dW dB).at 0 = net := by
  unfold NetCurve.at NetCurve.down
  simp

/-- The inner product along the downward line is minus the squared norm of the gradient: 0 only if all entries are. -/
theorem NetCurve.pair_down_neg {net : Net ℝ} {dW : Nat → Nat → Nat → ℝ} {dB : Nat → Nat → ℝ}
    (h : ¬ (NetCurve.down net dW dB).pair dW dB < 0) :
    (∀ l k j, l < net.size → k < (net.L l).n → j < (net.L l).o → dW l k j = 0) ∧
      ∀ l j, l < net.size → j < (net.L l).o → dB l j = 0 := by
  have e : (NetCurve.down net dW dB).pair dW dB = -∑ l ∈ range net.size,
      ((∑ k ∈ range (net.L l).n, ∑ j ∈ range (net.L l).o, dW l k j ^ 2) + ∑ j ∈ range (net.L l).o, dB l j ^ 2) := by
    unfold NetCurve.pair NetCurve.down
    rw [← Finset.sum_neg_distrib]
    refine Finset.sum_congr rfl fun l _ => ?_
    rw [neg_add, ← Finset.sum_neg_distrib, ← Finset.sum_neg_distrib]
    congr 1
    · refine Finset.sum_congr rfl fun k _ => ?_
      rw [← Finset.sum_neg_distrib]
      exact Finset.sum_congr rfl fun j _ => by dsimp only; ring
    · exact Finset.sum_congr rfl fun j _ => by dsimp only; ring
  have p1 : ∀ l, 0 ≤ ∑ k ∈ range (net.L l).n, ∑ j ∈ range (net.L l).o, dW l k j ^ 2 := fun l =>
    Finset.sum_nonneg fun k _ => Finset.sum_nonneg fun j _ => sq_nonneg _
  have p2 : ∀ l, 0 ≤ ∑ j ∈ range (net.L l).o, dB l j ^ 2 := fun l => Finset.sum_nonneg fun j _ => sq_nonneg _
  have p3 := Finset.sum_nonneg (s := range net.size) fun l _ => add_nonneg (p1 l) (p2 l)
  rw [e] at h
  have h0 := (Finset.sum_eq_zero_iff_of_nonneg fun l _ => add_nonneg (p1 l) (p2 l)).1 (le_antisymm (by linarith) p3)
  refine ⟨fun l k j hl hk hj => ?_, fun l j hl hj => ?_⟩
  · have := h0 l (mem_range.2 hl)
    have a := p1 l; have b := p2 l
    have := (Finset.sum_eq_zero_iff_of_nonneg fun k _ => Finset.sum_nonneg fun j _ => sq_nonneg _).1
      (show ∑ k ∈ range (net.L l).n, ∑ j ∈ range (net.L l).o, dW l k j ^ 2 = 0 by linarith) k (mem_range.2 hk)
    have := (Finset.sum_eq_zero_iff_of_nonneg fun j _ => sq_nonneg _).1 this j (mem_range.2 hj)
    exact pow_eq_zero_iff two_ne_zero |>.1 this
  · have := h0 l (mem_range.2 hl)
    have a := p1 l; have b := p2 l
    have := (Finset.sum_eq_zero_iff_of_nonneg fun j _ => sq_nonneg _).1
      (show ∑ j ∈ range (net.L l).o, dB l j ^ 2 = 0 by linarith) j (mem_range.2 hj)
    exact pow_eq_zero_iff two_ne_zero |>.1 this

theorem ExactNetGrad.congr {net : Net ℝ} {loss : LossKind} {r : Nat} {X Y : Nat → Nat → ℝ} {dW dW' : Nat → Nat → Nat → ℝ}
    {dB dB' : Nat → Nat → ℝ} (h : ExactNetGrad net loss r X Y dW dB)
    (h1 : ∀ l k j, l < net.size → k < (net.L l).n → j < (net.L l).o → dW l k j = dW' l k j)
    (h2 : ∀ l j, l < net.size → j < (net.L l).o → dB l j = dB' l j) : ExactNetGrad net loss r X Y dW' dB' := by
  intro c
  obtain ⟨F, hF, hd⟩ := h c
  refine ⟨F, hF, hd.congr_deriv ?_⟩
  unfold NetCurve.pair
  refine Finset.sum_congr rfl fun l hl => ?_
  congr 1
  · exact Finset.sum_congr rfl fun k hk => Finset.sum_congr rfl fun j hj => by
      rw [h1 l k j (mem_range.1 hl) (mem_range.1 hk) (mem_range.1 hj)]
  · exact Finset.sum_congr rfl fun j hj => by rw [h2 l j (mem_range.1 hl) (mem_range.1 hj)]

theorem deriv_neg_lt {f : ℝ → ℝ} {d : ℝ} (h : HasDerivAt f d 0) (hd : d < 0) : ∃ η > 0, ∀ t, 0 < t → t < η → f t < f 0 := by
  have h1 := (hasDerivAt_iff_tendsto_slope.1 h).eventually (gt_mem_nhds hd)
  rw [eventually_nhdsWithin_iff, Metric.eventually_nhds_iff] at h1
  obtain ⟨η, hη, h1⟩ := h1
  refine ⟨η, hη, fun t ht htη => ?_⟩
  have := h1 (y := t) (by simpa [abs_of_pos ht] using htη) (by simpa using ht.ne')
  rw [slope_def_field, sub_zero, div_lt_iff₀ ht] at this
  linarith

/-- C72: let the model have linear, ReLU, leaky ReLU and softmax layers, and let the objective be differentiable at its
predictions, with a gradient that is not zero.  Then there is η > 0 such that for every learning rate below η, Fit with plain SGD
on the whole data set for one epoch succeeds and strictly decreases the objective. -/
theorem C72_decrease (net : Net ℝ) (loss : LossKind) (hc : Covered net) (hm : loss = .mae → net.dim net.size = 1) (r : Nat)
    (A B : Nat → Nat → ℝ)
    (hz : ∀ l, l < net.size → (net.L l).kind = .hidden ∨ (net.L l).kind = .leaky →
      ∀ i j, i < r → j < net.dim (l + 1) → preact (net.L l) (netOut net A l) i j ≠ 0)
    (hs : SmoothAt loss r (net.dim net.size) (netOut net A net.size) B)
    (hcrit : ¬ ExactNetGrad net loss r A B (fun _ _ _ => 0) (fun _ _ => 0)) :
    ∃ η > 0, ∀ (lr : ℝ), 0 < lr → lr < η → ∀ (w : World ℝ) (m : Model ℝ) lp wm bm (op : Nat → Nat) (S : Nat → OptSpec ℝ)
      (X Y xv yv : Mat), IsTask w m { net with lp, wm, bm } op S → (∀ i, i < net.size → (S i).kind = .sgd ∧ (S i).momentum = 0 ∧ (S i).decay = 0 ∧ (S i).lr = lr) →
      m.loss = some ⟨loss, net.dim net.size⟩ → m.lossType = loss.code →
      IsData w { net with lp, wm, bm } X r (net.dim 0) A → IsData w { net with lp, wm, bm } Y r (net.dim net.size) B → r ≤ 2 ^ 53 →
      wp (fit m X Y 1 0 xv yv 0) w (fun e w' => e = none ∧ ∃ net' op' S' F F', IsTask w' m net' op' S' ∧
        SameShape { net with lp, wm, bm } net' ∧ NetComputes net r A F ∧ NetComputes net' r A F' ∧
        objective loss r (net.dim net.size) F' B < objective loss r (net.dim net.size) F B) := by
  have hk : ∀ k, k < net.size → (net.L k).kind ≠ .dropout ∧ (net.L k).kind ≠ .sigmoid := by
    intro k hk
    rcases hc.2 k hk with h | h | ⟨h, -⟩ | h <;> rw [h] <;> exact ⟨by decide, by decide⟩
  by_cases hins : (∀ i, i < net.size → (net.L i).n = net.dim i) ∧ (∀ i, i < net.size → (net.L i).o = net.dim (i + 1)) ∧
      ∀ i, i < net.size → 0 < (net.L i).o
  swap
  · refine ⟨1, one_pos, fun lr _ _ w m lp wm bm op S X Y xv yv hT => absurd ?_ hins⟩
    exact ⟨hT.isNet.ins, hT.isNet.outs, fun i hi => (hT.isNet.lay i hi).wmat.cpos⟩
  obtain ⟨hins, houts, hopos⟩ := hins
  set m0 : Model ℝ := { newModel with lossType := loss.code } with hm0
  obtain ⟨G0, D0, hG0⟩ := exists_netGrad m0 net loss r (netOut net A) (fun _ _ _ => 0) B
  have hex := hG0.exact hc.1 hins houts (fun _ _ => rfl) (X := A) (by
    intro k hk'
    refine ⟨?_, ?_, ?_, hopos k hk'⟩
    · rcases hc.2 k hk' with h | h | ⟨h, -⟩ | h <;> simp [h]
    · intro e
      rcases hc.2 k hk' with h | h | ⟨-, h⟩ | h
      · rw [e] at h; cases h
      · rw [e] at h; cases h
      · exact h
      · rw [e] at h; cases h
    · intro e i j hi hj
      exact hz k hk' e i j hi (by rw [← houts k hk']; exact hj)) (by
    intro e
    rw [hm0] at e
    cases loss <;> first | rfl | exact absurd e (by decide)) hs hm
  set dW : Nat → Nat → Nat → ℝ := fun l => gradW r (netOut net A l) (G0 l) with hdW
  set dB : Nat → Nat → ℝ := fun l => gradB r (G0 l) 0 with hdB
  set c := NetCurve.down net dW dB with hcd
  have hneg : c.pair dW dB < 0 := by
    by_contra hge
    obtain ⟨z1, z2⟩ := NetCurve.pair_down_neg hge
    exact hcrit (hex.congr z1 z2)
  obtain ⟨F, hF, hd⟩ := hex c
  obtain ⟨η, hη, hlt⟩ := deriv_neg_lt hd hneg
  refine ⟨η, hη, fun lr h1 h2 w m lp wm bm op S X Y xv yv hT hS hl hlt' dX dY hr => ?_⟩
  refine wp_mono (C70_fit w m { net with lp, wm, bm } op S hT (fun k hk' => (hk k hk').2) _ hl rfl X Y xv yv r A B dX.mat dY.mat dX.cap dY.cap dX.sep dY.sep
    1 0 (by omega)) ?_
  rintro e w' ⟨he, net', S', hD, hT', hsh, -⟩
  have hbl : (List.replicate (1 : Int).toNat (blocks r 0)).flatten = [] ++ [(0, r)] := by
    show (List.replicate 1 (blocks r 0)).flatten = _
    simp [blocks]
  rw [hbl] at hD
  generalize hq : w'.unifPos = q at hD
  generalize hb : ([] : List (Nat × Nat)) ++ [(0, r)] = bs at hD
  cases hD with
  | start => simp at hb
  | @step bs0 b0 net1 _ S1 _ p1 hD0 hstep =>
    obtain ⟨e1, e2⟩ := List.append_inj' hb rfl
    subst e1
    obtain rfl : (0, r) = b0 := by simpa using e2
    generalize hb0 : ([] : List (Nat × Nat)) = bs1 at hD0
    cases hD0 with
    | step => simp at hb0
    | start =>
      simp only [Nat.zero_add] at hstep
      obtain ⟨G, D, hG, rfl, rfl⟩ := hstep
      have hV : ∀ k, k ≤ net.size → trainVals { net with lp, wm, bm } r (fun q => w.unif (w.unifPos + q)) A k = netOut net A k := fun k hk' =>
        (trainVals_netOut (net := { net with lp, wm, bm }) r _ A k fun i hi => (hk i (by omega)).1).trans (netOut_ptrs net lp wm bm A k)
      have hGG := hG.unique (hG0.ptrs lp wm bm) hV hlt' fun k hk' => (hk k hk').1
      refine ⟨he, _, op, _, F 0, F lr, hT', hsh, ?_, ?_, hlt lr h1 h2⟩
      · have := hF 0
        rwa [hcd, NetCurve.down_zero] at this
      · refine NetComputes.congr (net := c.at lr) (net' := stepNet { net with lp, wm, bm } S r _ G) rfl rfl (fun i hi => ?_) (hF lr)
        have hi : i < net.size := hi
        obtain ⟨s1, s2, s3, s4⟩ := hS i hi
        have hrate : (S i).rate = lr := by
          unfold OptSpec.rate
          rw [s3, if_pos (by simp [Flt.zero]), s4]
        unfold stepNet NetCurve.at
        dsimp only
        rw [hGG i hi, hV i hi.le]
        congr 1
        · funext k j
          unfold OptSpec.newW OptSpec.upd
          rw [s1, s2, hrate]
          dsimp only
          rw [if_pos (by simp [Flt.zero])]
          rfl
        · funext j
          unfold OptSpec.newB OptSpec.upd
          rw [s1, s2, hrate]
          dsimp only
          rw [if_pos (by simp [Flt.zero])]
          rfl

/-- One linear unit with weight and bias 0. -/
noncomputable def zeroUnit (_ : Nat) : LayerSpec ℝ := ⟨.linear, 1, 1, fun _ _ => 0, fun _ => 0, 0, 0⟩

/-- A linear unit with weight and bias 0, trained on the sample 1 ↦ 1 with the squared error: the gradient is not zero, and there are
models with plain SGD optimizers of every positive learning rate. -/
example : ∃ (net : Net ℝ) (A B : Nat → Nat → ℝ), Covered net ∧
    (∀ l, l < net.size → (net.L l).kind = .hidden ∨ (net.L l).kind = .leaky →
      ∀ i j, i < 1 → j < net.dim (l + 1) → preact (net.L l) (netOut net A l) i j ≠ 0) ∧
    SmoothAt .mse 1 (net.dim net.size) (netOut net A net.size) B ∧
    ¬ ExactNetGrad net .mse 1 A B (fun _ _ _ => 0) (fun _ _ => 0) ∧
    ∀ lr : ℝ, 0 < lr → ∃ (w : World ℝ) (m : Model ℝ) (net1 : Net ℝ) (op : Nat → Nat) (S : Nat → OptSpec ℝ) (X Y : Mat),
      net1 = { net with lp := net1.lp, wm := net1.wm, bm := net1.bm } ∧ IsTask w m net1 op S ∧
      (∀ i, i < net.size → (S i).kind = .sgd ∧ (S i).momentum = 0 ∧ (S i).decay = 0 ∧ (S i).lr = lr) ∧
      m.loss = some ⟨.mse, net.dim net.size⟩ ∧ m.lossType = LossKind.code .mse ∧ IsData w net1 X 1 (net.dim 0) A ∧
      IsData w net1 Y 1 (net.dim net.size) B := by
  let net : Net ℝ := ⟨1, fun _ => 1, fun _ => 0, fun _ => Mat.zero, fun _ => Mat.zero, zeroUnit⟩
  refine ⟨net, fun _ _ => 1, fun _ _ => 1, ⟨Nat.one_pos, fun l _ => .inl rfl⟩, fun l _ h => ?_, trivial, fun hx => ?_, fun lr hlr => ?_⟩
  · rcases h with h | h <;> cases h
  · obtain ⟨F, hF, hd⟩ := C51_bias hx 0 0 Nat.one_pos Nat.one_pos
    have hFv : ∀ t, F t 0 0 = t := by
      intro t
      have h1 := netComputes_netOut (net := net.addB 0 0 t) (by intro k _; show (zeroUnit k).kind ≠ _; simp [zeroUnit]) 1 (fun _ _ => 1)
      have := NetComputes.unique (net := net.addB 0 0 t) (fun i => ⟨Nat.one_pos, Nat.one_pos⟩) (fun i => rfl) (fun i => rfl) Nat.one_pos
        (hF t) h1 (i := 0) (j := 0) Nat.one_pos Nat.one_pos
      rw [this]
      show infer { zeroUnit 0 with b := _ } (fun _ _ => 1) 0 0 = _
      simp [infer, actRow, zeroUnit, preact_real, net]
    have e : ∀ t, objective .mse 1 (net.dim net.size) (F t) (fun _ _ => 1) = (t - 1) ^ 2 := by
      intro t
      show objective .mse 1 1 _ _ = _
      simp [objective, hFv]
    simp only [e] at hd
    have h1 : HasDerivAt (fun t : ℝ => (t - 1) ^ 2) (-2) 0 :=
      (((hasDerivAt_id (0 : ℝ)).sub_const 1).pow 2).congr_deriv (by norm_num)
    have := hd.unique h1
    norm_num at this
  · obtain ⟨o, ho⟩ := sgd_ok_real (lr := lr) (decay := 0) (mom := 0) hlr le_rfl le_rfl
    have hrows : o.weightMomentums.rows = 0 := by rw [newSGD_ok ho]; rfl
    obtain ⟨w, net1, op, XM, YM, xM, yM, -, hs, hL, hdim, hT, dX, dY, -, -⟩ := exists_task (emptyWorld : World ℝ) 1 Nat.one_pos
      zeroUnit (fun _ => ⟨Nat.one_pos, Nat.one_pos⟩) (fun _ => rfl) { newModel with loss := some ⟨.mse, 1⟩, lossType := 0 } o
      (OptSpec.fresh o) hrows (fun w p i hlt e => e ▸ isOpt_newSGD _ _ _ _ hlt (e.symm ▸ ho)) (r := 1) (r' := 1) Nat.one_pos Nat.one_pos
      (fun _ _ => 1) (fun _ _ => 1) (fun _ _ => 0) (fun _ _ => 0)
    refine ⟨w, _, net1, op, _, XM, YM, ?_, hT, fun i _ => ?_, rfl, rfl, dX, dY⟩
    · cases net1
      simp only [Net.mk.injEq, true_and] at hs hL hdim ⊢
      exact ⟨hs, hdim, hL⟩
    · rw [newSGD_ok ho]; exact ⟨rfl, rfl, rfl, rfl⟩

/-! ### The absolute error of several outputs -/

theorem actBack_zero (L : LayerSpec ℝ) (P M : Nat → Nat → ℝ) : actBack L P M (fun _ _ => 0) = fun _ _ => 0 := by
  funext i j
  unfold actBack
  cases L.kind <;> simp [Flt.zero, fsum_real]

theorem NetGrad.mae_zero {m : Model ℝ} {net : Net ℝ} {r : Nat} {V M : Nat → Nat → Nat → ℝ} {Y : Nat → Nat → ℝ}
    {G D : Nat → Nat → Nat → ℝ} (hG : NetGrad m net .mae r V M Y G D) (hlt : m.lossType = LossKind.code .mae)
    (hw : 1 < net.dim net.size) : ∀ k, k < net.size → G k = fun _ _ => 0 := by
  have hf : ¬ Fused m net := by
    intro hf
    have := hf.2
    rw [hlt] at this
    exact absurd this (by decide)
  obtain ⟨g1, g2⟩ := hG.plain hf
  have e1 : Int.tdiv 1 (net.dim net.size : Int) = 0 := Int.tdiv_eq_zero_of_lt (by omega) (by omega)
  have e2 : Int.tdiv (-1) (net.dim net.size : Int) = 0 := by rw [Int.neg_tdiv, e1]; rfl
  have hD : D net.size = fun _ _ => 0 := by
    rw [g1]
    funext i j
    simp only [lossGrad, e1, e2, Flt.zero, real_ofInt, Int.cast_zero, ite_self]
  have key : ∀ k, k ≤ net.size → D (net.size - k) = (fun _ _ => 0) ∧ (0 < k → G (net.size - k) = fun _ _ => 0) := by
    intro k
    induction k with
    | zero => intro _; exact ⟨hD, fun h => absurd h (by omega)⟩
    | succ k ih =>
      intro hk
      have hG0 : G (net.size - (k + 1)) = fun _ _ => 0 := by
        rw [g2.act _ (by omega), show net.size - (k + 1) + 1 = net.size - k by omega, (ih (by omega)).1]
        exact actBack_zero _ _ _
      refine ⟨?_, fun _ => hG0⟩
      rw [g2.inp _ (by omega), hG0]
      funext i j
      simp [gradX, fsum_real]
  intro k hk
  have := (key (net.size - k) (by omega)).2 (by omega)
  rwa [show net.size - (net.size - k) = k by omega] at this

theorem Descent.mae_stuck {m : Model ℝ} {u : Nat → ℝ} {X Y : Nat → Nat → ℝ} {net : Net ℝ} {S : Nat → OptSpec ℝ} {p : Nat}
    {bs : List (Nat × Nat)} {net' : Net ℝ} {S' : Nat → OptSpec ℝ} {p' : Nat} (h : Descent m .mae u X Y net S p bs net' S' p')
    (hlt : m.lossType = LossKind.code .mae) (hw : 1 < net.dim net.size)
    (hS : ∀ i, i < net.size → (S i).kind = .sgd ∧ (S i).momentum = 0) :
    net'.size = net.size ∧ net'.dim = net.dim ∧
      ∀ i, i < net.size → net'.L i = net.L i ∧ (S' i).kind = .sgd ∧ (S' i).momentum = 0 := by
  induction h with
  | start => exact ⟨rfl, rfl, fun i hi => ⟨rfl, hS i hi⟩⟩
  | @step bs b net1 net2 S1 S2 p1 _ hst ih =>
    obtain ⟨i1, i2, i3⟩ := ih
    obtain ⟨G, D, hG, rfl, rfl⟩ := hst
    have hz := hG.mae_zero hlt (by rw [i1, i2]; exact hw)
    refine ⟨i1, i2, fun i hi => ?_⟩
    obtain ⟨j1, j2, j3⟩ := i3 i hi
    refine ⟨?_, j2, j3⟩
    rw [← j1]
    unfold stepNet
    dsimp only
    rw [hz i (by rw [i1]; exact hi)]
    have e1 : (S1 i).newW (net1.L i).W (gradW b.2 (trainVals net1 b.2 (fun q => u (p1 + q)) (fun i j => X (b.1 + i) j) i)
        fun _ _ => 0) = (net1.L i).W := by
      funext k j
      unfold OptSpec.newW OptSpec.upd
      rw [j2, j3]
      simp [Flt.zero, gradW, fsum_real]
    have e2 : (fun j => (S1 i).newB (fun _ j => (net1.L i).b j) (gradB b.2 fun _ _ => 0) 0 j) = (net1.L i).b := by
      funext j
      unfold OptSpec.newB OptSpec.upd
      rw [j2, j3]
      simp [Flt.zero, gradB, fsum_real]
    rw [e1, e2]

/-- C72, why the absolute error of several outputs is excepted: with it, plain SGD never changes a parameter, whatever the data,
the learning rate, the number of epochs and the batch size. -/
theorem C72_mae_stuck (w : World ℝ) (m : Model ℝ) (net : Net ℝ) (op : Nat → Nat) (S : Nat → OptSpec ℝ) (hT : IsTask w m net op S)
    (hns : ∀ k, k < net.size → (net.L k).kind ≠ .sigmoid) (hl : m.loss = some ⟨.mae, net.dim net.size⟩)
    (hlt : m.lossType = LossKind.code .mae) (hw : 1 < net.dim net.size)
    (hS : ∀ i, i < net.size → (S i).kind = .sgd ∧ (S i).momentum = 0) (X Y xv yv : Mat) (n : Nat) (A B : Nat → Nat → ℝ)
    (hX : IsData w net X n (net.dim 0) A) (hY : IsData w net Y n (net.dim net.size) B) (epochs : Int) (b : Nat) (hbig : n + b ≤ 2 ^ 53) :
    wp (fit m X Y epochs b xv yv 0) w (fun e w' => e = none ∧
      ∀ i, i < net.size → IsLayer w' (net.lp i) (net.wm i) (net.bm i) (net.L i)) := by
  refine wp_mono (C70_fit w m net op S hT hns _ hl rfl X Y xv yv n A B hX.mat hY.mat hX.cap hY.cap hX.sep hY.sep epochs b hbig) ?_
  rintro e w' ⟨he, net', S', hD, hT', hsh, -⟩
  refine ⟨he, fun i hi => ?_⟩
  obtain ⟨h1, -, h3⟩ := hD.mae_stuck hlt hw hS
  have := hT'.isNet.lay i (by rw [h1]; exact hi)
  rwa [(h3 i hi).1, hsh.lp, hsh.wm, hsh.bm] at this

/-- Hypotheses of C72_mae_stuck: three layers, SGD with decay, five rows. -/
example : ∃ (w : World ℝ) (m : Model ℝ) (net : Net ℝ) (op : Nat → Nat) (S : Nat → OptSpec ℝ) (X Y : Mat)
    (A B : Nat → Nat → ℝ), IsTask w m net op S ∧ (∀ k, k < net.size → (net.L k).kind ≠ .sigmoid) ∧
    m.loss = some ⟨.mae, net.dim net.size⟩ ∧ m.lossType = LossKind.code .mae ∧ 1 < net.dim net.size ∧
    (∀ i, i < net.size → (S i).kind = .sgd ∧ (S i).momentum = 0) ∧ IsData w net X 5 (net.dim 0) A ∧
    IsData w net Y 5 (net.dim net.size) B := by
  obtain ⟨o, ho⟩ := sgd_ok_real (lr := 1) (decay := 1) (mom := 0) (by norm_num) (by norm_num) le_rfl
  have hrows : o.weightMomentums.rows = 0 := by rw [newSGD_ok ho]; rfl
  obtain ⟨w, net, op, XM, YM, xM, yM, -, hs, hL, hdim, hT, dX, dY, -, -⟩ := exists_task (emptyWorld : World ℝ) 3 (by decide)
    demoT demoT_pos demoT_chain { newModel with loss := some ⟨.mae, 5⟩, lossType := 1 } o (OptSpec.fresh o) hrows
    (fun w p i hlt e => e ▸ isOpt_newSGD _ _ _ _ hlt (e.symm ▸ ho)) (r := 5) (r' := 2) (by decide) (by decide)
    (fun i j => (i : ℝ) + j) (fun i j => (i : ℝ) - j) (fun i _ => (i : ℝ)) (fun _ j => (j : ℝ))
  have d0 : net.dim 0 = (demoT 0 : LayerSpec ℝ).n := by rw [hdim]
  have d1 : net.dim net.size = (demoT 3 : LayerSpec ℝ).n := by rw [hdim, hs]
  refine ⟨w, _, net, op, _, XM, YM, _, _, hT, ?_, ?_, rfl, ?_, fun i _ => ?_, d0 ▸ dX, d1 ▸ dY⟩
  · intro k _; rw [hL]; exact demoT_kind k
  · rw [d1]; rfl
  · rw [d1]; decide
  · rw [newSGD_ok ho]; exact ⟨rfl, rfl⟩

end NN
