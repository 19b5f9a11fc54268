import Verif.Props.C148
import Verif.Props.C152
/- C153: a hidden unit's incoming and outgoing weights: what rescaling them changes, and what training keeps of their balance. -/

set_option linter.unusedSectionVars false

namespace NN
open Go Finset

/-! ### Rescaling a unit -/

/-- The layer with the weights and the bias of unit j multiplied by c. -/
noncomputable def LayerSpec.grow (L : LayerSpec ℝ) (j : Nat) (c : ℝ) : LayerSpec ℝ :=
  { L with W := fun a b => if b = j then c * L.W a b else L.W a b, b := fun b => if b = j then c * L.b b else L.b b }

/-- The layer with the weights of input j divided by c. -/
noncomputable def LayerSpec.shrink (L : LayerSpec ℝ) (j : Nat) (c : ℝ) : LayerSpec ℝ :=
  { L with W := fun a b => if a = j then L.W a b / c else L.W a b }

/-- The network with the incoming weights and the bias of unit j of layer k multiplied by c, and its outgoing weights divided by c. -/
noncomputable def rescale (net : Net ℝ) (k j : Nat) (c : ℝ) (l : Nat) : LayerSpec ℝ :=
  if l = k then (net.L l).grow j c else if l = k + 1 then (net.L l).shrink j c else net.L l

/-- Layer types whose units can be rescaled. -/
def LayerKind.Homog (k : LayerKind) : Prop := k = .hidden ∨ k = .leaky ∨ k = .dropout ∨ k = .linear

theorem infer_grow {L : LayerSpec ℝ} (hk : L.kind.Homog) (j : Nat) {c : ℝ} (hc : 0 < c) (X : Nat → Nat → ℝ) (i b : Nat) :
    infer (L.grow j c) X i b = (if b = j then c else 1) * infer L X i b := by
  have hz : preact (L.grow j c) X i b = (if b = j then c else 1) * preact L X i b := by
    rw [preact_real, preact_real]
    unfold LayerSpec.grow
    dsimp only
    by_cases hb : b = j
    · simp only [if_pos hb, mul_add, mul_sum]
      congr 1
      exact sum_congr rfl fun a _ => by ring
    · simp only [if_neg hb, one_mul]
  have hs : 0 < (if b = j then c else 1 : ℝ) := by split <;> [exact hc; exact one_pos]
  have hz0 : (Flt.zero : ℝ) = 0 := by simp [Flt.zero]
  unfold infer
  generalize (if b = j then c else 1 : ℝ) = s at hz hs
  have hlt : ∀ x : ℝ, Flt.lt (s * x) (0 : ℝ) = Flt.lt x (0 : ℝ) := fun x => by
    simp only [real_lt]
    congr 1
    exact propext ⟨fun h => by by_contra hx; exact absurd (mul_nonneg hs.le (not_lt.1 hx)) (not_le.2 h), fun h => mul_neg_of_pos_of_neg hs h⟩
  have hmax : ∀ x : ℝ, Flt.max (s * x) (0 : ℝ) = s * Flt.max x (0 : ℝ) := fun x => by
    simp only [real_max]
    rw [mul_max_of_nonneg _ _ hs.le, mul_zero]
  show actRow L.kind L.slope L.o _ b = s * actRow L.kind L.slope L.o _ b
  unfold actRow
  rcases hk with h | h | h | h <;> rw [h] <;> dsimp only <;> rw [hz]
  · rw [hz0, hmax]
  · rw [hz0, hlt]
    split
    · exact mul_assoc _ _ _
    · rfl
  · rw [hz0, hmax]

theorem preact_shrink (L : LayerSpec ℝ) (j : Nat) {c : ℝ} (hc : 0 < c) {X X' : Nat → Nat → ℝ} (i : Nat)
    (h : ∀ a, X' i a = (if a = j then c else 1) * X i a) (b : Nat) : preact (L.shrink j c) X' i b = preact L X i b := by
  rw [preact_real, preact_real]
  unfold LayerSpec.shrink
  dsimp only
  congr 1
  refine sum_congr rfl fun a _ => ?_
  rw [h]
  split
  · field_simp
  · rw [one_mul]

theorem infer_shrink (L : LayerSpec ℝ) (j : Nat) {c : ℝ} (hc : 0 < c) {X X' : Nat → Nat → ℝ}
    (h : ∀ i a, X' i a = (if a = j then c else 1) * X i a) : infer (L.shrink j c) X' = infer L X := by
  funext i b
  show actRow L.kind L.slope L.o (preact (L.shrink j c) X' i) b = actRow L.kind L.slope L.o (preact L X i) b
  rw [show preact (L.shrink j c) X' i = preact L X i from funext (preact_shrink L j hc i (h i))]

theorem trainOut_infer (L : LayerSpec ℝ) (u : Nat → ℝ) (X : Nat → Nat → ℝ) (i b : Nat) :
    trainOut L u X i b = infer L X i b * (if L.kind = .dropout then dropBits L u i b / (1 - L.dropout) else 1) := by
  unfold trainOut
  by_cases hk : L.kind = .dropout
  · rw [if_pos hk, if_pos hk]
    unfold infer actRow
    rw [hk]
    simp [Flt.one]
  · rw [if_neg hk, if_neg hk, mul_one]

theorem trainOut_grow {L : LayerSpec ℝ} (hk : L.kind.Homog) (u : Nat → ℝ) (j : Nat) {c : ℝ} (hc : 0 < c) (X : Nat → Nat → ℝ) (i b : Nat) :
    trainOut (L.grow j c) u X i b = (if b = j then c else 1) * trainOut L u X i b := by
  rw [trainOut_infer, trainOut_infer, infer_grow hk j hc, mul_assoc]
  rfl

theorem trainOut_shrink (L : LayerSpec ℝ) (u : Nat → ℝ) (j : Nat) {c : ℝ} (hc : 0 < c) {X X' : Nat → Nat → ℝ}
    (h : ∀ i a, X' i a = (if a = j then c else 1) * X i a) : trainOut (L.shrink j c) u X' = trainOut L u X := by
  funext i b
  rw [trainOut_infer, trainOut_infer, infer_shrink L j hc h]
  rfl

variable {net net' : Net ℝ} {k j : Nat} {c : ℝ}

theorem rescale_kind (net : Net ℝ) (k j : Nat) (c : ℝ) (l : Nat) : (rescale net k j c l).kind = (net.L l).kind ∧ (rescale net k j c l).o = (net.L l).o := by
  unfold rescale
  split
  · exact ⟨rfl, rfl⟩
  · split <;> exact ⟨rfl, rfl⟩

theorem rescale_draws (hL : net'.L = rescale net k j c) (r n : Nat) : dropDraws net' r n = dropDraws net r n := by
  induction n with
  | zero => rfl
  | succ n ih =>
    unfold dropDraws
    rw [ih, hL, (rescale_kind net k j c n).1, (rescale_kind net k j c n).2]

theorem rescale_below (net : Net ℝ) (k j : Nat) (c : ℝ) {l : Nat} (h : l < k) : rescale net k j c l = net.L l := by
  unfold rescale
  rw [if_neg (by omega), if_neg (by omega)]

/-- Rescaling changes nothing but the output of the unit itself. -/
theorem rescale_train (hL : net'.L = rescale net k j c) (hk : (net.L k).kind.Homog) (hc : 0 < c) (r : Nat) (u : Nat → ℝ) (A : Nat → Nat → ℝ)
    (n : Nat) (hn : n ≠ k + 1) : trainVals net' r u A n = trainVals net r u A n := by
  have low : ∀ n, n ≤ k → trainVals net' r u A n = trainVals net r u A n := by
    intro n hn
    induction n with
    | zero => rfl
    | succ n ih =>
      unfold trainVals
      rw [ih (by omega), hL, rescale_below net k j c (by omega), rescale_draws hL]
  have mid : ∀ i a, trainVals net' r u A (k + 1) i a = (if a = j then c else 1) * trainVals net r u A (k + 1) i a := by
    intro i a
    show trainOut (net'.L k) _ (trainVals net' r u A k) i a = _ * trainOut (net.L k) _ (trainVals net r u A k) i a
    rw [low k le_rfl, hL, rescale_draws hL, ← trainOut_grow hk _ j hc]
    unfold rescale
    rw [if_pos rfl]
  have top : ∀ t, trainVals net' r u A (k + 2 + t) = trainVals net r u A (k + 2 + t) := by
    intro t
    induction t with
    | zero =>
      show trainOut (net'.L (k + 1)) _ (trainVals net' r u A (k + 1)) = trainOut (net.L (k + 1)) _ (trainVals net r u A (k + 1))
      rw [hL, rescale_draws hL]
      unfold rescale
      rw [if_neg (by omega), if_pos rfl]
      exact trainOut_shrink _ _ j hc mid
    | succ t ih =>
      show trainOut (net'.L (k + 2 + t)) _ (trainVals net' r u A (k + 2 + t)) = trainOut (net.L (k + 2 + t)) _ (trainVals net r u A (k + 2 + t))
      rw [ih, hL, rescale_draws hL]
      unfold rescale
      rw [if_neg (by omega), if_neg (by omega)]
  rcases Nat.lt_or_ge n (k + 1) with h | h
  · exact low n (by omega)
  · rw [show n = k + 2 + (n - (k + 2)) by omega]
    exact top _

theorem rescale_infer (hL : net'.L = rescale net k j c) (hk : (net.L k).kind.Homog) (hc : 0 < c) (A : Nat → Nat → ℝ)
    (n : Nat) (hn : n ≠ k + 1) : netOut net' A n = netOut net A n := by
  have low : ∀ n, n ≤ k → netOut net' A n = netOut net A n := by
    intro n hn
    induction n with
    | zero => rfl
    | succ n ih =>
      unfold netOut
      rw [ih (by omega), hL, rescale_below net k j c (by omega)]
  have mid : ∀ i a, netOut net' A (k + 1) i a = (if a = j then c else 1) * netOut net A (k + 1) i a := by
    intro i a
    show infer (net'.L k) (netOut net' A k) i a = _ * infer (net.L k) (netOut net A k) i a
    rw [low k le_rfl, hL, ← infer_grow hk j hc]
    unfold rescale
    rw [if_pos rfl]
  have top : ∀ t, netOut net' A (k + 2 + t) = netOut net A (k + 2 + t) := by
    intro t
    induction t with
    | zero =>
      show infer (net'.L (k + 1)) (netOut net' A (k + 1)) = infer (net.L (k + 1)) (netOut net A (k + 1))
      rw [hL]
      unfold rescale
      rw [if_neg (by omega), if_pos rfl]
      exact infer_shrink _ j hc mid
    | succ t ih =>
      show infer (net'.L (k + 2 + t)) (netOut net' A (k + 2 + t)) = infer (net.L (k + 2 + t)) (netOut net A (k + 2 + t))
      rw [ih, hL]
      unfold rescale
      rw [if_neg (by omega), if_neg (by omega)]
  rcases Nat.lt_or_ge n (k + 1) with h | h
  · exact low n (by omega)
  · rw [show n = k + 2 + (n - (k + 2)) by omega]
    exact top _

/-- C153 (a): two models that differ in the scale of one unit (ReLU, leaky ReLU, dropout or linear; not in the last layer): incoming weights
and bias multiplied by c > 0, outgoing weights divided by c. Forward gives the same predictions on the same inputs, also in training,
with the same random numbers. -/
theorem C153_rescale (w w' : World ℝ) (m m' : Model ℝ) (net net' : Net ℝ) (k j : Nat) (c : ℝ) (hN : IsNet w m net) (hN' : IsNet w' m' net')
    (hs : net'.size = net.size) (hd : net'.dim = net.dim) (hL : net'.L = rescale net k j c) (hk : (net.L k).kind.Homog) (hc : 0 < c)
    (hlast : k + 1 < net.size) (x x' : Mat) (r : Nat) (A : Nat → Nat → ℝ) (hX : IsMat w x r (net.dim 0) A) (hX' : IsMat w' x' r (net.dim 0) A)
    (training : Bool) (hu : training = true → ∀ q, w'.unif (w'.unifPos + q) = w.unif (w.unifPos + q)) :
    ∃ F : Nat → Nat → ℝ,
      (wp (modelForward m x training) w fun o w1 => o.2 = none ∧ ∃ out, o.1[net.size]? = some out ∧ IsMat w1 out r (net.dim net.size) F) ∧
      wp (modelForward m' x' training) w' fun o w1 => o.2 = none ∧ ∃ out, o.1[net.size]? = some out ∧ IsMat w1 out r (net.dim net.size) F := by
  have run : ∀ (w : World ℝ) (m : Model ℝ) (net : Net ℝ) (x : Mat), IsNet w m net → 0 < net.size → IsMat w x r (net.dim 0) A →
      wp (modelForward m x training) w fun o w1 => o.2 = none ∧ ∃ out, o.1[net.size]? = some out ∧ IsMat w1 out r (net.dim net.size)
        (if training then trainVals net r (fun q => w.unif (w.unifPos + q)) A net.size else netOut net A net.size) := by
    intro w m net x hN h0 hX
    refine wp_mono (modelForward_spec hN hX training) ?_
    rintro ⟨outs, e⟩ w1 ⟨o, mask, V, M, h1, h2, h3, h4, h5⟩
    refine ⟨h2, o net.size, ?_, ?_⟩
    · dsimp only at h1
      rw [h1]
      simp
    · have hm : IsMat w1 (o net.size) r (net.dim net.size) (V net.size) := by
        have := (h5.res (net.size - 1) (by omega)).mat
        rwa [show net.size - 1 + 1 = net.size by omega] at this
      have e : (if training then trainVals net r (fun q => w.unif (w.unifPos + q)) A net.size else netOut net A net.size) = V net.size := by
        cases training with
        | true => exact (run_vals h5 h4 net.size le_rfl).symm
        | false =>
          rw [h5.netOut (fun _ _ h => absurd h.1 (by decide)) net.size le_rfl, h4]
          rfl
      rw [e]
      exact hm
  refine ⟨_, run w m net x hN (by omega) hX, ?_⟩
  have h2 := run w' m' net' x' hN' (by omega) (by rw [hd]; exact hX')
  rw [hs, hd] at h2
  cases training with
  | true =>
    simp only [if_true] at h2 ⊢
    rw [rescale_train hL hk hc r _ A net.size (by omega), show (fun q => w'.unif (w'.unifPos + q)) = fun q => w.unif (w.unifPos + q) from
      funext (hu rfl)] at h2
    exact h2
  | false =>
    simp only [Bool.false_eq_true, if_false] at h2 ⊢
    rw [rescale_infer hL hk hc A net.size (by omega)] at h2
    exact h2

/-! ### The balance of a unit -/

/-- The scalar product of the incoming weights and the bias of unit j of L with those of unit l of L'. -/
noncomputable def inDot (L L' : LayerSpec ℝ) (j l : Nat) : ℝ := (∑ a ∈ range L.n, L.W a j * L'.W a l) + L.b j * L'.b l

/-- The scalar product of the weights that L gives to its input j with those that L' gives to its input l. -/
noncomputable def outDot (L L' : LayerSpec ℝ) (j l : Nat) : ℝ := ∑ b ∈ range L.o, L.W j b * L'.W l b

/-- How the parameters of a layer have changed. -/
noncomputable def LayerSpec.diff (L L' : LayerSpec ℝ) : LayerSpec ℝ := { L with W := fun a b => L'.W a b - L.W a b, b := fun b => L'.b b - L.b b }

/-- The share of the gradient that passes a layer: 1-d for dropout layers. -/
noncomputable def LayerSpec.share (L : LayerSpec ℝ) : ℝ := if L.kind = .dropout then 1 - L.dropout else 1

/-- Which units the law is about: any two units of a linear layer, or one unit of a layer with ReLU, leaky ReLU (slope > 0) or dropout. -/
def Paired (L : LayerSpec ℝ) (j l : Nat) : Prop :=
  L.kind = .linear ∨ j = l ∧ (L.kind = .hidden ∨ L.kind = .leaky ∧ 0 < L.slope ∨ L.kind = .dropout ∧ L.dropout < 1)

theorem dropBits_01 (L : LayerSpec ℝ) (u : Nat → ℝ) (i j : Nat) : dropBits L u i j = 0 ∨ dropBits L u i j = 1 := by
  have hm : dropBits L u i j = bern (1 - L.dropout) (u (i * L.o + j)) := by simp [dropBits, Flt.one]
  rw [hm, bern_real]
  exact Set.indicator_eq_zero_or_self _ _ _

/-- Pre-activation times gradient, and output times gradient. -/
theorem paired_point {L : LayerSpec ℝ} {j l : Nat} (h : Paired L j l) (u : Nat → ℝ) (X D : Nat → Nat → ℝ) (i : Nat) :
    preact L X i j * actBack L (trainOut L u X) (dropBits L u) D i l = L.share * (trainOut L u X i j * D i l) := by
  have hz0 : (Flt.zero : ℝ) = 0 := by simp [Flt.zero]
  rcases h with h | ⟨rfl, h | ⟨h, hs⟩ | ⟨h, hd⟩⟩
  · have hn : L.kind ≠ .dropout := by rw [h]; exact LayerKind.noConfusion
    unfold LayerSpec.share
    rw [if_neg hn, trainOut_infer, if_neg hn]
    unfold actBack infer actRow
    rw [h]
    simp
  · have hn : L.kind ≠ .dropout := by rw [h]; exact LayerKind.noConfusion
    unfold LayerSpec.share
    rw [if_neg hn, one_mul]
    unfold actBack
    rw [h]
    dsimp only
    rw [trainOut_infer, if_neg hn, mul_one]
    unfold infer actRow
    rw [h]
    dsimp only
    rw [hz0]
    simp only [real_max, real_le, decide_eq_true_eq]
    by_cases hx : preact L X i j ≤ 0
    · rw [max_eq_right hx]; simp
    · rw [max_eq_left (not_le.1 hx).le, if_neg hx]
  · have hn : L.kind ≠ .dropout := by rw [h]; exact LayerKind.noConfusion
    unfold LayerSpec.share
    rw [if_neg hn, one_mul]
    unfold actBack
    rw [h]
    dsimp only
    rw [trainOut_infer, if_neg hn, mul_one]
    unfold infer actRow
    rw [h]
    dsimp only
    rw [hz0]
    simp only [real_lt, decide_eq_true_eq]
    by_cases hx : preact L X i j < 0
    · rw [if_pos hx, if_pos (show preact L X i j *. L.slope < 0 from mul_neg_of_neg_of_pos hx hs)]
      show preact L X i j * (D i j * L.slope) = preact L X i j * L.slope * D i j
      ring
    · rw [if_neg hx, if_neg hx]
  · unfold LayerSpec.share
    rw [if_pos h]
    unfold actBack
    rw [h]
    dsimp only
    have hp : 0 < 1 - L.dropout := by linarith
    rw [trainOut_infer, if_pos h]
    unfold infer actRow
    rw [h]
    dsimp only
    rw [hz0]
    simp only [real_max, real_le, decide_eq_true_eq]
    rcases dropBits_01 L u i j with hb | hb
    · rw [hb]; simp
    · rw [hb]
      by_cases hx : preact L X i j ≤ 0
      · rw [max_eq_right hx]; simp
      · have hx' := not_le.1 hx
        rw [max_eq_left hx'.le, if_neg (not_le.2 (by positivity))]
        show preact L X i j * (D i j * 1) = (1 - L.dropout) * (preact L X i j * (1 / (1 - L.dropout)) * D i j)
        field_simp

theorem NetGrad.inner {m : Model ℝ} {lk : LossKind} {r : Nat} {V M : Nat → Nat → Nat → ℝ} {Y : Nat → Nat → ℝ} {G D : Nat → Nat → Nat → ℝ}
    (h : NetGrad m net lk r V M Y G D) {k : Nat} (hk : k + 1 < net.size) :
    G k = actBack (net.L k) (V (k + 1)) (M k) (D (k + 1)) ∧ D (k + 1) = gradX (net.L (k + 1)) (G (k + 1)) := by
  by_cases hF : Fused m net
  · obtain ⟨-, h1, h2⟩ := h.fused hF
    refine ⟨h2.act k (by omega), ?_⟩
    by_cases he : k + 1 = net.size - 1
    · rw [he, h1]
    · exact h2.inp (k + 1) (by omega)
  · obtain ⟨-, h1⟩ := h.plain hF
    refine ⟨?_, h1.inp (k + 1) hk⟩
    have := h1.act k (by omega)
    rwa [if_neg (by omega)] at this

/-- Incoming parameters times their gradients, and outgoing weights times their gradients. -/
theorem balance_grad {m : Model ℝ} {lk : LossKind} {r : Nat} {u : Nat → ℝ} {A Y : Nat → Nat → ℝ} {G D : Nat → Nat → Nat → ℝ}
    (h : NetGrad m net lk r (trainVals net r u A) (fun k => dropBits (net.L k) fun q => u (dropDraws net r k + q)) Y G D) {k : Nat} (hk : k + 1 < net.size)
    {j l : Nat} (hp : Paired (net.L k) j l) :
    (∑ a ∈ range (net.L k).n, (net.L k).W a j * gradW r (trainVals net r u A k) (G k) a l) + (net.L k).b j * gradB r (G k) 0 l =
      (net.L k).share * ∑ b ∈ range (net.L (k + 1)).o, (net.L (k + 1)).W l b * gradW r (trainVals net r u A (k + 1)) (G (k + 1)) j b := by
  obtain ⟨h1, h2⟩ := h.inner hk
  have e1 : (∑ a ∈ range (net.L k).n, (net.L k).W a j * gradW r (trainVals net r u A k) (G k) a l) + (net.L k).b j * gradB r (G k) 0 l =
      ∑ i ∈ range r, preact (net.L k) (trainVals net r u A k) i j * G k i l := by
    unfold gradW gradB
    simp only [fsum_real, preact_real, add_mul, sum_add_distrib, mul_sum, sum_mul]
    rw [sum_comm]
    congr 1
    exact sum_congr rfl fun i _ => sum_congr rfl fun a _ => by
      show (net.L k).W a j * (trainVals net r u A k i a * G k i l) = _
      ring
  have e2 : ∑ b ∈ range (net.L (k + 1)).o, (net.L (k + 1)).W l b * gradW r (trainVals net r u A (k + 1)) (G (k + 1)) j b =
      ∑ i ∈ range r, trainVals net r u A (k + 1) i j * D (k + 1) i l := by
    rw [h2]
    unfold gradW gradX
    simp only [fsum_real, mul_sum]
    rw [sum_comm]
    exact sum_congr rfl fun i _ => sum_congr rfl fun b _ => by
      show (net.L (k + 1)).W l b * (trainVals net r u A (k + 1) i j * G (k + 1) i b) = trainVals net r u A (k + 1) i j * (G (k + 1) i b * (net.L (k + 1)).W l b)
      ring
  rw [e1, e2, mul_sum]
  refine sum_congr rfl fun i _ => ?_
  rw [h1]
  exact paired_point hp _ _ _ i

/-- Two optimizers that both do gradient descent without momentum, at the same pace. -/
structure SamePace (S S' : OptSpec ℝ) : Prop where
  kind : S.kind = .sgd
  kind' : S'.kind = .sgd
  mom : S.momentum = 0
  mom' : S'.momentum = 0
  lr : S'.lr = S.lr
  decay : S'.decay = S.decay
  t : S'.t = S.t

theorem SamePace.rate {S S' : OptSpec ℝ} (h : SamePace S S') : S'.rate = S.rate := by
  unfold OptSpec.rate
  rw [h.lr, h.decay, h.t]

theorem SamePace.step {S S' : OptSpec ℝ} (h : SamePace S S') (a b a' b' : Nat → Nat → ℝ) : SamePace (S.step a b) (S'.step a' b') :=
  ⟨h.kind, h.kind', h.mom, h.mom', h.lr, h.decay, congrArg (· + 1) h.t⟩

/-- One step keeps the balance of a unit to first order. -/
theorem balance_step {m : Model ℝ} {lk : LossKind} {r : Nat} {u : Nat → ℝ} {A Y : Nat → Nat → ℝ} {S S' : Nat → OptSpec ℝ} {k : Nat}
    (h : TrainStep m lk r u A Y net S net' S') (hk : k + 1 < net.size) (hS : SamePace (S k) (S (k + 1))) {j l : Nat} (hp : Paired (net.L k) j l) :
    inDot (net.L k) ((net.L k).diff (net'.L k)) j l = (net.L k).share * outDot (net.L (k + 1)) ((net.L (k + 1)).diff (net'.L (k + 1))) l j := by
  obtain ⟨G, D, hG, rfl, -⟩ := h
  have key := balance_grad hG hk hp
  have w1 : ∀ a, (((stepNet net S r (trainVals net r u A) G).L k).W a l - (net.L k).W a l) = -(S k).rate * gradW r (trainVals net r u A k) (G k) a l := by
    intro a
    show (S k).newW _ _ a l - _ = _
    rw [((sgd_newW hS.kind _ _ a l).1 hS.mom).1]
    ring
  have w2 : ∀ b, (((stepNet net S r (trainVals net r u A) G).L (k + 1)).W j b - (net.L (k + 1)).W j b) =
      -(S k).rate * gradW r (trainVals net r u A (k + 1)) (G (k + 1)) j b := by
    intro b
    show (S (k + 1)).newW _ _ j b - _ = _
    rw [((sgd_newW hS.kind' _ _ j b).1 hS.mom').1, hS.rate]
    ring
  have w3 : ((stepNet net S r (trainVals net r u A) G).L k).b l - (net.L k).b l = -(S k).rate * gradB r (G k) 0 l := by
    show (S k).newB (fun _ j => (net.L k).b j) (gradB r (G k)) 0 l - _ = _
    rw [sgd_newB hS.kind hS.mom]
    ring
  unfold inDot outDot LayerSpec.diff
  dsimp only
  simp only [w1, w2, w3]
  have e1 : (∑ a ∈ range (net.L k).n, (net.L k).W a j * (-(S k).rate * gradW r (trainVals net r u A k) (G k) a l)) +
      (net.L k).b j * (-(S k).rate * gradB r (G k) 0 l) = -(S k).rate * ((∑ a ∈ range (net.L k).n, (net.L k).W a j *
        gradW r (trainVals net r u A k) (G k) a l) + (net.L k).b j * gradB r (G k) 0 l) := by
    rw [mul_add, mul_sum]
    congr 1
    · exact sum_congr rfl fun a _ => by ring
    · ring
  rw [e1, key, mul_sum, mul_sum, mul_sum]
  exact sum_congr rfl fun b _ => by ring

theorem inDot_diff (L L' : LayerSpec ℝ) (hn : L'.n = L.n) (j l : Nat) : inDot L' L' j l =
    inDot L L j l + inDot L (L.diff L') j l + inDot L (L.diff L') l j + inDot (L.diff L') (L.diff L') j l := by
  unfold inDot LayerSpec.diff
  dsimp only
  rw [hn]
  have : ∑ a ∈ range L.n, L'.W a j * L'.W a l = ∑ a ∈ range L.n, (L.W a j * L.W a l + L.W a j * (L'.W a l - L.W a l) + L.W a l * (L'.W a j - L.W a j) +
    (L'.W a j - L.W a j) * (L'.W a l - L.W a l)) := sum_congr rfl fun a _ => by ring
  rw [this]
  simp only [sum_add_distrib]
  ring

theorem outDot_diff (L L' : LayerSpec ℝ) (ho : L'.o = L.o) (j l : Nat) : outDot L' L' j l =
    outDot L L j l + outDot L (L.diff L') j l + outDot L (L.diff L') l j + outDot (L.diff L') (L.diff L') j l := by
  unfold outDot LayerSpec.diff
  dsimp only
  rw [ho]
  have : ∑ a ∈ range L.o, L'.W j a * L'.W l a = ∑ a ∈ range L.o, (L.W j a * L.W l a + L.W j a * (L'.W l a - L.W l a) + L.W l a * (L'.W j a - L.W j a) +
    (L'.W j a - L.W j a) * (L'.W l a - L.W l a)) := sum_congr rfl fun a _ => by ring
  rw [this]
  simp only [sum_add_distrib]

theorem Paired.symm {L : LayerSpec ℝ} {j l : Nat} (h : Paired L j l) : Paired L l j := by
  rcases h with h | ⟨rfl, h⟩
  · exact .inl h
  · exact .inr ⟨rfl, h⟩

/-- The balance: products of incoming parameters, minus the share times the products of outgoing weights. -/
noncomputable def balance (net : Net ℝ) (k j l : Nat) : ℝ :=
  inDot (net.L k) (net.L k) j l - (net.L k).share * outDot (net.L (k + 1)) (net.L (k + 1)) j l

/-- The balance of the changes of the parameters. -/
noncomputable def moved (net net' : Net ℝ) (k j l : Nat) : ℝ :=
  inDot ((net.L k).diff (net'.L k)) ((net.L k).diff (net'.L k)) j l -
    (net.L k).share * outDot ((net.L (k + 1)).diff (net'.L (k + 1))) ((net.L (k + 1)).diff (net'.L (k + 1))) j l

theorem balance_moved {k j l : Nat} (hs : SameShape net net') (hp : Paired (net.L k) j l)
    (h : ∀ j l, Paired (net.L k) j l → inDot (net.L k) ((net.L k).diff (net'.L k)) j l =
      (net.L k).share * outDot (net.L (k + 1)) ((net.L (k + 1)).diff (net'.L (k + 1))) l j) :
    balance net' k j l = balance net k j l + moved net net' k j l := by
  have e : (net'.L k).share = (net.L k).share := by
    obtain ⟨W, b, e⟩ := hs.layer k
    rw [e]
    rfl
  unfold balance moved
  rw [inDot_diff _ _ (hs.n k), outDot_diff _ _ (hs.o (k + 1)), h j l hp, h l j hp.symm, e]
  ring

theorem SameShape.paired {k j l : Nat} (hs : SameShape net net') (hp : Paired (net.L k) j l) : Paired (net'.L k) j l ∧ (net'.L k).share = (net.L k).share := by
  obtain ⟨W, b, e⟩ := hs.layer k
  rw [e]
  exact ⟨hp, rfl⟩

/-- The networks during training, and how the balance of each unit changes. -/
theorem descent_balance {m : Model ℝ} {lk : LossKind} {u : Nat → ℝ} {A B : Nat → Nat → ℝ} {S : Nat → OptSpec ℝ} {p : Nat}
    (bs : List (Nat × Nat)) {S' : Nat → OptSpec ℝ} {p' : Nat} (h : Descent m lk u A B net S p bs net' S' p') :
    ∃ N : Nat → Net ℝ, N bs.length = net' ∧ (∀ s, s ≤ bs.length → SameShape net (N s) ∧ ∃ S1 p1, Descent m lk u A B net S p (bs.take s) (N s) S1 p1) ∧
      ∀ k, k + 1 < net.size → SamePace (S k) (S (k + 1)) → SamePace (S' k) (S' (k + 1)) ∧ ∀ j l, Paired (net.L k) j l →
        (∀ s, s < bs.length → inDot ((N s).L k) (((N s).L k).diff ((N (s + 1)).L k)) j l =
          (net.L k).share * outDot ((N s).L (k + 1)) (((N s).L (k + 1)).diff ((N (s + 1)).L (k + 1))) l j) ∧
        balance net' k j l = balance net k j l + ∑ s ∈ range bs.length, moved (N s) (N (s + 1)) k j l := by
  induction bs using List.reverseRecOn generalizing net' S' p' with
  | nil =>
    obtain ⟨rfl, rfl, rfl⟩ := h.nil
    exact ⟨fun _ => net', rfl, fun s hs => ⟨SameShape.refl _, _, _, by simpa using h⟩, fun k hk hS => ⟨hS, fun j l hp =>
      ⟨fun s hs => absurd hs (by simp), by simp⟩⟩⟩
  | append_singleton bs b ih =>
    have h' := h
    obtain ⟨net1, S1, p1, a1, a2, rfl⟩ := h.snoc
    obtain ⟨N, n1, n2, n3⟩ := ih a1
    have hsh1 : SameShape net net1 := n1 ▸ (n2 bs.length le_rfl).1
    have hsh : SameShape net1 net' := a2.shape
    let N' : Nat → Net ℝ := fun s => if s = bs.length + 1 then net' else N s
    have e1 : N' (bs.length + 1) = net' := if_pos rfl
    have e2 : ∀ s, s ≤ bs.length → N' s = N s := fun s hs => if_neg (by omega)
    have e3 : N' bs.length = net1 := (e2 _ le_rfl).trans n1
    refine ⟨N', by rw [List.length_append]; exact e1, fun s hs => ?_, fun k hk hS => ?_⟩
    · rw [List.length_append, List.length_singleton] at hs
      rcases Nat.lt_or_ge bs.length s with h1 | h1
      · obtain rfl : s = bs.length + 1 := by omega
        refine ⟨by rw [e1]; exact hsh1.trans hsh, S', p1 + dropDraws net1 b.2 net1.size, ?_⟩
        rw [e1, List.take_of_length_le (by simp)]
        exact h'
      · rw [e2 s h1, List.take_append_of_le_length h1]
        exact n2 s h1
    · obtain ⟨k1, k2⟩ := n3 k hk hS
      have k3 : SamePace (S' k) (S' (k + 1)) := by
        obtain ⟨G, D, -, -, rfl⟩ := a2
        exact k1.step _ _ _ _
      refine ⟨k3, fun j l hp => ?_⟩
      have first := fun j l (hp : Paired (net.L k) j l) => balance_step a2 (by rw [hsh1.size]; exact hk) k1 (hsh1.paired hp).1
      have hq := (hsh1.paired hp).2
      refine ⟨fun s hs => ?_, ?_⟩
      · rw [List.length_append, List.length_singleton] at hs
        rcases Nat.lt_or_ge s bs.length with h1 | h1
        · rw [e2 s h1.le, e2 (s + 1) h1]
          exact (k2 j l hp).1 s h1
        · obtain rfl : s = bs.length := by omega
          rw [e1, e3, ← hq]
          exact first j l hp
      · rw [List.length_append, List.length_singleton, sum_range_succ, e1, e3,
          balance_moved hsh (hsh1.paired hp).1 (fun j l hp1 => balance_step a2 (by rw [hsh1.size]; exact hk) k1 hp1), (k2 j l hp).2, add_assoc]
        congr 2
        exact sum_congr rfl fun s hs => by
          have := mem_range.1 hs
          rw [e2 s (by omega), e2 (s + 1) (by omega)]

/-- C153 (b): Fit, with gradient descent without momentum at the same pace in layers k and k+1: the networks N 0, N 1, ... after each batch,
and how the balance of each unit of layer k changes. At every step the scalar product of its incoming parameters with their change is that
of its outgoing weights with their change, times the share 1-d for dropout layers; so in total the balance changes by the squares of the changes
only. In linear layers the same holds for any two units. -/
theorem C153_fit (w : World ℝ) (m : Model ℝ) (net : Net ℝ) (op : Nat → Nat) (S : Nat → OptSpec ℝ) (lk : LossKind) (X Y xv yv : Mat) (n : Nat)
    (A B : Nat → Nat → ℝ) (h : Trains w m net op S lk X Y n A B) (epochs : Int) (b : Nat) (hbig : n + b ≤ 2 ^ 53) :
    wp (fit m X Y epochs b xv yv 0) w fun e w' => e = none ∧ ∃ (T : Nat) (N : Nat → Net ℝ),
      T = (List.replicate epochs.toNat (blocks n b)).flatten.length ∧ N 0 = net ∧ IsNet w' m (N T) ∧
      (∀ s, s ≤ T → SameShape net (N s) ∧ ∃ S1 p1,
        Descent m lk w.unif A B net S w.unifPos ((List.replicate epochs.toNat (blocks n b)).flatten.take s) (N s) S1 p1) ∧
      ∀ k, k + 1 < net.size → SamePace (S k) (S (k + 1)) → ∀ j l, Paired (net.L k) j l →
        (∀ s, s < T → inDot ((N s).L k) (((N s).L k).diff ((N (s + 1)).L k)) j l =
          (net.L k).share * outDot ((N s).L (k + 1)) (((N s).L (k + 1)).diff ((N (s + 1)).L (k + 1))) l j) ∧
        balance (N T) k j l = balance net k j l + ∑ s ∈ range T, moved (N s) (N (s + 1)) k j l := by
  refine wp_mono (C70_fit w m net op S h.task h.noSig _ h.loss rfl X Y xv yv n A B h.xs.mat h.ys.mat h.xs.cap h.ys.cap h.xs.sep h.ys.sep
    epochs b hbig) ?_
  rintro e w' ⟨he, net', S', hD, hT, -⟩
  obtain ⟨N, n1, n2, n3⟩ := descent_balance _ hD
  refine ⟨he, _, N, rfl, ?_, n1 ▸ hT.isNet, n2, fun k hk hS j l hp => ?_⟩
  · obtain ⟨-, S1, p1, h0⟩ := n2 0 (Nat.zero_le _)
    rw [List.take_zero] at h0
    exact h0.nil.1
  · rw [n1]
    exact ((n3 k hk hS).2 j l hp)

/-- C153 (c): for a ReLU unit, and one epoch on one batch, written out: the squares of its incoming weights and its bias minus the squares of
its outgoing weights change by the squares of the changes of these, and so by nothing of first order in the learning rate. -/
theorem C153_unit (w : World ℝ) (m : Model ℝ) (net : Net ℝ) (op : Nat → Nat) (S : Nat → OptSpec ℝ) (lk : LossKind) (X Y xv yv : Mat) (n : Nat)
    (A B : Nat → Nat → ℝ) (h : Trains w m net op S lk X Y n A B) (b : Nat) (hn : 0 < n) (hb : b = 0 ∨ n ≤ b) (hbig : n + b ≤ 2 ^ 53) :
    wp (fit m X Y 1 b xv yv 0) w fun e w' => e = none ∧ ∃ net' : Net ℝ, IsNet w' m net' ∧ SameShape net net' ∧
      ∀ k j, k + 1 < net.size → SamePace (S k) (S (k + 1)) → (net.L k).kind = .hidden →
        ((∑ a ∈ range (net.L k).n, ((net'.L k).W a j) ^ 2) + ((net'.L k).b j) ^ 2) - ∑ c ∈ range (net.L (k + 1)).o, ((net'.L (k + 1)).W j c) ^ 2 =
        ((∑ a ∈ range (net.L k).n, ((net.L k).W a j) ^ 2) + ((net.L k).b j) ^ 2) - ∑ c ∈ range (net.L (k + 1)).o, ((net.L (k + 1)).W j c) ^ 2 +
        (((∑ a ∈ range (net.L k).n, ((net'.L k).W a j - (net.L k).W a j) ^ 2) + ((net'.L k).b j - (net.L k).b j) ^ 2) -
          ∑ c ∈ range (net.L (k + 1)).o, ((net'.L (k + 1)).W j c - (net.L (k + 1)).W j c) ^ 2) := by
  refine wp_mono (C153_fit w m net op S lk X Y xv yv n A B h 1 b hbig) ?_
  rintro e w' ⟨he, T, N, hT, h0, h1, h2, h3⟩
  have hT1 : T = 1 := by
    rw [hT, blocks_full hn hb]
    rfl
  subst hT1
  refine ⟨he, N 1, h1, (h2 1 le_rfl).1, fun k j hk hS hkind => ?_⟩
  have hsh := (h2 1 le_rfl).1
  obtain ⟨-, key⟩ := h3 k hk hS j j (.inr ⟨rfl, .inl hkind⟩)
  have q1 : (net.L k).share = 1 := by
    unfold LayerSpec.share
    rw [if_neg (by rw [hkind]; exact LayerKind.noConfusion)]
  have q2 : ((N 1).L k).share = 1 := by rw [(hsh.paired (j := j) (l := j) (.inr ⟨rfl, .inl hkind⟩)).2, q1]
  rw [sum_range_one] at key
  unfold balance moved inDot outDot LayerSpec.diff at key
  dsimp only at key
  rw [show (0 + 1) = 1 from rfl, h0, q1, q2, hsh.n, hsh.o] at key
  simp only [one_mul, ← pow_two] at key
  exact key

/-! ### The hypotheses can be met -/

/-- C153_fit, C153_unit: ReLU, dropout and linear, gradient descent with decay. -/
example : ∃ (w : World ℝ) (m : Model ℝ) (net : Net ℝ) (op : Nat → Nat) (S : Nat → OptSpec ℝ) (X Y : Mat) (A B : Nat → Nat → ℝ),
    Trains w m net op S .mse X Y 5 A B ∧ net.size = 3 ∧ SamePace (S 0) (S 1) ∧ SamePace (S 1) (S 2) ∧ (net.L 0).kind = .hidden ∧
    (∀ j, Paired (net.L 0) j j) ∧ (∀ j, Paired (net.L 1) j j) ∧ (net.L 1).share = 1 / 2 ∧ 0 < (S 0).rate := by
  obtain ⟨o, ho⟩ := sgd_ok_real (lr := 1 / 10) (decay := 1 / 100) (mom := 0) (by norm_num) (by norm_num) le_rfl
  have hrows : o.weightMomentums.rows = 0 := by rw [newSGD_ok ho]; rfl
  obtain ⟨w, net, op, XM, YM, xM, yM, hf, hs, hL, hdim, hT, dX, dY, -, -⟩ := exists_task emptyWorld 3 (by decide)
    demoT (fun i => demoT_pos (α := ℝ) i) (fun i => demoT_chain (α := ℝ) i) { newModel with loss := some ⟨.mse, (demoT 3 : LayerSpec ℝ).n⟩, lossType := 0 } o
    (OptSpec.fresh o) hrows
    (fun w p i hlt e => e ▸ isOpt_newSGD _ _ _ _ hlt (e.symm ▸ ho)) (r := 5) (r' := 2) (by decide) (by decide)
    (fun i _ => (i : ℝ) + 1) (fun i j => if j = i then 1 else 0) (fun i _ => (i : ℝ)) (fun _ j => (j : ℝ))
  have d0 : net.dim 0 = (demoT 0 : LayerSpec ℝ).n := by rw [hdim]
  have d1 : net.dim net.size = (demoT 3 : LayerSpec ℝ).n := by rw [hdim, hs]
  have hh : (Flt.half : ℝ) = 1 / 2 := by simp [real_half]
  have hp : SamePace (OptSpec.fresh o) (OptSpec.fresh o) := by
    rw [newSGD_ok ho]
    exact ⟨rfl, rfl, rfl, rfl, rfl, rfl, rfl⟩
  refine ⟨w, _, net, op, _, XM, YM, _, _, ⟨hT, by rw [d1]; rfl, fun i _ => by rw [hL]; exact demoT_kind i, d0 ▸ dX, d1 ▸ dY⟩, hs, hp, hp, ?_,
    fun j => .inr ⟨rfl, .inl ?_⟩, fun j => .inr ⟨rfl, .inr (.inr ⟨?_, ?_⟩)⟩, ?_, ?_⟩
  · rw [hL]; rfl
  · rw [hL]; rfl
  · rw [hL]; rfl
  · rw [hL]; show (Flt.half : ℝ) < 1; rw [hh]; norm_num
  · rw [hL]
    unfold LayerSpec.share
    rw [if_pos (show (demoT 1 : LayerSpec ℝ).kind = .dropout from rfl)]
    show 1 - (Flt.half : ℝ) = _
    rw [hh]; norm_num
  · rw [newSGD_ok ho]
    unfold OptSpec.rate
    norm_num [OptSpec.fresh, Flt.zero, Flt.one]

/-- C153_rescale: a model with ReLU, dropout and linear layers, and the same model with the unit 1 of its first layer doubled. -/
example (A : Nat → Nat → ℝ) : ∃ (w w' : World ℝ) (m m' : Model ℝ) (net net' : Net ℝ) (x x' : Mat), IsNet w m net ∧ IsNet w' m' net' ∧
    net'.size = net.size ∧ net'.dim = net.dim ∧ net'.L = rescale net 0 1 2 ∧ (net.L 0).kind.Homog ∧ 0 + 1 < net.size ∧ 1 < (net.L 0).o ∧
    IsMat w x 5 (net.dim 0) A ∧ IsMat w' x' 5 (net.dim 0) A := by
  obtain ⟨o, ho⟩ := sgd_ok_real (lr := 1 / 10) (decay := 1 / 100) (mom := 0) (by norm_num) (by norm_num) le_rfl
  have hrows : o.weightMomentums.rows = 0 := by rw [newSGD_ok ho]; rfl
  obtain ⟨w, net, op, XM, YM, xM, yM, hf, hs, hL, hdim, hT, dX, -, -, -⟩ := exists_task emptyWorld 3 (by decide)
    demoT (fun i => demoT_pos (α := ℝ) i) (fun i => demoT_chain (α := ℝ) i) newModel o
    (OptSpec.fresh o) hrows
    (fun w p i hlt e => e ▸ isOpt_newSGD _ _ _ _ hlt (e.symm ▸ ho)) (r := 5) (r' := 2) (by decide) (by decide)
    A (fun i j => if j = i then 1 else 0) (fun i _ => (i : ℝ)) (fun _ j => (j : ℝ))
  have hn : ∀ i, (rescale net 0 1 2 i).n = (demoT i : LayerSpec ℝ).n := fun i => by
    rw [← hL]
    unfold rescale
    split
    · rfl
    · split <;> rfl
  have hoo : ∀ i, (rescale net 0 1 2 i).o = (demoT i : LayerSpec ℝ).o := fun i => by rw [← hL]; exact (rescale_kind net 0 1 2 i).2
  obtain ⟨w', net', op', XM', YM', xM', yM', hf', hs', hL', hdim', hT', dX', -, -, -⟩ := exists_task emptyWorld 3 (by decide)
    (rescale net 0 1 2) (fun i => by rw [hn, hoo]; exact demoT_pos (α := ℝ) i) (fun i => by rw [hn, hoo]; exact demoT_chain (α := ℝ) i) newModel o
    (OptSpec.fresh o) hrows
    (fun w p i hlt e => e ▸ isOpt_newSGD _ _ _ _ hlt (e.symm ▸ ho)) (r := 5) (r' := 2) (by decide) (by decide)
    A (fun i j => if j = i then 1 else 0) (fun i _ => (i : ℝ)) (fun _ j => (j : ℝ))
  refine ⟨w, w', _, _, net, net', XM, XM', hT.isNet, hT'.isNet, by rw [hs, hs'], ?_, hL', .inl ?_, by rw [hs]; decide, ?_, ?_, ?_⟩
  · rw [hdim, hdim']
    exact funext hn
  · rw [hL]; rfl
  · rw [hL]; show 1 < 3; decide
  · rw [hdim]; exact dX.mat
  · rw [hdim]
    have := dX'.mat
    rwa [hn] at this

end NN
