import Verif.Props.C134
/-
C135: training on several copies of the data set, in one batch, in exact arithmetic.
-/

set_option linter.unusedSectionVars false

namespace NN
open Go Finset

/-! ### The gradients -/

/-- The effect of c copies of each sample on the gradient at the predictions: the cross-entropies are averaged over the samples, the
squared and absolute errors are summed. -/
noncomputable def copyScale (loss : LossKind) (c : Nat) : ℝ :=
  match loss with
  | .mse | .mae => 1
  | .ce | .bce => 1 / c

theorem actBack_scale {L : LayerSpec ℝ} (hd : L.kind ≠ .dropout) (P M M' D : Nat → Nat → ℝ) (s : ℝ) (σ : Nat → Nat) (i j : Nat) :
    actBack L (fun i => P (σ i)) M' (fun i j => s * D (σ i) j) i j = s * actBack L P M D (σ i) j := by
  unfold actBack
  cases hk : L.kind <;> dsimp only
  case dropout => exact absurd hk hd
  case softmax =>
    rw [fsum_real, fsum_real, mul_sum]
    exact sum_congr rfl fun k _ => by simp only [real_mul, real_sub]; ring
  case hidden =>
    split
    · simp [Flt.zero]
    · rfl
  case leaky =>
    split
    · simp only [real_mul]; ring
    · rfl

theorem gradX_scale (L : LayerSpec ℝ) (G : Nat → Nat → ℝ) (s : ℝ) (σ : Nat → Nat) :
    gradX L (fun i j => s * G (σ i) j) = fun i j => s * gradX L G (σ i) j := by
  funext i k
  unfold gradX
  rw [fsum_real, fsum_real, mul_sum]
  exact sum_congr rfl fun j _ => by simp only [real_mul]; ring

theorem div_copies (x : ℝ) (c r : Nat) : x /. Flt.ofInt ((c * r : Nat) : Int) = 1 / c * (x /. Flt.ofInt (r : Int)) := by
  simp only [real_div, real_ofInt, Int.cast_natCast, Nat.cast_mul, Int.cast_mul]
  rw [one_div_mul_eq_div, div_div, mul_comm (c : ℝ)]

theorem lossGrad_scale (loss : LossKind) (r c d : Nat) (P Y : Nat → Nat → ℝ) (σ : Nat → Nat) (i j : Nat) :
    lossGrad loss (c * r) d (fun i => P (σ i)) (fun i => Y (σ i)) i j = copyScale loss c * lossGrad loss r d P Y (σ i) j := by
  unfold lossGrad copyScale
  cases loss <;> dsimp only
  · rw [one_mul]
  · rw [one_mul]
  · exact div_copies ..
  · exact div_copies ..

theorem fusedGrad_scale (r c : Nat) (P Y : Nat → Nat → ℝ) (σ : Nat → Nat) (i j : Nat) :
    fusedGrad (c * r) (fun i => P (σ i)) (fun i => Y (σ i)) i j = 1 / c * fusedGrad r P Y (σ i) j := by
  unfold fusedGrad
  split
  · exact div_copies ..
  · exact div_copies ..

/-- Back-propagation of copies. -/
theorem netGrad_copies {m : Model ℝ} {net : Net ℝ} {loss : LossKind} {r c : Nat} {V M M' G D : Nat → Nat → Nat → ℝ} {Y : Nat → Nat → ℝ}
    (hd : ∀ k, k < net.size → (net.L k).kind ≠ .dropout) (hF : Fused m net → loss = .ce ∨ loss = .bce) (h0 : 0 < net.size)
    (h : NetGrad m net loss r V M Y G D) (σ : Nat → Nat) :
    NetGrad m net loss (c * r) (fun k i => V k (σ i)) M' (fun i => Y (σ i)) (fun k i j => copyScale loss c * G k (σ i) j)
      (fun k i j => copyScale loss c * D k (σ i) j) := by
  refine ⟨fun hf => ?_, fun hf => ?_⟩
  · obtain ⟨a1, a2, a3⟩ := h.fused hf
    have hs : copyScale loss c = 1 / c := by rcases hF hf with rfl | rfl <;> rfl
    refine ⟨?_, ?_, fun k hk => ?_, fun k hk => ?_⟩
    · funext i j
      rw [a1, fusedGrad_scale, hs]
    · rw [gradX_scale, a2]
    · funext i j
      rw [actBack_scale (hd k (by omega)) _ (M k), a3.act k hk]
    · rw [gradX_scale, a3.inp k hk]
  · obtain ⟨a1, a2⟩ := h.plain hf
    refine ⟨?_, fun k hk => ?_, fun k hk => ?_⟩
    · funext i j
      rw [a1, lossGrad_scale]
    · funext i j
      rw [a2.act k hk, ← actBack_scale (hd k hk) _ (M k) (M' k)]
      congr 1
      split <;> rfl
    · rw [gradX_scale, a2.inp k hk]

theorem sum_copies (r c : Nat) (f : Nat → ℝ) : ∑ i ∈ range (c * r), f (i % r) = c * ∑ i ∈ range r, f i := by
  induction c with
  | zero => simp
  | succ c ih =>
    rw [Nat.succ_mul, sum_range_add, ih]
    have : ∑ x ∈ range r, f ((c * r + x) % r) = ∑ x ∈ range r, f x :=
      sum_congr rfl fun x hx => by
        rw [mul_comm, Nat.mul_add_mod, Nat.mod_eq_of_lt (mem_range.1 hx)]
    rw [this]
    push_cast
    ring

theorem gradW_copies (r c : Nat) (s : ℝ) (V G : Nat → Nat → ℝ) (k j : Nat) :
    gradW (c * r) (fun i => V (i % r)) (fun i j => s * G (i % r) j) k j = c * s * gradW r V G k j := by
  unfold gradW
  rw [fsum_real, fsum_real, mul_assoc, mul_sum, ← sum_copies r c fun i => s * (V i k *. G i j)]
  exact sum_congr rfl fun i _ => by simp only [real_mul]; ring

theorem gradB_copies (r c : Nat) (s : ℝ) (G : Nat → Nat → ℝ) (k j : Nat) :
    gradB (c * r) (fun i j => s * G (i % r) j) k j = c * s * gradB r G k j := by
  unfold gradB
  rw [fsum_real, fsum_real, mul_assoc, mul_sum, ← sum_copies r c fun i => s * G i j]

/-! ### The optimizers -/

/-- Optimizers for weights of shape n × o that take the same steps when the gradients of the second one are φ times those of the first one. -/
structure Absorbs (φ : ℝ) (R : Nat → Nat → OptSpec ℝ → OptSpec ℝ → Prop) : Prop where
  newW : ∀ {n o S S' W W' GW GW'}, R n o S S' → Agree n o W W' → (∀ i j, i < n → j < o → GW' i j = φ * GW i j) →
    Agree n o (S.newW W GW) (S'.newW W' GW')
  newB : ∀ {n o S S' W W' GB GB'}, R n o S S' → Agree 1 o W W' → (∀ i j, i < 1 → j < o → GB' i j = φ * GB i j) →
    Agree 1 o (S.newB W GB) (S'.newB W' GB')
  step : ∀ {n o S S' GW GW' GB GB'}, R n o S S' → (∀ i j, i < n → j < o → GW' i j = φ * GW i j) →
    (∀ i j, i < 1 → j < o → GB' i j = φ * GB i j) → R n o (S.step GW GB) (S'.step GW' GB')

theorem absorbs_like : Absorbs 1 OptLike :=
  ⟨fun h hW hG => h.newW hW fun i j hi hj => by rw [hG i j hi hj, one_mul], fun h hW hG => h.newB hW fun i j hi hj => by rw [hG i j hi hj, one_mul],
    fun h hW hB => h.step (fun i j hi hj => by rw [hW i j hi hj, one_mul]) fun i j hi hj => by rw [hB i j hi hj, one_mul]⟩

/-- The second optimizer compensates gradients that are c times as large: SGD by a learning rate divided by c, Adam by an epsilon
multiplied by c; everything else is equal, but moments are proportional. -/
structure Compensates (c : ℝ) (n o : Nat) (S S' : OptSpec ℝ) : Prop where
  kind : S'.kind = S.kind
  decay : S'.decay = S.decay
  t : S'.t = S.t
  sgd : S.kind = .sgd → S.lr = c * S'.lr ∧ S'.momentum = S.momentum ∧ Agree n o S.vw S'.vw ∧ Agree 1 o S.vb S'.vb
  adam : S.kind = .adam → S'.lr = S.lr ∧ S'.epsilon = c * S.epsilon ∧ S'.beta1 = S.beta1 ∧ S'.beta2 = S.beta2 ∧
    (∀ i j, i < n → j < o → S'.vw i j = c * S.vw i j ∧ S'.cw i j = c ^ 2 * S.cw i j) ∧
    ∀ i j, i < 1 → j < o → S'.vb i j = c * S.vb i j ∧ S'.cb i j = c ^ 2 * S.cb i j

theorem Compensates.rate_sgd {c : ℝ} {n o : Nat} {S S' : OptSpec ℝ} (h : Compensates c n o S S') (hk : S.kind = .sgd) : S.rate = c * S'.rate := by
  unfold OptSpec.rate
  rw [h.decay, h.t, (h.sgd hk).1]
  split
  · rfl
  · simp only [real_mul, mul_assoc]

theorem Compensates.rate_adam {c : ℝ} {n o : Nat} {S S' : OptSpec ℝ} (h : Compensates c n o S S') (hk : S.kind = .adam) : S'.rate = S.rate := by
  unfold OptSpec.rate
  rw [h.decay, h.t, (h.adam hk).1]

theorem Compensates.vel_sgd {c : ℝ} {n o : Nat} {S S' : OptSpec ℝ} (h : Compensates c n o S S') (hk : S.kind = .sgd) (v g : ℝ) :
    S'.vel v (c * g) = S.vel v g := by
  unfold OptSpec.vel
  rw [h.kind, hk, h.rate_sgd hk, (h.sgd hk).2.1]
  dsimp only
  split
  · rfl
  · simp only [real_mul, real_sub]; ring

theorem Compensates.vel_adam {c : ℝ} {n o : Nat} {S S' : OptSpec ℝ} (h : Compensates c n o S S') (hk : S.kind = .adam) (v g : ℝ) :
    S'.vel (c * v) (c * g) = c * S.vel v g := by
  obtain ⟨-, -, h1, -⟩ := h.adam hk
  unfold OptSpec.vel
  rw [h.kind, hk, h1]
  simp only [real_mul, real_sub, real_add]; ring

theorem Compensates.cache_adam {c : ℝ} {n o : Nat} {S S' : OptSpec ℝ} (h : Compensates c n o S S') (hk : S.kind = .adam) (v g : ℝ) :
    S'.cache (c ^ 2 * v) (c * g) = c ^ 2 * S.cache v g := by
  obtain ⟨-, -, -, h2, -⟩ := h.adam hk
  unfold OptSpec.cache
  rw [h.kind, hk, h2]
  simp only [real_mul, real_sub, real_add, real_pow, real_ofInt, Int.cast_ofNat, Real.rpow_ofNat]
  ring

theorem Compensates.upd_sgd {c : ℝ} {n o : Nat} {S S' : OptSpec ℝ} (h : Compensates c n o S S') (hk : S.kind = .sgd) (x v q q' g : ℝ) :
    S'.upd x v q' (c * g) = S.upd x v q g := by
  unfold OptSpec.upd
  rw [h.kind, hk]
  dsimp only
  rw [h.vel_sgd hk, (h.sgd hk).2.1]
  split
  · rw [h.rate_sgd hk]
    simp only [real_mul, real_sub]; ring
  · rfl

theorem Compensates.upd_adam {c : ℝ} (hc : 0 < c) {n o : Nat} {S S' : OptSpec ℝ} (h : Compensates c n o S S') (hk : S.kind = .adam) (x v q g : ℝ) :
    S'.upd x (c * v) (c ^ 2 * q) (c * g) = S.upd x v q g := by
  obtain ⟨-, h0, h1, h2, -⟩ := h.adam hk
  have hcorr : S'.corr = S.corr := by
    unfold OptSpec.corr
    rw [h1, h.t]
  unfold OptSpec.upd
  rw [h.kind, hk]
  dsimp only
  rw [h.vel_adam hk, h.cache_adam hk, h0, hcorr, h.rate_adam hk]
  simp only [real_mul, real_add, real_div, real_neg, real_sqrt]
  rw [mul_assoc (c ^ 2), Real.sqrt_mul (sq_nonneg c), Real.sqrt_sq hc.le, ← mul_add,
    show -S.rate * (c * S.vel v g * S.corr) = c * (-S.rate * (S.vel v g * S.corr)) by ring, mul_div_mul_left _ _ hc.ne']

theorem absorbs_comp {c : ℝ} (hc : 0 < c) : Absorbs c (Compensates c) := by
  refine ⟨fun {n o S S' W W' GW GW'} h hW hG i j hi hj => ?_, fun {n o S S' W W' GW GW'} h hW hG i j hi hj => ?_,
    fun {n o S S' GW GW' GB GB'} h hW hB => ⟨h.kind, h.decay, congrArg (· + 1) h.t, fun hk => ?_, fun hk => ?_⟩⟩
  · unfold OptSpec.newW
    rw [hW i j hi hj, hG i j hi hj]
    cases hk : S.kind
    · rw [(h.sgd hk).2.2.1 i j hi hj]
      exact h.upd_sgd hk ..
    · rw [((h.adam hk).2.2.2.2.1 i j hi hj).1, ((h.adam hk).2.2.2.2.1 i j hi hj).2]
      exact h.upd_adam hc hk ..
  · unfold OptSpec.newB
    rw [hW i j hi hj, hG i j hi hj]
    cases hk : S.kind
    · rw [(h.sgd hk).2.2.2 i j hi hj]
      exact h.upd_sgd hk ..
    · rw [((h.adam hk).2.2.2.2.2 i j hi hj).1, ((h.adam hk).2.2.2.2.2 i j hi hj).2]
      exact h.upd_adam hc hk ..
  · obtain ⟨h1, h2, h3, h4⟩ := h.sgd hk
    refine ⟨h1, h2, fun i j hi hj => ?_, fun i j hi hj => ?_⟩
    · show S'.vel (S'.vw i j) (GW' i j) = S.vel (S.vw i j) (GW i j)
      rw [hW i j hi hj, h3 i j hi hj, h.vel_sgd hk]
    · show S'.vel (S'.vb i j) (GB' i j) = S.vel (S.vb i j) (GB i j)
      rw [hB i j hi hj, h4 i j hi hj, h.vel_sgd hk]
  · obtain ⟨h1, h2, h3, h4, h5, h6⟩ := h.adam hk
    refine ⟨h1, h2, h3, h4, fun i j hi hj => ⟨?_, ?_⟩, fun i j hi hj => ⟨?_, ?_⟩⟩
    · show S'.vel (S'.vw i j) (GW' i j) = c * S.vel (S.vw i j) (GW i j)
      rw [hW i j hi hj, (h5 i j hi hj).1, h.vel_adam hk]
    · show S'.cache (S'.cw i j) (GW' i j) = c ^ 2 * S.cache (S.cw i j) (GW i j)
      rw [hW i j hi hj, (h5 i j hi hj).2, h.cache_adam hk]
    · show S'.vel (S'.vb i j) (GB' i j) = c * S.vel (S.vb i j) (GB i j)
      rw [hB i j hi hj, (h6 i j hi hj).1, h.vel_adam hk]
    · show S'.cache (S'.cb i j) (GB' i j) = c ^ 2 * S.cache (S.cb i j) (GB i j)
      rw [hB i j hi hj, (h6 i j hi hj).2, h.cache_adam hk]

/-! ### The runs -/

/-- Data that consist of c copies of the r rows of A. -/
def CopiesOf (c r d : Nat) (A A' : Nat → Nat → ℝ) : Prop := ∀ i j, i < c * r → j < d → A' i j = A (i % r) j

theorem trainStep_copies {R : Nat → Nat → OptSpec ℝ → OptSpec ℝ → Prop} {c r : Nat} {loss : LossKind} (hR : Absorbs (c * copyScale loss c) R)
    {m m' : Model ℝ} (hm : m'.lossType = m.lossType) {u u' : Nat → ℝ} {X X' Y Y' : Nat → Nat → ℝ} {net net' net1 net1' : Net ℝ} {S S' S1 S1' : Nat → OptSpec ℝ}
    (hN : SameNet net net') (hS : ∀ i, i < net.size → R (net.L i).n (net.L i).o (S i) (S' i)) (h0 : 0 < net.size)
    (hd : ∀ k, k < net.size → (net.L k).kind ≠ .dropout) (hF : m.lossType = 2 → loss = .ce ∨ loss = .bce)
    (hX : CopiesOf c r (net.dim 0) X X') (hY : CopiesOf c r (net.dim net.size) Y Y')
    (h1 : TrainStep m loss r u X Y net S net1 S1) (h2 : TrainStep m' loss (c * r) u' X' Y' net' S' net1' S1') :
    SameNet net1 net1' ∧ (∀ i, i < net1.size → R (net1.L i).n (net1.L i).o (S1 i) (S1' i)) ∧ SameShape net net1 := by
  obtain ⟨G, D, g1, rfl, rfl⟩ := h1
  obtain ⟨G', D', g2, rfl, rfl⟩ := h2
  have hV : ∀ k, k ≤ net.size → Agree (c * r) (net.dim k) (fun i => trainVals net r u X k (i % r)) (trainVals net' (c * r) u' X' k) := by
    intro k
    induction k with
    | zero => intro _; exact hX
    | succ k ih =>
      intro hk
      have := ih (by omega)
      rw [← hN.ins k hk] at this
      rw [← hN.outs k hk]
      have := inferRow_same (hN.layer k hk) this
      intro i j hi hj
      have e := this i j hi hj
      show trainOut (net'.L k) _ (trainVals net' (c * r) u' X' k) i j = trainOut (net.L k) _ (trainVals net r u X k) (i % r) j
      unfold trainOut
      rw [if_neg (by rw [(hN.layer k hk).kind]; exact hd k hk), if_neg (hd k hk), e]
      rfl
  have hG := netGrad_same hm hN h0 hV (fun k hk => Agree.refl _ _ _) hY
    (netGrad_copies (c := c) hd (fun hf => hF hf.2) h0 g1 fun i => i % r) g2
  have hGo : ∀ k, k < net.size → Agree (c * r) (net.L k).o (fun i j => copyScale loss c * G k (i % r) j) (G' k) := fun k hk => by
    rw [hN.outs k hk]; exact hG k hk
  have hVo : ∀ k, k < net.size → Agree (c * r) (net.L k).n (fun i => trainVals net r u X k (i % r)) (trainVals net' (c * r) u' X' k) := fun k hk => by
    rw [hN.ins k hk]; exact hV k (by omega)
  have hW : ∀ k, k < net.size → ∀ i j, i < (net.L k).n → j < (net.L k).o → gradW (c * r) (trainVals net' (c * r) u' X' k) (G' k) i j =
      c * copyScale loss c * gradW r (trainVals net r u X k) (G k) i j := by
    intro k hk i j hi hj
    rw [← gradW_copies]
    exact gradW_same (hVo k hk) (hGo k hk) i j hi hj
  have hB : ∀ k, k < net.size → ∀ i j, i < 1 → j < (net.L k).o → gradB (c * r) (G' k) i j = c * copyScale loss c * gradB r (G k) i j := by
    intro k hk i j hi hj
    rw [← gradB_copies]
    exact gradB_same (hGo k hk) i j hi hj
  refine ⟨⟨hN.size, hN.dim, hN.ins, hN.outs, fun k hk => ?_⟩, fun k hk => ?_, ⟨rfl, rfl, rfl, rfl, rfl, fun i => ⟨_, _, rfl⟩⟩⟩
  · have hl := hN.layer k hk
    exact ⟨hl.kind, hl.n, hl.o, hl.slope, hl.dropout,
      fun i j hi hj => hR.newW (hS k hk) (fun i j hi hj => hl.W i j hi hj) (hW k hk) i j hi hj,
      fun j hj => hR.newB (hS k hk) (fun i j _ hj => hl.b j hj) (hB k hk) 0 j Nat.one_pos hj⟩
  · exact hR.step (hS k hk) (hW k hk) (hB k hk)

theorem descent_copies {R : Nat → Nat → OptSpec ℝ → OptSpec ℝ → Prop} {c r : Nat} {loss : LossKind} (hR : Absorbs (c * copyScale loss c) R)
    {m m' : Model ℝ} (hm : m'.lossType = m.lossType) {u u' : Nat → ℝ} {p p' : Nat} {X X' Y Y' : Nat → Nat → ℝ} {net net' : Net ℝ} {S S' : Nat → OptSpec ℝ}
    (hN : SameNet net net') (hS : ∀ i, i < net.size → R (net.L i).n (net.L i).o (S i) (S' i)) (h0 : 0 < net.size)
    (hd : ∀ k, k < net.size → (net.L k).kind ≠ .dropout) (hF : m.lossType = 2 → loss = .ce ∨ loss = .bce)
    (hX : CopiesOf c r (net.dim 0) X X') (hY : CopiesOf c r (net.dim net.size) Y Y') (t : Nat) {net1 net1' : Net ℝ} {S1 S1' : Nat → OptSpec ℝ}
    {p1 p1' : Nat} (h1 : Descent m loss u X Y net S p (List.replicate t (0, r)) net1 S1 p1)
    (h2 : Descent m' loss u' X' Y' net' S' p' (List.replicate t (0, c * r)) net1' S1' p1') :
    SameNet net1 net1' ∧ (∀ i, i < net1.size → R (net1.L i).n (net1.L i).o (S1 i) (S1' i)) ∧ SameShape net net1 := by
  induction t generalizing net1 net1' S1 S1' p1 p1' with
  | zero =>
    obtain ⟨rfl, rfl, rfl⟩ := h1.nil
    obtain ⟨rfl, rfl, rfl⟩ := h2.nil
    exact ⟨hN, hS, rfl, rfl, rfl, rfl, rfl, fun i => ⟨_, _, rfl⟩⟩
  | succ t ih =>
    rw [List.replicate_succ'] at h1 h2
    obtain ⟨netA, SA, pA, a1, a2, rfl⟩ := h1.snoc
    obtain ⟨netB, SB, pB, b1, b2, rfl⟩ := h2.snoc
    obtain ⟨hs, ho, sh⟩ := ih a1 b1
    have e1 := sh.size
    have e2 := sh.dim
    simp only [Nat.zero_add] at a2 b2
    obtain ⟨r1, r2, r3⟩ := trainStep_copies hR hm hs ho (by omega)
      (fun k hk => by obtain ⟨W, b, e⟩ := sh.layer k; rw [e]; exact hd k (by omega)) hF
      (by rw [e2]; exact hX) (by rw [e2, e1]; exact hY) a2 b2
    exact ⟨r1, r2, sh.trans r3⟩

theorem blocks_full {n b : Nat} (hn : 0 < n) (hb : b = 0 ∨ n ≤ b) : blocks n b = [(0, n)] := by
  unfold blocks
  split
  · rfl
  · next hb0 =>
    have hnb : n ≤ b := hb.resolve_left hb0
    have : (n + b - 1) / b = 1 := Nat.div_eq_of_lt_le (by omega) (by omega)
    rw [this]
    simp [hnb]

/-- Fit on a data set and on c copies of it, with optimizers that absorb the factor of the gradients. -/
theorem fit_copies {R : Nat → Nat → OptSpec ℝ → OptSpec ℝ → Prop} {c : Nat} {k : LossKind} (hR : Absorbs (c * copyScale k c) R) (hc : 0 < c)
    {w w' : World ℝ} {m m' : Model ℝ} {net net' : Net ℝ} {op op' : Nat → Nat} {S S' : Nat → OptSpec ℝ}
    {X Y X' Y' xv yv xv' yv' : Mat} {n : Nat} {A B A' B' : Nat → Nat → ℝ} (h : Trains w m net op S k X Y n A B)
    (h' : Trains w' m' net' op' S' k X' Y' (c * n) A' B') (hm : m'.lossType = m.lossType) (hF : m.lossType = 2 → k = .ce ∨ k = .bce) (hN : SameNet net net')
    (hS : ∀ i, i < net.size → R (net.L i).n (net.L i).o (S i) (S' i)) (hd : ∀ i, i < net.size → (net.L i).kind ≠ .dropout)
    (hA : CopiesOf c n (net.dim 0) A A') (hB : CopiesOf c n (net.dim net.size) B B') (epochs : Int) (b b' : Nat) (hb : b = 0 ∨ n ≤ b)
    (hb' : b' = 0 ∨ c * n ≤ b') (hbig : n + b ≤ 2 ^ 53) (hbig' : c * n + b' ≤ 2 ^ 53) :
    wp (fit m X Y epochs b xv yv 0) w fun e w1 => wp (fit m' X' Y' epochs b' xv' yv' 0) w' fun e' w1' =>
      e = none ∧ e' = none ∧ ∃ net1 net1' S1 S1', IsTask w1 m net1 op S1 ∧ IsTask w1' m' net1' op' S1' ∧ SameNet net1 net1' ∧
        ∀ i, i < net.size → R (net.L i).n (net.L i).o (S1 i) (S1' i) := by
  refine wp_mono (C70_fit w m net op S h.task h.noSig _ h.loss rfl X Y xv yv n A B h.xs.mat h.ys.mat h.xs.cap h.ys.cap h.xs.sep h.ys.sep
    epochs b hbig) ?_
  rintro e w1 ⟨he, net1, S1, d1, t1, s1, -⟩
  refine wp_mono (C70_fit w' m' net' op' S' h'.task h'.noSig _ h'.loss rfl X' Y' xv' yv' (c * n) A' B' h'.xs.mat h'.ys.mat h'.xs.cap h'.ys.cap
    h'.xs.sep h'.ys.sep epochs b' hbig') ?_
  rintro e' w1' ⟨he', net1', S1', d2, t2, -⟩
  have hn := h.xs.mat.rpos
  rw [blocks_full hn hb, flatten_replicate_one] at d1
  rw [blocks_full (Nat.mul_pos hc hn) hb', flatten_replicate_one] at d2
  obtain ⟨r1, r2, -⟩ := descent_copies hR hm hN hS h.task.pos hd hF hA hB _ d1 d2
  refine ⟨he, he', net1, net1', S1, S1', t1, t2, r1, fun i hi => ?_⟩
  have := r2 i (by rw [s1.size]; exact hi)
  obtain ⟨W, b, e⟩ := s1.layer i
  rw [e] at this
  exact this

/-- C135, cross-entropy and binary cross-entropy: training on c copies of the data set is training on the data set, with any optimizers. -/
theorem C135_entropy_partial (w w' : World ℝ) (m m' : Model ℝ) (net net' : Net ℝ) (op op' : Nat → Nat) (S S' : Nat → OptSpec ℝ)
    (k : LossKind) (hk : k = .ce ∨ k = .bce) (X Y X' Y' xv yv xv' yv' : Mat) (n c : Nat) (hc : 0 < c) (A B A' B' : Nat → Nat → ℝ)
    (h : Trains w m net op S k X Y n A B) (h' : Trains w' m' net' op' S' k X' Y' (c * n) A' B') (hm : m'.lossType = m.lossType) (hN : SameNet net net')
    (hS : ∀ i, i < net.size → OptLike (net.L i).n (net.L i).o (S i) (S' i)) (hd : ∀ i, i < net.size → (net.L i).kind ≠ .dropout)
    (hA : CopiesOf c n (net.dim 0) A A') (hB : CopiesOf c n (net.dim net.size) B B') (epochs : Int) (b b' : Nat) (hb : b = 0 ∨ n ≤ b)
    (hb' : b' = 0 ∨ c * n ≤ b') (hbig : n + b ≤ 2 ^ 53) (hbig' : c * n + b' ≤ 2 ^ 53) :
    wp (fit m X Y epochs b xv yv 0) w fun e w1 => wp (fit m' X' Y' epochs b' xv' yv' 0) w' fun e' w1' =>
      e = none ∧ e' = none ∧ ∃ net1 net1' S1 S1', IsTask w1 m net1 op S1 ∧ IsTask w1' m' net1' op' S1' ∧ SameNet net1 net1' ∧
        ∀ i, i < net.size → OptLike (net.L i).n (net.L i).o (S1 i) (S1' i) := by
  have e : (c : ℝ) * copyScale k c = 1 := by
    have : (c : ℝ) ≠ 0 := by positivity
    rcases hk with rfl | rfl <;> exact mul_one_div_cancel this
  exact fit_copies (by rw [e]; exact absorbs_like) hc h h' hm (fun _ => hk) hN hS hd hA hB epochs b b' hb hb' hbig hbig'

/-- C135, squared and absolute error: training on c copies of the data set is training on the data set with the learning rate of SGD
multiplied by c, and the epsilon of Adam divided by c. -/
theorem C135_error_partial (w w' : World ℝ) (m m' : Model ℝ) (net net' : Net ℝ) (op op' : Nat → Nat) (S S' : Nat → OptSpec ℝ)
    (k : LossKind) (hk : k = .mse ∨ k = .mae) (X Y X' Y' xv yv xv' yv' : Mat) (n c : Nat) (hc : 0 < c) (A B A' B' : Nat → Nat → ℝ)
    (h : Trains w m net op S k X Y n A B) (h' : Trains w' m' net' op' S' k X' Y' (c * n) A' B') (hm : m'.lossType = m.lossType)
    (hm2 : m.lossType ≠ 2) (hN : SameNet net net')
    (hS : ∀ i, i < net.size → Compensates c (net.L i).n (net.L i).o (S i) (S' i)) (hd : ∀ i, i < net.size → (net.L i).kind ≠ .dropout)
    (hA : CopiesOf c n (net.dim 0) A A') (hB : CopiesOf c n (net.dim net.size) B B') (epochs : Int) (b b' : Nat) (hb : b = 0 ∨ n ≤ b)
    (hb' : b' = 0 ∨ c * n ≤ b') (hbig : n + b ≤ 2 ^ 53) (hbig' : c * n + b' ≤ 2 ^ 53) :
    wp (fit m X Y epochs b xv yv 0) w fun e w1 => wp (fit m' X' Y' epochs b' xv' yv' 0) w' fun e' w1' =>
      e = none ∧ e' = none ∧ ∃ net1 net1' S1 S1', IsTask w1 m net1 op S1 ∧ IsTask w1' m' net1' op' S1' ∧ SameNet net1 net1' ∧
        ∀ i, i < net.size → Compensates c (net.L i).n (net.L i).o (S1 i) (S1' i) := by
  have e : (c : ℝ) * copyScale k c = c := by rcases hk with rfl | rfl <;> exact mul_one _
  exact fit_copies (by rw [e]; exact absorbs_comp (by exact_mod_cast hc)) hc h h' hm (fun h => absurd h hm2) hN hS hd hA hB epochs b b' hb hb' hbig hbig'

/-- The claim: for every loss, training on copies of the data set is training on the data set. -/
def CopiesFree : Prop :=
  ∀ (w w' : World ℝ) (m m' : Model ℝ) (net net' : Net ℝ) (op op' : Nat → Nat) (S S' : Nat → OptSpec ℝ)
    (k : LossKind) (X Y X' Y' xv yv xv' yv' : Mat) (n c : Nat) (A B A' B' : Nat → Nat → ℝ), 0 < c →
    Trains w m net op S k X Y n A B → Trains w' m' net' op' S' k X' Y' (c * n) A' B' → m'.lossType = m.lossType → SameNet net net' →
    (∀ i, i < net.size → OptLike (net.L i).n (net.L i).o (S i) (S' i)) → (∀ i, i < net.size → (net.L i).kind ≠ .dropout) →
    CopiesOf c n (net.dim 0) A A' → CopiesOf c n (net.dim net.size) B B' → ∀ (epochs : Int) (b b' : Nat), (b = 0 ∨ n ≤ b) →
    (b' = 0 ∨ c * n ≤ b') → n + b ≤ 2 ^ 53 → c * n + b' ≤ 2 ^ 53 →
    wp (fit m X Y epochs b xv yv 0) w fun e w1 => wp (fit m' X' Y' epochs b' xv' yv' 0) w' fun e' w1' =>
      e = none ∧ e' = none ∧ ∃ net1 net1' S1 S1', IsTask w1 m net1 op S1 ∧ IsTask w1' m' net1' op' S1' ∧ SameNet net1 net1' ∧
        ∀ i, i < net.size → OptLike (net.L i).n (net.L i).o (S1 i) (S1' i)

theorem PlainTask.trains {w : World ℝ} {m : Model ℝ} {net : Net ℝ} {op : Nat → Nat} {S : Nat → OptSpec ℝ} {loss : LossKind} {lr : ℝ}
    {X Y : Mat} {r : Nat} {A B : Nat → Nat → ℝ} (h : PlainTask w m net op S loss lr X Y r A B) : Trains w m net op S loss X Y r A B :=
  ⟨h.task, by rw [h.size]; exact h.loss, fun i hi => by
    obtain rfl : i = 0 := by have := h.size; omega
    rw [h.kind]; decide, h.inputs, by rw [h.size]; exact h.targets⟩

/-- After one epoch on r samples (1, 1) with target 1 and learning rate 1/4 the first weight is r/2. -/
theorem sqTask_weight {w : World ℝ} {m : Model ℝ} {net : Net ℝ} {op : Nat → Nat} {S : Nat → OptSpec ℝ} {X Y : Mat} {r : Nat}
    (h : PlainTask w m net op S .mse (1 / 4) X Y r (fun _ _ => 1) (fun _ _ => 1)) (d0 : net.dim 0 = 2) (d1 : net.dim 1 = 1)
    (hL : net.L = nullL 1) (xv yv : Mat) :
    wp (fit m X Y 1 0 xv yv 0) w (fun _ w' => ∃ net', IsNet w' m net' ∧ net'.size = 1 ∧ (net'.L 0).n = 2 ∧ (net'.L 0).o = 1 ∧
      (net'.L 0).W 0 0 = r / 2) := by
  have hn : (net.L 0).n = 2 := by rw [hL]; rfl
  have hg := gradIs_linear (m := m) (r := r) (A := fun _ _ => 1) (B := fun _ _ => 1) h.kind
  refine wp_mono (h.run hg xv yv 1) ?_
  rintro e w' ⟨-, net', S', W, b, hT', hsh, h3, -, h4⟩
  refine ⟨net', hT'.isNet, by rw [hsh.size, h.size], by rw [h3]; exact hn, by rw [h3, hL]; rfl, ?_⟩
  have := h4 0 0 (by omega) (by omega)
  rw [h3]
  rw [d0] at this
  simp only [coefs, if_pos Nat.two_pos] at this
  show W 0 0 = _
  rw [this, hn, d1, hL]
  simp [stepIter, lsqGrad, resid, augIn, coefs, nullL]
  ring

/-- The claim is false for the squared error: on two copies of a sample a step of SGD is twice as long. -/
theorem C135_false : ¬ CopiesFree := by
  intro hcl
  obtain ⟨w, m, net, op, S, X, Y, h, hm, d0, d1, hL, hd, o, ho, rfl⟩ := exists_sqTask (1 / 4) (by norm_num) 1 Nat.one_pos (by norm_num)
  obtain ⟨w', m', net', op', S', X', Y', h', hm', d0', d1', hL', hd', o', ho', rfl⟩ := exists_sqTask (1 / 4) (by norm_num) 2 Nat.two_pos (by norm_num)
  have ho2 : o' = o := by
    rw [ho] at ho'
    exact (congrArg Prod.fst ho').symm
  subst ho2
  have hN : SameNet net net' := ⟨by rw [h.size, h'.size], fun i _ => by rw [hd, hd'], fun i _ => by rw [hL, hd],
    fun i _ => by rw [hL, hd]; exact (if_neg (Nat.succ_ne_zero i) : (if i + 1 = 0 then 2 else 1) = 1).symm,
    fun i _ => by rw [hL, hL']; exact SameLayer.refl _⟩
  have hw := hcl w w' m m' net net' op op' _ _ .mse X Y X' Y' X Y X' Y' 1 2 _ _ _ _ Nat.two_pos h.trains h'.trains (by rw [hm, hm']) hN
    (fun i _ => .inl ⟨rfl, rfl, rfl, fun _ => rfl, fun _ => rfl, fun _ => rfl, fun _ => rfl, rfl, fun _ _ _ _ => rfl, fun _ _ _ _ => rfl,
      fun _ _ _ _ => rfl, fun _ _ _ _ => rfl⟩) (fun i hi => by rw [hL]; exact fun h => by cases h) (fun _ _ _ _ => rfl) (fun _ _ _ _ => rfl) 1 0 0
    (.inl rfl) (.inl rfl) (by norm_num) (by norm_num)
  obtain ⟨e, w1, -, h1, netA, a1, a2, a3, a4, a5⟩ := wp_iff.1 (wp_and hw (sqTask_weight h d0 d1 hL X Y))
  obtain ⟨e', w1', -, ⟨-, -, net1, net1', S1, S1', t1, t2, hs, -⟩, netB, b1, b2, b3, b4, b5⟩ := wp_iff.1 (wp_and h1 (sqTask_weight h' d0' d1' hL' X' Y'))
  have eA := a1.weight_unique t1.isNet (i := 0) (by omega) (r := 0) (c := 0) (by omega) (by omega)
  have eB := b1.weight_unique t2.isNet (i := 0) (by omega) (r := 0) (c := 0) (by omega) (by omega)
  have sA := a1.shape_unique t1.isNet (i := 0) (by omega)
  have hW := (hs.layer 0 (by rw [sA.2.2.2.2]; omega)).W 0 0 (by rw [sA.1]; omega) (by rw [sA.2.1]; omega)
  rw [← eA, ← eB, a5, b5] at hW
  norm_num at hW

/-- Two models with three layers, to be trained with Adam, one of them on 3 copies of the 2 samples of the other one. -/
theorem exists_copies (k : LossKind) (lt : Int) {o o' : Optim ℝ} {e1 e2 : ℝ} (ho : newAdamOptimizer (1 / 1000) 0 e1 (9 / 10) (999 / 1000) = (o, none))
    (ho' : newAdamOptimizer (1 / 1000) 0 e2 (9 / 10) (999 / 1000) = (o', none)) :
    ∃ (w w' : World ℝ) (m m' : Model ℝ) (net net' : Net ℝ) (op op' : Nat → Nat) (X Y X' Y' : Mat) (A B A' B' : Nat → Nat → ℝ),
    Trains w m net op (fun _ => OptSpec.fresh o) k X Y 2 A B ∧ Trains w' m' net' op' (fun _ => OptSpec.fresh o') k X' Y' (3 * 2) A' B' ∧
    m.lossType = lt ∧ m'.lossType = lt ∧ net.size = 3 ∧ SameNet net net' ∧ (∀ i, i < net.size → (net.L i).kind ≠ .dropout) ∧
    CopiesOf 3 2 (net.dim 0) A A' ∧ CopiesOf 3 2 (net.dim net.size) B B' := by
  have mk := fun (r : Nat) (hr : 0 < r) (o : Optim ℝ) (e : ℝ) (ho : newAdamOptimizer (1 / 1000) 0 e (9 / 10) (999 / 1000) = (o, none)) =>
    exists_task (emptyWorld : World ℝ) 3 (by decide)
    plainT (fun i => demoT_pos (α := ℝ) i) (fun i => demoT_chain (α := ℝ) i) { newModel with loss := some ⟨k, (plainT 3).n⟩, lossType := lt } o
    (OptSpec.fresh o) (by rw [newAdam_ok ho]; rfl)
    (fun w p i hlt e => e ▸ isOpt_newAdam _ _ _ _ hlt (e.symm ▸ ho)) (r := r) (r' := 2) hr (by decide)
    (fun i j => ((i % 2 : Nat) : ℝ) + j) (fun i j => ((i % 2 : Nat) : ℝ) - j) (fun i _ => (i : ℝ)) (fun _ j => (j : ℝ))
  obtain ⟨w, net, op, XM, YM, xM, yM, hf, hs, hL, hdim, hT, dX, dY, -, -⟩ := mk 2 Nat.two_pos o _ ho
  obtain ⟨w', net', op', XM', YM', xM', yM', hf', hs', hL', hdim', hT', dX', dY', -, -⟩ := mk (3 * 2) (by decide) o' _ ho'
  have hk : ∀ i, (plainT i).kind ≠ .sigmoid ∧ (plainT i).kind ≠ .dropout := fun i => by
    unfold plainT
    dsimp only
    split
    · exact ⟨(fun h => by cases h), (fun h => by cases h)⟩
    · exact ⟨(fun h => by cases h), (fun h => by cases h)⟩
  have d0 : net.dim 0 = (plainT 0).n := by rw [hdim]
  have d1 : net.dim net.size = (plainT 3).n := by rw [hdim, hs]
  have d0' : net'.dim 0 = (plainT 0).n := by rw [hdim']
  have d1' : net'.dim net'.size = (plainT 3).n := by rw [hdim', hs']
  exact ⟨w, w', _, _, net, net', op, op', XM, YM, XM', YM', _, _, _, _,
    ⟨hT, by rw [d1]; rfl, fun i _ => by rw [hL]; exact (hk i).1, d0 ▸ dX, d1 ▸ dY⟩,
    ⟨hT', by rw [d1']; rfl, fun i _ => by rw [hL']; exact (hk i).1, d0' ▸ dX', d1' ▸ dY'⟩, rfl, rfl, hs,
    ⟨by rw [hs, hs'], fun i _ => by rw [hdim, hdim'], fun i hi => by rw [hL, hdim], fun i hi => by rw [hL, hdim]; exact demoT_chain (α := ℝ) i,
      fun i _ => by rw [hL, hL']; exact SameLayer.refl _⟩, fun i _ => by rw [hL]; exact (hk i).2,
    fun i j _ _ => by rw [Nat.mod_mod], fun i j _ _ => by rw [Nat.mod_mod]⟩

/-- C135_entropy_partial: three layers, binary cross-entropy, Adam. -/
example : ∃ (w w' : World ℝ) (m m' : Model ℝ) (net net' : Net ℝ) (op op' : Nat → Nat) (S S' : Nat → OptSpec ℝ) (X Y X' Y' : Mat)
    (A B A' B' : Nat → Nat → ℝ), Trains w m net op S .bce X Y 2 A B ∧ Trains w' m' net' op' S' .bce X' Y' (3 * 2) A' B' ∧
    m'.lossType = m.lossType ∧ net.size = 3 ∧ SameNet net net' ∧ (∀ i, i < net.size → OptLike (net.L i).n (net.L i).o (S i) (S' i)) ∧
    (∀ i, i < net.size → (net.L i).kind ≠ .dropout) ∧ CopiesOf 3 2 (net.dim 0) A A' ∧ CopiesOf 3 2 (net.dim net.size) B B' := by
  obtain ⟨o, ho⟩ := adam_ok_real (lr := 1 / 1000) (decay := 0) (by norm_num) le_rfl (1 / 10 ^ 7) (9 / 10) (999 / 1000)
  obtain ⟨w, w', m, m', net, net', op, op', X, Y, X', Y', A, B, A', B', h, h', e, e', hs, hN, hd, hA, hB⟩ := exists_copies .bce 3 ho ho
  exact ⟨w, w', m, m', net, net', op, op', _, _, X, Y, X', Y', A, B, A', B', h, h', by rw [e, e'], hs, hN,
    fun i _ => .inl ⟨rfl, rfl, rfl, fun _ => rfl, fun _ => rfl, fun _ => rfl, fun _ => rfl, rfl, fun _ _ _ _ => rfl, fun _ _ _ _ => rfl,
      fun _ _ _ _ => rfl, fun _ _ _ _ => rfl⟩, hd, hA, hB⟩

/-- C135_error_partial: three layers, mean squared error, Adam with epsilon 1/10 and 3/10. -/
example : ∃ (w w' : World ℝ) (m m' : Model ℝ) (net net' : Net ℝ) (op op' : Nat → Nat) (S S' : Nat → OptSpec ℝ) (X Y X' Y' : Mat)
    (A B A' B' : Nat → Nat → ℝ), Trains w m net op S .mse X Y 2 A B ∧ Trains w' m' net' op' S' .mse X' Y' (3 * 2) A' B' ∧
    m'.lossType = m.lossType ∧ m.lossType ≠ 2 ∧ net.size = 3 ∧ SameNet net net' ∧
    (∀ i, i < net.size → Compensates (3 : Nat) (net.L i).n (net.L i).o (S i) (S' i)) ∧
    (∀ i, i < net.size → (net.L i).kind ≠ .dropout) ∧ CopiesOf 3 2 (net.dim 0) A A' ∧ CopiesOf 3 2 (net.dim net.size) B B' := by
  obtain ⟨o, ho⟩ := adam_ok_real (lr := 1 / 1000) (decay := 0) (by norm_num) le_rfl (1 / 10) (9 / 10) (999 / 1000)
  obtain ⟨o', ho'⟩ := adam_ok_real (lr := 1 / 1000) (decay := 0) (by norm_num) le_rfl (3 / 10) (9 / 10) (999 / 1000)
  obtain ⟨w, w', m, m', net, net', op, op', X, Y, X', Y', A, B, A', B', h, h', e, e', hs, hN, hd, hA, hB⟩ := exists_copies .mse 0 ho ho'
  refine ⟨w, w', m, m', net, net', op, op', _, _, X, Y, X', Y', A, B, A', B', h, h', by rw [e, e'], by rw [e]; decide, hs, hN, fun i _ => ?_, hd, hA, hB⟩
  rw [newAdam_ok ho, newAdam_ok ho']
  refine ⟨rfl, rfl, rfl, fun hk => absurd hk (fun h => by cases h), fun _ => ⟨rfl, ?_, rfl, rfl, fun i j _ _ => ?_, fun i j _ _ => ?_⟩⟩
  · show (3 / 10 : ℝ) = ((3 : Nat) : ℝ) * (1 / 10)
    norm_num
  · simp [OptSpec.fresh, Flt.zero]
  · simp [OptSpec.fresh, Flt.zero]

/-- Compensates for SGD with momentum: rates 1/4 and 1/8. -/
example (n q : Nat) : ∃ o o' : Optim ℝ, newSGDOptimizer (1 / 4) 0 (1 / 2) = (o, none) ∧ newSGDOptimizer (1 / 8) 0 (1 / 2) = (o', none) ∧
    Compensates (2 : Nat) n q (OptSpec.fresh o) (OptSpec.fresh o') := by
  obtain ⟨o, ho⟩ := sgd_ok_real (lr := 1 / 4) (decay := 0) (mom := 1 / 2) (by norm_num) le_rfl (by norm_num)
  obtain ⟨o', ho'⟩ := sgd_ok_real (lr := 1 / 8) (decay := 0) (mom := 1 / 2) (by norm_num) le_rfl (by norm_num)
  refine ⟨o, o', ho, ho', ?_⟩
  rw [newSGD_ok ho, newSGD_ok ho']
  refine ⟨rfl, rfl, rfl, fun _ => ⟨?_, rfl, fun _ _ _ _ => rfl, fun _ _ _ _ => rfl⟩, fun hk => absurd hk (fun h => by cases h)⟩
  show (1 / 4 : ℝ) = ((2 : Nat) : ℝ) * (1 / 8)
  norm_num

end NN
