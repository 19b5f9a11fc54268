import Verif.Lemmas.ErrOps
import Verif.Lemmas.Same
/- Training on float64 stays within the bounds of the same training over `Iv`. -/

set_option linter.unusedSectionVars false

namespace NN
open F64

/-- InIv the bounds in the first r rows and c columns. -/
def WithinM (r c : Nat) (A : Nat → Nat → F64) (T : Nat → Nat → Iv) : Prop := ∀ i j, i < r → j < c → InIv (A i j) (T i j)

structure WithinLayer (L : LayerSpec F64) (T : LayerSpec Iv) : Prop where
  kind : T.kind = L.kind
  n : T.n = L.n
  o : T.o = L.o
  slope : InIv L.slope T.slope
  dropout : InIv L.dropout T.dropout
  W : WithinM L.n L.o L.W T.W
  b : ∀ j, j < L.o → InIv (L.b j) (T.b j)

structure WithinNet (net : Net F64) (T : Net Iv) : Prop where
  size : T.size = net.size
  dim : ∀ k, k ≤ net.size → T.dim k = net.dim k
  ins : ∀ k, k < net.size → (net.L k).n = net.dim k
  outs : ∀ k, k < net.size → (net.L k).o = net.dim (k + 1)
  layer : ∀ k, k < net.size → WithinLayer (net.L k) (T.L k)

section
variable [Libm] [PowErr]

theorem within_sum {n : Nat} {f : Nat → F64} {g : Nat → Iv} (h : ∀ k, k < n → InIv (f k) (g k)) : InIv (fsum n f) (fsum n g) := by
  induction n with
  | zero => exact within_ofInt 0
  | succ n ih => exact within_add (ih fun k hk => h k (by omega)) (h n (by omega))

theorem within_preact {L : LayerSpec F64} {T : LayerSpec Iv} (h : WithinLayer L T) {r : Nat} {X : Nat → Nat → F64} {X' : Nat → Nat → Iv}
    (hX : WithinM r L.n X X') : WithinM r L.o (preact L X) (preact T X') := by
  intro i j hi hj
  unfold preact
  rw [h.n]
  exact within_add (within_sum fun k hk => within_mul (hX i k hi hk) (h.W k j hk hj)) (h.b j hj)

theorem within_infer {L : LayerSpec F64} {T : LayerSpec Iv} (h : WithinLayer L T) {r : Nat} {X : Nat → Nat → F64} {X' : Nat → Nat → Iv}
    (hX : WithinM r L.n X X') (hs : L.kind = .leaky → ∀ i j, i < r → j < L.o → Sure (preact T X' i j) Flt.zero) :
    WithinM r L.o (infer L X) (infer T X') := by
  intro i j hi hj
  have hp := within_preact h hX
  have hz := within_ofInt 0
  have h1 := within_ofInt 1
  have hij := hp i j hi hj
  unfold infer actRow
  rw [h.kind, h.o]
  cases hk : L.kind with
  | hidden => exact within_max hij hz
  | dropout => exact within_max hij hz
  | linear => exact hij
  | sigmoid => exact within_div h1 (within_add h1 (within_exp (within_neg hij)))
  | softmax => exact within_div (within_exp hij) (within_sum fun k hk => within_exp (hp i k hi hk))
  | leaky =>
    dsimp only
    rw [(hs hk i j hi hj).lt hij hz]
    split
    · exact within_mul hij h.slope
    · exact hij

theorem within_bern {d u : F64} {d' u' : Iv} (hd : InIv d d') (hu : InIv u u') (h : DropSure d' u') :
    InIv (bern (Flt.one -. d) u) (bern (Flt.one -. d') u') := by
  have h1 : InIv Flt.one Flt.one := within_ofInt 1
  have hz : InIv Flt.zero Flt.zero := within_ofInt 0
  have hP : InIv (Flt.one -. d) (Flt.one -. d') := within_sub h1 hd
  have hP' := within_sub h1 hP
  obtain ⟨s1, s2⟩ := h
  unfold bern
  dsimp only
  rw [s1.lt within_half hP]
  cases hc : Flt.lt (Flt.half : Iv) (Flt.one -. d') with
  | true =>
    rw [if_pos hc] at s2
    obtain ⟨s2, s3⟩ := s2
    simp only [if_true]
    rw [s2.lt hu hP', s3.eq hP' hP]
    split <;> split
    · exact within_add hz h1
    · exact hz
    · exact within_sub h1 (within_add hz h1)
    · exact within_sub h1 hz
  | false =>
    rw [if_neg (by rw [hc]; decide)] at s2
    simp only [Bool.false_eq_true, if_false]
    have e1 : Flt.eq (Flt.one -. d) (Flt.one -. d) = true := eq_self_f64 (hP s2.2.1).1
    have e2 : Flt.eq (Flt.one -. d' : Iv) (Flt.one -. d') = true := decide_eq_true rfl
    rw [s2.lt hu hP, e1, e2]
    simp only [if_true]
    split
    · exact within_add hz h1
    · exact hz

theorem within_bits {L : LayerSpec F64} {T : LayerSpec Iv} (h : WithinLayer L T) {u : Nat → F64} {u' : Nat → Iv} (hu : ∀ q, InIv (u q) (u' q)) {r : Nat}
    (hs : ∀ i j, i < r → j < L.o → DropSure T.dropout (u' (i * T.o + j))) : WithinM r L.o (dropBits L u) (dropBits T u') := by
  intro i j hi hj
  have := within_bern h.dropout (hu (i * L.o + j)) (by rw [← h.o]; exact hs i j hi hj)
  unfold dropBits
  rw [h.o]
  exact this

theorem within_trainOut {L : LayerSpec F64} {T : LayerSpec Iv} (h : WithinLayer L T) {r : Nat} {X : Nat → Nat → F64} {X' : Nat → Nat → Iv}
    (hX : WithinM r L.n X X') {u : Nat → F64} {u' : Nat → Iv} (hu : ∀ q, InIv (u q) (u' q))
    (hs : L.kind = .leaky → ∀ i j, i < r → j < L.o → Sure (preact T X' i j) Flt.zero)
    (hd : L.kind = .dropout → ∀ i j, i < r → j < L.o → DropSure T.dropout (u' (i * T.o + j))) :
    WithinM r L.o (trainOut L u X) (trainOut T u' X') := by
  intro i j hi hj
  unfold trainOut
  rw [h.kind]
  split
  · rename_i hk
    exact within_mul (within_max (within_preact h hX i j hi hj) (within_ofInt 0))
      (within_div (within_bits h hu (hd hk) i j hi hj) (within_sub (within_ofInt 1) h.dropout))
  · exact within_infer h hX hs i j hi hj

theorem dropDraws_within {net : Net F64} {T : Net Iv} (h : WithinNet net T) (r : Nat) (k : Nat) (hk : k ≤ net.size) :
    dropDraws T r k = dropDraws net r k := by
  induction k with
  | zero => rfl
  | succ k ih => rw [dropDraws, dropDraws, ih (by omega), (h.layer k hk).kind, (h.layer k hk).o]

theorem within_trainVals {net : Net F64} {T : Net Iv} (h : WithinNet net T) {m : Model Iv} {loss : LossKind} {r : Nat} {X : Nat → Nat → F64}
    {X' Y' : Nat → Nat → Iv} (hX : WithinM r (net.dim 0) X X') {u : Nat → F64} {u' : Nat → Iv} (hu : ∀ q, InIv (u q) (u' q))
    (hs : StepSafe m loss r u' (trainVals T r u' X') Y' T) (k : Nat) (hk : k ≤ net.size) :
    WithinM r (net.dim k) (trainVals net r u X k) (trainVals T r u' X' k) := by
  induction k with
  | zero => exact hX
  | succ k ih =>
    have := ih (by omega)
    rw [← h.ins k hk] at this
    have hl := h.layer k hk
    have hk' : k < T.size := by rw [h.size]; exact hk
    have hd := h.dim (k + 1) hk
    rw [← h.outs k hk] at hd ⊢
    refine within_trainOut hl this (fun q => ?_) (fun h1 i j hi hj => ?_) fun h1 i j hi hj => ?_
    · rw [dropDraws_within h r k (by omega)]; exact hu _
    · exact hs.leaky k hk' (by rw [hl.kind]; exact h1) i j hi (by rw [hd]; exact hj)
    · exact hs.drop k hk' (by rw [hl.kind]; exact h1) i j hi (by rw [hd]; exact hj)

theorem within_actBack {L : LayerSpec F64} {T : LayerSpec Iv} (h : WithinLayer L T) {r : Nat} {P M D : Nat → Nat → F64} {P' M' D' : Nat → Nat → Iv}
    (hP : WithinM r L.o P P') (hM : L.kind = .dropout → WithinM r L.o M M') (hD : WithinM r L.o D D')
    (hs : L.kind = .hidden ∨ L.kind = .leaky ∨ L.kind = .dropout → ∀ i j, i < r → j < L.o → Sure (P' i j) Flt.zero) :
    WithinM r L.o (actBack L P M D) (actBack T P' M' D') := by
  intro i j hi hj
  have hz := within_ofInt 0
  have hp := hP i j hi hj
  have hd := hD i j hi hj
  unfold actBack
  rw [h.kind, h.o]
  cases hk : L.kind with
  | linear => exact hd
  | sigmoid => exact hd
  | hidden =>
    dsimp only
    rw [(hs (.inl hk) i j hi hj).le hp hz]
    split
    · exact hz
    · exact hd
  | leaky =>
    dsimp only
    rw [(hs (.inr (.inl hk)) i j hi hj).lt hp hz]
    split
    · exact within_mul hd h.slope
    · exact hd
  | dropout =>
    dsimp only
    rw [(hs (.inr (.inr hk)) i j hi hj).le hp hz]
    split
    · exact hz
    · exact within_mul hd (hM hk i j hi hj)
  | softmax =>
    refine within_sum fun k hk => within_mul (within_sub ?_ (within_sum fun _ _ => within_mul hp (hP i k hi hk))) (hD i k hi hk)
    split
    · exact hp
    · exact hz

theorem within_gradW {r n o : Nat} {X G : Nat → Nat → F64} {X' G' : Nat → Nat → Iv} (hX : WithinM r n X X') (hG : WithinM r o G G') :
    WithinM n o (gradW r X G) (gradW r X' G') :=
  fun k j hk hj => within_sum fun i hi => within_mul (hX i k hi hk) (hG i j hi hj)

theorem within_gradB {r o : Nat} {G : Nat → Nat → F64} {G' : Nat → Nat → Iv} (hG : WithinM r o G G') : WithinM 1 o (gradB r G) (gradB r G') :=
  fun _ j _ hj => within_sum fun i hi => hG i j hi hj

theorem within_gradX {L : LayerSpec F64} {T : LayerSpec Iv} (h : WithinLayer L T) {r : Nat} {G : Nat → Nat → F64} {G' : Nat → Nat → Iv}
    (hG : WithinM r L.o G G') : WithinM r L.n (gradX L G) (gradX T G') := by
  intro i k hi hk
  unfold gradX
  rw [h.o]
  exact within_sum fun j hj => within_mul (hG i j hi hj) (h.W k j hk hj)

theorem within_clipped {x : F64} {t : Iv} (h : InIv x t) (s1 : Sure t Flt.zero) (s2 : Sure Flt.one t) : InIv (clipped x) (clipped t) := by
  unfold clipped
  rw [s1.lt h (within_ofInt 0), s2.lt (within_ofInt 1) h]
  split
  · exact within_eps7
  · split
    · exact within_oneSubEps7
    · exact h

theorem within_lossGrad (k : LossKind) {r c : Nat} {P Y : Nat → Nat → F64} {P' Y' : Nat → Nat → Iv} (hP : WithinM r c P P') (hY : WithinM r c Y Y')
    (hmae : k = .mae → ∀ i j, i < r → j < c → Sure (P' i j -. Y' i j) Flt.zero)
    (hbce : k = .bce → ∀ i j, i < r → j < c → Sure (P' i j) Flt.zero ∧ Sure Flt.one (P' i j)) :
    WithinM r c (lossGrad k r c P Y) (lossGrad k r c P' Y') := by
  intro i j hi hj
  have hp := hP i j hi hj
  have hy := hY i j hi hj
  have hd := within_sub hp hy
  unfold lossGrad
  cases k with
  | mse => exact within_mul hd (within_div (within_ofInt 2) (within_ofInt c))
  | ce => exact within_div (within_div (within_neg hy) hp) (within_ofInt r)
  | mae =>
    dsimp only
    have hs := hmae rfl i j hi hj
    rw [hs.lt hd (within_ofInt 0), hs.symm.lt (within_ofInt 0) hd]
    split
    · exact within_ofInt _
    · split
      · exact within_ofInt _
      · exact within_ofInt _
  | bce =>
    obtain ⟨s1, s2⟩ := hbce rfl i j hi hj
    have hc := within_clipped hp s1 s2
    exact within_div (within_div (within_neg (within_sub (within_div hy hc) (within_div (within_sub (within_ofInt 1) hy)
      (within_sub (within_ofInt 1) hc)))) (within_ofInt c)) (within_ofInt r)

theorem within_fusedGrad {r c : Nat} {P Y : Nat → Nat → F64} {P' Y' : Nat → Nat → Iv} (hP : WithinM r c P P') (hY : WithinM r c Y Y')
    (hs : ∀ i j, i < r → j < c → Sure (Y' i j) Flt.one) : WithinM r c (fusedGrad r P Y) (fusedGrad r P' Y') := by
  intro i j hi hj
  unfold fusedGrad
  rw [(hs i j hi hj).eq (hY i j hi hj) (within_ofInt 1)]
  split
  · exact within_div (within_sub (hP i j hi hj) (within_ofInt 1)) (within_ofInt r)
  · exact within_div (hP i j hi hj) (within_ofInt r)

theorem within_afterLoss (k : LossKind) {r c : Nat} {P : Nat → Nat → F64} {P' : Nat → Nat → Iv} (hP : WithinM r c P P')
    (hbce : k = .bce → ∀ i j, i < r → j < c → Sure (P' i j) Flt.zero ∧ Sure Flt.one (P' i j)) : WithinM r c (afterLoss k P) (afterLoss k P') := by
  intro i j hi hj
  unfold afterLoss
  cases k with
  | bce =>
    obtain ⟨s1, s2⟩ := hbce rfl i j hi hj
    exact within_clipped (hP i j hi hj) s1 s2
  | mse => exact hP i j hi hj
  | mae => exact hP i j hi hj
  | ce => exact hP i j hi hj

theorem within_backprop {net : Net F64} {T : Net Iv} (h : WithinNet net T) {r t : Nat} (ht : t ≤ net.size) {V M G D : Nat → Nat → Nat → F64}
    {V' M' G' D' : Nat → Nat → Nat → Iv} (hV : ∀ k, k ≤ net.size → WithinM r (net.dim k) (V k) (V' k))
    (hM : ∀ k, k < net.size → (net.L k).kind = .dropout → WithinM r (net.dim (k + 1)) (M k) (M' k))
    (hs : ∀ k, k < t → (net.L k).kind = .hidden ∨ (net.L k).kind = .leaky ∨ (net.L k).kind = .dropout → ∀ i j, i < r → j < net.dim (k + 1) →
      Sure (V' (k + 1) i j) Flt.zero)
    (hD : WithinM r (net.dim t) (D t) (D' t)) (hB : Backprop net V M G D t) (hB' : Backprop T V' M' G' D' t) :
    ∀ k, k < t → WithinM r (net.dim (k + 1)) (G k) (G' k) := by
  have key : ∀ s, s ≤ t → WithinM r (net.dim (t - s)) (D (t - s)) (D' (t - s)) ∧ ∀ k, t - s ≤ k → k < t → WithinM r (net.dim (k + 1)) (G k) (G' k) := by
    intro s
    induction s with
    | zero => exact fun _ => ⟨hD, fun k h1 h2 => by omega⟩
    | succ s ih =>
      intro hs'
      obtain ⟨i1, i2⟩ := ih (by omega)
      have e : t - s = t - (s + 1) + 1 := by omega
      have hk : t - (s + 1) < net.size := by omega
      have hG : WithinM r (net.dim (t - (s + 1) + 1)) (G (t - (s + 1))) (G' (t - (s + 1))) := by
        rw [hB.act _ (by omega), hB'.act _ (by omega)]
        have h1 := hV (t - (s + 1) + 1) (by omega)
        have h2 := hM _ hk
        have h3 := i1
        have h4 := hs (t - (s + 1)) (by omega)
        rw [e] at h3
        rw [← h.outs _ hk] at h1 h2 h3 h4 ⊢
        exact within_actBack (h.layer _ hk) h1 h2 h3 h4
      refine ⟨?_, fun k h1 h2 => ?_⟩
      · rw [hB.inp _ (by omega), hB'.inp _ (by omega), ← h.ins _ hk]
        exact within_gradX (h.layer _ hk) (by rw [h.outs _ hk]; exact hG)
      · by_cases he : k = t - (s + 1)
        · subst he; exact hG
        · exact i2 k (by omega) h2
  intro k hk
  exact (key t le_rfl).2 k (by omega) hk

theorem within_netGrad {m : Model F64} {m' : Model Iv} (hm : m'.lossType = m.lossType) {net : Net F64} {T : Net Iv} (h : WithinNet net T)
    (h0 : 0 < net.size) {loss : LossKind} {r : Nat} {u' : Nat → Iv}
    {V M G D : Nat → Nat → Nat → F64} {V' M' G' D' : Nat → Nat → Nat → Iv} {Y : Nat → Nat → F64} {Y' : Nat → Nat → Iv}
    (hs : StepSafe m' loss r u' V' Y' T)
    (hV : ∀ k, k ≤ net.size → WithinM r (net.dim k) (V k) (V' k))
    (hM : ∀ k, k < net.size → (net.L k).kind = .dropout → WithinM r (net.dim (k + 1)) (M k) (M' k))
    (hY : WithinM r (net.dim net.size) Y Y') (hg : NetGrad m net loss r V M Y G D) (hg' : NetGrad m' T loss r V' M' Y' G' D') :
    ∀ k, k < net.size → WithinM r (net.dim (k + 1)) (G k) (G' k) := by
  have hs0 : net.size - 1 < net.size := by omega
  have hs1 : net.size - 1 + 1 = net.size := by omega
  have hf : Fused m' T ↔ Fused m net := by
    unfold Fused
    rw [h.size, (h.layer _ hs0).kind, hm]
  have hsz := h.dim net.size le_rfl
  have hrelu := hs.relu
  have hmae := hs.mae
  have hbce := hs.bce
  have hone := hs.onehot
  rw [h.size] at hrelu hmae hbce hone
  rw [hsz] at hmae hbce hone
  by_cases hF : Fused m net
  · obtain ⟨a1, a2, a3⟩ := hg.fused hF
    obtain ⟨b1, b2, b3⟩ := hg'.fused (hf.2 hF)
    rw [h.size] at b1 b2 b3
    have hG : WithinM r (net.dim net.size) (G (net.size - 1)) (G' (net.size - 1)) := by
      rw [a1, b1]
      exact within_fusedGrad (hV _ le_rfl) hY (hone (hf.2 hF))
    intro k hk
    by_cases he : k = net.size - 1
    · rw [he, hs1]; exact hG
    · refine within_backprop h (by omega) hV hM (fun k hk hkind i j hi hj => ?_) ?_ a3 b3 k (by omega)
      · have := hrelu k (by omega) (by rw [(h.layer k (by omega)).kind]; exact hkind) i j hi (by rw [h.dim _ (by omega)]; exact hj)
        rw [if_neg (by rintro ⟨hh, -⟩; omega)] at this
        exact this
      · rw [a2, b2, ← h.ins _ hs0]
        exact within_gradX (h.layer _ hs0) (by rw [h.outs _ hs0, hs1]; exact hG)
  · obtain ⟨a1, a2⟩ := hg.plain hF
    obtain ⟨b1, b2⟩ := hg'.plain fun hx => hF (hf.1 hx)
    rw [h.size] at b1 b2
    rw [hsz] at b1
    refine within_backprop h le_rfl (fun k hk => ?_) hM (fun k hk hkind i j hi hj => ?_) ?_ a2 b2
    · split
      · rename_i hk'
        rw [hk'] at *
        exact within_afterLoss _ (hV _ le_rfl) hbce
      · exact hV k hk
    · have := hrelu k (by omega) (by rw [(h.layer k (by omega)).kind]; exact hkind) i j hi (by rw [h.dim _ (by omega)]; exact hj)
      by_cases he : k + 1 = net.size
      · rw [if_pos ⟨he, fun hx => hF (hf.1 hx)⟩] at this
        rw [if_pos he]; exact this
      · rw [if_neg (by rintro ⟨hh, -⟩; exact he hh)] at this
        rw [if_neg he]; exact this
    · rw [a1, b1]
      exact within_lossGrad _ (hV _ le_rfl) hY hmae hbce

/-! ### Optimizers -/

/-- Optimizers with settings and state within the bounds; whether decay and momentum are in use is the same. -/
structure WithinOpt (n o : Nat) (S : OptSpec F64) (T : OptSpec Iv) : Prop where
  kind : T.kind = S.kind
  t : T.t = S.t
  lr : InIv S.lr T.lr
  decay : InIv S.decay T.decay
  useDecay : Flt.eq S.decay Flt.zero = Flt.eq T.decay Flt.zero
  momentum : InIv S.momentum T.momentum
  useMomentum : S.kind = .sgd → Flt.eq S.momentum Flt.zero = Flt.eq T.momentum Flt.zero
  epsilon : InIv S.epsilon T.epsilon
  beta1 : InIv S.beta1 T.beta1
  beta2 : InIv S.beta2 T.beta2
  vw : WithinM n o S.vw T.vw
  vb : WithinM 1 o S.vb T.vb
  cw : WithinM n o S.cw T.cw
  cb : WithinM 1 o S.cb T.cb
  pow : S.kind = .adam → PowAcc

variable {n o : Nat} {S : OptSpec F64} {T : OptSpec Iv}

theorem WithinOpt.rate (h : WithinOpt n o S T) : InIv S.rate T.rate := by
  unfold OptSpec.rate
  rw [h.useDecay, h.t]
  split
  · exact h.lr
  · exact within_mul h.lr (within_div (within_ofInt 1) (within_add (within_ofInt 1) (within_mul h.decay (within_ofInt _))))

theorem WithinOpt.corr (h : WithinOpt n o S T) (hk : S.kind = .adam) : InIv S.corr T.corr := by
  unfold OptSpec.corr
  rw [h.t]
  exact within_div (within_ofInt 1) (within_sub (within_ofInt 1) (within_pow (h.pow hk) h.beta1 (within_ofInt _)))

theorem WithinOpt.vel (h : WithinOpt n o S T) {v g : F64} {v' g' : Iv} (hv : InIv v v') (hg : InIv g g') : InIv (S.vel v g) (T.vel v' g') := by
  unfold OptSpec.vel
  rw [h.kind]
  cases hk : S.kind with
  | sgd =>
    dsimp only
    rw [h.useMomentum hk]
    split
    · exact hv
    · exact within_sub (within_mul hv h.momentum) (within_mul hg h.rate)
  | adam => exact within_add (within_mul hv h.beta1) (within_mul hg (within_sub (within_ofInt 1) h.beta1))

theorem WithinOpt.cache (h : WithinOpt n o S T) {c g : F64} {c' g' : Iv} (hc : InIv c c') (hg : InIv g g') : InIv (S.cache c g) (T.cache c' g') := by
  unfold OptSpec.cache
  rw [h.kind]
  cases hk : S.kind with
  | sgd => exact hc
  | adam => exact within_add (within_mul hc h.beta2) (within_mul (within_pow (h.pow hk) hg (within_ofInt 2)) (within_sub (within_ofInt 1) h.beta2))

theorem WithinOpt.upd (h : WithinOpt n o S T) {x v c g : F64} {x' v' c' g' : Iv} (hx : InIv x x') (hv : InIv v v') (hc : InIv c c')
    (hg : InIv g g') : InIv (S.upd x v c g) (T.upd x' v' c' g') := by
  unfold OptSpec.upd
  rw [h.kind]
  cases hk : S.kind with
  | sgd =>
    dsimp only
    rw [h.useMomentum hk]
    split
    · exact within_sub hx (within_mul hg h.rate)
    · exact within_add hx (h.vel hv hg)
  | adam =>
    exact within_add hx (within_div (within_mul (within_neg h.rate) (within_mul (h.vel hv hg) (h.corr hk)))
      (within_add (within_sqrt (within_mul (h.cache hc hg) (h.corr hk))) h.epsilon))

theorem WithinOpt.newW (h : WithinOpt n o S T) {W G : Nat → Nat → F64} {W' G' : Nat → Nat → Iv} (hW : WithinM n o W W') (hG : WithinM n o G G') :
    WithinM n o (S.newW W G) (T.newW W' G') :=
  fun i j hi hj => h.upd (hW i j hi hj) (h.vw i j hi hj) (h.cw i j hi hj) (hG i j hi hj)

theorem WithinOpt.newB (h : WithinOpt n o S T) {W G : Nat → Nat → F64} {W' G' : Nat → Nat → Iv} (hW : WithinM 1 o W W') (hG : WithinM 1 o G G') :
    WithinM 1 o (S.newB W G) (T.newB W' G') :=
  fun i j hi hj => h.upd (hW i j hi hj) (h.vb i j hi hj) (h.cb i j hi hj) (hG i j hi hj)

theorem WithinOpt.step (h : WithinOpt n o S T) {GW GB : Nat → Nat → F64} {GW' GB' : Nat → Nat → Iv} (hW : WithinM n o GW GW')
    (hB : WithinM 1 o GB GB') : WithinOpt n o (S.step GW GB) (T.step GW' GB') :=
  ⟨h.kind, congrArg (· + 1) h.t, h.lr, h.decay, h.useDecay, h.momentum, h.useMomentum, h.epsilon, h.beta1, h.beta2,
    fun i j hi hj => h.vel (h.vw i j hi hj) (hW i j hi hj), fun i j hi hj => h.vel (h.vb i j hi hj) (hB i j hi hj),
    fun i j hi hj => h.cache (h.cw i j hi hj) (hW i j hi hj), fun i j hi hj => h.cache (h.cb i j hi hj) (hB i j hi hj), h.pow⟩

/-! ### Training -/

/-- A run on float64 within the bounds of a run over `Iv`. -/
structure WithinRun (net : Net F64) (T : Net Iv) (S : Nat → OptSpec F64) (S' : Nat → OptSpec Iv) : Prop where
  layers : WithinNet net T
  opt : ∀ k, k < net.size → WithinOpt (net.L k).n (net.L k).o (S k) (S' k)

theorem within_trainStep {m : Model F64} {m' : Model Iv} (hm : m'.lossType = m.lossType) {loss : LossKind} {r : Nat} {u : Nat → F64} {u' : Nat → Iv}
    (hu : ∀ q, InIv (u q) (u' q)) {X Y : Nat → Nat → F64} {X' Y' : Nat → Nat → Iv} {net net1 : Net F64} {T T1 : Net Iv}
    {S S1 : Nat → OptSpec F64} {S' S1' : Nat → OptSpec Iv} (h : WithinRun net T S S') (h0 : 0 < net.size)
    (hX : WithinM r (net.dim 0) X X') (hY : WithinM r (net.dim net.size) Y Y')
    (hs : StepSafe m' loss r u' (trainVals T r u' X') Y' T) (h1 : TrainStep m loss r u X Y net S net1 S1)
    (h2 : TrainStep m' loss r u' X' Y' T S' T1 S1') : WithinRun net1 T1 S1 S1' ∧ SameShape net net1 := by
  obtain ⟨G, D, g1, rfl, rfl⟩ := h1
  obtain ⟨G', D', g2, rfl, rfl⟩ := h2
  have hV := within_trainVals h.layers hX hu hs
  have hG := within_netGrad hm h.layers h0 hs hV (fun k hk hkind => by
    rw [← h.layers.outs k hk]
    have hl := h.layers.layer k hk
    refine within_bits hl (fun q => ?_) fun i j hi hj => ?_
    · rw [dropDraws_within h.layers r k (by omega)]; exact hu _
    · exact hs.drop k (by rw [h.layers.size]; exact hk) (by rw [hl.kind]; exact hkind) i j hi (by
        rw [h.layers.dim _ hk, ← h.layers.outs k hk]; exact hj)) hY g1 g2
  have hGo : ∀ k, k < net.size → WithinM r (net.L k).o (G k) (G' k) := fun k hk => by rw [h.layers.outs k hk]; exact hG k hk
  have hVo : ∀ k, k < net.size → WithinM r (net.L k).n (trainVals net r u X k) (trainVals T r u' X' k) := fun k hk => by
    rw [h.layers.ins k hk]; exact hV k (by omega)
  refine ⟨⟨⟨h.layers.size, h.layers.dim, h.layers.ins, h.layers.outs, fun k hk => ?_⟩, fun k hk => ?_⟩, ⟨rfl, rfl, rfl, rfl, rfl, fun i => ⟨_, _, rfl⟩⟩⟩
  · have hl := h.layers.layer k hk
    exact ⟨hl.kind, hl.n, hl.o, hl.slope, hl.dropout,
      (h.opt k hk).newW hl.W (within_gradW (hVo k hk) (hGo k hk)),
      fun j hj => (h.opt k hk).newB (fun i j _ hj => hl.b j hj) (within_gradB (hGo k hk)) 0 j Nat.one_pos hj⟩
  · exact (h.opt k hk).step (within_gradW (hVo k hk) (hGo k hk)) (within_gradB (hGo k hk))

/-- Two runs over batches of the first n rows that start within bounds end within bounds. -/
theorem within_descent {m : Model F64} {m' : Model Iv} (hm : m'.lossType = m.lossType) {loss : LossKind} {u : Nat → F64} {u' : Nat → Iv} {p n : Nat}
    (hu : ∀ q, InIv (u q) (u' q)) {X Y : Nat → Nat → F64} {X' Y' : Nat → Nat → Iv} {net net1 : Net F64} {T T1 : Net Iv}
    {S S1 : Nat → OptSpec F64} {S' S1' : Nat → OptSpec Iv} (h : WithinRun net T S S') (h0 : 0 < net.size)
    (hX : WithinM n (net.dim 0) X X') (hY : WithinM n (net.dim net.size) Y Y') (bs : List (Nat × Nat))
    (hbs : ∀ b ∈ bs, b.1 + b.2 ≤ n) {p1 p1' : Nat}
    (h1 : Descent m loss u X Y net S p bs net1 S1 p1) (h2 : SafeDescent m' loss u' X' Y' T S' p bs T1 S1' p1') :
    WithinRun net1 T1 S1 S1' ∧ net1.size = net.size ∧ net1.dim = net.dim ∧ p1' = p1 := by
  induction h2 generalizing net1 S1 p1 with
  | start =>
    obtain ⟨rfl, rfl, rfl⟩ := h1.nil
    exact ⟨h, rfl, rfl, rfl⟩
  | step a1 a2 a3 ih =>
    rename_i bs b _ _ _ _ _
    obtain ⟨netB, SB, pB, b1, b2, rfl⟩ := h1.snoc
    obtain ⟨hs, e1, e2, rfl⟩ := ih (fun b hb => hbs b (by simp [hb])) b1
    have hb := hbs b (by simp)
    obtain ⟨r1, r2⟩ := within_trainStep hm (fun q => hu _) hs (by omega) (fun i j hi hj => hX _ _ (by omega) (by rw [← e2]; exact hj))
      (fun i j hi hj => hY _ _ (by omega) (by rw [← e2, ← e1]; exact hj)) a2 b2 a3
    refine ⟨r1, r2.size.trans e1, r2.dim.trans e2, ?_⟩
    rw [hs.layers.size, dropDraws_within hs.layers _ _ le_rfl]

end

end NN
