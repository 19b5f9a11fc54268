import Verif.Lemmas.ModelGo
import Verif.Lemmas.Loss
import Verif.Spec.Backprop
/- `Backward` of model.go. -/

set_option linter.unusedSectionVars false

namespace NN
variable {α : Type} [Flt α]
open Go

theorem GradOk.spec {w w' : World α} {g : Grads} {r : Nat} {L : LayerSpec α} {X G : Nat → Nat → α}
    (h : GradOk w w' g r L.n L.o X G L.W) : Fresh w w' g.dWeights L.n L.o (gradW r X G) ∧
      Fresh w w' g.dBiases 1 L.o (gradB r G) ∧ Fresh w w' g.dInputs r L.n (gradX L G) := ⟨h.dw, h.db, h.dx⟩

variable {w0 w : World α} {m : Model α} {net : Net α} {r : Nat} {o mask : Nat → Mat} {V M G D : Nat → Nat → Nat → α}

/-- A layer step of the backward pass. -/
theorem layerBackward_spec (ht : Tape w0 m net r o mask V M) (ha : OnlyAllocs w0 w) {k : Nat} (hk : k < net.size)
    (hs : (net.L k).kind ≠ .sigmoid) {d : Mat} {Dk : Nat → Nat → α} (hd : Fresh w0 w d r (net.dim (k + 1)) Dk) :
    wp (layerBackward (net.lp k) (o k) d) w (fun g w' =>
      GradOk w w' g r (net.L k).n (net.L k).o (V k) (actBack (net.L k) (V (k + 1)) (M k) Dk) (net.L k).W ∧
      Frame { flt := w.IsRow d r } w w') := by
  have hlay : w.lay (net.lp k) = w0.lay (net.lp k) := ha.lay _ (ht.isNet.lay k hk).lt (fun h => h)
  have hN : IsNet w m net := ht.isNet.frame ha (Static.of_frame ha fun _ _ h => h) (fun _ h => h) (fun _ _ h => h)
  have hL := hN.lay k hk
  have hL0 := ht.isNet.lay k hk
  have hin := ht.isNet.ins k hk
  have hout := ht.isNet.outs k hk
  have hX0 := ht.mats k hk.le
  rw [← hin] at hX0
  have hP0 := ht.mats (k + 1) hk
  rw [← hout] at hP0 hd
  have hX := hX0.allocs ha
  have hP := hP0.allocs ha
  have old : ∀ {x : Mat} {r' c' : Nat} {A : Nat → Nat → α}, IsMat w0 x r' c' A → ∀ a, w.IsRow x r' a → ¬ w.IsRow d r a := by
    intro x r' c' A hx a h1 h2
    have := hd.fresh a h2
    have := hx.isRow_lt ((hx.isRow_frame ha (fun h => h) a).1 h1)
    omega
  have own : OwnGrad w d r (o k) (net.wm k) (net.L k).n := ⟨hd.distinct, old hX0, old hL0.wmat⟩
  have weak : OnlyAllocs w w → ∀ {w'}, OnlyAllocs w w' → Frame { flt := w.IsRow d r } w w' := fun _ w' h =>
    h.weaken (fun _ _ h => h.elim) (fun _ _ h => h) (fun _ _ h => h) (fun _ _ h => h) id id id
  unfold layerBackward
  refine wp_bind_ok rfl ?_
  rw [hL.kind]
  unfold actBack
  cases hkind : (net.L k).kind with
  | sigmoid => exact absurd hkind hs
  | linear =>
    refine wp_mono (linearBackward_spec hL hX hd.mat) fun g w' h => ⟨h.1, weak (Frame.refl _ _) h.2⟩
  | hidden =>
    have e : (w.lay (net.lp k)).reluInputs = o (k + 1) := by rw [hlay]; exact ht.relu k hk (by simp [hkind])
    exact hiddenBackward_spec hL hX hd.mat own (by rw [e]; exact hP) (by rw [e]; exact old hP0)
  | leaky =>
    have e : (w.lay (net.lp k)).reluInputs = o (k + 1) := by rw [hlay]; exact ht.relu k hk (by simp [hkind])
    exact leakyBackward_spec hL hX hd.mat own (by rw [e]; exact hP) (by rw [e]; exact old hP0)
  | dropout =>
    have e : (w.lay (net.lp k)).reluInputs = o (k + 1) := by rw [hlay]; exact ht.relu k hk (by simp [hkind])
    obtain ⟨e2, hM0⟩ := ht.drop k hk hkind
    rw [← hlay] at e2
    rw [← hout] at hM0
    exact dropoutBackward_spec hL hX hd.mat own (by rw [e]; exact hP) (by rw [e]; exact old hP0)
      (by rw [e2]; exact hM0.allocs ha) (by rw [e2]; exact old hM0)
  | softmax =>
    have e : (w.lay (net.lp k)).outputs = o (k + 1) := by rw [hlay]; exact ht.soft k hk hkind
    exact wp_mono (softmaxBackward_spec hL hX hd.mat (by rw [e]; exact hP)) fun g w' h => ⟨h.1, weak (Frame.refl _ _) h.2⟩

theorem fusedLast_run (hN : IsNet w m net) {k : Nat} (hk : k < net.size) :
    fusedLast m (k : Int) w = .ok (decide ((net.L k).kind = .softmax ∧ m.lossType = 2), w) := by
  unfold fusedLast
  have e : listGet m.layers (k : Int) w = .ok (net.lp k, w) := by simp [listGet, hN.get_layer hk]; rfl
  refine (bind_ok e).trans ?_
  refine (bind_ok (show layGet (net.lp k) w = .ok (w.lay (net.lp k), w) from rfl)).trans ?_
  rw [(hN.lay k hk).kind]
  rfl

theorem range_map_get {β : Type} (f : Nat → β) {k n : Nat} (h : k < n) : ((List.range n).map f)[k]? = some (f k) := by
  simp [h]

theorem backwardLoop_spec (ht : Tape w0 m net r o mask V M) (hns : ∀ k, k < net.size → (net.L k).kind ≠ .sigmoid) (t : Nat)
    (htn : t ≤ net.size) (hf : t = net.size → ¬ Fused m net) (hb : Backprop net V M G D t) {gs : List Gradients} {d : Mat}
    (ha : OnlyAllocs w0 w) (hd : Fresh w0 w d r (net.dim t) (D t)) (hg : HasGrads w0 w net r t V G gs)
    (hsep : ∀ k, t ≤ k → k < net.size → ∀ dw db, gs[net.size - 1 - k]? = some ⟨dw, db⟩ → ∀ a,
      w.IsRow dw (net.L k).n a ∨ w.IsRow db 1 a → ¬ w.IsRow d r a) :
    wp (backwardLoop m ((List.range (net.size + 1)).map o) t gs d) w (fun p w' => p.2 = none ∧
      OnlyAllocs w0 w' ∧ HasGrads w0 w' net r 0 V G p.1) := by
  induction t generalizing w gs d with
  | zero => exact ⟨rfl, ha, hg⟩
  | succ k ih =>
    unfold backwardLoop
    have hN : IsNet w m net := ht.isNet.frame ha (Static.of_frame ha fun _ _ h => h) (fun _ h => h) (fun _ _ h => h)
    refine wp_bind_ok (fusedLast_run hN (by omega)) ?_
    rw [if_neg (by
      rw [hN.size]
      rintro ⟨h1, h2⟩
      have e : k + 1 = net.size := by omega
      refine hf e ?_
      unfold Fused
      rw [show net.size - 1 = k by omega]
      simpa using h1)]
    refine wp_bind_ok (b := net.lp k) (w' := w) (by simp [listGet, hN.get_layer (i := k) (by omega)]; rfl) ?_
    refine wp_bind_ok (b := o k) (w' := w) (by simp [listGet, show k < net.size + 1 by omega]; rfl) ?_
    refine wp_bind_mono (layerBackward_spec ht ha (by omega) (hns k (by omega)) hd) ?_
    intro g w1 ⟨h1, hfr⟩
    rw [h1.err]
    dsimp only
    rw [← hb.act k (by omega)] at h1
    obtain ⟨s1, s2, s3⟩ := h1.spec
    rw [← hb.inp k (by omega)] at s3
    have hle := ha.next_le
    have ha1 : OnlyAllocs w0 w1 := by
      frames ha hfr
      intro a ha0 h2
      have := hd.fresh a h2
      exact absurd ha0 (by omega)
    rw [ht.isNet.ins k (by omega)] at s3
    refine ih (by omega) (by omega) ⟨fun j hj => hb.act j (by omega), fun j hj => hb.inp j (by omega)⟩ ha1 (s3.mono hle) ?_ ?_
    · refine ⟨by rw [List.length_append, hg.len]; simp; omega, fun j hj hjn => ?_⟩
      rcases Nat.eq_or_lt_of_le hj with rfl | hj
      · refine ⟨g.dWeights, g.dBiases, ?_, s1.mono hle, s2.mono hle, h1.sep⟩
        rw [List.getElem?_append_right (by rw [hg.len]; omega), hg.len, show net.size - 1 - k - (net.size - (k + 1)) = 0 by omega]
        rfl
      · obtain ⟨dw, db, e, f1, f2, f3⟩ := hg.get j hj hjn
        refine ⟨dw, db, ?_, f1.frame hfr (fun h => h) fun a h => hsep j hj hjn _ _ e a (.inl h),
          f2.frame hfr (fun h => h) fun a h => hsep j hj hjn _ _ e a (.inr h), fun a h1 h2 => f3 a
            ((f1.mat.isRow_frame hfr (fun h => h) a).1 h1) ((f2.mat.isRow_frame hfr (fun h => h) a).1 h2)⟩
        rw [List.getElem?_append_left (List.getElem?_eq_some_iff.1 e).1]; exact e
    · intro j hj hjn dw db e a hor hdx
      rcases Nat.eq_or_lt_of_le hj with rfl | hj
      · rw [List.getElem?_append_right (by rw [hg.len]; omega), hg.len, show net.size - 1 - k - (net.size - (k + 1)) = 0 by omega] at e
        cases e
        exact h1.sepx a hor hdx
      · obtain ⟨dw', db', e', f1, f2, f3⟩ := hg.get j hj hjn
        rw [List.getElem?_append_left (List.getElem?_eq_some_iff.1 e').1, e'] at e
        cases e
        have := s3.fresh a hdx
        rcases hor with h | h
        · have := f1.mat.isRow_lt ((f1.mat.isRow_frame hfr (fun h => h) a).1 h)
          omega
        · have := f2.mat.isRow_lt ((f2.mat.isRow_frame hfr (fun h => h) a).1 h)
          omega

theorem listGet_last (hN : IsNet w m net) {β : Type} (f : Nat → β) :
    listGet ((List.range (net.size + 1)).map f) m.modelSize w = .ok (f net.size, w) := by
  rw [hN.size]; simp [listGet]; rfl

theorem exists_backprop (net : Net α) (V M : Nat → Nat → Nat → α) (t : Nat) (Dt : Nat → Nat → α) :
    ∃ G D : Nat → Nat → Nat → α, D t = Dt ∧ Backprop net V M G D t := by
  induction t generalizing Dt with
  | zero => exact ⟨fun _ => Dt, fun _ => Dt, rfl, fun k hk => absurd hk (by omega), fun k hk => absurd hk (by omega)⟩
  | succ t ih =>
    obtain ⟨G, D, h1, h2⟩ := ih (gradX (net.L t) (actBack (net.L t) (V (t + 1)) (M t) Dt))
    refine ⟨fun k => if k = t then actBack (net.L t) (V (t + 1)) (M t) Dt else G k, fun k => if k = t + 1 then Dt else D k,
      if_pos rfl, fun k hk => ?_, fun k hk => ?_⟩
    · rcases Nat.lt_succ_iff_lt_or_eq.1 hk with hk | rfl
      · simp only [if_neg (show ¬ k = t by omega), if_neg (show ¬ k + 1 = t + 1 by omega)]
        exact h2.act k hk
      · simp
    · rcases Nat.lt_succ_iff_lt_or_eq.1 hk with hk | rfl
      · simp only [if_neg (show ¬ k = t by omega), if_neg (show ¬ k = t + 1 by omega)]
        exact h2.inp k hk
      · simp [h1]

theorem Backprop.congr {V' : Nat → Nat → Nat → α} {t : Nat} (h : Backprop net V M G D t) (hV : ∀ k, k < t → V (k + 1) = V' (k + 1)) :
    Backprop net V' M G D t := ⟨fun k hk => by rw [← hV k hk]; exact h.act k hk, h.inp⟩

theorem exists_netGrad (m : Model α) (net : Net α) (loss : LossKind) (r : Nat) (V M : Nat → Nat → Nat → α)
    (Y : Nat → Nat → α) : ∃ G D, NetGrad m net loss r V M Y G D := by
  by_cases hf : Fused m net
  · obtain ⟨G, D, h1, h2⟩ := exists_backprop net V M (net.size - 1)
      (gradX (net.L (net.size - 1)) (fusedGrad r (V net.size) Y))
    refine ⟨fun k => if k = net.size - 1 then fusedGrad r (V net.size) Y else G k, D, fun _ => ⟨if_pos rfl, ?_, ?_, ?_⟩,
      fun h => absurd hf h⟩
    · rw [if_pos rfl, h1]
    · intro k hk
      rw [if_neg (by omega)]; exact h2.act k hk
    · intro k hk
      rw [if_neg (by omega)]; exact h2.inp k hk
  · obtain ⟨G, D, h1, h2⟩ := exists_backprop net (fun k => if k = net.size then afterLoss loss (V k) else V k) M net.size
      (lossGrad loss r (net.dim net.size) (V net.size) Y)
    exact ⟨G, D, fun h => absurd h hf, fun _ => ⟨h1, h2⟩⟩

theorem hasGrads_nil (w w' : World α) (net : Net α) (r : Nat) (V G : Nat → Nat → Nat → α) :
    HasGrads w w' net r net.size V G [] := ⟨by simp, fun k h1 h2 => absurd h1 (by omega)⟩

theorem HasGrads.congrV {w w' : World α} {t : Nat} {V' : Nat → Nat → Nat → α} {gs : List Gradients}
    (h : HasGrads w w' net r t V G gs) (hV : ∀ k, k < net.size → V k = V' k) : HasGrads w w' net r t V' G gs :=
  ⟨h.len, fun k h1 h2 => by rw [← hV k h2]; exact h.get k h1 h2⟩

theorem HasGrads.base {w1 w2 w' : World α} {t : Nat} {gs : List Gradients} (h : HasGrads w1 w' net r t V G gs)
    (hn : w2.next ≤ w1.next) : HasGrads w2 w' net r t V G gs :=
  ⟨h.len, fun k h1 h2 => by
    obtain ⟨dw, db, e, f1, f2, f3⟩ := h.get k h1 h2
    exact ⟨dw, db, e, f1.mono hn, f2.mono hn, f3⟩⟩

/-- What the loss leaves behind: the predictions may have been clipped, the gradient is new. -/
theorem lossBackward_spec {w : World α} {out y : Mat} {r c : Nat} {P Y : Nat → Nat → α} (loss : Loss) (hl : loss.size = c)
    (hP : IsMat w out r c P) (hd : DistinctRows w out r) (hY : IsMat w y r c Y) (hy : ∀ a, w.IsRow y r a → ¬ w.IsRow out r a) :
    wp (loss.backward out y) w (fun p w' => p.2 = none ∧ ∃ w1, w1.next = w.next ∧
      Frame { flt := fun a => loss.kind = .bce ∧ w.IsRow out r a } w w1 ∧ OnlyAllocs w1 w' ∧
      IsMat w1 out r c (afterLoss loss.kind P) ∧ Fresh w1 w' p.1 r c (lossGrad loss.kind r c P Y)) := by
  unfold Loss.backward
  rw [hl]
  unfold lossGrad afterLoss
  cases hk : loss.kind with
  | mse => exact wp_mono (mseBackward_spec hP hY) fun p w' h => ⟨h.1, w, rfl, Frame.refl _ _, h.2.frame, hP, h.2.toFresh⟩
  | mae => exact wp_mono (maeBackward_spec hP hY) fun p w' h => ⟨h.1, w, rfl, Frame.refl _ _, h.2.frame, hP, h.2.toFresh⟩
  | ce => exact wp_mono (ceBackward_spec hP hY le_rfl) fun p w' h => ⟨h.1, w, rfl, Frame.refl _ _, h.2.frame, hP, h.2.toFresh⟩
  | bce =>
    refine wp_mono (bceBackward_spec hP hd hY le_rfl hy) ?_
    rintro p w' ⟨h1, -, -, -, w1, h2, h3⟩
    exact ⟨h1, w1, h2.next, h2.frame.weaken (fun _ _ h => ⟨rfl, h⟩) (fun _ _ h => h) (fun _ _ h => h) (fun _ _ h => h) id id id,
      h3.frame, h2.mat, h3.toFresh⟩

/-- `Backward` after a forward pass. -/
theorem modelBackward_spec (ht : Tape w m net r o mask V M) (h0 : 0 < net.size)
    (hns : ∀ k, k < net.size → (net.L k).kind ≠ .sigmoid) {loss : Loss} (hl : m.loss = some loss)
    (hls : loss.size = net.dim net.size) {y : Mat} {Y : Nat → Nat → α} (hY : IsMat w y r (net.dim net.size) Y)
    (hfree : FreeOut w net r o mask y) (hG : NetGrad m net loss.kind r V M Y G D) :
    wp (modelBackward m ((List.range (net.size + 1)).map o) y) w (fun p w' => p.2 = none ∧
      Frame { flt := fun a => loss.kind = .bce ∧ w.IsRow (o net.size) r a } w w' ∧ HasGrads w w' net r 0 V G p.1) := by
  have hN := ht.isNet
  have hsz : m.modelSize - 1 = ((net.size - 1 : Nat) : Int) := by rw [hN.size]; omega
  unfold modelBackward
  rw [hsz]
  refine wp_bind_ok (fusedLast_run hN (by omega)) ?_
  by_cases hf : Fused m net
  · have hf' := hf
    unfold Fused at hf'
    rw [if_pos (by simpa using hf')]
    obtain ⟨g1, g2, g3⟩ := hG.fused hf
    refine wp_bind_ok (b := net.lp (net.size - 1)) (w' := w)
      (by simp [listGet, hN.get_layer (i := net.size - 1) (by omega)]; rfl) ?_
    refine wp_bind_ok (b := o (net.size - 1)) (w' := w)
      (by simp [listGet, show net.size - 1 < net.size + 1 by omega]; rfl) ?_
    refine wp_bind_ok (listGet_last hN o) ?_
    have hlast : net.size - 1 < net.size := by omega
    have hL := hN.lay _ hlast
    have hX := ht.mats (net.size - 1) (by omega)
    have hP := ht.mats net.size le_rfl
    have e1 := hN.ins _ hlast
    have e2 := hN.outs _ hlast
    rw [show net.size - 1 + 1 = net.size by omega] at e2
    rw [← e1] at hX
    rw [← e2] at hP hY
    refine wp_bind_mono (softmaxBackwardCE_spec hL hX hY hP) ?_
    intro g w1 ⟨h1, ha⟩
    rw [h1.err]
    dsimp only
    have hfe : (fun i j => if Flt.eq (Y i j) Flt.one then (V net.size i j -. Flt.one) /. Flt.ofInt r
        else V net.size i j /. Flt.ofInt r) = G (net.size - 1) := by rw [g1]; rfl
    rw [hfe] at h1
    obtain ⟨s1, s2, s3⟩ := h1.spec
    rw [← g2, e1] at s3
    -- the loop skips the last layer
    have hskip : backwardLoop m ((List.range (net.size + 1)).map o) m.modelSize.toNat [⟨g.dWeights, g.dBiases⟩] g.dInputs w1 =
        backwardLoop m ((List.range (net.size + 1)).map o) (net.size - 1) [⟨g.dWeights, g.dBiases⟩] g.dInputs w1 := by
      rw [hN.size, Int.toNat_natCast]
      obtain ⟨n, hn⟩ : ∃ n, net.size = n + 1 := ⟨net.size - 1, by omega⟩
      have hN1 : IsNet w1 m net := hN.frame ha (Static.of_frame ha fun _ _ h => h) (fun _ h => h) (fun _ _ h => h)
      conv_lhs => rw [show backwardLoop m ((List.range (net.size + 1)).map o) net.size = backwardLoop m ((List.range (net.size + 1)).map o) (n + 1) by rw [← hn]]
      conv_lhs => unfold backwardLoop
      refine (bind_ok (fusedLast_run hN1 (k := n) (by omega))).trans ?_
      rw [show net.size - 1 = n by omega] at hf' ⊢
      rw [if_pos ⟨by simpa using hf', by rw [hN.size]; omega⟩]
    unfold wp
    rw [hskip]
    change wp _ w1 _
    refine wp_mono (backwardLoop_spec ht hns (net.size - 1) (by omega) (fun h => absurd h (by omega)) g3 ha s3 ?_ ?_) ?_
    · refine ⟨by simp; omega, fun k h1' h2' => ?_⟩
      obtain rfl : k = net.size - 1 := by omega
      exact ⟨g.dWeights, g.dBiases, by simp, s1, s2, h1.sep⟩
    · intro k h1' h2' dw db e a hor
      obtain rfl : k = net.size - 1 := by omega
      simp at e
      obtain ⟨rfl, rfl⟩ := e
      exact h1.sepx a hor
    · rintro p w' ⟨h1, h2, h3⟩
      exact ⟨h1, h2.weaken (fun _ _ h => h.elim) (fun _ _ h => h) (fun _ _ h => h) (fun _ _ h => h) id id id, h3⟩
  · have hf' := hf
    unfold Fused at hf'
    rw [if_neg (by simpa using hf')]
    obtain ⟨g1, g2⟩ := hG.plain hf
    refine wp_bind_ok (listGet_last hN o) ?_
    rw [hl]
    refine wp_bind_ok rfl ?_
    refine wp_bind_mono (lossBackward_spec loss hls (ht.mats net.size le_rfl) hfree.distinct hY hfree.targets) ?_
    rintro ⟨d, e⟩ w2 ⟨he, w1, hnext, hfr, ha, hP, hd⟩
    obtain rfl : e = none := he
    dsimp only at hd ⊢
    set V' : Nat → Nat → Nat → α := fun k => if k = net.size then afterLoss loss.kind (V k) else V k with hV'
    have hst : Static w w1 := Static.of_frame hfr fun _ _ h => h
    have hlay : ∀ a, a < w.next → w1.lay a = w.lay a := fun a ha => hfr.lay a ha (fun h => h)
    have ht1 : Tape w1 m net r o mask V' M := by
      refine ⟨hN.frame hfr hst (fun _ h => h) fun a h1 h2 => hfree.params a h1 h2.2, ?_, ?_, ?_, ?_⟩
      · intro k hk
        rcases Nat.eq_or_lt_of_le hk with rfl | hk'
        · simp only [hV', if_true]; exact hP
        · simp only [hV', if_neg (show ¬ k = net.size by omega)]
          exact (ht.mats k hk).frame hfr (fun h => h) fun a h1 h2 => hfree.outs k a hk' h1 h2.2
      · intro k hk h
        rw [hlay _ (hN.lay k hk).lt]; exact ht.relu k hk h
      · intro k hk h
        rw [hlay _ (hN.lay k hk).lt]; exact ht.soft k hk h
      · intro k hk h
        rw [hlay _ (hN.lay k hk).lt]
        obtain ⟨h1, h2⟩ := ht.drop k hk h
        exact ⟨h1, h2.frame hfr (fun h => h) fun a h1 h2 => hfree.masks k a hk h h1 h2.2⟩
    rw [hN.size, Int.toNat_natCast]
    rw [← g1] at hd
    refine wp_mono (backwardLoop_spec ht1 hns net.size le_rfl (fun _ => hf) g2 ha hd (hasGrads_nil _ _ _ _ _ _)
      (fun k h1 h2 => absurd h1 (by omega))) ?_
    rintro p w' ⟨h1, h2, h3⟩
    refine ⟨h1, ?_, (h3.base hnext.symm.le).congrV fun k hk => if_neg (by omega)⟩
    frames hfr h2

end NN
