import Verif.Lemmas.FitRun
import Verif.Spec.SigBackprop
/- `Backward` and `Fit` of model.go for models with sigmoid layers. -/

set_option linter.unusedSectionVars false

namespace NN
variable {α : Type} [Flt α]
open Go

section
attribute [local irreducible] wp

/-- `SigmoidLayer.Backward` of a square layer: first it overwrites its input x, then it only allocates. -/
theorem sigmoidBackward_split {w : World α} {lp : Nat} {wm bm : Mat} {L : LayerSpec α} (hL : IsLayer w lp wm bm L)
    {x d : Mat} {r : Nat} {X D : Nat → Nat → α} (hX : IsMat w x r L.n X) (hD : IsMat w d r L.o D)
    (hno : L.n = L.o) (hx : DistinctRows w x r) (hdx : ∀ a, w.IsRow d r a → ¬ w.IsRow x r a)
    (hwx : ∀ a, w.IsRow wm L.n a → ¬ w.IsRow x r a) :
    wp (sigmoidBackward lp x d) w (fun g w' => ∃ w1, SetMat w w1 x r L.n (sigBack X D) ∧ OnlyAllocs w1 w' ∧
      GradOk w1 w' g r L.n L.o (sigBack X D) (sigBack X D) L.W) := by
  unfold sigmoidBackward
  refine wp_bind_ok rfl ?_
  rw [backCheck_ok hL hX hD]
  refine wp_bind_mono (sigmoidPrime_spec hX hx hD hno.le hdx) ?_
  rintro x' w1 ⟨rfl, h1⟩
  have h1o := h1.mat
  rw [hno] at h1o
  refine wp_mono (gradTail_spec hL.weights (hL.wmat.frame h1.frame (fun h => h) hwx) h1.mat h1o) ?_
  rintro g w2 ⟨h2, h3⟩
  exact ⟨w1, h1, h3, h2⟩

variable {wb w0 w : World α} {m : Model α} {net : Net α} {r : Nat} {o mask : Nat → Mat} {V M G D : Nat → Nat → Nat → α}
  {op : Nat → Nat} {S : Nat → OptSpec α}

/-- What the matrices of values hold when the layers t, ..., size-1 have done their backward passes. -/
def late (net : Net α) (V G : Nat → Nat → Nat → α) (t k : Nat) : Nat → Nat → α := if k < t then V k else held net V G k

/-- The matrices of values after the first layer share no storage with anything else. -/
structure OutSep (w : World α) (net : Net α) (r : Nat) (o mask : Nat → Mat) : Prop where
  distinct : ∀ k, 0 < k → k ≤ net.size → DistinctRows w (o k) r
  outs : ∀ i k a, i ≤ net.size → 0 < k → k ≤ net.size → i ≠ k → w.IsRow (o i) r a → ¬ w.IsRow (o k) r a
  masks : ∀ i k a, i < net.size → 0 < k → k ≤ net.size → (net.L i).kind = .dropout → w.IsRow (mask i) r a → ¬ w.IsRow (o k) r a
  params : ∀ k a, 0 < k → k ≤ net.size → w.IsNetParam net a → ¬ w.IsRow (o k) r a

theorem outSep_of_run {w' : World α} (hN : IsNet w m net) (h : FwdRun true w w' net net.size r o mask V M) :
    OutSep w' net r o mask := by
  have hres : ∀ k, 0 < k → k ≤ net.size → Fresh w w' (o k) r (net.dim k) (V k) := fun k h0 hk => by
    have := h.res (k - 1) (by omega)
    rwa [show k - 1 + 1 = k by omega] at this
  refine ⟨fun k h0 hk => (hres k h0 hk).distinct, ?_, ?_, ?_⟩
  · exact fun i k a hi _ hk hne h1 h2 => hne (h.sep i k a hi hk h1 h2)
  · exact fun i k a hi _ hk hd h1 h2 => h.sepM k i a hk hi ⟨rfl, hd⟩ h2 h1
  · intro k a h0 hk h1 h2
    have := (hres k h0 hk).fresh a h2
    have := hN.param_lt ((hN.isParam h.frame (fun _ h => h) a).1 h1)
    omega

/-- The state of the loop of `Backward` when the layers t, ..., size-1 are done; `wb` is the state before the loop. -/
structure BackInv (wb : World α) (m : Model α) (net : Net α) (r : Nat) (o mask : Nat → Mat) (V M G D : Nat → Nat → Nat → α)
    (t : Nat) (gs : List Gradients) (d : Mat) (w : World α) : Prop where
  base : ∃ w0 : World α, wb.next ≤ w0.next ∧ Tape w0 m net r o mask (late net V G t) M ∧ OnlyAllocs w0 w ∧
    Fresh w0 w d r (net.dim t) (D t)
  frame : Frame { flt := fun a => ∃ k, 0 < k ∧ k < net.size ∧ wb.IsRow (o k) r a } wb w
  grads : HasGrads wb w net r t (held net V G) G gs
  sep : ∀ k, t ≤ k → k < net.size → ∀ dw db, gs[net.size - 1 - k]? = some ⟨dw, db⟩ → ∀ a,
    w.IsRow dw (net.L k).n a ∨ w.IsRow db 1 a → ¬ w.IsRow d r a

/-- The backward pass of one layer. -/
theorem layerBackward_sig (hb : Tape wb m net r o mask V M) (hS : OutSep wb net r o mask) {k : Nat} (hk : k < net.size)
    (hsq : (net.L k).kind = .sigmoid → 0 < k ∧ (net.L k).n = (net.L k).o)
    (hG : G k = if (net.L k).kind = .sigmoid then sigBack (V k) (D (k + 1))
      else actBack (net.L k) (held net V G (k + 1)) (M k) (D (k + 1)))
    {gs : List Gradients} {d : Mat} (hI : BackInv wb m net r o mask V M G D (k + 1) gs d w) :
    wp (layerBackward (net.lp k) (o k) d) w (fun g w' =>
      GradOk w w' g r (net.L k).n (net.L k).o (held net V G k) (G k) (net.L k).W ∧
      Frame { flt := fun a => w.IsRow d r a ∨ ((net.L k).kind = .sigmoid ∧ w.IsRow (o k) r a) } w w' ∧
      ∃ w0 : World α, wb.next ≤ w0.next ∧ w0.next ≤ w.next ∧ Tape w0 m net r o mask (late net V G k) M ∧ OnlyAllocs w0 w') := by
  obtain ⟨w0, hle, ht, ha, hd⟩ := hI.base
  have hlk : late net V G (k + 1) k = V k := if_pos (by omega)
  have hlk1 : late net V G (k + 1) (k + 1) = held net V G (k + 1) := if_neg (by omega)
  by_cases hs : (net.L k).kind = .sigmoid
  · obtain ⟨hk0, hno⟩ := hsq hs
    rw [if_pos hs] at hG
    have hN : IsNet w m net := ht.isNet.frame ha (Static.of_frame ha fun _ _ h => h) (fun _ h => h) (fun _ _ h => h)
    have hL := hN.lay k hk
    have hX0 := ht.mats k hk.le
    rw [hlk] at hX0
    have hX := hX0.allocs ha
    have hrow : ∀ i, i ≤ net.size → ∀ a, w.IsRow (o i) r a ↔ wb.IsRow (o i) r a := fun i hi a =>
      (hb.mats i hi).isRow_frame hI.frame (fun h => h) a
    have hXn : IsMat w (o k) r (net.L k).n (V k) := by rw [hN.ins k hk]; exact hX
    have hDo : IsMat w d r (net.L k).o (D (k + 1)) := by rw [hN.outs k hk]; exact hd.mat
    have hdx : ∀ a, w.IsRow d r a → ¬ w.IsRow (o k) r a := fun a h1 h2 => by
      have := hd.fresh a h1
      have := hX0.isRow_lt ((hX0.isRow_frame ha (fun h => h) a).1 h2)
      omega
    have hpar : ∀ a, w.IsNetParam net a → ¬ w.IsRow (o k) r a := fun a h1 h2 =>
      hS.params k a hk0 hk.le ((hb.isNet.isParam hI.frame (fun _ h => h) a).1 h1) ((hrow k hk.le a).1 h2)
    have hlb : layerBackward (net.lp k) (o k) d w = sigmoidBackward (net.lp k) (o k) d w := by
      unfold layerBackward
      refine (bind_ok (show layGet (net.lp k) w = .ok (w.lay (net.lp k), w) from rfl)).trans ?_
      rw [hL.kind, hs]
    refine wp_iff.2 ?_
    rw [hlb]
    refine wp_iff.1 (wp_mono (sigmoidBackward_split hL hXn hDo hno
      ((hS.distinct k hk0 hk.le).frame hI.frame (hb.mats k hk.le).addr_lt (fun h => h)) hdx
      (fun a h1 => hpar a ⟨k, hk, .inl h1⟩)) ?_)
    rintro g w2 ⟨w1, h1, h2, h3⟩
    have hheld : held net V G k = G k := if_pos ⟨hk, hs⟩
    rw [← hG] at h1 h3
    refine ⟨by rw [hheld]; exact h3.of_set h1, (h1.then_allocs h2).weaken (fun a _ h => .inr ⟨hs, h⟩) (fun _ _ h => h) (fun _ _ h => h)
      (fun _ _ h => h) id id id, w1, ?_, h1.next.le, ?_, h2⟩
    · rw [h1.next]; exact hle.trans ha.next_le
    · have hst : Static w w1 := Static.of_frame h1.frame fun _ _ h => h
      have hlay : ∀ i, i < net.size → w1.lay (net.lp i) = w0.lay (net.lp i) := fun i hi =>
        (h1.frame.lay _ (hN.lay i hi).lt (fun h => h)).trans (ha.lay _ (ht.isNet.lay i hi).lt (fun h => h))
      refine ⟨hN.frame h1.frame hst (fun _ h => h) hpar, ?_, ?_, ?_, ?_⟩
      · intro i hi
        by_cases hik : i = k
        · subst hik
          have : late net V G i i = G i := by rw [show late net V G i i = held net V G i from if_neg (by omega), hheld]
          rw [this, ← hN.ins i hk]
          exact h1.mat
        · have e : late net V G k i = late net V G (k + 1) i := by
            unfold late
            by_cases h : i < k
            · rw [if_pos h, if_pos (by omega)]
            · rw [if_neg h, if_neg (by omega)]
          rw [e]
          exact ((ht.mats i hi).allocs ha).frame h1.frame (fun h => h) fun a h3 h4 =>
            hS.outs i k a hi hk0 hk.le hik ((hrow i hi a).1 h3) ((hrow k hk.le a).1 h4)
      · intro i hi h
        rw [hlay i hi]; exact ht.relu i hi h
      · intro i hi h
        rw [hlay i hi]; exact ht.soft i hi h
      · intro i hi h
        rw [hlay i hi]
        obtain ⟨h5, h6⟩ := ht.drop i hi h
        refine ⟨h5, (h6.allocs ha).frame h1.frame (fun h => h) fun a h3 h4 => ?_⟩
        have hmb := (hb.drop i hi h).2
        exact hS.masks i k a hi hk0 hk.le h ((hmb.isRow_frame hI.frame (fun h => h) a).1 h3) ((hrow k hk.le a).1 h4)
  · rw [if_neg hs] at hG
    have hheld : held net V G k = V k := if_neg fun h => hs h.2
    refine wp_mono (layerBackward_spec ht ha hk hs hd) ?_
    rintro g w1 ⟨h1, h2⟩
    rw [hlk, hlk1, ← hG] at h1
    refine ⟨by rw [hheld]; exact h1, h2.weaken (fun a _ h => .inl h) (fun _ _ h => h) (fun _ _ h => h) (fun _ _ h => h) id id id,
      w0, hle, ha.next_le, ht.congr ?_ (fun _ _ _ => rfl), ?_⟩
    · intro i _
      unfold late
      by_cases h : i < k
      · rw [if_pos h, if_pos (by omega)]
      · by_cases h' : i = k
        · subst h'; rw [if_neg h, if_pos (by omega), hheld]
        · rw [if_neg h, if_neg (by omega)]
    · frames ha h2
      intro a ha0 h3
      have := hd.fresh a h3
      exact absurd ha0 (by omega)

/-- One turn of the loop. -/
theorem backwardLoop_turn (hb : Tape wb m net r o mask V M) (hS : OutSep wb net r o mask) {k : Nat} (hk : k < net.size)
    (hf : k + 1 = net.size → ¬ Fused m net) (hsq : (net.L k).kind = .sigmoid → 0 < k ∧ (net.L k).n = (net.L k).o)
    (hG : G k = if (net.L k).kind = .sigmoid then sigBack (V k) (D (k + 1))
      else actBack (net.L k) (held net V G (k + 1)) (M k) (D (k + 1)))
    (hD : D k = gradX (net.L k) (G k))
    {gs : List Gradients} {d : Mat} (hI : BackInv wb m net r o mask V M G D (k + 1) gs d w) :
    ∃ gs' d' w', backwardLoop m ((List.range (net.size + 1)).map o) (k + 1) gs d w =
        backwardLoop m ((List.range (net.size + 1)).map o) k gs' d' w' ∧
      BackInv wb m net r o mask V M G D k gs' d' w' := by
  have hN : IsNet w m net := by
    obtain ⟨w0, hle, ht, ha, hd⟩ := hI.base
    exact ht.isNet.frame ha (Static.of_frame ha fun _ _ h => h) (fun _ h => h) (fun _ _ h => h)
  obtain ⟨g, w1, hrun, h1, hfr, w0, hle0, hle1, ht, ha⟩ := wp_iff.1 (layerBackward_sig hb hS hk hsq hG hI)
  obtain ⟨s1, s2, s3⟩ := h1.spec
  rw [← hD, hN.ins k hk] at s3
  have hrow : ∀ a, w.IsRow (o k) r a ↔ wb.IsRow (o k) r a := fun a => (hb.mats k hk.le).isRow_frame hI.frame (fun h => h) a
  have hg := hI.grads
  have hleb : wb.next ≤ w.next := hI.frame.next_le
  have hdold : ∀ a, w.IsRow d r a → wb.next ≤ a := by
    obtain ⟨w0, hle, ht, ha, hd⟩ := hI.base
    exact fun a h => hle.trans (hd.fresh a h)
  have hkeep : ∀ a, wb.next ≤ a → (∀ (_ : w.IsRow d r a), False) →
      ¬ (w.IsRow d r a ∨ ((net.L k).kind = .sigmoid ∧ w.IsRow (o k) r a)) := by
    rintro a h1 h2 (h3 | ⟨-, h3⟩)
    · exact h2 h3
    · have := (hb.mats k hk.le).isRow_lt ((hrow a).1 h3)
      omega
  refine ⟨gs ++ [⟨g.dWeights, g.dBiases⟩], g.dInputs, w1, ?_, ⟨w0, hle0, ht, ha, s3.mono hle1⟩, ?_, ?_, ?_⟩
  · conv_lhs => unfold backwardLoop
    refine (bind_ok (fusedLast_run hN hk)).trans ?_
    rw [if_neg (by
      rw [hN.size]
      rintro ⟨h1, h2⟩
      have e : k + 1 = net.size := by omega
      refine hf e ?_
      unfold Fused
      rw [show net.size - 1 = k by omega]
      simpa using h1)]
    refine (bind_ok (b := net.lp k) (w' := w) (by simp [listGet, hN.get_layer hk]; rfl)).trans ?_
    refine (bind_ok (b := o k) (w' := w) (by simp [listGet, show k < net.size + 1 by omega]; rfl)).trans ?_
    refine (bind_ok hrun).trans ?_
    rw [h1.err]
  · have hf1 := hI.frame
    frames hf1 hfr
    rintro a ha0 (h2 | ⟨h3, h2⟩)
    · exact absurd (hdold a h2) (by omega)
    · exact ⟨k, (hsq h3).1, hk, (hrow a).1 h2⟩
  · refine ⟨by rw [List.length_append, hg.len]; simp; omega, fun j hj hjn => ?_⟩
    rcases Nat.eq_or_lt_of_le hj with rfl | hj
    · refine ⟨g.dWeights, g.dBiases, ?_, s1.mono hleb, s2.mono hleb, h1.sep⟩
      rw [List.getElem?_append_right (by rw [hg.len]; omega), hg.len, show net.size - 1 - k - (net.size - (k + 1)) = 0 by omega]
      rfl
    · obtain ⟨dw, db, e, f1, f2, f3⟩ := hg.get j hj hjn
      refine ⟨dw, db, ?_, f1.frame hfr (fun h => h) fun a h => hkeep a (f1.fresh a h) (hI.sep j hj hjn _ _ e a (.inl h)),
        f2.frame hfr (fun h => h) fun a h => hkeep a (f2.fresh a h) (hI.sep j hj hjn _ _ e a (.inr h)), fun a h1 h2 => f3 a
          ((f1.mat.isRow_frame hfr (fun h => h) a).1 h1) ((f2.mat.isRow_frame hfr (fun h => h) a).1 h2)⟩
      rw [List.getElem?_append_left (List.getElem?_eq_some_iff.1 e).1]; exact e
  · intro j hj hjn dw db e a hor hdx
    rcases Nat.eq_or_lt_of_le hj with rfl | hj
    · rw [List.getElem?_append_right (by rw [hg.len]; omega), hg.len, show net.size - 1 - k - (net.size - (k + 1)) = 0 by omega] at e
      cases e
      exact h1.sepx a hor hdx
    · obtain ⟨dw', db', e', f1, f2, f3⟩ := hg.get j hj hjn
      rw [List.getElem?_append_left (List.getElem?_eq_some_iff.1 e').1, e'] at e
      cases e
      have := s3.fresh a hdx
      rcases hor with h | h
      · have := f1.mat.isRow_lt ((f1.mat.isRow_frame hfr (fun h => h) a).1 h)
        omega
      · have := f2.mat.isRow_lt ((f2.mat.isRow_frame hfr (fun h => h) a).1 h)
        omega

/-- The loop from layer t-1 down to layer s. -/
theorem backwardLoop_down (hb : Tape wb m net r o mask V M) (hS : OutSep wb net r o mask) {s t : Nat} (hst : s ≤ t) (htn : t ≤ net.size)
    (hf : t = net.size → ¬ Fused m net)
    (hsq : ∀ k, s ≤ k → k < t → (net.L k).kind = .sigmoid → 0 < k ∧ (net.L k).n = (net.L k).o)
    (hB : SigBackprop net V M G D t)
    {gs : List Gradients} {d : Mat} (hI : BackInv wb m net r o mask V M G D t gs d w) :
    ∃ gs' d' w', backwardLoop m ((List.range (net.size + 1)).map o) t gs d w =
        backwardLoop m ((List.range (net.size + 1)).map o) s gs' d' w' ∧
      BackInv wb m net r o mask V M G D s gs' d' w' := by
  induction t generalizing gs d w with
  | zero =>
    obtain rfl : s = 0 := by omega
    exact ⟨gs, d, w, rfl, hI⟩
  | succ t ih =>
    by_cases h : s = t + 1
    · subst h
      exact ⟨gs, d, w, rfl, hI⟩
    · obtain ⟨gs1, d1, w1, e1, h1⟩ := backwardLoop_turn hb hS (k := t) (by omega) hf (hsq t (by omega) (by omega))
        (hB.act t (by omega)) (hB.inp t (by omega)) hI
      obtain ⟨gs2, d2, w2, e2, h2⟩ := ih (by omega) (by omega) (fun h => absurd h (by omega)) (fun k h1 h2 => hsq k h1 (by omega))
        ⟨fun k hk => hB.act k (by omega), fun k hk => hB.inp k (by omega)⟩ h1
      exact ⟨gs2, d2, w2, e1.trans e2, h2⟩

theorem exists_sigBackprop (net : Net α) (V M : Nat → Nat → Nat → α) (t : Nat) (Dt Gt : Nat → Nat → α) :
    ∃ G D : Nat → Nat → Nat → α, D t = Dt ∧ G t = Gt ∧ SigBackprop net V M G D t := by
  induction t generalizing Dt Gt with
  | zero => exact ⟨fun _ => Gt, fun _ => Dt, rfl, rfl, fun k hk => absurd hk (by omega), fun k hk => absurd hk (by omega)⟩
  | succ t ih =>
    set g := if (net.L t).kind = .sigmoid then sigBack (V t) Dt
      else actBack (net.L t) (if t + 1 < net.size ∧ (net.L (t + 1)).kind = .sigmoid then Gt else V (t + 1)) (M t) Dt with hg
    obtain ⟨G, D, h1, h1', h2⟩ := ih (gradX (net.L t) g) g
    refine ⟨fun k => if k = t + 1 then Gt else G k, fun k => if k = t + 1 then Dt else D k,
      if_pos rfl, if_pos rfl, fun k hk => ?_, fun k hk => ?_⟩
    · rcases Nat.lt_succ_iff_lt_or_eq.1 hk with hk | rfl
      · have e := h2.act k hk
        unfold held at e ⊢
        simp only [if_neg (show ¬ k = t + 1 by omega), if_neg (show ¬ k + 1 = t + 1 by omega)]
        exact e
      · unfold held
        simp only [if_neg (show ¬ k = k + 1 by omega), if_true, h1']
        exact hg
    · rcases Nat.lt_succ_iff_lt_or_eq.1 hk with hk | rfl
      · simp only [if_neg (show ¬ k = t + 1 by omega)]
        exact h2.inp k hk
      · simp [h1, h1']

theorem exists_sigNetGrad (m : Model α) (net : Net α) (loss : LossKind) (r : Nat) (V M : Nat → Nat → Nat → α)
    (Y : Nat → Nat → α) : ∃ G D, SigNetGrad m net loss r V M Y G D := by
  by_cases hf : Fused m net
  · obtain ⟨G, D, h1, h2, h3⟩ := exists_sigBackprop net V M (net.size - 1)
      (gradX (net.L (net.size - 1)) (fusedGrad r (V net.size) Y)) (fusedGrad r (V net.size) Y)
    exact ⟨G, D, fun _ => ⟨h2, by rw [h1, h2], h3⟩, fun h => absurd hf h⟩
  · obtain ⟨G, D, h1, h2, h3⟩ := exists_sigBackprop net (fun k => if k = net.size then afterLoss loss (V k) else V k) M net.size
      (lossGrad loss r (net.dim net.size) (V net.size) Y) (V 0)
    exact ⟨G, D, fun h => absurd h hf, fun _ => ⟨h1, h3⟩⟩

theorem Tape.afterLoss (ht : Tape w m net r o mask V M) {y : Mat} {k : LossKind} (hfree : FreeOut w net r o mask y)
    (hfr : Frame { flt := fun a => k = .bce ∧ w.IsRow (o net.size) r a } w wb)
    (hP : IsMat wb (o net.size) r (net.dim net.size) (afterLoss k (V net.size))) :
    Tape wb m net r o mask (fun i => if i = net.size then NN.afterLoss k (V i) else V i) M := by
  have hN := ht.isNet
  have hst : Static w wb := Static.of_frame hfr fun _ _ h => h
  have hlay : ∀ a, a < w.next → wb.lay a = w.lay a := fun a ha => hfr.lay a ha (fun h => h)
  refine ⟨hN.frame hfr hst (fun _ h => h) fun a h1 h2 => hfree.params a h1 h2.2, ?_, ?_, ?_, ?_⟩
  · intro k hk
    rcases Nat.eq_or_lt_of_le hk with rfl | hk'
    · simp only [if_true]; exact hP
    · simp only [if_neg (show ¬ k = net.size by omega)]
      exact (ht.mats k hk).frame hfr (fun h => h) fun a h1 h2 => hfree.outs k a hk' h1 h2.2
  · intro k hk h
    rw [hlay _ (hN.lay k hk).lt]; exact ht.relu k hk h
  · intro k hk h
    rw [hlay _ (hN.lay k hk).lt]; exact ht.soft k hk h
  · intro k hk h
    rw [hlay _ (hN.lay k hk).lt]
    obtain ⟨h1, h2⟩ := ht.drop k hk h
    exact ⟨h1, h2.frame hfr (fun h => h) fun a h1 h2 => hfree.masks k a hk h h1 h2.2⟩

theorem OutSep.frame {f : Foot} (h : OutSep w net r o mask) (ht : Tape w m net r o mask V M) (hf : Frame f w wb)
    (ho : ∀ a, ¬ f.outs a) : OutSep wb net r o mask := by
  have hrow : ∀ i, i ≤ net.size → ∀ a, wb.IsRow (o i) r a ↔ w.IsRow (o i) r a := fun i hi a =>
    (ht.mats i hi).isRow_frame hf (ho _) a
  refine ⟨fun k h0 hk => (h.distinct k h0 hk).frame hf (ht.mats k hk).addr_lt (ho _), ?_, ?_, ?_⟩
  · intro i k a hi h0 hk hne h1 h2
    exact h.outs i k a hi h0 hk hne ((hrow i hi a).1 h1) ((hrow k hk a).1 h2)
  · intro i k a hi h0 hk hd h1 h2
    exact h.masks i k a hi h0 hk hd (((ht.drop i hi hd).2.isRow_frame hf (ho _) a).1 h1) ((hrow k hk a).1 h2)
  · intro k a h0 hk h1 h2
    exact h.params k a h0 hk ((ht.isNet.isParam hf ho a).1 h1) ((hrow k hk a).1 h2)

/-- `Backward` up to its loop: the loop starts at the last layer, or at the one before if the loss and the last layer are
dealt with together. -/
theorem modelBackward_start (ht : Tape w m net r o mask V M) (h0 : 0 < net.size) {loss : Loss} (hl : m.loss = some loss)
    (hls : loss.size = net.dim net.size) {y : Mat} {Y : Nat → Nat → α} (hY : IsMat w y r (net.dim net.size) Y)
    (hfree : FreeOut w net r o mask y) (hS : OutSep w net r o mask) (hG : SigNetGrad m net loss.kind r V M Y G D) :
    ∃ wb Vb t gs d w', t ≤ net.size ∧ (t = net.size → ¬ Fused m net) ∧ (t < net.size → t + 1 = net.size ∧ Fused m net) ∧
      wb.next = w.next ∧ Frame { flt := fun a => loss.kind = .bce ∧ w.IsRow (o net.size) r a } w wb ∧
      Tape wb m net r o mask Vb M ∧ OutSep wb net r o mask ∧ SigBackprop net Vb M G D t ∧ (∀ k, k < net.size → Vb k = V k) ∧
      modelBackward m ((List.range (net.size + 1)).map o) y w = backwardLoop m ((List.range (net.size + 1)).map o) t gs d w' ∧
      BackInv wb m net r o mask Vb M G D t gs d w' := by
  have hN := ht.isNet
  have hsz : m.modelSize - 1 = ((net.size - 1 : Nat) : Int) := by rw [hN.size]; omega
  unfold modelBackward
  rw [hsz, bind_ok (fusedLast_run hN (k := net.size - 1) (by omega))]
  by_cases hf : Fused m net
  · have hf' := hf
    unfold Fused at hf'
    rw [if_pos (by simpa using hf')]
    obtain ⟨g1, g2, g3⟩ := hG.fused hf
    rw [bind_ok (b := net.lp (net.size - 1)) (w' := w)
      (by simp [listGet, hN.get_layer (i := net.size - 1) (by omega)]; rfl),
      bind_ok (b := o (net.size - 1)) (w' := w)
      (by simp [listGet, show net.size - 1 < net.size + 1 by omega]; rfl), bind_ok (listGet_last hN o)]
    have hlast : net.size - 1 < net.size := by omega
    have hL := hN.lay _ hlast
    have hX := ht.mats (net.size - 1) (by omega)
    have hP := ht.mats net.size le_rfl
    have e1 := hN.ins _ hlast
    have e2 := hN.outs _ hlast
    rw [show net.size - 1 + 1 = net.size by omega] at e2
    rw [← e1] at hX
    rw [← e2] at hP hY
    obtain ⟨g, w1, hrun, h1, ha⟩ := wp_iff.1 (softmaxBackwardCE_spec hL hX hY hP)
    rw [bind_ok hrun, h1.err]
    have hfe : (fun i j => if Flt.eq (Y i j) Flt.one then (V net.size i j -. Flt.one) /. Flt.ofInt r
        else V net.size i j /. Flt.ofInt r) = G (net.size - 1) := by rw [g1]; rfl
    rw [hfe] at h1
    obtain ⟨s1, s2, s3⟩ := h1.spec
    rw [← g2, e1] at s3
    have hskip : backwardLoop m ((List.range (net.size + 1)).map o) m.modelSize.toNat [⟨g.dWeights, g.dBiases⟩] g.dInputs w1 =
        backwardLoop m ((List.range (net.size + 1)).map o) (net.size - 1) [⟨g.dWeights, g.dBiases⟩] g.dInputs w1 := by
      rw [hN.size, Int.toNat_natCast]
      obtain ⟨n, hn⟩ : ∃ n, net.size = n + 1 := ⟨net.size - 1, by omega⟩
      have hN1 : IsNet w1 m net := hN.frame ha (Static.of_frame ha fun _ _ h => h) (fun _ h => h) (fun _ _ h => h)
      conv_lhs => rw [show backwardLoop m ((List.range (net.size + 1)).map o) net.size = backwardLoop m ((List.range (net.size + 1)).map o) (n + 1) by rw [← hn]]
      conv_lhs => unfold backwardLoop
      refine (bind_ok (fusedLast_run hN1 (k := n) (by omega))).trans ?_
      rw [show net.size - 1 = n by omega] at hf' ⊢
      rw [if_pos ⟨by simpa using hf', by rw [hN.size]; omega⟩]
    have hheld : ∀ k, net.size - 1 ≤ k → held net V G k = V k := by
      intro k hk
      refine if_neg ?_
      rintro ⟨h2, h3⟩
      obtain rfl : k = net.size - 1 := by omega
      rw [hf'.1] at h3
      exact LayerKind.noConfusion h3
    refine ⟨w, V, net.size - 1, _, _, w1, by omega, fun h => absurd h (by omega), fun _ => ⟨by omega, hf⟩, rfl, Frame.refl _ _, ht, hS, g3,
      fun _ _ => rfl, hskip, ⟨w, le_rfl, ht.congr ?_ (fun _ _ _ => rfl), ha, s3⟩, ?_, ?_, ?_⟩
    · intro k _
      unfold late
      by_cases h : k < net.size - 1
      · rw [if_pos h]
      · rw [if_neg h, hheld k (by omega)]
    · exact ha.weaken (fun _ _ h => h.elim) (fun _ _ h => h) (fun _ _ h => h) (fun _ _ h => h) id id id
    · refine ⟨by simp; omega, fun k h1' h2' => ?_⟩
      obtain rfl : k = net.size - 1 := by omega
      exact ⟨g.dWeights, g.dBiases, by simp, by rw [hheld _ le_rfl]; exact s1, s2, h1.sep⟩
    · intro k h1' h2' dw db e a hor
      obtain rfl : k = net.size - 1 := by omega
      simp at e
      obtain ⟨rfl, rfl⟩ := e
      exact h1.sepx a hor
  · have hf' := hf
    unfold Fused at hf'
    rw [if_neg (by simpa using hf')]
    obtain ⟨g1, g2⟩ := hG.plain hf
    obtain ⟨⟨d, e⟩, w2, hrun, he, w1, hnext, hfr, ha, hP, hd⟩ := wp_iff.1
      (lossBackward_spec loss hls (ht.mats net.size le_rfl) hfree.distinct hY hfree.targets)
    obtain rfl : e = none := he
    rw [bind_ok (listGet_last hN o), hl, bind_ok (show deref (some loss) w = .ok (loss, w) from rfl), bind_ok hrun]
    dsimp only at hd ⊢
    have ht1 := ht.afterLoss hfree hfr hP
    rw [hN.size, Int.toNat_natCast]
    rw [← g1] at hd
    refine ⟨w1, _, net.size, _, _, w2, le_rfl, fun _ => hf, fun h => absurd h (by omega), hnext, hfr, ht1, hS.frame ht hfr fun _ h => h, g2,
      fun k hk => if_neg (by omega), rfl, ⟨w1, le_rfl, ht1.congr ?_ (fun _ _ _ => rfl), ha, hd⟩, ?_, hasGrads_nil _ _ _ _ _ _,
      fun k h1 h2 => absurd h1 (by omega)⟩
    · intro k hk
      unfold late
      by_cases h : k < net.size
      · rw [if_pos h]
      · rw [if_neg h]; exact (if_neg fun h' => h h'.1).symm
    · exact ha.weaken (fun _ _ h => h.elim) (fun _ _ h => h) (fun _ _ h => h) (fun _ _ h => h) id id id

/-- `Backward` of a model whose sigmoid layers are square, the first layer being no sigmoid layer. -/
theorem modelBackward_sig (ht : Tape w m net r o mask V M) (h0 : 0 < net.size)
    (hsq : ∀ k, k < net.size → (net.L k).kind = .sigmoid → 0 < k ∧ (net.L k).n = (net.L k).o) {loss : Loss} (hl : m.loss = some loss)
    (hls : loss.size = net.dim net.size) {y : Mat} {Y : Nat → Nat → α} (hY : IsMat w y r (net.dim net.size) Y)
    (hfree : FreeOut w net r o mask y) (hS : OutSep w net r o mask) (hG : SigNetGrad m net loss.kind r V M Y G D) :
    wp (modelBackward m ((List.range (net.size + 1)).map o) y) w (fun p w' => p.2 = none ∧
      Frame { flt := fun a => ∃ k, 0 < k ∧ k ≤ net.size ∧ w.IsRow (o k) r a } w w' ∧
      HasGrads w w' net r 0 (held net V G) G p.1) := by
  obtain ⟨wb, Vb, t, gs, d, w1, htn, hf, hf', hnext, hfr, htb, hSb, hB, hVb, hrun, hI⟩ :=
    modelBackward_start ht h0 hl hls hY hfree hS hG
  obtain ⟨gs2, d2, w2, e2, h2⟩ := backwardLoop_down htb hSb (Nat.zero_le t) htn hf (fun k _ hk => hsq k (by omega)) hB hI
  refine wp_iff.2 ⟨(gs2, none), w2, hrun.trans e2, rfl, ?_, ?_⟩
  · have h3 := h2.frame
    frames hfr h3
    · exact fun a _ h => ⟨net.size, h0, le_rfl, h.2⟩
    · rintro a _ ⟨k, hk0, hk, h⟩
      exact ⟨k, hk0, hk.le, ((ht.mats k hk.le).isRow_frame hfr (fun h => h) a).1 h⟩
  · refine (h2.grads.base hnext.symm.le).congrV fun k hk => ?_
    unfold held
    rw [hVb k hk]

/-- One training step of such a model. -/
theorem trainOn_sig (h : IsTask w m net op S)
    (hsq : ∀ k, k < net.size → (net.L k).kind = .sigmoid → 0 < k ∧ (net.L k).n = (net.L k).o) {loss : Loss}
    (hl : m.loss = some loss) (hls : loss.size = net.dim net.size) {x y : Mat} {X Y : Nat → Nat → α}
    (hX : IsMat w x r (net.dim 0) X) (hY : IsMat w y r (net.dim net.size) Y) :
    wp (trainOn m x y) w (fun e w' => e = none ∧ ∃ net' S',
      SigTrainStep m loss.kind r (fun q => w.unif (w.unifPos + q)) X Y net S net' S' ∧ IsTask w' m net' op S' ∧
      w'.unifPos = w.unifPos + dropDraws net r net.size ∧ Static w w' ∧ Frame (trainFoot w net op) w w') := by
  unfold trainOn
  refine wp_bind_mono (modelForward_spec h.isNet hX true) ?_
  rintro ⟨outs, e⟩ w1 ⟨o, mask, V0, M0, he1, he2, ho, hV, hrun⟩
  obtain rfl : e = none := he2
  dsimp only at he1 ⊢
  subst he1
  have hdr : ∀ k, k < net.size → (net.L k).kind = .dropout → true = true := fun _ _ _ => rfl
  set u : Nat → α := fun q => w.unif (w.unifPos + q) with hu
  set V := trainVals net r u X with hVdef
  set M : Nat → Nat → Nat → α := fun k => dropBits (net.L k) fun q => u (dropDraws net r k + q) with hMdef
  have ht : Tape w1 m net r o mask V M := (tape_of_run h.isNet h.own hdr hX hrun ho hV).congr
    (fun k hk => run_vals hrun hV k hk) fun k hk hd => (hrun.valD k hk ⟨rfl, hd⟩).2
  have hfree := freeOut_of_run h.isNet h.pos hdr hrun hY
  have hS := outSep_of_run h.isNet hrun
  have hY1 := hY.frame hrun.frame (fun h => h) (fun _ _ h => h)
  obtain ⟨G, D, hG⟩ := exists_sigNetGrad m net loss.kind r V M Y
  have hT1 : IsTask w1 m net op S := h.frame hrun.frame hrun.stat (fun _ h => h) (fun _ h => h) (fun _ _ h => h)
    (fun _ _ _ _ h => h)
  have hle1 := hrun.frame.next_le
  have hPar1 : ∀ a, w1.IsNetParam net a → a < w.next := fun a ha =>
    h.isNet.param_lt ((h.isNet.isParam hrun.frame (fun _ h => h) a).1 ha)
  have hOut : ∀ k, 0 < k → k ≤ net.size → ∀ a, w1.IsRow (o k) r a → w.next ≤ a := by
    intro k h0 hk
    have := hrun.res (k - 1) (by omega)
    rw [show k - 1 + 1 = k by omega] at this
    exact this.fresh
  refine wp_bind_mono (modelBackward_sig ht h.pos hsq hl hls hY1 hfree hS hG) ?_
  rintro ⟨gs, e⟩ w2 ⟨he, hfr, hg⟩
  obtain rfl : e = none := he
  dsimp only at hg ⊢
  have hst2 : Static w1 w2 := Static.of_frame hfr fun _ _ h => h
  have hT2 : IsTask w2 m net op S := by
    refine hT1.frame hfr hst2 (fun _ h => h) (fun _ h => h) (fun a h1 ⟨k, hk0, hk, h2⟩ => hS.params k a hk0 hk h1 h2) ?_
    rintro i a hi h1 ⟨k, hk0, hk, h2⟩
    have := hOut k hk0 hk a h2
    have := (h.opt i hi).optRow_lt (((h.opt i hi).optRow_frame hrun.frame (fun h => h) (fun _ h => h) a).1 h1)
    omega
  have hPar2 : ∀ a, w2.IsNetParam net a ↔ w1.IsNetParam net a := hT1.isNet.isParam hfr (fun _ h => h)
  refine wp_mono (updateLayers_spec hT2 (fun a ha => (hPar1 a ((hPar2 a).1 ha)).trans_le hle1) hg) ?_
  rintro e w3 ⟨he, h1, h2⟩
  have hpos : w3.unifPos = w.unifPos + dropDraws net r net.size := by
    rw [h2.unifPos (fun h => h), hfr.unifPos (fun h => h), hrun.pos, if_pos rfl]
  refine ⟨he, _, _, ⟨G, D, hG, rfl, rfl⟩, h1, hpos,
    (hrun.stat.trans hle1 hst2).trans (hle1.trans hfr.next_le) (Static.of_frame h2 fun _ _ h => h), ?_⟩
  have h12 : Frame { lay := fun a => ∃ i, i < net.size ∧ a = net.lp i
                     unif := true = true ∧ ∃ i, i < net.size ∧ (net.L i).kind = .dropout } w w2 := by
    frames hrun.frame hfr
    · rintro a ha ⟨k, hk0, hk, h3⟩
      have := hOut k hk0 hk a h3
      omega
  unfold trainFoot
  frames h12 h2
  · exact fun a _ h3 => (h.isNet.isParam hrun.frame (fun _ h => h) a).1 ((hPar2 a).1 h3)
  · exact fun h => h.2

end

section
variable {w w' : World α} {m : Model α} {net net' : Net α} {op : Nat → Nat} {S S' : Nat → OptSpec α}

/-- The invariant of training with sigmoid layers. -/
structure SigTrained (m : Model α) (loss : LossKind) (X Y : Nat → Nat → α) (op : Nat → Nat) (net : Net α) (S : Nat → OptSpec α)
    (w : World α) (bs : List (Nat × Nat)) (net' : Net α) (S' : Nat → OptSpec α) (w' : World α) : Prop where
  run : SigDescent m loss w.unif X Y net S w.unifPos bs net' S' w'.unifPos
  task : IsTask w' m net' op S'
  shape : SameShape net net'
  stat : Static w w'
  frame : Frame (trainFoot w net op) w w'

theorem SigTrainStep.shape {loss : LossKind} {r : Nat} {u : Nat → α} {X Y : Nat → Nat → α}
    (h : SigTrainStep m loss r u X Y net S net' S') : SameShape net net' := by
  obtain ⟨G, D, -, rfl, -⟩ := h
  exact ⟨rfl, rfl, rfl, rfl, rfl, fun _ => ⟨_, _, rfl⟩⟩

theorem SigTrained.next {loss : Loss} {XM YM : Mat} {n : Nat} {X Y : Nat → Nat → α} {bs : List (Nat × Nat)}
    (hN : IsNet w m net) (hT : SigTrained m loss.kind X Y op net S w bs net' S' w')
    (hsq : ∀ k, k < net.size → (net.L k).kind = .sigmoid → 0 < k ∧ (net.L k).n = (net.L k).o)
    (hl : m.loss = some loss) (hls : loss.size = net.dim net.size)
    (hX : IsMat w XM n (net.dim 0) X) (hY : IsMat w YM n (net.dim net.size) Y)
    (hpX : ∀ a, w.IsNetParam net a → ¬ w.IsRow XM n a) (hpY : ∀ a, w.IsNetParam net a → ¬ w.IsRow YM n a)
    {b : Nat × Nat} (hb : 0 < b.2) (hbn : b.1 + b.2 ≤ n) :
    wp (trainOn m (rowsOf XM b) (rowsOf YM b)) w' (fun e w2 => e = none ∧ ∃ net2 S2,
      SigTrained m loss.kind X Y op net S w (bs ++ [b]) net2 S2 w2) := by
  have hX' : IsMat w' XM n (net'.dim 0) X := by
    rw [hT.shape.dim]; exact hX.frame hT.frame (fun h => h) fun a h1 h2 => hpX a h2 h1
  have hY' : IsMat w' YM n (net'.dim net'.size) Y := by
    rw [hT.shape.dim, hT.shape.size]; exact hY.frame hT.frame (fun h => h) fun a h1 h2 => hpY a h2 h1
  obtain ⟨lo, k⟩ := b
  refine wp_mono (trainOn_sig hT.task (fun k hk => by
      rw [hT.shape.kind, hT.shape.n, hT.shape.o]; exact hsq k (by rw [← hT.shape.size]; exact hk))
    hl (by rw [hT.shape.dim, hT.shape.size]; exact hls) (hX'.rowsOf hb hbn) (hY'.rowsOf hb hbn)) ?_
  rintro e w2 ⟨he, net2, S2, h1, h2, h3, h4, h5⟩
  refine ⟨he, net2, S2, ?_, h2, hT.shape.trans h1.shape, hT.stat.trans hT.frame.next_le h4, ?_⟩
  · rw [hT.frame.unif] at h1
    rw [h3]
    exact hT.run.step h1
  · have hf := hT.frame
    have hpe : ∀ a, w'.IsNetParam net' a ↔ w.IsNetParam net a := fun a =>
      (hT.shape.isParam w' a).trans (hN.isParam hf (fun _ h => h) a)
    have h5' : Frame (trainFoot w net op) w' w2 := by
      refine h5.weaken (fun a _ h => (hpe a).1 h) (fun _ _ h => h) ?_ ?_ ?_ id id
      · rintro a _ ⟨i, hi, e⟩
        exact ⟨i, by rw [← hT.shape.size]; exact hi, by rw [← hT.shape.lp]; exact e⟩
      · rintro a _ ⟨i, hi, e⟩
        exact ⟨i, by rw [← hT.shape.size]; exact hi, e⟩
      · rintro ⟨i, hi, e⟩
        exact ⟨i, by rw [← hT.shape.size]; exact hi, by rw [← hT.shape.kind]; exact e⟩
    frames hf h5'

/-- `Fit` with logging off, for models with square sigmoid layers. -/
theorem fit_sig [FltInt α] {loss : Loss} {XM YM xv yv : Mat} {n : Nat} {X Y : Nat → Nat → α} (hT : IsTask w m net op S)
    (hsq : ∀ k, k < net.size → (net.L k).kind = .sigmoid → 0 < k ∧ (net.L k).n = (net.L k).o)
    (hl : m.loss = some loss) (hls : loss.size = net.dim net.size)
    (hX : IsMat w XM n (net.dim 0) X) (hY : IsMat w YM n (net.dim net.size) Y) (hcX : n ≤ XM.m.cap) (hcY : n ≤ YM.m.cap)
    (hpX : ∀ a, w.IsNetParam net a → ¬ w.IsRow XM n a) (hpY : ∀ a, w.IsNetParam net a → ¬ w.IsRow YM n a)
    (epochs : Int) (b : Nat) (hbig : n + b ≤ 2 ^ 53) :
    wp (fit m XM YM epochs b xv yv 0) w (fun e w' => e = none ∧ ∃ net' S',
      SigTrained m loss.kind X Y op net S w (List.replicate epochs.toNat (blocks n b)).flatten net' S' w') := by
  unfold wp
  rw [fit_blocks hX hY hcX hcY epochs b hbig]
  change wp _ w _
  refine wp_mono (wp_forRet_none (fun e w' => ∃ net' S',
    SigTrained m loss.kind X Y op net S w (List.replicate e (blocks n b)).flatten net' S' w') ?_ ?_) fun e w' h => h
  · exact ⟨net, S, .start, hT, SameShape.refl net, Static.refl w, Frame.refl _ _⟩
  · rintro e w1 he ⟨net1, S1, h1⟩
    unfold trainEpoch
    set bs := blocks n b with hbs
    have hloop : wp (forRet bs.length fun s => trainOn m (rowsOf XM (bs.getD s (0, 0))) (rowsOf YM (bs.getD s (0, 0)))) w1
        (fun r w' => r = none ∧ ∃ net' S', SigTrained m loss.kind X Y op net S w
          ((List.replicate e bs).flatten ++ bs.take bs.length) net' S' w') := by
      refine wp_forRet_none (fun s w' => ∃ net' S', SigTrained m loss.kind X Y op net S w
          ((List.replicate e bs).flatten ++ bs.take s) net' S' w') ?_ ?_
      · exact ⟨net1, S1, by simpa using h1⟩
      · rintro s w2 hs ⟨net2, S2, h2⟩
        have hget : bs.getD s (0, 0) = bs[s] := by rw [List.getD_eq_getElem?_getD]; simp [hs]
        have hmem := blocks_mem hX.rpos (List.getElem_mem hs : bs[s] ∈ bs)
        rw [hget]
        refine wp_mono (h2.next hT.isNet hsq hl hls hX hY hpX hpY hmem.1 hmem.2.1) ?_
        rintro e w3 ⟨he, net3, S3, h3⟩
        refine ⟨he, net3, S3, ?_⟩
        rw [List.append_assoc, List.take_append_getElem] at h3
        exact h3
    refine wp_bind_mono hloop ?_
    rintro r w2 ⟨rfl, net2, S2, h2⟩
    dsimp only
    unfold endOfEpoch
    rw [if_neg (by simp)]
    refine ⟨rfl, net2, S2, ?_⟩
    rw [List.take_length] at h2
    rw [List.replicate_succ', List.flatten_append]
    simpa using h2

end
end NN
