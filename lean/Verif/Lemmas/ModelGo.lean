import Verif.Lemmas.Back
import Verif.Spec.Model
/- Execution lemmas for model.go: building, forward pass. -/

set_option linter.unusedSectionVars false

namespace NN
variable {α : Type} [Flt α]
open Go

/-- Layer objects that exist change at most in what they remember. -/
def Static (w w' : World α) : Prop := ∀ a, a < w.next → (w'.lay a).static = (w.lay a).static

theorem Static.refl (w : World α) : Static w w := fun _ _ => rfl

theorem Static.trans {w w1 w2 : World α} (h : Static w w1) (hn : w.next ≤ w1.next) (h' : Static w1 w2) : Static w w2 :=
  fun a ha => (h' a (ha.trans_le hn)).trans (h a ha)

theorem Static.of_frame {f : Foot} {w w' : World α} (h : Frame f w w') (hl : ∀ a, a < w.next → ¬ f.lay a) : Static w w' :=
  fun a ha => by rw [h.lay a ha (hl a ha)]

theorem Static.of_one {f : Foot} {w w' : World α} {lp : Nat} (h : Frame f w w') (hl : ∀ a, f.lay a → a = lp)
    (hs : (w'.lay lp).static = (w.lay lp).static) : Static w w' := by
  intro a ha
  by_cases e : a = lp
  · rw [e, hs]
  · rw [h.lay a ha fun h => e (hl a h)]

theorem IsParam_frame {f : Foot} {w w' : World α} {lp : Nat} {wm bm : Mat} {L : LayerSpec α}
    (h : IsLayer w lp wm bm L) (hf : Frame f w w') (ho : ∀ a, ¬ f.outs a) (a : Nat) :
    w'.IsParam wm bm L.n a ↔ w.IsParam wm bm L.n a :=
  or_congr (h.wmat.isRow_frame hf (ho _) a) (h.bmat.isRow_frame hf (ho _) a)

/-- Models survive changes that do not touch their parameters. -/
theorem IsNet.frame {f : Foot} {w w' : World α} {m : Model α} {net : Net α} (h : IsNet w m net) (hf : Frame f w w')
    (hs : Static w w') (ho : ∀ a, ¬ f.outs a) (hr : ∀ a, w.IsNetParam net a → ¬ f.flt a) : IsNet w' m net :=
  { h with lay := fun i hi => (h.lay i hi).frame_static hf (hs _ (h.lay i hi).lt) (ho _) (ho _)
                            fun a ha => hr a ⟨i, hi, ha⟩ }

theorem IsNet.isParam {f : Foot} {w w' : World α} {m : Model α} {net : Net α} (h : IsNet w m net) (hf : Frame f w w')
    (ho : ∀ a, ¬ f.outs a) (a : Nat) : w'.IsNetParam net a ↔ w.IsNetParam net a := by
  constructor
  · rintro ⟨i, hi, ha⟩; exact ⟨i, hi, (IsParam_frame (h.lay i hi) hf ho a).1 ha⟩
  · rintro ⟨i, hi, ha⟩; exact ⟨i, hi, (IsParam_frame (h.lay i hi) hf ho a).2 ha⟩

theorem IsNet.param_lt {w : World α} {m : Model α} {net : Net α} (h : IsNet w m net) {a : Nat}
    (ha : w.IsNetParam net a) : a < w.next := by
  obtain ⟨i, hi, ha | ha⟩ := ha
  · exact (h.lay i hi).wmat.isRow_lt ha
  · exact (h.lay i hi).bmat.isRow_lt ha

theorem OwnNet.frame {f : Foot} {w w' : World α} {m : Model α} {net : Net α} (hN : IsNet w m net) (h : OwnNet w net)
    (hf : Frame f w w') (ho : ∀ a, ¬ f.outs a) : OwnNet w' net := by
  refine ⟨fun i hi => ?_, h.inj, fun i j a hi hj ha hb => h.sep i j a hi hj
    ((IsParam_frame (hN.lay i hi) hf ho a).1 ha) ((IsParam_frame (hN.lay j hj) hf ho a).1 hb)⟩
  have hl := hN.lay i hi
  exact ⟨(h.own i hi).distinct.frame hf hl.wmat.addr_lt (ho _), fun a ha hb => (h.own i hi).disjoint a
    ((hl.wmat.isRow_frame hf (ho _) a).1 ha) ((hl.bmat.isRow_frame hf (ho _) a).1 hb), (h.own i hi).outer⟩

theorem IsNet.get_layer {w : World α} {m : Model α} {net : Net α} (h : IsNet w m net) {i : Nat} (hi : i < net.size) :
    m.layers[i]? = some (net.lp i) := by
  rw [h.ptrs]; simp [hi]

/-! ### Forward -/

/-- What one layer step of `Forward` establishes. -/
structure StepOk (training : Bool) (w w' : World α) (lp : Nat) (L : LayerSpec α) (r : Nat) (X : Nat → Nat → α)
    (out mask : Mat) (V M : Nat → Nat → α) : Prop where
  res : Fresh w w' out r L.o V
  frame : Frame { lay := fun a => a = lp, unif := training = true ∧ L.kind = .dropout } w w'
  stat : Static w w'
  val : ¬ (training = true ∧ L.kind = .dropout) → V = infer L X
  mem : ¬ (training = true ∧ L.kind = .dropout) → w'.lay lp = remember L.kind (w.lay lp) out
  memD : training = true ∧ L.kind = .dropout → w'.lay lp = { w.lay lp with reluInputs := out, binaryMask := mask }
  bits : training = true ∧ L.kind = .dropout → Fresh w w' mask r L.o M
  sep : training = true ∧ L.kind = .dropout → ∀ a, w'.IsRow out r a → ¬ w'.IsRow mask r a
  pos : w'.unifPos = w.unifPos + if training = true ∧ L.kind = .dropout then r * L.o else 0
  valD : training = true ∧ L.kind = .dropout → V = trainOut L (fun q => w.unif (w.unifPos + q)) X ∧
    M = dropBits L (fun q => w.unif (w.unifPos + q))

theorem forwardStep_spec {w : World α} {lp : Nat} {wm bm : Mat} {L : LayerSpec α} (hL : IsLayer w lp wm bm L) {x : Mat}
    {r : Nat} {X : Nat → Nat → α} (hX : IsMat w x r L.n X) (training : Bool) :
    wp (forwardStep training lp x) w (fun p w' => p.2 = none ∧
      ∃ mask V M, StepOk training w w' lp L r X p.1 mask V M) := by
  by_cases h : training = true ∧ L.kind = .dropout
  · have e : forwardStep training lp x w = dropoutForward lp x w := by
      unfold forwardStep
      refine (bind_ok (show layGet lp w = .ok (w.lay lp, w) from rfl)).trans ?_
      rw [if_neg (by simp [h.1])]
      unfold layerForward
      refine (bind_ok (show layGet lp w = .ok (w.lay lp, w) from rfl)).trans ?_
      rw [hL.kind, h.2]
    have := dropoutForward_spec hL hX
    unfold wp at this ⊢
    rw [e]
    refine wp_mono this ?_
    rintro p w' ⟨h1, mask, h2⟩
    refine ⟨h1, mask, _, _, h2.res, ?_, ?_, fun h' => absurd h h', fun h' => absurd h h', fun _ => h2.mem,
      fun _ => h2.bits, fun _ => h2.sep, by rw [if_pos h, h2.pos], fun _ => ⟨?_, ?_⟩⟩
    · exact h2.frame.weaken (fun _ _ h => h) (fun _ _ h => h) (fun _ _ h => h) (fun _ _ h => h) (fun _ => h) id id
    · exact Static.of_one h2.frame (fun _ h => h) (by rw [h2.mem]; rfl)
    · funext i j
      unfold trainOut
      rw [if_pos h.2]
      unfold maskAt dropBits
      simp only [Nat.add_assoc]
    · funext i j
      unfold maskAt dropBits
      simp only [Nat.add_assoc]
  · have e : forwardStep training lp x w = layerInfer lp x w := by
      unfold forwardStep layerInfer
      refine (bind_ok (show layGet lp w = .ok (w.lay lp, w) from rfl)).trans ?_
      refine Eq.trans ?_ (bind_ok (show layGet lp w = .ok (w.lay lp, w) from rfl)).symm
      rw [hL.kind]
      by_cases hk : L.kind = .dropout
      · have ht : training = false := by
          cases training
          · rfl
          · exact absurd ⟨rfl, hk⟩ h
        rw [if_pos ⟨hk, ht⟩, if_pos hk]
      · rw [if_neg (fun h => hk h.1), if_neg hk]
    have := layerInfer_spec hL hX
    unfold wp at this ⊢
    rw [e]
    refine wp_mono this ?_
    rintro p w' ⟨h1, h2⟩
    refine ⟨h1, p.1, _, infer L X, h2.res, ?_, ?_, fun _ => rfl, fun _ => h2.mem, fun h' => absurd h' h,
      fun h' => absurd h' h, fun h' => absurd h' h, ?_, fun h' => absurd h' h⟩
    · exact h2.frame.weaken (fun _ _ h => h) (fun _ _ h => h) (fun _ _ h => h) (fun _ _ h => h) False.elim id id
    · exact Static.of_one h2.frame (fun _ h => h) (by rw [h2.mem, remember_static])
    · rw [if_neg h, h2.frame.unifPos (fun h => h)]; rfl

theorem forwardStep_bad {w : World α} {lp : Nat} {x : Mat} (h : x.cols ≠ (w.lay lp).inputSize) (training : Bool) :
    forwardStep training lp x w = .ok ((Mat.zero, some (.matrixDims x.rows x.cols)), w) := by
  unfold forwardStep
  refine (bind_ok (show layGet lp w = .ok (w.lay lp, w) from rfl)).trans ?_
  split
  · unfold dropoutForwardNo
    refine (bind_ok (show layGet lp w = .ok (w.lay lp, w) from rfl)).trans ?_
    exact (bind_ok (affine_bad h w)).trans rfl
  · exact layerForward_bad h

/-- What the first n layer steps of `Forward` establish: `o k` is the matrix after k layers, with entries `V k`. -/
structure FwdRun (training : Bool) (w w' : World α) (net : Net α) (n r : Nat) (o mask : Nat → Mat)
    (V M : Nat → Nat → Nat → α) : Prop where
  res : ∀ k, k < n → Fresh w w' (o (k + 1)) r (net.dim (k + 1)) (V (k + 1))
  sep : ∀ i j a, i ≤ n → j ≤ n → w'.IsRow (o i) r a → w'.IsRow (o j) r a → i = j
  frame : Frame { lay := fun a => ∃ i, i < n ∧ a = net.lp i
                  unif := training = true ∧ ∃ i, i < n ∧ (net.L i).kind = .dropout } w w'
  stat : Static w w'
  val : ∀ k, k < n → ¬ (training = true ∧ (net.L k).kind = .dropout) → V (k + 1) = infer (net.L k) (V k)
  memo : ∀ k, k < n → (∀ i, k < i → i < n → net.lp i ≠ net.lp k) → ¬ (training = true ∧ (net.L k).kind = .dropout) →
    ∃ l : Layer α, w'.lay (net.lp k) = remember (net.L k).kind l (o (k + 1))
  memD : ∀ k, k < n → (∀ i, k < i → i < n → net.lp i ≠ net.lp k) → training = true ∧ (net.L k).kind = .dropout →
    ∃ l : Layer α, w'.lay (net.lp k) = { l with reluInputs := o (k + 1), binaryMask := mask k }
  bits : ∀ k, k < n → training = true ∧ (net.L k).kind = .dropout → Fresh w w' (mask k) r (net.dim (k + 1)) (M k)
  sepM : ∀ i k a, i ≤ n → k < n → training = true ∧ (net.L k).kind = .dropout →
    w'.IsRow (o i) r a → ¬ w'.IsRow (mask k) r a
  pos : w'.unifPos = w.unifPos + if training = true then dropDraws net r n else 0
  valD : ∀ k, k < n → training = true ∧ (net.L k).kind = .dropout →
    V (k + 1) = trainOut (net.L k) (fun q => w.unif (w.unifPos + (dropDraws net r k + q))) (V k) ∧
    M k = dropBits (net.L k) (fun q => w.unif (w.unifPos + (dropDraws net r k + q)))

theorem forwardLoop_spec {w : World α} {m : Model α} {net : Net α} (hN : IsNet w m net) {x : Mat} {r : Nat}
    {X : Nat → Nat → α} (hX : IsMat w x r (net.dim 0) X) (training : Bool) (n : Nat) (hn : n ≤ net.size) :
    wp (forwardLoop m training x n) w (fun p w' => ∃ o mask V M, p.1 = (List.range (n + 1)).map o ∧ p.2.1 = o n ∧
      p.2.2 = none ∧ o 0 = x ∧ V 0 = X ∧ IsMat w' (o n) r (net.dim n) (V n) ∧
      FwdRun training w w' net n r o mask V M) := by
  induction n with
  | zero =>
    unfold forwardLoop
    refine ⟨fun _ => x, fun _ => x, fun _ => X, fun _ => X, rfl, rfl, rfl, rfl, rfl, hX, ?_⟩
    exact ⟨fun k hk => absurd hk (by omega), fun i j a hi hj _ _ => by omega,
      (Frame.refl {} w).weaken (fun _ _ h => h) (fun _ _ h => h) (fun _ _ h => h.elim) (fun _ _ h => h) False.elim id id,
      Static.refl w, fun k hk => absurd hk (by omega), fun k hk => absurd hk (by omega),
      fun k hk => absurd hk (by omega), fun k hk => absurd hk (by omega), fun _ k _ _ hk => absurd hk (by omega),
      by cases training <;> rfl, fun k hk => absurd hk (by omega)⟩
  | succ n ih =>
    unfold forwardLoop
    refine wp_bind_mono (ih (by omega)) ?_
    rintro ⟨outs, out, e⟩ w1 ⟨o, mask, V, M, h1, h2, h3, h4, h5, h6, h7⟩
    dsimp only at h1 h2 h3 ⊢
    subst h1 h2 h3
    have hN1 : IsNet w1 m net := hN.frame h7.frame h7.stat (fun _ h => h) (fun _ _ h => h)
    refine wp_bind_ok (b := net.lp n) (w' := w1) ?_ ?_
    · simp [listGet, hN1.get_layer (i := n) (by omega)]; rfl
    have hL := hN1.lay n (by omega)
    have hlp0 : net.lp n < w.next := (hN.lay n (by omega)).lt
    have h6' : IsMat w1 (o n) r (net.L n).n (V n) := by rw [hN.ins n (by omega)]; exact h6
    refine wp_bind_mono (forwardStep_spec hL h6' training) ?_
    rintro ⟨out, e⟩ w2 ⟨he, mk, V', M', h8⟩
    obtain rfl : e = none := he
    dsimp only at h8 ⊢
    have hle := h7.frame.next_le
    have hfr : Frame { lay := fun a => ∃ i, i < n + 1 ∧ a = net.lp i
                       unif := training = true ∧ ∃ i, i < n + 1 ∧ (net.L i).kind = .dropout } w w2 := by
      frames h7.frame h8.frame
      · rintro a _ ⟨i, hi, rfl⟩; exact ⟨i, by omega, rfl⟩
      · rintro a _ rfl; exact ⟨n, by omega, rfl⟩
      · rintro ⟨ht, i, hi, hk⟩; exact ⟨ht, i, by omega, hk⟩
      · rintro ⟨ht, hk⟩; exact ⟨ht, n, by omega, hk⟩
    set o' : Nat → Mat := fun k => if k = n + 1 then out else o k with ho'
    set mask' : Nat → Mat := fun k => if k = n then mk else mask k with hmask'
    set V1 : Nat → Nat → Nat → α := fun k => if k = n + 1 then V' else V k with hV1
    set M1 : Nat → Nat → Nat → α := fun k => if k = n then M' else M k with hM1
    have eo : o' (n + 1) = out := if_pos rfl
    have eo' : ∀ k, k ≤ n → o' k = o k := fun k hk => if_neg (by omega)
    have eV : V1 (n + 1) = V' := if_pos rfl
    have eV' : ∀ k, k ≤ n → V1 k = V k := fun k hk => if_neg (by omega)
    have em : mask' n = mk := if_pos rfl
    have em' : ∀ k, k < n → mask' k = mask k := fun k hk => if_neg (by omega)
    have eM : M1 n = M' := if_pos rfl
    have eM' : ∀ k, k < n → M1 k = M k := fun k hk => if_neg (by omega)
    -- all earlier matrices live below w1.next and are unchanged
    have hmat : ∀ k, k ≤ n → ∃ U c, IsMat w1 (o k) r c U := by
      intro k hk
      rcases k with _ | k
      · rw [h4]; exact ⟨_, _, hX.frame h7.frame (fun h => h) (fun _ _ h => h)⟩
      · exact ⟨_, _, (h7.res k (by omega)).mat⟩
    have hrow : ∀ k, k ≤ n → ∀ a, w2.IsRow (o k) r a ↔ w1.IsRow (o k) r a := by
      intro k hk a
      obtain ⟨U, c, hU⟩ := hmat k hk
      exact hU.isRow_frame h8.frame (fun h => h) a
    have hrowlt : ∀ k, k ≤ n → ∀ a, w2.IsRow (o k) r a → a < w1.next := by
      intro k hk a ha
      obtain ⟨U, c, hU⟩ := hmat k hk
      exact hU.isRow_lt ((hrow k hk a).1 ha)
    have hdim := hN.outs n (by omega)
    refine ⟨o', mask', V1, M1, ?_, eo.symm, rfl, ?_, ?_, ?_, ?_, ?_, hfr, h7.stat.trans hle h8.stat, ?_, ?_, ?_, ?_, ?_, ?_, ?_⟩
    · rw [List.range_succ (n := n + 1), List.map_append, List.map_singleton, eo]
      show _ ++ [out] = _ ++ [out]
      congr 1
      refine List.map_congr_left fun k hk => ?_
      exact (eo' k (by have := List.mem_range.1 hk; omega)).symm
    · rw [eo' 0 (by omega), h4]
    · rw [eV' 0 (by omega), h5]
    · rw [eo, eV, ← hdim]; exact h8.res.mat
    · intro k hk
      rcases Nat.lt_succ_iff_lt_or_eq.1 hk with hk | rfl
      · rw [eo' _ (by omega), eV' _ (by omega)]
        exact (h7.res k hk).frame h8.frame (fun h => h) (fun _ _ h => h)
      · rw [eo, eV, ← hdim]; exact h8.res.mono hle
    · intro i j a hi hj hai haj
      have fresh : ∀ a, w2.IsRow out r a → w1.next ≤ a := h8.res.fresh
      rcases Nat.lt_or_ge i (n + 1) with hi' | hi' <;> rcases Nat.lt_or_ge j (n + 1) with hj' | hj'
      · rw [eo' i (by omega)] at hai
        rw [eo' j (by omega)] at haj
        exact h7.sep i j a (by omega) (by omega) ((hrow i (by omega) a).1 hai) ((hrow j (by omega) a).1 haj)
      · obtain rfl : j = n + 1 := by omega
        rw [eo] at haj
        rw [eo' i (by omega)] at hai
        have := fresh a haj
        have := hrowlt i (by omega) a hai
        omega
      · obtain rfl : i = n + 1 := by omega
        rw [eo] at hai
        rw [eo' j (by omega)] at haj
        have := fresh a hai
        have := hrowlt j (by omega) a haj
        omega
      · omega
    · intro k hk hd
      rcases Nat.lt_succ_iff_lt_or_eq.1 hk with hk | rfl
      · rw [eV' _ (by omega), eV' _ (by omega)]; exact h7.val k hk hd
      · rw [eV, eV' _ (by omega)]; exact h8.val hd
    · intro k hk hlast hd
      rcases Nat.lt_succ_iff_lt_or_eq.1 hk with hk | rfl
      · rw [eo' _ (by omega), h8.frame.lay _ ((hN1.lay k (by omega)).lt) (Ne.symm (hlast n hk (by omega)))]
        exact h7.memo k hk (fun i h1 h2 => hlast i h1 (by omega)) hd
      · rw [eo, h8.mem hd]
        exact ⟨_, rfl⟩
    · intro k hk hlast hd
      rcases Nat.lt_succ_iff_lt_or_eq.1 hk with hk | rfl
      · rw [eo' _ (by omega), em' _ (by omega), h8.frame.lay _ ((hN1.lay k (by omega)).lt) (Ne.symm (hlast n hk (by omega)))]
        exact h7.memD k hk (fun i h1 h2 => hlast i h1 (by omega)) hd
      · rw [eo, em, h8.memD hd]
        exact ⟨_, rfl⟩
    · intro k hk hd
      rcases Nat.lt_succ_iff_lt_or_eq.1 hk with hk | rfl
      · rw [em' _ (by omega), eM' _ (by omega)]
        exact (h7.bits k hk hd).frame h8.frame (fun h => h) (fun _ _ h => h)
      · rw [em, eM, ← hdim]; exact (h8.bits hd).mono hle
    · intro i k a hi hk hd hai hak
      rcases Nat.lt_or_ge i (n + 1) with hi' | hi' <;> rcases Nat.lt_succ_iff_lt_or_eq.1 hk with hk' | rfl
      · rw [eo' i (by omega)] at hai
        rw [em' k hk'] at hak
        exact h7.sepM i k a (by omega) hk' hd ((hrow i (by omega) a).1 hai)
          (((h7.bits k hk' hd).mat.isRow_frame h8.frame (fun h => h) a).1 hak)
      · rw [eo' i (by omega)] at hai
        rw [em] at hak
        have := (h8.bits hd).fresh a hak
        have := hrowlt i (by omega) a hai
        omega
      · obtain rfl : i = n + 1 := by omega
        rw [eo] at hai
        rw [em' k hk'] at hak
        have := h8.res.fresh a hai
        have := (h7.bits k hk' hd).mat.isRow_lt (((h7.bits k hk' hd).mat.isRow_frame h8.frame (fun h => h) a).1 hak)
        omega
      · obtain rfl : i = k + 1 := by omega
        rw [eo] at hai
        rw [em] at hak
        exact h8.sep hd a hai hak
    · rw [h8.pos, h7.pos, Nat.add_assoc]
      congr 1
      cases training
      · simp
      · simp [dropDraws]
    · intro k hk hd
      rcases Nat.lt_succ_iff_lt_or_eq.1 hk with hk | rfl
      · rw [eV' _ (by omega), eV' _ (by omega), eM' _ hk]; exact h7.valD k hk hd
      · rw [eV, eV' _ (by omega), eM]
        have e := h8.valD hd
        rw [h7.pos, h7.frame.unif, if_pos hd.1] at e
        simpa only [Nat.add_assoc] using e

theorem modelForward_spec {w : World α} {m : Model α} {net : Net α} (hN : IsNet w m net) {x : Mat} {r : Nat}
    {X : Nat → Nat → α} (hX : IsMat w x r (net.dim 0) X) (training : Bool) :
    wp (modelForward m x training) w (fun p w' => ∃ o mask V M, p.1 = (List.range (net.size + 1)).map o ∧
      p.2 = none ∧ o 0 = x ∧ V 0 = X ∧ FwdRun training w w' net net.size r o mask V M) := by
  unfold modelForward
  rw [hN.size, Int.toNat_natCast]
  refine wp_bind_mono (forwardLoop_spec hN hX training net.size (Nat.le_refl _)) ?_
  rintro ⟨outs, out, e⟩ w' ⟨o, mask, V, M, h1, h2, h3, h4, h5, -, h7⟩
  exact ⟨o, mask, V, M, h1, h3, h4, h5, h7⟩

/-- With the wrong input width nothing happens and an error is returned. -/
theorem modelForward_bad {w : World α} {m : Model α} {net : Net α} (hN : IsNet w m net) (h0 : 0 < net.size) {x : Mat}
    (hx : x.cols ≠ net.dim 0) (training : Bool) :
    ∃ e, modelForward m x training w = .ok (([], some e), w) := by
  have key : ∀ n, ∃ out e, forwardLoop m training x (n + 1) w = .ok (([], out, some e), w) := by
    intro n
    induction n with
    | zero =>
      refine ⟨Mat.zero, .matrixDims x.rows x.cols, ?_⟩
      unfold forwardLoop
      refine (bind_ok (show forwardLoop m training x 0 w = .ok (([x], x, none), w) from rfl)).trans ?_
      dsimp only
      have e : listGet m.layers ((0 : Nat) : Int) w = .ok (net.lp 0, w) := by
        simp [listGet, hN.get_layer h0]; rfl
      refine (bind_ok e).trans ?_
      refine (bind_ok (forwardStep_bad ?_ training)).trans rfl
      rw [(hN.lay 0 h0).ins, hN.ins 0 h0]
      exact hx
    | succ n ih =>
      obtain ⟨out, e, h⟩ := ih
      refine ⟨out, e, ?_⟩
      unfold forwardLoop
      exact (bind_ok h).trans rfl
  unfold modelForward
  rw [hN.size, Int.toNat_natCast]
  obtain ⟨n, hn⟩ : ∃ n, net.size = n + 1 := ⟨net.size - 1, by omega⟩
  rw [hn]
  obtain ⟨out, e, h⟩ := key n
  exact ⟨e, (bind_ok h).trans rfl⟩

end NN
