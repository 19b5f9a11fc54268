import Verif.Lemmas.InitLayers
import Verif.Spec.Params
/- Execution of the client code that assigns all parameters of a model. -/

set_option linter.unusedSectionVars false

namespace NN
variable {α : Type} [Flt α]
open Go

/-- The model after the first k layers have been given new parameters. -/
def paramNet (net : Net α) (W : Nat → Nat → Nat → α) (b : Nat → Nat → α) (k : Nat) : Net α :=
  { net with L := fun q => if q < k then { net.L q with W := W q, b := b q } else net.L q }

theorem paramNet_same (net : Net α) (W : Nat → Nat → Nat → α) (b : Nat → Nat → α) (k : Nat) : SameShape net (paramNet net W b k) := by
  refine ⟨rfl, rfl, rfl, rfl, rfl, fun i => ?_⟩
  unfold paramNet
  dsimp only
  split
  · exact ⟨_, _, rfl⟩
  · exact ⟨_, _, rfl⟩

theorem fillMat_spec {w : World α} {m : Mat} {r c : Nat} {A : Nat → Nat → α} (h : IsMat w m r c A) (hd : DistinctRows w m r)
    (V : Nat → Nat → α) : wp (fillMat m V) w (fun _ w' => SetMat w w' m r c V) := by
  unfold fillMat
  rw [h.rows, h.cols, Int.toNat_natCast, Int.toNat_natCast]
  refine wp_fill h fun i j w1 hi hj hw1 => ?_
  refine wp_bind_mono (set_spec hw1.mat ((distinctRows_eq (by rw [hw1.outs])).1 hd) hi hj (V i j)) ?_
  rintro e w2 ⟨-, h2⟩
  refine wp_pure.2 ((hw1.trans h2).congr fun i' j' hi' hj' => ?_)
  simp only [upd2, mix]
  by_cases e : i' = i ∧ j' = j
  · obtain ⟨rfl, rfl⟩ := e
    simp
  · have : (i' < i ∨ (i' = i ∧ j' < j + 1)) ↔ (i' < i ∨ (i' = i ∧ j' < j)) := by omega
    simp [e, this]

theorem assignLayer_spec {w : World α} {lp : Nat} {wm bm : Mat} {L : LayerSpec α} (hL : IsLayer w lp wm bm L)
    (hown : OwnParams w wm bm L.n) (W : Nat → Nat → α) (b : Nat → α) :
    wp (assignLayer lp W b) w (fun _ w' => IsLayer w' lp wm bm { L with W := W, b := b } ∧
      Frame { flt := w.IsParam wm bm L.n } w w' ∧ w'.next = w.next ∧ w'.outs = w.outs) := by
  unfold assignLayer
  refine wp_bind_ok rfl ?_
  rw [hL.weights, hL.biases]
  refine wp_bind_ok rfl ?_
  refine wp_bind_ok rfl ?_
  refine wp_bind_mono (fillMat_spec hL.wmat hown.distinct W) ?_
  intro _ w1 h1
  have hb : IsMat w1 bm 1 L.o (fun _ j => L.b j) := hL.bmat.frame h1.frame (fun h => h) fun a ha hr => hown.disjoint a hr ha
  refine wp_mono (fillMat_spec hb (fun i j hi hj _ => by omega) fun _ => b) ?_
  intro _ w2 h2
  have f : Frame { flt := w.IsParam wm bm L.n } w w2 := by
    frames h1.frame h2.frame
    · intro a _ ha; exact .inl ha
    · intro a _ ha; exact .inr ((isRow_eq (by rw [h1.outs]) _ _).1 ha)
  have e := f.lay lp hL.lt (fun h => h)
  refine ⟨⟨by rw [h2.next, h1.next]; exact hL.lt, ?_, ?_, ?_, ?_, ?_, ?_, ?_, ?_, h2.mat⟩, f, h2.next.trans h1.next, h2.outs.trans h1.outs⟩
  · rw [e]; exact hL.kind
  · rw [e]; exact hL.ins
  · rw [e]; exact hL.outs
  · rw [e]; exact hL.weights
  · rw [e]; exact hL.biases
  · rw [e]; exact hL.slope
  · rw [e]; exact hL.dropout
  · refine h1.mat.frame h2.frame (fun h => h) fun a ha hr => ?_
    exact hown.disjoint a ((isRow_eq (by rw [h1.outs]) _ _).1 ha) ((isRow_eq (by rw [h1.outs]) _ _).1 hr)

/-- After the assignment the model has the given parameters; nothing but the parameters has changed. -/
theorem assignParams_spec {w : World α} {m : Model α} {net : Net α} (hN : IsNet w m net) (hO : OwnNet w net)
    (W : Nat → Nat → Nat → α) (b : Nat → Nat → α) :
    wp (assignParams m W b) w (fun _ w' => IsNet w' m (paramNet net W b net.size) ∧ OwnNet w' (paramNet net W b net.size) ∧
      Frame { flt := w.IsNetParam net } w w' ∧ w'.next = w.next) := by
  unfold assignParams
  rw [hN.ptrs, List.length_map, List.length_range]
  refine wp_mono (wp_forN (fun k w' => IsNet w' m (paramNet net W b k) ∧ OwnNet w' (paramNet net W b k) ∧
      Frame { flt := w.IsNetParam net } w w' ∧ w'.next = w.next) ?_ ?_) (fun _ _ h => h)
  · have : paramNet net W b 0 = net := by unfold paramNet; simp
    exact ⟨this ▸ hN, this ▸ hO, Frame.refl _ _, rfl⟩
  · rintro k w1 hk ⟨i1, i2, i3, i4⟩
    have hl : listGet ((List.range net.size).map net.lp) k w1 = .ok (net.lp k, w1) := by
      unfold listGet
      simp [hk]; rfl
    refine wp_bind_ok hl ?_
    have eL : (paramNet net W b k).L k = net.L k := by unfold paramNet; simp
    have hlay := i1.lay k hk
    have hown := i2.own k hk
    rw [eL] at hlay hown
    refine wp_mono (assignLayer_spec hlay hown (W k) (b k)) ?_
    rintro - w2 ⟨l1, l2, l3, l4⟩
    have eN : paramNet net W b (k + 1) = { paramNet net W b k with L := upd (paramNet net W b k).L k { net.L k with W := W k, b := b k } } := by
      unfold paramNet
      congr 1
      funext q
      by_cases hq : q = k
      · subst hq; simp
      · rw [upd_ne hq]
        dsimp only
        by_cases h2 : q < k
        · rw [if_pos h2, if_pos (by omega)]
        · rw [if_neg h2, if_neg (by omega)]
    have hf : Frame { flt := w.IsNetParam net } w w2 := by
      refine i3.trans l2 (fun _ _ h => h) (fun a ha hr => ?_) (fun _ _ h => h) (fun _ _ h => h) (fun _ _ h => h)
        (fun _ _ h => h) (fun _ _ h => h) (fun _ _ h => h) id id id id id id
      refine ⟨k, hk, ?_⟩
      rcases hr with hr | hr
      · exact .inl (((hN.lay k hk).wmat.isRow_frame i3 (fun h => h) a).1 hr)
      · exact .inr (((hN.lay k hk).bmat.isRow_frame i3 (fun h => h) a).1 hr)
    refine ⟨?_, (paramNet_same net W b _).own (hO.frame hN hf fun _ h => h), hf, l3.trans i4⟩
    rw [eN]
    refine ⟨i1.size, i1.ptrs, fun i hi => ?_, fun i hi => ?_, fun i hi => ?_, i1.input, i1.output⟩
    · dsimp only
      by_cases hik : i = k
      · subst hik
        rw [upd_same]
        exact l1
      · rw [upd_ne hik]
        refine (i1.lay i hi).frame l2 (fun h => h) (fun h => h) (fun h => h) fun a ha hb => hik ?_
        refine i2.sep i k a hi hk ha ?_
        rw [eL]
        exact hb
    · dsimp only
      by_cases hik : i = k
      · subst hik
        rw [upd_same, ← i1.ins i hi, eL]
      · rw [upd_ne hik]; exact i1.ins i hi
    · dsimp only
      by_cases hik : i = k
      · subst hik
        rw [upd_same]
        have := i1.outs i hi
        rw [eL] at this
        exact this
      · rw [upd_ne hik]; exact i1.outs i hi

end NN
