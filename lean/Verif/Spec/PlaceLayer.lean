import Verif.Spec.Place
import Verif.Spec.Layer
/- Concrete states holding layers, used in the non-vacuity examples. -/

set_option linter.unusedSectionVars false

namespace NN
variable {α : Type} [Flt α]

/-- The layer object with content `L` and parameters `wm`, `bm`. -/
def layerObj (L : LayerSpec α) (wm bm : Mat) : Layer α :=
  { kind := L.kind, inputSize := L.n, outputSize := L.o, weights := some wm, biases := some bm, slope := L.slope,
    dropout := L.dropout, reluInputs := Mat.zero, outputs := Mat.zero, binaryMask := Mat.zero }

/-- A layer with any content can be added to any state. -/
theorem place_layer (w : World α) (L : LayerSpec α) (hn : 0 < L.n) (ho : 0 < L.o) :
    ∃ w' lp wm bm, OnlyAllocs w w' ∧ IsLayer w' lp wm bm L ∧ OwnParams w' wm bm L.n ∧ w.next ≤ lp := by
  have h1 := place_spec w L.W hn ho
  have h2 := place_spec (placeW w L.n L.o L.W) (fun _ j => L.b j) (r := 1) Nat.one_pos ho
  set w1 := placeW w L.n L.o L.W
  set w2 := placeW w1 1 L.o (fun _ j => L.b j)
  set wm := placeM w L.n L.o
  set bm := placeM w1 1 L.o
  let w3 : World α := { w2 with next := w2.next + 1, lay := upd w2.lay w2.next (layerObj L wm bm) }
  have h3 : OnlyAllocs w2 w3 :=
    ⟨Nat.le_succ _, fun _ _ _ => rfl, fun _ _ _ => rfl, fun a ha _ => upd_ne (by omega), fun _ _ _ => rfl, rfl, rfl,
      fun _ => rfl, fun _ => rfl, fun _ => rfl, rfl⟩
  have a2 := h1.frame.trans h2.frame
  have e : w3.lay w2.next = layerObj L wm bm := upd_same
  refine ⟨w3, w2.next, wm, bm, a2.trans h3, ⟨Nat.lt_succ_self _, ?_, ?_, ?_, ?_, ?_, ?_, ?_,
    (h1.mat.allocs h2.frame).allocs h3, h2.mat.allocs h3⟩, ⟨?_, ?_, ?_⟩, a2.next_le⟩
  · rw [e]; rfl
  · rw [e]; rfl
  · rw [e]; rfl
  · rw [e]; rfl
  · rw [e]; rfl
  · rw [e]; rfl
  · rw [e]; rfl
  · exact (h1.distinct.frame h2.frame h1.mat.addr_lt (fun h => h)).frame h3 (h1.mat.allocs h2.frame).addr_lt (fun h => h)
  · intro a ha hb
    have := h2.fresh a ((h2.mat.isRow_frame h3 (fun h => h) a).1 hb)
    have := h1.mat.isRow_lt ((h1.mat.isRow_frame (h2.frame.trans h3) (fun h => h) a).1 ha)
    omega
  · have := h2.fresh_outer
    have := h1.mat.addr_lt
    omega

/-- There is a state with a layer of any content and an input of any content. -/
theorem exists_layer (L : LayerSpec α) (hn : 0 < L.n) (ho : 0 < L.o) {r : Nat} (hr : 0 < r) (X : Nat → Nat → α) :
    ∃ w : World α, ∃ lp wm bm x, IsLayer w lp wm bm L ∧ OwnParams w wm bm L.n ∧ IsMat w x r L.n X ∧
      DistinctRows w x r ∧ (∀ a, w.IsParam wm bm L.n a → ¬ w.IsRow x r a) := by
  have h1 := place_spec (emptyWorld (α := α)) X hr hn
  obtain ⟨w', lp, wm, bm, ha, hL, hown, hlp⟩ := place_layer (placeW emptyWorld r L.n X) L hn ho
  have hw := place_spec w' X hr hn
  refine ⟨_, lp, wm, bm, placeM w' r L.n, ⟨hL.lt.trans_le hw.frame.next_le, ?_, ?_, ?_, ?_, ?_, ?_, ?_,
    hL.wmat.allocs hw.frame, hL.bmat.allocs hw.frame⟩, ⟨?_, ?_, hown.outer⟩, hw.mat, hw.distinct, ?_⟩
  · rw [hw.frame.lay lp hL.lt (fun h => h)]; exact hL.kind
  · rw [hw.frame.lay lp hL.lt (fun h => h)]; exact hL.ins
  · rw [hw.frame.lay lp hL.lt (fun h => h)]; exact hL.outs
  · rw [hw.frame.lay lp hL.lt (fun h => h)]; exact hL.weights
  · rw [hw.frame.lay lp hL.lt (fun h => h)]; exact hL.biases
  · rw [hw.frame.lay lp hL.lt (fun h => h)]; exact hL.slope
  · rw [hw.frame.lay lp hL.lt (fun h => h)]; exact hL.dropout
  · exact hown.distinct.frame hw.frame hL.wmat.addr_lt (fun h => h)
  · intro a h h'
    exact hown.disjoint a ((hL.wmat.isRow_frame hw.frame (fun h => h) a).1 h)
      ((hL.bmat.isRow_frame hw.frame (fun h => h) a).1 h')
  · intro a h h'
    have := hw.fresh a h'
    rcases h with h | h
    · have := hL.wmat.isRow_lt ((hL.wmat.isRow_frame hw.frame (fun h => h) a).1 h)
      omega
    · have := hL.bmat.isRow_lt ((hL.bmat.isRow_frame hw.frame (fun h => h) a).1 h)
      omega

theorem exists_stage (L : LayerSpec α) (hn : 0 < L.n) (ho : 0 < L.o) {r : Nat} (hr : 0 < r) (X D : Nat → Nat → α) :
    ∃ w : World α, ∃ lp wm bm x d, Stage w lp wm bm x d L r X D := by
  obtain ⟨w', lp, wm, bm, x, hL, hown, hX, hxd, hpx⟩ := exists_layer L hn ho hr X
  have hw := place_spec w' D hr ho
  have hpar : ∀ a, World.IsParam (placeW w' r L.o D) wm bm L.n a → w'.IsParam wm bm L.n a := by
    rintro a (h | h)
    · exact .inl ((hL.wmat.isRow_frame hw.frame (fun h => h) a).1 h)
    · exact .inr ((hL.bmat.isRow_frame hw.frame (fun h => h) a).1 h)
  refine ⟨_, lp, wm, bm, x, placeM w' r L.o, ⟨hL.lt.trans_le hw.frame.next_le, ?_, ?_, ?_, ?_, ?_, ?_, ?_,
    hL.wmat.allocs hw.frame, hL.bmat.allocs hw.frame⟩, ⟨?_, ?_, hown.outer⟩, hX.allocs hw.frame, hw.mat,
    hxd.frame hw.frame hX.addr_lt (fun h => h), hw.distinct, ?_, ?_, ?_⟩
  · rw [hw.frame.lay lp hL.lt (fun h => h)]; exact hL.kind
  · rw [hw.frame.lay lp hL.lt (fun h => h)]; exact hL.ins
  · rw [hw.frame.lay lp hL.lt (fun h => h)]; exact hL.outs
  · rw [hw.frame.lay lp hL.lt (fun h => h)]; exact hL.weights
  · rw [hw.frame.lay lp hL.lt (fun h => h)]; exact hL.biases
  · rw [hw.frame.lay lp hL.lt (fun h => h)]; exact hL.slope
  · rw [hw.frame.lay lp hL.lt (fun h => h)]; exact hL.dropout
  · exact hown.distinct.frame hw.frame hL.wmat.addr_lt (fun h => h)
  · intro a h h'
    exact hown.disjoint a ((hL.wmat.isRow_frame hw.frame (fun h => h) a).1 h)
      ((hL.bmat.isRow_frame hw.frame (fun h => h) a).1 h')
  · intro a h h'
    exact hpx a (hpar a h) ((hX.isRow_frame hw.frame (fun h => h) a).1 h')
  · intro a h h'
    have := hw.fresh a h'
    rcases hpar a h with h | h
    · have := hL.wmat.isRow_lt h
      omega
    · have := hL.bmat.isRow_lt h
      omega
  · intro a h h'
    have := hw.fresh a h'
    have := hX.isRow_lt ((hX.isRow_frame hw.frame (fun h => h) a).1 h)
    omega

end NN
