import Verif.Spec.PlaceLayer
import Verif.Lemmas.ModelGo
/- Concrete states holding whole models, used in the non-vacuity examples. -/

set_option linter.unusedSectionVars false

namespace NN
variable {α : Type} [Flt α]

/-- As `place_layer`, and the parameters are new storage. -/
theorem place_layer' (w : World α) (L : LayerSpec α) (hn : 0 < L.n) (ho : 0 < L.o) :
    ∃ w' lp wm bm, OnlyAllocs w w' ∧ IsLayer w' lp wm bm L ∧ OwnParams w' wm bm L.n ∧ w.next ≤ lp ∧
      ∀ a, w'.IsParam wm bm L.n a → w.next ≤ a := by
  have h1 := place_spec w L.W hn ho
  have h2 := place_spec (placeW w L.n L.o L.W) (fun _ j => L.b j) (r := 1) Nat.one_pos ho
  set w1 := placeW w L.n L.o L.W
  set w2 := placeW w1 1 L.o (fun _ j => L.b j)
  set wm := placeM w L.n L.o
  set bm := placeM w1 1 L.o
  let w3 : World α := { w2 with next := w2.next + 1, lay := upd w2.lay w2.next (layerObj L wm bm) }
  have h3 : OnlyAllocs w2 w3 :=
    ⟨Nat.le_succ _, fun _ _ _ => rfl, fun _ _ _ => rfl, fun a ha _ => upd_ne (by omega), fun _ _ _ => rfl, rfl, rfl,
      fun _ => rfl, fun _ => rfl, fun _ => rfl, rfl⟩
  have a2 := h1.frame.trans h2.frame
  have e : w3.lay w2.next = layerObj L wm bm := upd_same
  refine ⟨w3, w2.next, wm, bm, a2.trans h3, ⟨Nat.lt_succ_self _, ?_, ?_, ?_, ?_, ?_, ?_, ?_,
    (h1.mat.allocs h2.frame).allocs h3, h2.mat.allocs h3⟩, ⟨?_, ?_, ?_⟩, a2.next_le, ?_⟩
  · rw [e]; rfl
  · rw [e]; rfl
  · rw [e]; rfl
  · rw [e]; rfl
  · rw [e]; rfl
  · rw [e]; rfl
  · rw [e]; rfl
  · exact (h1.distinct.frame h2.frame h1.mat.addr_lt (fun h => h)).frame h3 (h1.mat.allocs h2.frame).addr_lt (fun h => h)
  · intro a ha hb
    have := h2.fresh a ((h2.mat.isRow_frame h3 (fun h => h) a).1 hb)
    have := h1.mat.isRow_lt ((h1.mat.isRow_frame (h2.frame.trans h3) (fun h => h) a).1 ha)
    omega
  · have := h2.fresh_outer
    have := h1.mat.addr_lt
    omega
  · rintro a (ha | ha)
    · exact h1.fresh a ((h1.mat.isRow_frame (h2.frame.trans h3) (fun h => h) a).1 ha)
    · exact h1.frame.next_le.trans (h2.fresh a ((h2.mat.isRow_frame h3 (fun h => h) a).1 ha))

/-- Since `w`, a layer of content `L` has been made in new storage, and nothing else has changed. -/
structure NewLayer (w w' : World α) (lp : Nat) (wm bm : Mat) (L : LayerSpec α) : Prop where
  allocs : OnlyAllocs w w'
  layer : IsLayer w' lp wm bm L
  own : OwnParams w' wm bm L.n
  fresh : w.next ≤ lp
  params : ∀ a, w'.IsParam wm bm L.n a → w.next ≤ a

/-- The state `w` has n layers with contents `L`, all in separate storage. -/
structure Laid (w : World α) (n : Nat) (lp : Nat → Nat) (wm bm : Nat → Mat) (L : Nat → LayerSpec α) : Prop where
  layer : ∀ i, i < n → IsLayer w (lp i) (wm i) (bm i) (L i)
  own : ∀ i, i < n → OwnParams w (wm i) (bm i) (L i).n
  inj : ∀ i j, i < n → j < n → lp i = lp j → i = j
  sep : ∀ i j a, i < n → j < n → w.IsParam (wm i) (bm i) (L i).n a → w.IsParam (wm j) (bm j) (L j).n a → i = j

theorem Laid.nil (w : World α) (lp : Nat → Nat) (wm bm : Nat → Mat) (L : Nat → LayerSpec α) : Laid w 0 lp wm bm L :=
  ⟨fun i h => absurd h (by omega), fun i h => absurd h (by omega), fun i _ h => absurd h (by omega), fun i _ _ h => absurd h (by omega)⟩

/-- One more layer. -/
theorem Laid.snoc {w w' : World α} {n : Nat} {lp : Nat → Nat} {wm bm : Nat → Mat} {L : Nat → LayerSpec α} {lp' : Nat} {wm' bm' : Mat}
    {L' : LayerSpec α} (h : Laid w n lp wm bm L) (h' : NewLayer w w' lp' wm' bm' L') :
    Laid w' (n + 1) (upd lp n lp') (upd wm n wm') (upd bm n bm') (upd L n L') := by
  obtain ⟨h1, h2, h3, h4⟩ := h
  obtain ⟨ha', h1', h2', h3', h4'⟩ := h'
  have hp : ∀ i a, i < n → w'.IsParam (wm i) (bm i) (L i).n a → w.IsParam (wm i) (bm i) (L i).n a := fun i a hi h =>
    (IsParam_frame (h1 i hi) ha' (fun _ h => h) a).1 h
  have hlt : ∀ i a, i < n → w.IsParam (wm i) (bm i) (L i).n a → a < w.next := by
    rintro i a hi (h | h)
    · exact (h1 i hi).wmat.isRow_lt h
    · exact (h1 i hi).bmat.isRow_lt h
  refine ⟨?_, ?_, ?_, ?_⟩
  · intro i hi
    by_cases h : i = n
    · subst h; simpa only [upd_same] using h1'
    · have hi' : i < n := by omega
      rw [upd_ne h, upd_ne h, upd_ne h, upd_ne h]
      exact (h1 i hi').frame_static ha' (by rw [ha'.lay _ (h1 i hi').lt (fun h => h)]) (fun h => h) (fun h => h)
        (fun _ _ h => h)
  · intro i hi
    by_cases h : i = n
    · subst h; simpa only [upd_same] using h2'
    · have hi' : i < n := by omega
      rw [upd_ne h, upd_ne h, upd_ne h]
      have hl := h1 i hi'
      exact ⟨(h2 i hi').distinct.frame ha' hl.wmat.addr_lt (fun h => h), fun a ha hb => (h2 i hi').disjoint a
        ((hl.wmat.isRow_frame ha' (fun h => h) a).1 ha) ((hl.bmat.isRow_frame ha' (fun h => h) a).1 hb),
        (h2 i hi').outer⟩
  · intro i j hi hj e
    by_cases h : i = n <;> by_cases h' : j = n
    · omega
    · subst h
      rw [upd_same, upd_ne h'] at e
      have := (h1 j (by omega)).lt
      omega
    · subst h'
      rw [upd_same, upd_ne h] at e
      have := (h1 i (by omega)).lt
      omega
    · rw [upd_ne h, upd_ne h'] at e
      exact h3 i j (by omega) (by omega) e
  · intro i j a hi hj hpi hpj
    by_cases h : i = n <;> by_cases h' : j = n
    · omega
    · subst h
      rw [upd_same, upd_same, upd_same] at hpi
      rw [upd_ne h', upd_ne h', upd_ne h'] at hpj
      have := h4' a hpi
      have := hlt j a (by omega) (hp j a (by omega) hpj)
      omega
    · subst h'
      rw [upd_same, upd_same, upd_same] at hpj
      rw [upd_ne h, upd_ne h, upd_ne h] at hpi
      have := h4' a hpj
      have := hlt i a (by omega) (hp i a (by omega) hpi)
      omega
    · rw [upd_ne h, upd_ne h, upd_ne h] at hpi
      rw [upd_ne h', upd_ne h', upd_ne h'] at hpj
      exact h4 i j a (by omega) (by omega) (hp i a (by omega) hpi) (hp j a (by omega) hpj)

theorem Laid.congr {w : World α} {n : Nat} {lp : Nat → Nat} {wm bm : Nat → Mat} {L L' : Nat → LayerSpec α}
    (h : Laid w n lp wm bm L) (e : ∀ i, i < n → L i = L' i) : Laid w n lp wm bm L' :=
  ⟨fun i hi => e i hi ▸ h.layer i hi, fun i hi => e i hi ▸ h.own i hi, h.inj,
    fun i j a hi hj h1 h2 => h.sep i j a hi hj ((e i hi).symm ▸ h1) ((e j hj).symm ▸ h2)⟩

/-- Any number of layers with any contents, all in separate storage. -/
theorem exists_layers (w0 : World α) (L : Nat → LayerSpec α) (hL : ∀ i, 0 < (L i).n ∧ 0 < (L i).o) (n : Nat) :
    ∃ (w : World α) (lp : Nat → Nat) (wm bm : Nat → Mat), OnlyAllocs w0 w ∧ (∀ i, i < n → IsLayer w (lp i) (wm i) (bm i) (L i)) ∧
      (∀ i, i < n → OwnParams w (wm i) (bm i) (L i).n) ∧ (∀ i j, i < n → j < n → lp i = lp j → i = j) ∧
      (∀ i j a, i < n → j < n → w.IsParam (wm i) (bm i) (L i).n a → w.IsParam (wm j) (bm j) (L j).n a → i = j) := by
  suffices h : ∃ (w : World α) (lp : Nat → Nat) (wm bm : Nat → Mat), OnlyAllocs w0 w ∧ Laid w n lp wm bm L by
    obtain ⟨w, lp, wm, bm, h1, h2⟩ := h
    exact ⟨w, lp, wm, bm, h1, h2.layer, h2.own, h2.inj, h2.sep⟩
  induction n with
  | zero => exact ⟨w0, fun _ => 0, fun _ => Mat.zero, fun _ => Mat.zero, Frame.refl {} _, Laid.nil _ _ _ _ _⟩
  | succ n ih =>
    obtain ⟨w, lp, wm, bm, ha, h⟩ := ih
    obtain ⟨w', lp', wm', bm', h1, h2, h3, h4, h5⟩ := place_layer' w (L n) (hL n).1 (hL n).2
    refine ⟨w', _, _, _, ha.trans h1, (h.snoc ⟨h1, h2, h3, h4, h5⟩).congr ?_⟩
    intro i _
    by_cases e : i = n
    · rw [e, upd_same]
    · rw [upd_ne e]

/-- `m` with the layers of `net`. -/
def Net.model (net : Net α) (m : Model α) : Model α :=
  { m with modelSize := net.size, layers := (List.range net.size).map net.lp, inputSize := net.dim 0
           outputSize := net.dim net.size }

/-- There is a state with a model of any depth, any layer types, parameters and other fields, and an input of any
content. -/
theorem exists_net (n : Nat) (L : Nat → LayerSpec α) (hL : ∀ i, 0 < (L i).n ∧ 0 < (L i).o)
    (hc : ∀ i, (L i).o = (L (i + 1)).n) (m : Model α) {r : Nat} (hr : 0 < r) (X : Nat → Nat → α) :
    ∃ (w : World α) (net : Net α) (x : Mat), net.size = n ∧ net.L = L ∧ (net.dim = fun i => (L i).n) ∧
      IsNet w (net.model m) net ∧ OwnNet w net ∧ IsMat w x r (net.dim 0) X ∧ DistinctRows w x r ∧
      (∀ a, w.IsNetParam net a → ¬ w.IsRow x r a) := by
  have hx := place_spec (emptyWorld (α := α)) X hr (hL 0).1
  obtain ⟨w, lp, wm, bm, ha, h1, h2, h3, h4⟩ := exists_layers (emptyWorld (α := α)) L hL n
  have hw := place_spec w X hr (hL 0).1
  let net : Net α := ⟨n, fun i => (L i).n, lp, wm, bm, L⟩
  have hN : IsNet w (net.model m) net := ⟨rfl, rfl, h1, fun _ _ => rfl, fun i _ => hc i, fun _ => rfl, fun _ => rfl⟩
  have hO : OwnNet w net := ⟨h2, h3, h4⟩
  refine ⟨_, net, placeM w r (L 0).n, rfl, rfl, rfl, hN.frame hw.frame (Static.of_frame hw.frame fun _ _ h => h)
    (fun _ h => h) (fun _ _ h => h), hO.frame hN hw.frame (fun _ h => h), hw.mat, hw.distinct, ?_⟩
  intro a hp hrow
  have := hw.fresh a hrow
  have := hN.param_lt ((hN.isParam hw.frame (fun _ h => h) a).1 hp)
  omega

/-- Six layers of the six types and growing sizes, repeated. -/
def demoL (i : Nat) : LayerSpec α where
  kind := match i % 6 with
    | 0 => .hidden | 1 => .dropout | 2 => .linear | 3 => .leaky | 4 => .sigmoid | _ => .softmax
  n := i + 2
  o := i + 3
  W k j := Flt.ofInt ((k : Int) - j)
  b j := Flt.ofInt (j : Int)
  slope := Flt.half
  dropout := Flt.half

theorem demoL_pos (i : Nat) : 0 < (demoL i : LayerSpec α).n ∧ 0 < (demoL i : LayerSpec α).o := ⟨by simp [demoL], by simp [demoL]⟩

theorem demoL_chain (i : Nat) : (demoL i : LayerSpec α).o = (demoL (i + 1) : LayerSpec α).n := rfl

end NN
