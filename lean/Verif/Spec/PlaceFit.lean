import Verif.Spec.PlaceNet
import Verif.Lemmas.Train
import Verif.Lemmas.Build
/- Concrete states holding a model, its optimizers and data sets, used in the non-vacuity examples. -/

set_option linter.unusedSectionVars false

namespace NN
variable {α : Type} [Flt α]

/-- `m` with the layers of `net` and the optimizers `op`. -/
def Net.task (net : Net α) (op : Nat → Nat) (m : Model α) : Model α :=
  { net.model m with optims := (List.range net.size).map op }

/-- A data set that shares nothing with the model. -/
structure IsData (w : World α) (net : Net α) (X : Mat) (r c : Nat) (A : Nat → Nat → α) : Prop where
  mat : IsMat w X r c A
  cap : r ≤ X.m.cap
  sep : ∀ a, w.IsNetParam net a → ¬ w.IsRow X r a

theorem IsData.allocs {w w' : World α} {m : Model α} {net : Net α} {X : Mat} {r c : Nat} {A : Nat → Nat → α}
    (h : IsData w net X r c A) (hN : IsNet w m net) (hf : OnlyAllocs w w') : IsData w' net X r c A :=
  ⟨h.mat.allocs hf, h.cap, fun a ha hb => h.sep a ((hN.isParam hf (fun _ h => h) a).1 ha)
    ((h.mat.isRow_frame hf (fun h => h) a).1 hb)⟩

theorem IsTask.allocs {w w' : World α} {m : Model α} {net : Net α} {op : Nat → Nat} {S : Nat → OptSpec α}
    (h : IsTask w m net op S) (hf : OnlyAllocs w w') : IsTask w' m net op S :=
  h.frame hf (Static.of_frame hf fun _ _ h => h) (fun _ h => h) (fun _ h => h) (fun _ _ h => h) (fun _ _ _ _ h => h)

/-- A data set can be added to a state. -/
theorem IsTask.place {w : World α} {m : Model α} {net : Net α} {op : Nat → Nat} {S : Nat → OptSpec α}
    (h : IsTask w m net op S) {r c : Nat} (hr : 0 < r) (hc : 0 < c) (A : Nat → Nat → α) :
    ∃ w' X, OnlyAllocs w w' ∧ IsTask w' m net op S ∧ IsData w' net X r c A := by
  have hx := place_spec w A hr hc
  refine ⟨_, _, hx.frame, h.allocs hx.frame, hx.mat, hx.cap.ge, ?_⟩
  intro a hp hrow
  have := hx.fresh a hrow
  have := h.isNet.param_lt ((h.isNet.isParam hx.frame (fun _ h => h) a).1 hp)
  omega

/-- There is a state with a model of any depth, any layer types, parameters and other fields, with a copy of any
optimizer `o` without state for every layer, and training and validation data of any content. -/
theorem exists_task (w0 : World α) (k : Nat) (hk : 0 < k) (L : Nat → LayerSpec α) (hL : ∀ i, 0 < (L i).n ∧ 0 < (L i).o)
    (hc : ∀ i, (L i).o = (L (i + 1)).n) (m : Model α) (o : Optim α) (S : OptSpec α) (h0 : o.weightMomentums.rows = 0)
    (ho : ∀ (w : World α) (p i : Nat), p < w.next → w.opt p = o → IsOpt w p (L i).n (L i).o 1 (L i).o S)
    {r r' : Nat} (hr : 0 < r) (hr' : 0 < r') (X Y xv yv : Nat → Nat → α) :
    ∃ (w : World α) (net : Net α) (op : Nat → Nat) (XM YM xM yM : Mat), OnlyAllocs w0 w ∧
      net.size = k ∧ net.L = L ∧ (net.dim = fun i => (L i).n) ∧ IsTask w (net.task op m) net op (fun _ => S) ∧
      IsData w net XM r (L 0).n X ∧ IsData w net YM r (L k).n Y ∧ IsData w net xM r' (L 0).n xv ∧
      IsData w net yM r' (L k).n yv := by
  obtain ⟨w, lp, wm, bm, ha, h1, h2, h3, h4⟩ := exists_layers w0 L hL k
  let net : Net α := ⟨k, fun i => (L i).n, lp, wm, bm, L⟩
  let op : Nat → Nat := (w.next + ·)
  have hf : OnlyAllocs w (withOpts w k o) := withOpts_allocs w k o
  have hN : IsNet w (net.task op m) net := ⟨rfl, rfl, h1, fun _ _ => rfl, fun i _ => hc i, fun _ => rfl, fun _ => rfl⟩
  have hO : OwnNet w net := ⟨h2, h3, h4⟩
  have hT : IsTask (withOpts w k o) (net.task op m) net op (fun _ => S) := by
    refine ⟨hN.frame hf (Static.of_frame hf fun _ _ h => h) (fun _ h => h) (fun _ _ h => h), hO.frame hN hf (fun _ h => h),
      hk, rfl, fun i hi => ho _ _ _ ?_ (withOpts_new w k o hi), fun i j _ _ e => Nat.add_left_cancel e, ?_⟩
    · show w.next + i < w.next + k
      exact Nat.add_lt_add_left hi _
    · intro i a hi h
      have e : (withOpts w k o).opt (op i) = o := withOpts_new w k o hi
      exact absurd (by rw [e]; exact h0) h.1
  obtain ⟨w1, XM, f1, t1, d1⟩ := hT.place hr (hL 0).1 X
  obtain ⟨w2, YM, f2, t2, d2⟩ := t1.place hr (hL k).1 Y
  obtain ⟨w3, xM, f3, t3, d3⟩ := t2.place hr' (hL 0).1 xv
  obtain ⟨w4, yM, f4, t4, d4⟩ := t3.place hr' (hL k).1 yv
  refine ⟨w4, net, op, XM, YM, xM, yM, ((((ha.trans hf).trans f1).trans f2).trans f3).trans f4, rfl, rfl, rfl, t4, ?_, ?_, ?_, d4⟩
  · exact ((d1.allocs t1.isNet f2).allocs t2.isNet f3).allocs t3.isNet f4
  · exact (d2.allocs t2.isNet f3).allocs t3.isNet f4
  · exact d3.allocs t3.isNet f4

/-- A three-layer model without sigmoid layers, with growing sizes. -/
def demoT (i : Nat) : LayerSpec α where
  kind := match i % 3 with | 0 => .hidden | 1 => .dropout | _ => .linear
  n := i + 2
  o := i + 3
  W k j := Flt.ofInt ((k : Int) - j)
  b j := Flt.ofInt (j : Int)
  slope := Flt.half
  dropout := Flt.half

theorem demoT_pos (i : Nat) : 0 < (demoT i : LayerSpec α).n ∧ 0 < (demoT i : LayerSpec α).o := ⟨by simp [demoT], by simp [demoT]⟩

theorem demoT_chain (i : Nat) : (demoT i : LayerSpec α).o = (demoT (i + 1) : LayerSpec α).n := rfl

theorem demoT_kind (i : Nat) : (demoT i : LayerSpec α).kind ≠ .sigmoid := by
  unfold demoT
  dsimp only
  split <;> simp

end NN
