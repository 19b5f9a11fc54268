import Verif.Spec.Client
import Verif.Lemmas.InitLayers
import Verif.Lemmas.Build
import Verif.Lemmas.History
import Verif.Spec.PlaceNet
/- Execution of the client of Spec/Client.lean. -/

set_option linter.unusedSectionVars false

namespace NN
variable {α : Type} [Flt α]
open Go

/-- The layer made from the arguments: zero weights and biases. -/
def LayerArg.spec (a : LayerArg α) : LayerSpec α := newSpec a.kind a.inputs.toNat a.outputs.toNat a.slope a.dropout

/-- The width after i layers. -/
def argDim (a : Nat → LayerArg α) (i : Nat) : Nat := if i = 0 then (a 0).inputs.toNat else (a (i - 1)).outputs.toNat

/-- A layer made by a constructor and placed in the heap. -/
theorem NewLayerOk.put {w w1 : World α} {l : Layer α} {wm bm : Mat} {L : LayerSpec α} (ha : OnlyAllocs w w1)
    (h : NewLayerOk w w1 l L wm bm) :
    ∃ w2, layNew l w1 = .ok (w1.next, w2) ∧ NewLayer w w2 w1.next wm bm L ∧ w2.next = w1.next + 1 := by
  refine ⟨_, rfl, ?_, rfl⟩
  set w2 : World α := { w1 with next := w1.next + 1, lay := upd w1.lay w1.next l }
  have h3 : OnlyAllocs w1 w2 :=
    ⟨Nat.le_succ _, fun _ _ _ => rfl, fun _ _ _ => rfl, fun a ha _ => upd_ne (by omega), fun _ _ _ => rfl, rfl, rfl,
      fun _ => rfl, fun _ => rfl, fun _ => rfl, rfl⟩
  have e : w2.lay w1.next = l := upd_same
  refine ⟨ha.trans h3, ⟨Nat.lt_succ_self _, ?_, ?_, ?_, ?_, ?_, ?_, ?_, h.wmat.mat.allocs h3, h.bmat.mat.allocs h3⟩,
    ⟨?_, ?_, h.own.outer⟩, ha.next_le, ?_⟩
  · rw [e]; exact h.kind
  · rw [e]; exact h.ins
  · rw [e]; exact h.outs
  · rw [e]; exact h.weights
  · rw [e]; exact h.biases
  · rw [e]; exact h.slope
  · rw [e]; exact h.dropout
  · exact h.own.distinct.frame h3 h.wmat.mat.addr_lt (fun h => h)
  · intro a ha hb
    exact h.own.disjoint a ((h.wmat.mat.isRow_frame h3 (fun h => h) a).1 ha) ((h.bmat.mat.isRow_frame h3 (fun h => h) a).1 hb)
  · rintro a (ha | ha)
    · exact h.wmat.fresh a ((h.wmat.mat.isRow_frame h3 (fun h => h) a).1 ha)
    · exact h.bmat.fresh a ((h.bmat.mat.isRow_frame h3 (fun h => h) a).1 ha)

/-- The model built from the arguments: nothing else has changed, and everything in the model is new. -/
structure Built (w w' : World α) (a : Nat → LayerArg α) (m : Model α) (net : Net α) : Prop where
  isNet : IsNet w' m net
  own : OwnNet w' net
  layer : ∀ i, i < net.size → net.L i = (a i).spec
  dim : net.dim = argDim a
  fresh : ∀ i, i < net.size → w.next ≤ net.lp i
  params : ∀ x, w'.IsNetParam net x → w.next ≤ x
  empty : net.size = 0 → m = newModel

theorem buildModel_spec [FltInt α] (w : World α) (a : Nat → LayerArg α)
    (hs : ∀ i, -(2 ^ 53) ≤ (a i).inputs ∧ (a i).inputs ≤ 2 ^ 53 ∧ -(2 ^ 53) ≤ (a i).outputs ∧ (a i).outputs ≤ 2 ^ 53) (n : Nat) :
    wp (buildModel a n) w (fun p w' => OnlyAllocs w w' ∧ (p.2 = none ↔ ArgsOk a n) ∧
      (p.2 = none → ∃ net, net.size = n ∧ Built w w' a p.1 net)) := by
  induction n with
  | zero =>
    unfold buildModel
    refine wp_pure.2 ⟨OnlyAllocs.refl _, ⟨fun _ => ⟨by simp, by simp⟩, fun _ => rfl⟩, fun _ => ?_⟩
    refine ⟨⟨0, argDim a, fun _ => 0, fun _ => Mat.zero, fun _ => Mat.zero, fun i => (a i).spec⟩, rfl, ⟨rfl, rfl, ?_, ?_, ?_, ?_, ?_⟩,
      ⟨?_, ?_, ?_⟩, fun _ _ => rfl, rfl, ?_, ?_, fun _ => rfl⟩
    all_goals simp [World.IsNetParam]
  | succ n ih =>
    unfold buildModel
    refine wp_bind_mono ih ?_
    rintro ⟨m, e⟩ w1 ⟨ha, hiff, hb⟩
    dsimp only at hiff hb ⊢
    rcases e with _ | e
    swap
    · refine wp_pure.2 ⟨ha, ⟨(fun h => by cases h), fun h => ?_⟩, (fun h => by cases h)⟩
      exact absurd (hiff.2 ⟨fun i hi => h.1 i (by omega), fun i hi => h.2 i (by omega)⟩) (by simp)
    obtain ⟨net, hsz, hB⟩ := hb rfl
    have hok := hiff.1 rfl
    dsimp only
    by_cases hbad : BadLayer (a n).kind (a n).inputs (a n).outputs (a n).slope (a n).dropout
    · obtain ⟨e, he⟩ := newLayer_bad hbad w1
      refine wp_bind_ok he ?_
      dsimp only
      refine wp_pure.2 ⟨ha, ⟨(fun h => by cases h), fun h => ?_⟩, (fun h => by cases h)⟩
      exfalso
      have := h.1 n (by omega)
      unfold BadLayer at hbad
      rcases hbad with h | h | ⟨h, h'⟩ | ⟨h, h'⟩
      · omega
      · omega
      · have := this.2.2.1 h; simp_all
      · have := this.2.2.2 h; simp_all
    have hgood : 1 ≤ (a n).inputs ∧ 1 ≤ (a n).outputs ∧ ((a n).kind = .leaky → Flt.lt (a n).slope Flt.zero = false) ∧
        ((a n).kind = .dropout → Flt.lt Flt.one (a n).dropout = false ∧ Flt.lt (a n).dropout Flt.zero = false) := by
      unfold BadLayer at hbad
      refine ⟨by omega, by omega, fun h => ?_, fun h => ⟨?_, ?_⟩⟩
      · by_contra h'; exact hbad (.inr (.inr (.inl ⟨h, by simpa using h'⟩)))
      · by_contra h'; exact hbad (.inr (.inr (.inr ⟨h, .inl (by simpa using h')⟩)))
      · by_contra h'; exact hbad (.inr (.inr (.inr ⟨h, .inr (by simpa using h')⟩)))
    obtain ⟨ni, hni⟩ : ∃ k : Nat, (a n).inputs = k := ⟨(a n).inputs.toNat, by omega⟩
    obtain ⟨no, hno⟩ : ∃ k : Nat, (a n).outputs = k := ⟨(a n).outputs.toNat, by omega⟩
    have hspec : (a n).spec = newSpec (a n).kind ni no (a n).slope (a n).dropout := by
      unfold LayerArg.spec; rw [hni, hno]; rfl
    rw [hni, hno] at hbad ⊢
    refine wp_bind_mono (newLayer_spec hbad) ?_
    rintro ⟨l, e⟩ w2 ⟨he, ha2, wm, bm, hl⟩
    obtain rfl : e = none := he
    dsimp only at hl ⊢
    rw [← hspec] at hl
    obtain ⟨w3, e3, hnew, hnx⟩ := hl.put ha2
    refine wp_bind_ok e3 ?_
    have hsz3 : SizesOk (w3.lay w2.next) := by
      have := hs n
      unfold SizesOk
      rw [hnew.layer.ins, hnew.layer.outs]
      have e1 : (((a n).spec.n : Nat) : Int) = (a n).inputs := by rw [hspec, hni]; rfl
      have e2 : (((a n).spec.o : Nat) : Int) = (a n).outputs := by rw [hspec, hno]; rfl
      rw [e1, e2]
      omega
    have e1 : (((a n).spec.n : Nat) : Int) = (a n).inputs := by rw [hspec, hni]; rfl
    have e2 : (((a n).spec.o : Nat) : Int) = (a n).outputs := by rw [hspec, hno]; rfl
    have a3 : OnlyAllocs w1 w3 := hnew.allocs
    have hN := hB.isNet
    -- the old outputs
    have hout : 0 < n → m.outputSize = (a (n - 1)).outputs := by
      intro h0
      rw [hN.output (by omega), hsz, hB.dim, argDim, if_neg (by omega)]
      have := (hok.1 (n - 1) (by omega)).2.1
      omega
    have hms : m.modelSize = n := by rw [hN.size, hsz]
    by_cases hch : m.modelSize ≠ 0 ∧ m.outputSize ≠ (w3.lay w2.next).inputSize
    · refine wp_of_ok (addLayer_reject hsz3 hch) ⟨ha.trans a3, ⟨(fun h => by cases h), fun h => ?_⟩, (fun h => by cases h)⟩
      exfalso
      rw [hms, hnew.layer.ins, e1] at hch
      obtain ⟨k, rfl⟩ : ∃ k, n = k + 1 := ⟨n - 1, by omega⟩
      exact hch.2 (by rw [hout (by omega)]; exact h.2 k (by omega))
    · have hchain : 0 < n → (a (n - 1)).outputs = (a n).inputs := by
        intro h0
        by_contra hne
        refine hch ⟨by omega, ?_⟩
        rw [hnew.layer.ins, e1, hout h0]
        exact hne
      refine wp_of_ok (addLayer_accept hsz3 hch) ⟨ha.trans a3, ⟨fun _ => ⟨fun i hi => ?_, fun i hi => ?_⟩, fun _ => rfl⟩, fun _ => ?_⟩
      · by_cases h : i = n
        · rw [h]; exact hgood
        · exact hok.1 i (by omega)
      · by_cases h : i + 1 = n
        · have := hchain (by omega)
          rw [← h] at this
          exact this
        · exact hok.2 i (by omega)
      · have hlaid : Laid w1 n net.lp net.wm net.bm net.L := by
          rw [← hsz]; exact ⟨hN.lay, hB.own.own, hB.own.inj, hB.own.sep⟩
        have hL3 := hlaid.snoc hnew
        refine ⟨⟨n + 1, argDim a, upd net.lp n w2.next, upd net.wm n wm, upd net.bm n bm, upd net.L n (a n).spec⟩, rfl,
          ⟨?_, ?_, hL3.layer, ?_, ?_, ?_, ?_⟩, ⟨hL3.own, hL3.inj, hL3.sep⟩, ?_, rfl, ?_, ?_, fun h => absurd h (Nat.succ_ne_zero n)⟩
        · show m.modelSize + 1 = _
          rw [hms]; rfl
        · show m.layers ++ _ = _
          rw [hN.ptrs, hsz]
          dsimp only
          rw [List.range_succ, List.map_append, List.map_singleton, upd_same]
          congr 1
          apply List.map_congr_left
          intro i hi
          rw [upd_ne (by have := List.mem_range.1 hi; omega)]
        · intro i hi
          dsimp only at hi ⊢
          by_cases h : i = n
          · subst h
            rw [upd_same]
            unfold argDim
            split
            · rename_i h0; rw [h0] at e1 ⊢; omega
            · have := hchain (by omega); omega
          · rw [upd_ne h, hN.ins i (by omega), hB.dim]
        · intro i hi
          dsimp only at hi ⊢
          by_cases h : i = n
          · subst h
            rw [upd_same, argDim, if_neg (by omega), Nat.add_sub_cancel]
            omega
          · rw [upd_ne h, hN.outs i (by omega), hB.dim]
        · intro _
          show (if m.modelSize = 0 then (w3.lay w2.next).inputSize else m.inputSize) = _
          dsimp only
          by_cases h : n = 0
          · rw [if_pos (by omega), hnew.layer.ins, argDim, if_pos rfl]
            subst h
            omega
          · rw [if_neg (by omega), hN.input (by omega), hB.dim]
        · intro _
          show (w3.lay w2.next).outputSize = _
          dsimp only
          rw [hnew.layer.outs, argDim, if_neg (by omega), Nat.add_sub_cancel]
          omega
        · intro i hi
          dsimp only at hi ⊢
          by_cases h : i = n
          · rw [h, upd_same]
          · rw [upd_ne h, hB.layer i (by omega)]
        · intro i hi
          dsimp only at hi ⊢
          by_cases h : i = n
          · rw [h, upd_same]; exact ha.next_le.trans hnew.fresh
          · rw [upd_ne h]; exact hB.fresh i (by omega)
        · rintro x ⟨i, hi, hx⟩
          dsimp only at hi hx
          by_cases h : i = n
          · subst h
            rw [upd_same, upd_same, upd_same] at hx
            exact ha.next_le.trans (hnew.params x hx)
          · rw [upd_ne h, upd_ne h, upd_ne h] at hx
            exact hB.params x ⟨i, by omega, (IsParam_frame (hN.lay i (by omega)) a3 (fun _ h => h) x).1 hx⟩

/-- The optimizer objects made by Finalize start afresh. -/
theorem isOpt_optFrom {w : World α} {op : Nat} (rw cw rb cb : Nat) (o : Optim α) (hlt : op < w.next) (h : w.opt op = optFrom o) :
    IsOpt w op rw cw rb cb (OptSpec.fresh (optFrom o)) := by
  refine ⟨hlt, ?_, ?_, ?_⟩
  · rw [h]
    unfold optFrom
    cases o.kind
    · exact ⟨rfl, rfl, rfl, fun _ => rfl, rfl, rfl, rfl, rfl, rfl, fun _ => rfl, fun _ => rfl⟩
    · exact ⟨rfl, rfl, rfl, (fun h => by cases h), rfl, rfl, rfl, rfl, rfl, (fun h => by cases h), fun _ => rfl⟩
  · refine .unset ?_ (fun _ _ => rfl) (fun _ _ => rfl) (fun _ _ => rfl) (fun _ _ => rfl)
    rw [h]; unfold optFrom; cases o.kind <;> rfl
  · intro _; rw [h]; unfold optFrom; cases o.kind <;> rfl

theorem optFrom_rows (o : Optim α) : (optFrom o).weightMomentums.rows = 0 := by
  unfold optFrom; cases o.kind <;> rfl

/-- Finalize turns a model into a training task. -/
theorem isTask_finalized [FltInt α] {w : World α} {m : Model α} {net : Net α} (hN : IsNet w m net) (hO : OwnNet w net) (h0 : 0 < net.size)
    (loss : Loss) (o : Optim α) (accType : Int) (accPrec : α) :
    IsTask (withOpts w m.modelSize.toNat (optFrom o)) { finalized m w loss o accType with accPrec := accPrec } net (w.next + ·)
      (fun _ => OptSpec.fresh (optFrom o)) := by
  have hs : m.modelSize.toNat = net.size := by rw [hN.size]; rfl
  have hf := withOpts_allocs w m.modelSize.toNat (optFrom o)
  have hN' := hN.frame hf (Static.of_frame hf fun _ _ h => h) (fun _ h => h) (fun _ _ h => h)
  have hO' := hO.frame hN hf fun _ h => h
  rw [hs] at hf hN' hO' ⊢
  refine ⟨⟨hN'.size, hN'.ptrs, hN'.lay, hN'.ins, hN'.outs, hN'.input, hN'.output⟩, hO', h0, ?_, fun i hi => ?_,
    fun i j _ _ e => Nat.add_left_cancel e, fun i a hi h => ?_⟩
  · show (List.range m.modelSize.toNat).map _ = _
    rw [hs]
  · exact isOpt_optFrom _ _ _ _ o (Nat.add_lt_add_left hi _) (withOpts_new w _ _ hi)
  · exact absurd (by rw [withOpts_new w _ _ hi]; exact optFrom_rows o) h.1

end NN
