import Verif.Lemmas.Back
import Verif.Lemmas.ModelGo
import Verif.Spec.Fit
import Verif.Lemmas.FitSafe
/- Execution of InitLayers. -/

set_option linter.unusedSectionVars false

namespace NN
variable {α : Type} [Flt α]
open Go

/-- The number of weights of the first k layers. -/
def initDraws (net : Net α) : Nat → Nat
  | 0 => 0
  | k + 1 => initDraws net k + (net.L k).n * (net.L k).o

/-- The weights of layer q after InitLayers with the normal draws `d`. -/
def drawnW (net : Net α) (d : Nat → α) (q i j : Nat) : α :=
  d (initDraws net q + i * (net.L q).o + j) *. Flt.sqrt (Flt.ofInt 2 /. Flt.ofInt (net.L q).n)

/-- The model after the first k layers have been initialised with the normal draws `d`. -/
def initNet (net : Net α) (d : Nat → α) (k : Nat) : Net α :=
  { net with L := fun q => if q < k then { net.L q with W := drawnW net d q } else net.L q }

theorem initNet_same (net : Net α) (d : Nat → α) (k : Nat) : SameShape net (initNet net d k) := by
  refine ⟨rfl, rfl, rfl, rfl, rfl, fun i => ?_⟩
  unfold initNet
  dsimp only
  split
  · exact ⟨_, _, rfl⟩
  · exact ⟨_, _, rfl⟩

theorem initNet_n (net : Net α) (d : Nat → α) (k i : Nat) : ((initNet net d k).L i).n = (net.L i).n := by
  unfold initNet; dsimp only; split <;> rfl

theorem initNet_o (net : Net α) (d : Nat → α) (k i : Nat) : ((initNet net d k).L i).o = (net.L i).o := by
  unfold initNet; dsimp only; split <;> rfl

theorem initNet_isParam (w : World α) (net : Net α) (d : Nat → α) (k a : Nat) :
    w.IsNetParam (initNet net d k) a ↔ w.IsNetParam net a := by
  unfold World.IsNetParam
  simp only [initNet_n]
  rfl

theorem initDraws_initNet (net : Net α) (d : Nat → α) (k q : Nat) : initDraws (initNet net d k) q = initDraws net q := by
  induction q with
  | zero => rfl
  | succ q ih => unfold initDraws; rw [ih, initNet_n, initNet_o]

/-- What InitLayers has done after k layers. -/
structure InitRun (w w' : World α) (m : Model α) (net : Net α) (k : Nat) : Prop where
  isNet : IsNet w' m (initNet net (fun q => w.norm (w.normPos + q)) k)
  own : OwnNet w' (initNet net (fun q => w.norm (w.normPos + q)) k)
  frame : Frame { flt := fun a => ∃ q, q < net.size ∧ w.IsRow (net.wm q) (net.L q).n a, norm := True } w w'
  pos : w'.normPos = w.normPos + initDraws net k
  next : w'.next = w.next

theorem initLayers_spec {w : World α} {m : Model α} {net : Net α} (hN : IsNet w m net) (hO : OwnNet w net) :
    wp (initLayers m) w (fun _ w' => InitRun w w' m net net.size) := by
  unfold initLayers
  rw [hN.size, Int.toNat_natCast]
  refine wp_mono (wp_forN (fun k w' => InitRun w w' m net k) ?_ ?_) (fun _ _ h => h)
  · have : initNet net (fun q => w.norm (w.normPos + q)) 0 = net := by
      unfold initNet; simp
    exact ⟨this ▸ hN, this ▸ hO, Frame.refl _ _, rfl, rfl⟩
  · intro k w1 hk h
    have hl : listGet m.layers k w1 = .ok (net.lp k, w1) := by
      unfold listGet
      rw [hN.ptrs]
      simp [hk]; rfl
    refine wp_bind_ok hl ?_
    set d : Nat → α := fun q => w.norm (w.normPos + q) with hd
    have eL : (initNet net d k).L k = net.L k := by unfold initNet; simp
    have hlay := h.isNet.lay k hk
    have hown := h.own.own k hk
    rw [eL] at hlay hown
    refine wp_mono (layerInit_spec hlay hown) ?_
    rintro - w2 ⟨l1, l2, l3, l4, l5⟩
    have eW : initW w1 (net.L k).n (net.L k).o = drawnW net d k := by
      funext i j
      unfold initW drawnW
      rw [h.frame.norm, h.pos, hd]
      simp only [Nat.add_assoc]
    have eN : initNet net d (k + 1) = { initNet net d k with L := upd (initNet net d k).L k { net.L k with W := drawnW net d k } } := by
      unfold initNet
      congr 1
      funext q
      by_cases hq : q = k
      · subst hq; simp
      · rw [upd_ne hq]
        dsimp only
        by_cases h2 : q < k
        · rw [if_pos h2, if_pos (by omega)]
        · rw [if_neg h2, if_neg (by omega)]
    have hf : Frame { flt := fun a => ∃ q, q < net.size ∧ w.IsRow (net.wm q) (net.L q).n a, norm := True } w w2 := by
      refine h.frame.trans l2 (fun _ _ h => h) (fun a ha hr => ?_) (fun _ _ h => h) (fun _ _ h => h) (fun _ _ h => h)
        (fun _ _ h => h) (fun _ _ h => h) (fun _ _ h => h) id id id id id id
      exact ⟨k, hk, ((hN.lay k hk).wmat.isRow_frame h.frame (fun h => h) a).1 hr⟩
    refine ⟨?_, (initNet_same net d _).own (hO.frame hN hf fun _ h => h), hf, ?_, l3.trans h.next⟩
    · rw [eN]
      refine ⟨h.isNet.size, h.isNet.ptrs, fun i hi => ?_, fun i hi => ?_, fun i hi => ?_, h.isNet.input, h.isNet.output⟩
      · dsimp only
        by_cases hik : i = k
        · subst hik
          rw [upd_same, ← eW]
          exact l1
        · rw [upd_ne hik]
          refine (h.isNet.lay i hi).frame l2 (fun h => h) (fun h => h) (fun h => h) fun a ha hb => hik ?_
          refine h.own.sep i k a hi hk ha ?_
          rw [eL]
          exact .inl hb
      · dsimp only
        by_cases hik : i = k
        · subst hik
          rw [upd_same, ← h.isNet.ins i hi, eL]
        · rw [upd_ne hik]; exact h.isNet.ins i hi
      · dsimp only
        by_cases hik : i = k
        · subst hik
          rw [upd_same]
          have := h.isNet.outs i hi
          rw [eL] at this
          exact this
        · rw [upd_ne hik]; exact h.isNet.outs i hi
    · rw [l5, h.pos, Nat.add_assoc]; rfl

end NN
