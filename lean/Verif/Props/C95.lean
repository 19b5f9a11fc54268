import Verif.Model.SetValues
import Verif.Props.C29_C30
import Verif.Props.C46_C50
/- Property C95: setValues undoes getValues. -/

set_option linter.unusedSectionVars false

namespace NN
variable {α : Type} [Flt α] [FltInt α]
open Go

/-- The slope in the values of a layer: absent (read as 0) unless it is a leaky layer. -/
def LayerSpec.savedSlope (L : LayerSpec α) : α := if L.kind = .leaky then L.slope else Flt.zero

/-- The dropout rate in the values of a layer: absent (read as 0) unless it is a dropout layer. -/
def LayerSpec.savedDropout (L : LayerSpec α) : α := if L.kind = .dropout then L.dropout else Flt.zero

/-- C95: giving the values of the layer at `src` to the layer object at `dst` makes `dst` a layer with the same sizes, the same weights
and biases (the same storage, not a copy) and, as far as its type has them, the same slope and dropout rate.  Its type stays: the entry
"type" of the map is ignored.  Nothing else changes. -/
theorem C95_layer (w : World α) (src dst : Nat) (wm bm : Mat) (L : LayerSpec α) (hL : IsLayer w src wm bm L) (hdst : dst < w.next)
    (hn : L.n ≤ 2 ^ 53) (ho : L.o ≤ 2 ^ 53) :
    ∃ vals w', layerGetValues src w = .ok ((some wm, some bm, vals), w) ∧ layerSetValues dst wm bm vals w = .ok ((), w') ∧
      IsLayer w' dst wm bm { L with
        kind := (w.lay dst).kind
        slope := if (w.lay dst).kind = .leaky then L.savedSlope else (w.lay dst).slope
        dropout := if (w.lay dst).kind = .dropout then L.savedDropout else (w.lay dst).dropout } ∧
      (∀ a, a ≠ dst → w'.lay a = w.lay a) ∧ w'.next = w.next ∧ w'.flt = w.flt ∧ w'.outs = w.outs ∧ w'.opt = w.opt ∧
      w'.norm = w.norm ∧ w'.normPos = w.normPos ∧ w'.unif = w.unif ∧ w'.unifPos = w.unifPos ∧ w'.log = w.log ∧ w'.logger = w.logger := by
  have hi : Flt.toInt ((w.lay src).values.get (str "inputs")) = (L.n : Int) := by
    rw [show (w.lay src).values.get (str "inputs") = Flt.ofInt (w.lay src).inputSize by
      unfold Layer.values; cases (w.lay src).kind <;> rfl, hL.ins, FltInt.toInt_ofInt _ (by omega) (by exact_mod_cast hn)]
  have hq : Flt.toInt ((w.lay src).values.get (str "outputs")) = (L.o : Int) := by
    rw [show (w.lay src).values.get (str "outputs") = Flt.ofInt (w.lay src).outputSize by
      unfold Layer.values; cases (w.lay src).kind <;> rfl, hL.outs, FltInt.toInt_ofInt _ (by omega) (by exact_mod_cast ho)]
  have hs : (w.lay src).values.get (str "slope") = L.savedSlope := by
    unfold LayerSpec.savedSlope Layer.values
    rw [← hL.kind, ← hL.slope]
    cases (w.lay src).kind <;> rfl
  have hd : (w.lay src).values.get (str "dropout") = L.savedDropout := by
    unfold LayerSpec.savedDropout Layer.values
    rw [← hL.kind, ← hL.dropout]
    cases (w.lay src).kind <;> rfl
  refine ⟨(w.lay src).values, _, ?_, rfl, ⟨hdst, ?_, ?_, ?_, ?_, ?_, ?_, ?_, ?_, ?_⟩, ?_, rfl, rfl, rfl, rfl, rfl, rfl, rfl, rfl, rfl, rfl⟩
  · show Except.ok (((w.lay src).weights, (w.lay src).biases, (w.lay src).values), w) = _
    rw [hL.weights, hL.biases]
  · show (upd w.lay dst _ dst).kind = _
    rw [upd_same]
    cases (w.lay dst).kind <;> simp
  · show (upd w.lay dst _ dst).inputSize = _
    rw [upd_same]
    cases (w.lay dst).kind <;> simp [hi]
  · show (upd w.lay dst _ dst).outputSize = _
    rw [upd_same]
    cases (w.lay dst).kind <;> simp [hq]
  · show (upd w.lay dst _ dst).weights = _
    rw [upd_same]
  · show (upd w.lay dst _ dst).biases = _
    rw [upd_same]
  · show (upd w.lay dst _ dst).slope = _
    rw [upd_same]
    cases (w.lay dst).kind <;> simp [hs]
  · show (upd w.lay dst _ dst).dropout = _
    rw [upd_same]
    cases (w.lay dst).kind <;> simp [hd]
  · exact ⟨hL.wmat.rows, hL.wmat.cols, hL.wmat.len, hL.wmat.rpos, hL.wmat.cpos, hL.wmat.addr_lt, hL.wmat.row⟩
  · exact ⟨hL.bmat.rows, hL.bmat.cols, hL.bmat.len, hL.bmat.rpos, hL.bmat.cpos, hL.bmat.addr_lt, hL.bmat.row⟩
  · intro a ha
    exact upd_ne ha

/-- C95: a layer of the same type with the values of a layer is that layer: Forward computes the same. -/
theorem C95_same (w : World α) (src dst : Nat) (wm bm : Mat) (L : LayerSpec α) (hL : IsLayer w src wm bm L) (hdst : dst < w.next)
    (hn : L.n ≤ 2 ^ 53) (ho : L.o ≤ 2 ^ 53) (hk : (w.lay dst).kind = L.kind) (hs : L.kind ≠ .leaky → (w.lay dst).slope = L.slope)
    (hd : L.kind ≠ .dropout → (w.lay dst).dropout = L.dropout) :
    ∃ vals w', layerGetValues src w = .ok ((some wm, some bm, vals), w) ∧ layerSetValues dst wm bm vals w = .ok ((), w') ∧
      IsLayer w' dst wm bm L := by
  obtain ⟨vals, w', h1, h2, h3, -⟩ := C95_layer w src dst wm bm L hL hdst hn ho
  refine ⟨vals, w', h1, h2, ?_⟩
  have e : ({ L with
        kind := (w.lay dst).kind
        slope := if (w.lay dst).kind = .leaky then L.savedSlope else (w.lay dst).slope
        dropout := if (w.lay dst).kind = .dropout then L.savedDropout else (w.lay dst).dropout } : LayerSpec α) = L := by
    unfold LayerSpec.savedSlope LayerSpec.savedDropout
    rw [hk]
    obtain ⟨k, n, o, W, b, s, p⟩ := L
    simp only [LayerSpec.mk.injEq, true_and]
    refine ⟨?_, ?_⟩
    · split
      · rfl
      · exact hs (by assumption)
    · split
      · rfl
      · exact hd (by assumption)
  rw [← e]
  exact h3

/-- C95: for a loss; the size survives the way through a float64. -/
theorem C95_loss (l l' : Loss) (hs : 0 ≤ l.size) (hs' : l.size ≤ 2 ^ 53) (hk : l'.kind = l.kind) :
    l'.setValues (Flt.toInt ((l.getValues : GoMap α).get (str "size"))) = l := by
  have : (l.getValues : GoMap α).get (str "size") = Flt.ofInt l.size := rfl
  rw [this, FltInt.toInt_ofInt _ (by omega) (by exact_mod_cast hs')]
  obtain ⟨k, s⟩ := l
  obtain ⟨k', s'⟩ := l'
  cases hk
  rfl

/-- C95: for an optimizer `setValues` copies the hyper-parameters but not what the constructor derives from them: on a zero object the
current learning rate stays 0 and decay and momentum stay off.  `NewOptimizerFromType` sets them. -/
theorem C95_optimizer (o : Optim α) (w : World α) :
    ((Optim.zero o.kind : Optim α).setValues o.getValues).getValues = o.getValues ∧
    ((Optim.zero o.kind : Optim α).setValues o.getValues).currentRate = Flt.zero ∧
    ((Optim.zero o.kind : Optim α).setValues o.getValues).useDecay = false ∧
    ((Optim.zero o.kind : Optim α).setValues o.getValues).useMomentum = false ∧
    ∃ p w', newOptimizerFromType o.kind.code o.getValues w = .ok ((some p, none), w') ∧ (w'.opt p).getValues = o.getValues ∧
      (w'.opt p).currentRate = o.learningRate ∧ (w'.opt p).useDecay = !Flt.eq o.decay Flt.zero ∧
      (o.kind = .sgd → (w'.opt p).useMomentum = !Flt.eq o.momentum Flt.zero) := by
  obtain ⟨k, lr, de, mo, ep, b1, b2, cr, it, m1, m2, m3, m4, ud, um⟩ := o
  cases k
  · refine ⟨rfl, rfl, rfl, rfl, _, _, rfl, ?_, ?_, ?_, fun _ => ?_⟩ <;> simp only [upd_same] <;> rfl
  · refine ⟨rfl, rfl, rfl, rfl, _, _, rfl, ?_, ?_, ?_, (fun h => by cases h)⟩ <;> simp only [upd_same] <;> rfl

/-- A leaky layer and another leaky layer object as `NewLeakyLayer` leaves them. -/
example (W X : Nat → Nat → α) (b : Nat → α) (s : α) : ∃ w : World α, ∃ src dst wm bm, ∃ L : LayerSpec α, L.kind = .leaky ∧ L.slope = s ∧
    IsLayer w src wm bm L ∧ dst < w.next ∧ dst ≠ src ∧ L.n ≤ 2 ^ 53 ∧ L.o ≤ 2 ^ 53 ∧ (w.lay dst).kind = L.kind ∧
    (w.lay dst).dropout = L.dropout := by
  obtain ⟨w, lp, wm, bm, x, h1, -⟩ := exists_layer (⟨.leaky, 3, 2, W, b, s, Flt.zero⟩ : LayerSpec α) (by simp) (by simp) (r := 4) (by decide) X
  refine ⟨{ w with next := w.next + 1, lay := upd w.lay w.next (Layer.zero .leaky) }, lp, w.next, wm, bm,
    ⟨.leaky, 3, 2, W, b, s, Flt.zero⟩, rfl, rfl, ⟨?_, ?_, ?_, ?_, ?_, ?_, ?_, ?_, ?_, ?_⟩,
    Nat.lt_succ_self _, (by have := h1.lt; omega), by norm_num, by norm_num, ?_, ?_⟩
  · have := h1.lt
    show lp < w.next + 1
    omega
  all_goals first
    | (show (upd w.lay w.next _ lp).kind = _; rw [upd_ne (by have := h1.lt; omega)]; exact h1.kind)
    | (show (upd w.lay w.next _ lp).inputSize = _; rw [upd_ne (by have := h1.lt; omega)]; exact h1.ins)
    | (show (upd w.lay w.next _ lp).outputSize = _; rw [upd_ne (by have := h1.lt; omega)]; exact h1.outs)
    | (show (upd w.lay w.next _ lp).weights = _; rw [upd_ne (by have := h1.lt; omega)]; exact h1.weights)
    | (show (upd w.lay w.next _ lp).biases = _; rw [upd_ne (by have := h1.lt; omega)]; exact h1.biases)
    | (show (upd w.lay w.next _ lp).slope = _; rw [upd_ne (by have := h1.lt; omega)]; exact h1.slope)
    | (show (upd w.lay w.next _ lp).dropout = _; rw [upd_ne (by have := h1.lt; omega)]; exact h1.dropout)
    | skip
  · exact ⟨h1.wmat.rows, h1.wmat.cols, h1.wmat.len, h1.wmat.rpos, h1.wmat.cpos, Nat.lt_succ_of_lt h1.wmat.addr_lt,
    fun i hi => (h1.wmat.row i hi).imp fun _ h => ⟨h.1, Nat.lt_succ_of_lt h.2.1, h.2.2⟩⟩
  · exact ⟨h1.bmat.rows, h1.bmat.cols, h1.bmat.len, h1.bmat.rpos, h1.bmat.cpos, Nat.lt_succ_of_lt h1.bmat.addr_lt,
    fun i hi => (h1.bmat.row i hi).imp fun _ h => ⟨h.1, Nat.lt_succ_of_lt h.2.1, h.2.2⟩⟩
  · show (upd w.lay w.next _ w.next).kind = _
    rw [upd_same]; rfl
  · show (upd w.lay w.next _ w.next).dropout = _
    rw [upd_same]; rfl

end NN
