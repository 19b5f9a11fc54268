import Verif.Lemmas.Build
import Verif.Props.C41_C45
import Verif.Spec.PlaceNet
import Verif.Real.Inst
/-
C46: building models; C47: Finalize; C48: Forward; C31: batch invariance; C49, C50: prediction.
-/

set_option linter.unusedSectionVars false

namespace NN
open Go

section Any
variable {α : Type} [Flt α]

/-! ### C46 -/

/-- Histories of AddLayer calls on a new model: in state `w` the model is `m` and `acc` are the layers accepted so far, in
order.  Between the calls anything may happen that does not change the sizes of existing layers. -/
inductive AddHistory : World α → Model α → List Nat → Prop
  | new (w : World α) : AddHistory w newModel []
  | other {w w' : World α} {m : Model α} {acc : List Nat} (h : AddHistory w m acc) (hle : w.next ≤ w'.next)
      (hs : ∀ a, a < w.next → (w'.lay a).inputSize = (w.lay a).inputSize ∧ (w'.lay a).outputSize = (w.lay a).outputSize) :
      AddHistory w' m acc
  | call {w w' : World α} {m m' : Model α} {acc : List Nat} {lp : Nat} {e : Option Err} (h : AddHistory w m acc)
      (hlp : lp < w.next) (hs : SizesOk (w.lay lp)) (hr : addLayer m lp w = .ok ((m', e), w')) :
      AddHistory w' m' (if e = none then acc ++ [lp] else acc)

/-- ModelSize, InputSize, OutputSize and the layer list are those of the accepted layers, which are chained. -/
structure Chained (w : World α) (m : Model α) (acc : List Nat) : Prop where
  size : m.modelSize = acc.length
  layers : m.layers = acc
  lt : ∀ lp ∈ acc, lp < w.next
  input : ∀ lp, acc.head? = some lp → m.inputSize = (w.lay lp).inputSize
  output : ∀ lp, acc.getLast? = some lp → m.outputSize = (w.lay lp).outputSize
  chain : ∀ (i : Nat) lp lp', acc[i]? = some lp → acc[i + 1]? = some lp' →
    (w.lay lp).outputSize = (w.lay lp').inputSize

/-- C46: the invariant of every history. -/
theorem C46_history [FltInt α] (w : World α) (m : Model α) (acc : List Nat) (h : AddHistory w m acc) :
    Chained w m acc := by
  induction h with
  | new w =>
    exact ⟨rfl, rfl, fun _ h => by simp at h, fun _ h => by simp at h, fun _ h => by simp at h,
      fun _ _ _ h => by simp at h⟩
  | other h hle hs ih =>
    refine ⟨ih.size, ih.layers, fun lp hl => (ih.lt lp hl).trans_le hle, ?_, ?_, ?_⟩
    · intro lp hl
      rw [(hs lp (ih.lt lp (List.mem_of_mem_head? hl))).1]; exact ih.input lp hl
    · intro lp hl
      rw [(hs lp (ih.lt lp (List.mem_of_getLast? hl))).2]; exact ih.output lp hl
    · intro i lp lp' hl hl'
      rw [(hs lp (ih.lt lp (List.mem_of_getElem? hl))).2, (hs lp' (ih.lt lp' (List.mem_of_getElem? hl'))).1]
      exact ih.chain i lp lp' hl hl'
  | @call w w' m m' acc lp e h hlp hs hr ih =>
    by_cases hc : m.modelSize ≠ 0 ∧ m.outputSize ≠ (w.lay lp).inputSize
    · rw [addLayer_reject hs hc] at hr
      cases hr
      rw [if_neg (by simp)]; exact ih
    · rw [addLayer_accept hs hc] at hr
      cases hr
      rw [if_pos rfl]
      refine ⟨?_, ?_, ?_, ?_, ?_, ?_⟩
      · simp [ih.size]
      · simp [ih.layers]
      · intro x hx
        rcases List.mem_append.1 hx with hx | hx
        · exact ih.lt x hx
        · rw [List.mem_singleton.1 hx]; exact hlp
      · intro x hx
        dsimp only
        rw [ih.size]
        rcases acc with _ | ⟨a, t⟩
        · simp at hx; simp [hx]
        · simp at hx
          rw [if_neg (by simp; omega), ← hx]
          exact ih.input a rfl
      · intro x hx
        simp at hx
        rw [hx]
      · intro i x y hx hy
        rcases Nat.lt_trichotomy (i + 1) acc.length with hi | hi | hi
        · rw [List.getElem?_append_left (by omega)] at hx hy
          exact ih.chain i x y hx hy
        · rw [List.getElem?_append_left (by omega)] at hx
          rw [List.getElem?_append_right (by omega)] at hy
          simp [hi] at hy
          subst hy
          have hl : acc.getLast? = some x := by
            rw [List.getLast?_eq_getElem?, show acc.length - 1 = i by omega]; exact hx
          rw [← ih.output x hl]
          by_contra hne
          exact hc ⟨by rw [ih.size]; omega, hne⟩
        · rw [List.getElem?_eq_none (by simp; omega)] at hy
          cases hy

/-- C46: a call errs exactly when there is a previous layer whose outputs differ from the new layer's inputs; then the
model is unchanged.  No call changes anything else. -/
theorem C46_call [FltInt α] (w : World α) (m : Model α) (acc : List Nat) (h : AddHistory w m acc) (lp : Nat)
    (hs : SizesOk (w.lay lp)) :
    ∃ m' e, addLayer m lp w = .ok ((m', e), w) ∧
      (e ≠ none ↔ ∃ last, acc.getLast? = some last ∧ (w.lay last).outputSize ≠ (w.lay lp).inputSize) ∧
      (e ≠ none → m' = m) ∧
      (e = none → m' = { m with
        modelSize := m.modelSize + 1, layers := m.layers ++ [lp], outputSize := (w.lay lp).outputSize
        inputSize := if acc = [] then (w.lay lp).inputSize else m.inputSize }) := by
  have ih := C46_history w m acc h
  by_cases hc : m.modelSize ≠ 0 ∧ m.outputSize ≠ (w.lay lp).inputSize
  · refine ⟨m, some .addLayer, addLayer_reject hs hc, ⟨fun _ => ?_, fun _ => by simp⟩, fun _ => rfl, fun h => by cases h⟩
    have hne : acc ≠ [] := by rintro rfl; exact hc.1 ih.size
    refine ⟨acc.getLast hne, List.getLast?_eq_some_getLast hne, ?_⟩
    rw [← ih.output _ (List.getLast?_eq_some_getLast hne)]
    exact hc.2
  · refine ⟨_, none, addLayer_accept hs hc, ⟨fun h => absurd rfl h, ?_⟩, fun h => absurd rfl h, fun _ => ?_⟩
    · rintro ⟨last, hl, hne⟩
      rw [← ih.output _ hl] at hne
      refine absurd ⟨?_, hne⟩ hc
      rw [ih.size]
      rintro h0
      have : acc = [] := by simpa using h0
      rw [this] at hl; cases hl
    · have : (m.modelSize = 0) ↔ acc = [] := by rw [ih.size]; simp
      by_cases ha : acc = []
      · rw [if_pos ha, if_pos (this.2 ha)]
      · rw [if_neg ha, if_neg (fun h => ha (this.1 h))]

/-- Chained layers can be added one after the other. -/
theorem history_of_layers [FltInt α] (w : World α) (lp : Nat → Nat) (L : Nat → LayerSpec α) (wm bm : Nat → Mat) (n : Nat)
    (hl : ∀ i, i < n → IsLayer w (lp i) (wm i) (bm i) (L i)) (hc : ∀ i, (L i).o = (L (i + 1)).n)
    (hs : ∀ i, i < n → (L i).n ≤ 2 ^ 53 ∧ (L i).o ≤ 2 ^ 53) :
    ∃ m : Model α, AddHistory w m ((List.range n).map lp) := by
  induction n with
  | zero => exact ⟨newModel, .new w⟩
  | succ n ih =>
    obtain ⟨m, hm⟩ := ih (fun i hi => hl i (by omega)) (fun i hi => hs i (by omega))
    have hln := hl n (by omega)
    have hok : SizesOk (w.lay (lp n)) := by
      have := hs n (by omega)
      unfold SizesOk
      rw [hln.ins, hln.outs]
      omega
    obtain ⟨m', e, hr, hiff, -, -⟩ := C46_call w m _ hm (lp n) hok
    have he : e = none := by
      by_contra he
      obtain ⟨last, h1, h2⟩ := hiff.1 he
      rcases n with _ | n
      · simp at h1
      · rw [List.range_succ, List.map_append, List.map_singleton, List.getLast?_concat] at h1
        cases h1
        rw [(hl n (by omega)).outs, hln.ins, hc n] at h2
        exact h2 rfl
    refine ⟨m', ?_⟩
    have := AddHistory.call hm hln.lt hok hr
    rw [if_pos he] at this
    rw [List.range_succ, List.map_append, List.map_singleton]
    exact this

/-- A history with six accepted layers of all types, and a rejected call (hypotheses of C46_history, C46_call). -/
example : ∃ (w : World ℝ) (m : Model ℝ) (acc : List Nat) (lp : Nat), AddHistory w m acc ∧ acc.length = 6 ∧
    lp < w.next ∧ SizesOk (w.lay lp) ∧ (∀ lp ∈ acc, ∃ wm bm L, IsLayer w lp wm bm L) ∧
    ∃ last, acc.getLast? = some last ∧ (w.lay last).outputSize ≠ (w.lay lp).inputSize := by
  obtain ⟨w, lp, wm, bm, -, h1, -⟩ := exists_layers (α := ℝ) emptyWorld demoL demoL_pos 6
  obtain ⟨m, hm⟩ := history_of_layers w lp demoL wm bm 6 h1 demoL_chain (by
    intro i hi
    simp only [demoL]
    omega)
  refine ⟨w, m, _, lp 0, hm, by simp, (h1 0 (by decide)).lt, ?_, ?_, lp 5, by simp [List.range_succ], ?_⟩
  · unfold SizesOk
    rw [(h1 0 (by decide)).ins, (h1 0 (by decide)).outs]
    simp [demoL]
  · intro l hl
    obtain ⟨i, hi, rfl⟩ := List.mem_map.1 hl
    exact ⟨_, _, _, h1 i (List.mem_range.1 hi)⟩
  · rw [(h1 5 (by decide)).outs, (h1 0 (by decide)).ins]
    simp [demoL]

/-- Models built from well-formed layers are networks. -/
theorem isNet_of_history [FltInt α] {w : World α} {m : Model α} {acc : List Nat} (h : AddHistory w m acc)
    (hl : ∀ lp ∈ acc, ∃ wm bm L, IsLayer w lp wm bm L) :
    ∃ net : Net α, IsNet w m net ∧ net.size = acc.length ∧ (∀ i, acc[i]? = if i < acc.length then some (net.lp i) else none) := by
  have ih := C46_history w m acc h
  have hl' : ∀ i, ∃ wm bm, ∃ L : LayerSpec α, i < acc.length → IsLayer w (acc.getD i 0) wm bm L := by
    intro i
    by_cases hi : i < acc.length
    · obtain ⟨wm, bm, L, hL⟩ := hl (acc.getD i 0) (by simp [hi])
      exact ⟨wm, bm, L, fun _ => hL⟩
    · exact ⟨Mat.zero, Mat.zero, ⟨.linear, 0, 0, fun _ _ => Flt.zero, fun _ => Flt.zero, Flt.zero, Flt.zero⟩,
        fun h => absurd h hi⟩
  choose wm bm L hL using hl'
  refine ⟨⟨acc.length, fun i => if i = 0 then (L 0).n else (L (i - 1)).o, fun i => acc.getD i 0, wm, bm, L⟩,
    ⟨ih.size, ?_, fun i hi => hL i hi, ?_, fun i hi => rfl, ?_, ?_⟩, rfl, ?_⟩
  · rw [ih.layers]
    apply List.ext_getElem
    · simp
    · intro i h1 h2
      simp [h1]
  · intro i hi
    rcases i with _ | i
    · rfl
    · dsimp only at hi ⊢
      rw [if_neg (by omega), Nat.add_sub_cancel]
      have := ih.chain i (acc.getD i 0) (acc.getD (i + 1) 0) (by simp [show i < acc.length by omega])
        (by simp [hi])
      rw [(hL i (by omega)).outs, (hL (i + 1) hi).ins] at this
      omega
  · intro h0
    rw [ih.input (acc.getD 0 0) (by
      rcases acc with _ | ⟨a, t⟩
      · simp at h0
      · rfl), (hL 0 h0).ins]
    rfl
  · intro h0
    dsimp only at h0 ⊢
    rw [ih.output (acc.getD (acc.length - 1) 0) (by
      rw [List.getLast?_eq_getElem?]; simp [show acc.length - 1 < acc.length by omega]), (hL _ (by omega)).outs,
      if_neg (by omega)]
  · intro i
    dsimp only
    by_cases hi : i < acc.length
    · rw [if_pos hi]; simp [hi]
    · rw [if_neg hi]; simp; omega

/-! ### C47 -/

/-- The full claim: a Finalize that returns an error leaves the model as it was. -/
def C47_claim (α : Type) [Flt α] : Prop :=
  ∀ (w w' : World α) (m m' : Model α) (loss : Loss) (o : Optim α) (accType : Int) (accPrec : α) (e : Err),
    finalize m loss o.getValues accType accPrec w = .ok ((m', some e), w') → m' = m

/-- C47, successful case: Finalize succeeds exactly if the loss has the size of the output and the accuracy precision does
not test as negative; then the model has the given loss, accuracy type, precision and optimizer values, one new optimizer
per layer with the given hyper-parameters, and everything else is unchanged. -/
theorem C47_success [FltInt α] (w : World α) (m : Model α) (loss : Loss) (o : Optim α) (accType : Int) (accPrec : α)
    (h1 : 0 ≤ loss.size) (h2 : loss.size ≤ 2 ^ 53) :
    ∃ m' e w', finalize m loss o.getValues accType accPrec w = .ok ((m', e), w') ∧ OnlyAllocs w w' ∧
      (e = none ↔ m.outputSize = loss.size ∧ Flt.lt accPrec Flt.zero = false) ∧
      (e = none →
        m'.modelSize = m.modelSize ∧ m'.inputSize = m.inputSize ∧ m'.outputSize = m.outputSize ∧
        m'.layers = m.layers ∧ m'.loss = some loss ∧ m'.lossType = loss.kind.code ∧ m'.accType = accType ∧
        m'.accPrec = accPrec ∧ m'.optType = o.kind.code ∧
        (∀ k, k ≠ str "type" → m'.optValues.get k = o.getValues.get k) ∧
        (m'.optims.length = m.modelSize.toNat) ∧ m'.optims.Nodup ∧
        ∀ p ∈ m'.optims, w.next ≤ p ∧ p < w'.next ∧
          (o.kind = .sgd → IsNew (w'.opt p) .sgd o.learningRate o.decay o.momentum Flt.zero Flt.zero Flt.zero) ∧
          (o.kind = .adam → IsNew (w'.opt p) .adam o.learningRate o.decay Flt.zero o.epsilon o.beta1 o.beta2)) := by
  by_cases hsz : m.outputSize = loss.size
  · have hrun := finalize_run (w := w) o accType accPrec (by omega) h2 hsz
    by_cases hp : Flt.lt accPrec Flt.zero = true
    · rw [if_pos hp] at hrun
      exact ⟨_, _, _, hrun, withOpts_allocs _ _ _, by simp [hp], fun h => by cases h⟩
    · rw [if_neg hp] at hrun
      refine ⟨_, _, _, hrun, withOpts_allocs _ _ _, by simp [hp, hsz], fun _ => ?_⟩
      refine ⟨rfl, rfl, rfl, rfl, rfl, rfl, rfl, rfl, rfl, ?_, ?_, ?_, ?_⟩
      · intro k hk
        show (o.getValues.del (str "type")).get k = _
        unfold GoMap.get GoMap.del
        rw [List.find?_filter]
        congr 2
        funext p
        by_cases hpk : p.1 = k
        · simp [hpk, hk]
        · simp [hpk]
      · simp [finalized]
      · show ((List.range m.modelSize.toNat).map (w.next + ·)).Nodup
        exact List.Nodup.map (fun a b h => by simpa using h) List.nodup_range
      · intro p hp
        obtain ⟨i, hi, rfl⟩ := List.mem_map.1 (show p ∈ (List.range m.modelSize.toNat).map (w.next + ·) from hp)
        have hi := List.mem_range.1 hi
        rw [withOpts_new w _ _ hi]
        refine ⟨Nat.le_add_right _ _, Nat.add_lt_add_left hi _, ?_, ?_⟩
        · intro hk
          unfold optFrom
          rw [hk]
          exact ⟨rfl, rfl, rfl, rfl, rfl, rfl, rfl, rfl, rfl, rfl, rfl, rfl, rfl, rfl, fun _ => rfl⟩
        · intro hk
          unfold optFrom
          rw [hk]
          exact ⟨rfl, rfl, rfl, rfl, rfl, rfl, rfl, rfl, rfl, rfl, rfl, rfl, rfl, rfl, (fun h => by cases h)⟩
  · refine ⟨_, _, _, finalize_size o accType accPrec (by omega) h2 hsz, OnlyAllocs.refl _, ?_, fun h => by cases h⟩
    simp [hsz]

/-- C47, failing case, what does hold: an error because of the loss size leaves the model unchanged; an error because of
the precision leaves sizes, layers and the old precision unchanged (but not loss, optimizers and accuracy type). -/
theorem C47_failure_partial [FltInt α] (w w' : World α) (m m' : Model α) (loss : Loss) (o : Optim α) (accType : Int)
    (accPrec : α) (e : Err) (h1 : 0 ≤ loss.size) (h2 : loss.size ≤ 2 ^ 53)
    (hr : finalize m loss o.getValues accType accPrec w = .ok ((m', some e), w')) :
    (m.outputSize ≠ loss.size → m' = m ∧ w' = w) ∧
    (m.outputSize = loss.size → m'.modelSize = m.modelSize ∧ m'.inputSize = m.inputSize ∧
      m'.outputSize = m.outputSize ∧ m'.layers = m.layers ∧ m'.accPrec = m.accPrec ∧ OnlyAllocs w w') := by
  constructor
  · intro hsz
    rw [finalize_size o accType accPrec (by omega) h2 hsz] at hr
    cases hr
    exact ⟨rfl, rfl⟩
  · intro hsz
    rw [finalize_run o accType accPrec (by omega) h2 hsz] at hr
    split at hr
    · cases hr
      exact ⟨rfl, rfl, rfl, rfl, rfl, withOpts_allocs _ _ _⟩
    · cases hr

/-- C47 is false of the code: a negative accuracy precision gives an error after loss, optimizers and accuracy type have
been set. -/
theorem C47_false : ¬ C47_claim ℝ := by
  intro hc
  let o : Optim ℝ := Optim.zero .sgd
  let m : Model ℝ := { newModel with modelSize := 1, inputSize := 2, outputSize := 3, layers := [5] }
  let loss : Loss := ⟨.mse, 3⟩
  have h := finalize_run (w := emptyWorld) (m := m) (loss := loss) o 1 (-1 : ℝ) (by decide) (by decide) rfl
  rw [if_pos (by simp)] at h
  have := congrArg Model.loss (hc _ _ _ _ _ _ _ _ _ h)
  cases this

/-- The hypotheses of C47_success are met by a finalizable model, and both error cases occur. -/
example : ∃ (_ : World ℝ) (m : Model ℝ) (loss loss' : Loss), 0 ≤ loss.size ∧ loss.size ≤ 2 ^ 53 ∧ 0 ≤ loss'.size ∧
    loss'.size ≤ 2 ^ 53 ∧ m.outputSize = loss.size ∧ m.outputSize ≠ loss'.size ∧ m.modelSize = 2 :=
  ⟨emptyWorld, { newModel with modelSize := 2, inputSize := 2, outputSize := 3, layers := [5, 6] }, ⟨.mse, 3⟩, ⟨.mae, 4⟩,
    by decide, by decide, by decide, by decide, rfl, by decide, rfl⟩

example : ∃ (w w' : World ℝ) (m m' : Model ℝ) (loss : Loss) (o : Optim ℝ) (accType : Int) (accPrec : ℝ) (e : Err),
    0 ≤ loss.size ∧ loss.size ≤ 2 ^ 53 ∧ finalize m loss o.getValues accType accPrec w = .ok ((m', some e), w') := by
  refine ⟨emptyWorld, _, { newModel with modelSize := 1, inputSize := 2, outputSize := 3, layers := [5] }, _, ⟨.mse, 4⟩,
    Optim.zero .sgd, 1, 1, _, by decide, by decide, finalize_size _ _ _ (by decide) (by decide) (by decide)⟩

/-! ### C48 -/

/-- C48: Forward on a built model with an input of the right width. -/
theorem C48_forward (w : World α) (m : Model α) (net : Net α) (hN : IsNet w m net) (x : Mat) (r : Nat)
    (X : Nat → Nat → α) (hX : IsMat w x r (net.dim 0) X) (training : Bool) :
    wp (modelForward m x training) w (fun p w' => p.2 = none ∧ (p.1.length : Int) = m.modelSize + 1 ∧
      p.1[0]? = some x ∧ IsMat w' x r (net.dim 0) X ∧ IsNet w' m net ∧
      ∀ k, k < net.size → ∃ o V, p.1[k + 1]? = some o ∧ Fresh w w' o r (net.dim (k + 1)) V) := by
  refine wp_mono (modelForward_spec hN hX training) ?_
  rintro p w' ⟨o, mask, V, M, h1, h2, h3, h4, h5⟩
  refine ⟨h2, by rw [h1, hN.size]; simp, by rw [h1]; simp [h3], hX.frame h5.frame (fun h => h) (fun _ _ h => h),
    hN.frame h5.frame h5.stat (fun _ h => h) (fun _ _ h => h), ?_⟩
  intro k hk
  exact ⟨o (k + 1), V (k + 1), by rw [h1]; simp [hk], h5.res k hk⟩

/-- C48, end to end: on every model obtained from NewModel by AddLayer calls of well-formed layers, with at least one
layer, Forward succeeds exactly for the inputs with InputSize columns. -/
theorem C48_built [FltInt α] (w : World α) (m : Model α) (acc : List Nat) (h : AddHistory w m acc) (hne : acc ≠ [])
    (hl : ∀ lp ∈ acc, ∃ wm bm L, IsLayer w lp wm bm L) (x : Mat) (r c : Nat) (X : Nat → Nat → α)
    (hX : IsMat w x r c X) (training : Bool) :
    (m.inputSize = c → wp (modelForward m x training) w (fun p w' => p.2 = none ∧ p.1.length = acc.length + 1 ∧
      p.1[0]? = some x ∧ ∀ k lp, acc[k]? = some lp → ∃ o o' V, p.1[k + 1]? = some o ∧ (w.lay lp).outputSize = (o' : Nat) ∧
        Fresh w w' o r o' V)) ∧
    (m.inputSize ≠ c → wp (modelForward m x training) w (fun p w' => p.2 ≠ none ∧ w' = w)) := by
  obtain ⟨net, hN, hsz, hacc⟩ := isNet_of_history h hl
  have h0 : 0 < net.size := by rw [hsz]; exact List.length_pos_iff.2 hne
  have hin := hN.input h0
  constructor
  · intro hc
    obtain rfl : c = net.dim 0 := by omega
    refine wp_mono (C48_forward w m net hN x r X hX training) ?_
    rintro p w' ⟨h1, h2, h3, -, -, h4⟩
    refine ⟨h1, ?_, h3, ?_⟩
    · rw [hN.size, hsz] at h2; omega
    · intro k lp hk
      have hk' : k < net.size := by
        rw [hsz]; exact (List.getElem?_eq_some_iff.1 hk).1
      obtain ⟨o, V, ho, hf⟩ := h4 k hk'
      rw [hacc k, if_pos (by omega)] at hk
      cases hk
      exact ⟨o, _, V, ho, by rw [(hN.lay k hk').outs, hN.outs k hk'], hf⟩
  · intro hc
    obtain ⟨e, he⟩ := modelForward_bad hN h0 (x := x) (by rw [hX.cols, ← hin]; exact fun h => hc h.symm) training
    exact wp_of_ok he ⟨by simp, rfl⟩

/-- C48: with the wrong width and at least one layer: an error, and nothing changes. -/
theorem C48_width (w : World α) (m : Model α) (net : Net α) (hN : IsNet w m net) (h0 : 0 < net.size) (x : Mat)
    (hx : x.cols ≠ m.inputSize) (training : Bool) :
    wp (modelForward m x training) w (fun p w' => p.2 ≠ none ∧ w' = w) := by
  obtain ⟨e, he⟩ := modelForward_bad hN h0 (x := x) (by rw [← hN.input h0]; exact hx) training
  exact wp_of_ok he ⟨by simp, rfl⟩

/-- A six-layer model with one layer of each type and an input with four rows meets the hypotheses of C48_forward,
C31, C49 and C50. -/
example : ∃ (w : World ℝ) (m : Model ℝ) (net : Net ℝ) (x : Mat), IsNet w m net ∧ net.size = 6 ∧ m.accType = 1 ∧
    IsMat w x 4 (net.dim 0) (fun i j => (i : ℝ) - j) := by
  obtain ⟨w, net, x, h1, -, -, h2, -, h3, -, -⟩ := exists_net (α := ℝ) 6 demoL demoL_pos demoL_chain
    { newModel with accType := 1 } (r := 4) (by decide) (fun i j => (i : ℝ) - j)
  exact ⟨w, _, net, x, h2, h1, rfl, h3⟩

/-- A built six-layer model with an input (hypotheses of C48_built, right width), and an input of the wrong width. -/
example : ∃ (w : World ℝ) (m : Model ℝ) (acc : List Nat) (x x' : Mat), AddHistory w m acc ∧ acc.length = 6 ∧
    (∀ lp ∈ acc, ∃ wm bm L, IsLayer w lp wm bm L) ∧ IsMat w x 4 2 (fun i j => (i : ℝ) - j) ∧ m.inputSize = 2 ∧
    IsMat w x' 4 3 (fun i j => (i : ℝ) - j) := by
  have a1 := place_spec (emptyWorld (α := ℝ)) (r := 4) (c := 2) (fun i j => (i : ℝ) - j) (by decide) (by decide)
  have a2 := place_spec (placeW (emptyWorld (α := ℝ)) 4 2 (fun i j => (i : ℝ) - j)) (r := 4) (c := 3)
    (fun i j => (i : ℝ) - j) (by decide) (by decide)
  obtain ⟨w, lp, wm, bm, ha, h1, -⟩ := exists_layers (α := ℝ) _ demoL demoL_pos 6
  obtain ⟨m, hm⟩ := history_of_layers w lp demoL wm bm 6 h1 demoL_chain (by
    intro i hi
    simp only [demoL]
    omega)
  refine ⟨w, m, _, _, _, hm, by simp, ?_, (a1.mat.allocs a2.frame).allocs ha, ?_, a2.mat.allocs ha⟩
  · intro l hl
    obtain ⟨i, hi, rfl⟩ := List.mem_map.1 hl
    exact ⟨_, _, _, h1 i (List.mem_range.1 hi)⟩
  · rw [(C46_history w m _ hm).input (lp 0) (by simp [List.range_succ]), (h1 0 (by decide)).ins]
    simp [demoL]

/-! ### C31 -/

theorem infer_row (L : LayerSpec α) {X X' : Nat → Nat → α} {i i' : Nat} (h : ∀ k, k < L.n → X i k = X' i' k) (j : Nat) :
    infer L X i j = infer L X' i' j := by
  have : preact L X i = preact L X' i' := by
    funext j
    unfold preact
    rw [fsum_congr fun k hk => by rw [h k hk]]
  unfold infer
  rw [this]

theorem netOut_row {w : World α} {m : Model α} {net : Net α} (hN : IsNet w m net) {X X' : Nat → Nat → α} {i i' : Nat}
    (h : ∀ k, k < net.dim 0 → X i k = X' i' k) (n : Nat) (hn : n ≤ net.size) :
    ∀ j, j < net.dim n → netOut net X n i j = netOut net X' n i' j := by
  induction n with
  | zero => exact h
  | succ n ih =>
    intro j _
    refine infer_row _ ?_ j
    rw [hN.ins n (by omega)]
    exact ih (by omega)

/-- C31: if row i of X and row i' of X' hold the same numbers, then row i of the inference output for X and row i' of the
inference output for X' hold the same numbers, whatever the other rows and the numbers of rows are; likewise for
Predict.  (The two runs may start in different states, as long as the model's parameters are the same.) -/
theorem C31_batch (w1 w2 : World α) (m : Model α) (net : Net α) (hN1 : IsNet w1 m net) (hN2 : IsNet w2 m net)
    (h0 : 0 < net.size) (x x' : Mat) (r r' : Nat) (X X' : Nat → Nat → α) (hX : IsMat w1 x r (net.dim 0) X)
    (hX' : IsMat w2 x' r' (net.dim 0) X') :
    ∃ V V' : Nat → Nat → α,
      wp (modelForward m x false) w1 (fun p w' => p.2 = none ∧ ∃ o, p.1.getLast? = some o ∧ IsMat w' o r (net.dim net.size) V) ∧
      wp (modelForward m x' false) w2 (fun p w' => p.2 = none ∧ ∃ o, p.1.getLast? = some o ∧ IsMat w' o r' (net.dim net.size) V') ∧
      ∀ i i', i < r → i' < r' → (∀ k, k < net.dim 0 → X i k = X' i' k) → ∀ j, j < net.dim net.size → V i j = V' i' j := by
  refine ⟨netOut net X net.size, netOut net X' net.size, ?_, ?_, ?_⟩
  · refine wp_mono (modelInfer_spec hN1 h0 hX) ?_
    rintro p w' ⟨h1, hlen, o, h2, h3⟩
    refine ⟨h1, o, ?_, h3.res.mat⟩
    rw [List.getLast?_eq_getElem?, hlen]
    exact h2
  · refine wp_mono (modelInfer_spec hN2 h0 hX') ?_
    rintro p w' ⟨h1, hlen, o, h2, h3⟩
    refine ⟨h1, o, ?_, h3.res.mat⟩
    rw [List.getLast?_eq_getElem?, hlen]
    exact h2
  · intro i i' _ _ h
    exact netOut_row hN1 h net.size (Nat.le_refl _)

theorem scanMax_congr {c : Nat} {f g : Nat → α} (h : ∀ j, j < c → f j = g j) : scanMax c f = scanMax c g := by
  unfold scanMax
  refine accN_congr fun k hk p => ?_
  rw [h k hk]

theorem C31_predict (w1 w2 : World α) (m : Model α) (net : Net α) (hN1 : IsNet w1 m net) (hN2 : IsNet w2 m net)
    (h0 : 0 < net.size) (hacc : m.accType = 0 ∨ m.accType = 1 ∨ m.accType = 2) (x x' : Mat) (r r' : Nat)
    (X X' : Nat → Nat → α) (hX : IsMat w1 x r (net.dim 0) X) (hX' : IsMat w2 x' r' (net.dim 0) X') :
    ∃ c, ∃ V V' : Nat → Nat → α,
      wp (predict m x) w1 (fun p w' => p.2 = none ∧ IsMat w' p.1 r c V) ∧
      wp (predict m x') w2 (fun p w' => p.2 = none ∧ IsMat w' p.1 r' c V') ∧
      ∀ i i', i < r → i' < r' → (∀ k, k < net.dim 0 → X i k = X' i' k) → ∀ j, j < c → V i j = V' i' j := by
  refine ⟨_, _, _, wp_mono (predict_spec hN1 h0 hX) fun p w' h => ⟨(h.2.2.1 hacc).1, (h.2.2.1 hacc).2.mat⟩,
    wp_mono (predict_spec hN2 h0 hX') fun p w' h => ⟨(h.2.2.1 hacc).1, (h.2.2.1 hacc).2.mat⟩, ?_⟩
  intro i i' _ _ h j hj
  have e := netOut_row hN1 h net.size (Nat.le_refl _)
  unfold decoded
  split
  · rename_i t0
    rw [if_neg (by omega)] at hj
    exact e j hj
  split
  · rw [scanMax_congr e]
  · rename_i t1
    rw [if_neg t1] at hj
    rw [e j hj]

/-! ### C49 -/

/-- The read-only calls. -/
inductive ReadCall
  | predict (x : Mat)
  | loss (x y : Mat)
  | accuracy (x y : Mat)

def ReadCall.input : ReadCall → Mat
  | .predict x | .loss x _ | .accuracy x _ => x

/-- Perform a read-only call (the result is dropped). -/
def ReadCall.run (m : Model α) : ReadCall → Go α Unit
  | .predict x => do let _ ← NN.predict m x
  | .loss x y => do let _ ← calculateLoss m x y
  | .accuracy x y => do let _ ← calculateAccuracy m x y

/-- The input of the call is a well-formed matrix or has the wrong width; the targets may be anything. -/
def ReadCall.Ok (w : World α) (net : Net α) (c : ReadCall) : Prop :=
  (∃ r X, IsMat w c.input r (net.dim 0) X) ∨ c.input.cols ≠ net.dim 0

/-- C49: a read-only call that returns has changed nothing that existed before, except what the layer objects remember of
the last forward pass; the model's parameters are the same. -/
theorem C49_readonly (w : World α) (m : Model α) (net : Net α) (hN : IsNet w m net) (h0 : 0 < net.size) (c : ReadCall)
    (hc : c.Ok w net) :
    wlp (c.run m) w (fun _ w' => Frame net.foot w w' ∧ Static w w' ∧ IsNet w' m net) := by
  suffices h : wlp (c.run m) w (fun _ w' => Frame net.foot w w' ∧ Static w w') from
    wlp_mono h fun _ w' h => ⟨h.1, h.2, hN.frame h.1 h.2 (fun _ h => h) (fun _ _ h => h)⟩
  unfold ReadCall.Ok at hc
  rcases hc with ⟨r, X, hX⟩ | hx
  · cases c with
    | predict x => exact wlp_bind (predict_spec hN h0 hX).wlp fun _ w' h => wlp_pure ⟨h.1, h.2.1⟩
    | loss x y => exact wlp_bind (calculateLoss_frame hN h0 hX y) fun _ w' h => wlp_pure h
    | accuracy x y => exact wlp_bind (calculateAccuracy_frame hN h0 hX y) fun _ w' h => wlp_pure h
  · have fr : Frame net.foot w w ∧ Static w w := ⟨(Frame.refl {} w).weaken (fun _ _ h => h) (fun _ _ h => h)
      (fun _ _ h => h.elim) (fun _ _ h => h) id id id, Static.refl w⟩
    cases c with
    | predict x =>
      obtain ⟨e, he⟩ := predict_bad hN h0 hx
      exact wlp_bind (wp_of_ok (Q := fun _ w' => Frame net.foot w w' ∧ Static w w') he fr).wlp
        fun _ w' h => wlp_pure h
    | loss x y =>
      obtain ⟨e, he⟩ := (calculate_bad hN h0 hx y).1
      exact wlp_bind (wp_of_ok (Q := fun _ w' => Frame net.foot w w' ∧ Static w w') he fr).wlp
        fun _ w' h => wlp_pure h
    | accuracy x y =>
      obtain ⟨e, he⟩ := (calculate_bad hN h0 hx y).2
      exact wlp_bind (wp_of_ok (Q := fun _ w' => Frame net.foot w w' ∧ Static w w') he fr).wlp
        fun _ w' h => wlp_pure h

/-- `w'` is reached from `w` by read-only calls on `m`, between which new objects may be made. -/
inductive ReadHistory (m : Model α) (net : Net α) (w : World α) : World α → Prop
  | refl : ReadHistory m net w w
  | alloc {w1 w2 : World α} (h : ReadHistory m net w w1) (ha : OnlyAllocs w1 w2) : ReadHistory m net w w2
  | call {w1 w2 : World α} (h : ReadHistory m net w w1) (c : ReadCall) (hc : c.Ok w1 net) (hr : c.run m w1 = .ok ((), w2)) :
      ReadHistory m net w w2

/-- C49: no history of read-only calls changes any parameter, input, target or other storage. -/
theorem C49_history (w w' : World α) (m : Model α) (net : Net α) (hN : IsNet w m net) (h0 : 0 < net.size)
    (h : ReadHistory m net w w') : Frame net.foot w w' ∧ IsNet w' m net := by
  suffices hs : Frame net.foot w w' ∧ Static w w' from
    ⟨hs.1, hN.frame hs.1 hs.2 (fun _ h => h) (fun _ _ h => h)⟩
  induction h with
  | refl => exact ⟨(Frame.refl {} w).weaken (fun _ _ h => h) (fun _ _ h => h)
      (fun _ _ h => h.elim) (fun _ _ h => h) id id id, Static.refl w⟩
  | alloc h ha ih =>
    obtain ⟨ih, ihs⟩ := ih
    exact ⟨by frames ih ha, ihs.trans ih.next_le (Static.of_frame ha fun _ _ h => h)⟩
  | @call w1 w2 h c hc hr ih =>
    obtain ⟨ih, ihs⟩ := ih
    have hN1 := hN.frame ih ihs (fun _ h => h) (fun _ _ h => h)
    obtain ⟨h1, h2, -⟩ := C49_readonly w1 m net hN1 h0 c hc _ _ hr
    exact ⟨by frames ih h1, ihs.trans ih.next_le h2⟩

/-- C49: Predict returns the same numbers for the same input before and after any history of read-only calls. -/
theorem C49_repeatable (w w' : World α) (m : Model α) (net : Net α) (hN : IsNet w m net) (h0 : 0 < net.size)
    (h : ReadHistory m net w w') (x : Mat) (r : Nat) (X : Nat → Nat → α) (hX : IsMat w x r (net.dim 0) X) :
    ∃ c e V,
      wp (predict m x) w (fun p w1 => p.2 = e ∧ (e = none → IsMat w1 p.1 r c V)) ∧
      wp (predict m x) w' (fun p w1 => p.2 = e ∧ (e = none → IsMat w1 p.1 r c V)) := by
  obtain ⟨hf, hN'⟩ := C49_history w w' m net hN h0 h
  have hX' : IsMat w' x r (net.dim 0) X := hX.frame hf (fun h => h) (fun _ _ h => h)
  have key : ∀ w1, IsNet w1 m net → IsMat w1 x r (net.dim 0) X → wp (predict m x) w1 (fun p w2 =>
      p.2 = (if m.accType = 0 ∨ m.accType = 1 ∨ m.accType = 2 then none else some .accType) ∧
      ((if m.accType = 0 ∨ m.accType = 1 ∨ m.accType = 2 then none else some Err.accType) = none → IsMat w2 p.1 r
        (if m.accType = 1 then 1 else net.dim net.size) (decoded m.accType (net.dim net.size) (netOut net X net.size)))) := by
    intro w1 h1 h2
    refine wp_mono (predict_spec h1 h0 h2) ?_
    rintro p w2 ⟨-, -, h3, h4⟩
    by_cases ha : m.accType = 0 ∨ m.accType = 1 ∨ m.accType = 2
    · rw [if_pos ha]
      exact ⟨(h3 ha).1, fun _ => (h3 ha).2.mat⟩
    · rw [if_neg ha, h4 ha]
      exact ⟨rfl, fun h => by cases h⟩
  exact ⟨_, _, _, key w hN hX, key w' hN' hX'⟩

/-- A history with two Predict calls that returns to a different state (hypotheses of C49_history). -/
example : ∃ (w w' : World ℝ) (m : Model ℝ) (net : Net ℝ) (x : Mat), IsNet w m net ∧ net.size = 6 ∧
    IsMat w x 4 (net.dim 0) (fun i j => (i : ℝ) - j) ∧ ReadHistory m net w w' ∧ w' ≠ w := by
  obtain ⟨w, net, x, h1, -, -, h2, -, h3, -, -⟩ := exists_net (α := ℝ) 6 demoL demoL_pos demoL_chain
    { newModel with accType := 1 } (r := 4) (by decide) (fun i j => (i : ℝ) - j)
  have step : ∀ w1, IsNet w1 (net.model { newModel with accType := 1 }) net → IsMat w1 x 4 (net.dim 0) (fun i j => (i : ℝ) - j) →
      ∃ w2, (ReadCall.predict x).run (net.model { newModel with accType := 1 }) w1 = .ok ((), w2) ∧
        Frame net.foot w1 w2 ∧ Static w1 w2 ∧ w1.next < w2.next := by
    intro w1 hn hx
    obtain ⟨p, w2, e, hf, hs, hp, -⟩ := wp_iff.1 (predict_spec hn (by omega) hx)
    refine ⟨w2, (bind_ok e).trans rfl, hf, hs, ?_⟩
    have hp := (hp (.inr (.inl rfl))).2
    exact hp.fresh_outer.trans_lt hp.mat.addr_lt
  obtain ⟨w1, r1, f1, s1, n1⟩ := step w h2 h3
  have h2' := h2.frame f1 s1 (fun _ h => h) (fun _ _ h => h)
  have h3' : IsMat w1 x 4 (net.dim 0) (fun i j => (i : ℝ) - j) := h3.frame f1 (fun h => h) (fun _ _ h => h)
  obtain ⟨w2, r2, f2, s2, n2⟩ := step w1 h2' h3'
  refine ⟨w, w2, _, net, x, h2, h1, h3, .call (.call .refl (.predict x) (.inl ⟨_, _, h3⟩) r1) (.predict x)
    (.inl ⟨_, _, h3'⟩) r2, ?_⟩
  rintro rfl
  omega

/-! ### C50 -/

/-- C50: if the last output of Forward has the numbers V, then Predict returns V itself for regression, the index found
by scanning each row for its maximum (RowMax) for categorical, and 0/1 by comparing with 1/2 for binary accuracy. -/
theorem C50_decode (w : World α) (m : Model α) (net : Net α) (hN : IsNet w m net) (h0 : 0 < net.size) (x : Mat) (r : Nat)
    (X : Nat → Nat → α) (hX : IsMat w x r (net.dim 0) X) :
    ∃ V, wp (modelForward m x false) w (fun p w' => p.2 = none ∧ ∃ o, p.1.getLast? = some o ∧
        IsMat w' o r (net.dim net.size) V) ∧
      (m.accType = 0 → wp (predict m x) w (fun p w' => p.2 = none ∧ IsMat w' p.1 r (net.dim net.size) V)) ∧
      (m.accType = 1 → wp (predict m x) w (fun p w' => p.2 = none ∧
        IsMat w' p.1 r 1 (fun i _ => Flt.ofInt (scanMax (net.dim net.size) (V i)).1))) ∧
      (m.accType = 2 → wp (predict m x) w (fun p w' => p.2 = none ∧ IsMat w' p.1 r (net.dim net.size)
        (fun i j => if Flt.lt (V i j) Flt.half then Flt.zero else Flt.one))) ∧
      (m.accType ≠ 0 → m.accType ≠ 1 → m.accType ≠ 2 → wp (predict m x) w (fun p _ => p.2 ≠ none)) := by
  refine ⟨netOut net X net.size, ?_, ?_, ?_, ?_, ?_⟩
  · refine wp_mono (modelInfer_spec hN h0 hX) ?_
    rintro p w' ⟨h1, hlen, o, h2, h3⟩
    refine ⟨h1, o, ?_, h3.res.mat⟩
    rw [List.getLast?_eq_getElem?, hlen]
    exact h2
  · intro ha
    refine wp_mono (predict_spec hN h0 hX) fun p w' h => ⟨(h.2.2.1 (.inl ha)).1, ?_⟩
    have := (h.2.2.1 (.inl ha)).2.mat
    rw [if_neg (by omega)] at this
    exact this.congr fun i j _ _ => by simp [decoded, ha]
  · intro ha
    refine wp_mono (predict_spec hN h0 hX) fun p w' h => ⟨(h.2.2.1 (.inr (.inl ha))).1, ?_⟩
    have := (h.2.2.1 (.inr (.inl ha))).2.mat
    rw [if_pos ha] at this
    exact this.congr fun i j _ _ => by simp [decoded, ha]
  · intro ha
    refine wp_mono (predict_spec hN h0 hX) fun p w' h => ⟨(h.2.2.1 (.inr (.inr ha))).1, ?_⟩
    have := (h.2.2.1 (.inr (.inr ha))).2.mat
    rw [if_neg (by omega)] at this
    exact this.congr fun i j _ _ => by simp [decoded, ha]
  · intro ha hb hc
    refine wp_mono (predict_spec hN h0 hX) fun p w' h => ?_
    rw [h.2.2.2 (by omega)]
    simp

/-- C50, RowMax: the categorical answer is what `RowMax` (accuracy.go) returns on the raw output. -/
theorem C50_rowMax (w : World α) (o : Mat) (r c : Nat) (V : Nat → Nat → α) (ho : IsMat w o r c V) :
    wp (rowMax o) w (fun p w' => IsMat w' p r 1 (fun i _ => Flt.ofInt (scanMax c (V i)).1)) :=
  wp_mono (rowMax_spec ho) fun _ _ h => h.mat

/-- C50: with an input of the wrong width Predict returns an error. -/
theorem C50_width (w : World α) (m : Model α) (net : Net α) (hN : IsNet w m net) (h0 : 0 < net.size) (x : Mat)
    (hx : x.cols ≠ m.inputSize) : wp (predict m x) w (fun p w' => p.2 ≠ none ∧ w' = w) := by
  obtain ⟨e, he⟩ := predict_bad hN h0 (x := x) (by rw [← hN.input h0]; exact hx)
  exact wp_of_ok he ⟨by simp, rfl⟩

end Any

end NN
