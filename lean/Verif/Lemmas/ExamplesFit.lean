import Verif.Props.C104_C105
import Verif.Props.C81_C82
import Verif.Model.ExamplesFit
/- Execution of the programs of Model/ExamplesFit.lean. -/

set_option linter.unusedSectionVars false

namespace NN
variable {α : Type} [Flt α]
open Go

attribute [local irreducible] wp

/-- The layers of a program before they are initialised. -/
def plainL (kind : Nat → LayerKind) (dim : Nat → Nat) (i : Nat) : LayerSpec α := newSpec (kind i) (dim i) (dim (i + 1)) Flt.zero Flt.zero

theorem makeLayers_spec {kind : Nat → LayerKind} {dim : Nat → Nat} {n : Nat} (hk : ∀ i, i < n → kind i ≠ .leaky ∧ kind i ≠ .dropout)
    (hd : ∀ i, i ≤ n → 0 < dim i) (w : World α) :
    wp (makeLayers kind dim n) w (fun l w' => w'.normPos = w.normPos ∧ ∃ wm bm, Setup w w' n l wm bm (plainL kind dim)) := by
  induction n with
  | zero =>
    unfold makeLayers
    exact wp_pure.2 ⟨rfl, _, _, Setup.nil w _⟩
  | succ n ih =>
    unfold makeLayers
    refine wp_bind_mono (ih (fun i hi => hk i (by omega)) fun i hi => hd i (by omega)) ?_
    rintro l w1 ⟨p1, wm, bm, s1⟩
    refine wp_bind_mono (s1.layer (good_layer (hk n (by omega)).1 (hk n (by omega)).2 (hd n (by omega)) (hd (n + 1) (by omega)))) ?_
    rintro p w2 ⟨p2, wm', bm', s2⟩
    refine wp_pure.2 ⟨p2.trans p1, _, _, s2.congr (fun _ _ => rfl) (fun _ _ => rfl) (fun _ _ => rfl) fun i hi => ?_⟩
    by_cases e : i = n
    · subst e; rw [upd_same]; rfl
    · rw [upd_ne e]

variable {kind : Nat → LayerKind} {dim : Nat → Nat} {n : Nat} {w0 w : World α} {lp : Nat → Nat} {wm bm : Nat → Mat}

/-- The network before it is initialised. -/
def plainNet (kind : Nat → LayerKind) (dim : Nat → Nat) (lp : Nat → Nat) (wm bm : Nat → Mat) (n : Nat) : Net α :=
  ⟨n, dim, lp, wm, bm, plainL kind dim⟩

theorem addVars_run [FltInt α] (hd : ∀ i, i ≤ n → 0 < dim i ∧ dim i ≤ 2 ^ 53) (hs : Setup w0 w n lp wm bm (plainL kind dim)) (k : Nat) (hk : k ≤ n) :
    ∃ m, addVars lp k w = .ok (m, w) ∧ IsNet w m (plainNet kind dim lp wm bm k) ∧ (k = 0 → m = newModel) := by
  induction k with
  | zero =>
    refine ⟨newModel, rfl, ⟨rfl, rfl, ?_, ?_, ?_, ?_, ?_⟩, fun _ => rfl⟩
    all_goals simp [plainNet]
  | succ k ih =>
    obtain ⟨m, e, hN, h0⟩ := ih (by omega)
    have hL := hs.laid.layer k (by omega)
    have e1 : (w.lay (lp k)).inputSize = (dim k : Int) := hL.ins
    have e2 : (w.lay (lp k)).outputSize = (dim (k + 1) : Int) := hL.outs
    have hsz : SizesOk (w.lay (lp k)) := by
      have := hd k (by omega)
      have := hd (k + 1) (by omega)
      unfold SizesOk
      rw [e1, e2]
      omega
    have hms : m.modelSize = k := hN.size
    have hch : ¬ (m.modelSize ≠ 0 ∧ m.outputSize ≠ (w.lay (lp k)).inputSize) := by
      rintro ⟨h1, h2⟩
      have : 0 < (plainNet kind dim lp wm bm k : Net α).size := by show 0 < k; omega
      rw [hN.output this, e1] at h2
      exact h2 rfl
    refine ⟨{ m with
        inputSize := if m.modelSize = 0 then (w.lay (lp k)).inputSize else m.inputSize
        layers := m.layers ++ [lp k]
        modelSize := m.modelSize + 1
        outputSize := (w.lay (lp k)).outputSize }, ?_, ?_, fun h => by omega⟩
    · unfold addVars
      refine (bind_ok e).trans ?_
      refine (bind_ok (addLayer_accept hsz hch)).trans ?_
      rfl
    · refine ⟨?_, ?_, fun i hi => hs.laid.layer i (by have : i < k + 1 := hi; omega), fun i _ => rfl, fun i _ => rfl, fun _ => ?_, fun _ => ?_⟩
      · show m.modelSize + 1 = ((k + 1 : Nat) : Int)
        rw [hms]; rfl
      · show m.layers ++ [lp k] = (List.range (k + 1)).map lp
        rw [hN.ptrs, List.range_succ, List.map_append]
        rfl
      · show (if m.modelSize = 0 then (w.lay (lp k)).inputSize else m.inputSize) = ((dim 0 : Nat) : Int)
        by_cases h : k = 0
        · subst h
          rw [if_pos (by omega), e1]
        · rw [if_neg (by omega)]
          exact hN.input (by show 0 < k; omega)
      · show (w.lay (lp k)).outputSize = ((dim (k + 1) : Nat) : Int)
        exact e2

/-- The model of a program: InitLayers and Finalize, in either order. -/
theorem exampleModel_spec [FltInt α] (first : Bool) (hn : 0 < n) (hd : ∀ i, i ≤ n → 0 < dim i ∧ dim i ≤ 2 ^ 53)
    (hk : ∀ i, i < n → kind i ≠ .leaky ∧ kind i ≠ .dropout)
    (hs : Setup w0 w n lp wm bm (plainL kind dim)) (hp : w.normPos = w0.normPos) (loss : Loss) (hl : loss.size = dim n) (o : Optim α)
    (accType : Int) (accPrec : α) (hprec : Flt.lt accPrec Flt.zero = false) :
    wp (exampleModel first lp n loss o accType accPrec) w (fun m w' => Frame { norm := True } w0 w' ∧
      Frame { flt := w.IsNetParam (plainNet kind dim lp wm bm n), norm := True } w w' ∧
      ∃ net op, Made w0 w' (plainArgs kind dim) n loss o accType accPrec m net op ∧
        SameShape (plainNet kind dim lp wm bm n) net ∧
        ∀ a, w'.IsNetParam net a → w.IsNetParam (plainNet kind dim lp wm bm n) a) := by
  obtain ⟨m, e, hN, -⟩ := addVars_run hd hs n le_rfl
  set net0 : Net α := plainNet kind dim lp wm bm n with hnet0
  have hO : OwnNet w net0 := ⟨hs.laid.own, hs.laid.inj, hs.laid.sep⟩
  have hpos : 0 < net0.size := hn
  have hout : m.outputSize = loss.size := by rw [hN.output hpos, hl]; rfl
  have hdn := hd n le_rfl
  have hms : m.modelSize.toNat = n := by rw [hN.size]; rfl
  have hpar0 : ∀ a, w.IsNetParam net0 a → w0.next ≤ a := by
    rintro a ⟨i, hi, ha⟩
    exact hs.params i a hi ha
  have hd0 : (fun q => w.norm (w.normPos + q)) = fun q => w0.norm (w0.normPos + q) := by rw [hs.frame.norm, hp]
  have hfin : Flt.lt accPrec (Flt.zero : α) ≠ true := by rw [hprec]; simp
  -- the common end
  have key : ∀ (w' : World α) (m' : Model α) (b : Nat), m' = { finalized m { w with next := b } loss o accType with accPrec := accPrec } → w.next ≤ b →
      b + n ≤ w'.next → (∀ i, i < n → w'.opt (b + i) = optFrom o) → IsNet w' m' (initNet net0 (fun q => w0.norm (w0.normPos + q)) n) →
      OwnNet w' (initNet net0 (fun q => w0.norm (w0.normPos + q)) n) → w'.normPos = w0.normPos + initDraws net0 n →
      Frame { flt := w.IsNetParam net0, norm := True } w w' →
      Frame { norm := True } w0 w' ∧ Frame { flt := w.IsNetParam net0, norm := True } w w' ∧
      ∃ net op, Made w0 w' (plainArgs kind dim) n loss o accType accPrec m' net op ∧ SameShape net0 net ∧
        ∀ a, w'.IsNetParam net a → w.IsNetParam net0 a := by
    intro w' m' b hm' hb hlt hopt hN' hO' hnp hf
    have hpar : ∀ a, w'.IsNetParam (initNet net0 (fun q => w0.norm (w0.normPos + q)) n) a → w.IsNetParam net0 a := fun a ha =>
      (hN.isParam hf (fun _ h => h) a).1 ((initNet_isParam _ _ _ _ _).1 ha)
    have hnx := hs.frame.next_le
    refine ⟨?_, hf, initNet net0 (fun q => w0.norm (w0.normPos + q)) n, (b + ·), ⟨rfl, fun i hi => ?_, ⟨hN', hO', hn, ?_, fun i hi => ?_,
      fun i j _ _ e => Nat.add_left_cancel e, fun i a hi h => ?_⟩, ?_, ?_, ?_, ?_, hl, ?_, ?_, ?_, fun x hx => hpar0 x (hpar x hx), hs.fresh,
      fun i _ => by show w0.next ≤ b + i; omega⟩, initNet_same _ _ _, hpar⟩
    · have hf0 := hs.frame
      frames hf0 hf
      intro a ha h1
      have := hpar0 a h1
      omega
    · have hi' : i < n := hi
      have eL : (initNet net0 (fun q => w0.norm (w0.normPos + q)) n).L i =
          { plainL kind dim i with W := drawnW net0 (fun q => w0.norm (w0.normPos + q)) i } := by
        unfold initNet; dsimp only; rw [if_pos hi']; rfl
      rw [eL]
      refine ⟨rfl, rfl, rfl, ?_, ?_, fun j k => ?_, fun _ => rfl⟩
      · show (if kind i = .leaky then _ else _) = _
        rw [if_neg (hk i hi').1]
        show _ = if kind i = .leaky then _ else _
        rw [if_neg (hk i hi').1]
      · show (if kind i = .dropout then _ else _) = _
        rw [if_neg (hk i hi').2]
        show _ = if kind i = .dropout then _ else _
        rw [if_neg (hk i hi').2]
      · dsimp only [drawnW]
        rw [initDraws_initNet]
        rfl
    · rw [hm']
      show (List.range m.modelSize.toNat).map _ = _
      rw [hms]; rfl
    · exact isOpt_optFrom _ _ _ _ o (by show b + i < _; have : i < n := hi; omega) (hopt i hi)
    · exact absurd (by rw [hopt i hi]; exact optFrom_rows o) h.1
    · rw [hm']; rfl
    · rw [hm']; rfl
    · rw [hm']; rfl
    · rw [hm']; rfl
    · rw [hm']; rfl
    · rw [hm']
    · rw [hnp, initDraws_initNet]
  unfold exampleModel
  refine wp_bind_ok e ?_
  cases first with
  | true =>
    rw [if_pos rfl]
    refine wp_bind_mono (initLayers_spec hN hO) ?_
    intro _ w1 hI
    refine wp_bind_ok (finalize_run o accType accPrec (by omega) (by omega) hout) ?_
    rw [if_neg hfin]
    refine wp_pure.2 ?_
    have hN1 := hI.isNet
    have hO1 := hI.own
    rw [hd0] at hN1 hO1
    have ha := withOpts_allocs w1 m.modelSize.toNat (optFrom o)
    have hN2 := hN1.frame ha (Static.of_frame ha fun _ _ h => h) (fun _ h => h) (fun _ _ h => h)
    refine key _ _ w1.next rfl hI.frame.next_le ?_ (fun i hi => ?_) ⟨hN2.size, hN2.ptrs, hN2.lay, hN2.ins, hN2.outs, hN2.input, hN2.output⟩
      (hO1.frame hN1 ha fun _ h => h) ?_ ?_
    · rw [hms]; exact le_rfl
    · exact withOpts_new w1 _ _ (by omega)
    · show w1.normPos = _
      rw [hI.pos, hp]; rfl
    · have hf := hI.frame
      frames hf ha
      intro a ha ⟨q, hq, h1⟩
      exact ⟨q, hq, .inl h1⟩
  | false =>
    rw [if_neg (by decide)]
    refine wp_bind_ok (finalize_run o accType accPrec (by omega) (by omega) hout) ?_
    rw [if_neg hfin]
    dsimp only
    have hT := isTask_finalized hN hO hpos loss o accType accPrec
    have ha := withOpts_allocs w m.modelSize.toNat (optFrom o)
    refine wp_bind_mono (initLayers_spec hT.isNet hT.own) ?_
    intro _ w2 hI
    refine wp_pure.2 ?_
    have hN1 := hI.isNet
    have hO1 := hI.own
    have ed : (fun q => (withOpts w m.modelSize.toNat (optFrom o)).norm ((withOpts w m.modelSize.toNat (optFrom o)).normPos + q)) =
      fun q => w0.norm (w0.normPos + q) := hd0
    rw [ed] at hN1 hO1
    have hf := hI.frame
    refine key _ _ w.next rfl le_rfl ?_ (fun i hi => ?_) hN1 hO1 ?_ ?_
    · rw [hI.next, hms]; exact le_rfl
    · rw [hf.opt _ (by rw [hms]; exact Nat.add_lt_add_left hi _) fun h => h]
      exact withOpts_new w _ _ (by omega)
    · rw [hI.pos]
      show w.normPos + _ = _
      rw [hp]; rfl
    · frames ha hf
      intro a ha' ⟨q, hq, h1⟩
      exact ⟨q, hq, .inl h1⟩

/-- What a program does that makes a model of the layers, trains it with Fit without validation data, and logs. -/
structure FitRun (w0 w w' : World α) (a : Nat → LayerArg α) (n : Nat) (loss : Loss) (o : Optim α) (accType : Int) (accPrec : α)
    (train : DataSet α) (k : Int) (b epochs : Nat) : Prop where
  frame : Frame { norm := True, log := True } w0 w'
  run : ∃ m net op net' S' lines, Settings m loss o accType accPrec ∧ IsStart a (fun q => w0.norm (w0.normPos + q)) net ∧ net.size = n ∧
    Epochs m loss.kind w0.unif train none k b net (fun _ => OptSpec.fresh (optFrom o)) w0.unifPos epochs net' S' w'.unifPos lines ∧
    w'.log = w.log ++ lines ∧ IsTask w' m net' op S' ∧ SameShape net net'

theorem exampleFit_spec [FltInt α] (first : Bool) (hn : 0 < n) (hd : ∀ i, i ≤ n → 0 < dim i ∧ dim i ≤ 2 ^ 53)
    (hk : ∀ i, i < n → kind i ≠ .leaky ∧ kind i ≠ .dropout ∧ kind i ≠ .sigmoid)
    (hs : Setup w0 w n lp wm bm (plainL kind dim)) (hp : w.normPos = w0.normPos) (hlog : w.logger = true) (loss : Loss) (hl : loss.size = dim n)
    (o : Optim α) (accType : Int) (ht : accType = 0 ∨ accType = 1 ∨ accType = 2) (accPrec : α) (hprec : Flt.lt accPrec Flt.zero = false)
    {X Y : Mat} {r : Nat} {A B : Nat → Nat → α}
    (hX : IsData w (plainNet kind dim lp wm bm n) X r (dim 0) A) (hY : IsData w (plainNet kind dim lp wm bm n) Y r (dim n) B)
    (k : Int) (b epochs : Nat) (hbig : r + b ≤ 2 ^ 53) {β : Type} (f : Option Err → Go α β) {Q : β → World α → Prop}
    (hQ : ∀ w', FitRun w0 w w' (plainArgs kind dim) n loss o accType accPrec ⟨r, A, B⟩ k b epochs → wp (f none) w' Q) :
    wp (do
      let m ← exampleModel first lp n loss o accType accPrec
      let err ← fit m X Y epochs b Mat.zero Mat.zero k
      f err) w Q := by
  refine wp_bind_mono (exampleModel_spec first hn hd (fun i hi => ⟨(hk i hi).1, (hk i hi).2.1⟩) hs hp loss hl o accType accPrec hprec) ?_
  rintro m w1 ⟨hf1, hf2, net, op, hm, hsh, hpar⟩
  have hsz : net.size = n := hm.size
  have hdim : net.dim = dim := hsh.dim
  have hkind : ∀ i, i < net.size → (net.L i).kind = kind i := fun i hi => (hm.start i hi).1
  have e0 : net.dim 0 = dim 0 := by rw [hdim]
  have e1 : net.dim net.size = dim n := by rw [hdim, hsz]
  have hD : ∀ {Z : Mat} {c : Nat} {C : Nat → Nat → α}, IsData w (plainNet kind dim lp wm bm n) Z r c C → IsData w1 net Z r c C := fun h =>
    ⟨h.mat.frame hf2 (fun h => h) fun a h1 h2 => h.sep a h2 h1, h.cap, fun a h1 h2 => h.sep a (hpar a h1) ((h.mat.isRow_frame hf2 (fun h => h) a).1 h2)⟩
  refine wp_bind_mono (C82_fit w1 m net op _ hm.task (fun i hi => ?_) loss hm.hasLoss hm.lossSize ?_ (by rw [hm.accType]; exact ht) ?_
    X Y Mat.zero Mat.zero ⟨r, A, B⟩ none ?_ ?_ rfl epochs k b hbig) ?_
  · rw [hkind i hi]
    exact (hk i (by omega)).2.2
  · rw [e1]; exact (hd n le_rfl).2
  · rw [hf2.logger]; exact hlog
  · rw [e0]; exact hD hX
  · rw [e1]; exact hD hY
  rintro e w' ⟨rfl, net', S', lines, hE, hlg, hT', hsh', -, -, hf3⟩
  refine hQ w' ⟨?_, m, net, op, net', S', lines, ⟨hm.hasLoss, hm.lossType, hm.optType, hm.optValues, hm.accType, hm.accPrec⟩, hm.start, hsz, ?_, ?_, hT', hsh'⟩
  · frames hf1 hf3
    · intro a ha h
      have := hm.params a h
      omega
    · rintro a ha ⟨i, hi, rfl⟩
      have := hm.layers i (by omega)
      omega
    · rintro a ha ⟨i, hi, rfl⟩
      have := hm.opts i (by omega)
      omega
    · rintro ⟨i, hi, h⟩
      rw [hkind i hi] at h
      exact absurd h (hk i (by omega)).2.1
  · rw [hf1.unif, hf1.unifPos fun h => h, Int.toNat_natCast] at hE
    exact hE
  · rw [hlg, hf2.log fun h => h]

/-- The number of log lines. -/
theorem Epochs.length {m : Model α} {l : LossKind} {u : Nat → α} {train : DataSet α} {k b : Nat} {net net' : Net α} {S S' : Nat → OptSpec α}
    {p p' e : Nat} {lines : List (LogEvent α)} (hk : 0 < k) (h : Epochs m l u train none (k : Int) b net S p e net' S' p' lines) :
    lines.length = (e + (k - 1)) / k := by
  induction h with
  | start => simp [Nat.div_eq_of_lt (show k - 1 < k by omega)]
  | @next e net1 net2 S1 S2 p1 p2 lines _ _ ih =>
    rw [List.length_append, ih]
    unfold epochLines
    by_cases hd : k ∣ e
    · rw [if_pos ⟨by omega, by exact_mod_cast hd⟩]
      obtain ⟨q, rfl⟩ := hd
      show _ + 1 = _
      rw [show k * q + (k - 1) = (k - 1) + k * q by omega, show k * q + 1 + (k - 1) = k + k * q by omega, Nat.add_mul_div_left _ _ hk,
        Nat.add_mul_div_left _ _ hk, Nat.div_eq_of_lt (show k - 1 < k by omega), Nat.div_self hk]
      omega
    · rw [if_neg (by rintro ⟨-, h⟩; exact hd (by exact_mod_cast h))]
      show _ + 0 = _
      have hm : 0 < e % k := Nat.pos_of_ne_zero fun h => hd (Nat.dvd_of_mod_eq_zero h)
      have hlt := Nat.mod_lt e hk
      have he := Nat.div_add_mod e k
      generalize hq : e / k = q at he
      generalize e % k = t at *
      rw [← he, show k * q + t + (k - 1) = (t + k - 1) + k * q by omega, show k * q + t + 1 + (k - 1) = (t + k) + k * q by omega,
        Nat.add_mul_div_left _ _ hk, Nat.add_mul_div_left _ _ hk, show t + k - 1 = (t - 1) + k by omega, Nat.add_div_right _ hk,
        Nat.add_div_right _ hk, Nat.div_eq_of_lt hlt, Nat.div_eq_of_lt (show t - 1 < k by omega)]
      rfl

end NN
