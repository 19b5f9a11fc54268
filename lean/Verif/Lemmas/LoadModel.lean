import Verif.Lemmas.Load
import Verif.Lemmas.History
import Verif.Spec.Fit
/- LoadModel follows the pure parser; what a loaded model is. -/

set_option linter.unusedSectionVars false

namespace NN
variable {α : Type} [Flt α] [FltBits α]
open NN.Go NN.Parser

variable {β γ : Type}

theorem corr_loop {n : Nat} {f : Nat → β → Rd α β} {p : γ → Parser γ} {I : Nat → β → γ → World α → Prop} {E : World α → Prop}
    (h : ∀ i b c buf w, i < n → I i b c w → Corr (f i b) (p c) buf w (I (i + 1)) E) {b : β} {c : γ} {w : World α} (h0 : I 0 b c w)
    (buf : List Byte) : Corr (Rd.loopAcc n f b) (Parser.loop n p c) buf w (I n) E := by
  induction n with
  | zero => exact Corr.pure h0
  | succ n ih =>
    exact (ih fun i b c buf w hi => h i b c buf w (by omega)).bind fun b c rest w' hI => h n b c rest w' (by omega) hI

theorem corr_pair (values : GoMap α) (buf : List Byte) (w : World α) {E : World α → Prop} (hE : E w) :
    Corr (readPair values) (pPair values) buf w (fun b c w' => b = c ∧ w' = w) E := by
  unfold readPair pPair
  refine (corr_readInt8 _ w hE).bind ?_
  rintro k _ rest w ⟨rfl, rfl⟩
  refine (corr_readBuf k _ w hE).bind ?_
  rintro key _ rest w ⟨rfl, rfl⟩
  refine (corr_readFlt _ w hE).bind ?_
  rintro v _ rest w ⟨rfl, rfl⟩
  exact Corr.pure ⟨rfl, rfl⟩

/-- Allocations and log lines. -/
abbrev AllocsLog (w w' : World α) : Prop := Frame { log := True } w w'

theorem OnlyAllocs.log {w w' : World α} (h : OnlyAllocs w w') : AllocsLog w w' := h.mono (Foot.Le.empty _)

/-- n layers read since `w`. -/
structure ReadLayers (w w' : World α) (n : Nat) (ps : List Nat) (Ls : List (LayerSpec α)) : Prop where
  frame : AllocsLog w w'
  laid : ∃ lp wm bm, ∃ L : Nat → LayerSpec α, ps = (List.range n).map lp ∧ Ls = (List.range n).map L ∧ Laid w' n lp wm bm L ∧
    (∀ i, i < n → (L i).Saveable) ∧ (∀ i, i < n → w.next ≤ lp i) ∧
    ∀ i a, i < n → w'.IsParam (wm i) (bm i) (L i).n a → w.next ≤ a

theorem map_upd (f : Nat → β) (n : Nat) (x : β) : (List.range (n + 1)).map (upd f n x) = (List.range n).map f ++ [x] := by
  rw [List.range_succ, List.map_append]
  congr 1
  · refine List.map_congr_left fun i hi => ?_
    rw [List.mem_range] at hi
    rw [upd_ne (by omega)]
  · simp [upd_same]

theorem ReadLayers.snoc {w w1 w2 : World α} {n : Nat} {ps : List Nat} {Ls : List (LayerSpec α)} (h : ReadLayers w w1 n ps Ls) {lp' : Nat}
    {wm' bm' : Mat} {L' : LayerSpec α} (h' : NewLayer w1 w2 lp' wm' bm' L') (hs : L'.Saveable) :
    ReadLayers w w2 (n + 1) (ps ++ [lp']) (Ls ++ [L']) := by
  obtain ⟨hf, lp, wm, bm, L, rfl, rfl, h1, h2, h3, h4⟩ := h
  have hle := hf.next_le
  refine ⟨hf.trans_same h'.allocs.log, upd lp n lp', upd wm n wm', upd bm n bm', upd L n L', (map_upd _ _ _).symm,
    (map_upd _ _ _).symm, h1.snoc h', ?_, ?_, ?_⟩
  · intro i hi
    by_cases e : i = n
    · rw [e, upd_same]; exact hs
    · rw [upd_ne e]; exact h2 i (by omega)
  · intro i hi
    by_cases e : i = n
    · rw [e, upd_same]; exact hle.trans h'.fresh
    · rw [upd_ne e]; exact h3 i (by omega)
  · intro i a hi hp
    by_cases e : i = n
    · rw [e, upd_same, upd_same, upd_same] at hp; exact hle.trans (h'.params a hp)
    · rw [upd_ne e, upd_ne e, upd_ne e] at hp
      have hi' : i < n := by omega
      exact h4 i a hi' ((IsParam_frame (h1.layer i hi') h'.allocs (fun _ h => h) a).1 hp)

/-- What loadModelBuffer returns. -/
structure ReadModel (w w' : World α) (d : SavedModelData α × List Nat) (r : RawModel α) : Prop where
  size : d.1.modelSize = r.size
  outs : d.1.outputSize = r.outs
  lossType : d.1.lossType = r.lossType
  accType : d.1.accType = r.accType
  accPrec : d.1.accPrec = r.accPrec
  optType : d.1.optType = r.optType
  values : d.1.optValues = r.values
  layers : ReadLayers w w' r.size.toNat d.2 r.layers
  small : -2147483648 ≤ r.outs ∧ r.outs < 2147483648

theorem Corr.mono_ok {x : Rd α β} {p : Parser γ} {buf : List Byte} {w : World α} {R R' : β → γ → World α → Prop} {E : World α → Prop}
    (h : Corr x p buf w R E) (hR : ∀ b c rest w', p buf = .ok c rest → R b c w' → R' b c w') : Corr x p buf w R' E := by
  cases hp : p buf with
  | ok c rest =>
    refine Corr.mk_ok hp (wp_mono (h.ok hp) ?_)
    rintro _ w' ⟨b, rfl, h⟩
    exact ⟨b, rfl, hR _ _ _ _ hp h⟩
  | err => exact Corr.mk_err hp (h.err hp)
  | bad => exact Corr.mk_bad hp (h.bad hp)

theorem corr_next (w : World α) (n : Nat) (ps : List Nat) (Ls : List (LayerSpec α)) (buf : List Byte) (w1 : World α)
    (h : ReadLayers w w1 n ps Ls) :
    Corr (do let lp ← loadLayer; return ps ++ [lp]) (pNext Ls) buf w1 (fun ps Ls w' => ReadLayers w w' (n + 1) ps Ls)
      (fun w' => AllocsLog w w') := by
  unfold pNext
  have h1 : Corr loadLayer pLayer buf w1 (fun lp L w' => (∃ wm bm, NewLayer w1 w' lp wm bm L) ∧ L.Saveable) (fun w' => AllocsLog w w') := by
    have hc := corr_layer buf w1
    cases hp : (pLayer buf : Res (LayerSpec α)) with
    | ok c rest =>
      refine Corr.mk_ok hp (wp_mono (hc.ok hp) ?_)
      rintro _ w' ⟨b, rfl, h⟩
      exact ⟨b, rfl, h, pLayer_saveable hp⟩
    | err =>
      refine Corr.mk_err hp (wp_mono (hc.err hp) ?_)
      rintro _ w' ⟨he, h'⟩
      exact ⟨he, h.frame.trans_same h'.log⟩
    | bad => exact Corr.mk_bad hp (hc.bad hp)
  refine h1.bind ?_
  rintro lp L rest w2 ⟨⟨wm, bm, h2⟩, hs⟩
  exact Corr.pure (h.snoc h2 hs)

theorem corr_body (version : Str) (buf : List Byte) (w0 w : World α) (h0 : AllocsLog w0 w) :
    Corr (do
      let modelSize ← readInt8
      let inputSize ← readInt32
      let outputSize ← readInt32
      let lossType ← readInt8
      let accType ← readInt8
      let accPrec ← readFlt
      let optType ← readInt8
      let lenOpt ← readInt8
      let values ← Rd.loopAcc lenOpt.toNat (fun _ values => readPair values) []
      let layers ← Rd.loopAcc modelSize.toNat (fun _ layers => do
        let lp ← loadLayer
        return layers ++ [lp]) []
      return ((⟨version, modelSize, inputSize, outputSize, lossType, accType, accPrec, optType, values, []⟩ : SavedModelData α), layers))
      (pBody version) buf w (fun d r w' => ReadModel w0 w' d r) (fun w' => AllocsLog w0 w') := by
  unfold pBody
  refine (corr_readInt8 _ w h0).bind ?_
  rintro size _ rest w ⟨rfl, rfl⟩
  refine (corr_readInt32 _ w h0).bind ?_
  rintro ins _ rest w ⟨rfl, rfl⟩
  refine ((corr_readInt32 _ w h0).mono_ok (R' := fun b c w' => b = c ∧ w' = w ∧ -2147483648 ≤ c ∧ c < 2147483648) ?_).bind ?_
  · rintro b c _ w' hp ⟨h1, h2⟩
    have := pInt32_lt hp
    have := pInt32_le hp
    exact ⟨h1, h2, by omega, by omega⟩
  rintro outs _ rest w ⟨rfl, rfl, hout⟩
  refine (corr_readInt8 _ w h0).bind ?_
  rintro lossType _ rest w ⟨rfl, rfl⟩
  refine (corr_readInt8 _ w h0).bind ?_
  rintro accType _ rest w ⟨rfl, rfl⟩
  refine (corr_readFlt _ w h0).bind ?_
  rintro accPrec _ rest w ⟨rfl, rfl⟩
  refine (corr_readInt8 _ w h0).bind ?_
  rintro optType _ rest w ⟨rfl, rfl⟩
  refine (corr_readInt8 _ w h0).bind ?_
  rintro lenOpt _ rest w ⟨rfl, rfl⟩
  refine (corr_loop (I := fun _ (b c : GoMap α) w' => b = c ∧ w' = w) ?_ ⟨rfl, rfl⟩ rest).bind ?_
  · rintro i b _ buf w _ ⟨rfl, rfl⟩
    exact corr_pair b buf w h0
  rintro values _ rest w ⟨rfl, rfl⟩
  refine (corr_loop (I := fun i ps Ls w' => ReadLayers w0 w' i ps Ls) ?_ ?_ rest).bind ?_
  · intro i ps Ls buf w1 _ h
    exact corr_next w0 i ps Ls buf w1 h
  · exact ⟨h0, fun _ => 0, fun _ => Mat.zero, fun _ => Mat.zero, fun _ => ⟨.linear, 0, 0, fun _ _ => Flt.zero, fun _ => Flt.zero, Flt.zero, Flt.zero⟩, rfl, rfl, Laid.nil _ _ _ _ _, fun i h => absurd h (by omega),
      fun i h => absurd h (by omega), fun i _ h => absurd h (by omega)⟩
  intro ps Ls rest w1 h
  exact Corr.pure ⟨rfl, rfl, rfl, rfl, rfl, rfl, rfl, h, hout⟩

theorem corr_buffer (buf : List Byte) (w : World α) :
    Corr loadModelBuffer (pModel w.logger) buf w (fun d r w' => ReadModel w w' d r) (fun w' => AllocsLog w w') := by
  unfold loadModelBuffer pModel
  refine corr_magic (str "NNML") 4 rfl _ buf w (E := fun w' => AllocsLog w w') (Frame.refl _ _) fun rest => ?_
  refine (corr_readBuf 5 _ w (Frame.refl _ _)).bind ?_
  rintro version _ rest w ⟨rfl, rfl⟩
  by_cases hv : version ≠ VERSION
  · rw [if_pos hv]
    by_cases hl : w.logger = true
    · rw [if_neg (by rw [hl]; simp)]
      refine Corr.lift (Q := fun _ w' => AllocsLog w w') ?_ ?_
      · refine wp_of_ok (show logEvent (.warnVersion version) w = _ from if_pos hl) ?_
        exact ⟨le_rfl, fun _ _ _ => rfl, fun _ _ _ => rfl, fun _ _ _ => rfl, fun _ _ _ => rfl, rfl, rfl, fun _ => rfl, fun _ => rfl,
          fun h => absurd trivial h, rfl⟩
      · intro _ w1 h1
        exact corr_body version rest w w1 h1
    · rw [if_pos ⟨hv, by simpa using hl⟩]
      refine Corr.mk_bad rfl ?_
      rw [rd_bind]
      refine panics_bind ⟨.nilDeref, ?_⟩
      unfold Rd.lift
      refine bind_error ?_
      unfold logEvent
      rw [if_neg hl]
  · rw [if_neg hv, if_neg fun h => hv h.1]
    exact corr_body version rest w w (Frame.refl _ _)

/-! ### LoadModel -/

/-- Consecutive layers fit together. -/
def Chain (n : Nat) (L : Nat → LayerSpec α) : Prop := ∀ i, i + 1 < n → (L (i + 1)).n = (L i).o

/-- The output size of n layers. -/
def lastOut (L : Nat → LayerSpec α) : Nat → Nat
  | 0 => 0
  | n + 1 => (L n).o

/-- The input size of n layers. -/
def firstIn (L : Nat → LayerSpec α) (n : Nat) : Nat := if n = 0 then 0 else (L 0).n

/-- NewModel and n times AddLayer. -/
def built (n : Nat) (lp : Nat → Nat) (L : Nat → LayerSpec α) : Model α :=
  { newModel with
    modelSize := n
    layers := (List.range n).map lp
    inputSize := firstIn L n
    outputSize := lastOut L n }

theorem addLayers_run [FltInt α] {w : World α} {n : Nat} {lp : Nat → Nat} {wm bm : Nat → Mat} {L : Nat → LayerSpec α}
    (h : Laid w n lp wm bm L) (hs : ∀ i, i < n → (L i).Saveable) (k : Nat) (hk : k ≤ n) :
    (Chain k L → addLayers ((List.range n).map lp) k newModel w = .ok ((built k lp L, none), w)) ∧
    (¬ Chain k L → ∃ m, addLayers ((List.range n).map lp) k newModel w = .ok ((m, some .addLayer), w)) := by
  induction k with
  | zero => exact ⟨fun _ => rfl, fun hc => absurd (fun i hi => absurd hi (by omega)) hc⟩
  | succ k ih =>
    obtain ⟨ih1, ih2⟩ := ih (by omega)
    have hl := h.layer k (by omega)
    have hsk := hs k (by omega)
    have hn := hsk.nlt
    have ho := hsk.olt
    have hsz : SizesOk (w.lay (lp k)) := by
      unfold SizesOk
      rw [hl.ins, hl.outs]
      omega
    have hg : listGet ((List.range n).map lp) (k : Int) w = .ok (lp k, w) := by
      have : k < n := by omega
      simp [listGet, List.getElem?_range this]
      rfl
    by_cases hc : Chain k L
    · have e : addLayers ((List.range n).map lp) (k + 1) newModel w = addLayer (built k lp L) (lp k) w := by
        unfold addLayers
        refine (bind_ok (ih1 hc)).trans ?_
        dsimp only
        exact bind_ok hg
      rw [e]
      have hcc : Chain (k + 1) L ↔ (k = 0 ∨ (L k).n = lastOut L k) := by
        constructor
        · intro h
          rcases k with _ | k
          · exact .inl rfl
          · exact .inr (h k (by omega))
        · intro h i hi
          by_cases hi' : i + 1 < k
          · exact hc i hi'
          · obtain rfl : k = i + 1 := by omega
            rcases h with h | h
            · omega
            · exact h
      rw [hcc]
      constructor
      · intro h'
        rw [addLayer_accept hsz]
        · congr 3
          unfold built
          rw [hl.outs]
          dsimp only
          congr 1
          · unfold firstIn
            by_cases h0 : k = 0
            · subst h0; simpa using hl.ins
            · simp [h0]
          · rw [List.range_succ, List.map_append]; rfl
        · rw [hl.ins]
          show ¬ ((k : Int) ≠ 0 ∧ ((lastOut L k : Nat) : Int) ≠ _)
          omega
      · intro h'
        refine ⟨_, addLayer_reject hsz ?_⟩
        rw [hl.ins]
        show ((k : Int) ≠ 0 ∧ ((lastOut L k : Nat) : Int) ≠ _)
        omega
    · obtain ⟨m, hm⟩ := ih2 hc
      constructor
      · intro hc'
        exact absurd (fun i hi => hc' i (by omega)) hc
      · intro _
        refine ⟨m, ?_⟩
        unfold addLayers
        exact (bind_ok hm).trans rfl

/-- The output size of the last layer. -/
def endOut (ls : List (LayerSpec α)) : Nat :=
  match ls.getLast? with
  | none => 0
  | some L => L.o

/-- What LoadModel checks after reading. -/
structure RawModel.Good (r : RawModel α) : Prop where
  chain : ∀ i L L', r.layers[i]? = some L → r.layers[i + 1]? = some L' → L'.n = L.o
  outs : r.outs = endOut r.layers
  loss : ∃ k : LossKind, k.code = r.lossType
  opt : ∃ k : OptKind, k.code = r.optType
  prec : Flt.lt r.accPrec Flt.zero = false

/-- The network with n layers. -/
def netOf (n : Nat) (lp : Nat → Nat) (wm bm : Nat → Mat) (L : Nat → LayerSpec α) : Net α :=
  ⟨n, fun i => if i = 0 then (L 0).n else (L (i - 1)).o, lp, wm, bm, L⟩

/-- The result of loading `r`. -/
structure Loaded (w w' : World α) (m : Model α) (r : RawModel α) (net : Net α) (k : LossKind) (o : Optim α) (op : Nat → Nat) : Prop where
  frame : AllocsLog w w'
  size : net.size = r.size.toNat
  layers : r.layers = (List.range net.size).map net.L
  isNet : IsNet w' m net
  own : OwnNet w' net
  saveable : ∀ i, i < net.size → (net.L i).Saveable
  fresh : ∀ i, i < net.size → w.next ≤ net.lp i
  params : ∀ i a, i < net.size → w'.IsParam (net.wm i) (net.bm i) (net.L i).n a → w.next ≤ a
  input : m.inputSize = firstIn net.L net.size
  output : m.outputSize = r.outs
  lossCode : k.code = r.lossType
  loss : m.loss = some ⟨k, r.outs⟩
  lossType : m.lossType = r.lossType
  accType : m.accType = r.accType
  accPrec : m.accPrec = r.accPrec
  prec : Flt.lt r.accPrec Flt.zero = false
  optCode : o.kind.code = r.optType
  values : o = (Optim.zero o.kind : Optim α).setValues r.values
  optType : m.optType = r.optType
  optValues : m.optValues = o.getValues.del (str "type")
  optims : m.optims = (List.range net.size).map op
  opts : ∀ i, i < net.size → op i < w'.next ∧ w.next ≤ op i ∧ w'.opt (op i) = optFrom o
  inj : ∀ i j, i < net.size → j < net.size → op i = op j → i = j

/-- Parse and check. -/
noncomputable def pLoad (logger : Bool) : Parser (RawModel α) := by
  classical exact do
    let r ← pModel logger
    if r.Good then return r else Parser.fail

theorem pBody_inv {version : Str} {buf rest : List Byte} {r : RawModel α} (h : pBody version buf = .ok r rest) :
    r.size < 128 ∧ -128 ≤ r.accType ∧ r.accType < 128 ∧ r.version = version := by
  unfold pBody at h
  obtain ⟨size, b1, h1, h⟩ := bind_inv h
  obtain ⟨ins, b2, h2, h⟩ := bind_inv h
  obtain ⟨outs, b3, h3, h⟩ := bind_inv h
  obtain ⟨lt, b4, h4, h⟩ := bind_inv h
  obtain ⟨at', b5, h5, h⟩ := bind_inv h
  obtain ⟨ap, b6, h6, h⟩ := bind_inv h
  obtain ⟨ot, b7, h7, h⟩ := bind_inv h
  obtain ⟨c, b8, h8, h⟩ := bind_inv h
  obtain ⟨v, b9, h9, h⟩ := bind_inv h
  obtain ⟨l, b10, h10, h⟩ := bind_inv h
  injection h with h _
  subst h
  exact ⟨pInt8_lt h1, pInt8_le h5, pInt8_lt h5, rfl⟩

theorem pLoad_inv {logger : Bool} {buf rest : List Byte} {r : RawModel α} (h : pLoad logger buf = .ok r rest) :
    r.Good ∧ r.size < 128 ∧ -128 ≤ r.accType ∧ r.accType < 128 := by
  unfold pLoad at h
  obtain ⟨r', b1, h1, h⟩ := bind_inv h
  have hg : r'.Good ∧ r' = r := by
    by_cases hg : r'.Good
    · rw [if_pos hg] at h
      injection h with h _
      exact ⟨hg, h⟩
    · rw [if_neg hg] at h; cases h
  obtain ⟨hg, rfl⟩ := hg
  unfold pModel at h1
  obtain ⟨_, b2, h2, h1⟩ := bind_inv h1
  obtain ⟨v, b3, h3, h1⟩ := bind_inv h1
  have : r'.size < 128 ∧ -128 ≤ r'.accType ∧ r'.accType < 128 ∧ r'.version = v := by
    by_cases hv : v ≠ VERSION ∧ logger = false
    · rw [if_pos hv] at h1; cases h1
    · rw [if_neg hv] at h1; exact pBody_inv h1
  exact ⟨hg, this.1, this.2.1, this.2.2.1⟩

theorem loadLoss_ok (k : LossKind) (s : Int) : loadLoss k.code s = .ok ⟨k, s⟩ := by
  cases k <;> rfl

theorem loadLoss_err {t s : Int} (h : ¬ ∃ k : LossKind, k.code = t) : loadLoss t s = .error .loadLossType := by
  unfold loadLoss
  rw [if_neg fun e => h ⟨.mse, e.symm⟩, if_neg fun e => h ⟨.mae, e.symm⟩, if_neg fun e => h ⟨.ce, e.symm⟩, if_neg fun e => h ⟨.bce, e.symm⟩]

theorem loadOptimizer_ok (k : OptKind) (vals : GoMap α) : loadOptimizer k.code vals = .ok ((Optim.zero k : Optim α).setValues vals) := by
  cases k <;> rfl

theorem loadOptimizer_err {t : Int} (vals : GoMap α) (h : ¬ ∃ k : OptKind, k.code = t) : loadOptimizer t vals = .error .loadOptType := by
  unfold loadOptimizer
  rw [if_neg fun e => h ⟨.sgd, e.symm⟩, if_neg fun e => h ⟨.adam, e.symm⟩]

theorem setValues_kind (k : OptKind) (vals : GoMap α) : ((Optim.zero k : Optim α).setValues vals).kind = k := by
  cases k <;> rfl

/-- Make a model from what has been read (model_data.go:320-346). -/
def rebuild (d : SavedModelData α) (layers : List Nat) : Rd α (Model α) := do
  let (m, err) ← Rd.lift (addLayers layers d.modelSize.toNat newModel)
  match err with
  | some e => Rd.fail e
  | none =>
    match loadLoss d.lossType d.outputSize with
    | .error e => Rd.fail e
    | .ok loss =>
      match loadOptimizer d.optType d.optValues with
      | .error e => Rd.fail e
      | .ok o => do
        let (m, err) ← Rd.lift (finalize m loss o.getValues d.accType d.accPrec)
        match err with
        | some e => Rd.fail e
        | none => return m

theorem loadModel_eq : (loadModel : Rd α (Model α)) = (do let p ← loadModelBuffer; rebuild p.1 p.2) := rfl

theorem lift_bind {β γ : Type} {x : Go α β} {f : β → Rd α γ} {buf : List Byte} {w w' : World α} {b : β} (h : x w = .ok (b, w')) :
    (Rd.lift x >>= f) buf w = f b buf w' := by
  rw [rd_bind]
  have : Rd.lift x buf w = .ok ((.ok b, buf), w') := (bind_ok h).trans rfl
  exact bind_ok this

theorem wp_congr {β : Type} {x y : Go α β} {w w' : World α} {Q} (e : x w = y w') (h : wp y w' Q) : wp x w Q := by
  unfold wp at *; rwa [e]

theorem lastOut_eq (L : Nat → LayerSpec α) (n : Nat) : endOut ((List.range n).map L) = lastOut L n := by
  unfold endOut
  cases n with
  | zero => rfl
  | succ n => rw [List.range_succ, List.map_append]; simp [lastOut]

theorem Laid.allocs {w w' : World α} {n : Nat} {lp : Nat → Nat} {wm bm : Nat → Mat} {L : Nat → LayerSpec α} (h : Laid w n lp wm bm L)
    (ha : OnlyAllocs w w') : Laid w' n lp wm bm L := by
  have hp : ∀ i a, i < n → w'.IsParam (wm i) (bm i) (L i).n a → w.IsParam (wm i) (bm i) (L i).n a := fun i a hi h' =>
    (IsParam_frame (h.layer i hi) ha (fun _ h => h) a).1 h'
  refine ⟨?_, ?_, h.inj, fun i j a hi hj h1 h2 => h.sep i j a hi hj (hp i a hi h1) (hp j a hj h2)⟩
  · intro i hi
    exact (h.layer i hi).frame_static ha (by rw [ha.lay _ (h.layer i hi).lt (fun h => h)]) (fun h => h) (fun h => h) (fun _ _ h => h)
  · intro i hi
    have hl := h.layer i hi
    exact ⟨(h.own i hi).distinct.frame ha hl.wmat.addr_lt (fun h => h), fun a ha' hb => (h.own i hi).disjoint a
      ((hl.wmat.isRow_frame ha (fun h => h) a).1 ha') ((hl.bmat.isRow_frame ha (fun h => h) a).1 hb), (h.own i hi).outer⟩

theorem chain_iff (L : Nat → LayerSpec α) (n : Nat) : (∀ i l l', ((List.range n).map L)[i]? = some l → ((List.range n).map L)[i + 1]? = some l' →
    l'.n = l.o) ↔ Chain n L := by
  constructor
  · intro h i hi
    refine h i _ _ ?_ ?_
    · simp [List.getElem?_range (show i < n by omega)]
    · simp [List.getElem?_range hi]
  · intro h i l l' h1 h2
    have hi : i + 1 < n := by
      by_contra hc
      rw [List.getElem?_eq_none (by simp; omega)] at h2
      cases h2
    simp [List.getElem?_range (show i < n by omega)] at h1
    simp [List.getElem?_range hi] at h2
    rw [← h1, ← h2]
    exact h i hi

theorem rebuild_spec [FltInt α] {w w1 : World α} {d : SavedModelData α} {ps : List Nat} {r : RawModel α} (h : ReadModel w w1 (d, ps) r)
    (rest : List Byte) :
    (r.Good → wp (rebuild d ps rest) w1 fun x w' => ∃ m net k o op, x = (.ok m, rest) ∧ Loaded w w' m r net k o op) ∧
    (¬ r.Good → wp (rebuild d ps rest) w1 fun x w' => (∃ e, x.1 = .error e) ∧ AllocsLog w w') := by
  obtain ⟨e1, e2, e3, e4, e5, e6, e7, ⟨hf, lp, wm, bm, L, rfl, hL, h1, h2, h3, h4⟩, hsmall⟩ := h
  dsimp only at e1 e2 e3 e4 e5 e6 e7
  set n := r.size.toNat with hn
  have hadd := addLayers_run h1 h2 n le_rfl
  unfold rebuild
  rw [e1, e2, e3, e4, e5, e6, e7]
  by_cases hc : Chain n L
  swap
  · refine ⟨fun hg => ?_, fun _ => ?_⟩
    · refine absurd ((chain_iff L n).1 ?_) hc
      rw [← hL]; exact hg.chain
    obtain ⟨m, hm⟩ := hadd.2 hc
    refine wp_congr (lift_bind hm) ?_
    exact ⟨⟨_, rfl⟩, hf⟩
  have hrun := hadd.1 hc
  by_cases hl : ∃ k : LossKind, k.code = r.lossType
  swap
  · refine ⟨fun hg => absurd hg.loss hl, fun _ => ?_⟩
    refine wp_congr (lift_bind hrun) ?_
    dsimp only
    rw [loadLoss_err hl]
    exact ⟨⟨_, rfl⟩, hf⟩
  obtain ⟨k, hk⟩ := hl
  by_cases ho : ∃ k : OptKind, k.code = r.optType
  swap
  · refine ⟨fun hg => absurd hg.opt ho, fun _ => ?_⟩
    refine wp_congr (lift_bind hrun) ?_
    dsimp only
    rw [← hk, loadLoss_ok, loadOptimizer_err _ ho]
    exact ⟨⟨_, rfl⟩, hf⟩
  obtain ⟨ok, hok⟩ := ho
  set o : Optim α := (Optim.zero ok : Optim α).setValues r.values with hodef
  have hokind : o.kind = ok := setValues_kind _ _
  have hlo : -2147483648 ≤ r.outs := hsmall.1
  have hhi : r.outs < 2147483648 := hsmall.2
  by_cases hs : (lastOut L n : Int) = r.outs
  swap
  · refine ⟨fun hg => ?_, fun _ => ?_⟩
    · have := hg.outs
      rw [hL, lastOut_eq] at this
      exact absurd this.symm hs
    refine wp_congr (lift_bind hrun) ?_
    dsimp only
    rw [← hk, loadLoss_ok, ← hok, loadOptimizer_ok]
    dsimp only
    rw [← hodef]
    refine wp_congr (lift_bind (finalize_size o r.accType r.accPrec ?_ ?_ ?_)) ?_
    · show -(2 ^ 53) ≤ r.outs; omega
    · show r.outs ≤ 2 ^ 53; omega
    · exact hs
    exact ⟨⟨_, rfl⟩, hf⟩
  have hfin := finalize_run (m := built n lp L) (w := w1) (loss := ⟨k, r.outs⟩) o r.accType r.accPrec (by show -(2 ^ 53) ≤ r.outs; omega)
    (by show r.outs ≤ 2 ^ 53; omega) hs
  have ha : OnlyAllocs w1 (withOpts w1 n (optFrom o)) := withOpts_allocs _ _ _
  have hrun2 : ∀ Q : Except Err (Model α) × List Byte → World α → Prop,
      (Flt.lt r.accPrec Flt.zero = true → Q (.error .finalizePrecision, rest) (withOpts w1 n (optFrom o))) →
      (Flt.lt r.accPrec Flt.zero = false → Q (.ok { finalized (built n lp L) w1 ⟨k, r.outs⟩ o r.accType with accPrec := r.accPrec }, rest)
        (withOpts w1 n (optFrom o))) →
      wp ((do
        let (m, err) ← Rd.lift (addLayers ((List.range n).map lp) n newModel)
        match err with
        | some e => Rd.fail e
        | none =>
          match loadLoss r.lossType r.outs with
          | .error e => Rd.fail e
          | .ok loss =>
            match loadOptimizer r.optType r.values with
            | .error e => Rd.fail e
            | .ok o => do
              let (m, err) ← Rd.lift (finalize m loss o.getValues r.accType r.accPrec)
              match err with
              | some e => Rd.fail e
              | none => return m : Rd α (Model α)) rest) w1 Q := by
    intro Q q1 q2
    refine wp_congr (lift_bind hrun) ?_
    dsimp only
    rw [← hk, loadLoss_ok, ← hok, loadOptimizer_ok]
    dsimp only
    rw [← hodef]
    refine wp_congr (lift_bind hfin) ?_
    cases hp : Flt.lt r.accPrec (Flt.zero : α) with
    | true => exact q1 hp
    | false => exact q2 hp
  constructor
  · intro hg
    refine hrun2 _ (fun hp => by rw [hg.prec] at hp; cases hp) fun hp => ?_
    refine ⟨_, netOf n lp wm bm L, k, o, fun i => w1.next + i, rfl, ?_⟩
    have hN := h1.allocs ha
    have hpar : ∀ i a, i < n → (withOpts w1 n (optFrom o)).IsParam (wm i) (bm i) (L i).n a → w.next ≤ a := fun i a hi hp =>
      h4 i a hi ((IsParam_frame (h1.layer i hi) ha (fun _ h => h) a).1 hp)
    have hle := hf.next_le
    refine ⟨hf.trans_same ha.log, rfl, hL, ⟨rfl, rfl, hN.layer, ?_, ?_, ?_, ?_⟩, ⟨hN.own, hN.inj, hN.sep⟩, h2, h3, hpar, rfl, hs, hk, rfl,
      hk, rfl, rfl, hp, by rw [hokind]; exact hok, by rw [hokind], by rw [← hok, ← hokind]; rfl, rfl, rfl, ?_, ?_⟩
    · intro i hi
      show (L i).n = if i = 0 then (L 0).n else (L (i - 1)).o
      by_cases h0 : i = 0
      · rw [if_pos h0, h0]
      · rw [if_neg h0]
        obtain ⟨j, rfl⟩ : ∃ j, i = j + 1 := ⟨i - 1, by omega⟩
        exact hc j hi
    · intro i hi
      show (L i).o = if i + 1 = 0 then (L 0).n else (L (i + 1 - 1)).o
      rw [if_neg (Nat.succ_ne_zero i)]; rfl
    · intro hpos
      show ((firstIn L n : Nat) : Int) = ((if 0 = 0 then (L 0).n else (L (0 - 1)).o : Nat) : Int)
      have hpos : 0 < n := hpos
      rw [if_pos rfl, firstIn, if_neg (by omega)]
    · intro hpos
      have hpos : 0 < n := hpos
      show ((lastOut L n : Nat) : Int) = ((if n = 0 then (L 0).n else (L (n - 1)).o : Nat) : Int)
      rw [if_neg (by omega)]
      obtain ⟨j, hj⟩ : ∃ j, n = j + 1 := ⟨n - 1, by omega⟩
      rw [hj]; rfl
    · intro i hi
      exact ⟨Nat.add_lt_add_left hi _, by show w.next ≤ w1.next + i; omega, withOpts_new _ _ _ hi⟩
    · intro i j _ _ h
      exact Nat.add_left_cancel h
  · intro hg
    refine hrun2 _ (fun hp => ⟨⟨_, rfl⟩, hf.trans_same ha.log⟩) fun hp => ?_
    refine absurd ⟨?_, ?_, ⟨k, hk⟩, ⟨ok, hok⟩, hp⟩ hg
    · rw [hL]; exact (chain_iff L n).2 hc
    · rw [hL, lastOut_eq, hs]

/-- LoadModel does what the parser says. -/
theorem corr_loadModel [FltInt α] (buf : List Byte) (w : World α) :
    Corr loadModel (pLoad w.logger) buf w (fun m r w' => ∃ net k o op, Loaded w w' m r net k o op) (fun w' => AllocsLog w w') := by
  classical
  rw [loadModel_eq]
  unfold pLoad
  refine (corr_buffer buf w).bind ?_
  rintro ⟨d, ps⟩ r rest w1 h
  have hr := rebuild_spec h rest
  by_cases hg : r.Good
  · rw [if_pos hg]
    refine Corr.mk_ok rfl (wp_mono (hr.1 hg) ?_)
    rintro x w' ⟨m, net, k, o, op, hx, hl⟩
    exact ⟨m, hx, net, k, o, op, hl⟩
  · rw [if_neg hg]
    exact Corr.mk_err rfl (hr.2 hg)

/-- A loaded model with at least one layer can be trained. -/
theorem isOpt_from {w : World α} {op : Nat} (rw cw rb cb : Nat) {o : Optim α} (hlt : op < w.next) (h : w.opt op = optFrom o) :
    IsOpt w op rw cw rb cb (OptSpec.fresh (optFrom o)) := by
  cases hk : o.kind with
  | sgd =>
    have e : ∀ o : Optim α, o.kind = .sgd → optFrom o = optFrom { o with kind := .sgd } := by rintro ⟨⟩ h; cases h; rfl
    rw [e o hk] at h ⊢
    refine ⟨hlt, ?_, ?_, ?_⟩
    · rw [h]
      exact ⟨rfl, rfl, rfl, fun _ => rfl, rfl, rfl, rfl, rfl, rfl, fun _ => rfl, fun _ => rfl⟩
    · refine .unset ?_ (fun _ _ => rfl) (fun _ _ => rfl) (fun _ _ => rfl) (fun _ _ => rfl)
      rw [h]; rfl
    · intro _; rw [h]; rfl
  | adam =>
    have e : ∀ o : Optim α, o.kind = .adam → optFrom o = optFrom { o with kind := .adam } := by rintro ⟨⟩ h; cases h; rfl
    rw [e o hk] at h ⊢
    refine ⟨hlt, ?_, ?_, ?_⟩
    · rw [h]
      exact ⟨rfl, rfl, rfl, (fun h => by cases h), rfl, rfl, rfl, rfl, rfl, (fun h => by cases h), fun _ => rfl⟩
    · refine .unset ?_ (fun _ _ => rfl) (fun _ _ => rfl) (fun _ _ => rfl) (fun _ _ => rfl)
      rw [h]; rfl
    · intro _; rw [h]; rfl

theorem Loaded.task {w w' : World α} {m : Model α} {r : RawModel α} {net : Net α} {k : LossKind} {o : Optim α} {op : Nat → Nat}
    (h : Loaded w w' m r net k o op) (hpos : 0 < net.size) : IsTask w' m net op (fun _ => OptSpec.fresh (optFrom o)) := by
  refine ⟨h.isNet, h.own, hpos, h.optims, fun i hi => isOpt_from _ _ _ _ (h.opts i hi).1 (h.opts i hi).2.2, h.inj, ?_⟩
  rintro i a hi ⟨hr, -⟩
  refine absurd ?_ hr
  rw [(h.opts i hi).2.2]
  unfold optFrom
  cases o.kind <;> rfl

end NN
