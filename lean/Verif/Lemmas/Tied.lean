import Verif.Lemmas.FitRun
import Verif.Spec.Tied
/- Training of models in which layers occur more than once. -/

set_option linter.unusedSectionVars false

namespace NN
variable {α : Type} [Flt α]
open Go

variable {w w' : World α} {m : Model α} {net net' : Net α} {r : Nat} {o mask : Nat → Mat} {V M G D : Nat → Nat → Nat → α}
  {op : Nat → Nat} {S S' : Nat → OptSpec α}

theorem IsNet.same_mats (h : IsNet w m net) {i j : Nat} (hi : i < net.size) (hj : j < net.size) (e : net.lp i = net.lp j) :
    net.wm i = net.wm j ∧ net.bm i = net.bm j := by
  have h1 := h.lay i hi
  have h2 := h.lay j hj
  have a := h1.weights
  have b := h1.biases
  rw [e, h2.weights] at a
  rw [e, h2.biases] at b
  exact ⟨(Option.some.inj a).symm, (Option.some.inj b).symm⟩

theorem TiedNet.frame {f : Foot} (hN : IsNet w m net) (h : TiedNet w net) (hf : Frame f w w') (ho : ∀ a, ¬ f.outs a) : TiedNet w' net := by
  refine ⟨fun i hi => ?_, h.same, fun i j a hi hj ha hb => h.sep i j a hi hj
    ((IsParam_frame (hN.lay i hi) hf ho a).1 ha) ((IsParam_frame (hN.lay j hj) hf ho a).1 hb)⟩
  have hl := hN.lay i hi
  exact ⟨(h.own i hi).distinct.frame hf hl.wmat.addr_lt (ho _), fun a ha hb => (h.own i hi).disjoint a
    ((hl.wmat.isRow_frame hf (ho _) a).1 ha) ((hl.bmat.isRow_frame hf (ho _) a).1 hb), (h.own i hi).outer⟩

theorem TiedTask.frame {f : Foot} (h : TiedTask w m net op S) (hf : Frame f w w') (hs : Static w w') (ho : ∀ a, ¬ f.outs a)
    (hop : ∀ a, ¬ f.opt a) (hp : ∀ a, w.IsNetParam net a → ¬ f.flt a)
    (hr : ∀ i a, i < net.size → w.IsOptRow (w.opt (op i)) (net.L i).n 1 a → ¬ f.flt a) : TiedTask w' m net op S :=
  ⟨h.isNet.frame hf hs ho hp, h.tied.frame h.isNet hf ho, h.pos, h.optims,
    fun i hi => (h.opt i hi).frame hf (hop _) ho fun a => hr i a hi, h.inj,
    fun i a hi h1 h2 => h.sep i a hi (((h.opt i hi).optRow_frame hf (hop _) ho a).1 h1) ((h.isNet.isParam hf ho a).1 h2)⟩

/-- One optimizer update: all places with the layer object of place k see it. -/
theorem tied_update (h : TiedTask w m net op S) {k : Nat} (hk : k < net.size) {dw db : Mat} {GW GB : Nat → Nat → α}
    (hGW : IsMat w dw (net.L k).n (net.L k).o GW) (hGB : IsMat w db 1 (net.L k).o GB) {net' : Net α} {S' : Nat → OptSpec α}
    (e1 : net'.size = net.size) (e2 : net'.wm = net.wm) (e3 : net'.bm = net.bm) (e4 : net'.lp = net.lp) (e5 : net'.dim = net.dim)
    (hsz : ∀ i, (net'.L i).n = (net.L i).n ∧ (net'.L i).o = (net.L i).o)
    (eL : ∀ i, i < net.size → net.lp k = net.lp i →
      net'.L i = { net.L k with W := (S k).newW (net.L k).W GW, b := fun j => (S k).newB (fun _ j => (net.L k).b j) GB 0 j })
    (eL' : ∀ i, net.lp k ≠ net.lp i → net'.L i = net.L i) (eS : S' k = (S k).step GW GB) (eS' : ∀ i, i ≠ k → S' i = S i) :
    wp (optUpdate (op k) (some (net.wm k)) (some (net.bm k)) dw db) w (fun e w' => e = none ∧ TiedTask w' m net' op S' ∧
      Frame { flt := w.IsNetParam net, opt := fun a => ∃ i, i < net.size ∧ a = op i } w w') := by
  have hL := h.isNet.lay k hk
  have hown := h.tied.own k hk
  have hp : IsParams w (net.wm k) (net.bm k) (net.L k).n (net.L k).o 1 (net.L k).o (net.L k).W (fun _ j => (net.L k).b j) :=
    ⟨hL.wmat, hL.bmat, hown.distinct, fun i j _ hi hj _ _ => by omega, hown.disjoint⟩
  refine wp_mono (optUpdate_spec (h.opt k hk) hp hGW hGB) ?_
  rintro e w' ⟨he, hu⟩
  have hfr := hu.frame
  have hPar : ∀ a, w'.IsNetParam net' a ↔ w.IsNetParam net a := fun a =>
    (isNetParam_congr e1 e2 e3 (fun i => (hsz i).1) w' a).trans (h.isNet.isParam hfr (fun _ h => h) a)
  have hst : Static w w' := Static.of_frame hfr fun _ _ h => h
  have hdis : ∀ i a, i < net.size → net.lp k ≠ net.lp i → w.IsParam (net.wm i) (net.bm i) (net.L i).n a →
      ¬ w.IsPRow (net.wm k) (net.bm k) (net.L k).n 1 a := fun i a hi hne h1 h2 => hne (h.tied.sep i k a hi hk h1 h2).symm
  have hown' := h.tied.frame h.isNet hfr (fun _ h => h)
  have hkey : ∀ i, i < net.size → i ≠ k → ¬ (op i = op k) := fun i hi hne e => hne (h.inj i k hi hk e)
  refine ⟨he, ⟨⟨?_, ?_, ?_, ?_, ?_, ?_, ?_⟩, ⟨?_, ?_, ?_⟩, by rw [e1]; exact h.pos, by rw [e1]; exact h.optims, ?_,
    by rw [e1]; exact h.inj, ?_⟩, ?_⟩
  · rw [e1]; exact h.isNet.size
  · rw [e1, e4]; exact h.isNet.ptrs
  · intro i hi
    rw [e1] at hi
    rw [e4, e2, e3]
    by_cases hik : net.lp k = net.lp i
    · rw [eL i hi hik, ← hik, (h.isNet.same_mats hi hk hik.symm).1, (h.isNet.same_mats hi hk hik.symm).2]
      have hlay : w'.lay (net.lp k) = w.lay (net.lp k) := hfr.lay _ hL.lt (fun h => h)
      refine ⟨hL.lt.trans_le hfr.next_le, by rw [hlay]; exact hL.kind, by rw [hlay]; exact hL.ins, by rw [hlay]; exact hL.outs,
        by rw [hlay]; exact hL.weights, by rw [hlay]; exact hL.biases, by rw [hlay]; exact hL.slope,
        by rw [hlay]; exact hL.dropout, hu.params.wmat, ?_⟩
      refine hu.params.bmat.congr fun a j ha _ => ?_
      obtain rfl : a = 0 := by omega
      rfl
    · rw [eL' i hik]
      exact (h.isNet.lay i hi).frame_static hfr (hst _ (h.isNet.lay i hi).lt) (fun h => h) (fun h => h)
        fun a ha => hdis i a hi hik ha
  · intro i hi
    rw [e1] at hi
    rw [(hsz i).1, e5]; exact h.isNet.ins i hi
  · intro i hi
    rw [e1] at hi
    rw [(hsz i).2, e5]; exact h.isNet.outs i hi
  · rw [e1, e5]; exact h.isNet.input
  · rw [e1, e5]; exact h.isNet.output
  · intro i hi
    rw [e1] at hi
    rw [e2, e3, (hsz i).1]; exact hown'.own i hi
  · intro i j hi hj e
    rw [e1] at hi hj
    rw [e4] at e
    by_cases hik : net.lp k = net.lp i
    · rw [eL i hi hik, eL j hj (hik.trans e)]
    · rw [eL' i hik, eL' j (fun h => hik (h.trans e.symm)), h.tied.same i j hi hj e]
  · intro i j a hi hj
    rw [e1] at hi hj
    rw [e2, e3, e4, (hsz i).1, (hsz j).1]; exact hown'.sep i j a hi hj
  · intro i hi
    rw [e1] at hi
    rw [(hsz i).1, (hsz i).2]
    by_cases hik : i = k
    · subst hik; rw [eS]; exact hu.opt
    · rw [eS' i hik]
      exact (h.opt i hi).frame hfr (hkey i hi hik) (fun _ h => h) fun a ha hb => h.sep i a hi ha ⟨k, hk, hb⟩
  · intro i a hi h1 h2
    rw [e1] at hi
    rw [(hsz i).1] at h1
    rw [hPar] at h2
    by_cases hik : i = k
    · subst hik
      have := hu.fresh a h1
      have := h.isNet.param_lt h2
      omega
    · exact h.sep i a hi (((h.opt i hi).optRow_frame hfr (hkey i hi hik) (fun _ h => h) a).1 h1) h2
  · exact hfr.weaken (fun a _ h => ⟨k, hk, h⟩) (fun _ _ h => h) (fun _ _ h => h) (fun _ _ h => ⟨k, hk, h⟩) id id id

theorem tiedL_shape (net : Net α) (S : Nat → OptSpec α) (r : Nat) (V G : Nat → Nat → Nat → α) (i k : Nat) :
    ∃ W b, tiedL net S r V G i k = { net.L i with W := W, b := b } := by
  induction k with
  | zero => exact ⟨_, _, rfl⟩
  | succ k ih =>
    obtain ⟨W, b, e⟩ := ih
    unfold tiedL
    split
    · rw [e]; exact ⟨_, _, rfl⟩
    · exact ⟨W, b, e⟩

theorem tiedL_same {i j : Nat} (h1 : net.lp i = net.lp j) (h2 : net.L i = net.L j) (k : Nat) :
    tiedL net S r V G i k = tiedL net S r V G j k := by
  induction k with
  | zero => exact h2
  | succ k ih => unfold tiedL; rw [h1, ih]

/-- After the optimizer steps of the first k places. -/
def Net.tiedTo (net : Net α) (S : Nat → OptSpec α) (r : Nat) (V G : Nat → Nat → Nat → α) (k : Nat) : Net α :=
  { net with L := fun i => tiedL net S r V G i k }

theorem tied_updateLayers {w0 : World α} (h : TiedTask w m net op S) {gs : List Gradients}
    (hp : ∀ a, w.IsNetParam net a → a < w0.next) (hg : HasGrads w0 w net r 0 V G gs) :
    wp (updateLayers m gs) w (fun e w' => e = none ∧ TiedTask w' m (tiedNet net S r V G) op (stepOpts S r V G) ∧
      Frame { flt := w.IsNetParam net, opt := fun a => ∃ i, i < net.size ∧ a = op i } w w') := by
  unfold updateLayers
  rw [h.isNet.size, Int.toNat_natCast]
  set S1 := stepOpts S r V G with hS1
  have hn : ∀ i k, (tiedL net S r V G i k).n = (net.L i).n ∧ (tiedL net S r V G i k).o = (net.L i).o := fun i k => by
    obtain ⟨W, b, e⟩ := tiedL_shape net S r V G i k
    rw [e]; exact ⟨rfl, rfl⟩
  refine wp_mono (wp_forRet_none (fun k w' => TiedTask w' m (net.tiedTo S r V G k) op (fun i => if i < k then S1 i else S i) ∧
    Frame { flt := w.IsNetParam net, opt := fun a => ∃ i, i < net.size ∧ a = op i } w w') ⟨?_, Frame.refl _ _⟩ ?_) ?_
  · have : net.tiedTo S r V G 0 = net := rfl
    rw [this]
    simpa using h
  · intro k w1 hk ⟨ht, hf⟩
    have hN := ht.isNet
    refine wp_bind_ok (b := net.lp k) (w' := w1) (by simp [listGet, h.isNet.get_layer hk]; rfl) ?_
    refine wp_bind_ok rfl ?_
    refine wp_bind_ok (b := op k) (w' := w1) (by rw [h.optims]; simp [listGet, hk]; rfl) ?_
    obtain ⟨dw, db, eg, f1, f2, -⟩ := hg.get k (Nat.zero_le _) hk
    refine wp_bind_ok (b := ⟨dw, db⟩) (w' := w1) ?_ ?_
    · have e : (net.size : Int) - k - 1 = ((net.size - 1 - k : Nat) : Int) := by omega
      rw [e]; simp [listGet, eg]; rfl
    have hL : IsLayer w1 (net.lp k) (net.wm k) (net.bm k) (tiedL net S r V G k k) := hN.lay k hk
    rw [hL.weights, hL.biases]
    have hold : ∀ {a : Nat}, w0.next ≤ a → ¬ w.IsNetParam net a := fun h1 h2 => by have := hp _ h2; omega
    have hGW := f1.mat.frame hf (fun h => h) fun a ha => hold (f1.fresh a ha)
    have hGB := f2.mat.frame hf (fun h => h) fun a ha => hold (f2.fresh a ha)
    have hself : (if k < k then S1 k else S k) = S k := if_neg (by omega)
    refine wp_bind_mono (tied_update (net' := net.tiedTo S r V G (k + 1)) (S' := fun i => if i < k + 1 then S1 i else S i) ht hk
      (GW := gradW r (V k) (G k)) (GB := gradB r (G k)) ?_ ?_ rfl rfl rfl rfl rfl ?_ ?_ ?_ ?_ ?_) ?_
    · show IsMat w1 dw (tiedL net S r V G k k).n (tiedL net S r V G k k).o _
      rw [(hn k k).1, (hn k k).2]; exact hGW
    · show IsMat w1 db 1 (tiedL net S r V G k k).o _
      rw [(hn k k).2]; exact hGB
    · intro i
      show (tiedL net S r V G i (k + 1)).n = (tiedL net S r V G i k).n ∧ (tiedL net S r V G i (k + 1)).o = (tiedL net S r V G i k).o
      rw [(hn i _).1, (hn i _).1, (hn i _).2, (hn i _).2]; exact ⟨rfl, rfl⟩
    · intro i hi e
      show tiedL net S r V G i (k + 1) = _
      rw [tiedL, if_pos (show net.lp k = net.lp i from e), tiedL_same (S := S) (r := r) (V := V) (G := G) (net := net) e.symm
        (h.tied.same i k hi hk e.symm) k, hself]
      rfl
    · intro i e
      show tiedL net S r V G i (k + 1) = _
      rw [tiedL, if_neg (show ¬ net.lp k = net.lp i from e)]
      rfl
    · rw [if_pos (by omega), hself]
      rfl
    · intro i hi
      by_cases hik : i < k
      · simp only [if_pos hik, if_pos (show i < k + 1 by omega)]
      · simp only [if_neg hik, if_neg (show ¬ i < k + 1 by omega)]
    · rintro e w2 ⟨he, h1, h2⟩
      subst he
      refine ⟨rfl, h1, ?_⟩
      have hpe : ∀ a, w1.IsNetParam (net.tiedTo S r V G k) a ↔ w.IsNetParam net a := fun a =>
        (isNetParam_congr (net := net) (net' := net.tiedTo S r V G k) rfl rfl rfl (fun i => (hn i k).1) w1 a).trans
          (h.isNet.isParam hf (fun _ h => h) a)
      frames hf h2
      · exact fun a _ h => (hpe a).1 h
  · rintro e w1 ⟨he, h1, h2⟩
    refine ⟨he, ?_, h2⟩
    have e : ∀ i, i < net.size → (if i < net.size then S1 i else S i) = S1 i := fun i hi => if_pos hi
    exact ⟨h1.isNet, h1.tied, h1.pos, h1.optims, fun i hi => by have := h1.opt i hi; rwa [e i hi] at this, h1.inj, h1.sep⟩

/-- One training step of a model in which linear layers may occur more than once. -/
theorem tied_trainOn (h : TiedTask w m net op S) (hlin : TiedLinear net) (hns : ∀ k, k < net.size → (net.L k).kind ≠ .sigmoid) {loss : Loss}
    (hl : m.loss = some loss) (hls : loss.size = net.dim net.size) {x y : Mat} {X Y : Nat → Nat → α}
    (hX : IsMat w x r (net.dim 0) X) (hY : IsMat w y r (net.dim net.size) Y) :
    wp (trainOn m x y) w (fun e w' => e = none ∧ ∃ net' S',
      TiedStep m loss.kind r (fun q => w.unif (w.unifPos + q)) X Y net S net' S' ∧ TiedTask w' m net' op S' ∧
      w'.unifPos = w.unifPos + dropDraws net r net.size ∧ Static w w' ∧
      Frame { flt := w.IsNetParam net, lay := fun a => ∃ i, i < net.size ∧ a = net.lp i
              opt := fun a => ∃ i, i < net.size ∧ a = op i
              unif := ∃ i, i < net.size ∧ (net.L i).kind = .dropout } w w') := by
  unfold trainOn
  refine wp_bind_mono (modelForward_spec h.isNet hX true) ?_
  rintro ⟨outs, e⟩ w1 ⟨o, mask, V0, M0, he1, he2, ho, hV, hrun⟩
  obtain rfl : e = none := he2
  dsimp only at he1 ⊢
  subst he1
  have hdr : ∀ k, k < net.size → (net.L k).kind = .dropout → true = true := fun _ _ _ => rfl
  have hone : ∀ k, k < net.size → (net.L k).kind ≠ .linear → ∀ i, k < i → i < net.size → net.lp i ≠ net.lp k :=
    fun k hk hkl i h1 hi e => hkl (hlin k i hk hi e.symm (by omega))
  set u : Nat → α := fun q => w.unif (w.unifPos + q) with hu
  set V := trainVals net r u X with hVdef
  set M : Nat → Nat → Nat → α := fun k => dropBits (net.L k) fun q => u (dropDraws net r k + q) with hMdef
  have ht : Tape w1 m net r o mask V M := (tape_of_run' h.isNet hone hdr hX hrun ho hV).congr
    (fun k hk => run_vals hrun hV k hk) fun k hk hd => (hrun.valD k hk ⟨rfl, hd⟩).2
  have hfree := freeOut_of_run h.isNet h.pos hdr hrun hY
  have hY1 := hY.frame hrun.frame (fun h => h) (fun _ _ h => h)
  obtain ⟨G, D, hG⟩ := exists_netGrad m net loss.kind r V M Y
  have hT1 : TiedTask w1 m net op S := h.frame hrun.frame hrun.stat (fun _ h => h) (fun _ h => h) (fun _ _ h => h)
    (fun _ _ _ _ h => h)
  have hle1 := hrun.frame.next_le
  have hPar1 : ∀ a, w1.IsNetParam net a → a < w.next := fun a ha =>
    h.isNet.param_lt ((h.isNet.isParam hrun.frame (fun _ h => h) a).1 ha)
  have hOut : ∀ a, w1.IsRow (o net.size) r a → w.next ≤ a := by
    obtain ⟨n, hn⟩ : ∃ n, net.size = n + 1 := ⟨net.size - 1, by have := h.pos; omega⟩
    have := hrun.res n (by omega)
    rw [← hn] at this
    exact this.fresh
  refine wp_bind_mono (modelBackward_spec ht h.pos hns hl hls hY1 hfree hG) ?_
  rintro ⟨gs, e⟩ w2 ⟨he, hfr, hg⟩
  obtain rfl : e = none := he
  dsimp only at hg ⊢
  have hst2 : Static w1 w2 := Static.of_frame hfr fun _ _ h => h
  have hT2 : TiedTask w2 m net op S := by
    refine hT1.frame hfr hst2 (fun _ h => h) (fun _ h => h) (fun a h1 h2 => hfree.params a h1 h2.2) ?_
    intro i a hi h1 h2
    have := hOut a h2.2
    have := (h.opt i hi).optRow_lt (((h.opt i hi).optRow_frame hrun.frame (fun h => h) (fun _ h => h) a).1 h1)
    omega
  have hPar2 : ∀ a, w2.IsNetParam net a ↔ w1.IsNetParam net a := hT1.isNet.isParam hfr (fun _ h => h)
  refine wp_mono (tied_updateLayers hT2 (fun a ha => (hPar1 a ((hPar2 a).1 ha)).trans_le hle1) hg) ?_
  rintro e w3 ⟨he, h1, h2⟩
  have hpos : w3.unifPos = w.unifPos + dropDraws net r net.size := by
    rw [h2.unifPos (fun h => h), hfr.unifPos (fun h => h), hrun.pos, if_pos rfl]
  refine ⟨he, _, _, ⟨G, D, hG, rfl, rfl⟩, h1, hpos,
    (hrun.stat.trans hle1 hst2).trans (hle1.trans hfr.next_le) (Static.of_frame h2 fun _ _ h => h), ?_⟩
  have h12 : Frame { lay := fun a => ∃ i, i < net.size ∧ a = net.lp i
                     unif := true = true ∧ ∃ i, i < net.size ∧ (net.L i).kind = .dropout } w w2 := by
    frames hrun.frame hfr
    · intro a ha h3
      have := hOut a h3.2
      omega
  frames h12 h2
  · exact fun a _ h3 => (h.isNet.isParam hrun.frame (fun _ h => h) a).1 ((hPar2 a).1 h3)
  · exact fun h => h.2

theorem TiedStep.shape {loss : LossKind} {r : Nat} {u : Nat → α} {X Y : Nat → Nat → α}
    (h : TiedStep m loss r u X Y net S net' S') : SameShape net net' := by
  obtain ⟨G, D, -, rfl, -⟩ := h
  exact ⟨rfl, rfl, rfl, rfl, rfl, fun i => tiedL_shape _ _ _ _ _ _ _⟩

/-- The invariant of training. -/
structure TiedTrained (m : Model α) (loss : LossKind) (X Y : Nat → Nat → α) (op : Nat → Nat) (net : Net α) (S : Nat → OptSpec α)
    (w : World α) (bs : List (Nat × Nat)) (net' : Net α) (S' : Nat → OptSpec α) (w' : World α) : Prop where
  run : TiedDescent m loss w.unif X Y net S w.unifPos bs net' S' w'.unifPos
  task : TiedTask w' m net' op S'
  shape : SameShape net net'
  stat : Static w w'
  frame : Frame (trainFoot w net op) w w'

theorem TiedLinear.shape (h : TiedLinear net) (hs : SameShape net net') : TiedLinear net' := by
  intro i j hi hj e hne
  rw [hs.size] at hi hj
  rw [hs.lp] at e
  rw [hs.kind]
  exact h i j hi hj e hne

theorem TiedTrained.next {loss : Loss} {XM YM : Mat} {n : Nat} {X Y : Nat → Nat → α} {bs : List (Nat × Nat)}
    (hN : IsNet w m net) (hlin : TiedLinear net) (hT : TiedTrained m loss.kind X Y op net S w bs net' S' w')
    (hns : ∀ k, k < net.size → (net.L k).kind ≠ .sigmoid) (hl : m.loss = some loss) (hls : loss.size = net.dim net.size)
    (hX : IsMat w XM n (net.dim 0) X) (hY : IsMat w YM n (net.dim net.size) Y)
    (hpX : ∀ a, w.IsNetParam net a → ¬ w.IsRow XM n a) (hpY : ∀ a, w.IsNetParam net a → ¬ w.IsRow YM n a)
    {b : Nat × Nat} (hb : 0 < b.2) (hbn : b.1 + b.2 ≤ n) :
    wp (trainOn m (rowsOf XM b) (rowsOf YM b)) w' (fun e w2 => e = none ∧ ∃ net2 S2,
      TiedTrained m loss.kind X Y op net S w (bs ++ [b]) net2 S2 w2) := by
  have hX' : IsMat w' XM n (net'.dim 0) X := by
    rw [hT.shape.dim]; exact hX.frame hT.frame (fun h => h) fun a h1 h2 => hpX a h2 h1
  have hY' : IsMat w' YM n (net'.dim net'.size) Y := by
    rw [hT.shape.dim, hT.shape.size]; exact hY.frame hT.frame (fun h => h) fun a h1 h2 => hpY a h2 h1
  obtain ⟨lo, k⟩ := b
  refine wp_mono (tied_trainOn hT.task (hlin.shape hT.shape) (fun k hk => by rw [hT.shape.kind]; exact hns k (by rw [← hT.shape.size]; exact hk))
    hl (by rw [hT.shape.dim, hT.shape.size]; exact hls) (hX'.rowsOf hb hbn) (hY'.rowsOf hb hbn)) ?_
  rintro e w2 ⟨he, net2, S2, h1, h2, h3, h4, h5⟩
  refine ⟨he, net2, S2, ?_, h2, hT.shape.trans h1.shape, hT.stat.trans hT.frame.next_le h4, ?_⟩
  · rw [hT.frame.unif] at h1
    rw [h3]
    exact hT.run.step h1
  · have hf := hT.frame
    have hpe : ∀ a, w'.IsNetParam net' a ↔ w.IsNetParam net a := fun a =>
      (hT.shape.isParam w' a).trans (hN.isParam hf (fun _ h => h) a)
    have h5' : Frame (trainFoot w net op) w' w2 := by
      refine h5.weaken (fun a _ h => (hpe a).1 h) (fun _ _ h => h) ?_ ?_ ?_ id id
      · rintro a _ ⟨i, hi, e⟩
        exact ⟨i, by rw [← hT.shape.size]; exact hi, by rw [← hT.shape.lp]; exact e⟩
      · rintro a _ ⟨i, hi, e⟩
        exact ⟨i, by rw [← hT.shape.size]; exact hi, e⟩
      · rintro ⟨i, hi, e⟩
        exact ⟨i, by rw [← hT.shape.size]; exact hi, by rw [← hT.shape.kind]; exact e⟩
    frames hf h5'

/-- `Fit` with logging off. -/
theorem tied_fit [FltInt α] {loss : Loss} {XM YM xv yv : Mat} {n : Nat} {X Y : Nat → Nat → α} (hT : TiedTask w m net op S) (hlin : TiedLinear net)
    (hns : ∀ k, k < net.size → (net.L k).kind ≠ .sigmoid) (hl : m.loss = some loss) (hls : loss.size = net.dim net.size)
    (hX : IsMat w XM n (net.dim 0) X) (hY : IsMat w YM n (net.dim net.size) Y) (hcX : n ≤ XM.m.cap) (hcY : n ≤ YM.m.cap)
    (hpX : ∀ a, w.IsNetParam net a → ¬ w.IsRow XM n a) (hpY : ∀ a, w.IsNetParam net a → ¬ w.IsRow YM n a)
    (epochs : Int) (b : Nat) (hbig : n + b ≤ 2 ^ 53) :
    wp (fit m XM YM epochs b xv yv 0) w (fun e w' => e = none ∧ ∃ net' S',
      TiedTrained m loss.kind X Y op net S w (List.replicate epochs.toNat (blocks n b)).flatten net' S' w') := by
  unfold wp
  rw [fit_blocks hX hY hcX hcY epochs b hbig]
  change wp _ w _
  refine wp_mono (wp_forRet_none (fun e w' => ∃ net' S',
    TiedTrained m loss.kind X Y op net S w (List.replicate e (blocks n b)).flatten net' S' w') ?_ ?_) fun e w' h => h
  · exact ⟨net, S, .start, hT, SameShape.refl net, Static.refl w, Frame.refl _ _⟩
  · rintro e w1 he ⟨net1, S1, h1⟩
    unfold trainEpoch
    set bs := blocks n b with hbs
    have hloop : wp (forRet bs.length fun s => trainOn m (rowsOf XM (bs.getD s (0, 0))) (rowsOf YM (bs.getD s (0, 0)))) w1
        (fun r w' => r = none ∧ ∃ net' S', TiedTrained m loss.kind X Y op net S w
          ((List.replicate e bs).flatten ++ bs.take bs.length) net' S' w') := by
      refine wp_forRet_none (fun s w' => ∃ net' S', TiedTrained m loss.kind X Y op net S w
          ((List.replicate e bs).flatten ++ bs.take s) net' S' w') ?_ ?_
      · exact ⟨net1, S1, by simpa using h1⟩
      · rintro s w2 hs ⟨net2, S2, h2⟩
        have hget : bs.getD s (0, 0) = bs[s] := by rw [List.getD_eq_getElem?_getD]; simp [hs]
        have hmem := blocks_mem hX.rpos (List.getElem_mem hs : bs[s] ∈ bs)
        rw [hget]
        refine wp_mono (h2.next hT.isNet hlin hns hl hls hX hY hpX hpY hmem.1 hmem.2.1) ?_
        rintro e w3 ⟨he, net3, S3, h3⟩
        refine ⟨he, net3, S3, ?_⟩
        rw [List.append_assoc, List.take_append_getElem] at h3
        exact h3
    refine wp_bind_mono hloop ?_
    rintro r w2 ⟨rfl, net2, S2, h2⟩
    dsimp only
    unfold endOfEpoch
    rw [if_neg (by simp)]
    refine ⟨rfl, net2, S2, ?_⟩
    rw [List.take_length] at h2
    rw [List.replicate_succ', List.flatten_append]
    simpa using h2

end NN
