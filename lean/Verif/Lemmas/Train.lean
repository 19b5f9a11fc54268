import Verif.Lemmas.ModelBack
import Verif.Lemmas.Optim
import Verif.Spec.Fit
/- Training steps of `Fit`: forward pass, backward pass and optimizer updates together. -/

set_option linter.unusedSectionVars false

namespace NN
variable {α : Type} [Flt α]
open Go

variable {w w' : World α} {m : Model α} {net : Net α} {r : Nat} {o mask : Nat → Mat} {V M G D : Nat → Nat → Nat → α}
  {op : Nat → Nat} {S : Nat → OptSpec α}

/-- After a forward pass the layers remember what back-propagation needs, if those that remember anything occur only once. -/
theorem tape_of_run' {training : Bool} (hN : IsNet w m net)
    (hu : ∀ k, k < net.size → (net.L k).kind ≠ .linear → ∀ i, k < i → i < net.size → net.lp i ≠ net.lp k)
    (hdr : ∀ k, k < net.size → (net.L k).kind = .dropout → training = true) {x : Mat} {X : Nat → Nat → α}
    (hX : IsMat w x r (net.dim 0) X) (h : FwdRun training w w' net net.size r o mask V M) (ho : o 0 = x) (hV : V 0 = X) :
    Tape w' m net r o mask V M := by
  refine ⟨hN.frame h.frame h.stat (fun _ h => h) (fun _ _ h => h), ?_, ?_, ?_, ?_⟩
  · intro k hk
    rcases k with _ | k
    · rw [ho, hV]; exact hX.frame h.frame (fun h => h) (fun _ _ h => h)
    · exact (h.res k (by omega)).mat
  · intro k hk hkind
    by_cases hd : (net.L k).kind = .dropout
    · obtain ⟨l, e⟩ := h.memD k hk (hu k hk (by rw [hd]; decide)) ⟨hdr k hk hd, hd⟩
      rw [e]
    · obtain ⟨l, e⟩ := h.memo k hk (hu k hk (by rcases hkind with e | e | e <;> rw [e] <;> decide)) fun h => hd h.2
      rw [e]
      unfold remember
      rcases hkind with e | e | e <;> rw [e]
  · intro k hk hkind
    obtain ⟨l, e⟩ := h.memo k hk (hu k hk (by rw [hkind]; decide)) fun h => by rw [hkind] at h; cases h.2
    rw [e]
    unfold remember
    rw [hkind]
  · intro k hk hd
    obtain ⟨l, e⟩ := h.memD k hk (hu k hk (by rw [hd]; decide)) ⟨hdr k hk hd, hd⟩
    rw [e]
    exact ⟨rfl, (h.bits k hk ⟨hdr k hk hd, hd⟩).mat⟩

/-- After a forward pass the layers remember what back-propagation needs. -/
theorem tape_of_run {training : Bool} (hN : IsNet w m net) (hO : OwnNet w net)
    (hdr : ∀ k, k < net.size → (net.L k).kind = .dropout → training = true) {x : Mat} {X : Nat → Nat → α}
    (hX : IsMat w x r (net.dim 0) X) (h : FwdRun training w w' net net.size r o mask V M) (ho : o 0 = x) (hV : V 0 = X) :
    Tape w' m net r o mask V M := tape_of_run' hN (fun k hk _ i h1 hi e => by have := hO.inj i k hi hk e; omega) hdr hX h ho hV

theorem freeOut_of_run {training : Bool} (hN : IsNet w m net) (h0 : 0 < net.size)
    (hdr : ∀ k, k < net.size → (net.L k).kind = .dropout → training = true)
    (h : FwdRun training w w' net net.size r o mask V M) {y : Mat} {c : Nat} {Y : Nat → Nat → α} (hY : IsMat w y r c Y) :
    FreeOut w' net r o mask y := by
  obtain ⟨n, hn⟩ : ∃ n, net.size = n + 1 := ⟨net.size - 1, by omega⟩
  have hres := h.res n (by omega)
  rw [← hn] at hres
  refine ⟨hres.distinct, ?_, ?_, ?_, ?_⟩
  · intro k a hk h1 h2
    have := h.sep k net.size a (by omega) le_rfl h1 h2
    omega
  · intro k a hk hd h1 h2
    exact h.sepM net.size k a le_rfl hk ⟨hdr k hk hd, hd⟩ h2 h1
  · intro a h1 h2
    have := hres.fresh a h2
    have := hN.param_lt ((hN.isParam h.frame (fun _ h => h) a).1 h1)
    omega
  · intro a h1 h2
    have := hres.fresh a h2
    have := hY.isRow_lt ((hY.isRow_frame h.frame (fun h => h) a).1 h1)
    omega

theorem IsOpt.optRow_frame {f : Foot} {op rw cw rb cb : Nat} {S : OptSpec α} (h : IsOpt w op rw cw rb cb S) (hf : Frame f w w')
    (hn : ¬ f.opt op) (ho : ∀ a, ¬ f.outs a) (a : Nat) :
    w'.IsOptRow (w'.opt op) rw rb a ↔ w.IsOptRow (w.opt op) rw rb a := by
  have e := hf.opt op h.lt hn
  unfold World.IsOptRow
  rw [e]
  refine and_congr_right fun h1 => ?_
  cases h.slots with
  | unset h2 => exact absurd h2 h1
  | set h2 h3 h4 h5 =>
    rw [h2.isRow_frame hf (ho _), h3.isRow_frame hf (ho _)]
    refine or_congr_right (or_congr_right (and_congr_right fun hk => ?_))
    have hk' : S.kind = .adam := by rw [← h.fields.kind]; exact hk
    rw [(h4 hk').isRow_frame hf (ho _), (h5 hk').isRow_frame hf (ho _)]

theorem IsOpt.frame {f : Foot} {op rw cw rb cb : Nat} {S : OptSpec α} (h : IsOpt w op rw cw rb cb S) (hf : Frame f w w')
    (hn : ¬ f.opt op) (ho : ∀ a, ¬ f.outs a) (hr : ∀ a, w.IsOptRow (w.opt op) rw rb a → ¬ f.flt a) :
    IsOpt w' op rw cw rb cb S := by
  have e := hf.opt op h.lt hn
  refine ⟨h.lt.trans_le hf.next_le, by rw [e]; exact h.fields, ?_, by rw [e]; exact h.plain⟩
  rw [e]
  cases h.slots with
  | unset h2 h3 h4 h5 h6 => exact .unset h2 h3 h4 h5 h6
  | set h2 h3 h4 h5 =>
    have hne : (w.opt op).weightMomentums.rows ≠ 0 := by rw [h2.rows]; have := h2.rpos; omega
    refine .set (h2.frame hf (ho _) fun a ha => hr a ⟨hne, .inl ha⟩) (h3.frame hf (ho _) fun a ha => hr a ⟨hne, .inr (.inl ha)⟩)
      (fun hk => (h4 hk).frame hf (ho _) fun a ha => hr a ⟨hne, .inr (.inr ⟨h.fields.kind.trans hk, .inl ha⟩)⟩)
      (fun hk => (h5 hk).frame hf (ho _) fun a ha => hr a ⟨hne, .inr (.inr ⟨h.fields.kind.trans hk, .inr ha⟩)⟩)

theorem IsTask.frame {f : Foot} (h : IsTask w m net op S) (hf : Frame f w w') (hs : Static w w') (ho : ∀ a, ¬ f.outs a)
    (hop : ∀ a, ¬ f.opt a) (hp : ∀ a, w.IsNetParam net a → ¬ f.flt a)
    (hr : ∀ i a, i < net.size → w.IsOptRow (w.opt (op i)) (net.L i).n 1 a → ¬ f.flt a) : IsTask w' m net op S :=
  ⟨h.isNet.frame hf hs ho hp, h.own.frame h.isNet hf ho, h.pos, h.optims,
    fun i hi => (h.opt i hi).frame hf (hop _) ho fun a => hr i a hi, h.inj,
    fun i a hi h1 h2 => h.sep i a hi (((h.opt i hi).optRow_frame hf (hop _) ho a).1 h1) ((h.isNet.isParam hf ho a).1 h2)⟩

/-- The first k layers and optimizers have been updated. -/
def Net.upto (net net' : Net α) (k : Nat) : Net α := { net with L := fun i => if i < k then net'.L i else net.L i }

theorem isNetParam_congr {net net' : Net α} (h1 : net'.size = net.size) (h2 : net'.wm = net.wm) (h3 : net'.bm = net.bm)
    (h4 : ∀ i, (net'.L i).n = (net.L i).n) (w : World α) (a : Nat) : w.IsNetParam net' a ↔ w.IsNetParam net a := by
  unfold World.IsNetParam
  rw [h1, h2, h3]
  simp only [h4]

/-- One optimizer update inside a task. -/
theorem task_update (h : IsTask w m net op S) {k : Nat} (hk : k < net.size) {dw db : Mat} {GW GB : Nat → Nat → α}
    (hGW : IsMat w dw (net.L k).n (net.L k).o GW) (hGB : IsMat w db 1 (net.L k).o GB) {net' : Net α} {S' : Nat → OptSpec α}
    (e1 : net'.size = net.size) (e2 : net'.wm = net.wm) (e3 : net'.bm = net.bm) (e4 : net'.lp = net.lp) (e5 : net'.dim = net.dim)
    (eL : net'.L k = { net.L k with W := (S k).newW (net.L k).W GW, b := fun j => (S k).newB (fun _ j => (net.L k).b j) GB 0 j })
    (eL' : ∀ i, i ≠ k → net'.L i = net.L i) (eS : S' k = (S k).step GW GB) (eS' : ∀ i, i ≠ k → S' i = S i) :
    wp (optUpdate (op k) (some (net.wm k)) (some (net.bm k)) dw db) w (fun e w' => e = none ∧ IsTask w' m net' op S' ∧
      Frame { flt := w.IsNetParam net, opt := fun a => ∃ i, i < net.size ∧ a = op i } w w') := by
  have hL := h.isNet.lay k hk
  have hown := h.own.own k hk
  have hp : IsParams w (net.wm k) (net.bm k) (net.L k).n (net.L k).o 1 (net.L k).o (net.L k).W (fun _ j => (net.L k).b j) :=
    ⟨hL.wmat, hL.bmat, hown.distinct, fun i j _ hi hj _ _ => by omega, hown.disjoint⟩
  refine wp_mono (optUpdate_spec (h.opt k hk) hp hGW hGB) ?_
  rintro e w' ⟨he, hu⟩
  have hsz : ∀ i, (net'.L i).n = (net.L i).n ∧ (net'.L i).o = (net.L i).o := by
    intro i
    by_cases hi : i = k
    · subst hi; rw [eL]; exact ⟨rfl, rfl⟩
    · rw [eL' i hi]; exact ⟨rfl, rfl⟩
  have hfr := hu.frame
  have hPar : ∀ a, w'.IsNetParam net' a ↔ w.IsNetParam net a := fun a =>
    (isNetParam_congr e1 e2 e3 (fun i => (hsz i).1) w' a).trans (h.isNet.isParam hfr (fun _ h => h) a)
  have hst : Static w w' := Static.of_frame hfr fun _ _ h => h
  have hdis : ∀ i a, i < net.size → i ≠ k → w.IsParam (net.wm i) (net.bm i) (net.L i).n a →
      ¬ w.IsPRow (net.wm k) (net.bm k) (net.L k).n 1 a := fun i a hi hne h1 h2 => hne (h.own.sep i k a hi hk h1 h2)
  have hown' := h.own.frame h.isNet hfr (fun _ h => h)
  have hkey : ∀ i, i < net.size → i ≠ k → w.opt (op i) = w.opt (op i) ∧ ¬ (op i = op k) := fun i hi hne =>
    ⟨rfl, fun e => hne (h.inj i k hi hk e)⟩
  refine ⟨he, ⟨⟨?_, ?_, ?_, ?_, ?_, ?_, ?_⟩, ⟨?_, ?_, ?_⟩, by rw [e1]; exact h.pos, by rw [e1]; exact h.optims, ?_,
    by rw [e1]; exact h.inj, ?_⟩, ?_⟩
  · rw [e1]; exact h.isNet.size
  · rw [e1, e4]; exact h.isNet.ptrs
  · intro i hi
    rw [e1] at hi
    rw [e4, e2, e3]
    by_cases hik : i = k
    · subst hik
      rw [eL]
      have hlay : w'.lay (net.lp i) = w.lay (net.lp i) := hfr.lay _ hL.lt (fun h => h)
      refine ⟨hL.lt.trans_le hfr.next_le, by rw [hlay]; exact hL.kind, by rw [hlay]; exact hL.ins, by rw [hlay]; exact hL.outs,
        by rw [hlay]; exact hL.weights, by rw [hlay]; exact hL.biases, by rw [hlay]; exact hL.slope,
        by rw [hlay]; exact hL.dropout, hu.params.wmat, ?_⟩
      refine hu.params.bmat.congr fun a j ha _ => ?_
      obtain rfl : a = 0 := by omega
      rfl
    · rw [eL' i hik]
      exact (h.isNet.lay i hi).frame_static hfr (hst _ (h.isNet.lay i hi).lt) (fun h => h) (fun h => h)
        fun a ha => hdis i a hi hik ha
  · intro i hi
    rw [e1] at hi
    rw [(hsz i).1, e5]; exact h.isNet.ins i hi
  · intro i hi
    rw [e1] at hi
    rw [(hsz i).2, e5]; exact h.isNet.outs i hi
  · rw [e1, e5]; exact h.isNet.input
  · rw [e1, e5]; exact h.isNet.output
  · intro i hi
    rw [e1] at hi
    rw [e2, e3, (hsz i).1]; exact hown'.own i hi
  · rw [e1, e4]; exact hown'.inj
  · intro i j a hi hj
    rw [e1] at hi hj
    rw [e2, e3, (hsz i).1, (hsz j).1]; exact hown'.sep i j a hi hj
  · intro i hi
    rw [e1] at hi
    rw [(hsz i).1, (hsz i).2]
    by_cases hik : i = k
    · subst hik; rw [eS]; exact hu.opt
    · rw [eS' i hik]
      exact (h.opt i hi).frame hfr (hkey i hi hik).2 (fun _ h => h) fun a ha hb => h.sep i a hi ha ⟨k, hk, hb⟩
  · intro i a hi h1 h2
    rw [e1] at hi
    rw [(hsz i).1] at h1
    rw [hPar] at h2
    by_cases hik : i = k
    · subst hik
      have := hu.fresh a h1
      have := h.isNet.param_lt h2
      omega
    · exact h.sep i a hi (((h.opt i hi).optRow_frame hfr (hkey i hi hik).2 (fun _ h => h) a).1 h1) h2
  · exact hfr.weaken (fun a _ h => ⟨k, hk, h⟩) (fun _ _ h => h) (fun _ _ h => h) (fun _ _ h => ⟨k, hk, h⟩) id id id

theorem IsOpt.optRow_lt {op rw cw rb cb : Nat} {S : OptSpec α} (h : IsOpt w op rw cw rb cb S) {a : Nat}
    (ha : w.IsOptRow (w.opt op) rw rb a) : a < w.next := by
  obtain ⟨h1, h2⟩ := ha
  cases h.slots with
  | unset h3 => exact absurd h3 h1
  | set h3 h4 h5 h6 =>
    rcases h2 with h2 | h2 | ⟨hk, h2⟩
    · exact h3.isRow_lt h2
    · exact h4.isRow_lt h2
    · have hk' : S.kind = .adam := by rw [← h.fields.kind]; exact hk
      rcases h2 with h2 | h2
      · exact (h5 hk').isRow_lt h2
      · exact (h6 hk').isRow_lt h2

theorem Net.upto_succ (net net' : Net α) (k i : Nat) (hi : i ≠ k) : (net.upto net' (k + 1)).L i = (net.upto net' k).L i := by
  unfold Net.upto
  dsimp only
  by_cases h : i < k
  · rw [if_pos h, if_pos (by omega)]
  · rw [if_neg h, if_neg (by omega)]

theorem IsNetParam_congr' {net net' : Net α} (e1 : net'.size = net.size) (e2 : net'.wm = net.wm) (e3 : net'.bm = net.bm)
    (eL : ∀ i, i < net.size → net'.L i = net.L i) (w : World α) (a : Nat) : w.IsNetParam net' a ↔ w.IsNetParam net a := by
  unfold World.IsNetParam
  rw [e1, e2, e3]
  refine exists_congr fun i => and_congr_right fun hi => ?_
  rw [eL i hi]

theorem IsTask.congr {net' : Net α} {S' : Nat → OptSpec α} (h : IsTask w m net op S) (e1 : net'.size = net.size)
    (e2 : net'.wm = net.wm) (e3 : net'.bm = net.bm) (e4 : net'.lp = net.lp) (e5 : net'.dim = net.dim)
    (eL : ∀ i, i < net.size → net'.L i = net.L i) (eS : ∀ i, i < net.size → S' i = S i) : IsTask w m net' op S' := by
  have hN := h.isNet
  refine ⟨⟨by rw [e1]; exact hN.size, by rw [e1, e4]; exact hN.ptrs, ?_, ?_, ?_, by rw [e1, e5]; exact hN.input,
    by rw [e1, e5]; exact hN.output⟩, ⟨?_, ?_, ?_⟩, by rw [e1]; exact h.pos, by rw [e1]; exact h.optims, ?_,
    by rw [e1]; exact h.inj, ?_⟩
  · intro i hi
    rw [e1] at hi
    rw [e4, e2, e3, eL i hi]; exact hN.lay i hi
  · intro i hi
    rw [e1] at hi
    rw [e5, eL i hi]; exact hN.ins i hi
  · intro i hi
    rw [e1] at hi
    rw [e5, eL i hi]; exact hN.outs i hi
  · intro i hi
    rw [e1] at hi
    rw [e2, e3, eL i hi]; exact h.own.own i hi
  · rw [e1, e4]; exact h.own.inj
  · intro i j a hi hj
    rw [e1] at hi hj
    rw [e2, e3, eL i hi, eL j hj]; exact h.own.sep i j a hi hj
  · intro i hi
    rw [e1] at hi
    rw [eL i hi, eS i hi]; exact h.opt i hi
  · intro i a hi
    rw [e1] at hi
    rw [eL i hi, IsNetParam_congr' e1 e2 e3 eL]; exact h.sep i a hi

theorem updateLayers_spec {w0 : World α} (h : IsTask w m net op S) {gs : List Gradients}
    (hp : ∀ a, w.IsNetParam net a → a < w0.next) (hg : HasGrads w0 w net r 0 V G gs) :
    wp (updateLayers m gs) w (fun e w' => e = none ∧ IsTask w' m (stepNet net S r V G) op (stepOpts S r V G) ∧
      Frame { flt := w.IsNetParam net, opt := fun a => ∃ i, i < net.size ∧ a = op i } w w') := by
  unfold updateLayers
  rw [h.isNet.size, Int.toNat_natCast]
  set net1 := stepNet net S r V G with hnet1
  set S1 := stepOpts S r V G with hS1
  refine wp_mono (wp_forRet_none (fun k w' => IsTask w' m (net.upto net1 k) op (fun i => if i < k then S1 i else S i) ∧
    Frame { flt := w.IsNetParam net, opt := fun a => ∃ i, i < net.size ∧ a = op i } w w') ⟨?_, Frame.refl _ _⟩ ?_) ?_
  · have : net.upto net1 0 = net := by unfold Net.upto; simp
    rw [this]
    simpa using h
  · intro k w1 hk ⟨ht, hf⟩
    have hN := ht.isNet
    have ek : (net.upto net1 k).L k = net.L k := by unfold Net.upto; simp
    have eb : (net.upto net1 k).wm = net.wm ∧ (net.upto net1 k).bm = net.bm ∧ (net.upto net1 k).lp = net.lp ∧
      (net.upto net1 k).size = net.size := ⟨rfl, rfl, rfl, rfl⟩
    refine wp_bind_ok (b := net.lp k) (w' := w1) (by simp [listGet, h.isNet.get_layer hk]; rfl) ?_
    refine wp_bind_ok rfl ?_
    refine wp_bind_ok (b := op k) (w' := w1) (by rw [h.optims]; simp [listGet, hk]; rfl) ?_
    obtain ⟨dw, db, eg, f1, f2, -⟩ := hg.get k (Nat.zero_le _) hk
    refine wp_bind_ok (b := ⟨dw, db⟩) (w' := w1) ?_ ?_
    · have e : (net.size : Int) - k - 1 = ((net.size - 1 - k : Nat) : Int) := by omega
      rw [e]; simp [listGet, eg]; rfl
    have hL : IsLayer w1 (net.lp k) (net.wm k) (net.bm k) (net.L k) := by
      have := hN.lay k hk
      rwa [ek] at this
    rw [hL.weights, hL.biases]
    have hold : ∀ {a : Nat}, w0.next ≤ a → ¬ w.IsNetParam net a := fun h1 h2 => by have := hp _ h2; omega
    have hGW := f1.mat.frame hf (fun h => h) fun a ha => hold (f1.fresh a ha)
    have hGB := f2.mat.frame hf (fun h => h) fun a ha => hold (f2.fresh a ha)
    have hself : (if k < k then S1 k else S k) = S k := if_neg (by omega)
    refine wp_bind_mono (task_update (net' := net.upto net1 (k + 1)) (S' := fun i => if i < k + 1 then S1 i else S i) ht hk
      (by rw [ek]; exact hGW) (by rw [ek]; exact hGB) rfl rfl rfl rfl rfl ?_ ?_ ?_ ?_) ?_
    · rw [ek, hself]
      unfold Net.upto
      dsimp only
      rw [if_pos (by omega)]
      rfl
    · exact fun i hi => Net.upto_succ net net1 k i hi
    · rw [if_pos (by omega), hself]
      rfl
    · intro i hi
      by_cases hik : i < k
      · simp only [if_pos hik, if_pos (show i < k + 1 by omega)]
      · simp only [if_neg hik, if_neg (show ¬ i < k + 1 by omega)]
    · rintro e w2 ⟨he, h1, h2⟩
      subst he
      refine ⟨rfl, h1, ?_⟩
      have hpe : ∀ a, w1.IsNetParam (net.upto net1 k) a ↔ w.IsNetParam net a := fun a =>
        (isNetParam_congr (net := net) (net' := net.upto net1 k) rfl rfl rfl (fun i => by unfold Net.upto; dsimp only; split <;> rfl) w1 a).trans
          (h.isNet.isParam hf (fun _ h => h) a)
      frames hf h2
      · exact fun a _ h => (hpe a).1 h
  · rintro e w1 ⟨he, h1, h2⟩
    refine ⟨he, ?_, h2⟩
    -- beyond the last layer the two nets differ only outside the model
    refine h1.congr rfl rfl rfl rfl rfl (fun i hi => ?_) (fun i hi => ?_)
    · exact (if_pos hi).symm
    · exact (if_pos hi).symm

theorem run_vals {X : Nat → Nat → α} (h : FwdRun true w w' net net.size r o mask V M) (hV : V 0 = X) (k : Nat)
    (hk : k ≤ net.size) : V k = trainVals net r (fun q => w.unif (w.unifPos + q)) X k := by
  induction k with
  | zero => exact hV
  | succ k ih =>
    show V (k + 1) = trainOut (net.L k) _ (trainVals net r _ X k)
    rw [← ih (by omega)]
    by_cases hd : (net.L k).kind = .dropout
    · exact (h.valD k (by omega) ⟨rfl, hd⟩).1
    · rw [h.val k (by omega) fun h => hd h.2]
      funext i j
      unfold trainOut
      rw [if_neg hd]

theorem Tape.congr {V' M' : Nat → Nat → Nat → α} (h : Tape w m net r o mask V M) (hV : ∀ k, k ≤ net.size → V k = V' k)
    (hM : ∀ k, k < net.size → (net.L k).kind = .dropout → M k = M' k) : Tape w m net r o mask V' M' :=
  ⟨h.isNet, fun k hk => by rw [← hV k hk]; exact h.mats k hk, h.relu, h.soft,
    fun k hk hd => by rw [← hM k hk hd]; exact h.drop k hk hd⟩

/-- One training step: the parameters and optimizers are changed by an optimizer step along the gradients of
back-propagation, everything else stays. -/
theorem trainOn_spec (h : IsTask w m net op S) (hns : ∀ k, k < net.size → (net.L k).kind ≠ .sigmoid) {loss : Loss}
    (hl : m.loss = some loss) (hls : loss.size = net.dim net.size) {x y : Mat} {X Y : Nat → Nat → α}
    (hX : IsMat w x r (net.dim 0) X) (hY : IsMat w y r (net.dim net.size) Y) :
    wp (trainOn m x y) w (fun e w' => e = none ∧ ∃ net' S',
      TrainStep m loss.kind r (fun q => w.unif (w.unifPos + q)) X Y net S net' S' ∧ IsTask w' m net' op S' ∧
      w'.unifPos = w.unifPos + dropDraws net r net.size ∧ Static w w' ∧
      Frame { flt := w.IsNetParam net, lay := fun a => ∃ i, i < net.size ∧ a = net.lp i
              opt := fun a => ∃ i, i < net.size ∧ a = op i
              unif := ∃ i, i < net.size ∧ (net.L i).kind = .dropout } w w') := by
  unfold trainOn
  refine wp_bind_mono (modelForward_spec h.isNet hX true) ?_
  rintro ⟨outs, e⟩ w1 ⟨o, mask, V0, M0, he1, he2, ho, hV, hrun⟩
  obtain rfl : e = none := he2
  dsimp only at he1 ⊢
  subst he1
  have hdr : ∀ k, k < net.size → (net.L k).kind = .dropout → true = true := fun _ _ _ => rfl
  set u : Nat → α := fun q => w.unif (w.unifPos + q) with hu
  set V := trainVals net r u X with hVdef
  set M : Nat → Nat → Nat → α := fun k => dropBits (net.L k) fun q => u (dropDraws net r k + q) with hMdef
  have ht : Tape w1 m net r o mask V M := (tape_of_run h.isNet h.own hdr hX hrun ho hV).congr
    (fun k hk => run_vals hrun hV k hk) fun k hk hd => (hrun.valD k hk ⟨rfl, hd⟩).2
  have hfree := freeOut_of_run h.isNet h.pos hdr hrun hY
  have hY1 := hY.frame hrun.frame (fun h => h) (fun _ _ h => h)
  obtain ⟨G, D, hG⟩ := exists_netGrad m net loss.kind r V M Y
  have hT1 : IsTask w1 m net op S := h.frame hrun.frame hrun.stat (fun _ h => h) (fun _ h => h) (fun _ _ h => h)
    (fun _ _ _ _ h => h)
  have hle1 := hrun.frame.next_le
  have hPar1 : ∀ a, w1.IsNetParam net a → a < w.next := fun a ha =>
    h.isNet.param_lt ((h.isNet.isParam hrun.frame (fun _ h => h) a).1 ha)
  have hOut : ∀ a, w1.IsRow (o net.size) r a → w.next ≤ a := by
    obtain ⟨n, hn⟩ : ∃ n, net.size = n + 1 := ⟨net.size - 1, by have := h.pos; omega⟩
    have := hrun.res n (by omega)
    rw [← hn] at this
    exact this.fresh
  refine wp_bind_mono (modelBackward_spec ht h.pos hns hl hls hY1 hfree hG) ?_
  rintro ⟨gs, e⟩ w2 ⟨he, hfr, hg⟩
  obtain rfl : e = none := he
  dsimp only at hg ⊢
  have hst2 : Static w1 w2 := Static.of_frame hfr fun _ _ h => h
  have hT2 : IsTask w2 m net op S := by
    refine hT1.frame hfr hst2 (fun _ h => h) (fun _ h => h) (fun a h1 h2 => hfree.params a h1 h2.2) ?_
    intro i a hi h1 h2
    have := hOut a h2.2
    have := (h.opt i hi).optRow_lt (((h.opt i hi).optRow_frame hrun.frame (fun h => h) (fun _ h => h) a).1 h1)
    omega
  have hPar2 : ∀ a, w2.IsNetParam net a ↔ w1.IsNetParam net a := hT1.isNet.isParam hfr (fun _ h => h)
  refine wp_mono (updateLayers_spec hT2 (fun a ha => (hPar1 a ((hPar2 a).1 ha)).trans_le hle1) hg) ?_
  rintro e w3 ⟨he, h1, h2⟩
  have hpos : w3.unifPos = w.unifPos + dropDraws net r net.size := by
    rw [h2.unifPos (fun h => h), hfr.unifPos (fun h => h), hrun.pos, if_pos rfl]
  refine ⟨he, _, _, ⟨G, D, hG, rfl, rfl⟩, h1, hpos,
    (hrun.stat.trans hle1 hst2).trans (hle1.trans hfr.next_le) (Static.of_frame h2 fun _ _ h => h), ?_⟩
  have h12 : Frame { lay := fun a => ∃ i, i < net.size ∧ a = net.lp i
                     unif := true = true ∧ ∃ i, i < net.size ∧ (net.L i).kind = .dropout } w w2 := by
    frames hrun.frame hfr
    · intro a ha h3
      have := hOut a h3.2
      omega
  frames h12 h2
  · exact fun a _ h3 => (h.isNet.isParam hrun.frame (fun _ h => h) a).1 ((hPar2 a).1 h3)
  · exact fun h => h.2

end NN
