import Verif.Lemmas.Same
import Verif.IEEE.IntArith
import Verif.Props.C65_C69
import Verif.Props.C52_C57
/-
C76: training depends on the content of model, optimizers and data only; whether training can be resumed after saving and
loading.
-/

set_option linter.unusedSectionVars false

namespace NN
open NN.Go

theorem blocks_le (n b : Nat) : ∀ p ∈ blocks n b, p.1 + p.2 ≤ n := by
  unfold blocks
  split
  · intro p hp
    simp only [List.mem_singleton] at hp
    subst hp
    simp
  · rintro p hp
    obtain ⟨s, hs, rfl⟩ := List.mem_map.1 hp
    have hs := List.mem_range.1 hs
    have : s * b ≤ n := by
      by_contra h
      have h1 : n + b - 1 < (s + 1) * b := by rw [Nat.succ_mul]; omega
      have h2 : (n + b - 1) / b < s + 1 := Nat.div_lt_of_lt_mul (by rw [mul_comm]; exact h1)
      have h3 : s * b ≤ n + b - 1 := (Nat.mul_le_mul_right b (by omega)).trans (Nat.div_mul_le_self (n + b - 1) b)
      have h4 : (s + 1) * b ≤ n + b - 1 := (Nat.mul_le_mul_right b hs).trans (Nat.div_mul_le_self (n + b - 1) b)
      rw [Nat.succ_mul] at h4
      omega
    dsimp only
    omega

section Any
variable {α : Type} [Flt α]

/-- Content of a training situation: data set and settings. -/
structure Trains (w : World α) (m : Model α) (net : Net α) (op : Nat → Nat) (S : Nat → OptSpec α) (k : LossKind) (X Y : Mat) (n : Nat)
    (A B : Nat → Nat → α) : Prop where
  task : IsTask w m net op S
  loss : m.loss = some ⟨k, net.dim net.size⟩
  noSig : ∀ i, i < net.size → (net.L i).kind ≠ .sigmoid
  xs : IsData w net X n (net.dim 0) A
  ys : IsData w net Y n (net.dim net.size) B

/-- C76: Fit on two models with the same content (in any storage, possibly in different programs), optimizers in the same state, the
same data and the same random numbers: both succeed, and end with the same content. -/
theorem C76_deterministic [FltInt α] (w w' : World α) (m m' : Model α) (net net' : Net α) (op op' : Nat → Nat) (S S' : Nat → OptSpec α)
    (k : LossKind) (X Y X' Y' xv yv xv' yv' : Mat) (n : Nat) (A B A' B' : Nat → Nat → α) (h : Trains w m net op S k X Y n A B)
    (h' : Trains w' m' net' op' S' k X' Y' n A' B') (hm : m'.lossType = m.lossType) (hN : SameNet net net')
    (hS : ∀ i, i < net.size → OptLike (net.L i).n (net.L i).o (S i) (S' i)) (hA : Agree n (net.dim 0) A A')
    (hB : Agree n (net.dim net.size) B B') (hu : ∀ q, w'.unif (w'.unifPos + q) = w.unif (w.unifPos + q)) (epochs : Int) (b : Nat)
    (hbig : n + b ≤ 2 ^ 53) :
    wp (fit m X Y epochs b xv yv 0) w fun e w1 => wp (fit m' X' Y' epochs b xv' yv' 0) w' fun e' w1' =>
      e = none ∧ e' = none ∧ ∃ net1 net1' S1 S1', IsTask w1 m net1 op S1 ∧ IsTask w1' m' net1' op' S1' ∧ SameNet net1 net1' ∧
        ∀ i, i < net.size → OptLike (net.L i).n (net.L i).o (S1 i) (S1' i) := by
  refine wp_mono (C70_fit w m net op S h.task h.noSig _ h.loss rfl X Y xv yv n A B h.xs.mat h.ys.mat h.xs.cap h.ys.cap h.xs.sep h.ys.sep
    epochs b hbig) ?_
  rintro e w1 ⟨he, net1, S1, d1, t1, s1, -⟩
  refine wp_mono (C70_fit w' m' net' op' S' h'.task h'.noSig _ h'.loss rfl X' Y' xv' yv' n A' B' h'.xs.mat h'.ys.mat h'.xs.cap h'.ys.cap
    h'.xs.sep h'.ys.sep epochs b hbig) ?_
  rintro e' w1' ⟨he', net1', S1', d2, t2, -⟩
  obtain ⟨hr, -⟩ := descent_same hm hu ⟨hN, hS⟩ h.task.pos hA hB _ (fun p hp => by
    obtain ⟨l, hl, hp⟩ := List.mem_flatten.1 hp
    rw [List.eq_of_mem_replicate hl] at hp
    exact blocks_le n b p hp) d1 d2
  refine ⟨he, he', net1, net1', S1, S1', t1, t2, hr.layers, fun i hi => ?_⟩
  have := hr.opt i (by rw [s1.size]; exact hi)
  obtain ⟨W, b, e⟩ := s1.layer i
  rw [e] at this
  exact this

end Any

section Resume
variable {α : Type} [Flt α] [FltBits α] [FltInt α]

/-- The optimizer object has the settings of `o`. -/
structure HasSettings (o : Optim α) (S : OptSpec α) : Prop where
  kind : S.kind = o.kind
  lr : S.lr = o.learningRate
  decay : S.decay = o.decay
  momentum : o.kind = .sgd → S.momentum = o.momentum
  epsilon : o.kind = .adam → S.epsilon = o.epsilon
  beta1 : o.kind = .adam → S.beta1 = o.beta1
  beta2 : o.kind = .adam → S.beta2 = o.beta2

/-- Training can be resumed: a model that is saved, loaded (in any program) and then trained ends with the same parameters as the model
itself when it is trained further on the same data, with the same random numbers. -/
def Resumes (w : World α) (m : Model α) (net : Net α) : Prop :=
  ∀ (order : GoMap α) (bytes : List Byte), order.Perm m.optValues → SavedAs w m order bytes → ∀ w1 : World α,
    wp (loadModel bytes) w1 fun x w2 => ∃ m', x.1 = .ok m' ∧
      ∀ (X Y X' Y' xv yv xv' yv' : Mat) (n : Nat) (A B : Nat → Nat → α) (epochs : Int) (b : Nat), n + b ≤ 2 ^ 53 →
        IsData w net X n (net.dim 0) A → IsData w net Y n (net.dim net.size) B →
        (∀ a, w2.IsRow X' n a → a < w1.next) → IsMat w2 X' n (net.dim 0) A → n ≤ X'.m.cap →
        (∀ a, w2.IsRow Y' n a → a < w1.next) → IsMat w2 Y' n (net.dim net.size) B → n ≤ Y'.m.cap →
        (∀ q, w2.unif (w2.unifPos + q) = w.unif (w.unifPos + q)) →
        wp (fit m X Y epochs b xv yv 0) w fun e wa => wp (fit m' X' Y' epochs b xv' yv' 0) w2 fun e' wb =>
          e = none ∧ e' = none ∧ ∃ neta netb, IsNet wa m neta ∧ IsNet wb m' netb ∧ SameNet neta netb

/-- C76 as stated, for all optimizers. -/
def C76_claim (α : Type) [Flt α] [FltBits α] [FltInt α] : Prop :=
  ∀ (w : World α) (m : Model α) (net : Net α) (op : Nat → Nat) (S : Nat → OptSpec α) (k : LossKind) (o : Optim α),
    Ready w m net k o → IsTask w m net op S → (∀ i, i < net.size → HasSettings o (S i)) → (∀ i, i < net.size → (net.L i).kind ≠ .sigmoid) →
    (∀ i, i < net.size → (net.L i).Saveable) → net.size ≤ 127 → Resumes w m net

theorem optFrom_settings (o : Optim α) : HasSettings o (OptSpec.fresh (optFrom o)) := by
  unfold optFrom
  cases hk : o.kind with
  | sgd => exact ⟨hk.symm, rfl, rfl, fun _ => rfl, (fun h => by rw [hk] at h; cases h), (fun h => by rw [hk] at h; cases h),
      (fun h => by rw [hk] at h; cases h)⟩
  | adam => exact ⟨hk.symm, rfl, rfl, (fun h => by rw [hk] at h; cases h), fun _ => rfl, fun _ => rfl, fun _ => rfl⟩

/-- Optimizers with the same saved values have the same settings. -/
theorem settings_of_values {o o' : Optim α} (hk : o'.kind = o.kind) (hv : o'.getValues.del (str "type") = o.getValues.del (str "type"))
    {S : OptSpec α} (h : HasSettings o' S) : HasSettings o S := by
  unfold Optim.getValues at hv
  rw [hk] at hv
  cases ho : o.kind with
  | sgd =>
    rw [ho] at hv hk
    have e : [(str "learningRate", o'.learningRate), (str "decay", o'.decay), (str "momentum", o'.momentum)] =
      [(str "learningRate", o.learningRate), (str "decay", o.decay), (str "momentum", o.momentum)] := hv
    simp only [List.cons.injEq, Prod.mk.injEq, true_and, and_true] at e
    exact ⟨h.kind.trans (hk.trans ho.symm), h.lr.trans e.1, h.decay.trans e.2.1, fun _ => (h.momentum hk).trans e.2.2,
      (fun h => by rw [ho] at h; cases h), (fun h => by rw [ho] at h; cases h), (fun h => by rw [ho] at h; cases h)⟩
  | adam =>
    rw [ho] at hv hk
    have e : [(str "learningRate", o'.learningRate), (str "decay", o'.decay), (str "epsilon", o'.epsilon), (str "beta1", o'.beta1),
      (str "beta2", o'.beta2)] = [(str "learningRate", o.learningRate), (str "decay", o.decay), (str "epsilon", o.epsilon),
      (str "beta1", o.beta1), (str "beta2", o.beta2)] := hv
    simp only [List.cons.injEq, Prod.mk.injEq, true_and, and_true] at e
    exact ⟨h.kind.trans (hk.trans ho.symm), h.lr.trans e.1, h.decay.trans e.2.1, (fun h => by rw [ho] at h; cases h),
      fun _ => (h.epsilon hk).trans e.2.2.1, fun _ => (h.beta1 hk).trans e.2.2.2.1, fun _ => (h.beta2 hk).trans e.2.2.2.2⟩

/-- Loading a saved model, with everything that is needed to train it. -/
theorem load_task {w : World α} {m : Model α} {net : Net α} {k : LossKind} {o : Optim α} (h : Ready w m net k o) (hpos : 0 < net.size)
    (hs : ∀ i, i < net.size → (net.L i).Saveable) (h127 : net.size ≤ 127) {order : GoMap α} {bytes : List Byte} (ho : order.Perm m.optValues)
    (hb : SavedAs w m order bytes) (w1 : World α) : wp (loadModel bytes) w1 fun x w2 => ∃ m' net' op', x = (.ok m', []) ∧
      SameModel m m' net net' ∧ SameNet net net' ∧ (∃ o', HasSettings o (OptSpec.fresh (optFrom o')) ∧
        IsTask w2 m' net' op' fun _ => OptSpec.fresh (optFrom o')) ∧ m'.loss = some ⟨k, net'.dim net'.size⟩ ∧ AllocsLog w1 w2 ∧ ∀ a, w2.IsNetParam net' a → w1.next ≤ a := by
  rw [(savedAs_iff h.isNet hs ho).1 hb]
  have hl := loadModel_saved h hs (by omega) ho w1 []
  rw [List.append_nil] at hl
  refine wp_mono hl ?_
  rintro x w2 ⟨m', net', k', o', op, hx, hl, hsame⟩
  have hpos' : 0 < net'.size := by rw [hsame.size]; exact hpos
  have hdim : ∀ i, i ≤ net.size → net'.dim i = net.dim i := by
    intro i hi
    by_cases he : i = net.size
    · have e1 := hl.isNet.output hpos'
      have e2 := h.isNet.output hpos
      rw [hsame.outputSize, e2, hsame.size] at e1
      rw [he]
      exact_mod_cast e1.symm
    · rw [← hl.isNet.ins i (by rw [hsame.size]; omega), ← h.isNet.ins i (by omega), (hsame.layer i (by omega)).n]
  have hoo : o'.kind = o.kind := by
    have e := hl.optCode
    have e' : (rawModel m net order).optType = o.kind.code := h.optType
    rw [e'] at e
    revert e
    cases o'.kind <;> cases o.kind <;> decide
  have hv : o'.getValues.del (str "type") = o.getValues.del (str "type") := by
    rw [← hl.optValues, ← h.optValues, hsame.optValues]
  refine ⟨m', net', op, hx, hsame, ⟨hsame.size, hdim, h.isNet.ins, h.isNet.outs, hsame.layer⟩,
    ⟨o', settings_of_values hoo hv (optFrom_settings o'), hl.task hpos'⟩, ?_, hl.frame, fun a ⟨i, hi, hp⟩ => hl.params i a hi hp⟩
  rw [hsame.loss, h.loss, h.isNet.output hpos, hsame.size, hdim _ le_rfl]

/-- C76 without decay and momentum: training can be resumed.  (In general it cannot, see C76_false: momentum, moments and step count
of the optimizers are not saved.) -/
theorem C76_resume_partial (w : World α) (m : Model α) (net : Net α) (op : Nat → Nat) (S : Nat → OptSpec α) (k : LossKind) (o : Optim α)
    (h : Ready w m net k o) (hT : IsTask w m net op S) (hS : ∀ i, i < net.size → HasSettings o (S i))
    (hns : ∀ i, i < net.size → (net.L i).kind ≠ .sigmoid) (hs : ∀ i, i < net.size → (net.L i).Saveable) (h127 : net.size ≤ 127)
    (hk : o.kind = .sgd) (hd : Flt.eq o.decay Flt.zero = true) (hm : Flt.eq o.momentum Flt.zero = true) : Resumes w m net := by
  intro order bytes ho hb w1
  refine wp_mono (load_task h hT.pos hs h127 ho hb w1) ?_
  rintro x w2 ⟨m', net', op', rfl, hsame, hnet, ⟨o', ho', hT'⟩, hloss, hframe, hpar⟩
  refine ⟨m', rfl, ?_⟩
  intro X Y X' Y' xv yv xv' yv' n A B epochs b hbig dX dY sX mX cX sY mY cY hu
  have hd0 := hnet.dim 0 (by omega)
  have hds := hnet.dim _ le_rfl
  refine wp_mono (C76_deterministic w w2 m m' net net' op op' S _ k X Y X' Y' xv yv xv' yv' n A B A B
    ⟨hT, by rw [h.loss, h.isNet.output hT.pos], hns, dX, dY⟩
    ⟨hT', hloss, fun i hi => by
        rw [(hnet.layer i (by rw [← hnet.size]; exact hi)).kind]
        exact hns i (by rw [← hnet.size]; exact hi),
      ⟨by rw [hd0]; exact mX, cX, fun a h1 h2 => by have := hpar a h1; have := sX a h2; omega⟩,
      ⟨by rw [hnet.size, hds]; exact mY, cY, fun a h1 h2 => by have := hpar a h1; have := sY a h2; omega⟩⟩
    hsame.lossType hnet (fun i hi => .inr ⟨⟨(hS i hi).kind.trans hk, ?_, ?_⟩, ⟨ho'.kind.trans hk, ?_, ?_⟩, ?_⟩) (fun _ _ _ _ => rfl) (fun _ _ _ _ => rfl) hu
    epochs b hbig) ?_
  · rw [(hS i hi).decay]; exact hd
  · rw [(hS i hi).momentum hk]; exact hm
  · rw [ho'.decay]; exact hd
  · rw [ho'.momentum hk]; exact hm
  · rw [ho'.lr, (hS i hi).lr]
  · intro e wa he
    refine wp_mono he ?_
    rintro e' wb ⟨h1, h2, net1, net1', S1, S1', t1, t2, hs, -⟩
    exact ⟨h1, h2, net1, net1', t1.isNet, t2.isNet, hs⟩

end Resume

/-! ### Momentum is lost -/

/-- One step of SGD with momentum 1 and learning rate 1 on the sample (1, 1), for a linear layer with one input and one output. -/
theorem unit_step [Libm] {m : Model F64} {u : Nat → F64} {X Y : Nat → Nat → F64} {net net1 : Net F64} {S S1 : Nat → OptSpec F64}
    (h : TrainStep m .mse 1 u X Y net S net1 S1) (hm : m.lossType = 0) (hs : net.size = 1) (hdim : net.dim 1 = 1) (hk : (net.L 0).kind = .linear) (hn : (net.L 0).n = 1)
    {a c v : Int} (hW : (net.L 0).W 0 0 = Flt.ofInt a) (hb : (net.L 0).b 0 = Flt.ofInt c) (hX : X 0 0 = Flt.ofInt 1) (hY : Y 0 0 = Flt.ofInt 1)
    (s1 : (S 0).kind = .sgd) (s2 : (S 0).lr = Flt.ofInt 1) (s3 : (S 0).decay = Flt.ofInt 0) (s4 : (S 0).momentum = Flt.ofInt 1)
    (s5 : (S 0).vw 0 0 = Flt.ofInt v) (s6 : (S 0).vb 0 0 = Flt.ofInt v) (ha : 0 ≤ a ∧ a ≤ 1000) (hc : 0 ≤ c ∧ c ≤ 1000) (hv : 0 ≤ v ∧ v ≤ 1000)
    (hne : a + c ≠ 1) :
    (net1.L 0).W 0 0 = Flt.ofInt (a + (v - (a + c - 1) * 2)) ∧ (net1.L 0).b 0 = Flt.ofInt (c + (v - (a + c - 1) * 2)) ∧
      (S1 0).vw 0 0 = Flt.ofInt (v - (a + c - 1) * 2) ∧ (S1 0).vb 0 0 = Flt.ofInt (v - (a + c - 1) * 2) ∧
      (S1 0).kind = .sgd ∧ (S1 0).lr = (S 0).lr ∧ (S1 0).decay = (S 0).decay ∧ (S1 0).momentum = (S 0).momentum := by
  obtain ⟨G, D, hg, rfl, rfl⟩ := h
  have hf : ¬ Fused m net := fun hx => by rw [hx.2] at hm; cases hm
  obtain ⟨h1, h2⟩ := hg.plain hf
  have hG := h2.act 0 (by omega)
  have hnz : (a + c - 1) * 2 ≠ 0 := by omega
  have z : ∀ n : Int, -(2 ^ 52) ≤ n ∧ n ≤ 2 ^ 52 → (Flt.zero : F64) +. Flt.ofInt n = Flt.ofInt n := fun n hn => by
    rw [f64_add 0 n (by norm_num) hn, zero_add]
  have hP : trainVals net 1 u X 1 0 0 = Flt.ofInt (a + c) := by
    show trainOut (net.L 0) _ X 0 0 = _
    unfold trainOut infer actRow preact
    rw [hk, if_neg (by decide), hn, hb]
    show (fsum 1 fun k => X 0 k *. (net.L 0).W k 0) +. _ = _
    show (Flt.zero +. X 0 0 *. (net.L 0).W 0 0) +. _ = _
    rw [hX, hW, f64_mul 1 a (by norm_num) (by omega) (.inr ⟨by norm_num, ha.1⟩), z _ (by omega), f64_add _ _ (by omega) (by omega), one_mul]
  have hg0 : G 0 0 0 = Flt.ofInt ((a + c - 1) * 2) := by
    rw [hG]
    unfold actBack
    rw [hk]
    show D 1 0 0 = _
    rw [hs] at h1
    rw [h1, hdim]
    show (trainVals net 1 u X 1 0 0 -. Y 0 0) *. (Flt.ofInt 2 /. Flt.ofInt 1) = _
    rw [hP, hY, f64_sub _ _ (by omega) (by norm_num), f64_div 2 1 (by norm_num) (by norm_num) (.inl (by norm_num)) (one_dvd _)]
    exact f64_mul _ _ (by omega) (by norm_num) (.inl (by omega))
  have hgW : gradW 1 (trainVals net 1 u X 0) (G 0) 0 0 = Flt.ofInt ((a + c - 1) * 2) := by
    show Flt.zero +. X 0 0 *. G 0 0 0 = _
    rw [hX, hg0, f64_mul 1 _ (by norm_num) (by omega) (.inl (by omega)), one_mul, z _ (by omega)]
  have hgB : gradB 1 (G 0) 0 0 = Flt.ofInt ((a + c - 1) * 2) := by
    show Flt.zero +. G 0 0 0 = _
    rw [hg0, z _ (by omega)]
  have hr : (S 0).rate = Flt.ofInt 1 := by
    unfold OptSpec.rate
    rw [s3, f64_eq_int 0 0 (by norm_num) (by norm_num), s2]
    rfl
  have hm1 : Flt.eq (S 0).momentum Flt.zero = false := by
    rw [s4, f64_eq_int 1 0 (by norm_num) (by norm_num)]
    rfl
  have hvel : (S 0).vel (Flt.ofInt v) (Flt.ofInt ((a + c - 1) * 2)) = Flt.ofInt (v - (a + c - 1) * 2) := by
    unfold OptSpec.vel
    rw [s1]
    dsimp only
    rw [hm1, hr, s4, f64_mul v 1 (by omega) (by norm_num) (.inr ⟨hv.1, by norm_num⟩), f64_mul _ 1 (by omega) (by norm_num) (.inl (by omega)),
      mul_one, mul_one, f64_sub _ _ (by omega) (by omega)]
    rfl
  have hupd : ∀ (x : Int) (q : F64), 0 ≤ x ∧ x ≤ 1000 → (S 0).upd (Flt.ofInt x) (Flt.ofInt v) q (Flt.ofInt ((a + c - 1) * 2)) =
      Flt.ofInt (x + (v - (a + c - 1) * 2)) := fun x q hx => by
    unfold OptSpec.upd
    rw [s1]
    dsimp only
    rw [hm1, hvel, f64_add _ _ (by omega) (by omega)]
    rfl
  refine ⟨?_, ?_, ?_, ?_, s1, rfl, rfl, rfl⟩
  · show (S 0).upd ((net.L 0).W 0 0) ((S 0).vw 0 0) _ (gradW 1 (trainVals net 1 u X 0) (G 0) 0 0) = _
    rw [hW, s5, hgW, hupd _ _ ha]
  · show (S 0).upd ((net.L 0).b 0) ((S 0).vb 0 0) _ (gradB 1 (G 0) 0 0) = _
    rw [hb, s6, hgB, hupd _ _ hc]
  · show (S 0).vel ((S 0).vw 0 0) (gradW 1 (trainVals net 1 u X 0) (G 0) 0 0) = _
    rw [s5, hgW, hvel]
  · show (S 0).vel ((S 0).vb 0 0) (gradB 1 (G 0) 0 0) = _
    rw [s6, hgB, hvel]

theorem Descent.one {α : Type} [Flt α] {m : Model α} {loss : LossKind} {u : Nat → α} {X Y : Nat → Nat → α} {net net2 : Net α}
    {S S2 : Nat → OptSpec α} {p p2 : Nat} (h : Descent m loss u X Y net S p (List.replicate (1 : Int).toNat (blocks 1 0)).flatten net2 S2 p2) :
    TrainStep m loss 1 (fun q => u (p + q)) (fun i j => X (0 + i) j) (fun i j => Y (0 + i) j) net S net2 S2 := by
  have e : (List.replicate (1 : Int).toNat (blocks 1 0)).flatten = [] ++ [(0, 1)] := rfl
  rw [e] at h
  obtain ⟨net1, S1, p1, h1, h2, -⟩ := h.snoc
  obtain ⟨rfl, rfl, rfl⟩ := h1.nil
  exact h2

/-- A linear layer with one input and one output, all zero. -/
noncomputable def restUnit [Libm] (_ : Nat) : LayerSpec F64 := ⟨.linear, 1, 1, fun _ _ => Flt.ofInt 0, fun _ => Flt.ofInt 0, Flt.ofInt 0, Flt.ofInt 0⟩

/-- SGD with learning rate 1 and momentum 1. -/
noncomputable def heavy [Libm] : Optim F64 := { (Optim.zero .sgd : Optim F64) with learningRate := Flt.ofInt 1, decay := Flt.ofInt 0, momentum := Flt.ofInt 1 }

/-- A model with one layer, mean squared error, and `heavy` as the optimizer. -/
noncomputable def heavyM [Libm] : Model F64 :=
  { (newModel : Model F64) with
    loss := some ⟨.mse, 1⟩, lossType := 0, optType := 0, accPrec := Flt.zero, optValues := heavy.getValues.del (str "type") }

/-- The weights of a model are determined by the state. -/
theorem IsNet.shape_unique {α : Type} [Flt α] {w : World α} {m : Model α} {net net' : Net α} (h : IsNet w m net) (h' : IsNet w m net')
    {i : Nat} (hi : i < net.size) : (net'.L i).n = (net.L i).n ∧ (net'.L i).o = (net.L i).o ∧ net'.wm i = net.wm i ∧
      IsLayer w (net.lp i) (net'.wm i) (net'.bm i) (net'.L i) ∧ net'.size = net.size := by
  have hs : net'.size = net.size := by
    have := h.size; rw [h'.size] at this; exact_mod_cast this
  have hp : net'.lp i = net.lp i := by
    have e := h.ptrs
    rw [h'.ptrs, hs] at e
    have := congrArg (·[i]?) e
    simpa [hi] using this
  have l1 := h.lay i hi
  have l2 := h'.lay i (by rw [hs]; exact hi)
  rw [hp] at l2
  refine ⟨?_, ?_, ?_, l2, hs⟩
  · have := l1.ins; rw [l2.ins] at this; exact_mod_cast this
  · have := l1.outs; rw [l2.outs] at this; exact_mod_cast this
  · have := l1.weights; rw [l2.weights] at this; exact Option.some.inj this

theorem IsNet.weight_unique {α : Type} [Flt α] {w : World α} {m : Model α} {net net' : Net α} (h : IsNet w m net) (h' : IsNet w m net')
    {i : Nat} (hi : i < net.size) {r c : Nat} (hr : r < (net.L i).n) (hc : c < (net.L i).o) : (net.L i).W r c = (net'.L i).W r c := by
  obtain ⟨hn, ho, hw, l2, -⟩ := h.shape_unique h' hi
  have m2 := l2.wmat
  rw [hw, hn, ho] at m2
  exact (h.lay i hi).wmat.entries_unique m2 hr hc

/-- After one epoch of training with `heavy`: weight, bias and momentum are 2. -/
theorem heavy_start [Libm] : ∃ (w1 : World F64) (m : Model F64) (net1 : Net F64) (op : Nat → Nat) (S1 : Nat → OptSpec F64) (XM YM : Mat),
    Ready w1 m net1 .mse heavy ∧ IsTask w1 m net1 op S1 ∧ net1.size = 1 ∧ (∀ i, net1.dim i = 1) ∧ HasSettings heavy (S1 0) ∧
    (net1.L 0).kind = .linear ∧ (net1.L 0).n = 1 ∧ (net1.L 0).o = 1 ∧ (net1.L 0).Saveable ∧ (net1.L 0).W 0 0 = Flt.ofInt 2 ∧
    (net1.L 0).b 0 = Flt.ofInt 2 ∧ (S1 0).vw 0 0 = Flt.ofInt 2 ∧ (S1 0).vb 0 0 = Flt.ofInt 2 ∧ m.lossType = 0 ∧ m.loss = some ⟨.mse, 1⟩ ∧
    (IsData w1 net1 XM 1 1 fun _ _ => Flt.ofInt 1) ∧ (IsData w1 net1 YM 1 1 fun _ _ => Flt.ofInt 1) := by
  have hrows : (optFrom heavy).weightMomentums.rows = 0 := rfl
  obtain ⟨w0, net, op, XM, YM, xM, yM, -, hs, hL, hdim, hT, dX, dY, -, -⟩ := exists_task (emptyWorld : World F64) 1 Nat.one_pos restUnit
    (fun _ => ⟨Nat.one_pos, Nat.one_pos⟩) (fun _ => rfl) heavyM (optFrom heavy) (OptSpec.fresh (optFrom heavy)) hrows
    (fun w p i hlt e => isOpt_from _ _ _ _ hlt e) (r := 1) (r' := 1) Nat.one_pos Nat.one_pos (fun _ _ => Flt.ofInt 1) (fun _ _ => Flt.ofInt 1)
    (fun _ _ => Flt.ofInt 1) (fun _ _ => Flt.ofInt 1)
  have hd : ∀ i, net.dim i = 1 := fun i => by rw [hdim]; rfl
  have hLs : ∀ i, net.L i = restUnit i := fun i => by rw [hL]
  have hns : ∀ i, i < net.size → (net.L i).kind ≠ .sigmoid := fun i _ => by rw [hLs]; exact fun h => by cases h
  have dX' : IsData w0 net XM 1 (net.dim 0) fun _ _ => Flt.ofInt 1 := by rw [hd]; exact dX
  have dY' : IsData w0 net YM 1 (net.dim net.size) fun _ _ => Flt.ofInt 1 := by rw [hd]; exact dY
  -- the first epoch
  have h70 := C70_fit w0 _ net op _ hT hns ⟨.mse, 1⟩ rfl (by rw [hd]; rfl) XM YM xM yM 1 _ _ dX'.mat dY'.mat dX'.cap dY'.cap dX'.sep dY'.sep 1 0
    (by norm_num)
  obtain ⟨e, w1, -, -, net1, S1, run, hT1, sh1, mX1, mY1, fr1⟩ := wp_iff.1 h70
  have hs1 : net1.size = 1 := sh1.size.trans hs
  have hd1 : ∀ i, net1.dim i = 1 := fun i => by rw [sh1.dim]; exact hd i
  obtain ⟨W1, b1, eL1⟩ := sh1.layer 0
  have hzero : (OptSpec.fresh (optFrom heavy)).vw = fun _ _ => Flt.ofInt 0 := rfl
  have st1 := unit_step run.one rfl hs (hd 1) (by rw [hLs]; rfl) (a := 0) (c := 0) (v := 0) (by rw [hLs]; rfl) (by rw [hLs]; rfl)
    (by rw [hLs]; rfl) rfl rfl rfl rfl rfl rfl rfl rfl (by norm_num) (by norm_num) (by norm_num) (by norm_num)
  norm_num at st1
  obtain ⟨hW1, hb1, hv1, hq1, k1, l1, d1, m1⟩ := st1
  have iN := hT1.isNet
  have hdat : ∀ {Z : Mat} {c : Nat}, IsData w0 net Z 1 c (fun _ _ => Flt.ofInt 1) → IsMat w1 Z 1 c (fun _ _ => (Flt.ofInt 1 : F64)) →
      IsData w1 net1 Z 1 c fun _ _ => Flt.ofInt 1 := by
    intro Z c h1 h2
    exact ⟨h2, h1.cap, fun a ha hb => h1.sep a ((hT.isNet.isParam fr1 (fun _ h => h) a).1 ((sh1.isParam w1 a).1 ha))
      ((h1.mat.isRow_frame fr1 (fun h => h) a).1 hb)⟩
  have hsv : ∀ i, i < net1.size → (net1.L i).Saveable := fun i hi => by
    obtain ⟨W, b, e⟩ := sh1.layer i
    rw [e, hLs]
    exact ⟨Nat.one_pos, Nat.one_pos, by norm_num [restUnit], by norm_num [restUnit], fun _ => rfl, fun _ => rfl⟩
  have hR : Ready w1 (net.task op heavyM) net1 .mse heavy := ⟨iN, fun h => by omega, by
    show some (⟨.mse, 1⟩ : Loss) = some ⟨.mse, ((net.dim net.size : Nat) : Int)⟩
    rw [hd]; rfl, rfl, rfl, rfl, f64_lt_self _, by show (-128 : Int) ≤ 0; decide, by show (0 : Int) < 128; decide⟩
  have hset : HasSettings heavy (S1 0) :=
    ⟨k1, l1, d1, fun _ => m1, (fun h => by cases h), (fun h => by cases h), (fun h => by cases h)⟩
  rw [hd] at mX1 mY1
  exact ⟨w1, _, net1, op, S1, XM, YM, hR, hT1, hs1, hd1, hset, by rw [eL1, hLs]; rfl, by rw [eL1, hLs]; rfl, by rw [eL1, hLs]; rfl,
    hsv 0 (by omega), hW1, hb1, hv1, hq1, rfl, rfl, hdat dX mX1, hdat dY mY1⟩

/-- C76 is false: after one epoch of SGD with momentum, saving, loading and training for another epoch does not give the same as training
for another epoch. -/
theorem C76_false [Libm] : ¬ C76_claim F64 := by
  intro hclaim
  obtain ⟨w1, m, net1, op, S1, XM, YM, hR, hT1, hs1, hd1, hset0, hk1, hn1, ho1, hsv0, hW1, hb1, hv1, hq1, hlt, hls, dX, dY⟩ := heavy_start
  have hz : ∀ i, i < net1.size → i = 0 := fun i hi => by omega
  have hns1 : ∀ i, i < net1.size → (net1.L i).kind ≠ .sigmoid := fun i hi h => by rw [hz i hi, hk1] at h; cases h
  have hset : ∀ i, i < net1.size → HasSettings heavy (S1 i) := fun i hi => by rw [hz i hi]; exact hset0
  have hsv : ∀ i, i < net1.size → (net1.L i).Saveable := fun i hi => by rw [hz i hi]; exact hsv0
  have dX1 : IsData w1 net1 XM 1 (net1.dim 0) fun _ _ => Flt.ofInt 1 := by rw [hd1]; exact dX
  have dY1 : IsData w1 net1 YM 1 (net1.dim net1.size) fun _ _ => Flt.ofInt 1 := by rw [hd1]; exact dY
  have iN := hT1.isNet
  have hres := hclaim w1 _ net1 op S1 .mse heavy hR hT1 hset hns1 hsv (by omega) _ _ (List.Perm.refl _)
    ((savedAs_iff iN hsv (List.Perm.refl _)).2 rfl) w1
  have hld := load_task hR hT1.pos hsv (by omega) (List.Perm.refl _) ((savedAs_iff iN hsv (List.Perm.refl _)).2 rfl) w1
  obtain ⟨x, w2, hx, ⟨m', hm', hres⟩, m2, net2, op2, rfl, hsame, hnet, ⟨o', ho', hT2⟩, hloss, hframe, hpar⟩ := wp_iff.1 (wp_and hres hld)
  injection hm' with hm'
  subst hm'
  have hs2 : net2.size = 1 := hnet.size.trans hs1
  have hd2 : ∀ i, i ≤ 1 → net2.dim i = 1 := fun i hi => (hnet.dim i (by omega)).trans (hd1 i)
  have hl2 := hnet.layer 0 (by omega)
  have mX2 := dX1.mat.frame hframe (fun h => h) (fun _ _ h => h)
  have mY2 := dY1.mat.frame hframe (fun h => h) (fun _ _ h => h)
  have rX : ∀ a, w2.IsRow XM 1 a → a < w1.next := fun a ha => dX1.mat.isRow_lt ((dX1.mat.isRow_frame hframe (fun h => h) a).1 ha)
  have rY : ∀ a, w2.IsRow YM 1 a → a < w1.next := fun a ha => dY1.mat.isRow_lt ((dY1.mat.isRow_frame hframe (fun h => h) a).1 ha)
  have hns2 : ∀ i, i < net2.size → (net2.L i).kind ≠ .sigmoid := fun i hi => by
    rw [(hnet.layer i (by omega)).kind]
    exact hns1 i (by omega)
  have hfit := hres XM YM XM YM XM YM XM YM 1 _ _ 1 0 (by norm_num) dX1 dY1 rX mX2 dX1.cap rY mY2 dY1.cap
    (fun q => by rw [hframe.unif, hframe.unifPos (fun h => h)])
  have h70a := C70_fit w1 _ net1 op S1 hT1 hns1 ⟨.mse, 1⟩ hls (by rw [hd1]; rfl) XM YM XM YM 1 _ _ dX1.mat dY1.mat dX1.cap dY1.cap dX1.sep
    dY1.sep 1 0 (by norm_num)
  obtain ⟨ea, wa, -, hwa, -, neta, Sa, runa, hTa, sha, -⟩ := wp_iff.1 (wp_and hfit h70a)
  have h70b := C70_fit w2 m2 net2 op2 _ hT2 hns2 ⟨.mse, net2.dim net2.size⟩ hloss rfl XM YM XM YM 1 (fun _ _ => Flt.ofInt 1)
    (fun _ _ => Flt.ofInt 1) (by rw [hnet.dim 0 (by omega)]; exact mX2) (by rw [hnet.size, hnet.dim _ le_rfl]; exact mY2) dX1.cap dY1.cap
    (fun a h1 h2 => by have := hpar a h1; have := rX a h2; omega) (fun a h1 h2 => by have := hpar a h1; have := rY a h2; omega) 1 0 (by norm_num)
  obtain ⟨eb, wb, -, ⟨-, -, na, nb, ina, inb, hab⟩, -, netb, Sb, runb, hTb, shb, -⟩ := wp_iff.1 (wp_and hwa h70b)
  have sta := unit_step runa.one hlt hs1 (hd1 1) hk1 hn1 (a := 2) (c := 2) (v := 2) hW1 hb1 rfl rfl
    hset0.kind hset0.lr hset0.decay (hset0.momentum rfl) hv1 hq1 (by norm_num) (by norm_num) (by norm_num) (by norm_num)
  have stb := unit_step runb.one (hsame.lossType.trans hlt) hs2 (hd2 1 le_rfl) (hl2.kind.trans hk1) (hl2.n.trans hn1) (a := 2) (c := 2)
    (v := 0) ((hl2.W 0 0 (by omega) (by omega)).trans hW1) ((hl2.b 0 (by omega)).trans hb1) rfl rfl ho'.kind ho'.lr ho'.decay (ho'.momentum rfl) rfl rfl
    (by norm_num) (by norm_num) (by norm_num) (by norm_num)
  have shape : ∀ {w : World F64} {m : Model F64} {net0 neta : Net F64}, SameShape net0 neta → net0.size = 1 → (net0.L 0).n = 1 →
      (net0.L 0).o = 1 → 0 < neta.size ∧ 0 < (neta.L 0).n ∧ 0 < (neta.L 0).o := by
    intro w m net0 neta h h1 h2 h3
    obtain ⟨W, b, e⟩ := h.layer 0
    refine ⟨by rw [h.size]; omega, ?_, ?_⟩
    · rw [e]; show 0 < (net0.L 0).n; omega
    · rw [e]; show 0 < (net0.L 0).o; omega
  obtain ⟨a1, a2, a3⟩ := shape (w := w1) (m := m) sha hs1 hn1 ho1
  obtain ⟨c1, c2, c3⟩ := shape (w := w1) (m := m) shb hs2 (hl2.n.trans hn1) (hl2.o.trans ho1)
  have u1 := hTa.isNet.weight_unique ina a1 a2 a3
  have u2 := hTb.isNet.weight_unique inb c1 c2 c3
  obtain ⟨v1, v2, -, -, v3⟩ := hTa.isNet.shape_unique ina a1
  have u3 := (hab.layer 0 (by rw [v3]; exact a1)).W 0 0 (by rw [v1]; exact a2) (by rw [v2]; exact a3)
  rw [← u1, ← u2, sta.1, stb.1] at u3
  have := f64_ofInt_inj (by norm_num) (by norm_num) u3
  norm_num at this

/-- C76_deterministic: two models with 3 layers (one dropout), Adam and 5 samples meet the hypotheses. -/
example : ∃ (w w' : World ℝ) (m m' : Model ℝ) (net net' : Net ℝ) (op op' : Nat → Nat) (S S' : Nat → OptSpec ℝ) (X Y X' Y' : Mat)
    (A B : Nat → Nat → ℝ), Trains w m net op S .mse X Y 5 A B ∧ Trains w' m' net' op' S' .mse X' Y' 5 A B ∧ net.size = 3 ∧ w'.next ≠ w.next ∧
    m'.lossType = m.lossType ∧ SameNet net net' ∧ (∀ i, i < net.size → OptLike (net.L i).n (net.L i).o (S i) (S' i)) ∧
    ∀ q, w'.unif (w'.unifPos + q) = w.unif (w.unifPos + q) := by
  obtain ⟨o, ho⟩ := adam_ok_real (lr := 1 / 1000) (decay := 0) (by norm_num) le_rfl (1 / 10 ^ 7) (9 / 10) (999 / 1000)
  have hrows : o.weightMomentums.rows = 0 := by rw [newAdam_ok ho]; rfl
  have mk := fun w0 : World ℝ => exists_task w0 3 (by decide)
    demoT demoT_pos demoT_chain { newModel with loss := some ⟨.mse, 5⟩ } o (OptSpec.fresh o) hrows
    (fun w p i hlt e => e ▸ isOpt_newAdam _ _ _ _ hlt (e.symm ▸ ho)) (r := 5) (r' := 2) (by decide) (by decide)
    (fun i j => (i : ℝ) + j) (fun i j => (i : ℝ) - j) (fun i _ => (i : ℝ)) (fun _ j => (j : ℝ))
  obtain ⟨w, net, op, XM, YM, xM, yM, hf, hs, hL, hdim, hT, dX, dY, -, -⟩ := mk emptyWorld
  obtain ⟨w', net', op', XM', YM', xM', yM', hf', hs', hL', hdim', hT', dX', dY', -, -⟩ := mk { w with next := w.next + 1 }
  have tr : ∀ {w : World ℝ} {net : Net ℝ} {op : Nat → Nat} {XM YM : Mat}, net.size = 3 → net.L = demoT → (net.dim = fun i => (demoT i : LayerSpec ℝ).n) →
      IsTask w (net.task op { newModel with loss := some ⟨.mse, 5⟩ }) net op (fun _ => OptSpec.fresh o) →
      IsData w net XM 5 (demoT 0 : LayerSpec ℝ).n (fun i j => (i : ℝ) + j) → IsData w net YM 5 (demoT 3 : LayerSpec ℝ).n (fun i j => (i : ℝ) - j) →
      Trains w (net.task op { newModel with loss := some ⟨.mse, 5⟩ }) net op (fun _ => OptSpec.fresh o) .mse XM YM 5 (fun i j => (i : ℝ) + j)
        (fun i j => (i : ℝ) - j) := by
    intro w net op XM YM h1 h2 h3 h4 h5 h6
    have d0 : net.dim 0 = (demoT 0 : LayerSpec ℝ).n := by rw [h3]
    have d1 : net.dim net.size = (demoT 3 : LayerSpec ℝ).n := by rw [h3, h1]
    exact ⟨h4, by rw [d1]; rfl, fun i _ => by rw [h2]; exact demoT_kind i, d0 ▸ h5, d1 ▸ h6⟩
  refine ⟨w, w', _, _, net, net', op, op', _, _, XM, YM, XM', YM', _, _, tr hs hL hdim hT dX dY, tr hs' hL' hdim' hT' dX' dY', hs, ?_, rfl,
    ⟨by rw [hs, hs'], fun i _ => by rw [hdim, hdim'], fun i hi => by rw [hL, hdim], fun i hi => by rw [hL, hdim]; exact demoT_chain i,
      fun i _ => by rw [hL, hL']; exact SameLayer.refl _⟩,
    fun i _ => .inl ⟨rfl, rfl, rfl, fun _ => rfl, fun _ => rfl, fun _ => rfl, fun _ => rfl, rfl, fun _ _ _ _ => rfl, fun _ _ _ _ => rfl,
      fun _ _ _ _ => rfl, fun _ _ _ _ => rfl⟩, fun q => by rw [hf'.unif, hf'.unifPos (fun h => h)]⟩
  have := hf'.next_le
  have : w.next + 1 ≤ w'.next := this
  omega

/-- SGD with learning rate 1, without decay and momentum. -/
noncomputable def light [Libm] : Optim F64 := { (Optim.zero .sgd : Optim F64) with learningRate := Flt.ofInt 1 }

/-- A model with 3 layers, mean squared error, and `light` as the optimizer. -/
noncomputable def lightM [Libm] : Model F64 :=
  { (newModel : Model F64) with
    loss := some ⟨.mse, 5⟩, lossType := 0, optType := 0, accPrec := Flt.zero, optValues := light.getValues.del (str "type") }

/-- C76_resume_partial: a model with 3 layers (one dropout) and SGD meets the hypotheses. -/
example [Libm] : ∃ (w : World F64) (m : Model F64) (net : Net F64) (op : Nat → Nat) (S : Nat → OptSpec F64) (o : Optim F64),
    Ready w m net .mse o ∧ IsTask w m net op S ∧ (∀ i, i < net.size → HasSettings o (S i)) ∧ (∀ i, i < net.size → (net.L i).kind ≠ .sigmoid) ∧
    (∀ i, i < net.size → (net.L i).Saveable) ∧ net.size = 3 ∧ o.kind = .sgd ∧ Flt.eq o.decay Flt.zero = true ∧
    Flt.eq o.momentum Flt.zero = true := by
  obtain ⟨w, net, op, XM, YM, xM, yM, -, hs, hL, hdim, hT, -⟩ := exists_task (emptyWorld : World F64) 3 (by decide) saveL
    (fun i => demoL_pos (α := F64) i) (fun i => demoL_chain (α := F64) i) lightM (optFrom light) (OptSpec.fresh (optFrom light)) rfl
    (fun w p i hlt e => isOpt_from _ _ _ _ hlt e) (r := 1) (r' := 1) Nat.one_pos Nat.one_pos (fun _ _ => Flt.ofInt 1) (fun _ _ => Flt.ofInt 1)
    (fun _ _ => Flt.ofInt 1) (fun _ _ => Flt.ofInt 1)
  have hz : Flt.eq (Flt.ofInt 0 : F64) Flt.zero = true := (f64_eq_int 0 0 (by norm_num) (by norm_num)).trans rfl
  refine ⟨w, _, net, op, _, light, ⟨hT.isNet, fun h => by omega, ?_, rfl, rfl, rfl, f64_lt_self _, by show (-128 : Int) ≤ 0; decide,
    by show (0 : Int) < 128; decide⟩, hT, fun i _ => optFrom_settings light, ?_, ?_, hs, rfl, hz, hz⟩
  · show some (⟨.mse, 5⟩ : Loss) = some ⟨.mse, ((net.dim net.size : Nat) : Int)⟩
    rw [hdim, hs]; rfl
  · intro i hi h
    rw [hs] at hi
    rw [hL] at h
    have : i = 0 ∨ i = 1 ∨ i = 2 := by omega
    rcases this with rfl | rfl | rfl <;> cases h
  · intro i hi
    rw [hL]
    exact saveL_saveable (by omega)

end NN
