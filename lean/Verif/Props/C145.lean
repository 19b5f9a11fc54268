import Verif.Real.Stationary
import Verif.Props.C106
import Verif.Props.C140
import Mathlib.Topology.Algebra.InfiniteSum.Real
/-
C145: full-batch training of deep networks.  As long as the parameters stay bounded and no ReLU unit changes sides, every epoch lowers the
objective by at least half the rate times the squared gradient, so that the gradients become small.
-/

set_option linter.unusedSectionVars false

namespace NN
open Go Finset

/-- The training situation of C145: Fit with plain SGD of rate `lr` on r samples. -/
structure PlainFit (w : World ℝ) (m : Model ℝ) (net : Net ℝ) (op : Nat → Nat) (S : Nat → OptSpec ℝ) (loss : LossKind) (lr : ℝ) (X Y : Mat) (r : Nat)
    (A B : Nat → Nat → ℝ) : Prop where
  task : IsTask w m net op S
  plain : ∀ i, i < net.size → (S i).kind = .sgd ∧ (S i).momentum = 0 ∧ (S i).decay = 0 ∧ (S i).lr = lr
  loss_eq : m.loss = some ⟨loss, net.dim net.size⟩
  lossType : m.lossType = loss.code
  x : IsData w net X r (net.dim 0) A
  y : IsData w net Y r (net.dim net.size) B
  few : r ≤ 2 ^ 53

theorem objective_nonneg (hset : SmoothSetup net loss r B) {net1 : Net ℝ} (h1 : LikeNet net net1) (hs : SameSides net net1 r A) :
    0 ≤ objective loss r (net.dim net.size) (netOut net1 A net.size) B := by
  rw [hset.obj h1 hs]
  rcases hset.loss with rfl | ⟨rfl, hk, lab, hlab⟩
  · show 0 ≤ ∑ i ∈ range r, (∑ j ∈ range (net.dim net.size), (facOut net A (parOf net net1) net.size i j - B i j) ^ 2) / (net.dim net.size : ℝ)
    exact Finset.sum_nonneg fun i _ => div_nonneg (Finset.sum_nonneg fun j _ => sq_nonneg _) (Nat.cast_nonneg _)
  · refine div_nonneg (Finset.sum_nonneg fun i hi => ?_) (Nat.cast_nonneg _)
    obtain ⟨hq, hY⟩ := hlab i (mem_range.1 hi)
    rw [oneHotRow_sum hq hY, neg_nonneg]
    refine Real.log_nonpos (facOut_soft_pos hset.cov.1 hset.pos hk _ _ _).le ?_
    obtain ⟨l, hl⟩ : ∃ l, net.size = l + 1 := ⟨net.size - 1, by have := hset.cov.1; omega⟩
    have hk' := hk
    rw [hl, Nat.add_sub_cancel] at hk'
    have e : facOut net A (parOf net net1) net.size i (lab i) = facOut net A (parOf net net1) (l + 1) i (lab i) :=
      congrArg (fun q => facOut net A (parOf net net1) q i (lab i)) hl
    rw [e]
    show (if (net.L l).kind = .softmax then _ else _) ≤ (1 : ℝ)
    rw [if_pos hk']
    have hq' : lab i < (net.L l).o := by rw [hset.outs l (by omega), ← hl]; exact hq
    refine div_le_one_of_le₀ ?_ (Finset.sum_nonneg fun q _ => (Real.exp_pos _).le)
    exact Finset.single_le_sum (f := fun q => Real.exp (maskPre (fun l => (net.L l).n) (parOf net net1) l
      (maskOut (fun l => (net.L l).n) (fun l => (net.L l).o) (fun l => (net.L l).kind = .softmax) (factors net A) A (parOf net net1) l) i q))
      (fun q _ => (Real.exp_pos _).le) (mem_range.2 hq')

/-- The networks after every number of epochs. -/
theorem PlainFit.path {w : World ℝ} {m : Model ℝ} {net : Net ℝ} {op : Nat → Nat} {S : Nat → OptSpec ℝ} {loss : LossKind} {lr : ℝ} {X Y : Mat} {r : Nat}
    {A B : Nat → Nat → ℝ} (h : PlainFit w m net op S loss lr X Y r A B) (hc : Covered net) (xv yv : Mat) :
    ∃ N : Nat → Net ℝ, N 0 = net ∧
      (∀ t : Nat, wp (fit m X Y t 0 xv yv 0) w (fun e w' => e = none ∧ ∃ S', IsTask w' m (N t) op S')) ∧ (∀ t, LikeNet net (N t)) ∧
      ∀ t G D, NetGrad m (N t) loss r (netOut (N t) A) (fun _ _ _ => 0) B G D →
        parOf net (N (t + 1)) = parOf net (N t) - lr • parGrad net (fun l => gradW r (netOut (N t) A l) (G l)) (fun l => gradB r (G l) 0) := by
  have hk : ∀ k, k < net.size → (net.L k).kind ≠ .dropout ∧ (net.L k).kind ≠ .sigmoid := by
    intro k hk
    rcases hc.2 k hk with h | h | ⟨h, -⟩ | h <;> rw [h] <;> exact ⟨by decide, by decide⟩
  have hex : ∀ t : Nat, ∃ N S', (wp (fit m X Y t 0 xv yv 0) w (fun e w' => e = none ∧ ∃ S', IsTask w' m N op S')) ∧ SameShape net N ∧
      ∃ p, Descent m loss w.unif A B net S w.unifPos (List.replicate t (0, r)) N S' p := by
    intro t
    have := C70_fit w m net op S h.task (fun k hk' => (hk k hk').2) _ h.loss_eq rfl X Y xv yv r A B h.x.mat h.y.mat h.x.cap h.y.cap h.x.sep h.y.sep
      t 0 (by have := h.few; omega)
    obtain ⟨e, w', h1, h2, net', S', h3, h4, h5, -⟩ := wp_iff.1 this
    refine ⟨net', S', wp_iff.2 ⟨e, w', h1, h2, S', h4⟩, h5, w'.unifPos, ?_⟩
    have hbl : (List.replicate (t : Int).toNat (blocks r 0)).flatten = List.replicate t (0, r) := by
      rw [Int.toNat_natCast]
      simp [blocks]
    rwa [hbl] at h3
  choose N S' hrun hshape p hD using hex
  have hlike : ∀ t, LikeNet net (N t) := fun t => ⟨(hshape t).size, (hshape t).dim, fun l _ => (hshape t).layer l⟩
  refine ⟨N, (hD 0).nil.1, hrun, hlike, fun t G D hG => ?_⟩
  have hDs := hD (t + 1)
  rw [List.replicate_succ'] at hDs
  obtain ⟨net1, S1, p1, hD1, hstep, -⟩ := hDs.snoc
  have hins := h.task.isNet.ins
  have houts := h.task.isNet.outs
  have hN0 : SameNet net net := ⟨rfl, fun _ _ => rfl, hins, houts, fun k _ => SameLayer.refl _⟩
  obtain ⟨hsame, e1, e2, -⟩ := descent_same rfl (fun _ => rfl) ⟨hN0, fun i _ => .inl (SameOpt.refl _ _ _)⟩ hc.1
    (n := r) (Agree.refl _ _ _) (Agree.refl _ _ _) _ (fun b hb => by rw [List.eq_of_mem_replicate hb]; simp) (hD t) hD1
  simp only [Nat.zero_add] at hstep
  obtain ⟨G1, D1, hG1, eN, -⟩ := hstep
  have hset := descent_settings hD1
  have hlt := hsame.layers
  have el := hlike t
  have ekd : ∀ k, k < net.size → ((N t).L k).kind = (net.L k).kind ∧ ((N t).L k).n = (net.L k).n ∧ ((N t).L k).o = (net.L k).o := by
    intro k hk
    obtain ⟨W, b, e⟩ := el.layer k hk
    rw [e]; exact ⟨rfl, rfl, rfl⟩
  have hd1 : ∀ k, k < (N t).size → ((N t).L k).kind ≠ .dropout := fun k hk' => by
    rw [el.size] at hk'
    rw [(ekd k hk').1]; exact (hk k hk').1
  have hd2 : ∀ k, k < net1.size → (net1.L k).kind ≠ .dropout := fun k hk' => by
    rw [hlt.size] at hk'
    rw [(hlt.layer k hk').kind]; exact hd1 k hk'
  have hV1 : ∀ k, k ≤ net1.size → trainVals net1 r (fun q => w.unif (p1 + q)) A k = netOut net1 A k := fun k hk' =>
    trainVals_netOut r _ A k fun i hi => hd2 i (by omega)
  have hV : ∀ k, k ≤ (N t).size → Agree r ((N t).dim k) (netOut (N t) A k) (trainVals net1 r (fun q => w.unif (p1 + q)) A k) := by
    intro k hk'
    have := trainVals_same hlt (Agree.refl r _ A) (u := fun q => w.unif (p1 + q)) (fun _ => rfl) k hk'
    rwa [trainVals_netOut r _ A k fun i hi => hd1 i (by omega)] at this
  obtain ⟨G2, D2, hG2⟩ := exists_netGrad m net1 loss r (trainVals net1 r (fun q => w.unif (p1 + q)) A) (fun _ _ _ => 0) B
  have hGG := hG1.unique hG2 (fun _ _ => rfl) rfl hd2
  have hGa := netGrad_same rfl hlt (el.size.symm ▸ hc.1) hV (fun k _ => Agree.refl _ _ _) (Agree.refl _ _ B) hG hG2
  rw [eN]
  have key : ∀ l, l < net.size → (∀ k j, k < (net.L l).n → j < (net.L l).o →
      (S1 l).newW (net1.L l).W (gradW r (trainVals net1 r (fun q => w.unif (p1 + q)) A l) (G1 l)) k j =
        ((N t).L l).W k j - gradW r (netOut (N t) A l) (G l) k j * lr) ∧
      ∀ j, j < (net.L l).o → (S1 l).newB (fun _ j => (net1.L l).b j) (gradB r (G1 l)) 0 j = ((N t).L l).b j - gradB r (G l) 0 j * lr := by
    intro l hl
    have hl' : l < (N t).size := el.size.symm ▸ hl
    have hl1 : l < net1.size := hlt.size.symm ▸ hl'
    obtain ⟨s1, s2, s3, s4⟩ := h.plain l hl
    obtain ⟨q1, q2, q3, q4⟩ := hset l
    have hrate : (S1 l).rate = lr := by
      unfold OptSpec.rate
      rw [q3, s3, if_pos (by simp [Flt.zero]), q2, s4]
    have hupd : ∀ y z q d : ℝ, (S1 l).upd y z q d = y - d * lr := by
      intro y z q d
      unfold OptSpec.upd
      rw [q1, s1, q4, s2, hrate]
      dsimp only
      rw [if_pos (by simp [Flt.zero])]
      rfl
    have hgo : Agree r (net.L l).o (G l) (G1 l) := by
      rw [hGG l hl1, ← (ekd l hl).2.2, hlt.outs l hl']
      exact hGa l hl'
    have hvo : Agree r (net.L l).n (netOut (N t) A l) (trainVals net1 r (fun q => w.unif (p1 + q)) A l) := by
      rw [← (ekd l hl).2.1, hlt.ins l hl']
      exact hV l hl'.le
    refine ⟨fun k j hk hj => ?_, fun j hj => ?_⟩
    · unfold OptSpec.newW
      rw [hupd, (hlt.layer l hl').W k j ((ekd l hl).2.1.symm ▸ hk) ((ekd l hl).2.2.symm ▸ hj), gradW_same hvo hgo k j hk hj]
    · unfold OptSpec.newB
      rw [hupd]
      dsimp only
      rw [(hlt.layer l hl').b j ((ekd l hl).2.2.symm ▸ hj), gradB_same hgo 0 j Nat.one_pos hj]
  refine (parPack_congr (fun l k j hl hk hj => ?_) fun l j hl hj => ?_).trans (parPack_sub _ _ _ _ lr)
  · exact (key l hl).1 k j hk hj
  · exact (key l hl).2 j hj

/-- The conclusion of C145 about the networks N t after t epochs, their outputs and their gradients, up to epoch T. -/
structure Descends (net : Net ℝ) (loss : LossKind) (r : Nat) (A B : Nat → Nat → ℝ) (lr : ℝ) (N : Nat → Net ℝ) (F : Nat → Nat → Nat → ℝ)
    (dW : Nat → Nat → Nat → Nat → ℝ) (dB : Nat → Nat → Nat → ℝ) (T : Nat) : Prop where
  exact : ∀ t, t ≤ T → ExactNetGrad (N t) loss r A B (dW t) (dB t)
  nonneg : 0 ≤ objective loss r (net.dim net.size) (F T) B
  step : ∀ t, t < T → objective loss r (net.dim net.size) (F (t + 1)) B + lr / 2 * gradSq net (dW t) (dB t) ≤
    objective loss r (net.dim net.size) (F t) B
  total : objective loss r (net.dim net.size) (F T) B + lr / 2 * ∑ t ∈ range T, gradSq net (dW t) (dB t) ≤
    objective loss r (net.dim net.size) (F 0) B
  small : 0 < T → ∃ t, t < T ∧ gradSq net (dW t) (dB t) ≤ 2 * objective loss r (net.dim net.size) (F 0) B / (lr * T)

theorem SmoothSetup.congr {net net' : Net ℝ} {loss : LossKind} {r : Nat} {B : Nat → Nat → ℝ} (h : SmoothSetup net loss r B) (h1 : net'.size = net.size)
    (h2 : net'.dim = net.dim) (h3 : net'.L = net.L) : SmoothSetup net' loss r B := by
  obtain ⟨a, b, c, d, e⟩ := h
  refine ⟨?_, ?_, ?_, ?_, ?_⟩
  · unfold Covered at a ⊢; rwa [h1, h3]
  · rwa [h1, h2, h3]
  · rwa [h1, h2, h3]
  · rwa [h1, h3]
  · unfold SmoothLoss at e ⊢; rwa [h1, h2, h3]

theorem small_term {c lr o0 : ℝ} (hlr : 0 < lr) {f : Nat → ℝ} {T : Nat} (hT : 0 < T) (h0 : 0 ≤ c) (h : c + lr / 2 * ∑ t ∈ range T, f t ≤ o0) :
    ∃ t, t < T ∧ f t ≤ 2 * o0 / (lr * T) := by
  by_contra hcon
  push Not at hcon
  have hT' : (0 : ℝ) < T := by exact_mod_cast hT
  have : ∑ t ∈ range T, 2 * o0 / (lr * T) < ∑ t ∈ range T, f t :=
    Finset.sum_lt_sum_of_nonempty ⟨0, mem_range.2 hT⟩ fun t ht => hcon t (mem_range.1 ht)
  rw [Finset.sum_const, card_range, nsmul_eq_mul] at this
  have e : (T : ℝ) * (2 * o0 / (lr * T)) = 2 * o0 / lr := by field_simp
  rw [e, div_lt_iff₀ hlr] at this
  nlinarith

theorem abs_parRead_le {s N : Nat} (θ : ParIdx s N → ℝ) (l k j : Nat) : |parRead θ l k j| ≤ ‖θ‖ := by
  unfold parRead
  split
  · exact norm_le_pi_norm θ _
  · simp

theorem LikeNet.paramsIn {net net' : Net ℝ} (h : LikeNet net net') {R : ℝ} (hp : ‖parOf net net'‖ ≤ R) : ParamsIn net' R := by
  intro l hl
  rw [h.size] at hl
  obtain ⟨W, b, e⟩ := h.layer l hl
  have en : (net'.L l).n = (net.L l).n := by rw [e]
  have eo : (net'.L l).o = (net.L l).o := by rw [e]
  rw [en, eo]
  refine ⟨fun k j hk hj => ?_, fun j hj => ?_⟩
  · rw [← parOf_W net' hl hk hj]
    exact (abs_parRead_le _ _ _ _).trans hp
  · rw [← parOf_b net' hl hj]
    exact (abs_parRead_le _ _ _ _).trans hp

/-- C145 with the constant that bounds the gradients. -/
theorem descent_core {net : Net ℝ} {loss : LossKind} {r : Nat} {A B : Nat → Nat → ℝ} (hset : SmoothSetup net loss r B) {R : ℝ} (hR : 0 ≤ R) :
    ∃ C > 0, ∀ lr : ℝ, 0 < lr → lr * C ≤ 1 / 2 → ∀ (w : World ℝ) (m : Model ℝ) (lp : Nat → Nat) (wm bm : Nat → Mat) (op : Nat → Nat) (S : Nat → OptSpec ℝ) (X Y xv yv : Mat),
      PlainFit w m { net with lp, wm, bm } op S loss lr X Y r A B →
      ∃ (N : Nat → Net ℝ) (F : Nat → Nat → Nat → ℝ) (dW : Nat → Nat → Nat → Nat → ℝ) (dB : Nat → Nat → Nat → ℝ),
        N 0 = { net with lp, wm, bm } ∧ (∀ t : Nat, wp (fit m X Y t 0 xv yv 0) w (fun e w' => e = none ∧ ∃ S', IsTask w' m (N t) op S')) ∧
        (∀ t, NetComputes (N t) r A (F t)) ∧ (∀ t, LikeNet net (N t)) ∧
        (∀ t, parOf net (N (t + 1)) = parOf net (N t) - lr • parGrad net (dW t) (dB t)) ∧
        (∀ t, ParamsIn (N t) R → SameSides net (N t) r A → ‖parGrad net (dW t) (dB t)‖ ≤ C) ∧
        ∀ T, (∀ t, t ≤ T → ParamsIn (N t) R ∧ SameSides net (N t) r A) → Descends net loss r A B lr N F dW dB T := by
  obtain ⟨C, hC, hstep⟩ := hset.step A hR
  refine ⟨C, hC, fun lr hlr hlC w m lp wm bm op S X Y xv yv h => ?_⟩
  have hset' : SmoothSetup { net with lp, wm, bm } loss r B := hset.congr rfl rfl rfl
  obtain ⟨N, hN0, hrun, hlike', hpar'⟩ := h.path hset'.cov xv yv
  have hlike : ∀ t, LikeNet net (N t) := fun t => ⟨(hlike' t).size, (hlike' t).dim, (hlike' t).layer⟩
  have hGs : ∀ t, ∃ G D, NetGrad m (N t) loss r (netOut (N t) A) (fun _ _ _ => 0) B G D := fun t => exists_netGrad _ _ _ _ _ _ _
  choose G D hG using hGs
  have hpar : ∀ t, parOf net (N (t + 1)) = parOf net (N t) -
      lr • parGrad net (fun l => gradW r (netOut (N t) A l) (G t l)) (fun l => gradB r (G t l) 0) := fun t => hpar' t (G t) (D t) (hG t)
  refine ⟨N, fun t => netOut (N t) A net.size, fun t l => gradW r (netOut (N t) A l) (G t l), fun t l => gradB r (G t l) 0, hN0, hrun, fun t => ?_,
    hlike, hpar, fun t h1 h2 => (hstep (N t) (hlike t) h1 h2 m _ _ _ h.lossType (hG t)).1, fun T hT => ?_⟩
  · have := netComputes_netOut (net := N t) (fun k hk => ?_) r A
    · rwa [(hlike t).size] at this
    · rw [(hlike t).size] at hk
      obtain ⟨W, b, e⟩ := (hlike t).layer k hk
      have ek : ((N t).L k).kind = (net.L k).kind := by rw [e]
      rw [ek]
      rcases hset.cov.2 k hk with h | h | ⟨h, -⟩ | h <;> rw [h] <;> decide
  · have hst : ∀ t, t < T → objective loss r (net.dim net.size) (netOut (N (t + 1)) A net.size) B +
        lr / 2 * gradSq net (fun l => gradW r (netOut (N t) A l) (G t l)) (fun l => gradB r (G t l) 0) ≤
        objective loss r (net.dim net.size) (netOut (N t) A net.size) B := fun t ht =>
      (hstep (N t) (hlike t) (hT t ht.le).1 (hT t ht.le).2 m _ _ _ h.lossType (hG t)).2 _ (hlike _) (hT (t + 1) ht).1 (hT (t + 1) ht).2 lr hlr hlC (hpar t)
    have htot : objective loss r (net.dim net.size) (netOut (N T) A net.size) B +
        lr / 2 * ∑ t ∈ range T, gradSq net (fun l => gradW r (netOut (N t) A l) (G t l)) (fun l => gradB r (G t l) 0) ≤
        objective loss r (net.dim net.size) (netOut (N 0) A net.size) B := by
      have : ∀ q, q ≤ T → objective loss r (net.dim net.size) (netOut (N q) A net.size) B +
          lr / 2 * ∑ t ∈ range q, gradSq net (fun l => gradW r (netOut (N t) A l) (G t l)) (fun l => gradB r (G t l) 0) ≤
          objective loss r (net.dim net.size) (netOut (N 0) A net.size) B := by
        intro q
        induction q with
        | zero => intro _; simp
        | succ q ih =>
          intro hq
          rw [Finset.sum_range_succ, mul_add]
          have a := ih (by omega)
          have b := hst q hq
          linarith
      exact this T le_rfl
    have h0 := objective_nonneg hset (hlike T) (hT T le_rfl).2
    refine ⟨fun t ht => ?_, h0, hst, htot, fun hT0 => small_term hlr hT0 h0 htot⟩
    obtain ⟨i1, i2⟩ := (hlike t).wf hset.ins hset.outs
    have hmae : loss ≠ .mae := by
      rcases hset.loss with h | ⟨h, -⟩ <;> rw [h] <;> exact fun h => by cases h
    exact (hG t).exact ((hlike t).size.symm ▸ hset.cov.1) i1 i2 (fun _ _ => rfl) (hset.regular (hlike t) (hT t ht).2) (fun e => by
      rw [h.lossType] at e
      cases loss <;> first | rfl | exact absurd e (by decide)) (hset.smoothAt (hlike t) (hT t ht).2) (fun e => absurd e hmae)

/-- The widths of a network that can be trained fit, so the setup holds. -/
theorem PlainFit.setup {w : World ℝ} {m : Model ℝ} {net : Net ℝ} {op : Nat → Nat} {S : Nat → OptSpec ℝ} {loss : LossKind} {lr : ℝ} {X Y : Mat} {r : Nat}
    {A B : Nat → Nat → ℝ} (h : PlainFit w m net op S loss lr X Y r A B) (hc : Covered net) (hl : SmoothLoss net loss r B) : SmoothSetup net loss r B :=
  ⟨hc, h.task.isNet.ins, h.task.isNet.outs, fun i hi => (h.task.isNet.lay i hi).wmat.cpos, hl⟩

/-- C145: let the model have linear, ReLU, leaky ReLU and softmax layers, and let the objective be the squared error or the cross-entropy of
a last softmax layer.  For every bound R there is a rate η such that the following holds for every rate up to η and every number T of epochs of
Fit on the whole data set with plain SGD.  If after each of the epochs 0, ..., T the parameters lie in [-R, R] and no ReLU unit has changed
sides, then every epoch lowers the objective by at least half the rate times the squared gradient, and one of the first T gradients has a
squared length of at most 2·(initial objective)/(rate·T).  If this goes on for ever, the gradients tend to 0. -/
theorem C145_descent (net : Net ℝ) (loss : LossKind) (r : Nat) (A B : Nat → Nat → ℝ) (hc : Covered net) (hl : SmoothLoss net loss r B) (R : ℝ) :
    ∃ η > 0, ∀ lr : ℝ, 0 < lr → lr ≤ η → ∀ (w : World ℝ) (m : Model ℝ) (lp : Nat → Nat) (wm bm : Nat → Mat) (op : Nat → Nat) (S : Nat → OptSpec ℝ) (X Y xv yv : Mat),
      PlainFit w m { net with lp, wm, bm } op S loss lr X Y r A B →
      ∃ (N : Nat → Net ℝ) (F : Nat → Nat → Nat → ℝ) (dW : Nat → Nat → Nat → Nat → ℝ) (dB : Nat → Nat → Nat → ℝ),
        N 0 = { net with lp, wm, bm } ∧ (∀ t : Nat, wp (fit m X Y t 0 xv yv 0) w (fun e w' => e = none ∧ ∃ S', IsTask w' m (N t) op S')) ∧
        (∀ t, NetComputes (N t) r A (F t)) ∧
        (∀ T, (∀ t, t ≤ T → ParamsIn (N t) R ∧ SameSides net (N t) r A) → Descends net loss r A B lr N F dW dB T) ∧
        ((∀ t, ParamsIn (N t) R ∧ SameSides net (N t) r A) → Filter.Tendsto (fun t => gradSq net (dW t) (dB t)) Filter.atTop (nhds 0)) := by
  by_cases hset : SmoothSetup net loss r B
  swap
  · exact ⟨1, one_pos, fun lr _ _ w m lp wm bm op S X Y xv yv h => hset (SmoothSetup.congr (net' := net) (h.setup hc hl) rfl rfl rfl) |>.elim⟩
  obtain ⟨C, hC, h⟩ := descent_core (A := A) hset (le_max_right R 0)
  refine ⟨1 / (2 * C), by positivity, fun lr hlr hle w m lp wm bm op S X Y xv yv hf => ?_⟩
  have hlC : lr * C ≤ 1 / 2 := by
    rw [le_div_iff₀ (by positivity)] at hle
    linarith
  obtain ⟨N, F, dW, dB, h1, h2, h3, hlike, -, -, h5⟩ := h lr hlr hlC w m lp wm bm op S X Y xv yv hf
  have hmax : ∀ t, ParamsIn (N t) R → ParamsIn (N t) (max R 0) := fun t hp l hl =>
    ⟨fun k j hk hj => ((hp l hl).1 k j hk hj).trans (le_max_left _ _), fun j hj => ((hp l hl).2 j hj).trans (le_max_left _ _)⟩
  have h6 : ∀ T, (∀ t, t ≤ T → ParamsIn (N t) R ∧ SameSides net (N t) r A) → Descends net loss r A B lr N F dW dB T := fun T hT =>
    h5 T fun t ht => ⟨hmax t (hT t ht).1, (hT t ht).2⟩
  refine ⟨N, F, dW, dB, h1, h2, h3, h6, fun hall => ?_⟩
  have hsum : ∀ T, ∑ t ∈ range T, gradSq net (dW t) (dB t) ≤ 2 * objective loss r (net.dim net.size) (F 0) B / lr := by
    intro T
    have a := h6 T fun t _ => hall t
    have b := a.nonneg
    have c := a.total
    rw [le_div_iff₀ hlr]
    linarith
  exact (summable_of_sum_range_le (fun t => gradSq_nonneg net _ _) hsum).tendsto_atTop_zero

/-- C145: at the start the conditions hold.  If no unit is at its kink, there are η and τ such that for every rate up to η and every number
T of epochs with rate·T at most τ, every one of the T epochs lowers the objective by at least half the rate times the squared gradient. -/
theorem C145_start (net : Net ℝ) (loss : LossKind) (r : Nat) (A B : Nat → Nat → ℝ) (hc : Covered net) (hl : SmoothLoss net loss r B)
    (hz : ∀ l, l < net.size → (net.L l).kind = .hidden ∨ (net.L l).kind = .leaky →
      ∀ i j, i < r → j < net.dim (l + 1) → preact (net.L l) (netOut net A l) i j ≠ 0) :
    ∃ η > 0, ∃ τ > 0, ∀ lr : ℝ, 0 < lr → lr ≤ η → ∀ (w : World ℝ) (m : Model ℝ) (lp : Nat → Nat) (wm bm : Nat → Mat) (op : Nat → Nat) (S : Nat → OptSpec ℝ) (X Y xv yv : Mat),
      PlainFit w m { net with lp, wm, bm } op S loss lr X Y r A B →
      ∃ (N : Nat → Net ℝ) (F : Nat → Nat → Nat → ℝ) (dW : Nat → Nat → Nat → Nat → ℝ) (dB : Nat → Nat → Nat → ℝ),
        N 0 = { net with lp, wm, bm } ∧ (∀ t : Nat, wp (fit m X Y t 0 xv yv 0) w (fun e w' => e = none ∧ ∃ S', IsTask w' m (N t) op S')) ∧
        (∀ t, NetComputes (N t) r A (F t)) ∧ ∀ T : Nat, lr * T ≤ τ → Descends net loss r A B lr N F dW dB T := by
  by_cases hset : SmoothSetup net loss r B
  swap
  · exact ⟨1, one_pos, 1, one_pos, fun lr _ _ w m lp wm bm op S X Y xv yv h =>
      hset (SmoothSetup.congr (net' := net) (h.setup hc hl) rfl rfl rfl) |>.elim⟩
  have hself : LikeNet net net := ⟨rfl, rfl, fun l _ => ⟨_, _, rfl⟩⟩
  have hss : SameSides net net r A := fun l hl hk i j hi hj => mul_self_pos.2 (hz l hl hk i j hi hj)
  set x := parOf net net with hx
  obtain ⟨δ, hδ, hball⟩ := Metric.eventually_nhds_iff.1 ((hss.at hc hset.ins hset.outs hself).eventually hset.pos)
  obtain ⟨C, hC, h⟩ := descent_core (A := A) hset (R := ‖x‖ + 1) (by positivity)
  refine ⟨1 / (2 * C), by positivity, min (δ / 2) 1 / C, by positivity, fun lr hlr hle w m lp wm bm op S X Y xv yv hf => ?_⟩
  have hlC : lr * C ≤ 1 / 2 := by
    rw [le_div_iff₀ (by positivity)] at hle
    linarith
  obtain ⟨N, F, dW, dB, h1, h2, h3, hlike, hpar, hg, h5⟩ := h lr hlr hlC w m lp wm bm op S X Y xv yv hf
  refine ⟨N, F, dW, dB, h1, h2, h3, fun T hT => h5 T ?_⟩
  rw [le_div_iff₀ hC] at hT
  have hgood : ∀ t : Nat, t ≤ T → ‖parOf net (N t) - x‖ ≤ lr * t * C → ParamsIn (N t) (‖x‖ + 1) ∧ SameSides net (N t) r A := by
    intro t ht hd
    have : lr * t * C ≤ min (δ / 2) 1 := by
      refine le_trans ?_ hT
      have : (t : ℝ) ≤ T := by exact_mod_cast ht
      gcongr
    have hd' := hd.trans this
    refine ⟨(hlike t).paramsIn ?_, (SidesAt.out hc hset.ins hset.outs (hlike t) (hball ?_)).2⟩
    · have := norm_le_norm_add_norm_sub' (parOf net (N t)) x
      have := hd'.trans (min_le_right _ _)
      linarith
    · rw [dist_eq_norm]
      have := hd'.trans (min_le_left _ _)
      linarith
  have hdist : ∀ t : Nat, t ≤ T → ‖parOf net (N t) - x‖ ≤ lr * t * C := by
    intro t
    induction t with
    | zero =>
      intro _
      rw [h1]
      have : parOf net { net with lp, wm, bm } = x := rfl
      rw [this, sub_self]
      simp
    | succ t ih =>
      intro ht
      have hi := ih (by omega)
      obtain ⟨g1, g2⟩ := hgood t (by omega) hi
      have hgt := hg t g1 g2
      rw [hpar t, sub_right_comm]
      refine (norm_sub_le _ _).trans ?_
      rw [norm_smul, Real.norm_eq_abs, abs_of_pos hlr]
      have : lr * ‖parGrad net (dW t) (dB t)‖ ≤ lr * C := mul_le_mul_of_nonneg_left hgt hlr.le
      push_cast
      linarith
  exact fun t ht => hgood t ht (hdist t ht)

/-! ### A network with a ReLU layer and a softmax layer -/

/-- A ReLU layer of two units followed by softmax layers, with the identity as weights and all biases 1. -/
noncomputable def twoUnits (i : Nat) : LayerSpec ℝ :=
  ⟨if i = 0 then .hidden else .softmax, 2, 2, fun k j => if k = j then 1 else 0, fun _ => 1, 0, 0⟩

/-- Hypotheses of C145_start and C145_descent: two samples, a ReLU layer, a softmax layer and the cross-entropy, and every positive rate. -/
example : ∃ (net : Net ℝ) (A B : Nat → Nat → ℝ), net.size = 2 ∧ Covered net ∧ SmoothLoss net .ce 2 B ∧
    (∀ l, l < net.size → (net.L l).kind = .hidden ∨ (net.L l).kind = .leaky →
      ∀ i j, i < 2 → j < net.dim (l + 1) → preact (net.L l) (netOut net A l) i j ≠ 0) ∧ ParamsIn net 1 ∧ SameSides net net 2 A ∧
    ∀ lr : ℝ, 0 < lr → ∃ (w : World ℝ) (m : Model ℝ) (lp : Nat → Nat) (wm bm : Nat → Mat) (op : Nat → Nat) (S : Nat → OptSpec ℝ) (X Y : Mat),
      PlainFit w m { net with lp, wm, bm } op S .ce lr X Y 2 A B := by
  let net : Net ℝ := ⟨2, fun _ => 2, fun _ => 0, fun _ => Mat.zero, fun _ => Mat.zero, twoUnits⟩
  let A : Nat → Nat → ℝ := fun i j => if i = j then 1 else 0
  have hpos : ∀ l, l < net.size → (net.L l).kind = .hidden ∨ (net.L l).kind = .leaky →
      ∀ i j, i < 2 → j < net.dim (l + 1) → 0 < preact (net.L l) (netOut net A l) i j := by
    intro l hl hk i j hi hj
    obtain rfl : l = 0 := by
      by_contra hne
      have e : (net.L l).kind = .softmax := if_neg hne
      rw [e] at hk
      rcases hk with h | h <;> cases h
    rw [preact_real]
    refine add_pos_of_nonneg_of_pos (Finset.sum_nonneg fun k _ => ?_) one_pos
    show 0 ≤ (if i = k then (1 : ℝ) else 0) * (if k = j then 1 else 0)
    positivity
  refine ⟨net, A, A, rfl, ⟨by decide, fun l hl => ?_⟩, .inr ⟨rfl, rfl, fun i => i, fun i hi => ⟨hi, fun j hj => ?_⟩⟩,
    fun l hl hk i j hi hj => (hpos l hl hk i j hi hj).ne', ?_, fun l hl hk i j hi hj => mul_pos (hpos l hl hk i j hi hj) (hpos l hl hk i j hi hj), ?_⟩
  · by_cases h : l = 0
    · exact .inr (.inl (if_pos h))
    · exact .inr (.inr (.inr (if_neg h)))
  · show (if i = j then (1 : ℝ) else 0) = if j = i then 1 else 0
    simp only [eq_comm]
  · intro l _
    refine ⟨fun k j _ _ => ?_, fun j _ => ?_⟩
    · show |if k = j then (1 : ℝ) else 0| ≤ 1
      split <;> simp
    · show |(1 : ℝ)| ≤ 1
      simp
  · intro lr hlr
    obtain ⟨o, ho⟩ := sgd_ok_real (lr := lr) (decay := 0) (mom := 0) hlr le_rfl le_rfl
    have hrows : o.weightMomentums.rows = 0 := by rw [newSGD_ok ho]; rfl
    obtain ⟨w, net1, op, XM, YM, xM, yM, -, hs, hL, hdim, hT, dX, dY, -, -⟩ := exists_task (emptyWorld : World ℝ) 2 (by decide)
      twoUnits (fun _ => ⟨Nat.two_pos, Nat.two_pos⟩) (fun _ => rfl) { newModel with loss := some ⟨.ce, 2⟩, lossType := 2 } o
      (OptSpec.fresh o) hrows (fun w p i hlt e => e ▸ isOpt_newSGD _ _ _ _ hlt (e.symm ▸ ho)) (r := 2) (r' := 1) Nat.two_pos Nat.one_pos
      A A (fun _ _ => 0) (fun _ _ => 0)
    have d : ∀ i, net1.dim i = 2 := fun i => by rw [hdim]; rfl
    refine ⟨w, net1.task op { newModel with loss := some ⟨.ce, 2⟩, lossType := 2 }, net1.lp, net1.wm, net1.bm, op, fun _ => OptSpec.fresh o, XM, YM, ?_⟩
    have e : ({ net with lp := net1.lp, wm := net1.wm, bm := net1.bm } : Net ℝ) = net1 := by
      cases net1
      simp only [net, Net.mk.injEq, true_and] at hs hL hdim ⊢
      exact ⟨hs.symm, hdim.symm, hL.symm⟩
    rw [e]
    refine ⟨hT, fun i _ => ?_, ?_, rfl, ?_, ?_, by norm_num⟩
    · rw [newSGD_ok ho]; exact ⟨rfl, rfl, rfl, rfl⟩
    · rw [d]; rfl
    · rw [d]; exact dX
    · rw [d]; exact dY

end NN
