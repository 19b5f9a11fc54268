import Verif.Lemmas.History
import Verif.Real.Inst
import Mathlib.Algebra.BigOperators.Intervals
/-
C41: SGD over any history; C42: SGD with momentum; C43: Adam; C44: rejected updates; C45: constructors.
-/

set_option linter.unusedSectionVars false

namespace NN
open Go

section Any
variable {α : Type} [Flt α]

/-! ### C41 -/

theorem atW_sgd {S : OptSpec α} (hk : S.kind = .sgd) (hm : Flt.eq S.momentum Flt.zero = true) (ht : S.t = 0)
    (GW GB : Nat → Nat → Nat → α) (X : Nat → Nat → α) (t : Nat) :
    S.atW GW GB X t = sgdSeq S.lr S.decay X GW t ∧ S.atB GW GB X t = sgdSeq S.lr S.decay X GB t := by
  induction t with
  | zero => exact ⟨rfl, rfl⟩
  | succ t ih =>
    obtain ⟨h1, h2, h3, h4, -, -, -, h8⟩ := S.at_hyper GW GB t
    have hr : (S.at GW GB t).rate = rateAt S.lr S.decay t := by
      unfold OptSpec.rate rateAt; rw [h2, h3, h8, ht]; simp
    constructor <;> funext i j
    · show (S.at GW GB t).upd _ _ _ _ = _
      unfold OptSpec.upd
      rw [h1, hk, h4, hr, ih.1]
      simp only [hm, if_true]
      rfl
    · show (S.at GW GB t).upd _ _ _ _ = _
      unfold OptSpec.upd
      rw [h1, hk, h4, hr, ih.2]
      simp only [hm, if_true]
      rfl

/-- C41 for any float64 semantics: an optimizer built by NewSGDOptimizer without momentum, over any history of updates:
all updates succeed and change only the parameters, and the parameters follow x ← x - g·rate_t. -/
theorem C41_history (k : Nat) (w : Nat → World α) (op : Nat) (wm bm : Mat) (rw cw rb cb : Nat) (gw gb : Nat → Mat)
    (GW GB : Nat → Nat → Nat → α) (W B : Nat → Nat → α) (lr decay mom : α) (hm : Flt.eq mom Flt.zero = true)
    (hlt : op < (w 0).next) (hnew : newSGDOptimizer lr decay mom = ((w 0).opt op, none))
    (hp : IsParams (w 0) wm bm rw cw rb cb W B) (h : History k w op wm bm rw cw rb cb gw gb GW GB) :
    Follows k w op wm bm rw cw rb cb gw gb (sgdSeq lr decay W GW) (sgdSeq lr decay B GB) := by
  have r := h.run (isOpt_newSGD rw cw rb cb hlt hnew) hp
  have e := newSGD_ok hnew
  have a := fun X t => atW_sgd (S := OptSpec.fresh ((w 0).opt op)) (by rw [e]; rfl) (by rw [e]; exact hm) rfl GW GB X t
  have e1 : (OptSpec.fresh ((w 0).opt op)).lr = lr := by rw [e]; rfl
  have e2 : (OptSpec.fresh ((w 0).opt op)).decay = decay := by rw [e]; rfl
  refine ⟨fun t ht => ?_, r.ok⟩
  have := r.params t ht
  rw [(a W t).1, (a B t).2, e1, e2] at this
  exact this

/-! ### C42 -/

theorem at_sgdm {S : OptSpec α} (hk : S.kind = .sgd) (hm : Flt.eq S.momentum Flt.zero = false) (ht : S.t = 0)
    (hv : S.vw = fun _ _ => Flt.zero) (hv' : S.vb = fun _ _ => Flt.zero)
    (GW GB : Nat → Nat → Nat → α) (X Y : Nat → Nat → α) (t : Nat) :
    (S.at GW GB t).vw = velSeq S.lr S.decay S.momentum GW t ∧ (S.at GW GB t).vb = velSeq S.lr S.decay S.momentum GB t ∧
    S.atW GW GB X t = momSeq S.lr S.decay S.momentum X GW t ∧
    S.atB GW GB Y t = momSeq S.lr S.decay S.momentum Y GB t := by
  induction t with
  | zero => exact ⟨hv, hv', rfl, rfl⟩
  | succ t ih =>
    obtain ⟨h1, h2, h3, h4, -, -, -, h8⟩ := S.at_hyper GW GB t
    have hr : (S.at GW GB t).rate = rateAt S.lr S.decay t := by
      unfold OptSpec.rate rateAt; rw [h2, h3, h8, ht]; simp
    have hvel : ∀ v g, (S.at GW GB t).vel v g = v *. S.momentum -. g *. rateAt S.lr S.decay t := by
      intro v g
      unfold OptSpec.vel
      rw [h1, hk, h4, hr]
      simp only [hm]
      rfl
    have hupd : ∀ x v c g, (S.at GW GB t).upd x v c g = x +. (v *. S.momentum -. g *. rateAt S.lr S.decay t) := by
      intro x v c g
      unfold OptSpec.upd
      rw [h1, hk, h4, hvel]
      simp only [hm]
      rfl
    obtain ⟨i1, i2, i3, i4⟩ := ih
    refine ⟨?_, ?_, ?_, ?_⟩ <;> funext i j
    · show (S.at GW GB t).vel _ _ = _
      rw [hvel, i1]; rfl
    · show (S.at GW GB t).vel _ _ = _
      rw [hvel, i2]; rfl
    · show (S.at GW GB t).upd _ _ _ _ = _
      rw [hupd, i1, i3]; rfl
    · show (S.at GW GB t).upd _ _ _ _ = _
      rw [hupd, i2, i4]; rfl

/-- C42 for any float64 semantics: with momentum ≠ 0 the parameters follow v ← v·mu - g·rate_t, x ← x + v, v starting at
zero; all updates succeed and change only the parameters and the optimizer. -/
theorem C42_history (k : Nat) (w : Nat → World α) (op : Nat) (wm bm : Mat) (rw cw rb cb : Nat) (gw gb : Nat → Mat)
    (GW GB : Nat → Nat → Nat → α) (W B : Nat → Nat → α) (lr decay mom : α) (hm : Flt.eq mom Flt.zero = false)
    (hlt : op < (w 0).next) (hnew : newSGDOptimizer lr decay mom = ((w 0).opt op, none))
    (hp : IsParams (w 0) wm bm rw cw rb cb W B) (h : History k w op wm bm rw cw rb cb gw gb GW GB) :
    Follows k w op wm bm rw cw rb cb gw gb (momSeq lr decay mom W GW) (momSeq lr decay mom B GB) := by
  have r := h.run (isOpt_newSGD rw cw rb cb hlt hnew) hp
  have e := newSGD_ok hnew
  have a := fun t => at_sgdm (S := OptSpec.fresh ((w 0).opt op)) (by rw [e]; rfl) (by rw [e]; exact hm) rfl rfl rfl
    GW GB W B t
  have e1 : (OptSpec.fresh ((w 0).opt op)).lr = lr := by rw [e]; rfl
  have e2 : (OptSpec.fresh ((w 0).opt op)).decay = decay := by rw [e]; rfl
  have e3 : (OptSpec.fresh ((w 0).opt op)).momentum = mom := by rw [e]; rfl
  refine ⟨fun t ht => ?_, r.ok⟩
  have := r.params t ht
  rw [(a t).2.2.1, (a t).2.2.2, e1, e2, e3] at this
  exact this

/-! ### C43, the rule that the code follows -/

theorem at_adam {S : OptSpec α} (hk : S.kind = .adam) (ht : S.t = 0)
    (hv : S.vw = fun _ _ => Flt.zero) (hv' : S.vb = fun _ _ => Flt.zero)
    (hc : S.cw = fun _ _ => Flt.zero) (hc' : S.cb = fun _ _ => Flt.zero)
    (GW GB : Nat → Nat → Nat → α) (X Y : Nat → Nat → α) (t : Nat) :
    (S.at GW GB t).vw = m1Seq S.beta1 GW t ∧ (S.at GW GB t).vb = m1Seq S.beta1 GB t ∧
    (S.at GW GB t).cw = m2Seq S.beta2 GW t ∧ (S.at GW GB t).cb = m2Seq S.beta2 GB t ∧
    S.atW GW GB X t = adamSeq S.lr S.decay S.epsilon S.beta1 S.beta2 (unbias S.beta1) (unbias S.beta1) X GW t ∧
    S.atB GW GB Y t = adamSeq S.lr S.decay S.epsilon S.beta1 S.beta2 (unbias S.beta1) (unbias S.beta1) Y GB t := by
  induction t with
  | zero => exact ⟨hv, hv', hc, hc', rfl, rfl⟩
  | succ t ih =>
    obtain ⟨h1, h2, h3, -, h5, h6, h7, h8⟩ := S.at_hyper GW GB t
    have hr : (S.at GW GB t).rate = rateAt S.lr S.decay t := by
      unfold OptSpec.rate rateAt; rw [h2, h3, h8, ht]; simp
    have hvel : ∀ v g, (S.at GW GB t).vel v g = v *. S.beta1 +. g *. (Flt.one -. S.beta1) := by
      intro v g
      unfold OptSpec.vel
      rw [h1, hk, h6]
    have hcache : ∀ v g, (S.at GW GB t).cache v g =
        v *. S.beta2 +. Flt.pow g (Flt.ofInt 2) *. (Flt.one -. S.beta2) := by
      intro v g
      unfold OptSpec.cache
      rw [h1, hk, h7]
    have hcorr : (S.at GW GB t).corr = unbias S.beta1 t := by
      unfold OptSpec.corr unbias; rw [h6, h8, ht]; simp
    have hupd : ∀ x v c g, (S.at GW GB t).upd x v c g = x +. Flt.neg (rateAt S.lr S.decay t) *.
        ((v *. S.beta1 +. g *. (Flt.one -. S.beta1)) *. unbias S.beta1 t) /.
        (Flt.sqrt ((c *. S.beta2 +. Flt.pow g (Flt.ofInt 2) *. (Flt.one -. S.beta2)) *. unbias S.beta1 t) +.
          S.epsilon) := by
      intro x v c g
      unfold OptSpec.upd
      rw [h1, hk, hvel, hcache, hcorr, hr, h5]
    obtain ⟨i1, i2, i3, i4, i5, i6⟩ := ih
    refine ⟨?_, ?_, ?_, ?_, ?_, ?_⟩ <;> funext i j
    · show (S.at GW GB t).vel _ _ = _
      rw [hvel, i1]; rfl
    · show (S.at GW GB t).vel _ _ = _
      rw [hvel, i2]; rfl
    · show (S.at GW GB t).cache _ _ = _
      rw [hcache, i3]; rfl
    · show (S.at GW GB t).cache _ _ = _
      rw [hcache, i4]; rfl
    · show (S.at GW GB t).upd _ _ _ _ = _
      rw [hupd, i1, i3, i5]; rfl
    · show (S.at GW GB t).upd _ _ _ _ = _
      rw [hupd, i2, i4, i6]; rfl

/-- C43, what the code computes, for any float64 semantics: the correction factor 1/(1-Beta1^t) is applied to both
moments. -/
theorem C43_actual (k : Nat) (w : Nat → World α) (op : Nat) (wm bm : Mat) (rw cw rb cb : Nat) (gw gb : Nat → Mat)
    (GW GB : Nat → Nat → Nat → α) (W B : Nat → Nat → α) (lr decay eps b1 b2 : α)
    (hlt : op < (w 0).next) (hnew : newAdamOptimizer lr decay eps b1 b2 = ((w 0).opt op, none))
    (hp : IsParams (w 0) wm bm rw cw rb cb W B) (h : History k w op wm bm rw cw rb cb gw gb GW GB) :
    Follows k w op wm bm rw cw rb cb gw gb (adamSeq lr decay eps b1 b2 (unbias b1) (unbias b1) W GW)
      (adamSeq lr decay eps b1 b2 (unbias b1) (unbias b1) B GB) := by
  have r := h.run (isOpt_newAdam rw cw rb cb hlt hnew) hp
  have e := newAdam_ok hnew
  have a := fun t => at_adam (S := OptSpec.fresh ((w 0).opt op)) (by rw [e]; rfl) rfl rfl rfl rfl rfl GW GB W B t
  have e1 : (OptSpec.fresh ((w 0).opt op)).lr = lr := by rw [e]; rfl
  have e2 : (OptSpec.fresh ((w 0).opt op)).decay = decay := by rw [e]; rfl
  have e3 : (OptSpec.fresh ((w 0).opt op)).epsilon = eps := by rw [e]; rfl
  have e4 : (OptSpec.fresh ((w 0).opt op)).beta1 = b1 := by rw [e]; rfl
  have e5 : (OptSpec.fresh ((w 0).opt op)).beta2 = b2 := by rw [e]; rfl
  refine ⟨fun t ht => ?_, r.ok⟩
  have := r.params t ht
  rw [(a t).2.2.2.2.1, (a t).2.2.2.2.2, e1, e2, e3, e4, e5] at this
  exact this

end Any

/-! ### Over the reals -/

theorem rateAt_real (lr decay : ℝ) (t : Nat) : rateAt lr decay t = lr / (1 + decay * t) := by
  unfold rateAt
  by_cases h : decay = 0
  · simp [h]
  · simp [h, div_eq_mul_inv]

theorem sgdSeq_real (lr decay : ℝ) (X : Nat → Nat → ℝ) (G : Nat → Nat → Nat → ℝ) (k i j : Nat) :
    sgdSeq lr decay X G k i j = X i j - ∑ t ∈ Finset.range k, lr / (1 + decay * t) * G t i j := by
  induction k with
  | zero => simp [sgdSeq]
  | succ k ih => simp only [sgdSeq, real_sub, real_mul, ih, rateAt_real, Finset.sum_range_succ]; ring

/-- C41: over the reals each weight is w_0 - Σ_t rate_t·g_t with rate_t = LearningRate/(1 + Decay·t), biases likewise. -/
theorem C41_sum (k : Nat) (w : Nat → World ℝ) (op : Nat) (wm bm : Mat) (rw cw rb cb : Nat) (gw gb : Nat → Mat)
    (GW GB : Nat → Nat → Nat → ℝ) (W B : Nat → Nat → ℝ) (lr decay : ℝ)
    (hlt : op < (w 0).next) (hnew : newSGDOptimizer lr decay 0 = ((w 0).opt op, none))
    (hp : IsParams (w 0) wm bm rw cw rb cb W B) (h : History k w op wm bm rw cw rb cb gw gb GW GB) :
    Follows k w op wm bm rw cw rb cb gw gb
      (fun n i j => W i j - ∑ t ∈ Finset.range n, lr / (1 + decay * t) * GW t i j)
      (fun n i j => B i j - ∑ t ∈ Finset.range n, lr / (1 + decay * t) * GB t i j) := by
  have := C41_history k w op wm bm rw cw rb cb gw gb GW GB W B lr decay 0 (by simp) hlt hnew hp h
  refine ⟨fun t ht => ?_, this.ok⟩
  have := this.params t ht
  rwa [show sgdSeq lr decay W GW t = fun i j => W i j - ∑ s ∈ Finset.range t, lr / (1 + decay * s) * GW s i j by
      funext i j; exact sgdSeq_real ..,
    show sgdSeq lr decay B GB t = fun i j => B i j - ∑ s ∈ Finset.range t, lr / (1 + decay * s) * GB s i j by
      funext i j; exact sgdSeq_real ..] at this

/-- C41: zero gradients leave the parameters unchanged, whatever the rate and decay. -/
theorem C41_zero_gradient (k : Nat) (w : Nat → World ℝ) (op : Nat) (wm bm : Mat) (rw cw rb cb : Nat) (gw gb : Nat → Mat)
    (W B : Nat → Nat → ℝ) (lr decay : ℝ)
    (hlt : op < (w 0).next) (hnew : newSGDOptimizer lr decay 0 = ((w 0).opt op, none))
    (hp : IsParams (w 0) wm bm rw cw rb cb W B)
    (h : History k w op wm bm rw cw rb cb gw gb (fun _ _ _ => 0) (fun _ _ _ => 0)) :
    Follows k w op wm bm rw cw rb cb gw gb (fun _ => W) (fun _ => B) := by
  have := C41_sum k w op wm bm rw cw rb cb gw gb _ _ W B lr decay hlt hnew hp h
  simpa using this

theorem sgd_ok_real {lr decay mom : ℝ} (h1 : 0 < lr) (h2 : 0 ≤ decay) (h3 : 0 ≤ mom) :
    ∃ o, newSGDOptimizer lr decay mom = (o, none) := by
  unfold newSGDOptimizer
  rw [if_neg (by simp [h1]), if_neg (by simp [h2]), if_neg (by simp [h3])]
  exact ⟨_, rfl⟩

/-- Ten updates of a 2 × 3 layer with learning rate 1/10 and decay 1/100 meet the hypotheses of C41. -/
example : ∃ (w : Nat → World ℝ) (op : Nat) (wm bm dw db : Mat),
    op < (w 0).next ∧ newSGDOptimizer (1 / 10) (1 / 100) 0 = ((w 0).opt op, none) ∧
    IsParams (w 0) wm bm 2 3 1 3 (fun i j => (i : ℝ) + j) (fun _ j => (j : ℝ)) ∧
    History 10 w op wm bm 2 3 1 3 (fun _ => dw) (fun _ => db) (fun _ i j => (i : ℝ) - j) (fun _ _ j => (j : ℝ) + 1) := by
  obtain ⟨o, ho⟩ := sgd_ok_real (lr := 1 / 10) (decay := 1 / 100) (mom := 0) (by norm_num) (by norm_num) le_rfl
  obtain ⟨w, op, wm, bm, dw, db, h1, h2, h3, h4⟩ := exists_history 10 (rw := 2) (cw := 3) (rb := 1) (cb := 3)
    (by decide) (by decide) (by decide) (by decide) (fun i j => (i : ℝ) + j) (fun _ j => (j : ℝ))
    (fun i j => (i : ℝ) - j) (fun _ j => (j : ℝ) + 1) o
    (fun w op hlt e => e ▸ isOpt_newSGD _ _ _ _ hlt (e.symm ▸ ho))
  exact ⟨w, op, wm, bm, dw, db, h1, by rw [h2]; exact ho, h3, h4⟩

theorem velSeq_real (lr decay mu : ℝ) (G : Nat → Nat → Nat → ℝ) (k i j : Nat) :
    velSeq lr decay mu G k i j = - ∑ t ∈ Finset.range k, mu ^ (k - 1 - t) * (lr / (1 + decay * t) * G t i j) := by
  induction k with
  | zero => simp [velSeq]
  | succ k ih =>
    simp only [velSeq, real_sub, real_mul, ih, rateAt_real, Finset.sum_range_succ]
    simp only [Nat.add_sub_cancel, Nat.sub_self, pow_zero, one_mul]
    have : ∀ t ∈ Finset.range k, mu ^ (k - t) * (lr / (1 + decay * t) * G t i j) =
        mu * (mu ^ (k - 1 - t) * (lr / (1 + decay * t) * G t i j)) := by
      intro t ht
      rw [Finset.mem_range] at ht
      rw [show k - t = k - 1 - t + 1 by omega, pow_succ]
      ring
    rw [Finset.sum_congr rfl this, ← Finset.mul_sum]
    ring

theorem momSeq_real (lr decay mu : ℝ) (X : Nat → Nat → ℝ) (G : Nat → Nat → Nat → ℝ) (k i j : Nat) :
    momSeq lr decay mu X G k i j = X i j + ∑ s ∈ Finset.range k, velSeq lr decay mu G (s + 1) i j := by
  induction k with
  | zero => simp [momSeq]
  | succ k ih => simp only [momSeq, real_add, ih, Finset.sum_range_succ]; ring

/-- C42: over the reals the t-th update adds v_t = mu·v_{t-1} - rate_t·g_t to the parameters (v_{-1} = 0), that is,
v_t = -Σ_{s ≤ t} mu^(t-s)·rate_s·g_s; here for every momentum ≥ 0 accepted by the constructor, zero included. -/
theorem C42_sum (k : Nat) (w : Nat → World ℝ) (op : Nat) (wm bm : Mat) (rw cw rb cb : Nat) (gw gb : Nat → Mat)
    (GW GB : Nat → Nat → Nat → ℝ) (W B : Nat → Nat → ℝ) (lr decay mu : ℝ)
    (hlt : op < (w 0).next) (hnew : newSGDOptimizer lr decay mu = ((w 0).opt op, none))
    (hp : IsParams (w 0) wm bm rw cw rb cb W B) (h : History k w op wm bm rw cw rb cb gw gb GW GB) :
    ∃ vw vb : Nat → Nat → Nat → ℝ,
      (∀ i j, vw 0 i j = - (lr * GW 0 i j)) ∧ (∀ i j, vb 0 i j = - (lr * GB 0 i j)) ∧
      (∀ t i j, vw (t + 1) i j = mu * vw t i j - lr / (1 + decay * (t + 1)) * GW (t + 1) i j) ∧
      (∀ t i j, vb (t + 1) i j = mu * vb t i j - lr / (1 + decay * (t + 1)) * GB (t + 1) i j) ∧
      Follows k w op wm bm rw cw rb cb gw gb
        (fun n i j => W i j + ∑ t ∈ Finset.range n, vw t i j) (fun n i j => B i j + ∑ t ∈ Finset.range n, vb t i j) := by
  refine ⟨fun t => velSeq lr decay mu GW (t + 1), fun t => velSeq lr decay mu GB (t + 1), ?_, ?_, ?_, ?_, ?_⟩
  · intro i j; simp [velSeq, rateAt_real]; ring
  · intro i j; simp [velSeq, rateAt_real]; ring
  · intro t i j
    show velSeq _ _ _ _ (t + 1) i j *. mu -. _ *. _ = _
    simp only [real_sub, real_mul, rateAt_real]; push_cast; ring
  · intro t i j
    show velSeq _ _ _ _ (t + 1) i j *. mu -. _ *. _ = _
    simp only [real_sub, real_mul, rateAt_real]; push_cast; ring
  · by_cases hm : mu = 0
    · subst hm
      have := C41_sum k w op wm bm rw cw rb cb gw gb GW GB W B lr decay hlt hnew hp h
      have hz : ∀ (G : Nat → Nat → Nat → ℝ) t i j, velSeq lr decay 0 G (t + 1) i j = - (lr / (1 + decay * t) * G t i j) := by
        intro G t i j; rw [velSeq]; simp only [real_sub, real_mul, rateAt_real]; ring
      simp only [hz, Finset.sum_neg_distrib, ← sub_eq_add_neg]
      exact this
    · have := C42_history k w op wm bm rw cw rb cb gw gb GW GB W B lr decay mu (by simp [hm]) hlt hnew hp h
      refine ⟨fun t ht => ?_, this.ok⟩
      have := this.params t ht
      rwa [show momSeq lr decay mu W GW t = fun i j => W i j + ∑ s ∈ Finset.range t, velSeq lr decay mu GW (s + 1) i j by
          funext i j; exact momSeq_real ..,
        show momSeq lr decay mu B GB t = fun i j => B i j + ∑ s ∈ Finset.range t, velSeq lr decay mu GB (s + 1) i j by
          funext i j; exact momSeq_real ..] at this

/-- Ten updates with momentum 9/10 meet the hypotheses of C42. -/
example : ∃ (w : Nat → World ℝ) (op : Nat) (wm bm dw db : Mat),
    op < (w 0).next ∧ newSGDOptimizer (1 / 10) (1 / 100) (9 / 10) = ((w 0).opt op, none) ∧
    IsParams (w 0) wm bm 2 3 1 3 (fun i j => (i : ℝ) + j) (fun _ j => (j : ℝ)) ∧
    History 10 w op wm bm 2 3 1 3 (fun _ => dw) (fun _ => db) (fun _ i j => (i : ℝ) - j) (fun _ _ j => (j : ℝ) + 1) := by
  obtain ⟨o, ho⟩ := sgd_ok_real (lr := 1 / 10) (decay := 1 / 100) (mom := 9 / 10) (by norm_num) (by norm_num)
    (by norm_num)
  obtain ⟨w, op, wm, bm, dw, db, h1, h2, h3, h4⟩ := exists_history 10 (rw := 2) (cw := 3) (rb := 1) (cb := 3)
    (by decide) (by decide) (by decide) (by decide) (fun i j => (i : ℝ) + j) (fun _ j => (j : ℝ))
    (fun i j => (i : ℝ) - j) (fun _ j => (j : ℝ) + 1) o
    (fun w op hlt e => e ▸ isOpt_newSGD _ _ _ _ hlt (e.symm ▸ ho))
  exact ⟨w, op, wm, bm, dw, db, h1, by rw [h2]; exact ho, h3, h4⟩

/-! ### C43 over the reals -/

/-- Exponential average with weight b: m_0 = 0, m_{t+1} = b·m_t + (1-b)·x_t. -/
noncomputable def expAvg (b : ℝ) (x : Nat → ℝ) : Nat → ℝ
  | 0 => 0
  | t + 1 => b * expAvg b x t + (1 - b) * x t

/-- The published Adam rule (Kingma and Ba): the t-th update (t = 1, 2, …) subtracts
rate · (m_t/(1-b1^t)) / (√(v_t/(1-b2^t)) + ε). -/
noncomputable def adamPublished (lr decay eps b1 b2 : ℝ) (x0 : ℝ) (g : Nat → ℝ) : Nat → ℝ
  | 0 => x0
  | t + 1 => adamPublished lr decay eps b1 b2 x0 g t - lr / (1 + decay * t) *
      (expAvg b1 g (t + 1) / (1 - b1 ^ (t + 1))) /
        (Real.sqrt (expAvg b2 (fun s => g s ^ 2) (t + 1) / (1 - b2 ^ (t + 1))) + eps)

/-- C43 for given Beta1 and Beta2. -/
def AdamClaim (b1 b2 : ℝ) : Prop :=
  ∀ (k : Nat) (w : Nat → World ℝ) (op : Nat) (wm bm : Mat) (rw cw rb cb : Nat) (gw gb : Nat → Mat)
    (GW GB : Nat → Nat → Nat → ℝ) (W B : Nat → Nat → ℝ) (lr decay eps : ℝ),
    op < (w 0).next → newAdamOptimizer lr decay eps b1 b2 = ((w 0).opt op, none) →
    IsParams (w 0) wm bm rw cw rb cb W B → History k w op wm bm rw cw rb cb gw gb GW GB →
    Follows k w op wm bm rw cw rb cb gw gb
      (fun n i j => adamPublished lr decay eps b1 b2 (W i j) (fun t => GW t i j) n)
      (fun n i j => adamPublished lr decay eps b1 b2 (B i j) (fun t => GB t i j) n)

/-- C43 in full. -/
def C43_claim : Prop := ∀ b1 b2, AdamClaim b1 b2

theorem m1Seq_real (b : ℝ) (G : Nat → Nat → Nat → ℝ) (t i j : Nat) :
    m1Seq b G t i j = expAvg b (fun s => G s i j) t := by
  induction t with
  | zero => simp [m1Seq, expAvg]
  | succ t ih => simp only [m1Seq, expAvg, real_add, real_mul, real_sub, ih, real_ofInt, Int.cast_one]; ring

theorem m2Seq_real (b : ℝ) (G : Nat → Nat → Nat → ℝ) (t i j : Nat) :
    m2Seq b G t i j = expAvg b (fun s => G s i j ^ 2) t := by
  induction t with
  | zero => simp [m2Seq, expAvg]
  | succ t ih =>
    simp only [m2Seq, expAvg, real_add, real_mul, real_sub, ih, real_ofInt, Int.cast_one, real_pow]
    rw [show ((2 : Int) : ℝ) = ((2 : Nat) : ℝ) by norm_num, Real.rpow_natCast]
    ring

theorem unbias_real (b : ℝ) (t : Nat) : unbias b t = 1 / (1 - b ^ (t + 1)) := by
  unfold unbias
  simp only [real_div, real_sub, real_ofInt, Int.cast_one, real_pow]
  rw [show (((t : Int) + 1 : Int) : ℝ) = ((t + 1 : Nat) : ℝ) by push_cast; ring, Real.rpow_natCast]

/-- C43, what the code computes over the reals. -/
theorem C43_actual_real (k : Nat) (w : Nat → World ℝ) (op : Nat) (wm bm : Mat) (rw cw rb cb : Nat) (gw gb : Nat → Mat)
    (GW GB : Nat → Nat → Nat → ℝ) (W B : Nat → Nat → ℝ) (lr decay eps b1 b2 : ℝ)
    (hlt : op < (w 0).next) (hnew : newAdamOptimizer lr decay eps b1 b2 = ((w 0).opt op, none))
    (hp : IsParams (w 0) wm bm rw cw rb cb W B) (h : History k w op wm bm rw cw rb cb gw gb GW GB) :
    ∃ PW PB : Nat → Nat → Nat → ℝ, PW 0 = W ∧ PB 0 = B ∧
      (∀ t i j, PW (t + 1) i j = PW t i j - lr / (1 + decay * t) *
        (expAvg b1 (fun s => GW s i j) (t + 1) / (1 - b1 ^ (t + 1))) /
        (Real.sqrt (expAvg b2 (fun s => GW s i j ^ 2) (t + 1) / (1 - b1 ^ (t + 1))) + eps)) ∧
      (∀ t i j, PB (t + 1) i j = PB t i j - lr / (1 + decay * t) *
        (expAvg b1 (fun s => GB s i j) (t + 1) / (1 - b1 ^ (t + 1))) /
        (Real.sqrt (expAvg b2 (fun s => GB s i j ^ 2) (t + 1) / (1 - b1 ^ (t + 1))) + eps)) ∧
      Follows k w op wm bm rw cw rb cb gw gb PW PB := by
  have := C43_actual k w op wm bm rw cw rb cb gw gb GW GB W B lr decay eps b1 b2 hlt hnew hp h
  refine ⟨_, _, rfl, rfl, ?_, ?_, this⟩
  · intro t i j
    rw [adamSeq]
    simp only [real_add, real_div, real_neg, real_mul, real_sqrt, rateAt_real, m1Seq_real, m2Seq_real, unbias_real,
      mul_one_div]
    ring
  · intro t i j
    rw [adamSeq]
    simp only [real_add, real_div, real_neg, real_mul, real_sqrt, rateAt_real, m1Seq_real, m2Seq_real, unbias_real,
      mul_one_div]
    ring

/-- C43 holds when Beta1 = Beta2.  Missing: all other hyper-parameters, for which it is false (C43_false). -/
theorem C43_equal_betas_partial (b : ℝ) : AdamClaim b b := by
  intro k w op wm bm rw cw rb cb gw gb GW GB W B lr decay eps hlt hnew hp h
  obtain ⟨PW, PB, h1, h2, h3, h4, h5⟩ := C43_actual_real k w op wm bm rw cw rb cb gw gb GW GB W B lr decay eps b b
    hlt hnew hp h
  have e1 : PW = fun n i j => adamPublished lr decay eps b b (W i j) (fun t => GW t i j) n := by
    funext n i j
    induction n with
    | zero => rw [h1]; rfl
    | succ n ih => rw [h3, ih]; rfl
  have e2 : PB = fun n i j => adamPublished lr decay eps b b (B i j) (fun t => GB t i j) n := by
    funext n i j
    induction n with
    | zero => rw [h2]; rfl
    | succ n ih => rw [h4, ih]; rfl
  rw [← e1, ← e2]
  exact h5

theorem adam_ok_real {lr decay : ℝ} (h1 : 0 < lr) (h2 : 0 ≤ decay) (eps b1 b2 : ℝ) :
    ∃ o, newAdamOptimizer lr decay eps b1 b2 = (o, none) := by
  unfold newAdamOptimizer
  rw [if_neg (by simp [h1]), if_neg (by simp [h2])]
  exact ⟨_, rfl⟩

theorem exists_adam_history (k : Nat) {lr decay : ℝ} (h1 : 0 < lr) (h2 : 0 ≤ decay) (eps b1 b2 : ℝ)
    (W B GW GB : Nat → Nat → ℝ) : ∃ (w : Nat → World ℝ) (op : Nat) (wm bm dw db : Mat),
    op < (w 0).next ∧ newAdamOptimizer lr decay eps b1 b2 = ((w 0).opt op, none) ∧
    IsParams (w 0) wm bm 2 3 1 3 W B ∧
    History k w op wm bm 2 3 1 3 (fun _ => dw) (fun _ => db) (fun _ => GW) (fun _ => GB) := by
  obtain ⟨o, ho⟩ := adam_ok_real h1 h2 eps b1 b2
  obtain ⟨w, op, wm, bm, dw, db, h1, h2, h3, h4⟩ := exists_history k (rw := 2) (cw := 3) (rb := 1) (cb := 3)
    (by decide) (by decide) (by decide) (by decide) W B GW GB o
    (fun w op hlt e => e ▸ isOpt_newAdam _ _ _ _ hlt (e.symm ▸ ho))
  exact ⟨w, op, wm, bm, dw, db, h1, by rw [h2]; exact ho, h3, h4⟩

/-- Ten updates with the usual hyper-parameters meet the hypotheses of C43. -/
example : ∃ (w : Nat → World ℝ) (op : Nat) (wm bm dw db : Mat),
    op < (w 0).next ∧
    newAdamOptimizer (1 / 1000) (1 / 100) (1 / 10 ^ 7) (9 / 10) (999 / 1000) = ((w 0).opt op, none) ∧
    IsParams (w 0) wm bm 2 3 1 3 (fun i j => (i : ℝ) + j) (fun _ j => (j : ℝ)) ∧
    History 10 w op wm bm 2 3 1 3 (fun _ => dw) (fun _ => db) (fun _ i j => (i : ℝ) - j) (fun _ _ j => (j : ℝ) + 1) :=
  exists_adam_history 10 (by norm_num) (by norm_num) _ _ _ _ _ _ _

/-- C43 is false of the code: with Beta1 = 1/2, Beta2 = 0, LearningRate = ε = 1 the first update with gradient 1 changes
a weight by -1/(√2+1) instead of -1/2. -/
theorem C43_false : ¬ C43_claim := by
  intro hc
  obtain ⟨w, op, wm, bm, dw, db, h1, h2, h3, h4⟩ := exists_adam_history 1 (lr := 1) (decay := 0) (by norm_num) le_rfl
    1 (1 / 2) 0 (fun _ _ => 0) (fun _ _ => 0) (fun _ _ => 1) (fun _ _ => 1)
  have a := (hc (1 / 2) 0 1 w op wm bm 2 3 1 3 _ _ _ _ _ _ 1 0 1 h1 h2 h3 h4).params 1 le_rfl
  obtain ⟨PW, PB, p1, p2, p3, -, p5⟩ := C43_actual_real 1 w op wm bm 2 3 1 3 _ _ _ _ _ _ 1 0 1 (1 / 2) 0 h1 h2 h3 h4
  have b := p5.params 1 le_rfl
  have e := a.wmat.entries_unique b.wmat (i := 0) (j := 0) (by decide) (by decide)
  rw [p3, p1] at e
  norm_num [adamPublished, expAvg] at e
  have hs : Real.sqrt 2 * Real.sqrt 2 = 2 := Real.mul_self_sqrt (by norm_num)
  have hp : 0 ≤ Real.sqrt 2 := Real.sqrt_nonneg 2
  have hne : Real.sqrt 2 + 1 ≠ 0 := by positivity
  field_simp at e
  nlinarith

/-! ### C44 -/

section Any
variable {α : Type} [Flt α]

/-- C44 for a class of optimizer states: on well-formed parameters and gradients of any shapes, Update does not panic,
and if it returns an error the only object changed is the optimizer. -/
def UpdateClaim (α : Type) [Flt α] (P : World α → Nat → (rw cw rb cb : Nat) → Prop) : Prop :=
  ∀ (w : World α) (op : Nat) (wm bm dw db : Mat) (rw cw rb cb r1 c1 r2 c2 : Nat) (W B GW GB : Nat → Nat → α),
    P w op rw cw rb cb → IsParams w wm bm rw cw rb cb W B → IsMat w dw r1 c1 GW → IsMat w db r2 c2 GB →
    ∃ e w', optUpdate op (some wm) (some bm) dw db w = .ok (e, w') ∧
      (e ≠ none → Frame { opt := fun a => a = op } w w' ∧ IsParams w' wm bm rw cw rb cb W B)

/-- C44 in full: every optimizer fresh from a constructor, and every optimizer keeping state after any history. -/
def C44_claim (α : Type) [Flt α] : Prop :=
  UpdateClaim α fun w op rw cw rb cb => (∃ S, IsOpt w op rw cw rb cb S) ∨ ∃ S, OptOk w op rw cw rb cb S

/-- C44 for Adam and for SGD with momentum, in any state that any history can lead to: Update never panics; it returns an
error exactly if the gradients do not fit or the state of the biases was lost in an earlier error; on an error nothing but
the optimizer object changes; and the state after the update is again such a state.  Missing: SGD without momentum, for
which the claim is false (C44_false). -/
theorem C44_stateful_partial (w : World α) (op : Nat) (wm bm dw db : Mat) (rw cw rb cb r1 c1 r2 c2 : Nat)
    (W B GW GB : Nat → Nat → α) (S : OptSpec α) (ho : OptOk w op rw cw rb cb S)
    (hp : IsParams w wm bm rw cw rb cb W B) (hGW : IsMat w dw r1 c1 GW) (hGB : IsMat w db r2 c2 GB) :
    ∃ e w', optUpdate op (some wm) (some bm) dw db w = .ok (e, w') ∧
      (e = none ↔ r1 = rw ∧ c1 = cw ∧ r2 = rb ∧ c2 = cb ∧ ¬ (w.opt op).biasLost) ∧
      (e ≠ none → Frame { opt := fun a => a = op } w w' ∧ IsParams w' wm bm rw cw rb cb W B) ∧
      (∃ S', OptOk w' op rw cw rb cb S') ∧ ∃ W' B', IsParams w' wm bm rw cw rb cb W' B' := by
  by_cases hf : Fits (w.opt op) rw cw rb cb r1 c1 r2 c2
  · obtain ⟨rfl, rfl, rfl, rfl, hb⟩ := hf
    obtain ⟨vw, vb, d1, d2, hi⟩ := ho.isOpt hb
    have hu := optUpdate_spec hi hp hGW hGB
    rw [wp_iff] at hu
    obtain ⟨e, u, hr, rfl, hu⟩ := hu
    refine ⟨none, u, hr, ⟨fun _ => ⟨rfl, rfl, rfl, rfl, hb⟩, fun _ => rfl⟩, fun h => absurd rfl h,
      ⟨_, hu.opt.optOk ho.stateful⟩, _, _, hu.params⟩
  · have hu := optUpdate_err ho hp hGW hGB hf
    rw [wp_iff] at hu
    obtain ⟨e, u, hr, he, hu⟩ := hu
    have hp' : IsParams u wm bm rw cw rb cb W B := by
      refine ⟨hp.wmat.optf hu.frame, hp.bmat.optf hu.frame, hp.wd.frame hu.frame hp.wmat.addr_lt (fun h => h),
        hp.bd.frame hu.frame hp.bmat.addr_lt (fun h => h), ?_⟩
      intro a h1 h2
      exact hp.disj a ((hp.wmat.isRow_frame hu.frame (fun h => h) a).1 h1)
        ((hp.bmat.isRow_frame hu.frame (fun h => h) a).1 h2)
    exact ⟨e, u, hr, ⟨fun h => absurd h he, fun h => absurd h hf⟩, fun _ => ⟨hu.frame, hp'⟩, ⟨_, hu.opt⟩, _, _, hp'⟩

/-- An optimizer that lost the state of the biases never recovers: every later update whose weight gradients fit is
rejected, and leaves the optimizer in such a state. -/
theorem C44_stuck (w : World α) (op : Nat) (wm bm dw db : Mat) (rw cw rb cb r2 c2 : Nat)
    (W B GW GB : Nat → Nat → α) (S : OptSpec α) (ho : OptOk w op rw cw rb cb S) (hl : (w.opt op).biasLost)
    (hp : IsParams w wm bm rw cw rb cb W B) (hGW : IsMat w dw rw cw GW) (hGB : IsMat w db r2 c2 GB) :
    ∃ e w', optUpdate op (some wm) (some bm) dw db w = .ok (some e, w') := by
  obtain ⟨e, w', h1, h2, -⟩ := C44_stateful_partial w op wm bm dw db rw cw rb cb rw cw r2 c2 W B GW GB S ho hp hGW hGB
  cases e with
  | none => exact absurd hl (h2.1 rfl).2.2.2.2
  | some e => exact ⟨e, w', h1⟩

theorem subInto_panics {w : World α} {m u : Mat} {r c c' : Nat} {A B : Nat → Nat → α} (hA : IsMat w m r c A)
    (hd : DistinctRows w m r) (hB : IsMat w u r c' B) (hdisj : ∀ a, w.IsRow u r a → ¬ w.IsRow m r a) (hc : c' < c) :
    Panics (subInto m u) w := by
  unfold subInto
  rw [hA.rows, hA.cols, Int.toNat_natCast, Int.toNat_natCast]
  refine forN_panics (fun _ w1 => ∃ A1, SetMat w w1 m r c A1) ⟨A, SetMat.refl hA⟩ ?_ ?_
  · rintro i w1 hi ⟨A1, h1⟩
    right
    refine forN_panics (fun _ w1 => ∃ A1, SetMat w w1 m r c A1) ⟨A1, h1⟩ ?_ ⟨c', hc, ?_⟩
    · rintro j w2 hj ⟨A2, h2⟩
      have hB2 := hB.frame h2.frame (fun h => h) hdisj
      by_cases hj' : j < c'
      · left
        rw [wp_bind, wp_at h2.mat hi hj, wp_bind, wp_at hB2 hi hj']
        refine wp_mono (wp_setAt h2.mat ((h2.distinct _ _).2 hd) hi hj _) ?_
        intro _ w3 h3
        exact ⟨_, h2.trans h3⟩
      · right
        refine ⟨.index, ?_⟩
        rw [bind_ok (at_ok h2.mat hi hj), bind_error (at_bad hB2 hi (by omega))]
    · rintro w2 ⟨A2, h2⟩
      have hB2 := hB.frame h2.frame (fun h => h) hdisj
      refine ⟨.index, ?_⟩
      rw [bind_ok (at_ok h2.mat hi hc), bind_error (at_bad hB2 hi (by omega))]
  · refine ⟨0, hA.rpos, ?_⟩
    rintro w1 ⟨A1, h1⟩
    refine forN_panics (fun _ w1 => ∃ A1, SetMat w w1 m r c A1) ⟨A1, h1⟩ ?_ ⟨c', hc, ?_⟩
    · rintro j w2 hj ⟨A2, h2⟩
      have hB2 := hB.frame h2.frame (fun h => h) hdisj
      by_cases hj' : j < c'
      · left
        rw [wp_bind, wp_at h2.mat hA.rpos hj, wp_bind, wp_at hB2 hA.rpos hj']
        refine wp_mono (wp_setAt h2.mat ((h2.distinct _ _).2 hd) hA.rpos hj _) ?_
        intro _ w3 h3
        exact ⟨_, h2.trans h3⟩
      · right
        refine ⟨.index, ?_⟩
        rw [bind_ok (at_ok h2.mat hA.rpos hj), bind_error (at_bad hB2 hA.rpos (by omega))]
    · rintro w2 ⟨A2, h2⟩
      have hB2 := hB.frame h2.frame (fun h => h) hdisj
      refine ⟨.index, ?_⟩
      rw [bind_ok (at_ok h2.mat hA.rpos hc), bind_error (at_bad hB2 hA.rpos (by omega))]

/-- SGD without momentum panics when the weight gradient has fewer columns than the weights (some weights may have been
changed by then). -/
theorem C44_plain_panics (w : World α) (op : Nat) (wm bm dw db : Mat) (rw cw rb cb c1 : Nat)
    (W B GW GB : Nat → Nat → α) (S : OptSpec α) (ho : IsOpt w op rw cw rb cb S) (hk : S.kind = .sgd)
    (hm : Flt.eq S.momentum Flt.zero = true) (hp : IsParams w wm bm rw cw rb cb W B) (hGW : IsMat w dw rw c1 GW)
    (hGB : IsMat w db rb cb GB) (hc : c1 < cw) :
    Panics (optUpdate op (some wm) (some bm) dw db) w := by
  have hum : (w.opt op).decayed.useMomentum = false := by
    rw [decayed_fields]; dsimp only; rw [ho.fields.useMomentum hk, hm]; rfl
  have f1 := frame_optSet w op (w.opt op).decayed
  have r1 := mulScalar_spec (hGW.optf f1) (w.opt op).decayed.currentRate
  rw [wp_iff] at r1
  obtain ⟨wu, w2, e2, h2⟩ := r1
  have f2 := f1.then_allocs h2.frame
  have r2 := mulScalar_spec (hGB.optf f2) (w.opt op).decayed.currentRate
  rw [wp_iff] at r2
  obtain ⟨bu, w3, e3, h3⟩ := r2
  have f3 := f2.then_allocs h3.frame
  have u3 : Fresh w w3 wu rw c1 _ := (Fresh.of_new f1 h2).allocs h3.frame
  obtain ⟨p, ep⟩ := subInto_panics (hp.wmat.optf f3) (hp.wd.frame f3 hp.wmat.addr_lt (fun h => h)) u3.mat (by
    intro a h h'
    have := u3.fresh a h
    have := hp.wmat.isRow_lt ((hp.wmat.isRow_frame f3 (fun h => h) a).1 h')
    omega) hc
  refine ⟨p, ?_⟩
  unfold optUpdate
  rw [bind_ok (show optGet op w = .ok (w.opt op, w) from rfl), bind_ok (show deref (some wm) w = .ok (wm, w) from rfl),
    bind_ok (show deref (some bm) w = .ok (bm, w) from rfl), ho.fields.kind, hk]
  show sgdUpdate op wm bm dw db w = _
  unfold sgdUpdate
  refine (bind_ok (show optGet op w = .ok (w.opt op, w) from rfl)).trans ?_
  dsimp only
  refine (bind_ok (optSet_run _ _ _)).trans ?_
  rw [if_neg (by rw [hum]; decide)]
  refine (bind_ok e2).trans ?_
  refine (bind_ok e3).trans ?_
  exact bind_error ep

/-- Parameters, a separate pair of gradients of other shapes, and any given new optimizer object exist together. -/
theorem exists_update_state {rw cw rb cb r1 c1 r2 c2 : Nat} (h1 : 0 < rw) (h2 : 0 < cw) (h3 : 0 < rb) (h4 : 0 < cb)
    (h5 : 0 < r1) (h6 : 0 < c1) (h7 : 0 < r2) (h8 : 0 < c2) (W B GW GB : Nat → Nat → α) (o : Optim α) :
    ∃ (w : World α) (op : Nat) (wm bm dw db : Mat), op < w.next ∧ w.opt op = o ∧ IsParams w wm bm rw cw rb cb W B ∧
      IsMat w dw r1 c1 GW ∧ IsMat w db r2 c2 GB := by
  let w0 : World α := { (emptyWorld : World α) with opt := fun _ => o }
  have p1 := place_spec w0 W h1 h2
  have p2 := place_spec (placeW w0 rw cw W) B h3 h4
  have p3 := place_spec (placeW (placeW w0 rw cw W) rb cb B) GW h5 h6
  have p4 := place_spec (placeW (placeW (placeW w0 rw cw W) rb cb B) r1 c1 GW) GB h7 h8
  have f24 := p3.frame.trans_same p4.frame
  have f14 := p2.frame.trans_same f24
  refine ⟨_, 0, _, _, _, _, ?_, rfl, ⟨p1.mat.allocs f14, p2.mat.allocs f24,
    p1.distinct.frame f14 p1.mat.addr_lt (fun h => h), p2.distinct.frame f24 p2.mat.addr_lt (fun h => h), ?_⟩,
    p3.mat.allocs p4.frame, p4.mat⟩
  · exact Nat.lt_of_lt_of_le Nat.zero_lt_one (p1.frame.next_le.trans f14.next_le)
  · intro a ha hb
    have := p2.fresh a ((p2.mat.isRow_frame f24 (fun h => h) a).1 hb)
    have := p1.mat.isRow_lt ((p1.mat.isRow_frame f14 (fun h => h) a).1 ha)
    omega

end Any

/-- C44 is false of the code: SGD without momentum, weights 1 × 2, gradient 1 × 1. -/
theorem C44_false : ¬ C44_claim ℝ := by
  intro hc
  obtain ⟨o, ho⟩ := sgd_ok_real (lr := 1) (decay := 0) (mom := 0) (by norm_num) le_rfl le_rfl
  obtain ⟨w, op, wm, bm, dw, db, h1, h2, h3, h4, h5⟩ := exists_update_state (rw := 1) (cw := 2) (rb := 1) (cb := 2)
    (r1 := 1) (c1 := 1) (r2 := 1) (c2 := 2) (by decide) (by decide) (by decide) (by decide) (by decide) (by decide)
    (by decide) (by decide) (fun _ _ => (0 : ℝ)) (fun _ _ => 0) (fun _ _ => 1) (fun _ _ => 1) o
  have hnew : newSGDOptimizer 1 0 0 = (w.opt op, none) := by rw [h2]; exact ho
  have hi := isOpt_newSGD 1 2 1 2 h1 hnew
  have e := newSGD_ok hnew
  obtain ⟨p, hp⟩ := C44_plain_panics w op wm bm dw db 1 2 1 2 1 _ _ _ _ _ hi (by rw [e]; rfl)
    (by rw [e]; simp [OptSpec.fresh]) h3 h4 h5 (by decide)
  obtain ⟨e, w', h, -⟩ := hc w op wm bm dw db 1 2 1 2 1 1 1 2 _ _ _ _ (.inl ⟨_, hi⟩) h3 h4 h5
  rw [hp] at h
  cases h

/-- An Adam optimizer, 2 × 3 weights and gradients of another shape meet the hypotheses of C44_stateful_partial. -/
example : ∃ (w : World ℝ) (op : Nat) (wm bm dw db : Mat) (S : OptSpec ℝ), OptOk w op 2 3 1 3 S ∧
    IsParams w wm bm 2 3 1 3 (fun i j => (i : ℝ) + j) (fun _ j => (j : ℝ)) ∧ IsMat w dw 3 2 (fun i _ => (i : ℝ)) ∧
    IsMat w db 2 3 (fun _ j => (j : ℝ)) := by
  obtain ⟨o, ho⟩ := adam_ok_real (lr := 1) (decay := 0) (by norm_num) le_rfl (1 / 10) (9 / 10) (99 / 100)
  obtain ⟨w, op, wm, bm, dw, db, h1, h2, h3, h4, h5⟩ := exists_update_state (rw := 2) (cw := 3) (rb := 1) (cb := 3)
    (r1 := 3) (c1 := 2) (r2 := 2) (c2 := 3) (by decide) (by decide) (by decide) (by decide) (by decide) (by decide)
    (by decide) (by decide) (fun i j => (i : ℝ) + j) (fun _ j => (j : ℝ)) (fun i _ => (i : ℝ)) (fun _ j => (j : ℝ)) o
  have hi := isOpt_newAdam 2 3 1 3 h1 (by rw [h2]; exact ho)
  refine ⟨w, op, wm, bm, dw, db, _, hi.optOk (.inl ?_), h3, h4, h5⟩
  rw [h2, newAdam_ok ho]; rfl

/-- A 1 × 1 gradient for 1 × 2 weights meets the hypotheses of C44_plain_panics. -/
example : ∃ (w : World ℝ) (op : Nat) (wm bm dw db : Mat) (S : OptSpec ℝ), IsOpt w op 1 2 1 2 S ∧ S.kind = .sgd ∧
    Flt.eq S.momentum Flt.zero = true ∧ IsParams w wm bm 1 2 1 2 (fun _ j => (j : ℝ)) (fun _ j => (j : ℝ)) ∧
    IsMat w dw 1 1 (fun _ _ => (1 : ℝ)) ∧ IsMat w db 1 2 (fun _ j => (j : ℝ)) ∧ 1 < 2 := by
  obtain ⟨o, ho⟩ := sgd_ok_real (lr := 1) (decay := 0) (mom := 0) (by norm_num) le_rfl le_rfl
  obtain ⟨w, op, wm, bm, dw, db, h1, h2, h3, h4, h5⟩ := exists_update_state (rw := 1) (cw := 2) (rb := 1) (cb := 2)
    (r1 := 1) (c1 := 1) (r2 := 1) (c2 := 2) (by decide) (by decide) (by decide) (by decide) (by decide) (by decide)
    (by decide) (by decide) (fun _ j => (j : ℝ)) (fun _ j => (j : ℝ)) (fun _ _ => 1) (fun _ j => (j : ℝ)) o
  have hnew : newSGDOptimizer 1 0 0 = (w.opt op, none) := by rw [h2]; exact ho
  have e := newSGD_ok hnew
  exact ⟨w, op, wm, bm, dw, db, _, isOpt_newSGD 1 2 1 2 h1 hnew, by rw [e]; rfl, by rw [e]; simp [OptSpec.fresh], h3, h4,
    h5, by decide⟩

/-- An Adam optimizer that lost its bias state exists (hypotheses of C44_stuck): it arises from a rejected update. -/
example : ∃ (w : World ℝ) (op : Nat) (wm bm dw db : Mat) (S : OptSpec ℝ), OptOk w op 2 3 1 3 S ∧ (w.opt op).biasLost ∧
    IsParams w wm bm 2 3 1 3 (fun i j => (i : ℝ) + j) (fun _ j => (j : ℝ)) ∧ IsMat w dw 2 3 (fun i _ => (i : ℝ)) ∧
    IsMat w db 1 3 (fun _ j => (j : ℝ)) := by
  obtain ⟨o, ho⟩ := adam_ok_real (lr := 1) (decay := 0) (by norm_num) le_rfl (1 / 10) (9 / 10) (99 / 100)
  obtain ⟨w, op, wm, bm, dw, db, h1, h2, h3, h4, h5⟩ := exists_update_state (rw := 2) (cw := 3) (rb := 1) (cb := 3)
    (r1 := 2) (c1 := 3) (r2 := 1) (c2 := 3) (by decide) (by decide) (by decide) (by decide) (by decide) (by decide)
    (by decide) (by decide) (fun i j => (i : ℝ) + j) (fun _ j => (j : ℝ)) (fun i _ => (i : ℝ)) (fun _ j => (j : ℝ)) o
  have hi := isOpt_newAdam 2 3 1 3 h1 (by rw [h2]; exact ho)
  let o' : Optim ℝ :=
    { w.opt op with
      weightMomentums := dw
      biasMomentums := Mat.zero
      weightCache := dw
      biasCache := db }
  have f := frame_optSet w op o'
  have hk : (w.opt op).kind = .adam := by rw [h2, newAdam_ok ho]; rfl
  have hf : OptFields o' (OptSpec.fresh (w.opt op)) :=
    ⟨hi.fields.kind, hi.fields.lr, hi.fields.decay, hi.fields.momentum, hi.fields.epsilon, hi.fields.beta1,
      hi.fields.beta2, hi.fields.iter, hi.fields.useDecay, hi.fields.useMomentum, hi.fields.rate⟩
  refine ⟨w.setOpt op o', op, wm, bm, dw, db, OptSpec.fresh (w.opt op), ⟨h1, ?_, .inl hk, ?_⟩, ?_, ?_, h4.optf f,
    h5.optf f⟩
  · rw [setOpt_opt]; exact hf
  · rw [setOpt_opt]
    exact .set ⟨_, h4.optf f⟩ (.inr ⟨rfl, rfl⟩) (fun _ => ⟨_, h4.optf f⟩) (fun _ => ⟨_, h5.optf f⟩)
  · rw [setOpt_opt]
    exact ⟨by show dw.rows ≠ 0; rw [h4.rows]; decide, rfl⟩
  · refine ⟨h3.wmat.optf f, h3.bmat.optf f, h3.wd.frame f h3.wmat.addr_lt (fun h => h),
      h3.bd.frame f h3.bmat.addr_lt (fun h => h), ?_⟩
    intro a k1 k2
    exact h3.disj a k1 k2

/-! ### C45 -/

section Any
variable {α : Type} [Flt α]

/-- C45: NewSGDOptimizer errs exactly when learningRate <= 0 or decay < 0 or momentum < 0 (with the comparisons of
float64: NaN is accepted). -/
theorem C45_sgd_errs (lr decay mom : α) :
    (newSGDOptimizer lr decay mom).2 ≠ none ↔
      Flt.le lr Flt.zero = true ∨ Flt.lt decay Flt.zero = true ∨ Flt.lt mom Flt.zero = true := by
  unfold newSGDOptimizer
  split
  · simp_all
  split
  · simp_all
  split <;> simp_all

/-- C45: NewAdamOptimizer errs exactly when learningRate <= 0 or decay < 0. -/
theorem C45_adam_errs (lr decay eps b1 b2 : α) :
    (newAdamOptimizer lr decay eps b1 b2).2 ≠ none ↔ Flt.le lr Flt.zero = true ∨ Flt.lt decay Flt.zero = true := by
  unfold newAdamOptimizer
  split
  · simp_all
  split <;> simp_all

/-- A new optimizer: the given hyper-parameters, no updates so far, no state. -/
structure IsNew (o : Optim α) (k : OptKind) (lr decay mom eps b1 b2 : α) : Prop where
  kind_eq : o.kind = k
  lr_eq : o.learningRate = lr
  decay_eq : o.decay = decay
  mom_eq : o.momentum = mom
  eps_eq : o.epsilon = eps
  b1_eq : o.beta1 = b1
  b2_eq : o.beta2 = b2
  iterations : o.iterations = 0
  rate : o.currentRate = lr
  wm : o.weightMomentums = Mat.zero
  bm : o.biasMomentums = Mat.zero
  wc : o.weightCache = Mat.zero
  bc : o.biasCache = Mat.zero
  useDecay : o.useDecay = !Flt.eq decay Flt.zero
  useMomentum : k = .sgd → o.useMomentum = !Flt.eq mom Flt.zero

/-- C45: the accepted optimizers have the given hyper-parameters and no state. -/
theorem C45_sgd_new (lr decay mom : α) (o : Optim α) (h : newSGDOptimizer lr decay mom = (o, none)) :
    IsNew o .sgd lr decay mom Flt.zero Flt.zero Flt.zero := by
  rw [newSGD_ok h]
  exact ⟨rfl, rfl, rfl, rfl, rfl, rfl, rfl, rfl, rfl, rfl, rfl, rfl, rfl, rfl, fun _ => rfl⟩

theorem C45_adam_new (lr decay eps b1 b2 : α) (o : Optim α) (h : newAdamOptimizer lr decay eps b1 b2 = (o, none)) :
    IsNew o .adam lr decay Flt.zero eps b1 b2 := by
  rw [newAdam_ok h]
  exact ⟨rfl, rfl, rfl, rfl, rfl, rfl, rfl, rfl, rfl, rfl, rfl, rfl, rfl, rfl, fun h => by cases h⟩

/-- C45: NewOptimizerFromType errs exactly for unknown type codes; then nothing changes and the result is nil. -/
theorem C45_type_errs (ty : Int) (values : GoMap α) (w : World α) :
    ∃ p e w', newOptimizerFromType ty values w = .ok ((p, e), w') ∧ (e ≠ none ↔ ty ≠ 0 ∧ ty ≠ 1) ∧
      (e ≠ none → p = none ∧ w' = w) := by
  unfold newOptimizerFromType
  by_cases h0 : ty = 0
  · rw [if_pos h0]
    exact ⟨_, _, _, rfl, by simp [h0], by simp⟩
  · rw [if_neg h0]
    by_cases h1 : ty = 1
    · rw [if_pos h1]
      exact ⟨_, _, _, rfl, by simp [h1], by simp⟩
    · rw [if_neg h1]
      exact ⟨_, _, _, rfl, by simp [h0, h1], by simp⟩

/-- C45: NewOptimizerFromType, given the type and the values of any optimizer (in any state of use), makes a new object
with the same hyper-parameters and no state, and changes nothing else. -/
theorem C45_from_type (o : Optim α) (w : World α) :
    ∃ p w', newOptimizerFromType o.kind.code o.getValues w = .ok ((some p, none), w') ∧ OnlyAllocs w w' ∧
      w.next ≤ p ∧ p < w'.next ∧
      (o.kind = .sgd → IsNew (w'.opt p) .sgd o.learningRate o.decay o.momentum Flt.zero Flt.zero Flt.zero) ∧
      (o.kind = .adam → IsNew (w'.opt p) .adam o.learningRate o.decay Flt.zero o.epsilon o.beta1 o.beta2) := by
  have fr : ∀ o' : Optim α, OnlyAllocs w { w with next := w.next + 1, opt := upd w.opt w.next o' } := by
    intro o'
    exact ⟨Nat.le_succ _, fun _ _ _ => rfl, fun _ _ _ => rfl, fun _ _ _ => rfl,
      fun a ha _ => upd_ne (Nat.ne_of_lt ha), rfl, rfl, fun _ => rfl, fun _ => rfl, fun _ => rfl, rfl⟩
  rcases hk : o.kind with _ | _
  · refine ⟨w.next, _, rfl, fr _, le_rfl, Nat.lt_succ_self _, fun _ => ?_, fun h => by cases h⟩
    dsimp only
    rw [upd_same]
    unfold Optim.getValues
    rw [hk]
    exact ⟨rfl, rfl, rfl, rfl, rfl, rfl, rfl, rfl, rfl, rfl, rfl, rfl, rfl, rfl, fun _ => rfl⟩
  · refine ⟨w.next, _, rfl, fr _, le_rfl, Nat.lt_succ_self _, (fun h => by cases h), fun _ => ?_⟩
    dsimp only
    rw [upd_same]
    unfold Optim.getValues
    rw [hk]
    exact ⟨rfl, rfl, rfl, rfl, rfl, rfl, rfl, rfl, rfl, rfl, rfl, rfl, rfl, rfl, fun h => by cases h⟩

end Any

/-- There are accepted and rejected parameters. -/
example : (newSGDOptimizer (1 / 10 : ℝ) 0 (9 / 10)).2 = none ∧ (newSGDOptimizer (0 : ℝ) 0 0).2 ≠ none ∧
    (newAdamOptimizer (1 / 10 : ℝ) 0 1 0 0).2 = none ∧ (newAdamOptimizer (1 : ℝ) (-1) 1 0 0).2 ≠ none := by
  refine ⟨?_, ?_, ?_, ?_⟩
  · by_contra h; rw [← ne_eq, C45_sgd_errs] at h; norm_num at h
  · rw [C45_sgd_errs]; norm_num
  · by_contra h; rw [← ne_eq, C45_adam_errs] at h; norm_num at h
  · rw [C45_adam_errs]; norm_num

end NN
