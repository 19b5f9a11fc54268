import Verif.Props.C133
import Mathlib.Analysis.SpecificLimits.Basic
/- C134: the learning rates at which a linear layer learns one sample. -/

set_option linter.unusedSectionVars false

namespace NN
open Go Finset

/-- |(x, 1)|², the squared length of an input with the constant input of the bias. -/
noncomputable def inputSq (n : Nat) (A : Nat → Nat → ℝ) : ℝ := 1 + ∑ k ∈ range n, A 0 k ^ 2

theorem inputSq_pos (n : Nat) (A : Nat → Nat → ℝ) : 0 < inputSq n A := by
  have : 0 ≤ ∑ k ∈ range n, A 0 k ^ 2 := sum_nonneg fun _ _ => sq_nonneg _
  unfold inputSq
  linarith

/-- The residual shrinks by a constant factor in each step. -/
theorem resid_step (c n : Nat) (A B θ : Nat → Nat → ℝ) (lr : ℝ) (t j : Nat) :
    resid (n + 1) (augIn n A) B (stepIter (lsqGrad 1 c (n + 1) (augIn n A) B) lr θ t) 0 j =
      (1 - lr * (2 / c) * inputSq n A) ^ t * resid (n + 1) (augIn n A) B θ 0 j := by
  induction t with
  | zero => simp [stepIter]
  | succ t ih =>
    rw [pow_succ', mul_assoc, ← ih]
    set Z := augIn n A with hZ
    set η := stepIter (lsqGrad 1 c (n + 1) Z B) lr θ t with hη
    have hsq : ∑ k ∈ range (n + 1), Z 0 k ^ 2 = inputSq n A := by
      have := aug_sq 1 n A
      simp only [sum_range_one] at this
      exact this
    have hst : ∀ k ∈ range (n + 1), Z 0 k * stepIter (lsqGrad 1 c (n + 1) Z B) lr θ (t + 1) k j = Z 0 k * η k j -
        Z 0 k ^ 2 * (lr * (2 / c) * resid (n + 1) Z B η 0 j) := by
      intro k _
      show Z 0 k * (η k j - lsqGrad 1 c (n + 1) Z B η k j * lr) = _
      unfold lsqGrad
      rw [sum_range_one]
      ring
    have e : resid (n + 1) Z B (stepIter (lsqGrad 1 c (n + 1) Z B) lr θ (t + 1)) 0 j =
        resid (n + 1) Z B η 0 j - inputSq n A * (lr * (2 / c) * resid (n + 1) Z B η 0 j) := by
      conv_lhs => unfold resid
      rw [sum_congr rfl hst, sum_sub_distrib, ← sum_mul, hsq]
      unfold resid
      ring
    rw [e]
    ring

/-- C134: one linear layer with c outputs, trained with plain SGD on the squared error of one sample (x, y).  After t epochs the
prediction is y + ρᵗ(P - y), where P is the prediction before and ρ = 1 - rate·(2/c)·(1 + |x|²). -/
theorem C134_exact (w : World ℝ) (m : Model ℝ) (net : Net ℝ) (op : Nat → Nat) (S : Nat → OptSpec ℝ) (lr : ℝ) (X Y xv yv : Mat)
    (A B : Nat → Nat → ℝ) (h : PlainTask w m net op S .mse lr X Y 1 A B) :
    ∃ P, NetComputes net 1 A P ∧ ∀ t : Nat, wp (fit m X Y t 0 xv yv 0) w (fun e w' => e = none ∧ ∃ net' S' F, IsTask w' m net' op S' ∧ SameShape net net' ∧
      NetComputes net' 1 A F ∧ ∀ j, j < net.dim 1 →
        F 0 j = B 0 j + (1 - lr * (2 / net.dim 1) * (1 + ∑ k ∈ range (net.dim 0), A 0 k ^ 2)) ^ t * (P 0 j - B 0 j)) := by
  have hn : (net.L 0).n = net.dim 0 := h.task.isNet.ins 0 (by have := h.size; omega)
  have hg := gradIs_linear (m := m) (r := 1) (A := A) (B := B) h.kind
  rw [hn] at hg
  have hP := netComputes_netOut (net := net) (by intro k hk2; obtain rfl : k = 0 := by have := h.size; omega
                                                 rw [h.kind]; decide) 1 A
  have hout : netOut net A net.size = linPred (net.dim 0) (net.L 0).W (net.L 0).b A := by
    rw [h.size]
    show infer (net.L 0) A = _
    rw [infer_linPred h.kind, ← hn]
  rw [hout] at hP
  refine ⟨_, hP, fun t => wp_mono (h.run hg xv yv t) ?_⟩
  rintro e w' ⟨he, net', S', W1, b1, hT', hsh, -, hF, h4⟩
  refine ⟨he, net', S', _, hT', hsh, hF, fun j hj => ?_⟩
  have a := resid_step (net.dim 1) (net.dim 0) A B (coefs (net.dim 0) (net.L 0).W (net.L 0).b) lr t j
  rw [resid_coefs] at a
  have b : linPred (net.dim 0) W1 b1 A 0 j - B 0 j = resid (net.dim 0 + 1) (augIn (net.dim 0) A) B
      (stepIter (lsqGrad 1 (net.dim 1) (net.dim 0 + 1) (augIn (net.dim 0) A) B) lr (coefs (net.dim 0) (net.L 0).W (net.L 0).b) t) 0 j := by
    rw [← resid_coefs]
    unfold resid
    congr 1
    refine sum_congr rfl fun k hk => ?_
    rw [h4 k j (by have := mem_range.1 hk; omega) hj]
  rw [a] at b
  unfold inputSq at b
  linarith

/-- The factor of C134_exact. -/
theorem rate_factor {c q lr : ℝ} (hc : 0 < c) (hq : 0 < q) (h0 : 0 < lr) :
    (lr < c / q → |1 - lr * (2 / c) * q| < 1) ∧ (c / q < lr → 1 < |1 - lr * (2 / c) * q|) ∧ (lr = c / q → 1 - lr * (2 / c) * q = -1) := by
  have e : lr * (2 / c) * q = 2 * (lr / (c / q)) := by field_simp
  have hp : 0 < c / q := div_pos hc hq
  have hx : 0 < lr / (c / q) := div_pos h0 hp
  rw [e]
  refine ⟨fun h => ?_, fun h => ?_, fun h => ?_⟩
  · have := (div_lt_one hp).2 h
    rw [abs_lt]
    constructor <;> linarith
  · have := (one_lt_div hp).2 h
    rw [abs_of_neg (by linarith)]
    linarith
  · rw [h, div_self hp.ne']
    norm_num

/-- C134: below c/(1 + |x|²) training converges to the target: from some number of epochs on, every prediction is within ε of it. -/
theorem C134_converges (w : World ℝ) (m : Model ℝ) (net : Net ℝ) (op : Nat → Nat) (S : Nat → OptSpec ℝ) (lr : ℝ) (X Y xv yv : Mat)
    (A B : Nat → Nat → ℝ) (h : PlainTask w m net op S .mse lr X Y 1 A B) (h0 : 0 < lr)
    (hlr : lr < net.dim 1 / (1 + ∑ k ∈ range (net.dim 0), A 0 k ^ 2)) (ε : ℝ) (hε : 0 < ε) :
    ∃ T : Nat, ∀ t, T ≤ t → wp (fit m X Y t 0 xv yv 0) w (fun e w' => e = none ∧ ∃ net' S' F, IsTask w' m net' op S' ∧ SameShape net net' ∧
      NetComputes net' 1 A F ∧ ∀ j, j < net.dim 1 → |F 0 j - B 0 j| < ε) := by
  obtain ⟨P, -, hP⟩ := C134_exact w m net op S lr X Y xv yv A B h
  have hc : (0 : ℝ) < net.dim 1 := by exact_mod_cast h.targets.mat.cpos
  have hρ := (rate_factor hc (inputSq_pos (net.dim 0) A) h0).1 hlr
  set ρ := 1 - lr * (2 / net.dim 1) * (1 + ∑ k ∈ range (net.dim 0), A 0 k ^ 2) with hr
  set K := ∑ j ∈ range (net.dim 1), |P 0 j - B 0 j| + 1 with hK
  have hK0 : 0 < K := by
    have : 0 ≤ ∑ j ∈ range (net.dim 1), |P 0 j - B 0 j| := sum_nonneg fun _ _ => abs_nonneg _
    linarith
  obtain ⟨T, hT⟩ := exists_pow_lt_of_lt_one (div_pos hε hK0) hρ
  change |ρ| ^ T < ε / K at hT
  change |ρ| < 1 at hρ
  refine ⟨T, fun t ht => wp_mono (hP t) ?_⟩
  rintro e w' ⟨he, net', S', F, hT', hsh, hF, hj⟩
  refine ⟨he, net', S', F, hT', hsh, hF, fun j hlt => ?_⟩
  rw [hj j hlt, add_sub_cancel_left, abs_mul, abs_pow]
  have h1 : |ρ| ^ t ≤ |ρ| ^ T := pow_le_pow_of_le_one (abs_nonneg _) hρ.le ht
  have h2 : |P 0 j - B 0 j| ≤ K := by
    have := single_le_sum (f := fun j => |P 0 j - B 0 j|) (fun _ _ => abs_nonneg _) (mem_range.2 hlt)
    linarith
  calc |ρ| ^ t * |P 0 j - B 0 j| ≤ |ρ| ^ T * K := mul_le_mul h1 h2 (abs_nonneg _) (pow_nonneg (abs_nonneg _) _)
    _ < ε / K * K := mul_lt_mul_of_pos_right hT hK0
    _ = ε := div_mul_cancel₀ _ hK0.ne'

/-- C134: above c/(1 + |x|²) training diverges: a prediction that is wrong before gets arbitrarily far from the target, and stays there. -/
theorem C134_diverges (w : World ℝ) (m : Model ℝ) (net : Net ℝ) (op : Nat → Nat) (S : Nat → OptSpec ℝ) (lr : ℝ) (X Y xv yv : Mat)
    (A B : Nat → Nat → ℝ) (h : PlainTask w m net op S .mse lr X Y 1 A B)
    (hlr : net.dim 1 / (1 + ∑ k ∈ range (net.dim 0), A 0 k ^ 2) < lr) (K : ℝ) :
    ∃ P, NetComputes net 1 A P ∧ ∃ T : Nat, ∀ t, T ≤ t → wp (fit m X Y t 0 xv yv 0) w (fun e w' => e = none ∧ ∃ net' S' F, IsTask w' m net' op S' ∧
      SameShape net net' ∧ NetComputes net' 1 A F ∧ ∀ j, j < net.dim 1 → P 0 j ≠ B 0 j → K < |F 0 j - B 0 j|) := by
  obtain ⟨P, hN, hP⟩ := C134_exact w m net op S lr X Y xv yv A B h
  refine ⟨P, hN, ?_⟩
  have hc : (0 : ℝ) < net.dim 1 := by exact_mod_cast h.targets.mat.cpos
  have h0 : 0 < lr := lt_trans (div_pos hc (inputSq_pos (net.dim 0) A)) hlr
  have hρ := (rate_factor hc (inputSq_pos (net.dim 0) A) h0).2.1 hlr
  set ρ := 1 - lr * (2 / net.dim 1) * (1 + ∑ k ∈ range (net.dim 0), A 0 k ^ 2) with hr
  change 1 < |ρ| at hρ
  have key : ∀ j, ∃ T : Nat, ∀ t, T ≤ t → P 0 j ≠ B 0 j → K < |ρ| ^ t * |P 0 j - B 0 j| := by
    intro j
    by_cases hj : P 0 j = B 0 j
    · exact ⟨0, fun _ _ hne => absurd hj hne⟩
    have hd : 0 < |P 0 j - B 0 j| := abs_pos.2 (sub_ne_zero.2 hj)
    obtain ⟨T, hT⟩ := pow_unbounded_of_one_lt (K / |P 0 j - B 0 j|) hρ
    refine ⟨T, fun t ht _ => ?_⟩
    rw [div_lt_iff₀ hd] at hT
    exact hT.trans_le (mul_le_mul_of_nonneg_right (pow_le_pow_right₀ hρ.le ht) hd.le)
  choose T hT using key
  refine ⟨∑ j ∈ range (net.dim 1), T j, fun t ht => wp_mono (hP t) ?_⟩
  rintro e w' ⟨he, net', S', F, hT', hsh, hF, hj⟩
  refine ⟨he, net', S', F, hT', hsh, hF, fun j hlt hne => ?_⟩
  rw [hj j hlt, add_sub_cancel_left, abs_mul, abs_pow]
  exact hT j t ((single_le_sum (f := T) (fun _ _ => Nat.zero_le _) (mem_range.2 hlt)).trans ht) hne

/-- C134: at c/(1 + |x|²) the predictions alternate between two values for ever. -/
theorem C134_alternates (w : World ℝ) (m : Model ℝ) (net : Net ℝ) (op : Nat → Nat) (S : Nat → OptSpec ℝ) (lr : ℝ) (X Y xv yv : Mat)
    (A B : Nat → Nat → ℝ) (h : PlainTask w m net op S .mse lr X Y 1 A B)
    (hlr : lr = net.dim 1 / (1 + ∑ k ∈ range (net.dim 0), A 0 k ^ 2)) :
    ∃ P, NetComputes net 1 A P ∧ ∀ t : Nat, wp (fit m X Y t 0 xv yv 0) w (fun e w' => e = none ∧ ∃ net' S' F, IsTask w' m net' op S' ∧
      SameShape net net' ∧ NetComputes net' 1 A F ∧ ∀ j, j < net.dim 1 → F 0 j = if Even t then P 0 j else B 0 j - (P 0 j - B 0 j)) := by
  obtain ⟨P, hN, hP⟩ := C134_exact w m net op S lr X Y xv yv A B h
  refine ⟨P, hN, fun t => wp_mono (hP t) ?_⟩
  have hc : (0 : ℝ) < net.dim 1 := by exact_mod_cast h.targets.mat.cpos
  have h0 : 0 < lr := by rw [hlr]; exact div_pos hc (inputSq_pos (net.dim 0) A)
  have hρ := (rate_factor hc (inputSq_pos (net.dim 0) A) h0).2.2 hlr
  unfold inputSq at hρ
  rintro e w' ⟨he, net', S', F, hT', hsh, hF, hj⟩
  refine ⟨he, net', S', F, hT', hsh, hF, fun j hlt => ?_⟩
  rw [hj j hlt, hρ]
  split
  · next hev => rw [hev.neg_one_pow]; ring
  · next hev => rw [(Nat.not_even_iff_odd.1 hev).neg_one_pow]; ring

/-- A training situation with the squared error: r samples (1, 1) with target 1, all predictions 0, a linear layer with one output and
any learning rate. -/
theorem exists_sqTask (lr : ℝ) (h0 : 0 < lr) (r : Nat) (hr : 0 < r) (hr' : r ≤ 2 ^ 53) :
    ∃ (w : World ℝ) (m : Model ℝ) (net : Net ℝ) (op : Nat → Nat) (S : Nat → OptSpec ℝ) (X Y : Mat),
    PlainTask w m net op S .mse lr X Y r (fun _ _ => 1) (fun _ _ => 1) ∧ m.lossType = 0 ∧ net.dim 0 = 2 ∧ net.dim 1 = 1 ∧
      net.L = nullL 1 ∧ (∀ i, net.dim i = (nullL 1 i).n) ∧ ∃ o, newSGDOptimizer lr 0 0 = (o, none) ∧ S = fun _ => OptSpec.fresh o := by
  obtain ⟨o, ho⟩ := sgd_ok_real (lr := lr) (decay := 0) (mom := 0) h0 le_rfl le_rfl
  have hrows : o.weightMomentums.rows = 0 := by rw [newSGD_ok ho]; rfl
  obtain ⟨w, net, op, XM, YM, xM, yM, -, hs, hLn, hdim, hT, dX, dY, -, -⟩ := exists_task (emptyWorld : World ℝ) 1 Nat.one_pos
    (nullL 1) (fun i => by
      refine ⟨?_, Nat.one_pos⟩
      show 0 < if i = 0 then 2 else 1
      split <;> decide) (fun i => (if_neg (Nat.succ_ne_zero i) : (if i + 1 = 0 then 2 else 1) = 1).symm)
    { newModel with loss := some ⟨.mse, (1 : Nat)⟩, lossType := 0 } o
    (OptSpec.fresh o) hrows (fun w p i hlt e => e ▸ isOpt_newSGD _ _ _ _ hlt (e.symm ▸ ho)) (r := r) (r' := 1) hr Nat.one_pos
    (fun _ _ => 1) (fun _ _ => 1) (fun _ _ => 0) (fun _ _ => 0)
  have d0 : net.dim 0 = 2 := by rw [hdim]; rfl
  have d1 : net.dim 1 = 1 := by rw [hdim]; rfl
  refine ⟨w, _, net, op, _, XM, YM, ⟨hT, hs, by rw [hLn]; rfl, by rw [d1]; rfl, ?_, by rw [d0]; exact dX, by rw [d1]; exact dY, hr'⟩, rfl, d0, d1, hLn,
    fun i => by rw [hdim], o, ho, rfl⟩
  rw [newSGD_ok ho]; exact ⟨rfl, rfl, rfl, rfl⟩

/-- C134: learning rates 1/4, 1/3 and 1/2 on a sample (1, 1) meet the hypotheses of convergence, alternation and divergence. -/
example : (∃ (w : World ℝ) (m : Model ℝ) (net : Net ℝ) (op : Nat → Nat) (S : Nat → OptSpec ℝ) (X Y : Mat) (A B : Nat → Nat → ℝ),
      PlainTask w m net op S .mse (1 / 4) X Y 1 A B ∧ (1 / 4 : ℝ) < net.dim 1 / (1 + ∑ k ∈ range (net.dim 0), A 0 k ^ 2)) ∧
    (∃ (w : World ℝ) (m : Model ℝ) (net : Net ℝ) (op : Nat → Nat) (S : Nat → OptSpec ℝ) (X Y : Mat) (A B : Nat → Nat → ℝ),
      PlainTask w m net op S .mse (1 / 3) X Y 1 A B ∧ (1 / 3 : ℝ) = net.dim 1 / (1 + ∑ k ∈ range (net.dim 0), A 0 k ^ 2)) ∧
    (∃ (w : World ℝ) (m : Model ℝ) (net : Net ℝ) (op : Nat → Nat) (S : Nat → OptSpec ℝ) (X Y : Mat) (A B : Nat → Nat → ℝ),
      PlainTask w m net op S .mse (1 / 2) X Y 1 A B ∧ net.dim 1 / (1 + ∑ k ∈ range (net.dim 0), A 0 k ^ 2) < (1 / 2 : ℝ) ∧
      linPred (net.dim 0) (net.L 0).W (net.L 0).b A 0 0 ≠ B 0 0) := by
  refine ⟨?_, ?_, ?_⟩
  · obtain ⟨w, m, net, op, S, X, Y, h, -, d0, d1, -⟩ := exists_sqTask (1 / 4) (by norm_num) 1 Nat.one_pos (by norm_num)
    refine ⟨w, m, net, op, S, X, Y, _, _, h, ?_⟩
    rw [d0, d1]
    norm_num [sum_range_succ, sum_range_zero]
  · obtain ⟨w, m, net, op, S, X, Y, h, -, d0, d1, -⟩ := exists_sqTask (1 / 3) (by norm_num) 1 Nat.one_pos (by norm_num)
    refine ⟨w, m, net, op, S, X, Y, _, _, h, ?_⟩
    rw [d0, d1]
    norm_num [sum_range_succ, sum_range_zero]
  · obtain ⟨w, m, net, op, S, X, Y, h, -, d0, d1, hL, -⟩ := exists_sqTask (1 / 2) (by norm_num) 1 Nat.one_pos (by norm_num)
    refine ⟨w, m, net, op, S, X, Y, _, _, h, ?_, ?_⟩
    · rw [d0, d1]
      norm_num [sum_range_succ, sum_range_zero]
    · rw [hL]
      simp [linPred, nullL]

end NN
