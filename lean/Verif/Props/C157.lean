import Verif.Props.C156
import Verif.Real.NearestRate
/- C157: mini-batch SGD approaches the nearest exact solution of a linear problem at a geometric rate. -/

set_option linter.unusedSectionVars false

namespace NN
open Go Finset Filter Topology

/-- The prediction changes by at most the change of the parameters, times the length of the input (with a 1 for the bias). -/
theorem linPred_sq_le {n c : Nat} (W W' : Nat → Nat → ℝ) (b b' : Nat → ℝ) (V : Nat → Nat → ℝ) (i : Nat) {j : Nat} (hj : j < c) :
    (linPred n W b V i j - linPred n W' b' V i j) ^ 2 ≤ (1 + ∑ k ∈ range n, V i k ^ 2) * parDist n c W W' b b' := by
  have e : linPred n W b V i j - linPred n W' b' V i j = ∑ k ∈ range n, V i k * (W k j - W' k j) + (b j - b' j) := by
    unfold linPred
    simp only [mul_sub, sum_sub_distrib]
    ring
  have cs := sum_mul_sq_le_sq_mul_sq (range n) (fun k => V i k) fun k => W k j - W' k j
  have h1 : ∑ k ∈ range n, (W k j - W' k j) ^ 2 + (b j - b' j) ^ 2 ≤ parDist n c W W' b b' := by
    unfold parDist
    refine add_le_add (sum_le_sum fun k _ => ?_) ?_
    · exact single_le_sum (f := fun j => (W k j - W' k j) ^ 2) (fun _ _ => sq_nonneg _) (mem_range.2 hj)
    · exact single_le_sum (f := fun j => (b j - b' j) ^ 2) (fun _ _ => sq_nonneg _) (mem_range.2 hj)
  have hV : 0 ≤ ∑ k ∈ range n, V i k ^ 2 := sum_nonneg fun _ _ => sq_nonneg _
  have hD : 0 ≤ ∑ k ∈ range n, (W k j - W' k j) ^ 2 := sum_nonneg fun _ _ => sq_nonneg _
  rw [e]
  refine le_trans ?_ (mul_le_mul_of_nonneg_left h1 (by linarith))
  set v := ∑ k ∈ range n, V i k ^ 2
  set d := ∑ k ∈ range n, (W k j - W' k j) ^ 2
  set s := ∑ k ∈ range n, V i k * (W k j - W' k j)
  set y := b j - b' j
  -- (s + y)² ≤ (√(vd) + |y|)² ≤ (1 + v)(d + y²)
  have h2 : 2 * (s * y) ≤ v * y ^ 2 + d := by
    have h3 : (2 * (s * y)) ^ 2 ≤ (v * y ^ 2 + d) ^ 2 := by
      nlinarith [mul_le_mul_of_nonneg_right cs (sq_nonneg y), sq_nonneg (v * y ^ 2 - d)]
    exact le_of_sq_le_sq' h3 (by positivity)
  nlinarith
where
  le_of_sq_le_sq' {a b : ℝ} (h : a ^ 2 ≤ b ^ 2) (hb : 0 ≤ b) : a ≤ b := by
    exact le_trans (le_abs_self a) (abs_le_of_sq_le_sq h hb)

/-- C157: for given inputs A (r samples of p numbers), a given number c of outputs, a given batch size and a given learning rate within the bound of
C122, there is a factor q < 1 such that the following holds for every model with one linear layer, plain SGD and the squared error, whatever its
initial weights and biases, and for all outputs B that can be fitted exactly.  Among the exact solutions there is a nearest one (Wl, bl), and each
epoch multiplies the squared distance from the weights and biases to it by at most q.  The squared difference between the predictions of the trained
model and those of (Wl, bl), for any input v, is after t epochs at most (1 + |v|²) times qᵗ times the initial squared distance; for the inputs of the
training data, this bounds the error. -/
theorem C157_rate (p c r bsz : Nat) (A : Nat → Nat → ℝ) (lr : ℝ) (hc : 0 < c) (hr : 0 < r) (hbig : r + bsz ≤ 2 ^ 53) (h0 : 0 < lr)
    (hlr : ∀ s ∈ blocks r bsz, lr * ((∑ i ∈ range s.2, (1 + ∑ k ∈ range p, A (s.1 + i) k ^ 2)) / (c : ℝ)) ≤ 1 / 2) :
    ∃ q : ℝ, 0 ≤ q ∧ q < 1 ∧ ∀ (w : World ℝ) (m : Model ℝ) (net : Net ℝ) (op : Nat → Nat) (S : Nat → OptSpec ℝ), IsTask w m net op S →
      net.size = 1 → net.dim 0 = p → net.dim 1 = c → (net.L 0).kind = .linear → m.loss = some ⟨.mse, c⟩ →
      ((S 0).kind = .sgd ∧ (S 0).momentum = 0 ∧ (S 0).decay = 0 ∧ (S 0).lr = lr) →
      ∀ (X Y xv yv : Mat) (B : Nat → Nat → ℝ), IsData w net X r p A → IsData w net Y r c B →
      (∃ (Ws : Nat → Nat → ℝ) (bs : Nat → ℝ), ∀ i j, i < r → j < c → linPred p Ws bs A i j = B i j) →
      ∃ (W : Nat → Nat → Nat → ℝ) (b : Nat → Nat → ℝ) (Wl : Nat → Nat → ℝ) (bl : Nat → ℝ),
        (∀ t : Nat, wp (fit m X Y t bsz xv yv 0) w (fun e w' => e = none ∧ ∃ net' S', IsTask w' m net' op S' ∧ SameShape net net' ∧
          net'.L 0 = { net.L 0 with W := W t, b := b t } ∧ ∀ (n : Nat) (V : Nat → Nat → ℝ), NetComputes net' n V (linPred p (W t) (b t) V))) ∧
        (∀ i j, i < r → j < c → linPred p Wl bl A i j = B i j) ∧
        (∀ (Ws : Nat → Nat → ℝ) (bs : Nat → ℝ), (∀ i j, i < r → j < c → linPred p Ws bs A i j = B i j) →
          parDist p c (net.L 0).W Ws (net.L 0).b bs = parDist p c (net.L 0).W Wl (net.L 0).b bl + parDist p c Wl Ws bl bs) ∧
        (∀ t : Nat, parDist p c (W t) Wl (b t) bl ≤ q ^ t * parDist p c (net.L 0).W Wl (net.L 0).b bl) ∧
        ∀ (t : Nat) (V : Nat → Nat → ℝ) (i j : Nat), j < c → (linPred p (W t) (b t) V i j - linPred p Wl bl V i j) ^ 2 ≤
          (1 + ∑ k ∈ range p, V i k ^ 2) * (q ^ t * parDist p c (net.L 0).W Wl (net.L 0).b bl) := by
  have hmb := blocks_pos (b := bsz) hr
  have hle : ∀ s, s < (blocks r bsz).length → (batchNo r bsz s).1 + (batchNo r bsz s).2 ≤ r := fun s hs => blocks_le r bsz _ (batchNo_mem hs)
  have hρ : ∀ s, s < (blocks r bsz).length → lr * ((∑ i ∈ range (batchNo r bsz s).2, ∑ k ∈ range (p + 1),
      augIn p A ((batchNo r bsz s).1 + i) k ^ 2) / (c : ℝ)) ≤ 1 / 2 := fun s hs => by
    simp only [aug_sq_row]
    exact hlr _ (batchNo_mem hs)
  obtain ⟨q, q0, q1, hq⟩ := lsq_rate (c := c) (p := p + 1) (augIn p A) (batchNo r bsz) hc hmb hle h0 (fun Y => lsq_batches r bsz _ _ _ Y) hρ
  refine ⟨q, q0, q1, ?_⟩
  rintro w m net op S hT hs hp hcd hk hl hS X Y xv yv B hX hY ⟨Ws, bs, hfit⟩
  subst hp hcd
  have hrun := fun t => fit_lsqIter w m net op S hT hs hk hl lr hS X Y xv yv r A B hX hY bsz hbig t
  choose W b hW hθW using hrun
  have hz : ∀ (Ws : Nat → Nat → ℝ) (bs : Nat → ℝ), (∀ i j, i < r → j < net.dim 1 → linPred (net.dim 0) Ws bs A i j = B i j) →
      ∀ i j, i < r → j < net.dim 1 → resid (net.dim 0 + 1) (augIn (net.dim 0) A) B (coefs (net.dim 0) Ws bs) i j = 0 := by
    intro Ws bs hfit i j hi hj
    rw [resid_coefs, hfit i j hi hj, sub_self]
  obtain ⟨θl, -, l2, l3⟩ := lsq_nearest (augIn (net.dim 0) A) B (coefs (net.dim 0) Ws bs) (batchNo r bsz) hc hmb hle (lsq_batches r bsz _ _ _ _) h0 hρ
    (hz Ws bs hfit) (coefs (net.dim 0) (net.L 0).W (net.L 0).b)
  have hcl : ∀ k j, k < net.dim 0 + 1 → coefs (net.dim 0) θl (θl (net.dim 0)) k j = θl k j := fun k j hk => by
    unfold coefs
    split
    · rfl
    · rw [show k = net.dim 0 by omega]
  have el : ∀ θ, sqDist (net.dim 1) (net.dim 0 + 1) θ θl = sqDist (net.dim 1) (net.dim 0 + 1) θ (coefs (net.dim 0) θl (θl (net.dim 0))) := fun θ =>
    sum_congr rfl fun k hk => sum_congr rfl fun j _ => by rw [hcl k j (mem_range.1 hk)]
  have er : ∀ θ, sqDist (net.dim 1) (net.dim 0 + 1) θl θ = sqDist (net.dim 1) (net.dim 0 + 1) (coefs (net.dim 0) θl (θl (net.dim 0))) θ := fun θ =>
    sum_congr rfl fun k hk => sum_congr rfl fun j _ => by rw [hcl k j (mem_range.1 hk)]
  have hd : ∀ t, parDist (net.dim 0) (net.dim 1) (W t) θl (b t) (θl (net.dim 0)) ≤
      q ^ t * parDist (net.dim 0) (net.dim 1) (net.L 0).W θl (net.L 0).b (θl (net.dim 0)) := fun t => by
    have h1 := hq B (coefs (net.dim 0) (net.L 0).W (net.L 0).b) θl l2 (orth_of_pyth _ _ _ _ l2 l3) t
    have h2 : sqDist (net.dim 1) (net.dim 0 + 1) (lsqBatchIter (net.dim 1) (net.dim 0 + 1) (augIn (net.dim 0) A) B (blocks r bsz).length
        (batchNo r bsz) lr (coefs (net.dim 0) (net.L 0).W (net.L 0).b) (t * (blocks r bsz).length)) θl =
        sqDist (net.dim 1) (net.dim 0 + 1) (coefs (net.dim 0) (W t) (b t)) θl :=
      sum_congr rfl fun k hk => sum_congr rfl fun j _ => by rw [hθW t k j (Nat.lt_succ_iff.1 (mem_range.1 hk))]
    rw [h2, el, el, sqDist_coefs, sqDist_coefs] at h1
    exact h1
  refine ⟨W, b, θl, θl (net.dim 0), hW, fun i j hi hj => ?_, fun Ws bs hfit => ?_, hd, fun t V i j hj => ?_⟩
  · have h1 := l2 i j hi hj
    have h2 := resid_coefs (net.dim 0) θl (θl (net.dim 0)) A B i j
    have h3 : resid (net.dim 0 + 1) (augIn (net.dim 0) A) B (coefs (net.dim 0) θl (θl (net.dim 0))) i j = resid (net.dim 0 + 1) (augIn (net.dim 0) A) B θl i j := by
      unfold resid
      congr 1
      exact sum_congr rfl fun k hk => by rw [hcl k j (mem_range.1 hk)]
    rw [h3, h1] at h2
    linarith
  · have h1 := l3 _ (hz Ws bs hfit)
    rw [el, er, sqDist_coefs, sqDist_coefs, sqDist_coefs] at h1
    exact h1
  · refine (linPred_sq_le _ _ _ _ V i hj).trans (mul_le_mul_of_nonneg_left (hd t) ?_)
    have : 0 ≤ ∑ k ∈ range (net.dim 0), V i k ^ 2 := sum_nonneg fun _ _ => sq_nonneg _
    linarith

/-- C157_rate: two samples (1, 1) and (-1, -1) in batches of one, learning rate 1/10; the model starts at zero, and the outputs are 3 and -3. -/
example : (∀ s ∈ blocks 2 1, (1 / 10 : ℝ) * ((∑ i ∈ range s.2, (1 + ∑ k ∈ range 2, (fun (i _ : Nat) => 1 - 2 * (i : ℝ)) (s.1 + i) k ^ 2)) / ((1 : Nat) : ℝ)) ≤ 1 / 2) ∧
    ∃ (w : World ℝ) (m : Model ℝ) (net : Net ℝ) (op : Nat → Nat) (S : Nat → OptSpec ℝ) (X Y : Mat) (B Ws : Nat → Nat → ℝ) (bs : Nat → ℝ),
    IsTask w m net op S ∧ net.size = 1 ∧ net.dim 0 = 2 ∧ net.dim 1 = 1 ∧ (net.L 0).kind = .linear ∧ m.loss = some ⟨.mse, 1⟩ ∧
    ((S 0).kind = .sgd ∧ (S 0).momentum = 0 ∧ (S 0).decay = 0 ∧ (S 0).lr = 1 / 10) ∧ IsData w net X 2 2 (fun i _ => 1 - 2 * (i : ℝ)) ∧
    IsData w net Y 2 1 B ∧ ∀ i j, i < 2 → j < 1 → linPred 2 Ws bs (fun i _ => 1 - 2 * (i : ℝ)) i j = B i j := by
  refine ⟨fun s hs => ?_, ?_⟩
  · have : blocks 2 1 = [(0, 1), (1, 1)] := by decide
    rw [this] at hs
    simp only [List.mem_cons, List.not_mem_nil, or_false] at hs
    rcases hs with rfl | rfl <;> norm_num [sum_range_succ]
  obtain ⟨o, ho⟩ := sgd_ok_real (lr := 1 / 10) (decay := 0) (mom := 0) (by norm_num) le_rfl le_rfl
  have hrows : o.weightMomentums.rows = 0 := by rw [newSGD_ok ho]; rfl
  obtain ⟨w, net, op, XM, YM, xM, yM, -, hs, hL, hdim, hT, dX, dY, -, -⟩ := exists_task (emptyWorld : World ℝ) 1 Nat.one_pos
    nullPair (fun i => by
      refine ⟨?_, Nat.one_pos⟩
      show 0 < if i = 0 then 2 else 1
      split <;> decide) (fun i => (if_neg (Nat.succ_ne_zero i) : (if i + 1 = 0 then 2 else 1) = 1).symm)
    { newModel with loss := some ⟨.mse, 1⟩, lossType := 0 } o
    (OptSpec.fresh o) hrows (fun w p i hlt e => e ▸ isOpt_newSGD _ _ _ _ hlt (e.symm ▸ ho)) (r := 2) (r' := 1) (by decide) Nat.one_pos
    (fun i _ => 1 - 2 * (i : ℝ)) (fun i _ => 3 - 6 * (i : ℝ)) (fun _ _ => 0) (fun _ _ => 0)
  refine ⟨w, _, net, op, _, XM, YM, fun i _ => 3 - 6 * (i : ℝ), fun _ _ => 3 / 2, fun _ => 0,
    hT, hs, by rw [hdim]; rfl, by rw [hdim]; rfl, by rw [hL]; rfl, rfl, ?_, dX, dY, ?_⟩
  · rw [newSGD_ok ho]; exact ⟨rfl, rfl, rfl, rfl⟩
  · intro i j _ _
    unfold linPred
    norm_num [sum_range_succ]
    ring

end NN
