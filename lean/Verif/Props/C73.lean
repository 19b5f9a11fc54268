import Verif.Props.C72
import Verif.Real.LeastSquares
/- C73: training a linear model with plain SGD on the squared error converges to the least-squares error. -/

set_option linter.unusedSectionVars false

namespace NN
open Go Finset

/-- The predictions of the linear model with weights `W` and biases `b` for inputs of width `n`. -/
noncomputable def linPred (n : Nat) (W : Nat → Nat → ℝ) (b : Nat → ℝ) (A : Nat → Nat → ℝ) (i j : Nat) : ℝ :=
  ∑ k ∈ range n, A i k * W k j + b j

/-- inputs with an additional column of ones -/
noncomputable def augIn (n : Nat) (A : Nat → Nat → ℝ) (i k : Nat) : ℝ := if k < n then A i k else 1

/-- weights with the biases as an additional row -/
noncomputable def coefs (n : Nat) (W : Nat → Nat → ℝ) (b : Nat → ℝ) (k j : Nat) : ℝ := if k < n then W k j else b j

theorem resid_coefs (n : Nat) (W : Nat → Nat → ℝ) (b : Nat → ℝ) (A Y : Nat → Nat → ℝ) (i j : Nat) :
    resid (n + 1) (augIn n A) Y (coefs n W b) i j = linPred n W b A i j - Y i j := by
  unfold resid linPred
  rw [sum_range_succ]
  have : ∑ k ∈ range n, augIn n A i k * coefs n W b k j = ∑ k ∈ range n, A i k * W k j := by
    refine sum_congr rfl fun k hk => ?_
    rw [augIn, coefs, if_pos (mem_range.1 hk), if_pos (mem_range.1 hk)]
  rw [this]
  simp [augIn, coefs]

theorem objective_linPred (r c n : Nat) (W : Nat → Nat → ℝ) (b : Nat → ℝ) (A Y : Nat → Nat → ℝ) :
    objective .mse r c (linPred n W b A) Y = lsq r c (n + 1) (augIn n A) Y (coefs n W b) := by
  unfold objective lsq
  simp only [resid_coefs]

theorem aug_sq (r n : Nat) (A : Nat → Nat → ℝ) :
    ∑ i ∈ range r, ∑ k ∈ range (n + 1), augIn n A i k ^ 2 = ∑ i ∈ range r, (1 + ∑ k ∈ range n, A i k ^ 2) := by
  refine sum_congr rfl fun i _ => ?_
  rw [sum_range_succ, add_comm]
  congr 1
  · simp [augIn]
  · refine sum_congr rfl fun k hk => ?_
    rw [augIn, if_pos (mem_range.1 hk)]

theorem sqDist_coefs (c n : Nat) (W W' : Nat → Nat → ℝ) (b b' : Nat → ℝ) :
    sqDist c (n + 1) (coefs n W b) (coefs n W' b') =
      ∑ k ∈ range n, ∑ j ∈ range c, (W k j - W' k j) ^ 2 + ∑ j ∈ range c, (b j - b' j) ^ 2 := by
  unfold sqDist
  rw [sum_range_succ]
  congr 1
  · refine sum_congr rfl fun k hk => ?_
    simp only [coefs, if_pos (mem_range.1 hk)]
  · simp [coefs]

/-- The state of full-batch gradient descent after t epochs. -/
structure LinState (net : Net ℝ) (r : Nat) (A B : Nat → Nat → ℝ) (lr : ℝ) (t : Nat) (net' : Net ℝ) (S' : Nat → OptSpec ℝ) : Prop where
  size : net'.size = 1
  dim : net'.dim = net.dim
  layer : ∃ W b, net'.L 0 = { net.L 0 with W := W, b := b } ∧ ∀ k j, k ≤ (net.L 0).n →
    coefs (net.L 0).n W b k j = lsqIter r (net.dim 1) ((net.L 0).n + 1) (augIn (net.L 0).n A) B lr (coefs (net.L 0).n (net.L 0).W (net.L 0).b) t k j
  opt : (S' 0).kind = .sgd ∧ (S' 0).momentum = 0 ∧ (S' 0).decay = 0 ∧ (S' 0).lr = lr

theorem infer_linPred {L : LayerSpec ℝ} (h : L.kind = .linear) (A : Nat → Nat → ℝ) : infer L A = linPred L.n L.W L.b A := by
  funext i j
  simp only [infer, actRow, h, preact_real, linPred]

theorem Descent.linear {m : Model ℝ} {u : Nat → ℝ} {A B : Nat → Nat → ℝ} {net : Net ℝ} {S : Nat → OptSpec ℝ} {p : Nat} {r : Nat}
    {lr : ℝ} (hs : net.size = 1) (hk : (net.L 0).kind = .linear)
    (hS : (S 0).kind = .sgd ∧ (S 0).momentum = 0 ∧ (S 0).decay = 0 ∧ (S 0).lr = lr) (t : Nat) :
    ∀ {bs : List (Nat × Nat)} {net' : Net ℝ} {S' : Nat → OptSpec ℝ} {p' : Nat}, bs = List.replicate t (0, r) →
      Descent m .mse u A B net S p bs net' S' p' → LinState net r A B lr t net' S' := by
  induction t with
  | zero =>
    intro bs net' S' p' hb h
    cases h with
    | start => exact ⟨hs, rfl, ⟨_, _, rfl, fun _ _ _ => rfl⟩, hS⟩
    | step => simp at hb
  | succ t ih =>
    intro bs net' S' p' hb h
    rw [List.replicate_succ'] at hb
    cases h with
    | start => simp at hb
    | @step bs0 b0 net1 _ S1 _ p1 hD0 hstep =>
      obtain ⟨e1, e2⟩ := List.append_inj' hb rfl
      obtain rfl : b0 = (0, r) := by simpa using e2
      obtain ⟨i1, i2, ⟨W, b, i3, i4⟩, s1, s2, s3, s4⟩ := ih e1 hD0
      simp only [Nat.zero_add] at hstep
      obtain ⟨G, D, hG, rfl, rfl⟩ := hstep
      have hk1 : (net1.L 0).kind = .linear := by rw [i3]; exact hk
      have hf : ¬ Fused m net1 := by
        intro hf
        have := hf.1
        rw [i1, hk1] at this
        cases this
      obtain ⟨g1, g2⟩ := hG.plain hf
      have hV : trainVals net1 r (fun q => u (p1 + q)) A 1 = linPred (net.L 0).n W b A := by
        rw [trainVals_netOut _ _ _ _ (by intro k hk; obtain rfl : k = 0 := by omega
                                         rw [hk1]; decide)]
        show infer (net1.L 0) A = _
        rw [infer_linPred hk1, i3]
      have hG0 : ∀ i j, G 0 i j = (linPred (net.L 0).n W b A i j - B i j) * (2 / (net.dim 1 : ℝ)) := by
        intro i j
        rw [g2.act 0 (by omega)]
        unfold actBack
        rw [hk1]
        dsimp only
        have : D (0 + 1) = D net1.size := by rw [i1]
        rw [this, g1, i1, hV, i2]
        simp [lossGrad]
      have hrate : (S1 0).rate = lr := by
        unfold OptSpec.rate
        rw [s3, if_pos (by simp [Flt.zero]), s4]
      set θ := lsqIter r (net.dim 1) ((net.L 0).n + 1) (augIn (net.L 0).n A) B lr (coefs (net.L 0).n (net.L 0).W (net.L 0).b) t with hθ
      have hres : ∀ i j, resid ((net.L 0).n + 1) (augIn (net.L 0).n A) B θ i j = linPred (net.L 0).n W b A i j - B i j := by
        intro i j
        rw [← resid_coefs]
        unfold resid
        congr 1
        refine sum_congr rfl fun k hk => ?_
        rw [i4 k j (by have := mem_range.1 hk; omega)]
      refine ⟨i1, i2, ?_, s1, s2, s3, s4⟩
      refine ⟨(S1 0).newW (net1.L 0).W (gradW r (trainVals net1 r (fun q => u (p1 + q)) A 0) (G 0)),
        fun j => (S1 0).newB (fun _ j => (net1.L 0).b j) (gradB r (G 0)) 0 j, ?_, fun k j hk => ?_⟩
      · unfold stepNet
        dsimp only
        rw [i3]
      · show _ = θ k j - lsqGrad _ _ _ _ _ θ k j * lr
        rw [← i4 k j hk]
        unfold lsqGrad
        simp only [hres]
        unfold coefs OptSpec.newW OptSpec.newB OptSpec.upd
        rw [s1, s2, hrate, i3]
        dsimp only
        by_cases hkn : k < (net.L 0).n
        · rw [if_pos hkn, if_pos hkn, if_pos (by simp [Flt.zero])]
          simp only [gradW, fsum_real, hG0, augIn, if_pos hkn]
          rfl
        · rw [if_neg hkn, if_neg hkn, if_pos (by simp [Flt.zero])]
          simp only [gradB, fsum_real, hG0, augIn, if_neg hkn, one_mul]
          rfl

theorem flatten_replicate_one {β : Type} (x : β) (t : Nat) : (List.replicate t [x]).flatten = List.replicate t x := by
  induction t with
  | zero => rfl
  | succ t ih => rw [List.replicate_succ, List.flatten_cons, ih]; rfl

/-- C73: a model with one linear layer, trained with plain SGD on the squared error over the whole data set, with a learning rate of
at most 1 / (2/c · Σᵢ(1 + |xᵢ|²)).  After any number of epochs the error is at most the initial one; and after t ≥ 1 epochs it exceeds
the error of any weights W and biases b, hence the least possible error, by at most |(W₀,b₀) - (W,b)|² / (2 · rate · t). -/
theorem C73_converge (w : World ℝ) (m : Model ℝ) (net : Net ℝ) (op : Nat → Nat) (S : Nat → OptSpec ℝ) (hT : IsTask w m net op S)
    (hs : net.size = 1) (hk : (net.L 0).kind = .linear) (hl : m.loss = some ⟨.mse, net.dim 1⟩) (lr : ℝ)
    (hS : (S 0).kind = .sgd ∧ (S 0).momentum = 0 ∧ (S 0).decay = 0 ∧ (S 0).lr = lr) (X Y xv yv : Mat) (r : Nat) (A B : Nat → Nat → ℝ)
    (hX : IsData w net X r (net.dim 0) A) (hY : IsData w net Y r (net.dim 1) B) (hr : r ≤ 2 ^ 53) (h0 : 0 < lr)
    (hlr : lr * (2 / (net.dim 1 : ℝ) * ∑ i ∈ range r, (1 + ∑ k ∈ range (net.dim 0), A i k ^ 2)) ≤ 1) (t : Nat) :
    wp (fit m X Y t 0 xv yv 0) w (fun e w' => e = none ∧ ∃ net' S' F, IsTask w' m net' op S' ∧ SameShape net net' ∧
      NetComputes net' r A F ∧
      objective .mse r (net.dim 1) F B ≤ objective .mse r (net.dim 1) (linPred (net.dim 0) (net.L 0).W (net.L 0).b A) B ∧
      ∀ W b, 0 < t → objective .mse r (net.dim 1) F B ≤ objective .mse r (net.dim 1) (linPred (net.dim 0) W b A) B +
        (∑ k ∈ range (net.dim 0), ∑ j ∈ range (net.dim 1), ((net.L 0).W k j - W k j) ^ 2 +
          ∑ j ∈ range (net.dim 1), ((net.L 0).b j - b j) ^ 2) / (2 * lr * t)) := by
  have hn : (net.L 0).n = net.dim 0 := hT.isNet.ins 0 (by omega)
  refine wp_mono (C70_fit w m net op S hT (fun k hk' => by obtain rfl : k = 0 := by omega
                                                           rw [hk]; decide) _ hl (by rw [hs]) X Y xv yv r A B hX.mat
    (by rw [hs]; exact hY.mat) hX.cap hY.cap hX.sep hY.sep t 0 (by omega)) ?_
  rintro e w' ⟨he, net', S', hD, hT', hsh, -⟩
  have hbl : (List.replicate (t : Int).toNat (blocks r 0)).flatten = List.replicate t (0, r) := by
    rw [Int.toNat_natCast, show blocks r 0 = [(0, r)] by simp [blocks], flatten_replicate_one]
  obtain ⟨h1, h2, ⟨W1, b1, h3, h4⟩, -⟩ := Descent.linear hs hk hS t hbl hD
  have hk' : (net'.L 0).kind = .linear := by rw [h3]; exact hk
  have hF := netComputes_netOut (net := net') (by intro k hk2; obtain rfl : k = 0 := by omega
                                                  rw [hk']; decide) r A
  have hout : netOut net' A net'.size = linPred (net.dim 0) W1 b1 A := by
    rw [h1]
    show infer (net'.L 0) A = _
    rw [infer_linPred hk', h3, ← hn]
  rw [hout] at hF
  have hobj : objective .mse r (net.dim 1) (linPred (net.dim 0) W1 b1 A) B = lsq r (net.dim 1) (net.dim 0 + 1) (augIn (net.dim 0) A) B
      (lsqIter r (net.dim 1) (net.dim 0 + 1) (augIn (net.dim 0) A) B lr (coefs (net.dim 0) (net.L 0).W (net.L 0).b) t) := by
    rw [objective_linPred]
    unfold lsq
    refine sum_congr rfl fun i _ => ?_
    congr 1
    refine sum_congr rfl fun j _ => ?_
    congr 1
    unfold resid
    congr 1
    refine sum_congr rfl fun k hk2 => ?_
    have := h4 k j (by have := mem_range.1 hk2; omega)
    rw [hn] at this
    rw [this]
  rw [← aug_sq] at hlr
  refine ⟨he, net', S', _, hT', hsh, hF, ?_, fun W b ht => ?_⟩
  · rw [hobj, objective_linPred]
    exact (lsqIter_spec _ _ _ _ _ _ h0 hlr t).1
  · rw [hobj, objective_linPred, ← sqDist_coefs]
    exact lsqIter_bound _ _ _ _ _ _ h0 hlr ht _

/-- A linear layer with two inputs and two outputs. -/
noncomputable def pairUnit (_ : Nat) : LayerSpec ℝ := ⟨.linear, 2, 2, fun i j => i + j, fun j => j, 0, 0⟩

/-- Hypotheses of C73_converge: a linear layer with two inputs and two outputs, three samples, learning rate 1/13. -/
example : ∃ (w : World ℝ) (m : Model ℝ) (net : Net ℝ) (op : Nat → Nat) (S : Nat → OptSpec ℝ) (X Y : Mat) (A B : Nat → Nat → ℝ),
    IsTask w m net op S ∧ net.size = 1 ∧ (net.L 0).kind = .linear ∧ m.loss = some ⟨.mse, net.dim 1⟩ ∧
    ((S 0).kind = .sgd ∧ (S 0).momentum = 0 ∧ (S 0).decay = 0 ∧ (S 0).lr = 1 / 13) ∧ IsData w net X 3 (net.dim 0) A ∧
    IsData w net Y 3 (net.dim 1) B ∧
    (1 / 13 : ℝ) * (2 / (net.dim 1 : ℝ) * ∑ i ∈ range 3, (1 + ∑ k ∈ range (net.dim 0), A i k ^ 2)) ≤ 1 := by
  obtain ⟨o, ho⟩ := sgd_ok_real (lr := 1 / 13) (decay := 0) (mom := 0) (by norm_num) le_rfl le_rfl
  have hrows : o.weightMomentums.rows = 0 := by rw [newSGD_ok ho]; rfl
  obtain ⟨w, net, op, XM, YM, xM, yM, -, hs, hL, hdim, hT, dX, dY, -, -⟩ := exists_task (emptyWorld : World ℝ) 1 Nat.one_pos
    pairUnit (fun _ => ⟨Nat.two_pos, Nat.two_pos⟩) (fun _ => rfl) { newModel with loss := some ⟨.mse, 2⟩, lossType := 0 } o
    (OptSpec.fresh o) hrows (fun w p i hlt e => e ▸ isOpt_newSGD _ _ _ _ hlt (e.symm ▸ ho)) (r := 3) (r' := 1) (by decide) Nat.one_pos
    (fun i _ => (i : ℝ)) (fun i j => (i : ℝ) - j) (fun _ _ => 0) (fun _ _ => 0)
  have d0 : net.dim 0 = 2 := by rw [hdim]; rfl
  have d1 : net.dim 1 = 2 := by rw [hdim]; rfl
  refine ⟨w, _, net, op, _, XM, YM, fun i _ => (i : ℝ), fun i j => (i : ℝ) - j, hT, hs, by rw [hL]; rfl, by rw [d1]; rfl, ?_, ?_, ?_, ?_⟩
  · rw [newSGD_ok ho]; exact ⟨rfl, rfl, rfl, rfl⟩
  · rw [d0]; exact dX
  · rw [d1]; exact dY
  · rw [d0, d1]
    norm_num [sum_range_succ, sum_range_zero]

end NN
