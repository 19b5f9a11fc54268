import Verif.Props.C52_C57
import Verif.Spec.PlaceFit
/-
C77: Fit with a negative batch size.  C78: Fit with different numbers of inputs and targets.
-/

set_option linter.unusedSectionVars false

namespace NN
open NN.Go
variable {α : Type} [Flt α]

/-! ### C77 -/

/-- C77 (full claim): a negative batch size is reported as an error. -/
def C77_claim (α : Type) [Flt α] : Prop :=
  ∀ (w : World α) (m : Model α) (X Y xv yv : Mat) (n cx cy : Nat) (A B : Nat → Nat → α) (epochs b k : Int),
    IsMat w X n cx A → IsMat w Y n cy B → 0 < epochs → b < 0 → ∃ er w', fit m X Y epochs b xv yv k w = .ok (some er, w')

/-- C77: a negative batch size of more than the number of samples: Fit panics. -/
theorem C77_panics [FltInt α] (w : World α) (m : Model α) (X Y xv yv : Mat) (n : Nat) (hY : Y.rows = n) (h0 : 0 < n) (epochs : Int)
    (he : 0 < epochs) (b : Int) (hb : b < -n) (hbig : -(2 ^ 53) ≤ b) (k : Int) :
    fit m X Y epochs b xv yv k w = .error .index := by
  have hz : Int.tdiv (n : Int) b = 0 := by
    rw [← neg_neg b, Int.tdiv_neg, Int.tdiv_eq_zero_of_lt (by omega) (by omega), neg_zero]
  have hp : batchPlan Y.rows b = (1, b) := by
    unfold batchPlan
    rw [if_pos (by omega), hY, hz]
    dsimp only
    rw [if_pos (by omega)]
    rfl
  unfold fit
  rw [hp]
  dsimp only
  have hbatch : fitBatch m X Y b 0 w = .error .index := by
    unfold fitBatch
    dsimp only
    refine bind_error ?_
    unfold reslice batchHi
    rw [FltInt.toInt_min _ _ (by omega) (by omega) (by omega) (by omega), if_neg (by omega)]
  exact forRet_first (by omega) (r := .error .index) (by
    show fitEpoch m X Y 1 b xv yv k 0 w = .error .index
    unfold fitEpoch
    refine bind_error ?_
    exact forRet_first Nat.one_pos (r := .error .index) hbatch)

/-- C77: any other negative batch size: Fit trains nothing at all and returns nil. -/
theorem C77_noop (w : World α) (m : Model α) (X Y xv yv : Mat) (n : Nat) (hY : Y.rows = n) (epochs : Int) (b : Int) (hb : b < 0)
    (hbn : -n ≤ b) : fit m X Y epochs b xv yv 0 w = .ok (none, w) := by
  have hs : (batchPlan Y.rows b).1.toNat = 0 := by
    unfold batchPlan
    rw [if_pos (by omega), hY]
    dsimp only
    have h1 : Int.tdiv (n : Int) b = -(Int.tdiv n (-b)) := by rw [Int.tdiv_neg, neg_neg]
    have h2 : 1 ≤ Int.tdiv (n : Int) (-b) := by
      rw [Int.tdiv_eq_ediv_of_nonneg (by omega)]
      exact (Int.le_ediv_iff_mul_le (by omega)).2 (by omega)
    split <;> omega
  unfold fit
  rw [forRet_congr (body' := fun _ => pure none) (fun _ => True) trivial (fun _ _ _ _ _ _ _ _ => trivial) fun e w' _ _ => ?_]
  · generalize epochs.toNat = j
    induction j with
    | zero => rfl
    | succ j ih => rw [forRet_succ, bind_ok ih]; rfl
  · unfold fitEpoch
    rw [hs]
    refine (bind_ok (b := none) (w' := w') rfl).trans ?_
    simp only [ne_eq, not_true_eq_false, false_and, and_false, if_false]

/-- C77 is false. -/
theorem C77_false : ¬ C77_claim ℝ := by
  intro h
  obtain ⟨er, w', hr⟩ := h _ newModel _ _ Mat.zero Mat.zero 1 1 1 _ _ 1 (-2) 0
    (place_spec (emptyWorld : World ℝ) (r := 1) (c := 1) (fun _ _ => 0) Nat.one_pos Nat.one_pos).mat
    (place_spec (emptyWorld : World ℝ) (r := 1) (c := 1) (fun _ _ => 0) Nat.one_pos Nat.one_pos).mat (by norm_num) (by norm_num)
  rw [C77_panics _ _ _ _ _ _ 1 rfl Nat.one_pos 1 (by norm_num) (-2) (by norm_num) (by norm_num)] at hr
  cases hr

/-! ### C78 -/

/-- C78 (full claim): with different numbers of inputs and targets, Fit does not report success. -/
def C78_claim (α : Type) [Flt α] : Prop :=
  ∀ (w : World α) (m : Model α) (X Y xv yv : Mat) (nx ny cx cy : Nat) (A B : Nat → Nat → α) (epochs k : Int) (b : Nat) (w' : World α),
    IsMat w X nx cx A → IsMat w Y ny cy B → nx ≠ ny → 0 < epochs → fit m X Y epochs b xv yv k w ≠ .ok (none, w')

/-- C78: with logging off, Fit never looks at the number of inputs: it does what it does with the first `Y.rows` of them. -/
theorem C78_prefix (w : World α) (m : Model α) (X Y xv yv : Mat) (n : Nat) (epochs b : Int) :
    fit m X Y epochs b xv yv 0 w = fit m (rowsOf X (0, n)) Y epochs b xv yv 0 w := by
  have e : ∀ e, fitEpoch m X Y (batchPlan Y.rows b).1 (batchPlan Y.rows b).2 xv yv 0 e =
      fitEpoch m (rowsOf X (0, n)) Y (batchPlan Y.rows b).1 (batchPlan Y.rows b).2 xv yv 0 e := by
    intro e
    unfold fitEpoch
    have : fitBatch m (rowsOf X (0, n)) Y (batchPlan Y.rows b).2 = fitBatch m X Y (batchPlan Y.rows b).2 := rfl
    rw [this]
    simp only [ne_eq, not_true_eq_false, false_and, if_false]
  unfold fit
  rw [funext e]

/-- C78: more inputs than targets: Fit trains on the first inputs, ignores the others, and returns nil. -/
theorem C78_extra [FltInt α] (w : World α) (m : Model α) (net : Net α) (op : Nat → Nat) (S : Nat → OptSpec α)
    (hT : IsTask w m net op S) (hns : ∀ k, k < net.size → (net.L k).kind ≠ .sigmoid) (loss : Loss) (hl : m.loss = some loss)
    (hls : loss.size = net.dim net.size) (X Y xv yv : Mat) (nx n : Nat) (A B : Nat → Nat → α) (hX : IsData w net X nx (net.dim 0) A)
    (hY : IsData w net Y n (net.dim net.size) B) (hn : n ≤ nx) (epochs : Int) (b : Nat) (hbig : n + b ≤ 2 ^ 53) :
    wp (fit m X Y epochs b xv yv 0) w fun e w' => e = none ∧ ∃ net' S',
      Descent m loss.kind w.unif A B net S w.unifPos (List.replicate epochs.toNat (blocks n b)).flatten net' S' w'.unifPos ∧
      IsTask w' m net' op S' ∧ SameShape net net' := by
  unfold wp
  rw [C78_prefix w m X Y xv yv n]
  change wp _ w _
  have hx := hX.mat.rowsOf (lo := 0) hY.mat.rpos (by omega)
  simp only [Nat.zero_add] at hx
  have hc := hX.cap
  refine wp_mono (C70_fit w m net op S hT hns loss hl hls (rowsOf X (0, n)) Y xv yv n A B hx hY.mat
    (by show n ≤ X.m.cap - 0; omega) hY.cap (fun a h1 h2 => hX.sep a h1 ?_) hY.sep epochs b hbig) ?_
  · obtain ⟨i, hi, h⟩ := h2
    exact ⟨i, by omega, h⟩
  · rintro e w' ⟨h1, net', S', h2, h3, h4, -⟩
    exact ⟨h1, net', S', h2, h3, h4⟩

/-- A loop that returns nothing has run its body for every index, without result. -/
theorem forRet_none {β : Type} {n : Nat} {body : Nat → Go α (Option β)} {w w' : World α} (h : forRet n body w = .ok (none, w')) {i : Nat}
    (hi : i < n) : ∃ w1 w2, body i w1 = .ok (none, w2) := by
  induction n generalizing w' with
  | zero => omega
  | succ n ih =>
    rw [forRet_succ] at h
    change Go.bind _ _ w = _ at h
    unfold Go.bind at h
    split at h
    · cases h
    · rename_i r w1 e
      cases r with
      | some b => cases h
      | none =>
        by_cases hn : i = n
        · subst hn; exact ⟨w1, w', h⟩
        · exact ih e (by omega)

/-- C78: fewer inputs (in the whole array behind the slice) than targets: Fit never returns nil. -/
theorem C78_missing [FltInt α] (w : World α) (m : Model α) (X Y xv yv : Mat) (n : Nat) (hY : Y.rows = n) (hX : X.m.cap < n) (epochs : Int)
    (he : 0 < epochs) (b : Nat) (hbig : n + b ≤ 2 ^ 53) (k : Int) (w' : World α) : fit m X Y epochs b xv yv k w ≠ .ok (none, w') := by
  intro h
  unfold fit at h
  obtain ⟨w1, w2, h1⟩ := forRet_none h (i := 0) (by omega)
  unfold fitEpoch at h1
  change Go.bind _ _ w1 = _ at h1
  unfold Go.bind at h1
  split at h1
  · cases h1
  rename_i r w3 h3
  cases r with
  | some e => cases h1
  | none =>
  -- the last batch
  obtain ⟨s, hs, hhi⟩ : ∃ s : Nat, s < (batchPlan Y.rows b).1.toNat ∧
      batchHi α s (batchPlan Y.rows b).2 Y.rows = n := by
    rw [hY]
    rcases Nat.eq_zero_or_pos b with rfl | hb
    · have hp : batchPlan (n : Int) ((0 : Nat) : Int) = (1, (n : Int)) := rfl
      rw [hp]
      refine ⟨0, by norm_num, ?_⟩
      dsimp only
      rw [batchHi_eq (by omega) (by omega)]
      simp
    · obtain ⟨h1, h2⟩ := plan_steps n b hb
      rw [h1, h2]
      have hpos : 0 < (n + b - 1) / b := Nat.div_pos (by omega) hb
      refine ⟨(n + b - 1) / b - 1, by omega, ?_⟩
      have e1 : (n + b - 1) / b - 1 + 1 = (n + b - 1) / b := by omega
      have h4 : n + b - 1 < ((n + b - 1) / b + 1) * b := by
        rw [mul_comm]; exact Nat.lt_mul_div_succ _ hb
      have h5 : (n + b - 1) / b * b ≤ n + b - 1 := Nat.div_mul_le_self _ _
      rw [Nat.succ_mul] at h4
      rw [batchHi_eq (by rw [e1]; omega) (by omega), e1]
      congr 1
      omega
  obtain ⟨w4, w5, h4⟩ := forRet_none h3 hs
  unfold fitBatch at h4
  dsimp only at h4
  rw [hhi] at h4
  rw [bind_error (p := .index) (by unfold reslice; rw [if_neg (by omega)])] at h4
  cases h4

/-- C78 is false: extra inputs are ignored. -/
theorem C78_false : ¬ C78_claim ℝ := by
  intro h
  obtain ⟨o, ho⟩ := sgd_ok_real (lr := 1) (decay := 0) (mom := 0) (by norm_num) le_rfl le_rfl
  have hrows : o.weightMomentums.rows = 0 := by rw [newSGD_ok ho]; rfl
  obtain ⟨w, net, op, XM, YM, xM, yM, -, hs, hL, hdim, hT, -, dY, dx, -⟩ := exists_task (emptyWorld : World ℝ) 3 (by decide)
    demoT demoT_pos demoT_chain { newModel with loss := some ⟨.mse, 5⟩ } o (OptSpec.fresh o) hrows
    (fun w p i hlt e => e ▸ isOpt_newSGD _ _ _ _ hlt (e.symm ▸ ho)) (r := 5) (r' := 7) (by decide) (by decide)
    (fun i j => (i : ℝ) + j) (fun i j => (i : ℝ) - j) (fun i _ => (i : ℝ)) (fun _ j => (j : ℝ))
  have d0 : net.dim 0 = (demoT 0 : LayerSpec ℝ).n := by rw [hdim]
  have d1 : net.dim net.size = (demoT 3 : LayerSpec ℝ).n := by rw [hdim, hs]
  obtain ⟨e, w', hr, rfl, -⟩ := wp_iff.1 (C78_extra w _ net op _ hT (fun k _ => by rw [hL]; exact demoT_kind k) ⟨.mse, 5⟩ rfl
    (by rw [d1]; rfl) xM YM xM yM 7 5 _ _ (d0 ▸ dx) (d1 ▸ dY) (by norm_num) 1 2 (by norm_num))
  exact h _ _ _ _ _ _ 7 5 _ _ _ _ 1 0 2 w' dx.mat dY.mat (by norm_num) (by norm_num) hr

/-- C77_panics, C77_noop, C78_missing: data sets that meet the hypotheses. -/
example : ∃ (X Y : Mat) (n : Nat), Y.rows = n ∧ 0 < n ∧ X.m.cap < n ∧ (-7 : Int) < -n ∧ -(n : Int) ≤ -3 :=
  ⟨⟨4, 1, ⟨0, 0, 4, 4⟩⟩, ⟨5, 1, ⟨1, 0, 5, 5⟩⟩, 5, rfl, by norm_num, by norm_num, by norm_num, by norm_num⟩

end NN
