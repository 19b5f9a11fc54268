import Verif.Model.FitInt64
import Verif.IEEE.Error
import Verif.Props.C77_C78
import Verif.Props.C140
/- C158: the arithmetic of the batches is right for every batch size, on 64-bit integers and float64. -/

set_option linter.unusedSectionVars false

namespace NN
open Go

/-! ### float64(n) of large integers -/

namespace F64

theorem ofInt_fin (n : Int) (h1 : -(2 ^ 63) ≤ n) (h2 : n ≤ 2 ^ 63) : (round false (n : ℝ)).absBits < infBits := by
  refine round_finite ?_
  have a1 : (-(2 ^ 63 : ℝ)) ≤ n := by exact_mod_cast h1
  have a2 : (n : ℝ) ≤ 2 ^ 63 := by exact_mod_cast h2
  refine (abs_le.2 ⟨a1, a2⟩).trans ?_
  unfold big
  have : (2 : ℝ) ^ 63 ≤ (2 : ℝ) ^ (971 : ℤ) := by
    rw [← zpow_natCast]
    exact zpow_le_zpow_right₀ (by norm_num) (by norm_num)
  refine this.trans (le_mul_of_one_le_left (by positivity) (by norm_num))

/-- The smaller of a number and one of at most 2^53, where the first is the larger one. -/
theorem toInt_min_big {a b : Int} (a2 : a ≤ 2 ^ 63) (b1 : -(2 ^ 53) ≤ b) (b2 : b ≤ 2 ^ 53) (h : b ≤ a) :
    (min (round false (a : ℝ)) (round false (b : ℝ))).toInt = b := by
  obtain ⟨f1, f2⟩ := ofInt_exact b b1 b2
  have e2 := ofInt_fin a (by omega) a2
  obtain ⟨g1, g2⟩ := min_val e2 f2
  refine toInt_val g2 (n := b) ?_ (by omega) (by omega)
  rw [g1, min_eq_right, f1]
  rw [val_le_iff]
  exact round_mono (by exact_mod_cast h)

/-- The integer of a number of at most -1 is negative (also if it is out of range). -/
theorem toInt_neg {x : F64} (h : x.absBits < infBits) (hv : x.val ≤ -1) : x.toInt < 0 := by
  obtain ⟨e1, e2⟩ := not_special h
  unfold toInt
  rw [e1, e2]
  simp only [Bool.or_self, Bool.false_eq_true, if_false]
  have hm := mag_nonneg x.absBits
  have hn : (if x.sign then -⌊mag x.absBits⌋ else ⌊mag x.absBits⌋) < 0 := by
    unfold val at hv
    cases hs : x.sign
    · rw [hs] at hv
      simp at hv
      linarith
    · rw [hs] at hv
      simp at hv ⊢
      exact Int.floor_pos.2 hv
  generalize (if x.sign then -⌊mag x.absBits⌋ else ⌊mag x.absBits⌋) = q at hn ⊢
  split
  · exact hn
  · norm_num

theorem toInt_min_neg {a b : Int} (a1 : -(2 ^ 63) ≤ a) (a2 : a < 0) (b1 : 0 ≤ b) (b2 : b ≤ 2 ^ 53) :
    (min (round false (a : ℝ)) (round false (b : ℝ))).toInt < 0 := by
  obtain ⟨f1, f2⟩ := ofInt_exact b (by omega) b2
  have e2 := ofInt_fin a a1 (by omega)
  obtain ⟨g1, g2⟩ := min_val e2 f2
  refine toInt_neg g2 ?_
  rw [g1]
  refine (min_le_left _ _).trans ?_
  obtain ⟨o1, o2⟩ := ofInt_exact (-1) (by norm_num) (by norm_num)
  have : (round false (a : ℝ)).val ≤ (round false ((-1 : Int) : ℝ)).val := by
    rw [val_le_iff]
    exact round_mono (by exact_mod_cast (by omega : a ≤ -1))
  rw [o1] at this
  exact_mod_cast this

end F64

theorem wrap64_id {x : Int} (h1 : -(2 ^ 63) ≤ x) (h2 : x < 2 ^ 63) : wrap64 x = x := by
  unfold wrap64
  omega

/-! ### Fit -/

variable [Libm]

/-- The number of batches never wraps around. -/
theorem plan64 {n : Int} (h0 : 0 < n) (h2 : n ≤ 2 ^ 52) (b : Int) : batchPlan64 n b = batchPlan n b := by
  unfold batchPlan64 batchPlan
  split
  · rename_i hb0
    have h3 : (Int.tdiv n b).natAbs ≤ n.natAbs := by rw [Int.natAbs_tdiv]; exact Nat.div_le_self _ _
    have h4 : (Int.tdiv n b * b).natAbs ≤ n.natAbs := by
      rw [Int.natAbs_mul, Int.natAbs_tdiv]; exact Nat.div_mul_le_self _ _
    rw [wrap64_id (x := Int.tdiv n b) (by omega) (by omega)]
    dsimp only
    rw [wrap64_id (x := Int.tdiv n b * b) (by omega) (by omega), wrap64_id (x := Int.tdiv n b + 1) (by omega) (by omega)]
  · rfl

theorem bind_congr_left {β γ : Type} {f g : Go F64 β} {h : β → Go F64 γ} {w : World F64} (e : f w = g w) : (f >>= h) w = (g >>= h) w := by
  rcases hg : g w with er | ⟨a, w'⟩
  · rw [bind_error (e.trans hg), bind_error hg]
  · rw [bind_ok (e.trans hg), bind_ok hg]

/-- With a batch size of at most the number of samples, nothing wraps around. -/
theorem fit64_small (w : World F64) (m : Model F64) (X Y xv yv : Mat) (h0 : 0 < Y.rows) (h2 : Y.rows ≤ 2 ^ 52) (epochs b k : Int)
    (hb : -Y.rows ≤ b) (hbn : b ≤ Y.rows) : fit64 m X Y epochs b xv yv k w = fit m X Y epochs b xv yv k w := by
  unfold fit64 fit
  rw [plan64 h0 h2 b]
  refine forRet_congr (fun _ => True) trivial (fun _ _ _ _ _ _ _ _ => trivial) fun e w' _ _ => ?_
  unfold fitEpoch64 fitEpoch
  have key : forRet (batchPlan Y.rows b).1.toNat (fun s => fitRange m X Y (wrap64 (s * (batchPlan Y.rows b).2))
      (batchHi64 F64 s (batchPlan Y.rows b).2 Y.rows)) w' = forRet (batchPlan Y.rows b).1.toNat (fun s => fitBatch m X Y (batchPlan Y.rows b).2 s) w' := by
    refine forRet_congr (fun _ => True) trivial (fun _ _ _ _ _ _ _ _ => trivial) fun s w'' hs _ => ?_
    show _ = fitRange m X Y (s * (batchPlan Y.rows b).2) (batchHi F64 s (batchPlan Y.rows b).2 Y.rows) w''
    -- the numbers are at most twice the number of samples
    have hlo : 0 ≤ (s : Int) * (batchPlan Y.rows b).2 ∧ ((s : Int) + 1) * (batchPlan Y.rows b).2 ≤ 2 * Y.rows ∧ 0 ≤ (batchPlan Y.rows b).2 ∧
        (s : Int) + 1 ≤ 2 * Y.rows := by
      obtain ⟨n, hn⟩ := Int.eq_ofNat_of_zero_le h0.le
      rw [hn] at h0 hb hbn hs ⊢
      rcases lt_trichotomy b 0 with hneg | rfl | hpos
      · exfalso
        unfold batchPlan at hs
        rw [if_pos (by omega)] at hs
        dsimp only at hs
        have h1 : Int.tdiv (n : Int) b = -(Int.tdiv n (-b)) := by rw [Int.tdiv_neg, neg_neg]
        have h2 : 1 ≤ Int.tdiv (n : Int) (-b) := by
          rw [Int.tdiv_eq_ediv_of_nonneg (by omega)]
          exact (Int.le_ediv_iff_mul_le (by omega)).2 (by omega)
        split at hs <;> omega
      · have hp : batchPlan (n : Int) 0 = (1, (n : Int)) := rfl
        rw [hp] at hs ⊢
        obtain rfl : s = 0 := by simpa using hs
        dsimp only
        push_cast
        omega
      · obtain ⟨c, rfl⟩ := Int.eq_ofNat_of_zero_le hpos.le
        obtain ⟨p1, p2⟩ := plan_steps n c (by omega)
        rw [p1, Int.toNat_natCast, lt_ceil (by omega)] at hs
        rw [p2]
        have hs' : (s : Int) * c < n := by exact_mod_cast hs
        have hsc : (s : Int) ≤ s * c := by nlinarith
        refine ⟨by positivity, ?_, by omega, by omega⟩
        rw [add_mul]
        omega
    obtain ⟨l1, l2, l3, l4⟩ := hlo
    have l5 : ((s : Int) + 1) * (batchPlan Y.rows b).2 = s * (batchPlan Y.rows b).2 + (batchPlan Y.rows b).2 := by ring
    have e1 : wrap64 ((s : Int) * (batchPlan Y.rows b).2) = s * (batchPlan Y.rows b).2 := wrap64_id (by omega) (by omega)
    have e2 : batchHi64 F64 s (batchPlan Y.rows b).2 Y.rows = batchHi F64 s (batchPlan Y.rows b).2 Y.rows := by
      unfold batchHi64 batchHi
      rw [wrap64_id (x := (s : Int) + 1) (by omega) (by omega), wrap64_id (by omega) (by omega)]
    rw [e1, e2]
  exact bind_congr_left key

/-- With a batch size of more than the number of samples, there is one batch, of all samples. -/
theorem fit64_large (w : World F64) (m : Model F64) (X Y xv yv : Mat) (h0 : 0 < Y.rows) (h2 : Y.rows ≤ 2 ^ 52) (epochs b k : Int)
    (hb : Y.rows < b) (hb2 : b < 2 ^ 63) : fit64 m X Y epochs b xv yv k w = fit m X Y epochs 0 xv yv k w := by
  have hz : Int.tdiv Y.rows b = 0 := Int.tdiv_eq_zero_of_lt h0.le hb
  have hp : batchPlan64 Y.rows b = (1, b) := by
    rw [plan64 h0 h2]
    unfold batchPlan
    rw [if_pos (by omega), hz]
    dsimp only
    rw [if_pos (by omega)]
    rfl
  have hp0 : batchPlan Y.rows 0 = (1, Y.rows) := rfl
  unfold fit64 fit
  rw [hp, hp0]
  refine forRet_congr (fun _ => True) trivial (fun _ _ _ _ _ _ _ _ => trivial) fun e w' _ _ => ?_
  unfold fitEpoch64 fitEpoch
  refine bind_congr_left ?_
  refine forRet_congr (fun _ => True) trivial (fun _ _ _ _ _ _ _ _ => trivial) fun s w'' hs _ => ?_
  obtain rfl : s = 0 := by simpa using hs
  show _ = fitRange m X Y (((0 : Nat) : Int) * Y.rows) (batchHi F64 ((0 : Nat) : Int) Y.rows Y.rows) w''
  have e1 : wrap64 (((0 : Nat) : Int) * b) = ((0 : Nat) : Int) * Y.rows := by
    push_cast
    rw [zero_mul, zero_mul]
    exact wrap64_id (by norm_num) (by norm_num)
  have e2 : batchHi64 F64 ((0 : Nat) : Int) b Y.rows = Y.rows := by
    unfold batchHi64
    rw [wrap64_id (x := ((0 : Nat) : Int) + 1) (by norm_num) (by norm_num), show (((0 : Nat) : Int) + 1) * b = b by push_cast; ring,
      wrap64_id (by omega) hb2]
    exact F64.toInt_min_big (by omega) (by omega) (by omega) hb.le
  have e3 : batchHi F64 ((0 : Nat) : Int) Y.rows Y.rows = Y.rows := by
    unfold batchHi
    rw [show (((0 : Nat) : Int) + 1) * Y.rows = Y.rows by push_cast; ring]
    exact F64.toInt_min_big (by omega) (by omega) (by omega) le_rfl
  show fitRange m X Y (wrap64 (((0 : Nat) : Int) * b)) (batchHi64 F64 ((0 : Nat) : Int) b Y.rows) w'' = _
  rw [e1, e2, e3]

/-- C158: on a machine with 64-bit integers that wrap around, and with float64, `Fit` with any batch size b ≥ 0 does what it does with integers of any
size: it goes through the data in the batches of size b (see C70), and for b = 0 and for all b of at least the number of samples, up to the largest
integer 2^63 - 1, in one batch.  The only assumption is that there are at most 2^52 samples. -/
theorem C158_exact (w : World F64) (m : Model F64) (X Y xv yv : Mat) (h0 : 0 < Y.rows) (h2 : Y.rows ≤ 2 ^ 52) (epochs b k : Int) (hb : 0 ≤ b)
    (hb2 : b < 2 ^ 63) : fit64 m X Y epochs b xv yv k w = fit m X Y epochs (if Y.rows ≤ b then 0 else b) xv yv k w := by
  split
  · rename_i h
    rcases h.lt_or_eq with h | h
    · exact fit64_large w m X Y xv yv h0 h2 epochs b k h hb2
    · rw [← h, fit64_small w m X Y xv yv h0 h2 epochs Y.rows k (by omega) le_rfl]
      unfold fit
      have hp : batchPlan Y.rows Y.rows = (1, Y.rows) := by
        unfold batchPlan
        rw [if_pos (by omega), Int.tdiv_self (by omega)]
        dsimp only
        rw [if_neg (by omega)]
      rw [hp]
      rfl
  · exact fit64_small w m X Y xv yv h0 h2 epochs b k (by omega) (by omega)

/-- The batches of a size of at least the number of samples. -/
theorem blocks_all {n b : Nat} (h0 : 0 < n) (h : n ≤ b) : blocks n b = [(0, n)] := by
  unfold blocks
  rw [if_neg (by omega)]
  have : (n + b - 1) / b = 1 := Nat.div_eq_of_lt_le (by omega) (by omega)
  rw [this]
  simp [Nat.min_eq_right h]

/-- C158: on 64-bit integers and float64, with any batch size from 0 to 2^63 - 1, `Fit` without logging performs gradient descent over the batches, once
per epoch and in order, and reports no error. -/
theorem C158_fit (w : World F64) (m : Model F64) (net : Net F64) (op : Nat → Nat) (S : Nat → OptSpec F64) (hT : IsTask w m net op S)
    (hns : ∀ k, k < net.size → (net.L k).kind ≠ .sigmoid) (loss : Loss) (hl : m.loss = some loss) (hls : loss.size = net.dim net.size)
    (X Y xv yv : Mat) (n : Nat) (A B : Nat → Nat → F64) (hX : IsData w net X n (net.dim 0) A) (hY : IsData w net Y n (net.dim net.size) B)
    (hn : n ≤ 2 ^ 52) (epochs : Int) (b : Nat) (hb : b < 2 ^ 63) :
    wp (fit64 m X Y epochs b xv yv 0) w fun e w' => e = none ∧ ∃ net' S',
      Descent m loss.kind w.unif A B net S w.unifPos (List.replicate epochs.toNat (blocks n b)).flatten net' S' w'.unifPos ∧
      IsTask w' m net' op S' ∧ SameShape net net' := by
  have hr : Y.rows = n := hY.mat.rows
  have h0 : 0 < n := hY.mat.rpos
  have hrun := fun (b : Nat) (hbig : n + b ≤ 2 ^ 53) => C70_fit w m net op S hT hns loss hl hls X Y xv yv n A B hX.mat hY.mat hX.cap hY.cap hX.sep hY.sep epochs b hbig
  unfold wp
  rw [C158_exact w m X Y xv yv (by omega) (by omega) epochs b 0 (by omega) (by omega), hr]
  change wp _ w _
  by_cases h : n ≤ b
  · rw [if_pos (by omega), blocks_all h0 h, show [(0, n)] = blocks n 0 from rfl]
    refine wp_mono (hrun 0 (by omega)) ?_
    rintro e w' ⟨he, net', S', h1, h2, h3, -⟩
    exact ⟨he, net', S', h1, h2, h3⟩
  · rw [if_neg (by omega)]
    refine wp_mono (hrun b (by omega)) ?_
    rintro e w' ⟨he, net', S', h1, h2, h3, -⟩
    exact ⟨he, net', S', h1, h2, h3⟩

/-- C158: negative batch sizes on 64-bit integers.  From minus the number of samples to -1, `Fit` without logging does nothing and returns nil. -/
theorem C158_noop (w : World F64) (m : Model F64) (X Y xv yv : Mat) (h0 : 0 < Y.rows) (h2 : Y.rows ≤ 2 ^ 52) (epochs b : Int) (hb : b < 0)
    (hbn : -Y.rows ≤ b) : fit64 m X Y epochs b xv yv 0 w = .ok (none, w) := by
  rw [fit64_small w m X Y xv yv h0 h2 epochs b 0 hbn (by omega)]
  obtain ⟨n, hn⟩ := Int.eq_ofNat_of_zero_le h0.le
  exact C77_noop w m X Y xv yv n hn epochs b hb (by rw [← hn]; exact hbn)

/-- C158: all smaller batch sizes, down to the smallest integer -2^63: `Fit` panics at its first batch. -/
theorem C158_panics (w : World F64) (m : Model F64) (X Y xv yv : Mat) (h0 : 0 < Y.rows) (h2 : Y.rows ≤ 2 ^ 52) (epochs b k : Int) (he : 0 < epochs)
    (hb : b < -Y.rows) (hb1 : -(2 ^ 63) ≤ b) : fit64 m X Y epochs b xv yv k w = .error .index := by
  have hz : Int.tdiv Y.rows b = 0 := by
    rw [← neg_neg b, Int.tdiv_neg, Int.tdiv_eq_zero_of_lt (by omega) (by omega), neg_zero]
  have hp : batchPlan64 Y.rows b = (1, b) := by
    rw [plan64 h0 h2]
    unfold batchPlan
    rw [if_pos (by omega), hz]
    dsimp only
    rw [if_pos (by omega)]
    rfl
  have hlo : wrap64 (((0 : Nat) : Int) * b) = 0 := by
    push_cast
    rw [zero_mul]
    exact wrap64_id (by norm_num) (by norm_num)
  have hhi : batchHi64 F64 ((0 : Nat) : Int) b Y.rows < 0 := by
    unfold batchHi64
    rw [wrap64_id (x := ((0 : Nat) : Int) + 1) (by norm_num) (by norm_num), show (((0 : Nat) : Int) + 1) * b = b by push_cast; ring,
      wrap64_id hb1 (by omega)]
    exact F64.toInt_min_neg hb1 (by omega) h0.le (by omega)
  unfold fit64
  rw [hp]
  dsimp only
  exact forRet_first (by omega) (r := .error .index) (by
    show fitEpoch64 m X Y 1 b xv yv k 0 w = .error .index
    unfold fitEpoch64
    refine bind_error ?_
    refine forRet_first Nat.one_pos (r := .error .index) ?_
    show fitRange m X Y (wrap64 (((0 : Nat) : Int) * b)) (batchHi64 F64 ((0 : Nat) : Int) b Y.rows) w = .error .index
    unfold fitRange
    refine bind_error ?_
    unfold reslice
    rw [if_neg (by omega)])

/-- What must not happen: with the batch size 2^62, the upper bound of a second batch would be negative, that of a fourth 0. -/
example : wrap64 ((1 + 1) * 2 ^ 62) = -(2 ^ 63) ∧ wrap64 ((3 + 1) * 2 ^ 62) = 0 := by decide

/-- C158_exact, C158_fit: one RELU unit, a data set of three samples and the largest batch size.  C158_noop, C158_panics: the batch sizes -2 and -2^63. -/
example : ∃ (w : World F64) (m : Model F64) (net : Net F64) (op : Nat → Nat) (S : Nat → OptSpec F64) (X Y : Mat) (A B : Nat → Nat → F64) (loss : Loss),
    IsTask w m net op S ∧ (∀ k, k < net.size → (net.L k).kind ≠ .sigmoid) ∧ m.loss = some loss ∧ loss.size = net.dim net.size ∧
    IsData w net X 3 (net.dim 0) A ∧ IsData w net Y 3 (net.dim net.size) B ∧ 3 ≤ 2 ^ 52 ∧ 2 ^ 63 - 1 < 2 ^ 63 ∧ Y.rows = 3 ∧
    -Y.rows ≤ -2 ∧ -(2 ^ 63) < -Y.rows := by
  let o : Optim F64 := { (Optim.zero .sgd : Optim F64) with learningRate := Flt.ofInt 1, decay := Flt.ofInt 0, momentum := Flt.ofInt 0 }
  let L : Nat → LayerSpec F64 := fun _ => ⟨.hidden, 1, 1, fun _ _ => Flt.ofInt 3, fun _ => Flt.ofInt 1, Flt.ofInt 0, Flt.ofInt 0⟩
  obtain ⟨w, net, op, XM, YM, xM, yM, -, hs, hL, hdim, hT, dX, dY, -, -⟩ := exists_task (emptyWorld : World F64) 1 (by decide) L
    (fun i => ⟨Nat.one_pos, Nat.one_pos⟩) (fun i => rfl) { newModel with loss := some ⟨.mse, (L 1).n⟩ } (optFrom o)
    (OptSpec.fresh (optFrom o)) rfl (fun w p i hlt e => isOpt_from _ _ _ _ hlt e) (r := 3) (r' := 1) (by decide) (by decide)
    (fun i j => Flt.ofInt 2) (fun i j => Flt.ofInt 1) (fun _ _ => Flt.ofInt 1) (fun _ _ => Flt.ofInt 1)
  refine ⟨w, _, net, op, _, XM, YM, fun _ _ => Flt.ofInt 2, fun _ _ => Flt.ofInt 1, ⟨.mse, (L 1).n⟩, hT, fun k _ => ?_, rfl, ?_, ?_, ?_, by norm_num, by norm_num, dY.mat.rows,
    by rw [dY.mat.rows]; norm_num, by rw [dY.mat.rows]; norm_num⟩
  · rw [hL]; exact fun h => LayerKind.noConfusion h
  · rw [hdim, hs]
  · rw [hdim]; exact dX
  · rw [hdim, hs]; exact dY

end NN
