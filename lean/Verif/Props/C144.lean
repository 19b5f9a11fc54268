import Verif.Lemmas.ErrRun
import Verif.Lemmas.FltHom
import Verif.Props.C76
import Verif.Props.C97_C99
import Verif.Props.C140
/-
C144: how far training on float64 can be from training in exact arithmetic.
-/

set_option linter.unusedSectionVars false

namespace NN
open NN.Go F64

theorem iv_hom [PowErr] : FltHom Iv.X where
  ofInt _ := rfl
  add _ _ := rfl
  sub _ _ := rfl
  mul _ _ := rfl
  div _ _ := rfl
  neg _ := rfl
  lt _ _ := rfl
  le _ _ := rfl
  eq _ _ := rfl
  max _ _ := rfl
  pow _ _ := rfl
  exp _ := rfl
  sqrt _ := rfl
  half := rfl
  eps7 := rfl
  oneSubEps7 := rfl

theorem SafeDescent.run [PowErr] {m : Model Iv} {loss : LossKind} {u : Nat → Iv} {X Y : Nat → Nat → Iv} {net net1 : Net Iv} {S S1 : Nat → OptSpec Iv}
    {p p1 : Nat} {bs : List (Nat × Nat)} (h : SafeDescent m loss u X Y net S p bs net1 S1 p1) : Descent m loss u X Y net S p bs net1 S1 p1 := by
  induction h with
  | start => exact .start
  | step _ _ a3 ih => exact .step ih a3

theorem eq_zero_iv [Libm] [PowErr] (x : F64) : Flt.eq x (Flt.zero : F64) = Flt.eq x.iv (Flt.zero : Iv) := by
  obtain ⟨z1, z2⟩ := zero_f64
  have hk : (Flt.zero : F64).key = 0 := by
    unfold F64.key
    have := isZero_iff.2 z1
    unfold F64.isZero at this
    simp at this
    rw [this]; simp
  have hx : x.val = 0 ↔ x.absBits = 0 := by rw [← isZero_iff]; unfold F64.isZero; simp
  change F64.eq x Flt.zero = decide (x.val = ((0 : Int) : ℝ))
  unfold F64.eq
  rw [(not_special z2).1, hk]
  have hn : x.isNaN = true → x.absBits ≠ 0 := by unfold F64.isNaN; simp; omega
  have h0 : x.key = 0 ↔ x.absBits = 0 := by unfold F64.key; split <;> omega
  cases hN : x.isNaN with
  | true => simp [hx, hn hN]
  | false => simp [hx, h0]

/-- C144: Fit on float64 against the same training in exact arithmetic.  Suppose the running error analysis of the training (gradient
descent over `Iv`, from the float64 parameters, data and random numbers) goes through with every comparison certain, and for Adam that math.Pow
is accurate.  Then Fit succeeds, and every weight and bias for which the analysis met no overflow is finite and differs by at most the computed
bound from what gradient descent in exact arithmetic from the same start gives. -/
theorem C144_fit [Libm] [PowErr] (w : World F64) (m : Model F64) (net : Net F64) (op : Nat → Nat) (S : Nat → OptSpec F64) (k : LossKind)
    (X Y xv yv : Mat) (n : Nat) (A B : Nat → Nat → F64) (h : Trains w m net op S k X Y n A B)
    (hpow : ∀ i, i < net.size → (S i).kind = .adam → PowAcc) (epochs : Int) (b : Nat) (hbig : n + b ≤ 2 ^ 53)
    (mI : Model Iv) (hmI : mI.lossType = m.lossType) (T : Net Iv) (S' : Nat → OptSpec Iv) (p' : Nat)
    (hI : SafeDescent mI k (fun q => (w.unif q).iv) (fun i j => (A i j).iv) (fun i j => (B i j).iv) (net.map F64.iv) (fun i => (S i).map F64.iv)
      w.unifPos (List.replicate epochs.toNat (blocks n b)).flatten T S' p') :
    (∀ mR : Model ℝ, mR.lossType = m.lossType →
      Descent mR k (fun q => (w.unif q).val) (fun i j => (A i j).val) (fun i j => (B i j).val) net.real (fun i => (S i).map F64.val)
        w.unifPos (List.replicate epochs.toNat (blocks n b)).flatten (T.map Iv.X) (fun i => (S' i).map Iv.X) p') ∧
    wp (fit m X Y epochs b xv yv 0) w fun e w' => e = none ∧ ∃ net' S1, IsTask w' m net' op S1 ∧ SameShape net net' ∧ w'.unifPos = p' ∧
      ∀ i, i < net.size →
        (∀ q j, q < (net.L i).n → j < (net.L i).o → ((T.L i).W q j).ok → Near ((net'.L i).W q j) ((T.L i).W q j).X ((T.L i).W q j).e) ∧
        ∀ j, j < (net.L i).o → ((T.L i).b j).ok → Near ((net'.L i).b j) ((T.L i).b j).X ((T.L i).b j).e := by
  refine ⟨fun mR hmR => iv_hom.descent (hmR.trans hmI.symm) hI.run, ?_⟩
  refine wp_mono (C70_fit w m net op S h.task h.noSig _ h.loss rfl X Y xv yv n A B h.xs.mat h.ys.mat h.xs.cap h.ys.cap h.xs.sep h.ys.sep
    epochs b hbig) ?_
  rintro e w1 ⟨he, net1, S1, d1, t1, s1, -⟩
  have hN := h.task.isNet
  obtain ⟨hr, -, -, hp⟩ := within_descent hmI (fun q => InIv.exact _) (T := net.map F64.iv) (S' := fun i => (S i).map F64.iv)
    ⟨⟨rfl, fun _ _ => rfl, hN.ins, hN.outs, fun i _ => ⟨rfl, rfl, rfl, .exact _, .exact _, fun _ _ _ _ => .exact _, fun _ _ => .exact _⟩⟩,
      fun i hi => ⟨rfl, rfl, .exact _, .exact _, eq_zero_iv _, .exact _, fun _ => eq_zero_iv _, .exact _, .exact _, .exact _, fun _ _ _ _ => .exact _,
        fun _ _ _ _ => .exact _, fun _ _ _ _ => .exact _, fun _ _ _ _ => .exact _, hpow i hi⟩⟩
    h.task.pos (fun i j _ _ => .exact _) (fun i j _ _ => .exact _) _ (fun p hp => by
    obtain ⟨l, hl, hp⟩ := List.mem_flatten.1 hp
    rw [List.eq_of_mem_replicate hl] at hp
    exact blocks_le n b p hp) d1 hI
  refine ⟨he, net1, S1, t1, s1, hp.symm, fun i hi => ?_⟩
  have hl := hr.layers.layer i (by rw [s1.size]; exact hi)
  obtain ⟨W, b, e⟩ := s1.layer i
  refine ⟨fun q j hq hj ho => ?_, fun j hj ho => ?_⟩
  · exact hl.W q j (by rw [e]; exact hq) (by rw [e]; exact hj) ho
  · exact hl.b j (by rw [e]; exact hj) ho


/-! ### The hypotheses can be met -/

/-- The correctly rounded power meets the requirement on math.Pow. -/
theorem powAcc_rounded : @PowAcc Libm.rounded ⟨ueps⟩ := by
  refine ⟨ueps_pos.le, fun x y n hx hy hn hb => ?_⟩
  change (powR x y).Finite ∧ |(powR x y).val - x.val ^ n| ≤ ueps * |x.val| ^ n + 2 * tiny
  have ht := tiny_pos
  have hu := ueps_pos
  have hpos : 0 ≤ ueps * |x.val| ^ n + 2 * tiny := by positivity
  obtain ⟨x1, x2⟩ := not_special hx
  obtain ⟨y1, y2⟩ := not_special hy
  unfold powR
  rw [x1, x2, y1, y2]
  simp only [Bool.or_self, Bool.false_eq_true, if_false, Bool.not_false, Bool.true_and]
  by_cases hy0 : y.isZero = true
  · have : n = 0 := by
      have := isZero_iff.1 hy0
      rw [hn] at this
      exact_mod_cast this
    subst this
    rw [if_pos hy0]
    have hv : (mk' false 0x3FF0000000000000).val = 1 := by
      unfold val
      rw [sign_mk' _ (by norm_num), absBits_mk' _ (by norm_num), mag_one]; simp
    refine ⟨?_, ?_⟩
    · show F64.absBits _ < _
      rw [absBits_mk' _ (by norm_num)]; unfold infBits; norm_num
    · rw [hv]; simpa using hpos
  · rw [if_neg hy0]
    have hn0 : n ≠ 0 := fun h => hy0 (isZero_iff.2 (by rw [hn, h]; simp))
    have hys : y.sign = false := by
      by_contra hs
      have hs : y.sign = true := by simpa using hs
      have hv : y.val = -mag y.absBits := by unfold val; rw [if_pos hs]
      have h5 := mag_nonneg y.absBits
      exact hy0 (isZero_iff.2 (by rw [hn] at hv ⊢; have : (0 : ℝ) ≤ n := Nat.cast_nonneg n; linarith))
    have hodd : y.isOdd = decide (Odd n) := by
      unfold F64.isOdd
      congr 1
      rw [hn, eq_iff_iff]
      constructor
      · rintro ⟨c, hc⟩
        have : (n : ℤ) = 2 * c + 1 := by exact_mod_cast hc
        have : Odd (n : ℤ) := ⟨c, this⟩
        exact_mod_cast this
      · rintro ⟨c, hc⟩
        exact ⟨c, by rw [hc]; push_cast; ring⟩
    have hint : y.isInt = true := by
      unfold F64.isInt
      simp only [decide_eq_true_eq]
      exact ⟨n, by rw [hn]; simp⟩
    rw [hys, hint]
    simp only [Bool.false_eq_true, if_false, Bool.not_true, Bool.and_false]
    by_cases hx0 : x.isZero = true
    · rw [if_pos hx0]
      have hv := isZero_iff.1 hx0
      have : ∀ s, (zero s).Finite ∧ (zero s).val = 0 := fun s => by
        unfold zero val
        refine ⟨?_, ?_⟩
        · show F64.absBits _ < _
          rw [absBits_mk' _ (by norm_num)]; unfold infBits; norm_num
        · rw [absBits_mk' _ (by norm_num), sign_mk' _ (by norm_num), mag_zero]; simp
      split
      · exact ⟨(this _).1, by rw [(this _).2, hv, zero_pow hn0, sub_zero, abs_zero, zero_pow hn0]; rwa [hv, abs_zero, zero_pow hn0] at hpos⟩
      · exact ⟨(this _).1, by rw [(this _).2, hv, zero_pow hn0, sub_zero, abs_zero, zero_pow hn0]; rwa [hv, abs_zero, zero_pow hn0] at hpos⟩
    · rw [if_neg hx0, hn, Real.rpow_natCast]
      have hneg : (if (x.sign && y.isOdd) = true then -|x.val| ^ n else |x.val| ^ n) = x.val ^ n := by
        rw [hodd]
        by_cases hs : x.sign = true
        · have hv : x.val = -mag x.absBits := by unfold val; rw [if_pos hs]
          have hv2 : |x.val| = -x.val := abs_of_nonpos (by rw [hv]; linarith [mag_nonneg x.absBits])
          rw [hs, hv2]
          by_cases ho : Odd n
          · simp only [Bool.true_and, decide_eq_true ho, if_true]
            rw [ho.neg_pow, neg_neg]
          · simp only [Bool.true_and, decide_eq_false ho, Bool.false_eq_true, if_false]
            rw [(Nat.not_odd_iff_even.1 ho).neg_pow]
        · have hv : x.val = mag x.absBits := by unfold val; rw [if_neg hs]
          rw [abs_of_nonneg (by rw [hv]; exact mag_nonneg _)]
          simp [hs]
      rw [hneg]
      have hf : (F64.round false (x.val ^ n)).Finite := round_finite (by rw [abs_pow]; exact hb.trans two_pow_le_big)
      refine ⟨hf, (round_err hf).trans ?_⟩
      rw [abs_pow]; linarith


/-- A small integer, without error. -/
def ExI (a : Iv) (n : ℤ) : Prop := a.X = n ∧ a.e = 0 ∧ a.ok

section Exact
variable [PowErr]

theorem rnd_int {X h : ℝ} {p : Prop} {n : ℤ} (hX : X = n) (hh : h = 0) (hp : p) (hn : |n| ≤ 1000) : ExI (Iv.rnd X h p) n := by
  let _ := Libm.rounded
  subst hX hh
  have hi : IsF64 (n : ℝ) := by
    obtain ⟨h1, h2⟩ := ofInt_f64 n (hn.trans (by norm_num))
    exact ⟨_, h2, h1⟩
  refine ⟨rfl, if_pos ⟨rfl, hi⟩, hp, ?_⟩
  have : |(n : ℝ)| ≤ 1000 := by exact_mod_cast hn
  have := big_large
  linarith

theorem exI_ofInt {n : ℤ} (hn : |n| ≤ 1000) : ExI (Flt.ofInt n) n := rnd_int rfl rfl trivial hn

theorem ExI.add {a b : Iv} {n k : ℤ} (ha : ExI a n) (hb : ExI b k) (h : |n + k| ≤ 1000) : ExI (a +. b) (n + k) :=
  rnd_int (by rw [ha.1, hb.1]; push_cast; rfl) (by rw [ha.2.1, hb.2.1]; simp) ⟨ha.2.2, hb.2.2⟩ h

theorem ExI.sub {a b : Iv} {n k : ℤ} (ha : ExI a n) (hb : ExI b k) (h : |n - k| ≤ 1000) : ExI (a -. b) (n - k) :=
  rnd_int (by rw [ha.1, hb.1]; push_cast; rfl) (by rw [ha.2.1, hb.2.1]; simp) ⟨ha.2.2, hb.2.2⟩ h

theorem ExI.mul {a b : Iv} {n k : ℤ} (ha : ExI a n) (hb : ExI b k) (h : |n * k| ≤ 1000) : ExI (a *. b) (n * k) :=
  rnd_int (by rw [ha.1, hb.1]; push_cast; rfl) (by rw [ha.2.1, hb.2.1]; simp) ⟨ha.2.2, hb.2.2⟩ h

theorem ExI.div_one {a b : Iv} {n : ℤ} (ha : ExI a n) (hb : ExI b 1) (h : |n| ≤ 1000) : ExI (a /. b) n :=
  rnd_int (by rw [ha.1, hb.1]; simp) (by rw [ha.2.1, hb.2.1]; simp) ⟨ha.2.2, hb.2.2, by rw [hb.1, hb.2.1]; norm_num⟩ h

theorem ExI.relu {a : Iv} {n : ℤ} (ha : ExI a n) (h : 0 < n) : ExI (Flt.max a Flt.zero) n := by
  obtain ⟨z1, z2, z3⟩ := exI_ofInt (n := 0) (by norm_num)
  obtain ⟨a1, a2, a3⟩ := ha
  have h' : (0 : ℝ) < n := by exact_mod_cast h
  refine ⟨?_, ?_, a3, z3⟩
  · change Max.max a.X (Flt.zero : Iv).X = n
    rw [z1, a1, max_eq_left (by push_cast; linarith)]
  · change (if a.X + a.e < (Flt.zero : Iv).X - (Flt.zero : Iv).e then (Flt.zero : Iv).e
      else if (Flt.zero : Iv).X + (Flt.zero : Iv).e < a.X - a.e then a.e else Max.max a.e (Flt.zero : Iv).e) = 0
    rw [z1, z2, a1, a2]
    simp

theorem ExI.iv [Libm] {n : ℤ} (hn : |n| ≤ 1000) : ExI (Flt.ofInt n : F64).iv n := by
  obtain ⟨h1, h2⟩ := ofInt_f64 n (hn.trans (by norm_num))
  exact ⟨h1, rfl, h2⟩

theorem ExI.sure {a b : Iv} {n k : ℤ} (ha : ExI a n) (hb : ExI b k) : Sure a b := ⟨ha.2.2, hb.2.2, .inr ⟨ha.2.1, hb.2.1⟩⟩

end Exact

theorem rnd_le (X h : ℝ) (p : Prop) (h0 : 0 ≤ h) : (Iv.rnd X h p).e ≤ h + ueps * (|X| + h) + tiny := by
  unfold Iv.rnd
  dsimp only
  split
  · have := ueps_pos
    have := tiny_pos
    positivity
  · exact le_rfl

/-- C144_fit: one RELU unit with weight 3 and bias 1, trained on the sample (2, 1) with mean squared error and SGD at a learning rate near 1/10.
The analysis goes through, and the weight 3 - 24·rate is found up to 10^-6. -/
example [Libm] [PowErr] (rate : F64) (hr : rate.Finite) (hr1 : |rate.val| ≤ 1) : ∃ (w : World F64) (m : Model F64) (net : Net F64) (op : Nat → Nat) (S : Nat → OptSpec F64) (X Y : Mat)
    (A B : Nat → Nat → F64) (mI : Model Iv) (T : Net Iv) (S' : Nat → OptSpec Iv) (p' : Nat), Trains w m net op S .mse X Y 1 A B ∧
    (∀ i, i < net.size → (S i).kind = .adam → PowAcc) ∧ mI.lossType = m.lossType ∧
    SafeDescent mI .mse (fun q => (w.unif q).iv) (fun i j => (A i j).iv) (fun i j => (B i j).iv) (net.map F64.iv) (fun i => (S i).map F64.iv)
      w.unifPos (List.replicate (1 : Int).toNat (blocks 1 0)).flatten T S' p' ∧
    ((T.L 0).W 0 0).ok ∧ ((T.L 0).W 0 0).X = 3 - 24 * rate.val ∧ ((T.L 0).W 0 0).e ≤ 1 / 10 ^ 6 := by
  let o : Optim F64 := { (Optim.zero .sgd : Optim F64) with learningRate := rate, decay := Flt.ofInt 0, momentum := Flt.ofInt 0 }
  let L : Nat → LayerSpec F64 := fun _ => ⟨.hidden, 1, 1, fun _ _ => Flt.ofInt 3, fun _ => Flt.ofInt 1, Flt.ofInt 0, Flt.ofInt 0⟩
  obtain ⟨w, net, op, XM, YM, xM, yM, -, hs, hL, hdim, hT, dX, dY, -, -⟩ := exists_task (emptyWorld : World F64) 1 (by decide) L
    (fun i => ⟨Nat.one_pos, Nat.one_pos⟩) (fun i => rfl) { newModel with loss := some ⟨.mse, (L 1).n⟩ } (optFrom o)
    (OptSpec.fresh (optFrom o)) rfl (fun w p i hlt e => isOpt_from _ _ _ _ hlt e) (r := 1) (r' := 1) (by decide) (by decide)
    (fun i j => Flt.ofInt 2) (fun i j => Flt.ofInt 1) (fun _ _ => Flt.ofInt 1) (fun _ _ => Flt.ofInt 1)
  obtain ⟨size, dim, lp, wm, bm, NL⟩ := net
  subst hs hL hdim
  have d0 : (L 0).n = 1 := rfl
  let net : Net F64 := ⟨1, fun i => (L i).n, lp, wm, bm, L⟩
  let mI : Model Iv := newModel
  let V := trainVals (net.map F64.iv) 1 (fun q => (w.unif (w.unifPos + q)).iv) fun _ _ => (Flt.ofInt 2 : F64).iv
  obtain ⟨G, D, hG⟩ := exists_netGrad mI (net.map F64.iv) .mse 1 V
    (fun k => dropBits ((net.map F64.iv).L k) fun q => (w.unif (w.unifPos + (dropDraws (net.map F64.iv) 1 k + q))).iv) (fun _ _ => (Flt.ofInt 1 : F64).iv)
  have hF : ¬ Fused mI (net.map F64.iv) := by rintro ⟨h, -⟩; cases h
  have hV1 : ∀ i j, ExI (V 1 i j) 7 := fun i j => by
    have hp : ExI (preact ((net.map F64.iv).L 0) (V 0) i j) 7 := by
      have := (((exI_ofInt (n := 0) (by norm_num)).add ((ExI.iv (n := 2) (by norm_num)).mul (ExI.iv (n := 3) (by norm_num)) (by norm_num)) (by norm_num)).add
        (ExI.iv (n := 1) (by norm_num)) (by norm_num))
      exact this
    exact hp.relu (by norm_num)
  obtain ⟨g1, g2⟩ := hG.plain hF
  have hD1 : ∀ i j, ExI (D 1 i j) 12 := fun i j => by
    have e : D 1 = lossGrad .mse 1 1 (V 1) fun _ _ => (Flt.ofInt 1 : F64).iv := g1
    rw [e]
    exact ((hV1 i j).sub (ExI.iv (n := 1) (by norm_num)) (by norm_num)).mul
      ((exI_ofInt (n := 2) (by norm_num)).div_one (exI_ofInt (n := 1) (by norm_num)) (by norm_num)) (by norm_num)
  have hG0 : ∀ i j, ExI (G 0 i j) 12 := fun i j => by
    have e : G 0 i j = if Flt.le (V 1 i j) Flt.zero then Flt.zero else D 1 i j := by rw [g2.act 0 Nat.one_pos]; rfl
    have hle : Flt.le (V 1 i j) (Flt.zero : Iv) = false := by
      change decide ((V 1 i j).X ≤ (Flt.zero : Iv).X) = false
      rw [(hV1 i j).1, (exI_ofInt (n := 0) (by norm_num)).1]; norm_num
    rw [e, hle]
    exact hD1 i j
  have hW : ExI (gradW 1 (V 0) (G 0) 0 0) 24 :=
    (exI_ofInt (n := 0) (by norm_num)).add ((ExI.iv (n := 2) (by norm_num)).mul (hG0 0 0) (by norm_num)) (by norm_num)
  have hz : Flt.eq (Flt.ofInt 0 : F64).iv (Flt.zero : Iv) = true := by
    change decide ((Flt.ofInt 0 : F64).iv.X = (Flt.zero : Iv).X) = true
    rw [(ExI.iv (n := 0) (by norm_num)).1, (exI_ofInt (n := 0) (by norm_num)).1]; simp
  let S0 : OptSpec Iv := (OptSpec.fresh (optFrom o)).map F64.iv
  have hup : S0.newW (fun _ _ => (Flt.ofInt 3 : F64).iv) (gradW 1 (V 0) (G 0)) 0 0 =
      (Flt.ofInt 3 : F64).iv -. gradW 1 (V 0) (G 0) 0 0 *. rate.iv := by
    have e1 : S0.rate = rate.iv := if_pos hz
    unfold OptSpec.newW OptSpec.upd
    rw [e1]
    exact if_pos hz
  refine ⟨w, _, net, op, fun _ => OptSpec.fresh (optFrom o), XM, YM, _, _, mI, stepNet (net.map F64.iv) (fun _ => S0) 1 V G, stepOpts (fun _ => S0) 1 V G, w.unifPos + dropDraws (net.map F64.iv) 1 1,
    ⟨hT, rfl, fun i _ => (by show LayerKind.hidden ≠ .sigmoid; decide), dX, dY⟩, (fun i _ hk => by cases hk), rfl, ?_, ?_⟩
  · refine SafeDescent.step (bs := []) (b := (0, 1)) SafeDescent.start ?_ ⟨G, D, hG, rfl, rfl⟩
    have hk : ∀ k, ((net.map F64.iv).L k).kind = .hidden := fun _ => rfl
    refine ⟨fun k _ h => ?_, fun k _ h => ?_, fun k hk1 _ i j hi hj => ?_, fun h => ?_, fun h => ?_, fun h => ?_⟩
    · rw [hk] at h; cases h
    · rw [hk] at h; cases h
    · have hk1 : k < 1 := hk1
      obtain rfl : k = 0 := by omega
      rw [if_pos ⟨rfl, hF⟩]
      exact (hV1 i j).sure (exI_ofInt (n := 0) (by norm_num))
    · cases h
    · cases h
    · exact absurd h hF
  · change (S0.newW (fun _ _ => (Flt.ofInt 3 : F64).iv) (gradW 1 (V 0) (G 0)) 0 0).ok ∧
      (S0.newW (fun _ _ => (Flt.ofInt 3 : F64).iv) (gradW 1 (V 0) (G 0)) 0 0).X = 3 - 24 * rate.val ∧
      (S0.newW (fun _ _ => (Flt.ofInt 3 : F64).iv) (gradW 1 (V 0) (G 0)) 0 0).e ≤ 1 / 10 ^ 6
    rw [hup]
    obtain ⟨a1, a2, a3⟩ := ExI.iv (n := 3) (by norm_num)
    obtain ⟨b1, b2, b3⟩ := hW
    have hb := big_large
    have hu := ueps_pos
    have ht := tiny_pos
    have hu1 : ueps ≤ 1 / 10 ^ 12 := by unfold ueps; norm_num
    have ht1 : tiny ≤ 1 / 10 ^ 12 := by
      unfold tiny
      calc (2 : ℝ) ^ (-1075 : ℤ) ≤ 2 ^ (-60 : ℤ) := zpow_le_zpow_right₀ (by norm_num) (by norm_num)
        _ ≤ _ := by norm_num
    -- the product with the learning rate
    generalize gradW 1 (V 0) (G 0) 0 0 = g at b1 b2 b3
    have p1 : (g *. rate.iv).X = 24 * rate.val := by change g.X * rate.val = _; rw [b1]; norm_num
    have hh : |g.X| * rate.iv.e + |rate.iv.X| * g.e + g.e * rate.iv.e = 0 := by rw [b2]; change |g.X| * 0 + _ * 0 + 0 * 0 = (0 : ℝ); ring
    have hsz : |24 * rate.val| ≤ 24 := by rw [abs_mul]; norm_num; linarith
    have p2 : (g *. rate.iv).ok := ⟨⟨b3, hr⟩, by
      rw [hh]
      change |(g *. rate.iv).X| + 0 ≤ big
      rw [p1]; linarith⟩
    have p3 : (g *. rate.iv).e ≤ 1 / 10 ^ 9 := by
      refine (rnd_le (g.X * rate.iv.X) (|g.X| * rate.iv.e + |rate.iv.X| * g.e + g.e * rate.iv.e) (g.ok ∧ rate.iv.ok) hh.ge).trans ?_
      rw [hh]
      change 0 + ueps * (|(g *. rate.iv).X| + 0) + tiny ≤ _
      rw [p1]
      have : ueps * |24 * rate.val| ≤ 1 / 10 ^ 12 * 24 := mul_le_mul hu1 hsz (abs_nonneg _) (by norm_num)
      norm_num at this ⊢
      norm_num at ht1
      linarith
    have p4 : 0 ≤ (g *. rate.iv).e := by
      change 0 ≤ (Iv.rnd _ _ _).e
      unfold Iv.rnd
      dsimp only
      rw [hh]
      split
      · exact le_rfl
      · positivity
    generalize g *. rate.iv = q at p1 p2 p3 p4
    have s1 : ((Flt.ofInt 3 : F64).iv -. q).X = 3 - 24 * rate.val := by
      change (Flt.ofInt 3 : F64).iv.X - q.X = _
      rw [a1, p1]; norm_num
    have hsz2 : |3 - 24 * rate.val| ≤ 27 := by
      refine (abs_sub _ _).trans ?_
      norm_num
      norm_num at hsz
      linarith
    have p3' : q.e ≤ 1 := p3.trans (by norm_num)
    refine ⟨⟨⟨a3, p2⟩, ?_⟩, s1, ?_⟩
    · change |((Flt.ofInt 3 : F64).iv -. q).X| + ((Flt.ofInt 3 : F64).iv.e + q.e) ≤ big
      rw [s1, a2]
      linarith
    · refine (rnd_le _ _ _ (by rw [a2]; linarith)).trans ?_
      change (Flt.ofInt 3 : F64).iv.e + q.e + ueps * (|((Flt.ofInt 3 : F64).iv -. q).X| + ((Flt.ofInt 3 : F64).iv.e + q.e)) + tiny ≤ _
      rw [s1, a2]
      have : ueps * (|3 - 24 * rate.val| + (0 + q.e)) ≤ 1 / 10 ^ 12 * 28 := mul_le_mul hu1 (by linarith) (by positivity) (by norm_num)
      norm_num at this p3 ht1 ⊢
      linarith

end NN
