import Verif.Props.C101_C102
/- Property C103: the steps of Adam are bounded, whatever the gradients. -/

set_option linter.unusedSectionVars false

namespace NN
open Go Finset

/-- Hyper-parameters of Adam in the usual range. -/
structure AdamOk (S : OptSpec ℝ) : Prop where
  kind : S.kind = .adam
  lr : 0 ≤ S.lr
  decay : 0 ≤ S.decay
  eps : 0 < S.epsilon
  b1 : 0 ≤ S.beta1
  b1lt : S.beta1 < 1
  b2 : S.beta2 < 1
  ratio : S.beta1 ^ 2 < S.beta2

/-- The constant in the bound: a step is at most the learning rate times this. -/
noncomputable def adamBound (b1 b2 : ℝ) : ℝ := Real.sqrt ((1 - b1) / ((1 - b2) * (1 - b1 ^ 2 / b2)))

/-- The square of the first moment is at most this times the second moment. -/
noncomputable def momentRatio (b1 b2 : ℝ) : ℝ := (1 - b1) ^ 2 / ((1 - b2) * (1 - b1 ^ 2 / b2))

theorem AdamOk.b2pos {S : OptSpec ℝ} (h : AdamOk S) : 0 < S.beta2 := lt_of_le_of_lt (sq_nonneg _) h.ratio

theorem AdamOk.ratio_lt {S : OptSpec ℝ} (h : AdamOk S) : S.beta1 ^ 2 / S.beta2 < 1 := (div_lt_one h.b2pos).2 h.ratio

theorem AdamOk.ratio_pos {S : OptSpec ℝ} (h : AdamOk S) : 0 < momentRatio S.beta1 S.beta2 := by
  have := h.ratio_lt
  have := h.b2
  have := h.b1lt
  unfold momentRatio
  refine div_pos (pow_pos (by linarith) 2) (mul_pos (by linarith) (by linarith))

theorem AdamOk.vel {S : OptSpec ℝ} (h : AdamOk S) (v g : ℝ) : S.vel v g = v * S.beta1 + g * (1 - S.beta1) := by
  unfold OptSpec.vel
  rw [h.kind]
  simp [Flt.one]

theorem AdamOk.cache {S : OptSpec ℝ} (h : AdamOk S) (c g : ℝ) : S.cache c g = c * S.beta2 + g ^ 2 * (1 - S.beta2) := by
  unfold OptSpec.cache
  rw [h.kind]
  simp only [Flt.one, real_mul, real_add, real_sub, real_ofInt]
  have : (Flt.pow g ((2 : Int) : ℝ) : ℝ) = g ^ 2 := by
    show g ^ (((2 : Int) : ℝ)) = _
    rw [show ((2 : Int) : ℝ) = ((2 : Nat) : ℝ) by norm_num, Real.rpow_natCast]
  rw [this]
  simp

/-- (a + b)² ≤ a²/l + b²/(1-l). -/
theorem sq_add_le {a b l : ℝ} (h0 : 0 < l) (h1 : l < 1) : (a + b) ^ 2 ≤ a ^ 2 / l + b ^ 2 / (1 - l) := by
  have h2 : 0 < 1 - l := by linarith
  rw [div_add_div _ _ h0.ne' h2.ne', le_div_iff₀ (mul_pos h0 h2)]
  nlinarith [sq_nonneg (a * (1 - l) - b * l)]

/-- The moments stay related. -/
theorem AdamOk.moments {S : OptSpec ℝ} (h : AdamOk S) {v c : ℝ} (hc : 0 ≤ c) (hv : v ^ 2 ≤ momentRatio S.beta1 S.beta2 * c) (g : ℝ) :
    0 ≤ S.cache c g ∧ S.vel v g ^ 2 ≤ momentRatio S.beta1 S.beta2 * S.cache c g := by
  have h2 := h.b2pos
  have h3 := h.b2
  have h4 := h.ratio_lt
  have hK := h.ratio_pos
  rw [h.vel, h.cache]
  refine ⟨add_nonneg (mul_nonneg hc h2.le) (mul_nonneg (sq_nonneg _) (by linarith)), ?_⟩
  have hKb : momentRatio S.beta1 S.beta2 * (1 - S.beta2) = (1 - S.beta1) ^ 2 / (1 - S.beta1 ^ 2 / S.beta2) := by
    unfold momentRatio
    have : 1 - S.beta2 ≠ 0 := by linarith
    have : 1 - S.beta1 ^ 2 / S.beta2 ≠ 0 := by linarith
    field_simp
  rw [mul_add, show momentRatio S.beta1 S.beta2 * (g ^ 2 * (1 - S.beta2)) = g ^ 2 * (momentRatio S.beta1 S.beta2 * (1 - S.beta2)) by ring, hKb]
  rcases h.b1.eq_or_lt with hb | hb
  · rw [← hb]
    have : 0 ≤ momentRatio S.beta1 S.beta2 * (c * S.beta2) := by positivity
    rw [← hb] at this
    norm_num
    nlinarith
  · have hl : 0 < S.beta1 ^ 2 / S.beta2 := div_pos (pow_pos hb 2) h2
    have h5 := sq_add_le (a := v * S.beta1) (b := g * (1 - S.beta1)) hl h4
    have h6 : (v * S.beta1) ^ 2 / (S.beta1 ^ 2 / S.beta2) = v ^ 2 * S.beta2 := by
      have : S.beta1 ≠ 0 := hb.ne'
      field_simp
    have h7 : (g * (1 - S.beta1)) ^ 2 / (1 - S.beta1 ^ 2 / S.beta2) = g ^ 2 * ((1 - S.beta1) ^ 2 / (1 - S.beta1 ^ 2 / S.beta2)) := by
      rw [mul_pow, mul_div_assoc]
    rw [h6, h7] at h5
    have h8 : v ^ 2 * S.beta2 ≤ momentRatio S.beta1 S.beta2 * (c * S.beta2) := by nlinarith
    linarith

theorem AdamOk.rate {S : OptSpec ℝ} (h : AdamOk S) : 0 ≤ S.rate ∧ S.rate ≤ S.lr := by
  unfold OptSpec.rate
  split
  · exact ⟨h.lr, le_rfl⟩
  · have h1 : (0 : ℝ) ≤ S.decay * S.t := mul_nonneg h.decay (Nat.cast_nonneg _)
    have e : (S.lr *. (Flt.one /. (Flt.one +. S.decay *. Flt.ofInt S.t)) : ℝ) = S.lr * (1 / (1 + S.decay * S.t)) := by simp [Flt.one]
    rw [e]
    have h2 : 1 / (1 + S.decay * S.t) ≤ 1 := (div_le_one (by linarith)).2 (by linarith)
    have h3 : 0 ≤ 1 / (1 + S.decay * S.t) := div_nonneg zero_le_one (by linarith)
    exact ⟨mul_nonneg h.lr h3, by nlinarith [h.lr]⟩

theorem AdamOk.corr {S : OptSpec ℝ} (h : AdamOk S) : 0 < S.corr ∧ S.corr ≤ 1 / (1 - S.beta1) := by
  have e : S.corr = 1 / (1 - S.beta1 ^ (S.t + 1)) := by
    unfold OptSpec.corr
    have : (Flt.pow S.beta1 (Flt.ofInt ((S.t : Int) + 1)) : ℝ) = S.beta1 ^ (S.t + 1) := by
      show S.beta1 ^ ((((S.t : Int) + 1 : Int)) : ℝ) = _
      rw [show (((S.t : Int) + 1 : Int) : ℝ) = ((S.t + 1 : Nat) : ℝ) by push_cast; ring, Real.rpow_natCast]
    rw [this]
    simp [Flt.one]
  have h1 : S.beta1 ^ (S.t + 1) ≤ S.beta1 := by
    rw [pow_succ]
    nlinarith [pow_le_one₀ (n := S.t) h.b1 h.b1lt.le, pow_nonneg h.b1 S.t, h.b1]
  have h2 := h.b1lt
  rw [e]
  exact ⟨div_pos one_pos (by linarith), one_div_le_one_div_of_le (by linarith) (by linarith)⟩

theorem adamBound_sq {S : OptSpec ℝ} (h : AdamOk S) : Real.sqrt (momentRatio S.beta1 S.beta2 * (1 / (1 - S.beta1))) = adamBound S.beta1 S.beta2 := by
  have h1 : 1 - S.beta1 ≠ 0 := by have := h.b1lt; linarith
  unfold momentRatio adamBound
  congr 1
  field_simp

/-- One update moves a parameter by at most the learning rate times a constant. -/
theorem AdamOk.upd {S : OptSpec ℝ} (h : AdamOk S) {v c : ℝ} (hc : 0 ≤ c) (hv : v ^ 2 ≤ momentRatio S.beta1 S.beta2 * c) (x g : ℝ) :
    |S.upd x v c g - x| ≤ S.lr * adamBound S.beta1 S.beta2 := by
  obtain ⟨m1, m2⟩ := h.moments hc hv g
  obtain ⟨c1, c2⟩ := h.corr
  obtain ⟨r1, r2⟩ := h.rate
  have hK := h.ratio_pos
  have e : S.upd x v c g - x = -(S.rate * ((S.vel v g * S.corr) / (Real.sqrt (S.cache c g * S.corr) + S.epsilon))) := by
    unfold OptSpec.upd
    rw [h.kind]
    simp only [real_add, real_mul, real_div, real_neg]
    show x + -S.rate * (S.vel v g * S.corr) / (Real.sqrt (S.cache c g * S.corr) + S.epsilon) - x = _
    ring
  have hs0 := Real.sqrt_nonneg (S.cache c g * S.corr)
  have hs1 := Real.sq_sqrt (mul_nonneg m1 c1.le)
  rw [e, abs_neg, abs_mul, abs_of_nonneg r1]
  generalize Real.sqrt (S.cache c g * S.corr) = s at *
  have hq : |S.vel v g * S.corr| ≤ adamBound S.beta1 S.beta2 * s := by
    rw [← adamBound_sq h]
    refine abs_le_of_sq_le_sq ?_ (mul_nonneg (Real.sqrt_nonneg _) hs0)
    rw [mul_pow, mul_pow, hs1, Real.sq_sqrt (mul_nonneg hK.le (by have := h.b1lt; exact div_nonneg zero_le_one (by linarith)))]
    generalize S.cache c g = C at *
    generalize S.corr = k at *
    generalize 1 / (1 - S.beta1) = d at *
    generalize momentRatio S.beta1 S.beta2 = K at *
    have h1 : S.vel v g ^ 2 * k ^ 2 ≤ K * C * k ^ 2 := by
      exact mul_le_mul_of_nonneg_right m2 (sq_nonneg _)
    have h2 : K * C * k * k ≤ K * C * k * d := mul_le_mul_of_nonneg_left c2 (by positivity)
    nlinarith
  have hB : 0 ≤ adamBound S.beta1 S.beta2 := Real.sqrt_nonneg _
  have hd : |S.vel v g * S.corr / (s + S.epsilon)| ≤ adamBound S.beta1 S.beta2 := by
    have hp : 0 < s + S.epsilon := by have := h.eps; linarith
    rw [abs_div, abs_of_pos hp, div_le_iff₀ hp]
    have := mul_nonneg hB h.eps.le
    nlinarith
  exact mul_le_mul r2 hd (abs_nonneg _) h.lr

/-- The second moments are not negative, and the first moments are small compared to them. -/
structure Moments (S : OptSpec ℝ) : Prop where
  w : ∀ i j, 0 ≤ S.cw i j ∧ S.vw i j ^ 2 ≤ momentRatio S.beta1 S.beta2 * S.cw i j
  b : ∀ i j, 0 ≤ S.cb i j ∧ S.vb i j ^ 2 ≤ momentRatio S.beta1 S.beta2 * S.cb i j

theorem Descent.adam {m : Model ℝ} {loss : LossKind} {u : Nat → ℝ} {X Y : Nat → Nat → ℝ} {net : Net ℝ} {S : Nat → OptSpec ℝ} {p0 : Nat}
    {bs : List (Nat × Nat)} {net' : Net ℝ} {S' : Nat → OptSpec ℝ} {p' : Nat} (h : Descent m loss u X Y net S p0 bs net' S' p') {k : Nat}
    (hS : AdamOk (S k)) (hM : Moments (S k)) :
    AdamOk (S' k) ∧ Moments (S' k) ∧ (S' k).lr = (S k).lr ∧ (S' k).beta1 = (S k).beta1 ∧ (S' k).beta2 = (S k).beta2 ∧
      (∀ i j, |(net'.L k).W i j - (net.L k).W i j| ≤ bs.length * ((S k).lr * adamBound (S k).beta1 (S k).beta2)) ∧
      ∀ j, |(net'.L k).b j - (net.L k).b j| ≤ bs.length * ((S k).lr * adamBound (S k).beta1 (S k).beta2) := by
  induction h with
  | start => exact ⟨hS, hM, rfl, rfl, rfl, fun i j => by simp, fun j => by simp⟩
  | @step bs b net1 net2 S1 S2 p1 _ hst ih =>
    obtain ⟨i1, i2, e1, e2, e3, i3, i4⟩ := ih
    obtain ⟨G, D, hG, rfl, rfl⟩ := hst
    have tri : ∀ {x y z B : ℝ}, |x - y| ≤ B → |y - z| ≤ bs.length * B → |x - z| ≤ ((bs ++ [b]).length : ℝ) * B := by
      intro x y z B h1 h2
      have := abs_sub_le x y z
      rw [List.length_append, List.length_singleton]
      push_cast
      linarith
    rw [← e1, ← e2, ← e3] at i3 i4 ⊢
    refine ⟨⟨i1.kind, i1.lr, i1.decay, i1.eps, i1.b1, i1.b1lt, i1.b2, i1.ratio⟩, ⟨fun i j => ?_, fun i j => ?_⟩, rfl, rfl, rfl,
      fun i j => ?_, fun j => ?_⟩
    · exact i1.moments (i2.w i j).1 (i2.w i j).2 _
    · exact i1.moments (i2.b i j).1 (i2.b i j).2 _
    · exact tri (i1.upd (i2.w i j).1 (i2.w i j).2 _ _) (i3 i j)
    · exact tri (i1.upd (i2.b 0 j).1 (i2.b 0 j).2 _ _) (i4 j)

/-- C103: Fit with Adam moves every weight and every bias by at most (number of batches) × (learning rate) × `adamBound`, whatever the data,
the labels and the loss: no gradient, however large, can do more. -/
theorem C103_fit (w : World ℝ) (m : Model ℝ) (net : Net ℝ) (op : Nat → Nat) (S : Nat → OptSpec ℝ) (loss : Loss) (X Y xv yv : Mat) (n : Nat)
    (A B : Nat → Nat → ℝ) (h : FitArgs w m net op S loss X Y n A B) (k : Nat) (hS : AdamOk (S k)) (hM : Moments (S k))
    (epochs : Int) (b : Nat) (hbig : n + b ≤ 2 ^ 53) :
    wp (fit m X Y epochs b xv yv 0) w (fun e w' => e = none ∧ ∃ net' S', IsTask w' m net' op S' ∧ SameShape net net' ∧ Moments (S' k) ∧
      (∀ i j, |(net'.L k).W i j - (net.L k).W i j| ≤
        epochs.toNat * (blocks n b).length * ((S k).lr * adamBound (S k).beta1 (S k).beta2)) ∧
      ∀ j, |(net'.L k).b j - (net.L k).b j| ≤ epochs.toNat * (blocks n b).length * ((S k).lr * adamBound (S k).beta1 (S k).beta2)) := by
  refine wp_mono (C70_fit w m net op S h.task h.noSigmoid loss h.loss_eq h.loss_size X Y xv yv n A B h.x h.y h.xcap h.ycap h.xsep h.ysep
    epochs b hbig) ?_
  rintro e w' ⟨rfl, net', S', hD, hT', hsh, -⟩
  obtain ⟨-, h2, -, -, -, h3, h4⟩ := hD.adam hS hM
  have hlen : (((List.replicate epochs.toNat (blocks n b)).flatten.length : Nat) : ℝ) = epochs.toNat * (blocks n b).length := by
    rw [List.length_flatten]
    simp
  rw [hlen] at h3 h4
  exact ⟨rfl, net', S', hT', hsh, h2, h3, h4⟩

/-- The first update of a fresh Adam moves a parameter with gradient g ≠ 0 by lr √((1-β1)/(1-β2)) if ε is neglected: the bound is of the
right size (for the usual β1 = 9/10 and β2 = 999/1000 the first step is 10 times the learning rate). -/
theorem C103_first {S : OptSpec ℝ} (h : AdamOk S) (ht : S.t = 0) (hd : S.decay = 0) {g : ℝ} (hg : g ≠ 0) (x : ℝ) :
    |S.upd x 0 0 g - x| = S.lr * |g| / (Real.sqrt ((1 - S.beta2) / (1 - S.beta1)) * |g| + S.epsilon) := by
  have hb1 := h.b1lt
  have hb2 := h.b2
  have e1 : S.corr = 1 / (1 - S.beta1) := by
    unfold OptSpec.corr
    rw [ht]
    simp [Flt.one]
  have e2 : S.rate = S.lr := by
    unfold OptSpec.rate
    rw [hd]
    simp [Flt.zero]
  have e3 : S.vel 0 g * S.corr = g := by
    rw [h.vel, e1]
    have : 1 - S.beta1 ≠ 0 := by linarith
    field_simp
    ring
  have e4 : Real.sqrt (S.cache 0 g * S.corr) = Real.sqrt ((1 - S.beta2) / (1 - S.beta1)) * |g| := by
    rw [h.cache, e1, ← Real.sqrt_sq_eq_abs, ← Real.sqrt_mul (div_nonneg (by linarith) (by linarith))]
    congr 1
    ring
  have e : S.upd x 0 0 g - x = -(S.rate * ((S.vel 0 g * S.corr) / (Real.sqrt (S.cache 0 g * S.corr) + S.epsilon))) := by
    unfold OptSpec.upd
    rw [h.kind]
    simp only [real_add, real_mul, real_div, real_neg]
    show x + -S.rate * (S.vel 0 g * S.corr) / (Real.sqrt (S.cache 0 g * S.corr) + S.epsilon) - x = _
    ring
  have hp : 0 < Real.sqrt ((1 - S.beta2) / (1 - S.beta1)) * |g| + S.epsilon := by
    have := h.eps
    positivity
  rw [e, e3, e4, e2, abs_neg, abs_mul, abs_div, abs_of_pos hp, abs_of_nonneg h.lr, mul_div_assoc]

/-- C103_fit: three layers with a fresh Adam. -/
example : ∃ (w : World ℝ) (m : Model ℝ) (net : Net ℝ) (op : Nat → Nat) (S : Nat → OptSpec ℝ) (loss : Loss) (X Y : Mat) (A B : Nat → Nat → ℝ),
    FitArgs w m net op S loss X Y 5 A B ∧ net.size = 3 ∧ AdamOk (S 1) ∧ Moments (S 1) := by
  obtain ⟨w, m, net, op, o, X, Y, h, hs, -, ho⟩ := exists_fitArgs 3 (by decide)
    (fun i => ⟨if i = 1 then .hidden else .linear, if i = 0 then 2 else 4, 4, fun i j => (i : ℝ) + j, fun j => (j : ℝ), 0, 0⟩)
    (fun i => ⟨by dsimp only; split <;> decide, by norm_num⟩) (fun i => by simp) (fun i => by dsimp only; split <;> decide)
    (fun i j => (i : ℝ) + j) (fun i j => (i : ℝ) - j)
  have ho := newAdam_ok ho
  subst ho
  have z : (Flt.zero : ℝ) = 0 := zero_real
  refine ⟨w, m, net, op, _, _, X, Y, _, _, h, hs, ⟨rfl, ?_, ?_, ?_, ?_, ?_, ?_, ?_⟩, ⟨fun i j => ?_, fun i j => ?_⟩⟩
  all_goals dsimp only [OptSpec.fresh]
  all_goals first | norm_num; done | (rw [z]; norm_num)

/-- C103_first: the usual parameters of Adam. -/
example : ∃ S : OptSpec ℝ, AdamOk S ∧ S.t = 0 ∧ S.decay = 0 :=
  ⟨⟨.adam, 1 / 1000, 0, 0, 1 / 10 ^ 7, 9 / 10, 999 / 1000, 0, fun _ _ => 0, fun _ _ => 0, fun _ _ => 0, fun _ _ => 0⟩,
    ⟨rfl, by norm_num, by norm_num, by norm_num, by norm_num, by norm_num, by norm_num, by norm_num⟩, rfl, rfl⟩

end NN
