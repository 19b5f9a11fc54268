import Verif.Props.C88_C91
/- Property C94: Adam on float64 with beta1 = 1 or epsilon = 0. -/

set_option linter.unusedSectionVars false

namespace NN
open Go F64

namespace F64

/-- NaN or infinite -/
def Wild [Libm] (x : F64) : Prop := x.isNaN = true ∨ x.isInf = true

/-- NaN or a zero -/
def Nil [Libm] (x : F64) : Prop := x.isNaN = true ∨ x.isZero = true

theorem not_nan_of_inf [Libm] {x : F64} (h : x.isInf = true) : x.isNaN = false ∧ x.isZero = false := by
  unfold isInf at h
  have h := of_decide_eq_true h
  unfold isNaN isZero
  rw [h]
  decide

theorem not_nan_of_zero [Libm] {x : F64} (h : x.isZero = true) : x.isNaN = false ∧ x.isInf = false := by
  unfold isZero at h
  have h := of_decide_eq_true h
  unfold isNaN isInf
  rw [h]
  decide

theorem inf_inf (s : Bool) : (inf s).isInf = true := by
  unfold isInf inf
  rw [absBits_mk' _ infBits_lt]
  simp

theorem zero_zero (s : Bool) : (zero s).isZero = true := by
  unfold isZero zero
  rw [absBits_mk' _ (by norm_num)]
  simp

theorem round_zero_zero (s : Bool) : (round s 0).isZero = true := by
  unfold round
  rw [if_pos rfl, zero_zero]

theorem val_of_zero [Libm] {x : F64} (h : x.isZero = true) : x.val = 0 := isZero_iff.1 h

theorem wild_mul [Libm] {x y : F64} (h : y.isInf = true) : Wild (mul x y) := by
  unfold mul Wild
  obtain ⟨h1, h2⟩ := not_nan_of_inf h
  split_ifs with a b c
  · exact .inl nan_nan
  · exact .inl nan_nan
  · exact .inr (inf_inf _)
  · simp [h] at c

theorem wild_mul_right [Libm] {x y : F64} (h : Wild y) : Wild (mul x y) := by
  rcases h with h | h
  · exact .inl (mul_nan (.inr h))
  · exact wild_mul h

theorem wild_sqrt [Libm] {x : F64} (h : Wild x) : Wild (sqrt x) := by
  rcases h with h | h
  · unfold sqrt; rw [if_pos h]; exact .inl nan_nan
  · obtain ⟨h1, h2⟩ := not_nan_of_inf h
    unfold sqrt
    rw [h1, h2, h]
    simp only [Bool.false_eq_true, if_false, if_true]
    split
    · exact .inl nan_nan
    · exact .inr h

theorem wild_add [Libm] {x y : F64} (h : Wild x) : Wild (add x y) := by
  rcases h with h | h
  · exact .inl (add_nan (.inl h))
  · unfold add
    split
    · exact .inl nan_nan
    · split
      · exact .inl nan_nan
      · exact .inr h

theorem wild_div [Libm] {x y : F64} (hx : Wild x) (hy : Wild y) : (div x y).isNaN = true := by
  rcases hx with hx | hx
  · exact div_nan (.inl hx)
  rcases hy with hy | hy
  · exact div_nan (.inr hy)
  unfold div
  rw [(not_nan_of_inf hx).1, (not_nan_of_inf hy).1, hx, hy]
  exact nan_nan

theorem nil_mul [Libm] {x y : F64} (h : Nil x) : Nil (mul x y) := by
  rcases h with h | h
  · exact .inl (mul_nan (.inl h))
  obtain ⟨h1, h2⟩ := not_nan_of_zero h
  unfold mul
  rw [h1, h2, h]
  by_cases hy : y.isNaN = true
  · rw [hy]; exact .inl nan_nan
  · rw [Bool.not_eq_true] at hy
    by_cases hi : y.isInf = true
    · rw [hy, hi]; exact .inl nan_nan
    · rw [Bool.not_eq_true] at hi
      rw [hy, hi, val_of_zero h, zero_mul]
      exact .inr (round_zero_zero _)

theorem mul_comm' [Libm] (x y : F64) : Nil (mul x y) → Nil (mul y x) := by
  unfold mul
  rw [Bool.or_comm x.isNaN, Bool.or_comm (x.isInf && y.isZero), Bool.and_comm x.isZero, Bool.and_comm x.isInf, Bool.or_comm x.isInf,
    mul_comm x.val]
  have : (x.sign != y.sign) = (y.sign != x.sign) := by cases x.sign <;> cases y.sign <;> rfl
  rw [this]
  exact id

theorem nil_mul_right [Libm] {x y : F64} (h : Nil y) : Nil (mul x y) := mul_comm' _ _ (nil_mul h)

theorem nil_add [Libm] {x y : F64} (hx : Nil x) (hy : Nil y) : Nil (add x y) := by
  rcases hx with hx | hx
  · exact .inl (add_nan (.inl hx))
  rcases hy with hy | hy
  · exact .inl (add_nan (.inr hy))
  unfold add
  rw [(not_nan_of_zero hx).1, (not_nan_of_zero hx).2, (not_nan_of_zero hy).1, (not_nan_of_zero hy).2, val_of_zero hx, val_of_zero hy, add_zero]
  exact .inr (round_zero_zero _)

theorem nil_sqrt [Libm] {x : F64} (h : Nil x) : Nil (sqrt x) := by
  rcases h with h | h
  · unfold sqrt; rw [if_pos h]; exact .inl nan_nan
  · unfold sqrt
    rw [(not_nan_of_zero h).1, h]
    exact .inr h

theorem nil_div [Libm] {x y : F64} (hx : Nil x) (hy : Nil y) : (div x y).isNaN = true := by
  rcases hx with hx | hx
  · exact div_nan (.inl hx)
  rcases hy with hy | hy
  · exact div_nan (.inr hy)
  unfold div
  rw [(not_nan_of_zero hx).1, (not_nan_of_zero hy).1, (not_nan_of_zero hx).2, (not_nan_of_zero hy).2, hx, hy]
  exact nan_nan

/-- The square of NaN or zero is NaN or zero. -/
theorem nil_square [Libm] {x : F64} (h : Nil x) : Nil (pow x (Flt.ofInt 2)) := by
  rcases h with h | h
  · exact .inl (pow_two_nan h)
  obtain ⟨t1, t2⟩ := f64_int (n := 2) (by norm_num) (by norm_num)
  rw [show pow x (Flt.ofInt 2) = _ from Libm.pow_zero_two x _ h t2 (by rw [t1]; norm_num)]
  exact .inr (zero_zero _)

theorem one_bits [Libm] : (Flt.one : F64) = mk' false 0x3FF0000000000000 := by
  show round false ((1 : Int) : ℝ) = _
  have e : mag 0x3FF0000000000000 = 1 := by
    unfold mag
    rw [if_neg (by decide)]
    norm_num
  unfold round
  rw [if_neg (by norm_num)]
  congr 1
  · simp
  · rw [show |(((1 : Int)) : ℝ)| = mag 0x3FF0000000000000 by rw [e]; norm_num]
    exact roundBits_mag (by norm_num) (by unfold infBits; norm_num)

/-- 1 to any power is 1, even to the power NaN. -/
theorem one_pow' [Libm] (y : F64) : pow Flt.one y = Flt.one := by
  rw [one_bits]; exact Libm.pow_one y

end F64

theorem corr_wild [Libm] {S : OptSpec F64} (h : S.beta1 = Flt.one) : S.corr.isInf = true := by
  obtain ⟨t1, t2⟩ := f64_int (n := 1) (by norm_num) (by norm_num)
  have hv : (Flt.one : F64).val = 1 := by simpa using t1
  have e : (Flt.one -. Flt.one : F64).isZero = true := by
    show (add Flt.one (neg Flt.one)).isZero = true
    rw [add_fin t2 (by rw [absBits_neg]; exact t2), val_neg, hv, add_neg_cancel]
    exact round_zero_zero _
  unfold OptSpec.corr
  rw [h, show (Flt.pow (Flt.one : F64) (Flt.ofInt (S.t + 1))) = Flt.one from one_pow' _]
  show (div Flt.one (Flt.one -. Flt.one)).isInf = true
  have hz : (Flt.one : F64).isZero = false := by
    rw [← Bool.not_eq_true, isZero_iff, hv]; norm_num
  unfold div
  rw [e, (not_nan_of_zero e).1, (not_nan_of_zero e).2, (not_special t2).1, (not_special t2).2, hz]
  exact inf_inf _

/-- With beta1 = 1 an update by Adam gives NaN, whatever the parameter, the gradient, the accumulated moments and the other hyper-parameters. -/
theorem adam_beta1 [Libm] {S : OptSpec F64} (hk : S.kind = .adam) (h : S.beta1 = Flt.one) (x v c g : F64) : (S.upd x v c g).isNaN = true := by
  unfold OptSpec.upd
  rw [hk]
  have hc := corr_wild h
  exact add_nan (.inr (wild_div (wild_mul_right (wild_mul hc)) (wild_add (wild_sqrt (wild_mul hc)))))

/-- With epsilon = 0 an update by Adam of a parameter with zero gradient and zero moments gives NaN. -/
theorem adam_epsilon [Libm] {S : OptSpec F64} (hk : S.kind = .adam) (h : S.epsilon.isZero = true) (x : F64) {v c g : F64} (hv : Nil v) (hc : Nil c)
    (hg : Nil g) : (S.upd x v c g).isNaN = true := by
  unfold OptSpec.upd OptSpec.vel OptSpec.cache
  rw [hk]
  have h1 : Nil (v *. S.beta1 +. g *. (Flt.one -. S.beta1) : F64) := nil_add (nil_mul hv) (nil_mul hg)
  have h2 : Nil (c *. S.beta2 +. Flt.pow g (Flt.ofInt 2) *. (Flt.one -. S.beta2) : F64) := nil_add (nil_mul hc) (nil_mul (nil_square hg))
  exact add_nan (.inr (nil_div (nil_mul_right (nil_mul h1)) (nil_add (nil_sqrt (nil_mul h2)) (.inr h))))

/-- C94: Adam with beta1 = 1: every Update makes every weight and every bias NaN, without an error. -/
theorem C94_beta1 [Libm] (w : World F64) (op : Nat) (wm bm dw db : Mat) (rw cw rb cb : Nat) (S : OptSpec F64) (W B GW GB : Nat → Nat → F64)
    (ho : IsOpt w op rw cw rb cb S) (hp : IsParams w wm bm rw cw rb cb W B) (hGW : IsMat w dw rw cw GW) (hGB : IsMat w db rb cb GB)
    (hk : S.kind = .adam) (h1 : S.beta1 = Flt.one) :
    wp (optUpdate op (some wm) (some bm) dw db) w (fun e w' => e = none ∧ ∃ W' B', IsMat w' wm rw cw W' ∧ IsMat w' bm rb cb B' ∧
      (∀ i j, (W' i j).isNaN = true) ∧ ∀ i j, (B' i j).isNaN = true) := by
  refine wp_mono (optUpdate_spec ho hp hGW hGB) ?_
  rintro e w' ⟨he, h⟩
  exact ⟨he, _, _, h.params.wmat, h.params.bmat, fun i j => adam_beta1 hk h1 _ _ _ _, fun i j => adam_beta1 hk h1 _ _ _ _⟩

/-- C94: Adam with epsilon = 0, first Update: the weights and biases whose gradient is 0 become NaN, without an error. -/
theorem C94_epsilon [Libm] (w : World F64) (op : Nat) (wm bm dw db : Mat) (rw cw rb cb : Nat) (S : OptSpec F64) (W B GW GB : Nat → Nat → F64)
    (ho : IsOpt w op rw cw rb cb S) (hp : IsParams w wm bm rw cw rb cb W B) (hGW : IsMat w dw rw cw GW) (hGB : IsMat w db rb cb GB)
    (hk : S.kind = .adam) (h1 : S.epsilon.isZero = true) (hf : ∀ i j, (S.vw i j).isZero = true ∧ (S.cw i j).isZero = true ∧ (S.vb i j).isZero = true ∧
      (S.cb i j).isZero = true) :
    wp (optUpdate op (some wm) (some bm) dw db) w (fun e w' => e = none ∧ ∃ W' B', IsMat w' wm rw cw W' ∧ IsMat w' bm rb cb B' ∧
      (∀ i j, (GW i j).isZero = true → (W' i j).isNaN = true) ∧ ∀ i j, (GB i j).isZero = true → (B' i j).isNaN = true) := by
  refine wp_mono (optUpdate_spec ho hp hGW hGB) ?_
  rintro e w' ⟨he, h⟩
  exact ⟨he, _, _, h.params.wmat, h.params.bmat,
    fun i j hg => adam_epsilon hk h1 _ (.inr (hf i j).1) (.inr (hf i j).2.1) (.inr hg),
    fun i j hg => adam_epsilon hk h1 _ (.inr (hf i j).2.2.1) (.inr (hf i j).2.2.2) (.inr hg)⟩

theorem fsum_nil [Libm] {c : Nat} {f : Nat → F64} (h : ∀ i, i < c → Nil (f i)) : Nil (fsum c f) := by
  induction c with
  | zero =>
    refine .inr ?_
    have := (f64_int (n := 0) (by norm_num) (by norm_num)).1
    exact isZero_iff.2 (this.trans (by norm_num))
  | succ c ih => exact nil_add (ih fun i hi => h i (by omega)) (h c (by omega))

theorem descent_hyper [Libm] {m : Model F64} {loss : LossKind} {u : Nat → F64} {X Y : Nat → Nat → F64} {net : Net F64} {S : Nat → OptSpec F64} {p : Nat}
    {bs : List (Nat × Nat)} {net' : Net F64} {S' : Nat → OptSpec F64} {p' : Nat} (h : Descent m loss u X Y net S p bs net' S' p') (i : Nat) :
    (S' i).kind = (S i).kind ∧ (S' i).beta1 = (S i).beta1 ∧ (S' i).epsilon = (S i).epsilon := by
  induction h with
  | start => exact ⟨rfl, rfl, rfl⟩
  | step _ h ih =>
    obtain ⟨G, D, -, -, rfl⟩ := h
    exact ih

theorem descent_beta1 [Libm] {m : Model F64} {loss : LossKind} {u : Nat → F64} {X Y : Nat → Nat → F64} {net : Net F64} {S : Nat → OptSpec F64} {p : Nat}
    {bs : List (Nat × Nat)} {net' : Net F64} {S' : Nat → OptSpec F64} {p' : Nat} (h : Descent m loss u X Y net S p bs net' S' p') (hb : bs ≠ [])
    (k : Nat) (hk : (S k).kind = .adam) (h1 : (S k).beta1 = Flt.one) :
    (∀ i j, ((net'.L k).W i j).isNaN = true) ∧ ∀ j, ((net'.L k).b j).isNaN = true := by
  cases h with
  | start => exact absurd rfl hb
  | step h1 h2 =>
    obtain ⟨e1, e2, -⟩ := descent_hyper h1 k
    obtain ⟨G, D, -, rfl, -⟩ := h2
    exact ⟨fun i j => adam_beta1 (by rw [e1, hk]) (by rw [e2]; assumption) _ _ _ _,
      fun j => adam_beta1 (by rw [e1, hk]) (by rw [e2]; assumption) _ _ _ _⟩

theorem descent_epsilon [Libm] {m : Model F64} {loss : LossKind} {u : Nat → F64} {X Y : Nat → Nat → F64} {net : Net F64} {S : Nat → OptSpec F64} {p : Nat}
    {bs : List (Nat × Nat)} {net' : Net F64} {S' : Nat → OptSpec F64} {p' : Nat} (h : Descent m loss u X Y net S p bs net' S' p') {n k : Nat}
    (hbs : ∀ q ∈ bs, q.1 + q.2 ≤ n) (hk : (S 0).kind = .adam) (h1 : (S 0).epsilon.isZero = true)
    (hf : ∀ j, (S 0).vw k j = Flt.zero ∧ (S 0).cw k j = Flt.zero) (hX : ∀ i, i < n → (X i k).isZero = true) :
    (bs = [] → S' = S) ∧ (bs ≠ [] → ∀ j, ((net'.L 0).W k j).isNaN = true) := by
  have hz : Nil (Flt.zero : F64) := fsum_nil (c := 0) (f := fun _ => Flt.zero) (fun i hi => absurd hi (Nat.not_lt_zero i))
  induction h with
  | start => exact ⟨fun _ => rfl, fun h => absurd rfl h⟩
  | @step bs' b net1 S1 p1 net2 S2 h0 hst ih =>
    refine ⟨fun h => by simp at h, fun _ j => ?_⟩
    obtain ⟨i1, i2⟩ := ih fun q hq => hbs q (by simp [hq])
    obtain ⟨e1, -, e2⟩ := descent_hyper h0 0
    obtain ⟨G, D, -, rfl, rfl⟩ := hst
    by_cases hn : bs' = []
    · have hS := i1 hn
      have hg : Nil (gradW b.2 (fun i j => X (b.1 + i) j) (G 0) k j) :=
        fsum_nil fun i hi => nil_mul (.inr (hX _ (by have := hbs b (by simp); omega)))
      refine adam_epsilon (by rw [e1, hk]) (by rw [e2, h1]) _ ?_ ?_ hg
      · rw [hS, (hf j).1]; exact hz
      · rw [hS, (hf j).2]; exact hz
    · exact upd_nan (i2 hn j) _ _ _

theorem blocks_flatten_ne {n b : Nat} (hn : 0 < n) {e : Nat} (he : 1 ≤ e) : (List.replicate e (blocks n b)).flatten ≠ [] := by
  intro hc
  rw [List.flatten_eq_nil_iff] at hc
  have := hc (blocks n b) (List.mem_replicate.2 ⟨by omega, rfl⟩)
  have h2 := blocks_cover n b
  rw [this] at h2
  simp at h2
  omega

/-- C94, training: if the optimizer of layer k is Adam with beta1 = 1, a Fit of at least one epoch returns no error and leaves every parameter of
that layer NaN. -/
theorem C94_fit_beta1 [Libm] (w : World F64) (m : Model F64) (net : Net F64) (op : Nat → Nat) (S : Nat → OptSpec F64) (loss : Loss) (X Y xv yv : Mat)
    (n : Nat) (A B : Nat → Nat → F64) (h : FitArgs w m net op S loss X Y n A B) (epochs : Int) (he : 1 ≤ epochs) (b : Nat) (hbig : n + b ≤ 2 ^ 53)
    (k : Nat) (hk : (S k).kind = .adam) (h1 : (S k).beta1 = Flt.one) :
    wp (fit m X Y epochs b xv yv 0) w (fun e w' => e = none ∧ ∃ net' S', IsTask w' m net' op S' ∧ SameShape net net' ∧
      (∀ i j, ((net'.L k).W i j).isNaN = true) ∧ ∀ j, ((net'.L k).b j).isNaN = true) := by
  refine wp_mono (C70_fit w m net op S h.task h.noSigmoid loss h.loss_eq h.loss_size X Y xv yv n A B h.x h.y h.xcap h.ycap h.xsep h.ysep epochs b hbig) ?_
  rintro e w' ⟨e1, net', S', h2, h3, h4, -⟩
  exact ⟨e1, net', S', h3, h4, descent_beta1 h2 (blocks_flatten_ne h.x.rpos (by omega)) k hk h1⟩

/-- C94, training: if the optimizer of the first layer is Adam with epsilon = 0, not used before, and input k is 0 in every sample, a Fit of at least
one epoch returns no error and leaves every weight of that input NaN. -/
theorem C94_fit_epsilon [Libm] (w : World F64) (m : Model F64) (net : Net F64) (op : Nat → Nat) (S : Nat → OptSpec F64) (loss : Loss) (X Y xv yv : Mat)
    (n : Nat) (A B : Nat → Nat → F64) (h : FitArgs w m net op S loss X Y n A B) (epochs : Int) (he : 1 ≤ epochs) (b : Nat) (hbig : n + b ≤ 2 ^ 53)
    (hk : (S 0).kind = .adam) (h1 : (S 0).epsilon.isZero = true) (k : Nat) (hf : ∀ j, (S 0).vw k j = Flt.zero ∧ (S 0).cw k j = Flt.zero)
    (hA : ∀ i, i < n → (A i k).isZero = true) :
    wp (fit m X Y epochs b xv yv 0) w (fun e w' => e = none ∧ ∃ net' S', IsTask w' m net' op S' ∧ SameShape net net' ∧
      ∀ j, ((net'.L 0).W k j).isNaN = true) := by
  refine wp_mono (C70_fit w m net op S h.task h.noSigmoid loss h.loss_eq h.loss_size X Y xv yv n A B h.x h.y h.xcap h.ycap h.xsep h.ysep epochs b hbig) ?_
  rintro e w' ⟨e1, net', S', h2, h3, h4, -⟩
  refine ⟨e1, net', S', h3, h4, (descent_epsilon h2 (fun q hq => ?_) hk h1 hf hA).2 (blocks_flatten_ne h.x.rpos (by omega))⟩
  obtain ⟨l, hl, hq⟩ := List.mem_flatten.1 hq
  rw [(List.mem_replicate.1 hl).2] at hq
  exact (blocks_mem h.x.rpos hq).2.1

theorem adam_accepts [Libm] (eps b1 b2 : F64) : ∃ o, newAdamOptimizer (Flt.one : F64) Flt.zero eps b1 b2 = (o, none) := by
  have h01 : Flt.lt (Flt.zero : F64) Flt.one = true := by
    obtain ⟨t1, t2⟩ := f64_int (n := 1) (by norm_num) (by norm_num)
    obtain ⟨z1, z2⟩ := f64_int (n := 0) (by norm_num) (by norm_num)
    have hz : (Flt.zero : F64).key = 0 := key_of_val_zero (by simpa using z1)
    have ho : 0 < (Flt.one : F64).key := val_pos.1 (by rw [show (Flt.one : F64).val = 1 by simpa using t1]; norm_num)
    show F64.lt _ _ = true
    unfold F64.lt
    rw [zero_num, one_num, hz]
    simpa using ho
  exact ⟨_, Prod.ext rfl ((C89_adam_partial _ _ _ _ _).2 ⟨.inr h01, .inr (le_iff.2 ⟨zero_num, zero_num, le_rfl⟩)⟩)⟩

theorem zero_isZero [Libm] : (Flt.zero : F64).isZero = true := isZero_iff.2 (by simpa using (f64_int (n := 0) (by norm_num) (by norm_num)).1)

/-- Three layers, optimizers Adam with beta1 = 1 and epsilon = 0, five rows whose second entry is 0 (hypotheses of C94_fit_beta1, C94_fit_epsilon). -/
example [Libm] : ∃ (w : World F64) (m : Model F64) (net : Net F64) (op : Nat → Nat) (S : Nat → OptSpec F64) (X Y : Mat) (A B : Nat → Nat → F64),
    FitArgs w m net op S ⟨.ce, net.dim net.size⟩ X Y 5 A B ∧ net.size = 3 ∧ 1 < net.dim 0 ∧ (∀ k, (S k).kind = .adam ∧ (S k).beta1 = Flt.one) ∧
    (S 0).epsilon.isZero = true ∧ (∀ j, (S 0).vw 1 j = Flt.zero ∧ (S 0).cw 1 j = Flt.zero) ∧ (∀ i, i < 5 → (A i 1).isZero = true) ∧
    A 0 0 = Flt.one := by
  obtain ⟨o, ho⟩ := adam_accepts Flt.zero Flt.one Flt.half
  have hrows : o.weightMomentums.rows = 0 := by rw [newAdam_ok ho]; rfl
  obtain ⟨w, net, op, XM, YM, xM, yM, hf, hs, hL, hdim, hT, dX, dY, dx, dy⟩ := exists_task (emptyWorld : World F64) 3 (by decide)
    demoT demoT_pos demoT_chain { newModel with loss := some ⟨.ce, 5⟩ } o (OptSpec.fresh o) hrows
    (fun w p i hlt e => e ▸ isOpt_newAdam _ _ _ _ hlt (e.symm ▸ ho)) (r := 5) (r' := 2) (by decide) (by decide)
    (fun _ j => if j = 1 then Flt.zero else Flt.one) (fun _ _ => Flt.one) (fun _ _ => Flt.one) (fun _ _ => Flt.one)
  have d0 : net.dim 0 = (demoT 0 : LayerSpec F64).n := by rw [hdim]
  have d1 : net.dim net.size = (demoT 3 : LayerSpec F64).n := by rw [hdim, hs]
  refine ⟨w, _, net, op, _, XM, YM, _, _, ⟨hT, ?_, ?_, rfl, d0 ▸ dX.mat, d1 ▸ dY.mat, dX.cap, dY.cap, dX.sep, dY.sep⟩, hs, ?_, fun k => ?_, ?_,
    fun j => ⟨rfl, rfl⟩, fun i _ => ?_, rfl⟩
  · intro k _; rw [hL]; exact demoT_kind (α := F64) k
  · rw [d1]; rfl
  · rw [d0]; (change 1 < 2; decide)
  · rw [newAdam_ok ho]; exact ⟨rfl, rfl⟩
  · rw [newAdam_ok ho]; exact zero_isZero
  · exact zero_isZero

/-- A fresh Adam optimizer with beta1 = 1 and epsilon = 0, and gradients some of which are zero (hypotheses of C94_beta1, C94_epsilon). -/
example [Libm] : ∃ (w : World F64) (op : Nat) (wm bm dw db : Mat) (S : OptSpec F64) (W B GW GB : Nat → Nat → F64), IsOpt w op 2 3 1 3 S ∧
    IsParams w wm bm 2 3 1 3 W B ∧ IsMat w dw 2 3 GW ∧ IsMat w db 1 3 GB ∧ S.kind = .adam ∧ S.beta1 = Flt.one ∧ S.epsilon.isZero = true ∧
    (∀ i j, (S.vw i j).isZero = true ∧ (S.cw i j).isZero = true ∧ (S.vb i j).isZero = true ∧ (S.cb i j).isZero = true) ∧
    (GW 0 0).isZero = true ∧ (GW 0 1) = Flt.one := by
  obtain ⟨o, ho⟩ := adam_accepts Flt.zero Flt.one Flt.half
  obtain ⟨w, op, wm, bm, dw, db, h1, h2, h3, h4, h5⟩ := exists_update_state (rw := 2) (cw := 3) (rb := 1) (cb := 3)
    (r1 := 2) (c1 := 3) (r2 := 1) (c2 := 3) (by decide) (by decide) (by decide) (by decide) (by decide) (by decide)
    (by decide) (by decide) (fun _ _ => (Flt.one : F64)) (fun _ _ => Flt.one) (fun _ j => if j = 0 then Flt.zero else Flt.one)
    (fun _ _ => Flt.one) o
  refine ⟨w, op, wm, bm, dw, db, _, _, _, _, _, isOpt_newAdam _ _ _ _ h1 (h2.symm ▸ ho), h3, h4, h5, ?_, ?_, ?_,
    fun i j => ⟨zero_isZero, zero_isZero, zero_isZero, zero_isZero⟩, zero_isZero, rfl⟩
  · rw [h2, newAdam_ok ho]; rfl
  · rw [h2, newAdam_ok ho]; rfl
  · rw [h2, newAdam_ok ho]; exact zero_isZero

end NN
