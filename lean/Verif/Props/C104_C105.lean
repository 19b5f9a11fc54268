import Verif.Lemmas.ExamplesMain
import Verif.Props.C88_C91
import Verif.Props.C21_C28
/-
C104, C105: the hand-written training programs of the repository (examples/sine_test.go, optimizers_test.go).
-/

set_option linter.unusedSectionVars false

namespace NN
open Go
open F64 (infBits)

attribute [local irreducible] wp

section Any
variable {α : Type} [Flt α]

/-- The arguments of layer constructors without slope and dropout. -/
def plainArgs (kind : Nat → LayerKind) (dim : Nat → Nat) (i : Nat) : LayerArg α := ⟨kind i, dim i, dim (i + 1), Flt.zero, Flt.zero⟩

theorem isStart3 (kind : Nat → LayerKind) (dim : Nat → Nat) (d : Nat → α)
    (lp : Nat → Nat) (wm bm : Nat → Mat) : IsStart (plainArgs kind dim) d ⟨3, dim, lp, wm, bm, startL kind dim d⟩ := by
  intro i hi
  refine ⟨rfl, rfl, rfl, rfl, rfl, fun j k => ?_, fun _ => rfl⟩
  match i, hi with
  | 0, _ => rfl
  | 1, _ => simp [initDraws, startL, newSpec]
  | 2, _ => simp [initDraws, startL, newSpec]

/-! ### C104 -/

/-- The layers of examples/sine_test.go:14-33. -/
def sineKind : Nat → LayerKind
  | 2 => .linear
  | _ => .hidden

/-- 1, 64, 64, 1. -/
def sineDim : Nat → Nat
  | 0 => 1
  | 1 => 64
  | 2 => 64
  | _ => 1

/-- Row i of the samples before they are shuffled: i / 250. -/
def sineX (i _j : Nat) : α := Flt.ofInt i /. Flt.ofInt 250

/-- C104: the example program `TestSine` reports no error, for all random numbers, all shuffles and all results of `math.Sin`: it draws the
weights of the three layers, shuffles the 250 points, and does 1000 epochs of gradient descent on the mean squared error with batches
of 25.  Nothing that existed before has changed, except that normal draws have been used. -/
theorem C104_sine (w : World α) (o : Optim α) (hc : Constructed o) (sin : α → α) (draw : Nat → Nat)
    (hdraw : ∀ i, 1 ≤ i → i < 250 → draw i ≤ i) :
    wp (testSine o sin draw) w (fun e w' => e = none ∧ Frame { norm := True } w w' ∧
      ∃ (σ : Equiv.Perm Nat) (m : Model α) (net : Net α) (op : Nat → Nat) (net' : Net α) (S' : Nat → OptSpec α),
        (∀ i, i < 250 ↔ σ i < 250) ∧ net.size = 3 ∧ m.lossType = 0 ∧
        IsStart (plainArgs sineKind sineDim) (fun q => w.norm (w.normPos + q)) net ∧
        Descent m .mse w.unif (fun i => sineX (σ i)) (fun i j => sin (sineX (σ i) j)) net (fun _ => OptSpec.fresh o) w.unifPos
          (List.replicate 1000 (blocks 250 25)).flatten net' S' w'.unifPos ∧
        IsTask w' m net' op S' ∧ SameShape net net' ∧ ∀ i, i < 3 → w.next ≤ net.lp i ∧ w.next ≤ op i) := by
  have hk : ∀ i, i < 3 → sineKind i ≠ .leaky ∧ sineKind i ≠ .dropout := below3 (by decide) (by decide) (by decide)
  unfold testSine
  refine layers_then_init w sineKind sineDim hk (fun i _ => by unfold sineDim; split <;> decide) ?_
  intro lp wm bm w1 s1
  obtain ⟨v1, v2, v3, e1, e2, e3, ha, hn, hop⟩ := optNew3 o w1
  refine wp_bind_ok e1 (wp_bind_ok e2 (wp_bind_ok e3 ?_))
  obtain ⟨x, y, v4, v5, e4, e5, hd⟩ := dataPair_new (r := 250) (cx := 1) (cy := 1) (by decide) (by decide) (by decide) v3
  refine wp_bind_ok e4 (wp_bind_ok e5 ?_)
  dsimp only
  refine wp_bind_mono (wp_forN (fun n w' => DataPair v3 w' x y 250 1 1 (fun i j => if i < n then sineX i j else Flt.zero)
    (fun i j => if i < n then sin (sineX i j) else Flt.zero)) (by simpa using hd) ?_) ?_
  · intro i w' hi h
    refine wp_bind_mono (set_spec h.xm h.xd hi (j := 0) Nat.one_pos _) ?_
    rintro _ w2 ⟨-, hx⟩
    have h2 := h.setX hx
    refine wp_bind_mono (set_spec h2.ym h2.yd hi (j := 0) Nat.one_pos _) ?_
    rintro _ w3 ⟨-, hy⟩
    refine wp_pure.2 ((h2.setY hy).congr ?_ ?_)
    · intro a b ha hb
      obtain rfl : b = 0 := by omega
      unfold upd2
      by_cases h : a = i
      · subst h; simp [sineX]
      · by_cases h' : a < i
        · simp [h, h', show a < i + 1 by omega]
        · simp [h, h', show ¬ a < i + 1 by omega]
    · intro a b ha hb
      obtain rfl : b = 0 := by omega
      unfold upd2
      by_cases h : a = i
      · subst h; simp [sineX]
      · by_cases h' : a < i
        · simp [h, h', show a < i + 1 by omega]
        · simp [h, h', show ¬ a < i + 1 by omega]
  intro _ w2 h
  have h : DataPair v3 w2 x y 250 1 1 sineX (fun i j => sin (sineX i j)) :=
    h.congr (fun i j hi _ => if_pos hi) (fun i j hi _ => if_pos hi)
  refine wp_bind_mono (h.shuffle draw hdraw) ?_
  rintro _ w3 ⟨σ, hσ, hd⟩
  have s2 := s1.allocs ha
  set op : Nat → Nat := fun i => w1.next + i with hopd
  have hrun := s2.run (dim := sineDim) (fun i _ => rfl) (fun i _ => rfl) hc (op := op) (fun i _ => by
    have := s1.frame.next_le; show _ ≤ w1.next + i; omega) (fun i hi => by show w1.next + i < _; omega) hop
    (fun i j _ _ (h : w1.next + i = w1.next + j) => by omega) ⟨.mse, 1⟩ 0 (fun i hi => (hk i hi).2) (steps := 10) (b := 25) (epochs := 1000)
    (by decide) hd (step := sineStep (lp 0) (lp 1) (lp 2) (op 0) (op 1) (op 2) ⟨.mse, 1⟩) (k := .mse) ?_
  · refine wp_mono hrun ?_
    rintro e w' ⟨he, hf, net', S', hD, hT, hsh⟩
    exact ⟨he, hf, σ, _, _, op, net', S', hσ, rfl, rfl, isStart3 _ _ _ _ _ _, hD, hT, hsh, fun i hi => ⟨s1.fresh i hi, s1.frame.next_le.trans (Nat.le_add_right _ _)⟩⟩
  · intro u net S i x y A B hT hsh hX hY
    have hlp : ∀ i, net.lp i = lp i := fun i => by rw [hsh.lp]
    rw [← hlp 0, ← hlp 1, ← hlp 2]
    refine sineStep_spec hT hsh.size (fun k hk' => ?_) rfl ?_ rfl ?_ ?_ ?_ i (by decide)
    · rw [hsh.kind]
      rw [hsh.size] at hk'
      show sineKind k ≠ .sigmoid
      exact below3 (P := fun i => sineKind i ≠ .sigmoid) (by decide) (by decide) (by decide) k hk'
    · rw [hsh.dim, hsh.size]; rfl
    · show (0 : Int) ≠ 2
      decide
    · rw [hsh.dim]; exact hX
    · rw [hsh.dim, hsh.size]; exact hY

/-! ### C105 -/

/-- The layers of optimizers_test.go:22-41, 124-143. -/
def optKind : Nat → LayerKind
  | 2 => .softmax
  | _ => .hidden

/-- 1, 8, 8, 2. -/
def optDim : Nat → Nat
  | 0 => 1
  | 1 => 8
  | 2 => 8
  | _ => 2

/-- The labels: class 0 for samples below 1/2, class 1 for the others. -/
def optY (rnd : Nat → α) (i j : Nat) : α := if j = (if Flt.lt (rnd i) Flt.half then 0 else 1) then Flt.one else Flt.zero

/-- The outputs of softmax are not changed by the clipping of the loss. -/
def SoftmaxUnclipped (α : Type) [Flt α] : Prop := ∀ (s : α) (o : Nat) (z : Nat → α) (j : Nat), j < o →
  clipV (actRow .softmax s o z j) = actRow .softmax s o z j

theorem optimizer_run (hclip : SoftmaxUnclipped α) (w : World α) (o : Optim α) (hc : Constructed o) (rnd : Nat → α) :
    wp (testOptimizer o rnd) w (fun e w' => e = none ∧ Frame { norm := True } w w' ∧
      ∃ (m : Model α) (net : Net α) (op : Nat → Nat) (net' : Net α) (S' : Nat → OptSpec α), net.size = 3 ∧ m.lossType = 2 ∧
        IsStart (plainArgs optKind optDim) (fun q => w.norm (w.normPos + q)) net ∧
        Descent m .ce w.unif (fun i _ => rnd i) (optY rnd) net (fun _ => OptSpec.fresh o) w.unifPos
          (List.replicate 500 (blocks 100 100)).flatten net' S' w'.unifPos ∧
        IsTask w' m net' op S' ∧ SameShape net net' ∧ ∀ i, i < 3 → w.next ≤ net.lp i ∧ w.next ≤ op i) := by
  have hk : ∀ i, i < 3 → optKind i ≠ .leaky ∧ optKind i ≠ .dropout := below3 (by decide) (by decide) (by decide)
  unfold testOptimizer
  obtain ⟨v1, v2, v3, e1, e2, e3, ha, hn, hop⟩ := optNew3 o w
  refine wp_bind_ok e1 (wp_bind_ok e2 (wp_bind_ok e3 ?_))
  refine layers_with_init v3 optKind optDim hk (fun i _ => by unfold optDim; split <;> decide) ?_
  intro lp wm bm w1 s1
  obtain ⟨x, y, v4, v5, e4, e5, hd⟩ := dataPair_new (r := 100) (cx := 1) (cy := 2) (by decide) (by decide) (by decide) w1
  refine wp_bind_ok e4 (wp_bind_ok e5 ?_)
  dsimp only
  refine wp_bind_mono (wp_forN (fun n w' => DataPair w1 w' x y 100 1 2 (fun i _ => if i < n then rnd i else Flt.zero)
    (fun i j => Flt.zero)) (by simpa using hd) ?_) ?_
  · intro i w' hi h
    refine wp_mono (wp_setAt h.xm h.xd hi (j := 0) Nat.one_pos _) ?_
    intro _ w2 hx
    refine (h.setX hx).congr ?_ fun _ _ _ _ => rfl
    intro a b ha hb
    obtain rfl : b = 0 := by omega
    unfold upd2
    by_cases h : a = i
    · subst h; simp
    · by_cases h' : a < i
      · simp [h, h', show a < i + 1 by omega]
      · simp [h, h', show ¬ a < i + 1 by omega]
  intro _ w2 h
  have h : DataPair w1 w2 x y 100 1 2 (fun i _ => rnd i) (fun i j => Flt.zero) := h.congr (fun i j hi _ => if_pos hi) (fun i j hi _ => rfl)
  refine wp_bind_mono (wp_forN (fun n w' => DataPair w1 w' x y 100 1 2 (fun i _ => rnd i) (fun i j => if i < n then optY rnd i j else Flt.zero))
    (by simpa using h) ?_) ?_
  · intro i w' hi h
    refine wp_bind_ok (at_ok h.xm hi (j := 0) Nat.one_pos) ?_
    have step : ∀ j, j < 2 → (∀ b, b < 2 → optY rnd i b = if b = j then Flt.one else Flt.zero) →
        wp (y.setAt (i : Int) (j : Int) Flt.one) w' (fun _ w'' => DataPair w1 w'' x y 100 1 2 (fun i _ => rnd i)
          (fun i' j => if i' < i + 1 then optY rnd i' j else Flt.zero)) := by
      intro j hj hY
      refine wp_mono (wp_setAt h.ym h.yd hi hj _) ?_
      intro _ w3 hy
      refine (h.setY hy).congr (fun _ _ _ _ => rfl) ?_
      intro a b ha hb
      unfold upd2
      by_cases e : a = i
      · subst e
        rw [if_pos (Nat.lt_succ_self a), hY b hb]
        by_cases hbj : b = j
        · simp [hbj]
        · simp [hbj]
      · by_cases h' : a < i
        · simp [e, h', show a < i + 1 by omega]
        · simp [e, h', show ¬ a < i + 1 by omega]
    by_cases hl : Flt.lt (rnd i) Flt.half = true
    · rw [if_pos hl]
      exact step 0 (by decide) fun b hb => by simp [optY, hl]
    · rw [if_neg hl]
      exact step 1 (by decide) fun b hb => by simp [optY, hl]
  intro _ w3 h
  have hd : DataPair w1 w3 x y 100 1 2 (fun i _ => rnd i) (optY rnd) := h.congr (fun i j hi _ => rfl) (fun i j hi _ => if_pos hi)
  set op : Nat → Nat := fun i => w.next + i with hopd
  have s2 : Setup w w1 3 lp wm bm (startL optKind optDim fun q => w.norm (w.normPos + q)) := by
    have e : (fun q => v3.norm (v3.normPos + q)) = fun q => w.norm (w.normPos + q) := by
      rw [ha.norm, ha.normPos fun h => h]
    rw [e] at s1
    have hf := s1.frame
    exact ⟨s1.laid, by frames ha hf, fun i hi => ha.next_le.trans (s1.fresh i hi), fun i a hi h => ha.next_le.trans (s1.params i a hi h)⟩
  have hle := s1.frame.next_le
  have hrun := s2.run (dim := optDim) (fun i _ => rfl) (fun i _ => rfl) hc (op := op) (fun i _ => Nat.le_add_right _ _)
    (fun i hi => by show w.next + i < _; omega) (fun i hi => by
      rw [s1.frame.opt _ (by show w.next + i < _; omega) fun h => h]; exact hop i hi)
    (fun i j _ _ (h : w.next + i = w.next + j) => by omega) ⟨.ce, 2⟩ 2 (fun i hi => (hk i hi).2) (steps := 1) (b := 100) (epochs := 500)
    (by decide) hd (step := fun _ X Y => optStep (lp 0) (lp 1) (lp 2) (op 0) (op 1) (op 2) ⟨.ce, 2⟩ X Y) (k := .ce) ?_
  · refine wp_mono hrun ?_
    rintro e w' ⟨he, hf, net', S', hD, hT, hsh⟩
    exact ⟨he, hf, _, _, op, net', S', rfl, rfl, isStart3 _ _ _ _ _ _, hD, hT, hsh, fun i hi => ⟨s2.fresh i hi, Nat.le_add_right _ _⟩⟩
  · intro u net S i x y A B hT hsh hX hY
    have hlp : ∀ i, net.lp i = lp i := fun i => by rw [hsh.lp]
    rw [← hlp 0, ← hlp 1, ← hlp 2]
    refine optStep_spec hT hsh.size (fun k hk' => ?_) rfl ?_ rfl ⟨?_, rfl⟩ (hclip _) ?_ ?_
    · rw [hsh.kind]
      rw [hsh.size] at hk'
      show optKind k ≠ .sigmoid
      exact below3 (P := fun i => optKind i ≠ .sigmoid) (by decide) (by decide) (by decide) k hk'
    · rw [hsh.dim, hsh.size]; rfl
    · rw [hsh.kind, hsh.size]; rfl
    · rw [hsh.dim]; exact hX
    · rw [hsh.dim, hsh.size]; exact hY

end Any

/-! ### Softmax and clipping -/

theorem softmax_unclipped_real : SoftmaxUnclipped ℝ := by
  intro s o z j hj
  have e1 : actRow .softmax s o z j = Real.exp (z j) / ∑ k ∈ Finset.range o, Real.exp (z k) := by simp [actRow, fsum_real]
  have hle : Real.exp (z j) ≤ ∑ k ∈ Finset.range o, Real.exp (z k) :=
    Finset.single_le_sum (f := fun k => Real.exp (z k)) (fun k _ => (Real.exp_pos _).le) (Finset.mem_range.2 hj)
  have hp := (Real.exp_pos (z j)).trans_le hle
  rw [e1]
  exact clipV_id (div_nonneg (Real.exp_pos _).le hp.le) ((div_le_one hp).2 hle)

open F64 in
/-- C84, completed: an output of softmax on float64 numbers is NaN or between 0 and 1, for all inputs. -/
theorem softmax_unit [Libm] {o : Nat} (z : Nat → F64) {j : Nat} (hj : j < o) {p : F64} (hp : p = F64.div (F64.exp (z j)) (fsum o fun k => F64.exp (z k))) :
    p.isNaN = true ∨ p.absBits < infBits ∧ 0 ≤ p.val ∧ p.val ≤ 1 := by
  by_cases hz : ∃ k, k < o ∧ (z k).isNaN = true
  · obtain ⟨k, hk, h⟩ := hz
    left
    rw [hp]
    exact div_nan (.inr (fsum_nan hk (exp_nan h)))
  have hn : ∀ k, k < o → (z k).isNaN = false := fun k hk => by
    by_contra h
    exact hz ⟨k, hk, by simpa using h⟩
  have hsum : ∀ n, n ≤ o → ((fsum n fun k => F64.exp (z k)).isNaN = false ∧ 0 ≤ (fsum n fun k => F64.exp (z k)).key) ∧
      ∀ k, k < n → (F64.exp (z k) : F64).key ≤ (fsum n fun k => F64.exp (z k)).key := fun n => by
    induction n with
    | zero =>
      intro _
      obtain ⟨z1, z2⟩ := f64_int (n := 0) (by norm_num) (by norm_num)
      exact ⟨⟨(F64.not_special z2).1, F64.val_nonneg.1 (by unfold fsum; rw [z1]; norm_num)⟩, fun k hk => absurd hk (Nat.not_lt_zero k)⟩
    | succ n ih =>
      intro hnc
      obtain ⟨⟨i1, i2⟩, i3⟩ := ih (by omega)
      obtain ⟨e1, e2⟩ := F64.exp_ok (hn n (by omega))
      obtain ⟨a1, a2, a3⟩ := F64.add_ok i1 e1 i2 e2
      refine ⟨⟨a1, i2.trans a2⟩, fun k hk => ?_⟩
      rcases Nat.lt_succ_iff_lt_or_eq.1 hk with h | rfl
      · exact (i3 k h).trans a2
      · exact a3
  obtain ⟨⟨s1, s2⟩, s3⟩ := hsum o le_rfl
  have hk := s3 j hj
  obtain ⟨e1, e2⟩ := F64.exp_ok (hn j hj)
  clear hsum s3
  generalize (fsum o fun k => F64.exp (z k)) = d at *
  generalize F64.exp (z j) = x at *
  have hd := F64.absBits_eq d
  have hx := F64.absBits_eq x
  rw [abs_of_nonneg s2] at hd
  rw [abs_of_nonneg e2] at hx
  have s1' := F64.not_nan_iff.1 s1
  by_cases hxi : x.isInf = true
  · left
    have hki := (F64.isInf_pos hxi e2).2
    have hdi : d.isInf = true := by
      unfold F64.isInf
      simp only [decide_eq_true_eq]
      omega
    have e : F64.div x d = nan := by
      unfold F64.div
      rw [e1, s1, hxi, hdi]; simp
    rw [hp, e, nan_nan]
  have hxf : x.absBits < infBits := F64.not_inf e1 (by simpa using hxi)
  rcases s2.eq_or_lt with h0 | hpos
  · left
    rw [hp]
    refine F64.div_zero_zero hxf ?_ ?_ ?_
    · exact F64.isZero_iff.1 (by unfold F64.isZero; simp only [decide_eq_true_eq]; omega)
    · have : (0 : Nat) < infBits := by unfold infBits; norm_num
      omega
    · exact F64.isZero_iff.1 (by unfold F64.isZero; simp only [decide_eq_true_eq]; omega)
  · right
    obtain ⟨o1, o2⟩ := f64_int (n := 1) (by norm_num) (by norm_num)
    obtain ⟨d1, d2, d3⟩ := F64.div_ok hxf e2 s1 hpos hk o2 (by rw [o1]; norm_num)
    rw [← hp] at d1 d2 d3
    refine ⟨F64.fin_of_key o2 d2 d3, F64.val_nonneg.2 d2, ?_⟩
    have := (F64.val_le_iff _ _).2 d3
    rw [o1] at this
    simpa using this

theorem softmax_unclipped_float [Libm] : SoftmaxUnclipped F64 := by
  intro s o z j hj
  rcases softmax_unit z hj rfl with h | ⟨h1, h2, h3⟩
  · change clipV (F64.div _ _) = F64.div _ _
    unfold clipV
    have l1 : Flt.lt (F64.div (Flt.exp (z j)) (fsum o fun k => Flt.exp (z k))) Flt.zero = false := F64.lt_nan (.inl h)
    have l2 : Flt.lt Flt.one (F64.div (Flt.exp (z j)) (fsum o fun k => Flt.exp (z k))) = false := F64.lt_nan (.inr h)
    rw [l1, l2]
    simp
  · exact clipV_unit h1 h2 h3

/-- C84: on float64 numbers every output of Softmax is NaN or between 0 and 1, whatever the inputs are. -/
theorem C84_range [Libm] (w : World F64) (m : Mat) (r c : Nat) (A : Nat → Nat → F64) (hA : IsMat w m r c A) (hd : DistinctRows w m r) :
    wp (softmax m) w (fun p w' => p = m ∧ ∃ V, SetMat w w' m r c V ∧ ∀ i j, i < r → j < c →
      (V i j).isNaN = true ∨ (V i j).absBits < infBits ∧ 0 ≤ (V i j).val ∧ (V i j).val ≤ 1) := by
  refine wp_mono (softmax_spec hA hd) ?_
  rintro p w1 ⟨rfl, h1⟩
  exact ⟨rfl, _, h1, fun i j _ hj => softmax_unit (A i) hj rfl⟩

/-- C105: the test programs `TestSGDOptimizer` and `TestAdamOptimizer` report no error, for all random numbers: they draw the weights of the
three layers and do 500 epochs of gradient descent on the cross-entropy of all 100 samples.  Nothing that existed before has changed, except that
normal draws have been used. -/
theorem C105_optimizers [Libm] (w : World F64) (o : Optim F64) (hc : Constructed o) (rnd : Nat → F64) :
    wp (testOptimizer o rnd) w (fun e w' => e = none ∧ Frame { norm := True } w w' ∧
      ∃ (m : Model F64) (net : Net F64) (op : Nat → Nat) (net' : Net F64) (S' : Nat → OptSpec F64), net.size = 3 ∧ m.lossType = 2 ∧
        IsStart (plainArgs optKind optDim) (fun q => w.norm (w.normPos + q)) net ∧
        Descent m .ce w.unif (fun i _ => rnd i) (optY rnd) net (fun _ => OptSpec.fresh o) w.unifPos
          (List.replicate 500 (blocks 100 100)).flatten net' S' w'.unifPos ∧
        IsTask w' m net' op S' ∧ SameShape net net' ∧ ∀ i, i < 3 → w.next ≤ net.lp i ∧ w.next ≤ op i) :=
  optimizer_run softmax_unclipped_float w o hc rnd

/-- C105 for exact arithmetic. -/
theorem C105_optimizers_real (w : World ℝ) (o : Optim ℝ) (hc : Constructed o) (rnd : Nat → ℝ) :
    wp (testOptimizer o rnd) w (fun e w' => e = none ∧ Frame { norm := True } w w' ∧
      ∃ (m : Model ℝ) (net : Net ℝ) (op : Nat → Nat) (net' : Net ℝ) (S' : Nat → OptSpec ℝ), net.size = 3 ∧ m.lossType = 2 ∧
        IsStart (plainArgs optKind optDim) (fun q => w.norm (w.normPos + q)) net ∧
        Descent m .ce w.unif (fun i _ => rnd i) (optY rnd) net (fun _ => OptSpec.fresh o) w.unifPos
          (List.replicate 500 (blocks 100 100)).flatten net' S' w'.unifPos ∧
        IsTask w' m net' op S' ∧ SameShape net net' ∧ ∀ i, i < 3 → w.next ≤ net.lp i ∧ w.next ≤ op i) :=
  optimizer_run softmax_unclipped_real w o hc rnd

/-- The optimizers of the programs, with exact numbers, and a shuffle that exchanges every row with row 0 (hypotheses of C104 and C105). -/
example : (∃ o : Optim ℝ, newSGDOptimizer (5 / 100) 0 0 = (o, none) ∧ Constructed o) ∧
    (∃ o : Optim ℝ, newAdamOptimizer (1 / 1000) 0 (1 / 10 ^ 7) (9 / 10) (999 / 1000) = (o, none) ∧ Constructed o) ∧
    ∀ i, 1 ≤ i → i < 250 → (fun _ => 0 : Nat → Nat) i ≤ i := by
  obtain ⟨o, ho⟩ := sgd_ok_real (lr := 5 / 100) (decay := 0) (mom := 0) (by norm_num) le_rfl le_rfl
  obtain ⟨o', ho'⟩ := adam_ok_real (lr := 1 / 1000) (decay := 0) (by norm_num) le_rfl (1 / 10 ^ 7) (9 / 10) (999 / 1000)
  exact ⟨⟨o, ho, .inl ⟨_, _, _, ho⟩⟩, ⟨o', ho', .inr ⟨_, _, _, _, _, ho'⟩⟩, fun _ _ _ => Nat.zero_le _⟩

end NN
