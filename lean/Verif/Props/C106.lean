import Verif.Props.C104_C105
import Verif.Props.C76
/-
C106: Fit gives the same parameters, bit for bit, as the hand-written training programs of the repository.
-/

set_option linter.unusedSectionVars false

namespace NN
open Go

attribute [local irreducible] wp

section Any
variable {α : Type} [Flt α]

/-- Networks made from the same arguments and draws have the same content. -/
theorem IsStart.same {a : Nat → LayerArg α} {d : Nat → α} {net net' : Net α} (h : IsStart a d net) (h' : IsStart a d net') (h0 : 0 < net.size)
    (hs : net'.size = net.size)
    (hi : ∀ k, k < net.size → (net.L k).n = net.dim k) (ho : ∀ k, k < net.size → (net.L k).o = net.dim (k + 1))
    (hi' : ∀ k, k < net'.size → (net'.L k).n = net'.dim k) (ho' : ∀ k, k < net'.size → (net'.L k).o = net'.dim (k + 1)) : SameNet net net' := by
  have en : ∀ k, k < net.size → (net'.L k).n = (net.L k).n := fun k hk => by
    have h1 := (h k hk).2.1
    have h2 := (h' k (by omega)).2.1
    omega
  have eo : ∀ k, k < net.size → (net'.L k).o = (net.L k).o := fun k hk => by
    have h1 := (h k hk).2.2.1
    have h2 := (h' k (by omega)).2.2.1
    omega
  have hd : ∀ k, k ≤ net.size → initDraws net' k = initDraws net k := by
    intro k
    induction k with
    | zero => exact fun _ => rfl
    | succ k ih =>
      intro hk
      rw [initDraws, initDraws, ih (by omega), en k hk, eo k hk]
  refine ⟨hs, fun k hk => ?_, hi, ho, fun k hk => ?_⟩
  · rcases Nat.eq_zero_or_pos k with rfl | hk0
    · rw [← hi 0 h0, ← hi' 0 (by omega), en 0 h0]
    · obtain ⟨k, rfl⟩ := Nat.exists_eq_succ_of_ne_zero (by omega : k ≠ 0)
      rw [Nat.succ_eq_add_one, ← ho k (by omega), ← ho' k (by omega), eo k (by omega)]
  · obtain ⟨a1, a2, a3, a4, a5, a6, a7⟩ := h k hk
    obtain ⟨b1, b2, b3, b4, b5, b6, b7⟩ := h' k (by omega)
    refine ⟨b1.trans a1.symm, en k hk, eo k hk, b4.trans a4.symm, b5.trans a5.symm, fun i j _ _ => ?_, fun j _ => (b7 j).trans (a7 j).symm⟩
    rw [b6, a6, hd k hk.le, en k hk, eo k hk]

theorem SameOpt.refl (n o : Nat) (S : OptSpec α) : SameOpt n o S S :=
  ⟨rfl, rfl, rfl, fun _ => rfl, fun _ => rfl, fun _ => rfl, fun _ => rfl, rfl, Agree.refl _ _ _, Agree.refl _ _ _, Agree.refl _ _ _, Agree.refl _ _ _⟩

theorem Constructed.fresh {o : Optim α} (h : Constructed o) : OptSpec.fresh (optFrom o) = OptSpec.fresh o := by
  rcases h with ⟨lr, d, mom, h⟩ | ⟨lr, d, eps, b1, b2, h⟩
  · rw [(C71_optim o).1 lr d mom h]
  · exact (C71_optim o).2 lr d eps b1 b2 h

/-- In state `w1` there are layers and optimizers that did not exist in state `w`; in state `w'` the model `m'` has the same number of layers with
the same parameters, bit for bit, and the same state of its optimizers. -/
def SameResult (w w1 : World α) (w' : World α) (m' : Model α) : Prop :=
  ∃ (m : Model α) (net net' : Net α) (op op' : Nat → Nat) (S S' : Nat → OptSpec α), IsTask w1 m net op S ∧ IsTask w' m' net' op' S' ∧
    (∀ i, i < net.size → w.next ≤ net.lp i ∧ w.next ≤ op i) ∧ SameNet net net' ∧ ∀ i, i < net.size → OptLike (net.L i).n (net.L i).o (S i) (S' i)

/-- The same random numbers are still to come in both states. -/
def SameStreams (w w' : World α) : Prop :=
  (∀ q, w'.norm (w'.normPos + q) = w.norm (w.normPos + q)) ∧ ∀ q, w'.unif (w'.unifPos + q) = w.unif (w.unifPos + q)

/-- A run of gradient descent from fresh layers and a run of `trainNew` on the same data. -/
theorem same_as_trainNew [FltInt α] {w w1 w2 : World α} {a : Nat → LayerArg α} {n : Nat} {o : Optim α} (hc : Constructed o) {m : Model α} {net net1 : Net α}
    {op : Nat → Nat} {S1 : Nat → OptSpec α} {k : LossKind} {A B : Nat → Nat → α} {r b epochs : Nat} (hst : IsStart a (fun q => w.norm (w.normPos + q)) net)
    (hsz : net.size = n)
    (hD : Descent m k w.unif A B net (fun _ => OptSpec.fresh o) w.unifPos (List.replicate epochs (blocks r b)).flatten net1 S1 w1.unifPos)
    (hT : IsTask w1 m net1 op S1) (hsh : SameShape net net1) (hnew : ∀ i, i < n → w.next ≤ net.lp i ∧ w.next ≤ op i) (hm : m.lossType = k.code)
    (hs : ∀ i, -(2 ^ 53) ≤ (a i).inputs ∧ (a i).inputs ≤ 2 ^ 53 ∧ -(2 ^ 53) ≤ (a i).outputs ∧ (a i).outputs ≤ 2 ^ 53)
    (hok : ArgsOk a n) (hns : ∀ i, i < n → (a i).kind ≠ .sigmoid) (accType : Int) (accPrec : α) (hp : Flt.lt accPrec Flt.zero = false)
    (hr : SameStreams w w2) {X Y : Mat} {cx cy : Nat} (hcx : (cx : Int) = (a 0).inputs) (hcy : (cy : Int) = (a (n - 1)).outputs)
    (hX : IsMat w2 X r cx A) (hY : IsMat w2 Y r cy B) (hcX : r ≤ X.m.cap) (hcY : r ≤ Y.m.cap) (hbig : r + b ≤ 2 ^ 53) :
    wp (trainNew a n ⟨k, (a (n - 1)).outputs⟩ o accType accPrec X Y epochs b) w2 (fun p w2' => p.2 = none ∧ SameResult w w1 w2' p.1) := by
  have hin : ∀ k, k < net.size → (net.L k).n = net.dim k := fun k hk => by
    rw [← hsh.n, ← hsh.dim]; exact hT.isNet.ins k (by rw [hsh.size]; exact hk)
  have hout : ∀ k, k < net.size → (net.L k).o = net.dim (k + 1) := fun k hk => by
    rw [← hsh.o, ← hsh.dim]; exact hT.isNet.outs k (by rw [hsh.size]; exact hk)
  have hpos : 0 < net.size := by rw [← hsh.size]; exact hT.pos
  refine wp_mono (C71_train w2 a hs n hok (by omega) hns ⟨k, (a (n - 1)).outputs⟩ rfl o accType accPrec hp X Y r cx cy A B hcx hcy hX hY hcX hcY epochs b hbig) ?_
  rintro ⟨m', e⟩ w2' ⟨he, -, hlt, net', op', net1', S1', hst', hsz', hD', hT', hsh'⟩
  refine ⟨he, m, net1, net1', op, op', S1, S1', hT, hT', fun i hi => ?_, ?_⟩
  · rw [hsh.lp]
    rw [hsh.size, hsz] at hi
    exact hnew i hi
  have hin' : ∀ k, k < net'.size → (net'.L k).n = net'.dim k := fun k hk => by
    rw [← hsh'.n, ← hsh'.dim]; exact hT'.isNet.ins k (by rw [hsh'.size]; exact hk)
  have hout' : ∀ k, k < net'.size → (net'.L k).o = net'.dim (k + 1) := fun k hk => by
    rw [← hsh'.o, ← hsh'.dim]; exact hT'.isNet.outs k (by rw [hsh'.size]; exact hk)
  have e : (fun q => w2.norm (w2.normPos + q)) = fun q => w.norm (w.normPos + q) := funext hr.1
  rw [e] at hst'
  have hN := hst.same hst' hpos (by omega) hin hout hin' hout'
  rw [Int.toNat_natCast, hc.fresh] at hD'
  obtain ⟨h1, -⟩ := descent_same (n := r) (hlt.lossType.trans hm.symm) hr.2 (S := fun _ => OptSpec.fresh o) (S' := fun _ => OptSpec.fresh o)
    ⟨hN, fun i _ => .inl (SameOpt.refl _ _ _)⟩ hpos (Agree.refl _ _ _) (Agree.refl _ _ _) _ (fun p hp => by
      obtain ⟨l, hl, hp⟩ := List.mem_flatten.1 hp
      rw [List.eq_of_mem_replicate hl] at hp
      exact blocks_le r b p hp) hD hD'
  exact ⟨h1.layers, h1.opt⟩

theorem plainArgs_small {kind : Nat → LayerKind} {dim : Nat → Nat} (h : ∀ i, dim i ≤ 64) (i : Nat) :
    -(2 ^ 53) ≤ (plainArgs kind dim i : LayerArg α).inputs ∧ (plainArgs kind dim i : LayerArg α).inputs ≤ 2 ^ 53 ∧
      -(2 ^ 53) ≤ (plainArgs kind dim i : LayerArg α).outputs ∧ (plainArgs kind dim i : LayerArg α).outputs ≤ 2 ^ 53 := by
  have h1 := h i
  have h2 := h (i + 1)
  simp only [plainArgs]
  omega

theorem plainArgs_ok {kind : Nat → LayerKind} {dim : Nat → Nat} (hk : ∀ i, i < 3 → kind i ≠ .leaky ∧ kind i ≠ .dropout) (hd : ∀ i, 0 < dim i) :
    ArgsOk (plainArgs kind dim : Nat → LayerArg α) 3 := by
  refine ⟨fun i hi => ?_, fun i hi => rfl⟩
  have h1 := hd i
  have h2 := hd (i + 1)
  refine ⟨?_, ?_, fun h => absurd h (hk i hi).1, fun h => absurd h (hk i hi).2⟩
  · simp only [plainArgs]; omega
  · simp only [plainArgs]; omega

/-- C106: `Fit` gives the same parameters as the loop of `TestSine`, bit for bit: a model with the same layers, loss and optimizer, made while the
same random numbers come, and trained by Fit for 1000 epochs with batches of 25 on the same (shuffled) points. -/
theorem C106_sine [FltInt α] (w : World α) (o : Optim α) (hc : Constructed o) (sin : α → α) (draw : Nat → Nat)
    (hdraw : ∀ i, 1 ≤ i → i < 250 → draw i ≤ i) :
    wp (testSine o sin draw) w (fun e w1 => e = none ∧ ∃ σ : Equiv.Perm Nat, (∀ i, i < 250 ↔ σ i < 250) ∧
      ∀ (w2 : World α) (X Y : Mat) (accType : Int) (accPrec : α), SameStreams w w2 → Flt.lt accPrec Flt.zero = false →
        IsMat w2 X 250 1 (fun i => sineX (σ i)) → IsMat w2 Y 250 1 (fun i j => sin (sineX (σ i) j)) → 250 ≤ X.m.cap → 250 ≤ Y.m.cap →
        wp (trainNew (plainArgs sineKind sineDim) 3 ⟨.mse, 1⟩ o accType accPrec X Y 1000 25) w2 (fun p w2' => p.2 = none ∧ SameResult w w1 w2' p.1)) := by
  refine wp_mono (C104_sine w o hc sin draw hdraw) ?_
  rintro e w1 ⟨he, -, σ, m, net, op, net', S', hσ, hsz, hm, hst, hD, hT, hsh, hnew⟩
  refine ⟨he, σ, hσ, fun w2 X Y accType accPrec hr hp hX hY hcX hcY => ?_⟩
  exact same_as_trainNew hc hst hsz hD hT hsh hnew hm (plainArgs_small fun i => by unfold sineDim; split <;> decide)
    (plainArgs_ok (below3 (by decide) (by decide) (by decide)) fun i => by unfold sineDim; split <;> decide)
    (below3 (by simp [plainArgs, sineKind]) (by simp [plainArgs, sineKind]) (by simp [plainArgs, sineKind])) accType accPrec hp hr
    (cx := 1) (cy := 1) rfl rfl hX hY hcX hcY (by norm_num)

theorem optimizer_same [FltInt α] (hclip : SoftmaxUnclipped α) (w : World α) (o : Optim α) (hc : Constructed o) (rnd : Nat → α) :
    wp (testOptimizer o rnd) w (fun e w1 => e = none ∧
      ∀ (w2 : World α) (X Y : Mat) (accType : Int) (accPrec : α), SameStreams w w2 → Flt.lt accPrec Flt.zero = false →
        IsMat w2 X 100 1 (fun i _ => rnd i) → IsMat w2 Y 100 2 (optY rnd) → 100 ≤ X.m.cap → 100 ≤ Y.m.cap →
        wp (trainNew (plainArgs optKind optDim) 3 ⟨.ce, 2⟩ o accType accPrec X Y 500 100) w2 (fun p w2' => p.2 = none ∧ SameResult w w1 w2' p.1)) := by
  refine wp_mono (optimizer_run hclip w o hc rnd) ?_
  rintro e w1 ⟨he, -, m, net, op, net', S', hsz, hm, hst, hD, hT, hsh, hnew⟩
  refine ⟨he, fun w2 X Y accType accPrec hr hp hX hY hcX hcY => ?_⟩
  exact same_as_trainNew hc hst hsz hD hT hsh hnew hm (plainArgs_small fun i => by unfold optDim; split <;> decide)
    (plainArgs_ok (below3 (by decide) (by decide) (by decide)) fun i => by unfold optDim; split <;> decide)
    (below3 (by simp [plainArgs, optKind]) (by simp [plainArgs, optKind]) (by simp [plainArgs, optKind])) accType accPrec hp hr
    (cx := 1) (cy := 2) rfl rfl hX hY hcX hcY (by norm_num)

end Any

/-- C106: `Fit` gives the same parameters as the loops of `TestSGDOptimizer` and `TestAdamOptimizer`, bit for bit. -/
theorem C106_optimizers [Libm] (w : World F64) (o : Optim F64) (hc : Constructed o) (rnd : Nat → F64) :
    wp (testOptimizer o rnd) w (fun e w1 => e = none ∧
      ∀ (w2 : World F64) (X Y : Mat) (accType : Int) (accPrec : F64), SameStreams w w2 → Flt.lt accPrec Flt.zero = false →
        IsMat w2 X 100 1 (fun i _ => rnd i) → IsMat w2 Y 100 2 (optY rnd) → 100 ≤ X.m.cap → 100 ≤ Y.m.cap →
        wp (trainNew (plainArgs optKind optDim) 3 ⟨.ce, 2⟩ o accType accPrec X Y 500 100) w2 (fun p w2' => p.2 = none ∧ SameResult w w1 w2' p.1)) :=
  optimizer_same softmax_unclipped_float w o hc rnd

/-- A state with two data matrices of 250 rows and the same random numbers (hypotheses of C106). -/
example (A B : Nat → Nat → ℝ) : ∃ (w2 : World ℝ) (X Y : Mat), SameStreams (emptyWorld : World ℝ) w2 ∧ Flt.lt (1 / 10 : ℝ) Flt.zero = false ∧
    IsMat w2 X 250 1 A ∧ IsMat w2 Y 250 1 B ∧ 250 ≤ X.m.cap ∧ 250 ≤ Y.m.cap := by
  have hx := place_spec (emptyWorld (α := ℝ)) (r := 250) (c := 1) A (by decide) (by decide)
  have hy := place_spec (placeW (emptyWorld (α := ℝ)) 250 1 A) (r := 250) (c := 1) B (by decide) (by decide)
  refine ⟨placeW (placeW (emptyWorld (α := ℝ)) 250 1 A) 250 1 B, _, _, ⟨fun _ => rfl, fun _ => rfl⟩, ?_, hx.mat.allocs hy.frame, hy.mat, hx.cap.ge, hy.cap.ge⟩
  simp [Flt.lt]

end NN
