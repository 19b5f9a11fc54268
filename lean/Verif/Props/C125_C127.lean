import Verif.Props.C13_C20
import Verif.Lemmas.SetParams
import Verif.Lemmas.Client
import Verif.Spec.PlaceNet
import Verif.Real.Grad
import Verif.Real.Universal
/- C125: one hidden layer (ReLU, dropout, leaky or sigmoid) and a linear layer approximate every continuous function.  C126: one hidden layer and
a softmax layer tell any disjoint compact classes apart.  C127: with linear layers in place of the hidden one not even exclusive-or is possible. -/

namespace NN
open Go Finset

/-! ### Assigning parameters -/

/-- C125: through the constructors, AddLayer, Matrix.Set and Finalize a client can make a model with any layers that fit together and any
parameters; there is no error, and nothing that existed has changed. -/
theorem C125_params {α : Type} [Flt α] [FltInt α] (w : World α) (a : Nat → LayerArg α)
    (hs : ∀ i, -(2 ^ 53) ≤ (a i).inputs ∧ (a i).inputs ≤ 2 ^ 53 ∧ -(2 ^ 53) ≤ (a i).outputs ∧ (a i).outputs ≤ 2 ^ 53) (n : Nat)
    (hok : ArgsOk a n) (hn : 0 < n) (W : Nat → Nat → Nat → α) (b : Nat → Nat → α) (loss : Loss) (hl : loss.size = (a (n - 1)).outputs)
    (o : Optim α) (accType : Int) (accPrec : α) (hp : Flt.lt accPrec Flt.zero = false) :
    wp (makeModelWith a n W b loss o accType accPrec) w (fun p w' => p.2 = none ∧ OnlyAllocs w w' ∧ p.1.accType = accType ∧
      p.1.loss = some loss ∧ ∃ net, IsNet w' p.1 net ∧ OwnNet w' net ∧ net.size = n ∧
        ∀ i, i < n → net.L i = ⟨(a i).kind, (a i).inputs.toNat, (a i).outputs.toNat, W i, b i, (net.L i).slope, (net.L i).dropout⟩ ∧
          ((a i).kind = .leaky → (net.L i).slope = (a i).slope) ∧ ((a i).kind = .dropout → (net.L i).dropout = (a i).dropout)) := by
  unfold makeModelWith
  refine wp_bind_mono (buildModel_spec w a hs n) ?_
  rintro ⟨m, e⟩ w1 ⟨ha, hiff, hb⟩
  dsimp only at hiff hb ⊢
  obtain rfl : e = none := hiff.2 hok
  obtain ⟨net, hsz, hB⟩ := hb rfl
  dsimp only
  refine wp_bind_mono (assignParams_spec hB.isNet hB.own W b) ?_
  rintro - w2 ⟨hN, hO, hf, -⟩
  have hf2 : OnlyAllocs w w2 := by
    refine Frame.trans ha hf (fun _ _ h => h) (fun x hx hr => ?_) (fun _ _ h => h) (fun _ _ h => h) (fun _ _ h => h)
      (fun _ _ h => h) (fun _ _ h => h) (fun _ _ h => h) id id id id id id
    have := hB.params x hr
    omega
  have h1 := (hok.1 (n - 1) (by omega)).2.1
  have h2 := (hs (n - 1)).2.2.2
  have hout : m.outputSize = loss.size := by
    rw [hB.isNet.output (by omega), hsz, hB.dim, argDim, if_neg (by omega)]
    omega
  refine wp_of_ok (finalize_run o accType accPrec (by omega) (by omega) hout) ?_
  rw [if_neg (by rw [hp]; decide)]
  have h3 := withOpts_allocs w2 m.modelSize.toNat (optFrom o)
  have hN' := hN.frame (m := m) h3 (Static.of_frame h3 fun _ _ h => h) (fun _ h => h) (fun _ _ h => h)
  refine ⟨rfl, hf2.trans h3, rfl, rfl, paramNet net W b net.size, ⟨hN'.size, hN'.ptrs, hN'.lay, hN'.ins, hN'.outs, hN'.input, hN'.output⟩,
    hO.frame hN h3 (fun _ h => h), hsz, fun i hi => ?_⟩
  unfold paramNet
  dsimp only
  rw [if_pos (by omega), hB.layer i (by omega)]
  refine ⟨rfl, fun h => ?_, fun h => ?_⟩ <;> simp [LayerArg.spec, newSpec, h]

/-! ### A hidden layer and one more layer -/

/-- The activation of a layer of type `k`. -/
noncomputable def actFn (k : LayerKind) (slope : ℝ) : ℝ → ℝ :=
  match k with
  | .hidden | .dropout => fun t => max t 0
  | .leaky => fun t => if t < 0 then t * slope else t
  | .sigmoid => fun t => 1 / (1 + Real.exp (-t))
  | _ => id

/-- The layer types with a useful activation: ReLU, dropout (which is ReLU in predictions), sigmoid, and leaky ReLU that is not linear. -/
def Curved (k : LayerKind) (slope : ℝ) : Prop := k = .hidden ∨ k = .dropout ∨ k = .sigmoid ∨ (k = .leaky ∧ slope ≠ 1 ∧ slope ≠ -1)

theorem Curved.ridges {k : LayerKind} {slope : ℝ} (h : Curved k slope) : Ridges (actFn k slope) := by
  rcases h with rfl | rfl | rfl | ⟨rfl, h1, h2⟩
  · exact relu_ridges
  · exact relu_ridges
  · exact logistic_ridges
  · exact leaky_ridges h1 h2

/-- The model has a layer of type k0 from d to n and a layer of type k from n to c, with the parameters W and b. -/
structure TwoLayers (net : Net ℝ) (k0 : LayerKind) (slope : ℝ) (k : LayerKind) (d n c : Nat) (W : Nat → Nat → Nat → ℝ) (b : Nat → Nat → ℝ) : Prop where
  size : net.size = 2
  kind0 : (net.L 0).kind = k0
  slope0 : k0 = .leaky → (net.L 0).slope = slope
  n0 : (net.L 0).n = d
  o0 : (net.L 0).o = n
  W0 : (net.L 0).W = W 0
  b0 : (net.L 0).b = b 0
  kind1 : (net.L 1).kind = k
  n1 : (net.L 1).n = n
  o1 : (net.L 1).o = c
  W1 : (net.L 1).W = W 1
  b1 : (net.L 1).b = b 1

/-- Row i of the input. -/
def rowVec (d : Nat) (X : Nat → Nat → ℝ) (i : Nat) : Fin d → ℝ := fun k => X i k

/-- The sum of the units that belong to output j. -/
noncomputable def tagged {d : Nat} (φ : ℝ → ℝ) (us : List (Nat × RUnit d)) (j : Nat) (x : Fin d → ℝ) : ℝ :=
  (us.map fun u => if u.1 = j then u.2.val φ x else 0).sum

theorem tagged_append {d : Nat} {φ : ℝ → ℝ} (us vs : List (Nat × RUnit d)) (j : Nat) (x : Fin d → ℝ) :
    tagged φ (us ++ vs) j x = tagged φ us j x + tagged φ vs j x := by simp [tagged]

theorem tagged_all {d : Nat} {φ : ℝ → ℝ} (us : List (RUnit d)) (j : Nat) (x : Fin d → ℝ) : tagged φ (us.map fun u => (j, u)) j x = rsum φ us x := by
  simp [tagged, rsum, Function.comp_def]

theorem tagged_none {d : Nat} {φ : ℝ → ℝ} (us : List (Nat × RUnit d)) (j : Nat) (x : Fin d → ℝ) (h : ∀ u ∈ us, u.1 ≠ j) : tagged φ us j x = 0 := by
  unfold tagged
  induction us with
  | nil => rfl
  | cons u us ih =>
    rw [List.map_cons, List.sum_cons, if_neg (h u (by simp)), ih fun v hv => h v (by simp [hv]), add_zero]

theorem exists_units {d : Nat} {φ : ℝ → ℝ} (hφ : Ridges φ) {K : Set (Fin d → ℝ)} (hK : IsCompact K) (f : (Fin d → ℝ) → Nat → ℝ) (c : Nat)
    (hf : ∀ j, j < c → ContinuousOn (fun x => f x j) K) {ε : ℝ} (hε : 0 < ε) :
    ∃ us : List (Nat × RUnit d), (∀ u ∈ us, u.1 < c) ∧ ∀ x ∈ K, ∀ j, j < c → |tagged φ us j x - f x j| < ε := by
  induction c with
  | zero => exact ⟨[], by simp, fun x _ j hj => by omega⟩
  | succ c ih =>
    obtain ⟨us, h1, h2⟩ := ih fun j hj => hf j (by omega)
    obtain ⟨vs, h3⟩ := approx_continuous hφ hK (hf c (by omega)) ε hε
    refine ⟨us ++ vs.map fun u => (c, u), fun u hu => ?_, fun x hx j hj => ?_⟩
    · rcases List.mem_append.1 hu with h | h
      · have := h1 u h; omega
      · obtain ⟨v, -, rfl⟩ := List.mem_map.1 h
        exact Nat.lt_succ_self c
    · rw [tagged_append]
      by_cases hjc : j = c
      · subst hjc
        rw [tagged_none us j x fun u hu => (h1 u hu).ne, tagged_all, zero_add]
        exact h3 x hx
      · rw [tagged_none (vs.map fun u => (c, u)) j x, add_zero]
        · exact h2 x hx j (by omega)
        · intro u hu
          obtain ⟨v, -, rfl⟩ := List.mem_map.1 hu
          exact fun h => hjc h.symm

theorem sum_getD {β : Type} (l : List β) (z : β) (f : β → ℝ) : ∑ k ∈ range l.length, f (l.getD k z) = (l.map f).sum := by
  induction l with
  | nil => simp
  | cons a l ih =>
    rw [List.length_cons, sum_range_succ', List.map_cons, List.sum_cons, add_comm]
    congr 1

/-- The unit that contributes nothing. -/
noncomputable def unit0 (d : Nat) : Nat × RUnit d := (0, ⟨0, 0, 0⟩)

/-- The parameters that make a network of the units. -/
noncomputable def unitsW {d : Nat} (us : List (Nat × RUnit d)) (l i j : Nat) : ℝ :=
  if l = 0 then (if h : i < d then (us.getD j (unit0 d)).2.a ⟨i, h⟩ else 0)
  else if (us.getD i (unit0 d)).1 = j then (us.getD i (unit0 d)).2.c else 0

noncomputable def unitsB {d : Nat} (us : List (Nat × RUnit d)) (l j : Nat) : ℝ := if l = 0 then (us.getD j (unit0 d)).2.b else 0

theorem actRow_actFn {k : LayerKind} {slope s : ℝ} (h : Curved k slope) (hs : k = .leaky → s = slope) (o : Nat) (z : Nat → ℝ) (j : Nat) :
    actRow k s o z j = actFn k slope (z j) := by
  have e1 : (Flt.one : ℝ) = 1 := by simp [Flt.one]
  have e0 : (Flt.zero : ℝ) = 0 := by simp [Flt.zero]
  rcases h with rfl | rfl | rfl | ⟨rfl, -⟩
  · simp [actRow, actFn]
  · simp [actRow, actFn]
  · simp [actRow, actFn, e1]
  · rw [hs rfl]; simp [actRow, actFn]

theorem TwoLayers.logits {net : Net ℝ} {k0 k : LayerKind} {slope : ℝ} (hk0 : Curved k0 slope) {d c : Nat} {us : List (Nat × RUnit d)}
    (h : TwoLayers net k0 slope k d us.length c (unitsW us) (unitsB us)) (X : Nat → Nat → ℝ) (i j : Nat) :
    preact (net.L 1) (netOut net X 1) i j = tagged (actFn k0 slope) us j (rowVec d X i) := by
  have e : ∀ q, netOut net X 1 i q = actFn k0 slope ((∑ p ∈ range d, X i p * unitsW us 0 p q) + unitsB us 0 q) := by
    intro q
    change infer (net.L 0) X i q = _
    unfold infer
    rw [h.kind0, actRow_actFn hk0 h.slope0, preact_real, h.n0, h.W0, h.b0]
  rw [preact_real, h.n1, h.W1, h.b1]
  unfold tagged
  rw [← sum_getD us (unit0 d)]
  have eb : unitsB us 1 j = 0 := rfl
  rw [eb, add_zero]
  refine sum_congr rfl fun q _ => ?_
  rw [e q]
  have e1 : ∑ p ∈ range d, X i p * unitsW us 0 p q = ∑ p : Fin d, rowVec d X i p * (us.getD q (unit0 d)).2.a p := by
    rw [← Fin.sum_univ_eq_sum_range]
    refine sum_congr rfl fun p _ => ?_
    unfold unitsW rowVec
    rw [if_pos rfl, dif_pos p.2]
  rw [e1]
  unfold unitsW unitsB RUnit.val
  rw [if_neg one_ne_zero, if_pos rfl]
  split
  · rw [mul_comm]
  · rw [mul_zero]

/-! ### C125 -/

/-- C125: one hidden, dropout, sigmoid or (not linear) leaky layer followed by a linear layer approximates every continuous function on every compact set: for every ε there
are a width and parameters such that Predict, on every matrix whose rows lie in the set, returns values less than ε away from the function. -/
theorem C125_universal {k0 : LayerKind} {slope : ℝ} (hk0 : Curved k0 slope) {d : Nat} {K : Set (Fin d → ℝ)} (hK : IsCompact K) (f : (Fin d → ℝ) → Nat → ℝ) (c : Nat)
    (hf : ∀ j, j < c → ContinuousOn (fun x => f x j) K) (ε : ℝ) (hε : 0 < ε) :
    ∃ (n : Nat) (W : Nat → Nat → Nat → ℝ) (b : Nat → Nat → ℝ), 0 < n ∧
      ∀ (w : World ℝ) (m : Model ℝ) (net : Net ℝ), IsNet w m net → TwoLayers net k0 slope .linear d n c W b → m.accType = 0 →
        ∀ (x : Mat) (r : Nat) (X : Nat → Nat → ℝ), IsMat w x r d X → (∀ i, i < r → (fun k : Fin d => X i k) ∈ K) →
          wp (predict m x) w (fun p w' => p.2 = none ∧ ∃ V, IsMat w' p.1 r c V ∧
            ∀ i j, i < r → j < c → |V i j - f (fun k : Fin d => X i k) j| < ε) := by
  obtain ⟨us, -, hus⟩ := exists_units hk0.ridges hK f c hf hε
  refine ⟨(unit0 d :: us).length, unitsW (unit0 d :: us), unitsB (unit0 d :: us), Nat.succ_pos _, ?_⟩
  intro w m net hN hR hacc x r X hX hin
  have d0 : net.dim 0 = d := by rw [← hN.ins 0 (by rw [hR.size]; omega), hR.n0]
  have d2 : net.dim net.size = c := by
    have := hN.outs 1 (by rw [hR.size]; omega)
    rw [hR.o1] at this
    rw [hR.size, ← this]
  refine wp_mono (predict_spec hN (by rw [hR.size]; omega) (d0.symm ▸ hX)) ?_
  rintro p w' ⟨-, -, h1, -⟩
  obtain ⟨he, hF⟩ := h1 (.inl hacc)
  have hm := hF.mat
  rw [if_neg (by omega), d2] at hm
  refine ⟨he, _, hm, fun i j hi hj => ?_⟩
  unfold decoded
  rw [if_pos hacc, hR.size]
  have e : netOut net X 2 i j = tagged (actFn k0 slope) (unit0 d :: us) j (rowVec d X i) := by
    rw [← hR.logits hk0 X i j]
    change infer (net.L 1) (netOut net X 1) i j = _
    unfold infer actRow
    rw [hR.kind1]
  rw [e]
  have e2 : tagged (actFn k0 slope) (unit0 d :: us) j (rowVec d X i) = tagged (actFn k0 slope) us j (rowVec d X i) := by
    simp [tagged, unit0, RUnit.val]
  rw [e2]
  exact hus _ (hin i hi) j hj

/-- The arguments of a layer of type k0 from d to n and a layer of type k from n to c. -/
noncomputable def twoArgs (k0 : LayerKind) (slope p : ℝ) (k : LayerKind) (d n c : Nat) (i : Nat) : LayerArg ℝ :=
  if i = 0 then ⟨k0, d, n, slope, p⟩ else ⟨k, n, c, 0, 0⟩

/-- Build the model, assign its parameters, Finalize and Predict; stop at the first error. -/
noncomputable def makeAndPredict (a : Nat → LayerArg ℝ) (n : Nat) (W : Nat → Nat → Nat → ℝ) (b : Nat → Nat → ℝ) (loss : Loss) (o : Optim ℝ)
    (accType : Int) (accPrec : ℝ) (x : Mat) : Go ℝ (Mat × Option Err) := do
  let (m, err) ← makeModelWith a n W b loss o accType accPrec
  if let some e := err then
    return (Mat.zero, some e)
  predict m x

theorem twoArgs_run (w : World ℝ) {k0 : LayerKind} {slope pd : ℝ} (hs : k0 = .leaky → 0 ≤ slope) (hpd : 0 ≤ pd ∧ pd ≤ 1) {k : LayerKind} (hk : k ≠ .leaky ∧ k ≠ .dropout) {d n c : Nat} (hd : 0 < d) (hn : 0 < n) (hc : 0 < c)
    (bd : d ≤ 2 ^ 53) (bn : n ≤ 2 ^ 53) (bc : c ≤ 2 ^ 53) (W : Nat → Nat → Nat → ℝ) (b : Nat → Nat → ℝ) (loss : Loss) (hl : loss.size = c)
    (o : Optim ℝ) (accType : Int) (accPrec : ℝ) (hp : 0 ≤ accPrec) (x : Mat) {Q : Mat × Option Err → World ℝ → Prop}
    (hQ : ∀ (w' : World ℝ) (m : Model ℝ) (net : Net ℝ), OnlyAllocs w w' → IsNet w' m net → TwoLayers net k0 slope k d n c W b → m.accType = accType →
      wp (predict m x) w' Q) :
    wp (makeAndPredict (twoArgs k0 slope pd k d n c) 2 W b loss o accType accPrec x) w Q := by
  unfold makeAndPredict
  refine wp_bind_mono (C125_params w (twoArgs k0 slope pd k d n c) ?_ 2 ⟨?_, ?_⟩ (by omega) W b loss (by simpa [twoArgs] using hl) o accType accPrec
    (by simpa using hp)) ?_
  · intro i
    unfold twoArgs
    split <;> dsimp only <;> refine ⟨?_, ?_, ?_, ?_⟩ <;> omega
  · intro i _
    unfold twoArgs
    split <;> dsimp only
    · refine ⟨by omega, by omega, fun h => ?_, fun _ => ⟨?_, ?_⟩⟩
      · simpa [Flt.zero] using hs h
      · simpa [Flt.one] using hpd.2
      · simpa [Flt.zero] using hpd.1
    · exact ⟨by omega, by omega, fun h => absurd h hk.1, fun h => absurd h hk.2⟩
  · intro i hi
    obtain rfl : i = 0 := by omega
    simp [twoArgs]
  · rintro ⟨m, e⟩ w1 ⟨he, ha, hacc, -, net, hN, -, hsz, hL⟩
    dsimp only at he hacc hN ⊢
    subst he
    have e0 := (hL 0 (by omega)).1
    have e1 := (hL 1 (by omega)).1
    refine hQ w1 m net ha hN ⟨hsz, ?_, fun h => (hL 0 (by omega)).2.1 h, ?_, ?_, ?_, ?_, ?_, ?_, ?_, ?_, ?_⟩ hacc
    · rw [e0]; simp [twoArgs]
    · rw [e0]; simp [twoArgs]
    · rw [e0]; simp [twoArgs]
    · rw [e0]
    · rw [e0]
    · rw [e1]; simp [twoArgs]
    · rw [e1]; simp [twoArgs]
    · rw [e1]; simp [twoArgs]
    · rw [e1]
    · rw [e1]

/-- C125, as a program: for every continuous function there are a width and parameters such that the program that builds the model through
the constructors, assigns the parameters with Matrix.Set, finalizes and predicts, run in any state on any matrix with rows in the set,
returns no error and values less than ε away from the function. -/
theorem C125_program {k0 : LayerKind} {slope pd : ℝ} (hk0 : Curved k0 slope) (hs : k0 = .leaky → 0 ≤ slope) (hpd : 0 ≤ pd ∧ pd ≤ 1) {d : Nat} (hd : 0 < d) (bd : d ≤ 2 ^ 53) {K : Set (Fin d → ℝ)} (hK : IsCompact K) (f : (Fin d → ℝ) → Nat → ℝ) (c : Nat)
    (hc : 0 < c) (bc : c ≤ 2 ^ 53) (hf : ∀ j, j < c → ContinuousOn (fun x => f x j) K) (ε : ℝ) (hε : 0 < ε) :
    ∃ (n : Nat) (W : Nat → Nat → Nat → ℝ) (b : Nat → Nat → ℝ), 0 < n ∧ (n ≤ 2 ^ 53 →
      ∀ (w : World ℝ) (loss : Loss) (o : Optim ℝ) (accPrec : ℝ) (x : Mat) (r : Nat) (X : Nat → Nat → ℝ), loss.size = c → 0 ≤ accPrec →
        IsMat w x r d X → (∀ i, i < r → (fun k : Fin d => X i k) ∈ K) →
          wp (makeAndPredict (twoArgs k0 slope pd .linear d n c) 2 W b loss o 0 accPrec x) w (fun p w' => p.2 = none ∧ ∃ V, IsMat w' p.1 r c V ∧
            ∀ i j, i < r → j < c → |V i j - f (fun k : Fin d => X i k) j| < ε)) := by
  obtain ⟨n, W, b, hn, h⟩ := C125_universal hk0 hK f c hf ε hε
  refine ⟨n, W, b, hn, fun bn w loss o accPrec x r X hl hp hX hin => ?_⟩
  refine twoArgs_run w hs hpd (by decide) hd hn hc bd bn bc W b loss hl o 0 accPrec hp x fun w' m net ha hN hR hacc => ?_
  exact h w' m net hN hR hacc x r X (hX.allocs ha) hin

/-! ### C126 -/

theorem exp_div_mono {S a b : ℝ} (hS : 0 < S) (h : a < b) : Real.exp a / S < Real.exp b / S :=
  div_lt_div_of_pos_right (Real.exp_lt_exp.2 h) hS

/-- C126: one layer that is not linear followed by a softmax layer tells any finite number of disjoint compact classes apart: there are a width and
parameters such that Predict returns the class of every sample, whatever samples of these classes it is given. -/
theorem C126_classes {k0 : LayerKind} {slope : ℝ} (hk0 : Curved k0 slope) {d : Nat} (c : Nat) (K : Nat → Set (Fin d → ℝ)) (hK : ∀ j, j < c → IsCompact (K j))
    (hdis : ∀ i j, i < c → j < c → i ≠ j → Disjoint (K i) (K j)) :
    ∃ (n : Nat) (W : Nat → Nat → Nat → ℝ) (b : Nat → Nat → ℝ), 0 < n ∧
      ∀ (w : World ℝ) (m : Model ℝ) (net : Net ℝ), IsNet w m net → TwoLayers net k0 slope .softmax d n c W b → m.accType = 1 →
        ∀ (x : Mat) (r : Nat) (X : Nat → Nat → ℝ) (l : Nat → Nat), IsMat w x r d X →
          (∀ i, i < r → l i < c ∧ (fun k : Fin d => X i k) ∈ K (l i)) →
          wp (predict m x) w (fun p w' => p.2 = none ∧ IsMat w' p.1 r 1 fun i _ => (l i : ℝ)) := by
  classical
  have hU : IsCompact (⋃ j ∈ Set.Iio c, K j) := (Set.finite_Iio c).isCompact_biUnion fun j hj => hK j hj
  have hcont : ∀ j, j < c → ContinuousOn (fun x => if x ∈ K j then (1 : ℝ) else 0) (⋃ j ∈ Set.Iio c, K j) := by
    intro j hj
    have hV : IsCompact (⋃ i ∈ Set.Iio c \ {j}, K i) := ((Set.finite_Iio c).sdiff).isCompact_biUnion fun i hi => hK i hi.1
    have e : (⋃ i ∈ Set.Iio c, K i) = K j ∪ ⋃ i ∈ Set.Iio c \ {j}, K i := by
      ext x
      simp only [Set.mem_iUnion, Set.mem_union, Set.mem_sdiff, Set.mem_Iio, Set.mem_singleton_iff, exists_prop]
      constructor
      · rintro ⟨i, hi, hx⟩
        by_cases h : i = j
        · exact .inl (h ▸ hx)
        · exact .inr ⟨i, ⟨hi, h⟩, hx⟩
      · rintro (hx | ⟨i, ⟨hi, -⟩, hx⟩)
        · exact ⟨j, hj, hx⟩
        · exact ⟨i, hi, hx⟩
    rw [e]
    refine ContinuousOn.union_of_isClosed ?_ ?_ (hK j hj).isClosed hV.isClosed
    · exact (continuousOn_const (c := (1 : ℝ))).congr fun x hx => if_pos hx
    · refine (continuousOn_const (c := (0 : ℝ))).congr fun x hx => if_neg fun hxj => ?_
      simp only [Set.mem_iUnion, Set.mem_sdiff, Set.mem_Iio, Set.mem_singleton_iff, exists_prop] at hx
      obtain ⟨i, ⟨hi, hij⟩, hx⟩ := hx
      exact Set.disjoint_left.1 (hdis i j hi hj hij) hx hxj
  obtain ⟨us, -, hus⟩ := exists_units hk0.ridges hU (fun x j => if x ∈ K j then 1 else 0) c hcont (ε := 1 / 2) (by norm_num)
  refine ⟨(unit0 d :: us).length, unitsW (unit0 d :: us), unitsB (unit0 d :: us), Nat.succ_pos _, ?_⟩
  intro w m net hN hR hacc x r X l hX hin
  have d0 : net.dim 0 = d := by rw [← hN.ins 0 (by rw [hR.size]; omega), hR.n0]
  have d2 : net.dim net.size = c := by
    have := hN.outs 1 (by rw [hR.size]; omega)
    rw [hR.o1] at this
    rw [hR.size, ← this]
  refine wp_mono (predict_spec hN (by rw [hR.size]; omega) (d0.symm ▸ hX)) ?_
  rintro p w' ⟨-, -, h1, -⟩
  obtain ⟨he, hF⟩ := h1 (.inr (.inl hacc))
  have hm := hF.mat
  rw [if_pos hacc, d2] at hm
  refine ⟨he, hm.congr fun i j hi _ => ?_⟩
  unfold decoded
  rw [if_neg (by omega), if_pos hacc, hR.size]
  obtain ⟨hl, hKl⟩ := hin i hi
  change rowVec d X i ∈ K (l i) at hKl
  set z : Nat → ℝ := fun j => tagged (actFn k0 slope) us j (rowVec d X i) with hz
  have hmem : rowVec d X i ∈ ⋃ j ∈ Set.Iio c, K j := by
    simp only [Set.mem_iUnion, Set.mem_Iio, exists_prop]
    exact ⟨l i, hl, hKl⟩
  have z1 : 1 / 2 < z (l i) := by
    have := hus _ hmem (l i) hl
    rw [if_pos hKl, abs_lt] at this
    linarith [this.1]
  have z2 : ∀ j, j < c → j ≠ l i → z j < 1 / 2 := by
    intro j hj hne
    have := hus _ hmem j hj
    rw [if_neg (fun hx => Set.disjoint_left.1 (hdis j (l i) hj hl hne) hx hKl), abs_lt] at this
    linarith [this.2]
  have e : ∀ j, netOut net X 2 i j = Real.exp (z j) / ∑ k ∈ range c, Real.exp (z k) := by
    intro j
    have e2 : ∀ j, preact (net.L 1) (netOut net X 1) i j = z j := by
      intro j
      rw [hR.logits hk0 X i j, hz]
      simp [tagged, unit0, RUnit.val]
    change infer (net.L 1) (netOut net X 1) i j = _
    unfold infer actRow
    rw [hR.kind1]
    simp only [e2, hR.o1, fsum_real, real_exp, real_div]
  have hS : 0 < ∑ k ∈ range c, Real.exp (z k) :=
    sum_pos (fun k _ => Real.exp_pos _) ⟨l i, mem_range.2 hl⟩
  have ef : netOut net X 2 i = fun j => Real.exp (z j) / ∑ k ∈ range c, Real.exp (z k) := funext e
  rw [ef]
  rcases scanMax_real c (fun j => Real.exp (z j) / ∑ k ∈ range c, Real.exp (z k)) with ⟨-, -, h3⟩ | ⟨j, hj, h3, -, -, h4, -⟩
  · exact absurd (h3 (l i) hl) (not_le.2 (div_pos (Real.exp_pos _) hS))
  · rw [h3]
    have : j = l i := by
      by_contra hne
      have k1 := h4 (l i) hl
      have k2 := exp_div_mono hS (lt_trans (z2 j hj hne) z1)
      exact absurd k1 (not_le.2 k2)
    rw [this]
    simp

/-- C126 for a finite data set: if samples with different labels are different, there are a width and parameters with which Predict
returns the label of every sample of the data set. -/
theorem C126_samples {k0 : LayerKind} {slope : ℝ} (hk0 : Curved k0 slope) {d : Nat} (c r : Nat) (A : Nat → Nat → ℝ) (l : Nat → Nat) (hl : ∀ i, i < r → l i < c)
    (hne : ∀ i i', i < r → i' < r → l i ≠ l i' → ∃ k, k < d ∧ A i k ≠ A i' k) :
    ∃ (n : Nat) (W : Nat → Nat → Nat → ℝ) (b : Nat → Nat → ℝ), 0 < n ∧
      ∀ (w : World ℝ) (m : Model ℝ) (net : Net ℝ), IsNet w m net → TwoLayers net k0 slope .softmax d n c W b → m.accType = 1 →
        ∀ x : Mat, IsMat w x r d A → wp (predict m x) w (fun p w' => p.2 = none ∧ IsMat w' p.1 r 1 fun i _ => (l i : ℝ)) := by
  let K : Nat → Set (Fin d → ℝ) := fun j => {x | ∃ i, i < r ∧ l i = j ∧ x = fun k : Fin d => A i k}
  have hK : ∀ j, j < c → IsCompact (K j) := by
    intro j _
    refine Set.Finite.isCompact (((Set.finite_Iio r).image fun i => fun k : Fin d => A i k).subset ?_)
    rintro x ⟨i, hi, -, rfl⟩
    exact ⟨i, hi, rfl⟩
  have hdis : ∀ i j, i < c → j < c → i ≠ j → Disjoint (K i) (K j) := by
    intro i j _ _ hij
    refine Set.disjoint_left.2 ?_
    rintro x ⟨p, hp, rfl, rfl⟩ ⟨q, hq, rfl, e⟩
    obtain ⟨k, hk, hAk⟩ := hne p q hp hq hij
    exact hAk (congrFun e ⟨k, hk⟩)
  obtain ⟨n, W, b, hn, h⟩ := C126_classes hk0 c K hK hdis
  exact ⟨n, W, b, hn, fun w m net hN hR hacc x hX => h w m net hN hR hacc x r A l hX fun i hi => ⟨hl i hi, i, hi, rfl, rfl⟩⟩

/-! ### C127 -/

theorem preact_par {L : LayerSpec ℝ} {V : Nat → Nat → ℝ} {p q s t : Nat} (h : ∀ k, k < L.n → V p k + V q k = V s k + V t k) (j : Nat) :
    preact L V p j + preact L V q j = preact L V s j + preact L V t j := by
  simp only [preact_real]
  have : (∑ k ∈ range L.n, V p k * L.W k j) + (∑ k ∈ range L.n, V q k * L.W k j) =
      (∑ k ∈ range L.n, V s k * L.W k j) + ∑ k ∈ range L.n, V t k * L.W k j := by
    rw [← sum_add_distrib, ← sum_add_distrib]
    refine sum_congr rfl fun k hk => ?_
    rw [← add_mul, ← add_mul, h k (mem_range.1 hk)]
  linarith

/-- The output of the linear layers before the last one keeps parallelograms. -/
theorem linear_par {net : Net ℝ} {X : Nat → Nat → ℝ} {p q s t : Nat}
    (hlin : ∀ i, i + 1 < net.size → (net.L i).kind = .linear ∨ ((net.L i).kind = .leaky ∧ (net.L i).slope = 1))
    (hpar : ∀ k, k < (net.L 0).n → X p k + X q k = X s k + X t k) (i : Nat) (hi : i < net.size) :
    ∀ k, k < (net.L i).n → netOut net X i p k + netOut net X i q k = netOut net X i s k + netOut net X i t k := by
  induction i with
  | zero => exact hpar
  | succ i ih =>
    intro k hk
    have h := ih (by omega)
    have e : ∀ a, netOut net X (i + 1) a k = preact (net.L i) (netOut net X i) a k := by
      intro a
      change infer (net.L i) (netOut net X i) a k = _
      unfold infer
      rcases hlin i hi with hk | ⟨hk, hs⟩
      · rw [hk]; rfl
      · rw [hk, hs]; simp [actRow]
    rw [e, e, e, e]
    exact preact_par h k

/-- The midpoints of the pre-activations of a softmax or sigmoid layer decide: the larger score of the one class at two opposite corners and of
the other class at the other two corners is impossible. -/
theorem last_par {net : Net ℝ} {X : Nat → Nat → ℝ} {p q s t : Nat} (h0 : 0 < net.size)
    (hlin : ∀ i, i + 1 < net.size → (net.L i).kind = .linear ∨ ((net.L i).kind = .leaky ∧ (net.L i).slope = 1))
    (hpar : ∀ k, k < (net.L 0).n → X p k + X q k = X s k + X t k) (j : Nat) :
    preact (net.L (net.size - 1)) (netOut net X (net.size - 1)) p j + preact (net.L (net.size - 1)) (netOut net X (net.size - 1)) q j =
      preact (net.L (net.size - 1)) (netOut net X (net.size - 1)) s j + preact (net.L (net.size - 1)) (netOut net X (net.size - 1)) t j :=
  preact_par (linear_par hlin hpar _ (by omega)) j

theorem sigmoid_lt_half (z : ℝ) : 1 / (1 + Real.exp (-z)) < 1 / 2 ↔ z < 0 := by
  have := Real.exp_pos (-z)
  rw [div_lt_div_iff_of_pos_left one_pos (by positivity) two_pos]
  constructor
  · intro h
    have : 1 < Real.exp (-z) := by linarith
    rw [Real.one_lt_exp_iff] at this
    linarith
  · intro h
    have : 1 < Real.exp (-z) := Real.one_lt_exp_iff.2 (by linarith)
    linarith

theorem flt_one_real : (Flt.one : ℝ) = 1 := by simp [Flt.one]
theorem flt_zero_real : (Flt.zero : ℝ) = 0 := by simp [Flt.zero]

/-- The order of the outputs of a softmax or sigmoid layer is the order of the pre-activations, and they are positive. -/
theorem act_order {k : LayerKind} (hk : k = .softmax ∨ k = .sigmoid) (s : ℝ) {o : Nat} (ho : 0 < o) (z : Nat → ℝ) (i j : Nat) :
    0 < actRow k s o z i ∧ (actRow k s o z i < actRow k s o z j ↔ z i < z j) := by
  rcases hk with rfl | rfl
  · have hS : 0 < ∑ k ∈ range o, Real.exp (z k) := sum_pos (fun k _ => Real.exp_pos _) ⟨0, mem_range.2 ho⟩
    simp only [actRow, fsum_real, real_exp, real_div]
    exact ⟨div_pos (Real.exp_pos _) hS, by rw [div_lt_div_iff_of_pos_right hS, Real.exp_lt_exp]⟩
  · simp only [actRow, real_exp, real_div, real_add, real_neg, flt_one_real]
    refine ⟨by have := Real.exp_pos (-z i); positivity, ?_⟩
    have h1 := Real.exp_pos (-z i)
    have h2 := Real.exp_pos (-z j)
    rw [div_lt_div_iff_of_pos_left one_pos (by positivity) (by positivity), add_lt_add_iff_left, Real.exp_lt_exp, neg_lt_neg_iff]

/-- C127: a model whose layers before the last are linear (or leaky with slope 1), with a softmax or sigmoid layer at the end, cannot label the corners of a
parallelogram (a0 + a3 = a1 + a2, as in exclusive-or) with one class at a0 and a3 and another at a1 and a2, whatever its depth, widths and
parameters: Predict with accuracy type 1 returns a different labelling. -/
theorem C127_classes (w : World ℝ) (m : Model ℝ) (net : Net ℝ) (hN : IsNet w m net) (h0 : 0 < net.size)
    (hlin : ∀ i, i + 1 < net.size → (net.L i).kind = .linear ∨ ((net.L i).kind = .leaky ∧ (net.L i).slope = 1))
    (hlast : (net.L (net.size - 1)).kind = .softmax ∨ (net.L (net.size - 1)).kind = .sigmoid) (hacc : m.accType = 1) (x : Mat)
    (A : Nat → Nat → ℝ) (hX : IsMat w x 4 (net.dim 0) A) (hpar : ∀ k, k < net.dim 0 → A 0 k + A 3 k = A 1 k + A 2 k) (l : Nat → Nat)
    (hl03 : l 0 = l 3) (hl12 : l 1 = l 2) (hl01 : l 0 ≠ l 1) :
    wp (predict m x) w (fun p w' => p.2 = none ∧ ¬ IsMat w' p.1 4 1 fun i _ => (l i : ℝ)) := by
  refine wp_mono (predict_spec hN h0 hX) ?_
  rintro p w' ⟨-, -, h1, -⟩
  obtain ⟨he, hF⟩ := h1 (.inr (.inl hacc))
  refine ⟨he, fun hM => ?_⟩
  have hm := hF.mat
  rw [if_pos hacc] at hm
  have hdim : net.dim net.size = (net.L (net.size - 1)).o := by
    have := hN.outs (net.size - 1) (by omega)
    rw [Nat.sub_add_cancel h0] at this
    exact this.symm
  have ho : 0 < (net.L (net.size - 1)).o := (hN.lay (net.size - 1) (by omega)).wmat.cpos
  set z := preact (net.L (net.size - 1)) (netOut net A (net.size - 1)) with hz
  have hout : ∀ i, netOut net A net.size i = actRow (net.L (net.size - 1)).kind (net.L (net.size - 1)).slope (net.L (net.size - 1)).o (z i) := by
    intro i
    obtain ⟨s, hs⟩ : ∃ s, net.size = s + 1 := ⟨net.size - 1, by omega⟩
    rw [hz, hs]
    rfl
  have hzp : ∀ j, z 0 j + z 3 j = z 1 j + z 2 j := fun j => last_par h0 hlin (by rw [hN.ins 0 h0]; exact hpar) j
  have key : ∀ i, i < 4 → l i < (net.L (net.size - 1)).o ∧ (∀ k, k < (net.L (net.size - 1)).o → z i k ≤ z i (l i)) ∧ ∀ k, k < l i → z i k < z i (l i) := by
    intro i hi
    have e : decoded m.accType (net.dim net.size) (netOut net A net.size) i 0 = (l i : ℝ) := hm.entries_unique hM hi (by omega)
    unfold decoded at e
    rw [if_neg (by omega), if_pos hacc, hdim, hout] at e
    rcases scanMax_real (net.L (net.size - 1)).o (actRow (net.L (net.size - 1)).kind (net.L (net.size - 1)).slope (net.L (net.size - 1)).o (z i))
      with ⟨-, -, h3⟩ | ⟨j, hj, h3, -, -, h4, h5⟩
    · exact absurd (h3 0 ho) (not_le.2 (act_order hlast _ ho (z i) 0 0).1)
    · rw [h3] at e
      have : j = l i := by simpa using e
      subst this
      refine ⟨hj, fun k hk => ?_, fun k hk => (act_order hlast _ ho (z i) k _).2.1 (h5 k hk)⟩
      have := h4 k hk
      rw [← not_lt, (act_order hlast _ ho (z i) _ k).2, not_lt] at this
      exact this
  obtain ⟨o0, a0, b0⟩ := key 0 (by omega)
  obtain ⟨o1, a1, b1⟩ := key 1 (by omega)
  obtain ⟨o2, a2, b2⟩ := key 2 (by omega)
  obtain ⟨o3, a3, b3⟩ := key 3 (by omega)
  rw [← hl03] at a3 b3 o3
  rw [← hl12] at a2 b2 o2
  have e0 := hzp (l 0)
  have e1 := hzp (l 1)
  rcases Nat.lt_or_gt_of_ne hl01 with hlt | hlt
  · have := b1 _ hlt
    have := b2 _ hlt
    have := a0 _ o1
    have := a3 _ o1
    linarith
  · have := b0 _ hlt
    have := b3 _ hlt
    have := a1 _ o0
    have := a2 _ o0
    linarith

/-- C127 for binary outputs (accuracy type 2, sigmoid layer at the end): no column of the prediction is exclusive-or. -/
theorem C127_binary (w : World ℝ) (m : Model ℝ) (net : Net ℝ) (hN : IsNet w m net) (h0 : 0 < net.size)
    (hlin : ∀ i, i + 1 < net.size → (net.L i).kind = .linear ∨ ((net.L i).kind = .leaky ∧ (net.L i).slope = 1)) (hlast : (net.L (net.size - 1)).kind = .sigmoid) (hacc : m.accType = 2) (x : Mat)
    (A Y : Nat → Nat → ℝ) (hX : IsMat w x 4 (net.dim 0) A) (hpar : ∀ k, k < net.dim 0 → A 0 k + A 3 k = A 1 k + A 2 k) (j : Nat)
    (hj : j < net.dim net.size) (h03 : Y 0 j = Y 3 j) (h12 : Y 1 j = Y 2 j) (h01 : Y 0 j ≠ Y 1 j) :
    wp (predict m x) w (fun p w' => p.2 = none ∧ ¬ IsMat w' p.1 4 (net.dim net.size) Y) := by
  refine wp_mono (predict_spec hN h0 hX) ?_
  rintro p w' ⟨-, -, h1, -⟩
  obtain ⟨he, hF⟩ := h1 (.inr (.inr hacc))
  refine ⟨he, fun hM => ?_⟩
  have hm := hF.mat
  rw [if_neg (by omega)] at hm
  set z := preact (net.L (net.size - 1)) (netOut net A (net.size - 1)) with hz
  have hout : ∀ i, netOut net A net.size i j = 1 / (1 + Real.exp (-z i j)) := by
    intro i
    obtain ⟨s, hs⟩ : ∃ s, net.size = s + 1 := ⟨net.size - 1, by omega⟩
    have : netOut net A net.size i j = actRow (net.L (net.size - 1)).kind (net.L (net.size - 1)).slope (net.L (net.size - 1)).o (z i) j := by
      rw [hz, hs]
      rfl
    rw [this, hlast]
    simp only [actRow, real_exp, real_div, real_add, real_neg, flt_one_real]
  have hzp : z 0 j + z 3 j = z 1 j + z 2 j := last_par h0 hlin (by rw [hN.ins 0 h0]; exact hpar) j
  have key : ∀ i, i < 4 → Y i j = if z i j < 0 then 0 else 1 := by
    intro i hi
    have e : decoded m.accType (net.dim net.size) (netOut net A net.size) i j = Y i j := hm.entries_unique hM hi hj
    unfold decoded at e
    rw [if_neg (by omega), if_neg (by omega), hout, real_lt, real_half, flt_zero_real, flt_one_real] at e
    rw [← e]
    simp only [decide_eq_true_eq, sigmoid_lt_half]
  rw [key 0 (by omega), key 3 (by omega)] at h03
  rw [key 1 (by omega), key 2 (by omega)] at h12
  rw [key 0 (by omega), key 1 (by omega)] at h01
  split_ifs at h03 h12 h01 <;> first | exact h01 rfl | (norm_num at h03; done) | (norm_num at h12; done) | linarith

/-- The four inputs of exclusive-or. -/
def xorIn (i k : Nat) : ℝ := if (if k = 0 then i / 2 else i % 2) = 1 then 1 else 0

/-- C127, the other side: with a layer in front of the softmax layer that is not linear, exclusive-or is possible. -/
theorem C127_hidden {k0 : LayerKind} {slope : ℝ} (hk0 : Curved k0 slope) : ∃ (n : Nat) (W : Nat → Nat → Nat → ℝ) (b : Nat → Nat → ℝ), 0 < n ∧
    ∀ (w : World ℝ) (m : Model ℝ) (net : Net ℝ), IsNet w m net → TwoLayers net k0 slope .softmax 2 n 2 W b → m.accType = 1 →
      ∀ x : Mat, IsMat w x 4 2 xorIn →
        wp (predict m x) w (fun p w' => p.2 = none ∧ IsMat w' p.1 4 1 fun i _ => (([0, 1, 1, 0].getD i 0 : Nat) : ℝ)) := by
  refine C126_samples hk0 2 4 xorIn (fun i => [0, 1, 1, 0].getD i 0) (fun i hi => ?_) fun i i' hi hi' hne => ?_
  · match i, hi with
    | 0, _ | 1, _ | 2, _ | 3, _ => decide
  · by_contra hc
    push Not at hc
    have h0 := hc 0 (by omega)
    have h1 := hc 1 (by omega)
    match i, i', hi, hi', hne with
    | 0, 0, _, _, h | 1, 1, _, _, h | 2, 2, _, _, h | 3, 3, _, _, h => exact h rfl
    | 0, 1, _, _, _ | 0, 2, _, _, _ | 0, 3, _, _, _ | 1, 0, _, _, _ | 1, 2, _, _, _ | 1, 3, _, _, _
    | 2, 0, _, _, _ | 2, 1, _, _, _ | 2, 3, _, _, _ | 3, 0, _, _, _ | 3, 1, _, _, _ | 3, 2, _, _, _ => simp [xorIn] at h0 h1

/-- C127, the condition on the last layer is needed: RowMax starts its scan with the value 0 (misc.go:39-41), which bends the decision of a
linear last layer, so that a single linear layer with these parameters predicts exclusive-or. -/
theorem C127_linear (w : World ℝ) (m : Model ℝ) (net : Net ℝ) (hN : IsNet w m net) (hs : net.size = 1) (hk : (net.L 0).kind = .linear)
    (hn : (net.L 0).n = 2) (ho : (net.L 0).o = 2) (hW : ∀ i, i < 2 → (net.L 0).W i 0 = 2 ∧ (net.L 0).W i 1 = 1)
    (hb : (net.L 0).b 0 = -2 ∧ (net.L 0).b 1 = 0) (hacc : m.accType = 1) (x : Mat) (hX : IsMat w x 4 2 xorIn) :
    wp (predict m x) w (fun p w' => p.2 = none ∧ IsMat w' p.1 4 1 fun i _ => (([0, 1, 1, 0].getD i 0 : Nat) : ℝ)) := by
  have d0 : net.dim 0 = 2 := by rw [← hN.ins 0 (by omega), hn]
  have d1 : net.dim net.size = 2 := by rw [hs, ← hN.outs 0 (by omega), ho]
  refine wp_mono (predict_spec hN (by omega) (d0.symm ▸ hX)) ?_
  rintro p w' ⟨-, -, h1, -⟩
  obtain ⟨he, hF⟩ := h1 (.inr (.inl hacc))
  have hm := hF.mat
  rw [if_pos hacc, d1] at hm
  refine ⟨he, hm.congr fun i j hi _ => ?_⟩
  unfold decoded
  rw [if_neg (by omega), if_pos hacc, hs]
  have e : ∀ j, netOut net xorIn 1 i j = xorIn i 0 * (net.L 0).W 0 j + xorIn i 1 * (net.L 0).W 1 j + (net.L 0).b j := by
    intro j
    change infer (net.L 0) xorIn i j = _
    unfold infer actRow
    rw [hk]
    simp only [preact_real, hn, sum_range_succ, sum_range_zero, zero_add]
  have e0 : netOut net xorIn 1 i 0 = 2 * xorIn i 0 + 2 * xorIn i 1 - 2 := by
    rw [e, (hW 0 (by omega)).1, (hW 1 (by omega)).1, hb.1]; ring
  have e1 : netOut net xorIn 1 i 1 = xorIn i 0 + xorIn i 1 := by
    rw [e, (hW 0 (by omega)).2, (hW 1 (by omega)).2, hb.2]; ring
  have es : scanMax 2 (netOut net xorIn 1 i) = scanMax 2 fun j => if j = 0 then 2 * xorIn i 0 + 2 * xorIn i 1 - 2 else xorIn i 0 + xorIn i 1 := by
    unfold scanMax accN
    simp only [accN, e0, e1]
    simp
  rw [es]
  unfold scanMax
  simp only [accN]
  match i, hi with
  | 0, _ => norm_num [xorIn, Flt.zero]
  | 1, _ => norm_num [xorIn, Flt.zero]
  | 2, _ => norm_num [xorIn, Flt.zero]
  | 3, _ => norm_num [xorIn, Flt.zero]

/-! ### Examples -/

/-- There is such a model (hypotheses of C127_linear). -/
example : ∃ (w : World ℝ) (m : Model ℝ) (net : Net ℝ) (x : Mat), IsNet w m net ∧ net.size = 1 ∧ (net.L 0).kind = .linear ∧
    (net.L 0).n = 2 ∧ (net.L 0).o = 2 ∧ (∀ i, i < 2 → (net.L 0).W i 0 = 2 ∧ (net.L 0).W i 1 = 1) ∧ ((net.L 0).b 0 = -2 ∧ (net.L 0).b 1 = 0) ∧
    m.accType = 1 ∧ IsMat w x 4 2 xorIn := by
  obtain ⟨w, net, x, h1, h2, h3, h4, -, h5, -⟩ := exists_net (α := ℝ) 1
    (fun _ => ⟨.linear, 2, 2, fun _ j => if j = 0 then 2 else 1, fun j => if j = 0 then -2 else 0, 0, 0⟩) (fun _ => by simp)
    (fun _ => rfl) { (newModel : Model ℝ) with accType := 1 } (r := 4) (by omega) xorIn
  rw [h3] at h5
  refine ⟨w, _, net, x, h4, h1, ?_, ?_, ?_, fun i _ => ?_, ?_, rfl, h5⟩ <;> rw [h2] <;> simp

/-- There are models with any parameters (hypotheses of C125_universal, C126 and C127_hidden). -/
theorem exists_twoLayers (k0 : LayerKind) (slope : ℝ) (k : LayerKind) {d n c : Nat} (hd : 0 < d) (hn : 0 < n) (hc : 0 < c) (W : Nat → Nat → Nat → ℝ) (b : Nat → Nat → ℝ)
    (accType : Int) {r : Nat} (hr : 0 < r) (X : Nat → Nat → ℝ) :
    ∃ (w : World ℝ) (m : Model ℝ) (net : Net ℝ) (x : Mat), IsNet w m net ∧ TwoLayers net k0 slope k d n c W b ∧ m.accType = accType ∧ IsMat w x r d X := by
  obtain ⟨w, net, x, h1, h2, h3, h4, -, h5, -⟩ := exists_net 2 (fun i => match i with
    | 0 => ⟨k0, d, n, W 0, b 0, slope, 0⟩
    | 1 => ⟨k, n, c, W 1, b 1, 0, 0⟩
    | _ => ⟨.linear, c, c, W 1, b 1, 0, 0⟩) (fun i => by match i with | 0 => exact ⟨hd, hn⟩ | 1 => exact ⟨hn, hc⟩ | _ + 2 => exact ⟨hc, hc⟩)
    (fun i => by match i with | 0 => rfl | 1 => rfl | _ + 2 => rfl) { (newModel : Model ℝ) with accType := accType } hr X
  rw [h3] at h5
  refine ⟨w, _, net, x, h4, ?_, rfl, h5⟩
  refine ⟨h1, ?_, fun _ => ?_, ?_, ?_, ?_, ?_, ?_, ?_, ?_, ?_, ?_⟩ <;> (rw [h2]; rfl)

/-- The distance to the origin on the unit square, to within 1/100, on five points of the square, with sigmoid units. -/
example : ∃ (w : World ℝ) (m : Model ℝ) (x : Mat),
    wp (predict m x) w (fun p w' => p.2 = none ∧ ∃ V, IsMat w' p.1 5 1 V ∧ ∀ i, i < 5 → |V i 0 - Real.sqrt ((i / 4) ^ 2 + (i / 8) ^ 2)| < 1 / 100) := by
  obtain ⟨n, W, b, hn, h⟩ := C125_universal (k0 := .sigmoid) (slope := 0) (.inr (.inr (.inl rfl))) (d := 2) (K := Set.Icc 0 1) isCompact_Icc (fun x _ => Real.sqrt (x 0 ^ 2 + x 1 ^ 2)) 1
    (fun j _ => by fun_prop) (1 / 100) (by norm_num)
  obtain ⟨w, m, net, x, h1, h2, h3, h4⟩ := exists_twoLayers .sigmoid 0 .linear (d := 2) (c := 1) (by omega) hn (by omega) W b 0 (r := 5) (by omega)
    fun i k => if k = 0 then (i : ℝ) / 4 else i / 8
  refine ⟨w, m, x, wp_mono (h w m net h1 h2 h3 x 5 _ h4 fun i hi => ?_) ?_⟩
  · have : (i : ℝ) ≤ 4 := by exact_mod_cast Nat.lt_succ_iff.1 hi
    refine ⟨fun k => ?_, fun k => ?_⟩
    · dsimp only; split <;> simp only [Pi.zero_apply] <;> positivity
    · dsimp only; split <;> simp only [Pi.one_apply] <;> linarith
  · rintro p w' ⟨e, V, hV, hc⟩
    exact ⟨e, V, hV, fun i hi => by simpa using hc i 0 hi (by omega)⟩

/-- A linear layer 2→3 and a softmax layer 3→2 on exclusive-or (hypotheses of C127_classes). -/
example : ∃ (w : World ℝ) (m : Model ℝ) (net : Net ℝ) (x : Mat), IsNet w m net ∧ 0 < net.size ∧
    (∀ i, i + 1 < net.size → (net.L i).kind = .linear ∨ ((net.L i).kind = .leaky ∧ (net.L i).slope = 1)) ∧ (net.L (net.size - 1)).kind = .softmax ∧ m.accType = 1 ∧
    IsMat w x 4 (net.dim 0) xorIn ∧ ∀ k, k < net.dim 0 → xorIn 0 k + xorIn 3 k = xorIn 1 k + xorIn 2 k := by
  obtain ⟨w, net, x, h1, h2, h3, h4, -, h5, -⟩ := exists_net (α := ℝ) 2 (fun i => match i with
    | 0 => ⟨.linear, 2, 3, fun i j => i + j, fun _ => 1, 0, 0⟩
    | 1 => ⟨.softmax, 3, 2, fun i j => i - j, fun j => j, 0, 0⟩
    | _ => ⟨.linear, 2, 2, fun _ _ => 1, fun _ => 0, 0, 0⟩) (fun i => by match i with | 0 => simp | 1 => simp | _ + 2 => simp)
    (fun i => by match i with | 0 => rfl | 1 => rfl | _ + 2 => rfl) { (newModel : Model ℝ) with accType := 1 } (r := 4) (by omega) xorIn
  refine ⟨w, _, net, x, h4, by omega, fun i hi => ?_, ?_, rfl, h5, fun k hk => ?_⟩
  · obtain rfl : i = 0 := by omega
    rw [h2]; exact .inl rfl
  · rw [h1, h2]; rfl
  · rw [h3] at hk
    match k, hk with
    | 0, _ => simp [xorIn]
    | 1, _ => simp [xorIn]

/-- One sigmoid layer 2→1 on exclusive-or (hypotheses of C127_binary). -/
example : ∃ (w : World ℝ) (m : Model ℝ) (net : Net ℝ) (x : Mat), IsNet w m net ∧ 0 < net.size ∧
    (∀ i, i + 1 < net.size → (net.L i).kind = .linear ∨ ((net.L i).kind = .leaky ∧ (net.L i).slope = 1)) ∧ (net.L (net.size - 1)).kind = .sigmoid ∧ m.accType = 2 ∧
    IsMat w x 4 (net.dim 0) xorIn ∧ (∀ k, k < net.dim 0 → xorIn 0 k + xorIn 3 k = xorIn 1 k + xorIn 2 k) ∧ 0 < net.dim net.size := by
  obtain ⟨w, net, x, h1, h2, h3, h4, -, h5, -⟩ := exists_net (α := ℝ) 1 (fun i => match i with
    | 0 => ⟨.sigmoid, 2, 1, fun i j => i + j, fun _ => 1, 0, 0⟩
    | _ => ⟨.linear, 1, 1, fun _ _ => 1, fun _ => 0, 0, 0⟩) (fun i => by match i with | 0 => simp | _ + 1 => simp)
    (fun i => by match i with | 0 => rfl | _ + 1 => rfl) { (newModel : Model ℝ) with accType := 2 } (r := 4) (by omega) xorIn
  refine ⟨w, _, net, x, h4, by omega, fun i hi => by omega, ?_, rfl, h5, fun k hk => ?_, by rw [h1, h3]; exact Nat.one_pos⟩
  · rw [h1, h2]; rfl
  · rw [h3] at hk
    match k, hk with
    | 0, _ => simp [xorIn]
    | 1, _ => simp [xorIn]

/-- A leaky layer 2→3 and a sigmoid layer 3→1 (hypotheses of C125_params). -/
example : ∃ a : Nat → LayerArg ℝ, (∀ i, -(2 ^ 53) ≤ (a i).inputs ∧ (a i).inputs ≤ 2 ^ 53 ∧ -(2 ^ 53) ≤ (a i).outputs ∧ (a i).outputs ≤ 2 ^ 53) ∧
    ArgsOk a 2 := by
  refine ⟨fun i => if i = 0 then ⟨.leaky, 2, 3, 1 / 100, 0⟩ else ⟨.sigmoid, 3, 1, 0, 0⟩, fun i => ?_, fun i _ => ?_, fun i hi => ?_⟩
  · dsimp only; split <;> norm_num
  · dsimp only; split
    · refine ⟨by norm_num, by norm_num, fun _ => by rw [real_lt, flt_zero_real]; norm_num, by simp⟩
    · simp
  · obtain rfl : i = 0 := by omega
    simp

end NN
