import Verif.IEEE.Error
import Verif.IEEE.F64
import Verif.Real.Inst
import Verif.Spec.Fit
/-
Arithmetic with error bounds: exact real numbers, each with a bound on how far the float64 that stands for it may be away.  Every
operation gives the exact result, and the bound that follows from the bounds of the operands and the rounding of the operation.  Computing in
this arithmetic is the usual running error analysis.
-/

namespace NN
open Classical F64

/-- A real number X, a bound e on the distance of the float64 that stands for it, and the condition `ok` under which that float64 is finite
and within the bound. -/
structure Iv where
  X : ℝ
  e : ℝ
  ok : Prop

/-- X is itself a float64. -/
def IsF64 (X : ℝ) : Prop := ∃ f : F64, f.Finite ∧ f.val = X

/-- Rounding a number within h of X: free if there is nothing to round, otherwise half an ulp. -/
noncomputable def Iv.rnd (X h : ℝ) (p : Prop) : Iv :=
  ⟨X, if h = 0 ∧ IsF64 X then 0 else h + ueps * (|X| + h) + tiny, p ∧ |X| + h ≤ big⟩

/-- The accuracy of math.Pow for integral exponents, which Go does not state: `q` is a bound for its relative error. -/
class PowErr where
  q : ℝ

/-- math.Pow(x, n) has a relative error of at most q (and an absolute error of at most 2^-1074 where it underflows), if the power is at most
2^1023. -/
def PowAcc [Libm] [PowErr] : Prop := 0 ≤ PowErr.q ∧ ∀ (x y : F64) (n : Nat), x.Finite → y.Finite → y.val = n → |x.val| ^ n ≤ 2 ^ (1023 : ℤ) →
  (F64.pow x y).Finite ∧ |(F64.pow x y).val - x.val ^ n| ≤ PowErr.q * |x.val| ^ n + 2 * tiny

/-- The operations.  Comparisons are those of the exact numbers.  Nothing is claimed for `math.Min`, `math.Log` and the conversion to
integers, which training does not use. -/
noncomputable instance [PowErr] : Flt Iv where
  ofInt n := Iv.rnd n 0 True
  add a b := Iv.rnd (a.X + b.X) (a.e + b.e) (a.ok ∧ b.ok)
  sub a b := Iv.rnd (a.X - b.X) (a.e + b.e) (a.ok ∧ b.ok)
  mul a b := Iv.rnd (a.X * b.X) (|a.X| * b.e + |b.X| * a.e + a.e * b.e) (a.ok ∧ b.ok)
  div a b := Iv.rnd (a.X / b.X) ((a.e * |b.X| + |a.X| * b.e) / ((|b.X| - b.e) * |b.X|)) (a.ok ∧ b.ok ∧ b.e < |b.X|)
  neg a := ⟨-a.X, a.e, a.ok⟩
  lt a b := Flt.lt a.X b.X
  le a b := Flt.le a.X b.X
  eq a b := Flt.eq a.X b.X
  max a b := ⟨Max.max a.X b.X,
    if a.X + a.e < b.X - b.e then b.e else if b.X + b.e < a.X - a.e then a.e else Max.max a.e b.e, a.ok ∧ b.ok⟩
  min a b := ⟨Min.min a.X b.X, 0, False⟩
  abs a := ⟨|a.X|, a.e, a.ok⟩
  pow a b :=
    let h := (|a.X| + a.e) ^ b.X - |a.X| ^ b.X
    ⟨a.X ^ b.X, if h = 0 ∧ b.X = 2 ∧ IsF64 (a.X ^ b.X) then 0 else h + PowErr.q * (|a.X| + a.e) ^ b.X + 2 * tiny,
      a.ok ∧ b.ok ∧ b.e = 0 ∧ (∃ n : Nat, b.X = n) ∧ (|a.X| + a.e) ^ b.X ≤ 2 ^ (1023 : ℤ)⟩
  exp a :=
    let h := Real.exp a.X * (Real.exp a.e - 1)
    ⟨Real.exp a.X, h + 2 * ueps * Real.exp (a.X + a.e) + 2 * tiny, a.ok ∧ Real.exp (a.X + a.e) ≤ 2 ^ (1023 : ℤ)⟩
  log a := ⟨Real.log a.X, 0, False⟩
  sqrt a := Iv.rnd (Real.sqrt a.X) (a.e / Real.sqrt a.X) (a.ok ∧ a.e ≤ a.X)
  toInt a := Flt.toInt a.X
  half := Iv.rnd (1 / 2) 0 True
  eps7 := Iv.rnd (1 / 10 ^ 7) 0 True
  oneSubEps7 := Iv.rnd (1 - 1 / 10 ^ 7) 0 True

/-- The comparison of a and b comes out the same on float64: the bounds leave no doubt, or both are exact. -/
def Sure (a b : Iv) : Prop := a.ok ∧ b.ok ∧ (a.e + b.e < |a.X - b.X| ∨ a.e = 0 ∧ b.e = 0)

/-- A float64 as an exact number. -/
noncomputable def F64.iv (x : F64) : Iv := ⟨x.val, 0, x.Finite⟩

section Map
variable {α β : Type}

/-- A layer with every number mapped by φ. -/
def LayerSpec.map (φ : α → β) (L : LayerSpec α) : LayerSpec β :=
  ⟨L.kind, L.n, L.o, fun i j => φ (L.W i j), fun j => φ (L.b j), φ L.slope, φ L.dropout⟩

/-- A model with every number mapped by φ. -/
def Net.map (φ : α → β) (net : Net α) : Net β := ⟨net.size, net.dim, net.lp, net.wm, net.bm, fun k => (net.L k).map φ⟩

/-- An optimizer with every number mapped by φ. -/
def OptSpec.map (φ : α → β) (S : OptSpec α) : OptSpec β :=
  ⟨S.kind, φ S.lr, φ S.decay, φ S.momentum, φ S.epsilon, φ S.beta1, φ S.beta2, S.t, fun i j => φ (S.vw i j), fun i j => φ (S.vb i j),
    fun i j => φ (S.cw i j), fun i j => φ (S.cb i j)⟩

end Map

section Safe
variable [PowErr]

/-- The comparisons in the draw of one bit of a dropout mask come out the same on float64. -/
def DropSure (d u : Iv) : Prop :=
  let P : Iv := Flt.one -. d
  Sure Flt.half P ∧ (if Flt.lt Flt.half P then Sure u (Flt.one -. P) ∧ Sure (Flt.one -. P) P else Sure u P)

/-- The comparisons in one step of gradient descent come out the same on float64, where V are the values of the forward pass. -/
structure StepSafe (m : Model Iv) (loss : LossKind) (r : Nat) (u : Nat → Iv) (V : Nat → Nat → Nat → Iv) (Y : Nat → Nat → Iv) (net : Net Iv) :
    Prop where
  /-- the slope of LeakyReLU in the forward pass -/
  leaky : ∀ k, k < net.size → (net.L k).kind = .leaky → ∀ i j, i < r → j < net.dim (k + 1) → Sure (preact (net.L k) (V k) i j) Flt.zero
  /-- the masks of dropout -/
  drop : ∀ k, k < net.size → (net.L k).kind = .dropout → ∀ i j, i < r → j < net.dim (k + 1) →
    DropSure (net.L k).dropout (u (dropDraws net r k + (i * (net.L k).o + j)))
  /-- the derivatives of ReLU and LeakyReLU -/
  relu : ∀ k, k < net.size → (net.L k).kind = .hidden ∨ (net.L k).kind = .leaky ∨ (net.L k).kind = .dropout → ∀ i j, i < r →
    j < net.dim (k + 1) → Sure (if k + 1 = net.size ∧ ¬ Fused m net then afterLoss loss (V (k + 1)) i j else V (k + 1) i j) Flt.zero
  /-- the sign of the mean absolute error -/
  mae : loss = .mae → ∀ i j, i < r → j < net.dim net.size → Sure (V net.size i j -. Y i j) Flt.zero
  /-- the clipping in binary cross-entropy -/
  bce : loss = .bce → ∀ i j, i < r → j < net.dim net.size → Sure (V net.size i j) Flt.zero ∧ Sure Flt.one (V net.size i j)
  /-- the targets of cross-entropy after Softmax -/
  onehot : Fused m net → ∀ i j, i < r → j < net.dim net.size → Sure (Y i j) Flt.one

/-- Gradient descent over a list of batches with error bounds, like `Descent`, in which every comparison is certain. -/
inductive SafeDescent (m : Model Iv) (loss : LossKind) (u : Nat → Iv) (X Y : Nat → Nat → Iv) (net : Net Iv) (S : Nat → OptSpec Iv)
    (p : Nat) : List (Nat × Nat) → Net Iv → (Nat → OptSpec Iv) → Nat → Prop
  | start : SafeDescent m loss u X Y net S p [] net S p
  | step {bs : List (Nat × Nat)} {b : Nat × Nat} {net1 net2 : Net Iv} {S1 S2 : Nat → OptSpec Iv} {p1 : Nat} :
      SafeDescent m loss u X Y net S p bs net1 S1 p1 →
      StepSafe m loss b.2 (fun q => u (p1 + q)) (trainVals net1 b.2 (fun q => u (p1 + q)) fun i j => X (b.1 + i) j) (fun i j => Y (b.1 + i) j) net1 →
      TrainStep m loss b.2 (fun q => u (p1 + q)) (fun i j => X (b.1 + i) j) (fun i j => Y (b.1 + i) j) net1 S1 net2 S2 →
      SafeDescent m loss u X Y net S p (bs ++ [b]) net2 S2 (p1 + dropDraws net1 b.2 net1.size)

end Safe

end NN
