import Verif.Spec.NetGrad
/- What C145 says about the parameters of a network in training. -/

namespace NN
open Finset

/-- All weights and biases lie in [-R, R]. -/
def ParamsIn (net : Net ℝ) (R : ℝ) : Prop :=
  ∀ l, l < net.size → (∀ k j, k < (net.L l).n → j < (net.L l).o → |(net.L l).W k j| ≤ R) ∧ ∀ j, j < (net.L l).o → |(net.L l).b j| ≤ R

/-- On each of the r samples, every ReLU and leaky ReLU unit is on the same side of its kink in both networks, and not at the kink. -/
def SameSides (net net' : Net ℝ) (r : Nat) (X : Nat → Nat → ℝ) : Prop :=
  ∀ l, l < net.size → (net.L l).kind = .hidden ∨ (net.L l).kind = .leaky → ∀ i j, i < r → j < net.dim (l + 1) →
    0 < preact (net'.L l) (netOut net' X l) i j * preact (net.L l) (netOut net X l) i j

/-- The squared length of a gradient. -/
noncomputable def gradSq (net : Net ℝ) (dW : Nat → Nat → Nat → ℝ) (dB : Nat → Nat → ℝ) : ℝ :=
  ∑ l ∈ range net.size, ((∑ k ∈ range (net.L l).n, ∑ j ∈ range (net.L l).o, dW l k j ^ 2) + ∑ j ∈ range (net.L l).o, dB l j ^ 2)

/-- A smooth training objective: the squared error, or the cross-entropy of a last softmax layer for one-hot targets. -/
def SmoothLoss (net : Net ℝ) (loss : LossKind) (r : Nat) (Y : Nat → Nat → ℝ) : Prop :=
  loss = .mse ∨ loss = .ce ∧ (net.L (net.size - 1)).kind = .softmax ∧
    ∃ lab : Nat → Nat, ∀ i, i < r → lab i < net.dim net.size ∧ ∀ j, j < net.dim net.size → Y i j = if j = lab i then 1 else 0

end NN
