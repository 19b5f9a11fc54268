import Verif.Spec.Grad
import Verif.Spec.Model
import Verif.Model.Loss
import Mathlib.Analysis.SpecialFunctions.Log.Basic
/-
What it means for a list of matrices to be the exact gradient of the training objective of a whole model: along every
differentiable curve of all the parameters, the derivative of the objective of what Forward computes is the inner
product of the matrices with the velocity of the curve.
-/

namespace NN
open Finset

/-- In every state that holds a model with the layers of `net` and an r-row input `X`, the last matrix that Forward
returns has the entries `F`. -/
def NetComputes (net : Net ℝ) (r : Nat) (X F : Nat → Nat → ℝ) : Prop :=
  ∀ (w : World ℝ) (m : Model ℝ) (x : Mat) (training : Bool) lp wm bm, IsNet w m { net with lp, wm, bm } →
    IsMat w x r (net.dim 0) X →
    wp (modelForward m x training) w (fun p w' => p.2 = none ∧ ∃ out, p.1.getLast? = some out ∧
      IsMat w' out r (net.dim net.size) F)

/-- A differentiable curve of all the weights and biases through those of `net` at time 0, with its velocity. -/
structure NetCurve (net : Net ℝ) where
  Wt : Nat → ℝ → Nat → Nat → ℝ
  bt : Nat → ℝ → Nat → ℝ
  W' : Nat → Nat → Nat → ℝ
  b' : Nat → Nat → ℝ
  hW : ∀ l k j, l < net.size → k < (net.L l).n → j < (net.L l).o → HasDerivAt (fun t => Wt l t k j) (W' l k j) 0
  hb : ∀ l j, l < net.size → j < (net.L l).o → HasDerivAt (fun t => bt l t j) (b' l j) 0
  W0 : ∀ l k j, l < net.size → k < (net.L l).n → j < (net.L l).o → Wt l 0 k j = (net.L l).W k j
  b0 : ∀ l j, l < net.size → j < (net.L l).o → bt l 0 j = (net.L l).b j

/-- The model at time t. -/
def NetCurve.at {net : Net ℝ} (c : NetCurve net) (t : ℝ) : Net ℝ :=
  { net with L := fun l => { net.L l with W := c.Wt l t, b := c.bt l t } }

/-- The inner product of the gradients with the velocity. -/
noncomputable def NetCurve.pair {net : Net ℝ} (c : NetCurve net) (dW : Nat → Nat → Nat → ℝ) (dB : Nat → Nat → ℝ) : ℝ :=
  ∑ l ∈ range net.size, ((∑ k ∈ range (net.L l).n, ∑ j ∈ range (net.L l).o, dW l k j * c.W' l k j) +
    ∑ j ∈ range (net.L l).o, dB l j * c.b' l j)

/-- The training objective, for r samples with predictions `P` and targets `Y` of width c: the sum over the samples of
the mean squared / absolute error; the mean cross-entropy; the mean binary cross-entropy. -/
noncomputable def objective (loss : LossKind) (r c : Nat) (P Y : Nat → Nat → ℝ) : ℝ :=
  match loss with
  | .mse => ∑ i ∈ range r, (∑ j ∈ range c, (P i j - Y i j) ^ 2) / c
  | .mae => ∑ i ∈ range r, (∑ j ∈ range c, |P i j - Y i j|) / c
  | .ce => (∑ i ∈ range r, -Real.log (∑ j ∈ range c, P i j * Y i j)) / r
  | .bce => (∑ i ∈ range r, ∑ j ∈ range c, -(Y i j * Real.log (P i j) + (1 - Y i j) * Real.log (1 - P i j))) / (r * c)

/-- `dW`, `dB` are the exact gradients of the training objective with respect to all weights and biases. -/
def ExactNetGrad (net : Net ℝ) (loss : LossKind) (r : Nat) (X Y : Nat → Nat → ℝ) (dW : Nat → Nat → Nat → ℝ)
    (dB : Nat → Nat → ℝ) : Prop :=
  ∀ c : NetCurve net, ∃ F : ℝ → Nat → Nat → ℝ, (∀ t, NetComputes (c.at t) r X (F t)) ∧
    HasDerivAt (fun t => objective loss r (net.dim net.size) (F t) Y) (c.pair dW dB) 0

/-- The objective is differentiable at the predictions `P`: no absolute error at 0; labels one-hot with a positive
prediction; probabilities in (0,1). -/
def SmoothAt (loss : LossKind) (r c : Nat) (P Y : Nat → Nat → ℝ) : Prop :=
  match loss with
  | .mse => True
  | .mae => ∀ i j, i < r → j < c → P i j ≠ Y i j
  | .ce => ∃ lab : Nat → Nat, (∀ i, i < r → lab i < c ∧ ∀ j, j < c → Y i j = if j = lab i then 1 else 0) ∧
      ∀ i, i < r → 0 < P i (lab i)
  | .bce => ∀ i j, i < r → j < c → 0 < P i j ∧ P i j < 1

end NN
