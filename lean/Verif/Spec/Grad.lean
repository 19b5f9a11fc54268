import Verif.Spec.Layer
import Verif.Lemmas.Wp
import Verif.Model.Network
import Verif.Real.Inst
import Mathlib.Analysis.Calculus.Deriv.Basic
import Mathlib.Algebra.BigOperators.Intervals
/-
What it means for the matrices returned by a backward pass to be the exact gradients: along every differentiable
curve of inputs, weights and biases, the derivative of Σ D·Forward is the inner product of the returned matrices with
the velocity of the curve.
-/

namespace NN
open Finset

/-- In every state that holds a layer with content `L` and an r-row input `X`, Forward returns the entries `F`. -/
def Computes (L : LayerSpec ℝ) (r : Nat) (X F : Nat → Nat → ℝ) : Prop :=
  ∀ (w : World ℝ) lp wm bm x, IsLayer w lp wm bm L → IsMat w x r L.n X →
    wp (layerForward lp x) w (fun p w' => p.2 = none ∧ IsMat w' p.1 r L.o F)

/-- A differentiable curve of inputs, weights and biases through `X`, `L.W`, `L.b` at time 0, with its velocity. -/
structure Curve (L : LayerSpec ℝ) (r : Nat) (X : Nat → Nat → ℝ) where
  Wt : ℝ → Nat → Nat → ℝ
  bt : ℝ → Nat → ℝ
  Xt : ℝ → Nat → Nat → ℝ
  W' : Nat → Nat → ℝ
  b' : Nat → ℝ
  X' : Nat → Nat → ℝ
  hW : ∀ k j, k < L.n → j < L.o → HasDerivAt (fun t => Wt t k j) (W' k j) 0
  hb : ∀ j, j < L.o → HasDerivAt (fun t => bt t j) (b' j) 0
  hX : ∀ i k, i < r → k < L.n → HasDerivAt (fun t => Xt t i k) (X' i k) 0
  W0 : ∀ k j, k < L.n → j < L.o → Wt 0 k j = L.W k j
  b0 : ∀ j, j < L.o → bt 0 j = L.b j
  X0 : ∀ i k, i < r → k < L.n → Xt 0 i k = X i k

/-- The layer at time t. -/
def Curve.at {L : LayerSpec ℝ} {r : Nat} {X : Nat → Nat → ℝ} (c : Curve L r X) (t : ℝ) : LayerSpec ℝ :=
  { L with W := c.Wt t, b := c.bt t }

/-- The inner product of the gradients with the velocity. -/
noncomputable def Curve.pair {L : LayerSpec ℝ} {r : Nat} {X : Nat → Nat → ℝ} (c : Curve L r X)
    (dW : Nat → Nat → ℝ) (dB : Nat → ℝ) (dX : Nat → Nat → ℝ) : ℝ :=
  (∑ k ∈ range L.n, ∑ j ∈ range L.o, dW k j * c.W' k j) + (∑ j ∈ range L.o, dB j * c.b' j) +
    ∑ i ∈ range r, ∑ k ∈ range L.n, dX i k * c.X' i k

/-- `dW`, `dB`, `dX` are the exact gradients of Σ D·Forward at `L`, `X`. -/
def ExactGrad (L : LayerSpec ℝ) (r : Nat) (X D dW : Nat → Nat → ℝ) (dB : Nat → ℝ) (dX : Nat → Nat → ℝ) : Prop :=
  ∀ c : Curve L r X, ∃ F : ℝ → Nat → Nat → ℝ, (∀ t, Computes (c.at t) r (c.Xt t) (F t)) ∧
    HasDerivAt (fun t => ∑ i ∈ range r, ∑ j ∈ range L.o, D i j * F t i j) (c.pair dW dB dX) 0

/-- `g` consists of matrices of the right shapes that are the exact gradients. -/
def IsGrad (w : World ℝ) (g : Grads) (L : LayerSpec ℝ) (r : Nat) (X D : Nat → Nat → ℝ) : Prop :=
  g.err = none ∧ ∃ dW dB dX, IsMat w g.dWeights L.n L.o dW ∧ IsMat w g.dBiases 1 L.o (fun _ => dB) ∧
    IsMat w g.dInputs r L.n dX ∧ ExactGrad L r X D dW dB dX

end NN
