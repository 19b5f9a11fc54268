import Verif.IEEE.Error
import Verif.Spec.Model
import Verif.Real.Sum
/-
What float64 arithmetic may add to the exact result: bounds on the error of an inference pass.  `X` stands for the exact inputs of a layer (one
row), `E` for bounds on how far the float64 inputs are from them.
-/

namespace NN
open Finset F64

/-- The layer with the same parameters as real numbers. -/
noncomputable def LayerSpec.real (L : LayerSpec F64) : LayerSpec ℝ :=
  ⟨L.kind, L.n, L.o, fun k j => (L.W k j).val, fun j => (L.b j).val, L.slope.val, L.dropout.val⟩

/-- The network with the same parameters as real numbers. -/
noncomputable def Net.real (net : Net F64) : Net ℝ := ⟨net.size, net.dim, net.lp, net.wm, net.bm, fun k => (net.L k).real⟩

/-- All parameters of the layer are finite. -/
structure LayerSpec.Finite (L : LayerSpec F64) : Prop where
  W : ∀ k j, k < L.n → j < L.o → (L.W k j).Finite
  b : ∀ j, j < L.o → (L.b j).Finite
  slope : L.kind = .leaky → L.slope.Finite

/-- `x` is a finite float64 at a distance of at most e from the real number X. -/
def Near (x : F64) (X e : ℝ) : Prop := x.Finite ∧ |x.val - X| ≤ e

/-- The accumulated relative error of n roundings: (1 + 2^-53)^n - 1. -/
noncomputable def gam (n : Nat) : ℝ := (1 + ueps) ^ n - 1

/-- The sum of the magnitudes in XW + b. -/
noncomputable def absPre (L : LayerSpec ℝ) (X E : Nat → ℝ) (j : Nat) : ℝ := ∑ k ∈ range L.n, (|X k| + E k) * |L.W k j| + |L.b j|

/-- The error of XW + b: what the errors of the inputs cause, and the roundings of n products and n + 1 sums. -/
noncomputable def preErr (L : LayerSpec ℝ) (X E : Nat → ℝ) (j : Nat) : ℝ :=
  ∑ k ∈ range L.n, E k * |L.W k j| + gam (L.n + 2) * absPre L X E j + L.n * (1 + ueps) ^ (L.n + 1) * tiny

/-- XW + b does not overflow. -/
def PreSafe (L : LayerSpec ℝ) (X E : Nat → ℝ) : Prop :=
  ∀ j, j < L.o → (1 + ueps) ^ (L.n + 2) * absPre L X E j + L.n * (1 + ueps) ^ (L.n + 1) * tiny ≤ big

/-- The largest of o numbers, or 0. -/
noncomputable def maxOf (o : Nat) (e : Nat → ℝ) : ℝ := ((range o).sup fun j => (e j).toNNReal : NNReal)

/-- The error after the activation, for pre-activations z with errors e. -/
noncomputable def actErr (k : LayerKind) (slope : ℝ) (o : Nat) (z e : Nat → ℝ) (j : Nat) : ℝ :=
  match k with
  | .hidden | .dropout | .linear => e j
  | .sigmoid => e j / 4 + 7 * ueps
  | .leaky => max 1 |slope| * e j + ueps * (|slope| * (|z j| + e j)) + tiny
  | .softmax => (Real.exp (2 * maxOf o e) - 1) + (2 * gam (3 * o + 2) + 10 * ueps)

/-- The activation does not overflow; for Softmax the exponentials do not underflow all together, either. -/
def ActSafe (k : LayerKind) (slope : ℝ) (o : Nat) (z e : Nat → ℝ) : Prop :=
  match k with
  | .hidden | .dropout | .linear | .sigmoid => True
  | .leaky => ∀ j, j < o → |slope| * (|z j| + e j) ≤ big
  | .softmax => o ≤ 2 ^ 12 ∧ (∀ j, j < o → z j + e j ≤ 700) ∧ ∃ j, j < o ∧ -700 ≤ z j - e j

/-- The error of the outputs of a layer (row i). -/
noncomputable def layerErr (L : LayerSpec ℝ) (X : Nat → Nat → ℝ) (E : Nat → Nat → ℝ) (i : Nat) : Nat → ℝ :=
  actErr L.kind L.slope L.o (preact L X i) (preErr L (X i) (E i))

/-- The layer neither overflows nor underflows (row i). -/
def LayerSafe (L : LayerSpec ℝ) (X : Nat → Nat → ℝ) (E : Nat → Nat → ℝ) (i : Nat) : Prop :=
  PreSafe L (X i) (E i) ∧ ActSafe L.kind L.slope L.o (preact L X i) (preErr L (X i) (E i))

/-- The error of the outputs of the first k layers, for inputs X with errors E. -/
noncomputable def netErr (net : Net ℝ) (X E : Nat → Nat → ℝ) : Nat → Nat → Nat → ℝ
  | 0 => E
  | k + 1 => fun i => layerErr (net.L k) (netOut net X k) (netErr net X E k) i

end NN
