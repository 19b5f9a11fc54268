import Verif.IEEE.F64
import Verif.Model.ModelGo
/-
An inference pass compiled with fused multiply-add.

The Go specification lets a compiler compute x*y + z with one rounding instead of two, across operators of one expression and also in
`sum += x*y` (section "Floating-point operators"), and the compilers for arm64, ppc64, s390x and riscv64 do so, while the one for amd64 does not by
default.  On the path of an inference pass (model.go:143-169, 340-356; network.go Forward; activation.go) exactly one statement has the form
x*y + z: matrix.go:331, `sum += m.M[i][n] * b.M[n][j]`.  The other products of that path, activation.go `LeakyReLU` and the division of `Softmax`, have
nothing added to them in the same expression.

Here the choice is a parameter: `fuse i j n` says whether the step n of the sum for entry (i, j) is fused; in `modelForwardFma` the choice may
differ from layer to layer.  `fun _ _ _ => false` is the program of Verif.Model.
-/

namespace NN
open Go

/-- x*y + z with one rounding (IEEE 754 fusedMultiplyAdd): the value of `x*y + z` where the compiler fuses. -/
noncomputable def F64.fma (x y z : F64) : F64 :=
  if x.isNaN || y.isNaN || z.isNaN then nan
  else if (x.isInf && y.isZero) || (x.isZero && y.isInf) then nan
  else if x.isInf || y.isInf then (if z.isInf && z.sign != (x.sign != y.sign) then nan else inf (x.sign != y.sign))
  else if z.isInf then z
  else round ((x.sign != y.sign) && z.sign) (x.val * y.val + z.val)

variable [Libm]

/-- matrix.go:331 `sum += x * y`, fused or not. -/
noncomputable def mulAdd (fused : Bool) (x y sum : F64) : F64 := if fused then F64.fma x y sum else sum +. x *. y

/-- matrix.go:314-341 `Dot`. -/
noncomputable def Mat.dotFma (fuse : Nat → Nat → Nat → Bool) (m b : Mat) : Go F64 (Mat × Option Err) := do
  if m.cols ≠ b.rows then
    return (Mat.zero, some (.matrixDims b.rows b.cols))
  let (ans, _) ← newMatrix m.rows b.cols
  forN m.rows.toNat fun i => forN b.cols.toNat fun j => do
    let sum ← foldN m.cols.toNat (fun n sum => do
      let x ← m.at i n
      let y ← b.at n j
      return mulAdd (fuse i j n) x y sum) Flt.zero
    ans.setAt i j sum
  return (ans, none)

/-- The common first part of every forward pass (network.go:92-108, 209-225, 317-333, 440-456, 558-574, 802-818). -/
noncomputable def affineFma (fuse : Nat → Nat → Nat → Bool) (l : Layer F64) (x : Mat) : Go F64 (Mat × Option Err) := do
  if x.cols ≠ l.inputSize then
    return (Mat.zero, some (.matrixDims x.rows x.cols))
  let wm ← deref l.weights
  let (out, err) ← x.dotFma fuse wm
  if let some e := err then
    return (Mat.zero, some e)
  forN out.rows.toNat fun i => forN out.cols.toNat fun j => do
    let v ← out.at i j
    let bm ← deref l.biases
    let b ← bm.at 0 j
    out.setAt i j (v +. b)
  return (out, none)

/-- What follows in the forward passes without dropout: network.go:109-118 (hidden), 226-229 (linear), 334-340 (sigmoid), 457-466 (leaky),
575-584 (softmax), 819-828 (`ForwardNoDropout`). -/
noncomputable def activate (lp : Nat) (l : Layer F64) (out : Mat) : Go F64 (Mat × Option Err) :=
  match l.kind with
  | .hidden | .dropout => do
    laySet lp { l with reluInputs := out }
    let out ← relu out
    return (out, none)
  | .linear => return (out, none)
  | .sigmoid => do
    let out ← sigmoid out
    return (out, none)
  | .leaky => do
    laySet lp { l with reluInputs := out }
    let out ← leakyRelu out l.slope
    return (out, none)
  | .softmax => do
    let out ← softmax out
    laySet lp { l with outputs := out }
    return (out, none)

/-- model.go:148-165, one layer step of `Forward` without training: `Forward` of the layer (network.go:92-118, 209-229, 317-340, 440-466, 558-584), for
dropout layers `ForwardNoDropout` (network.go:802-828). -/
noncomputable def forwardStepFma (fuse : Nat → Nat → Nat → Bool) (lp : Nat) (x : Mat) : Go F64 (Mat × Option Err) := do
  let l ← layGet lp
  let (out, err) ← affineFma fuse l x
  if let some e := err then
    return (Mat.zero, some e)
  activate lp l out

/-- model.go:147-165, the loop: n iterations. -/
noncomputable def forwardLoopFma (fuse : Nat → Nat → Nat → Nat → Bool) (m : Model F64) (X : Mat) : Nat → Go F64 (List Mat × Mat × Option Err)
  | 0 => pure ([X], X, none)
  | n + 1 => do
    let (outputs, output, err) ← forwardLoopFma fuse m X n
    if let some e := err then
      return ([], output, some e)
    let lp ← listGet m.layers n
    let (out, err) ← forwardStepFma (fuse n) lp output
    if let some e := err then
      return ([], out, some e)
    return (outputs ++ [out], out, none)

/-- model.go:143-169 `Forward` without training. -/
noncomputable def modelForwardFma (fuse : Nat → Nat → Nat → Nat → Bool) (m : Model F64) (X : Mat) : Go F64 (List Mat × Option Err) := do
  let (outputs, _, err) ← forwardLoopFma fuse m X m.modelSize.toNat
  return (outputs, err)

/-- model.go:340-356 `Predict`. -/
noncomputable def predictFma (fuse : Nat → Nat → Nat → Nat → Bool) (m : Model F64) (X : Mat) : Go F64 (Mat × Option Err) := do
  let (outputs, err) ← modelForwardFma fuse m X
  if let some e := err then
    return (Mat.zero, some e)
  if m.accType = 0 then
    return (← listGet outputs m.modelSize, none)
  else if m.accType = 1 then
    let out ← listGet outputs m.modelSize
    return (← rowMax out, none)
  else if m.accType = 2 then
    let out ← listGet outputs m.modelSize
    return (← outputBinaryValues out, none)
  return (Mat.zero, some .accType)

end NN
