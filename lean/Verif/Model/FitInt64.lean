import Verif.Model.ModelGo
/-
Fit with the arithmetic of Go's 64-bit integers, which wraps around.  `NN.fit` (Model/ModelGo.lean) computes the bounds of the batches with integers
of any size; here every product and sum of model.go:219-236 is reduced modulo 2^64.
-/

namespace NN
open Go
variable {α : Type} [Flt α]

/-- An integer modulo 2^64, in the range of Go's int on 64-bit machines. -/
def wrap64 (x : Int) : Int := (x + 2 ^ 63) % 2 ^ 64 - 2 ^ 63

/-- model.go:219-228: the number of batches and the batch size. -/
def batchPlan64 (yRows batchSize : Int) : Int × Int :=
  if batchSize ≠ 0 then
    let steps := wrap64 (Int.tdiv yRows batchSize)
    (if wrap64 (steps * batchSize) < yRows then wrap64 (steps + 1) else steps, batchSize)
  else (1, yRows)

/-- model.go:235-236: `int(math.Min(float64((batchStep + 1) * batchSize), float64(Y.Rows)))`. -/
def batchHi64 (α : Type) [Flt α] (step batchSize yRows : Int) : Int :=
  Flt.toInt (Flt.min (Flt.ofInt (wrap64 (wrap64 (step + 1) * batchSize)) : α) (Flt.ofInt yRows))

/-- model.go:235-260: one batch step of `Fit`, the batch being `X.M[lo:hi]`, `Y.M[lo:hi]`. -/
def fitRange (m : Model α) (X Y : Mat) (lo hi : Int) : Go α (Option Err) := do
  let (batchX, _) ← newMatrixFromSlice (← reslice X.m lo hi)
  let (batchY, _) ← newMatrixFromSlice (← reslice Y.m lo hi)
  let (outputs, err) ← modelForward m batchX true
  if let some e := err then
    logEvent (.error .forward e)
    return some e
  let (gradients, err) ← modelBackward m outputs batchY
  if let some e := err then
    logEvent (.error .forward e)
    return some e
  updateLayers m gradients

/-- model.go:231-298, one epoch of `Fit`. -/
def fitEpoch64 (m : Model α) (X Y : Mat) (steps batchSize : Int) (xVal yVal : Mat) (logEvery : Int) (epoch : Nat) :
    Go α (Option Err) := do
  let err ← forRet steps.toNat fun s => fitRange m X Y (wrap64 (s * batchSize)) (batchHi64 α s batchSize Y.rows)
  if let some e := err then
    return some e
  if logEvery ≠ 0 ∧ Int.tmod epoch logEvery = 0 then
    let err ← fitLog m X Y .loss .accuracy (fun l a => .info epoch l a)
    if let some e := err then
      return some e
  if yVal.rows ≠ 0 ∧ logEvery ≠ 0 ∧ Int.tmod epoch logEvery = 0 then
    let err ← fitLog m xVal yVal .valLoss .valAccuracy (fun l a => .valInfo epoch l a)
    if let some e := err then
      return some e
  return none

/-- model.go:214-301 `Fit`. -/
def fit64 (m : Model α) (X Y : Mat) (epochs batchSize : Int) (xVal yVal : Mat) (logEvery : Int) : Go α (Option Err) :=
  let plan := batchPlan64 Y.rows batchSize
  forRet epochs.toNat fun epoch => fitEpoch64 m X Y plan.1 plan.2 xVal yVal logEvery epoch

end NN
