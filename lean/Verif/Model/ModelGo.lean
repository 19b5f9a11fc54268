import Verif.Model.Network
import Verif.Model.Optimizers
import Verif.Model.Loss
import Verif.Model.Accuracy
/- Model of /repo/model.go. -/

namespace NN
variable {α : Type} [Flt α]
open Go

/-- Conversion to int8 (`LossType(x)`, `OptimizerType(x)`, `int8(n)`): two's complement wrap-around. -/
def toInt8 (n : Int) : Int := (BitVec.ofInt 8 n).toInt

/-- model.go:53-65 `type Model struct`.  `Layers` and `Optimizers` hold pointers. -/
structure Model (α : Type) where
  modelSize  : Int
  inputSize  : Int
  outputSize : Int
  lossType   : Int
  loss       : Option Loss
  accType    : Int
  accPrec    : α
  optType    : Int
  optValues  : GoMap α
  layers     : List Nat
  optims     : List Nat

/-- model.go:68-72 `NewModel`. -/
def newModel : Model α := ⟨0, 0, 0, 0, none, 0, Flt.zero, 0, [], [], []⟩

/-- model.go:75-97 `AddLayer`. -/
def addLayer (m : Model α) (lp : Nat) : Go α (Model α × Option Err) := do
  let l ← layGet lp
  let values := l.values
  let m1 : Model α := if m.modelSize = 0 then
      { m with inputSize := Flt.toInt (values.get (str "inputs")) } else m
  if m.modelSize ≠ 0 ∧ m.outputSize ≠ Flt.toInt (values.get (str "inputs")) then
    return (m1, some .addLayer)
  return ({ m1 with layers := m1.layers ++ [lp], modelSize := m1.modelSize + 1,
                    outputSize := Flt.toInt (values.get (str "outputs")) }, none)

/-- model.go:116-123, creating the optimizers: stops at the first error, keeping those made so far. -/
def makeOptims (optType : Int) (values : GoMap α) : Nat → Go α (List Nat × Option Err)
  | 0 => pure ([], none)
  | n + 1 => do
    let (os, err) ← makeOptims optType values n
    if let some e := err then
      return (os, some e)
    let (o, err) ← newOptimizerFromType optType values
    if let some e := err then
      return (os, some e)
    match o with
    | some p => return (os ++ [p], none)
    | none => Go.panic .nilDeref

/-- model.go:100-133 `Finalize`.  `optVals` is `optimizer.getValues()`. -/
def finalize (m : Model α) (loss : Loss) (optVals : GoMap α) (accType : Int) (accPrec : α) :
    Go α (Model α × Option Err) := do
  let values : GoMap α := loss.getValues
  if m.outputSize ≠ Flt.toInt (values.get (str "size")) then
    return (m, some .finalizeLoss)
  let m := { m with lossType := toInt8 (Flt.toInt (values.get (str "type"))), loss := some loss }
  let optType := toInt8 (Flt.toInt (optVals.get (str "type")))
  let values := optVals.del (str "type")
  let m := { m with optType := optType, optValues := values }
  let (os, err) ← makeOptims optType values m.modelSize.toNat
  let m := { m with optims := os }
  if let some e := err then
    return (m, some e)
  let m := { m with accType := accType }
  if Flt.lt accPrec Flt.zero then
    return (m, some .finalizePrecision)
  return ({ m with accPrec := accPrec }, none)

/-- model.go:136-140 `InitLayers`. -/
def initLayers (m : Model α) : Go α Unit :=
  forN m.modelSize.toNat fun i => do
    let lp ← listGet m.layers i
    layerInit lp

/-- model.go:148-165, the body of the layer loop of `Forward`: dropout layers are run without dropout when not
training. -/
def forwardStep (training : Bool) (lp : Nat) (x : Mat) : Go α (Mat × Option Err) := do
  let l ← layGet lp
  if l.kind = .dropout ∧ training = false then
    dropoutForwardNo lp x
  else
    layerForward lp x

/-- model.go:147-165, the loop: n iterations.  Returns the outputs so far, the current output and the error. -/
def forwardLoop (m : Model α) (training : Bool) (X : Mat) : Nat → Go α (List Mat × Mat × Option Err)
  | 0 => pure ([X], X, none)
  | n + 1 => do
    let (outputs, output, err) ← forwardLoop m training X n
    if let some e := err then
      return ([], output, some e)
    let lp ← listGet m.layers n
    let (out, err) ← forwardStep training lp output
    if let some e := err then
      return ([], out, some e)
    return (outputs ++ [out], out, none)

/-- model.go:143-169 `Forward`. -/
def modelForward (m : Model α) (X : Mat) (training : Bool) : Go α (List Mat × Option Err) := do
  let (outputs, _, err) ← forwardLoop m training X m.modelSize.toNat
  return (outputs, err)

/-- model.go:46-49 `type Gradients struct`. -/
structure Gradients where
  dWeights : Mat
  dBiases  : Mat
deriving Repr, DecidableEq

/-- model.go:178, 198: is layer i the final softmax layer trained with cross-entropy? -/
def fusedLast (m : Model α) (i : Int) : Go α Bool := do
  let lp ← listGet m.layers i
  let l ← layGet lp
  return l.kind = .softmax ∧ m.lossType = 2

/-- model.go:197-207, the layer loop of `Backward`, performing the iterations i = k-1, ..., 0. -/
def backwardLoop (m : Model α) (outputs : List Mat) :
    Nat → List Gradients → Mat → Go α (List Gradients × Option Err)
  | 0, gs, _ => pure (gs, none)
  | k + 1, gs, dValues => do
    let fused ← fusedLast m k
    if fused ∧ (k : Int) = m.modelSize - 1 then
      backwardLoop m outputs k gs dValues
    else
      let lp ← listGet m.layers k
      let x ← listGet outputs k
      let g ← layerBackward lp x dValues
      if let some e := g.err then
        return ([], some e)
      backwardLoop m outputs k (gs ++ [⟨g.dWeights, g.dBiases⟩]) g.dInputs

/-- model.go:172-211 `Backward`. -/
def modelBackward (m : Model α) (outputs : List Mat) (Y : Mat) : Go α (List Gradients × Option Err) := do
  let fused ← fusedLast m (m.modelSize - 1)
  if fused then
    let lp ← listGet m.layers (m.modelSize - 1)
    let x ← listGet outputs (m.modelSize - 1)
    let out ← listGet outputs m.modelSize
    let g ← softmaxBackwardCE lp x Y out
    if let some e := g.err then
      return ([], some e)
    backwardLoop m outputs m.modelSize.toNat [⟨g.dWeights, g.dBiases⟩] g.dInputs
  else
    let out ← listGet outputs m.modelSize
    let loss ← deref m.loss
    let (dInputs, err) ← loss.backward out Y
    if let some e := err then
      return ([], some e)
    backwardLoop m outputs m.modelSize.toNat [] dInputs

/-- `Logger.Printf` on a package-level logger: nil before `InitLogger`. -/
def logEvent (e : LogEvent α) : Go α Unit := fun w =>
  if w.logger then .ok ((), { w with log := w.log ++ [e] }) else .error .nilDeref

/-- model.go:304-318 `CalculateLoss`. -/
def calculateLoss (m : Model α) (X Y : Mat) : Go α (α × Option Err) := do
  let (outputs, err) ← modelForward m X false
  if let some e := err then
    return (Flt.zero, some e)
  let out ← listGet outputs m.modelSize
  let loss ← deref m.loss
  let (j, err) ← loss.forward out Y
  if let some e := err then
    return (Flt.zero, some e)
  return (j, none)

/-- model.go:321-337 `CalculateAccuracy`. -/
def calculateAccuracy (m : Model α) (X Y : Mat) : Go α (α × Option Err) := do
  let (outputs, err) ← modelForward m X false
  if let some e := err then
    return (Flt.zero, some e)
  if m.accType = 0 then
    let out ← listGet outputs m.modelSize
    return (← regressionAccuracy out Y m.accPrec, none)
  else if m.accType = 1 then
    let out ← listGet outputs m.modelSize
    return (← categoricalAccuracy out Y, none)
  else if m.accType = 2 then
    let out ← listGet outputs m.modelSize
    return (← binaryCategoricalAccuracy out Y, none)
  return (Flt.zero, some .accType)

/-- model.go:340-356 `Predict`. -/
def predict (m : Model α) (X : Mat) : Go α (Mat × Option Err) := do
  let (outputs, err) ← modelForward m X false
  if let some e := err then
    return (Mat.zero, some e)
  if m.accType = 0 then
    return (← listGet outputs m.modelSize, none)
  else if m.accType = 1 then
    let out ← listGet outputs m.modelSize
    return (← rowMax out, none)
  else if m.accType = 2 then
    let out ← listGet outputs m.modelSize
    return (← outputBinaryValues out, none)
  return (Mat.zero, some .accType)

/-- The batch bounds of model.go:219-228: (batchSteps, batchSize). -/
def batchPlan (yRows batchSize : Int) : Int × Int :=
  if batchSize ≠ 0 then
    let steps := Int.tdiv yRows batchSize
    (if steps * batchSize < yRows then steps + 1 else steps, batchSize)
  else (1, yRows)

/-- The upper bound of a batch, model.go:235-236:
`int(math.Min(float64((batchStep + 1) * batchSize), float64(Y.Rows)))`. -/
def batchHi (α : Type) [Flt α] (step batchSize yRows : Int) : Int :=
  Flt.toInt (Flt.min (Flt.ofInt ((step + 1) * batchSize) : α) (Flt.ofInt yRows))

/-- model.go:253-260, applying the optimizers. -/
def updateLayers (m : Model α) (gradients : List Gradients) : Go α (Option Err) :=
  forRet m.modelSize.toNat fun layer => do
    let lp ← listGet m.layers layer
    let l ← layGet lp
    let op ← listGet m.optims layer
    let g ← listGet gradients (m.modelSize - layer - 1)
    let err ← optUpdate op l.weights l.biases g.dWeights g.dBiases
    if let some e := err then
      logEvent (.error .update e)
      return some e
    return none

/-- model.go:234-260, one batch step of `Fit`. -/
def fitBatch (m : Model α) (X Y : Mat) (batchSize : Int) (batchStep : Nat) : Go α (Option Err) := do
  let lo : Int := batchStep * batchSize
  let hi := batchHi α batchStep batchSize Y.rows
  let (batchX, _) ← newMatrixFromSlice (← reslice X.m lo hi)
  let (batchY, _) ← newMatrixFromSlice (← reslice Y.m lo hi)
  let (outputs, err) ← modelForward m batchX true
  if let some e := err then
    logEvent (.error .forward e)
    return some e
  let (gradients, err) ← modelBackward m outputs batchY
  if let some e := err then
    logEvent (.error .forward e)
    return some e
  updateLayers m gradients

/-- model.go:264-279 and 282-297, the logging part of an epoch; `sl` and `sa` stand for the texts of the
error lines. -/
def fitLog (m : Model α) (X Y : Mat) (sl sa : LogStage) (mk : α → α → LogEvent α) : Go α (Option Err) := do
  let (loss, err) ← calculateLoss m X Y
  if let some e := err then
    logEvent (.error sl e)
    return some e
  let (accuracy, err) ← calculateAccuracy m X Y
  if let some e := err then
    logEvent (.error sa e)
    return some e
  logEvent (mk loss accuracy)
  return none

/-- model.go:231-298, one epoch of `Fit`. -/
def fitEpoch (m : Model α) (X Y : Mat) (steps batchSize : Int) (xVal yVal : Mat) (logEvery : Int) (epoch : Nat) :
    Go α (Option Err) := do
  let err ← forRet steps.toNat fun s => fitBatch m X Y batchSize s
  if let some e := err then
    return some e
  if logEvery ≠ 0 ∧ Int.tmod epoch logEvery = 0 then
    let err ← fitLog m X Y .loss .accuracy (fun l a => .info epoch l a)
    if let some e := err then
      return some e
  if yVal.rows ≠ 0 ∧ logEvery ≠ 0 ∧ Int.tmod epoch logEvery = 0 then
    let err ← fitLog m xVal yVal .valLoss .valAccuracy (fun l a => .valInfo epoch l a)
    if let some e := err then
      return some e
  return none

/-- model.go:214-301 `Fit`. -/
def fit (m : Model α) (X Y : Mat) (epochs batchSize : Int) (xVal yVal : Mat) (logEvery : Int) :
    Go α (Option Err) :=
  let plan := batchPlan Y.rows batchSize
  forRet epochs.toNat fun epoch => fitEpoch m X Y plan.1 plan.2 xVal yVal logEvery epoch

end NN
