import Verif.Model.Conc
/-
Model of `Fit` called at the same time by several goroutines: `Fit` as a program of single accesses (Conc.lean).  The programs have the text of the
functions in Model/Matrix.lean … Model/ModelGo.lean (same citations); `Prog.run` of each of them equals that function (Lemmas/ConcFit.lean).
-/

namespace NN
variable {α : Type} [Flt α]
open Prog

/-! ### matrix.go -/

/-- matrix.go:60-77 `NewMatrixFromSlice`. -/
def newMatrixFromSliceP (s : Slice) : Prog α (Mat × Option Err) := do
  let rows : Int := s.len
  if rows < 1 then
    return (Mat.zero, some (.matrixDims rows 0))
  let r0 ← prim (.rowRef s 0)
  let cols ← prim (.rowLen r0)
  if cols < 1 then
    return (Mat.zero, some (.matrixDims rows cols))
  return (⟨rows, cols, s⟩, none)

/-- matrix.go:108-118 `GetRow`. -/
def Mat.getRowP (m : Mat) (row : Int) : Prog α (Option Nat × Option Err) := do
  if row ≥ m.rows then
    return (none, some (.matrixIndex row (-1)))
  let r ← prim (.rowRef m.m row)
  return (some r, none)

/-- matrix.go:140-157 `SetRow`. -/
def Mat.setRowP (m : Mat) (row : Int) (values : Nat) : Prog α (Option Err) := do
  if row ≥ m.rows then
    return some (.matrixIndex row (-1))
  let n ← prim (.rowLen values)
  if n ≠ m.cols then
    return some (.sliceDims n)
  prim (.setRowRef m.m row values)
  return none

/-- matrix.go:160-179 `SetColumn`. -/
def Mat.setColumnP (m : Mat) (col : Int) (values : Nat) : Prog α (Option Err) := do
  if col ≥ m.cols then
    return some (.matrixIndex (-1) col)
  let n ← prim (.rowLen values)
  if n ≠ m.rows then
    return some (.sliceDims n)
  forN m.rows.toNat fun i => do
    let v ← prim (.rowGet values i)
    m.setAtP i col v
  return none

/-- matrix.go:205-225 `Add`. -/
def Mat.addP (m b : Mat) : Prog α (Mat × Option Err) := do
  if m.rows ≠ b.rows ∨ m.cols ≠ b.cols then
    return (Mat.zero, some (.matrixDims b.rows b.cols))
  let (ans, _) ← newMatrixP m.rows m.cols
  forN m.rows.toNat fun i => forN m.cols.toNat fun j => do
    let x ← m.atP i j
    let y ← b.atP i j
    ans.setAtP i j (x +. y)
  return (ans, none)

/-- matrix.go:283-296 `MulScalar`. -/
def Mat.mulScalarP (m : Mat) (x : α) : Prog α Mat := do
  let (ans, _) ← newMatrixP m.rows m.cols
  forN m.rows.toNat fun i => forN m.cols.toNat fun j => do
    let y ← m.atP i j
    ans.setAtP i j (y *. x)
  return ans

/-- matrix.go:298-311 `PowScalar`. -/
def Mat.powScalarP (m : Mat) (x : α) : Prog α Mat := do
  let (ans, _) ← newMatrixP m.rows m.cols
  forN m.rows.toNat fun i => forN m.cols.toNat fun j => do
    let y ← m.atP i j
    ans.setAtP i j (Flt.pow y x)
  return ans

/-- `SetColumn` with a row that may be nil (Model/Matrix.lean). -/
def Mat.setColumnOptP (m : Mat) (col : Int) (values : Option Nat) : Prog α (Option Err) :=
  match values with
  | some v => m.setColumnP col v
  | none => return some (.sliceDims 0)

/-- matrix.go:344-356 `T`. -/
def Mat.tP (m : Mat) : Prog α Mat := do
  let (ans, _) ← newMatrixP m.cols m.rows
  forN m.rows.toNat fun i => do
    let (col, _) ← m.getRowP i
    let _ ← ans.setColumnOptP i col
  return ans

/-- matrix.go:366-381 `Sum` along axis 0. -/
def Mat.sum0P (m : Mat) : Prog α Mat := do
  let (ans, _) ← newMatrixP 1 m.cols
  forN m.cols.toNat fun i => do
    let s ← foldN m.rows.toNat (fun j s => do
      let x ← m.atP j i
      return s +. x) Flt.zero
    ans.setAtP 0 i s
  return ans

/-- `s[lo:hi]`: no memory access, but a panic if the bounds are wrong. -/
def resliceP (s : Slice) (lo hi : Int) : Prog α Slice :=
  if 0 ≤ lo ∧ lo ≤ hi ∧ hi ≤ s.cap then
    pure ⟨s.addr, s.off + lo.toNat, (hi - lo).toNat, s.cap - lo.toNat⟩
  else prim (.panic .index)

/-! ### activation.go, binomial.go, loss.go -/

/-- activation.go:25-37 `RELUPrime`. -/
def reluPrimeP (m x : Mat) : Prog α Mat := do
  forN m.rows.toNat fun i => forN m.cols.toNat fun j => do
    let v ← x.atP i j
    if Flt.le v Flt.zero then
      m.setAtP i j Flt.zero
  return m

/-- activation.go:54-66 `SigmoidPrime`. -/
def sigmoidPrimeP (m dValues : Mat) : Prog α Mat := do
  let m ← sigmoidP m
  forN m.rows.toNat fun i => forN m.cols.toNat fun j => do
    let d ← dValues.atP i j
    let x ← m.atP i j
    let x' ← m.atP i j
    m.setAtP i j (d *. x *. (Flt.one -. x'))
  return m

/-- activation.go:85-97 `LeakyRELUPrime`. -/
def leakyReluPrimeP (m x : Mat) (slope : α) : Prog α Mat := do
  forN m.rows.toNat fun i => forN m.cols.toNat fun j => do
    let v ← x.atP i j
    if Flt.lt v Flt.zero then
      let d ← m.atP i j
      m.setAtP i j (d *. slope)
  return m

/-- binomial.go:37-68 `Rand` for `b.N = n < 25`. -/
def binomialRandP (n : Nat) (P : α) : Prog α α := do
  let p := if Flt.lt Flt.half P then Flt.one -. P else P
  let bnl ← foldN n (fun _ bnl => do
    let u ← prim .unif
    if Flt.lt u p then return bnl +. Flt.one else return bnl) Flt.zero
  if !Flt.eq p P then
    return Flt.ofInt n -. bnl
  return bnl

/-- loss.go:81-101 `MeanSquaredLoss.Backward`. -/
def mseBackwardP (size : Int) (yhat y : Mat) : Prog α (Mat × Option Err) := do
  if let some e := lossCheck size yhat y then
    return (Mat.zero, some e)
  let (dInputs, err) ← yhat.subP y
  if let some e := err then
    return (Mat.zero, some e)
  let dInputs ← dInputs.mulScalarP (Flt.ofInt 2 /. Flt.ofInt size)
  return (dInputs, none)

/-- loss.go:158-188 `MeanAbsoluteLoss.Backward`. -/
def maeBackwardP (size : Int) (yhat y : Mat) : Prog α (Mat × Option Err) := do
  if let some e := lossCheck size yhat y then
    return (Mat.zero, some e)
  let (dInputs, err) ← yhat.subP y
  if let some e := err then
    return (Mat.zero, some e)
  forN dInputs.rows.toNat fun i => forN dInputs.cols.toNat fun j => do
    let x ← dInputs.atP i j
    if Flt.lt Flt.zero x then
      dInputs.setAtP i j (Flt.ofInt (Int.tdiv 1 dInputs.cols))
    else
      let x' ← dInputs.atP i j
      if Flt.lt x' Flt.zero then
        dInputs.setAtP i j (Flt.ofInt (Int.tdiv (-1) dInputs.cols))
      else
        dInputs.setAtP i j Flt.zero
  return (dInputs, none)

/-- loss.go:254-275 `CrossEntropyLoss.Backward`. -/
def ceBackwardP (size : Int) (yhat y : Mat) : Prog α (Mat × Option Err) := do
  if let some e := lossCheck size yhat y then
    return (Mat.zero, some e)
  let (dInputs, _) ← newMatrixP yhat.rows yhat.cols
  forN dInputs.rows.toNat fun i => forN dInputs.cols.toNat fun j => do
    let t ← y.atP i j
    let p ← yhat.atP i j
    dInputs.setAtP i j ((Flt.neg t /. p) /. Flt.ofInt yhat.rows)
  return (dInputs, none)

/-- loss.go:332-356 `BinaryCrossEntropyLoss.Backward` (Clip overwrites yhat). -/
def bceBackwardP (size : Int) (yhat y : Mat) : Prog α (Mat × Option Err) := do
  if let some e := lossCheck size yhat y then
    return (Mat.zero, some e)
  let clipped ← clipP yhat
  let (dInputs, _) ← newMatrixP yhat.rows yhat.cols
  forN dInputs.rows.toNat fun i => forN dInputs.cols.toNat fun j => do
    let t ← y.atP i j
    let p ← clipped.atP i j
    dInputs.setAtP i j ((Flt.neg (t /. p -. (Flt.one -. t) /. (Flt.one -. p))
      /. Flt.ofInt size) /. Flt.ofInt yhat.rows)
  return (dInputs, none)

/-- `Backward` of the `Loss` interface (loss.go:18). -/
def Loss.backwardP (l : Loss) (yhat y : Mat) : Prog α (Mat × Option Err) :=
  match l.kind with
  | .mse => mseBackwardP l.size yhat y
  | .mae => maeBackwardP l.size yhat y
  | .ce => ceBackwardP l.size yhat y
  | .bce => bceBackwardP l.size yhat y

/-! ### network.go -/

/-- network.go:762-799 `DropoutLayer.Forward`. -/
def dropoutForwardP (lp : Nat) (x : Mat) : Prog α (Mat × Option Err) := do
  let l ← prim (.layParams lp)
  let (out, err) ← affineP l x
  if let some e := err then
    return (Mat.zero, some e)
  prim (.setRelu lp out)
  let out ← reluP out
  let (mask, _) ← newMatrixP out.rows out.cols
  prim (.setMask lp mask)
  forN out.rows.toNat fun i => forN out.cols.toNat fun j => do
    let r ← binomialRandP 1 (Flt.one -. l.dropout)
    mask.setAtP i j r
    let v ← out.atP i j
    let b ← mask.atP i j
    out.setAtP i j (v *. (b /. (Flt.one -. l.dropout)))
  return (out, none)

/-- model.go:148-165 for `training = true`: `Forward` of the layers.  All but dropout do the same as for `training = false`. -/
def forwardTrainP (lp : Nat) (x : Mat) : Prog α (Mat × Option Err) := do
  let l ← prim (.layParams lp)
  if l.kind = .dropout then
    dropoutForwardP lp x
  else
    inferP lp x

/-- The common last part of every backward pass (network.go:134-145, 242-253, 356-367, 482-493, 638-649, 677-688, 851-862). -/
def gradTailP (l : Layer α) (x dValues : Mat) : Prog α Grads := do
  let it ← x.tP
  let wm ← derefP l.weights
  let wt ← wm.tP
  let (dWeights, err) ← it.dotP dValues
  if let some e := err then
    return Grads.fail e
  let dBiases ← dValues.sum0P
  let (dInputs, _) ← dValues.dotP wt
  return ⟨dWeights, dBiases, dInputs, none⟩

/-- network.go:121-146 `HiddenLayer.Backward`. -/
def hiddenBackwardP (lp : Nat) (x dValues : Mat) : Prog α Grads := do
  let l ← prim (.layGet lp)
  if let some e := backCheck l x dValues then
    return Grads.fail e
  let dValues ← reluPrimeP dValues l.reluInputs
  gradTailP l x dValues

/-- network.go:232-254 `LinearLayer.Backward`. -/
def linearBackwardP (lp : Nat) (x dValues : Mat) : Prog α Grads := do
  let l ← prim (.layGet lp)
  if let some e := backCheck l x dValues then
    return Grads.fail e
  gradTailP l x dValues

/-- network.go:343-368 `SigmoidLayer.Backward` (overwrites the input matrix x). -/
def sigmoidBackwardP (lp : Nat) (x dValues : Mat) : Prog α Grads := do
  let l ← prim (.layGet lp)
  if let some e := backCheck l x dValues then
    return Grads.fail e
  let dValues ← sigmoidPrimeP x dValues
  gradTailP l x dValues

/-- network.go:469-494 `LeakyLayer.Backward`. -/
def leakyBackwardP (lp : Nat) (x dValues : Mat) : Prog α Grads := do
  let l ← prim (.layGet lp)
  if let some e := backCheck l x dValues then
    return Grads.fail e
  let dValues ← leakyReluPrimeP dValues l.reluInputs l.slope
  gradTailP l x dValues

/-- `[][]float64{row}` -/
def sliceOfRowP (r : Nat) : Prog α Slice := do
  let s ← prim (.allocOuter 1)
  prim (.setRowRef s 0 r)
  return s

/-- network.go:606-635, the body of the loop over samples in `SoftmaxLayer.Backward`. -/
def softmaxBackRowP (l : Layer α) (dValuesPrev dValues : Mat) (i : Nat) : Prog α (Option Err) := do
  let (diag, _) ← newMatrixP l.outputs.cols l.outputs.cols
  forN l.outputs.cols.toNat fun j => do
    let v ← l.outputs.atP i j
    diag.setAtP j j v
  let r ← prim (.rowRef l.outputs.m i)
  let s ← sliceOfRowP r
  let (outputRow, _) ← newMatrixFromSliceP s
  let outputRow ← outputRow.tP
  let outputRowT ← outputRow.tP
  let (outputDot, err) ← outputRow.dotP outputRowT
  if let some e := err then
    return some e
  let (jacobian, err) ← diag.subP outputDot
  if let some e := err then
    return some e
  let r ← prim (.rowRef dValuesPrev.m i)
  let s ← sliceOfRowP r
  let (dValuesRow, _) ← newMatrixFromSliceP s
  let dT ← dValuesRow.tP
  let (row, err) ← jacobian.dotP dT
  if let some e := err then
    return some e
  let rowT ← row.tP
  let r ← prim (.rowRef rowT.m 0)
  let _ ← dValues.setRowP i r
  return none

/-- network.go:587-650 `SoftmaxLayer.Backward`. -/
def softmaxBackwardP (lp : Nat) (x dValues : Mat) : Prog α Grads := do
  let l ← prim (.layGet lp)
  if x.cols ≠ l.inputSize then
    return Grads.fail (.matrixDims x.rows x.cols)
  if l.outputs.cols ≠ l.outputSize then
    return Grads.fail (.matrixDims l.outputs.rows l.outputs.cols)
  if dValues.cols ≠ l.outputSize then
    return Grads.fail (.matrixDims dValues.rows dValues.cols)
  if l.outputs.rows ≠ dValues.rows then
    return Grads.fail (.matrixDims l.outputs.rows dValues.rows)
  let dValuesPrev := dValues
  let (dValues, _) ← newMatrixP dValues.rows dValues.cols
  let r ← forRet dValues.rows.toNat fun i => softmaxBackRowP l dValuesPrev dValues i
  if let some e := r then
    return Grads.fail e
  gradTailP l x dValues

/-- network.go:653-689 `SoftmaxLayer.BackwardCrossEntropy`. -/
def softmaxBackwardCEP (lp : Nat) (x y dValues : Mat) : Prog α Grads := do
  let l ← prim (.layGet lp)
  if y.cols ≠ l.outputSize then
    return Grads.fail (.matrixDims y.rows y.cols)
  if dValues.cols ≠ l.outputSize then
    return Grads.fail (.matrixDims dValues.rows dValues.cols)
  if y.rows ≠ dValues.rows then
    return Grads.fail (.matrixDims y.rows dValues.rows)
  let (newValues, _) ← newMatrixP dValues.rows dValues.cols
  forN dValues.rows.toNat fun i => forN dValues.cols.toNat fun j => do
    let t ← y.atP i j
    if Flt.eq t Flt.one then
      let v ← dValues.atP i j
      newValues.setAtP i j ((v -. Flt.one) /. Flt.ofInt dValues.rows)
    else
      let v ← dValues.atP i j
      newValues.setAtP i j (v /. Flt.ofInt dValues.rows)
  gradTailP l x newValues

/-- network.go:831-863 `DropoutLayer.Backward`. -/
def dropoutBackwardP (lp : Nat) (x dValues : Mat) : Prog α Grads := do
  let l ← prim (.layGet lp)
  if let some e := backCheck l x dValues then
    return Grads.fail e
  forN dValues.rows.toNat fun i => forN dValues.cols.toNat fun j => do
    let d ← dValues.atP i j
    let b ← l.binaryMask.atP i j
    dValues.setAtP i j (d *. b)
  let dValues ← reluPrimeP dValues l.reluInputs
  gradTailP l x dValues

/-- `Layer.Backward` through the interface (network.go:19). -/
def layerBackwardP (lp : Nat) (x dValues : Mat) : Prog α Grads := do
  let l ← prim (.layParams lp)
  match l.kind with
  | .hidden => hiddenBackwardP lp x dValues
  | .linear => linearBackwardP lp x dValues
  | .sigmoid => sigmoidBackwardP lp x dValues
  | .leaky => leakyBackwardP lp x dValues
  | .softmax => softmaxBackwardP lp x dValues
  | .dropout => dropoutBackwardP lp x dValues

/-! ### optimizers.go -/

/-- `for i,j { w.M[i][j] += u.M[i][j] }` (optimizers.go:128-138). -/
def addIntoP (wm u : Mat) : Prog α Unit :=
  forN wm.rows.toNat fun i => forN wm.cols.toNat fun j => do
    let x ← wm.atP i j
    let y ← u.atP i j
    wm.setAtP i j (x +. y)

/-- `for i,j { w.M[i][j] -= u.M[i][j] }` (optimizers.go:145-155). -/
def subIntoP (wm u : Mat) : Prog α Unit :=
  forN wm.rows.toNat fun i => forN wm.cols.toNat fun j => do
    let x ← wm.atP i j
    let y ← u.atP i j
    wm.setAtP i j (x -. y)

/-- optimizers.go:96-161 `SGDOptimizer.Update`. -/
def sgdUpdateP (op : Nat) (weights biases dWeights dBiases : Mat) : Prog α (Option Err) := do
  let o ← prim (.optGet op)
  let o := o.decayed
  prim (.optSet op o)
  if o.useMomentum then
    let mut o := o
    if o.weightMomentums.rows = 0 then
      let (wm, _) ← newMatrixP weights.rows weights.cols
      let (bm, _) ← newMatrixP biases.rows biases.cols
      o := { o with weightMomentums := wm, biasMomentums := bm }
      prim (.optSet op o)
    let sm ← o.weightMomentums.mulScalarP o.momentum
    let sg ← dWeights.mulScalarP o.currentRate
    let (wm, err) ← sm.subP sg
    o := { o with weightMomentums := wm }
    prim (.optSet op o)
    if let some e := err then
      return some e
    let sm ← o.biasMomentums.mulScalarP o.momentum
    let sg ← dBiases.mulScalarP o.currentRate
    let (bm, err) ← sm.subP sg
    o := { o with biasMomentums := bm }
    prim (.optSet op o)
    if let some e := err then
      return some e
    addIntoP weights o.weightMomentums
    addIntoP biases o.biasMomentums
    prim (.optSet op { o with iterations := o.iterations + 1 })
    return none
  else
    let wu ← dWeights.mulScalarP o.currentRate
    let bu ← dBiases.mulScalarP o.currentRate
    subIntoP weights wu
    subIntoP biases bu
    prim (.optSet op { o with iterations := o.iterations + 1 })
    return none

/-- optimizers.go:281-285 and 287-291, the parameter step of Adam. -/
def adamStepP (wm mom cache : Mat) (rate epsilon : α) : Prog α Unit :=
  forN wm.rows.toNat fun i => forN wm.cols.toNat fun j => do
    let x ← wm.atP i j
    let m ← mom.atP i j
    let c ← cache.atP i j
    wm.setAtP i j (x +. Flt.neg rate *. m /. (Flt.sqrt c +. epsilon))

/-- optimizers.go:225-296 `AdamOptimizer.Update`. -/
def adamUpdateP (op : Nat) (weights biases dWeights dBiases : Mat) : Prog α (Option Err) := do
  let o ← prim (.optGet op)
  let mut o := o.decayed
  prim (.optSet op o)
  if o.weightMomentums.rows = 0 then
    let (wm, _) ← newMatrixP weights.rows weights.cols
    let (bm, _) ← newMatrixP biases.rows biases.cols
    let (wc, _) ← newMatrixP weights.rows weights.cols
    let (bc, _) ← newMatrixP biases.rows biases.cols
    o := { o with weightMomentums := wm, biasMomentums := bm, weightCache := wc, biasCache := bc }
    prim (.optSet op o)
  let sm ← o.weightMomentums.mulScalarP o.beta1
  let sg ← dWeights.mulScalarP (Flt.one -. o.beta1)
  let (wm, err) ← sm.addP sg
  o := { o with weightMomentums := wm }
  prim (.optSet op o)
  if let some e := err then
    return some e
  let sm ← o.biasMomentums.mulScalarP o.beta1
  let sg ← dBiases.mulScalarP (Flt.one -. o.beta1)
  let (bm, err) ← sm.addP sg
  o := { o with biasMomentums := bm }
  prim (.optSet op o)
  if let some e := err then
    return some e
  let cwm ← o.weightMomentums.mulScalarP o.correction
  let cbm ← o.biasMomentums.mulScalarP o.correction
  let sm ← o.weightCache.mulScalarP o.beta2
  let sg ← dWeights.powScalarP (Flt.ofInt 2)
  let sg ← sg.mulScalarP (Flt.one -. o.beta2)
  let (wc, err) ← sm.addP sg
  o := { o with weightCache := wc }
  prim (.optSet op o)
  if let some e := err then
    return some e
  let sm ← o.biasCache.mulScalarP o.beta2
  let sg ← dBiases.powScalarP (Flt.ofInt 2)
  let sg ← sg.mulScalarP (Flt.one -. o.beta2)
  let (bc, err) ← sm.addP sg
  o := { o with biasCache := bc }
  prim (.optSet op o)
  if let some e := err then
    return some e
  let cwc ← o.weightCache.mulScalarP o.correction
  let cbc ← o.biasCache.mulScalarP o.correction
  adamStepP weights cwm cwc o.currentRate o.epsilon
  adamStepP biases cbm cbc o.currentRate o.epsilon
  prim (.optSet op { o with iterations := o.iterations + 1 })
  return none

/-- `Optimizer.Update` through the interface (optimizers.go:17). -/
def optUpdateP (op : Nat) (weights biases : Option Mat) (dWeights dBiases : Mat) : Prog α (Option Err) := do
  let o ← prim (.optGet op)
  let wm ← derefP weights
  let bm ← derefP biases
  match o.kind with
  | .sgd => sgdUpdateP op wm bm dWeights dBiases
  | .adam => adamUpdateP op wm bm dWeights dBiases

/-! ### model.go -/

/-- model.go:147-165, the loop of `Forward(X, true)`. -/
def forwardTrainLoopP (m : Model α) (X : Mat) : Nat → Prog α (List Mat × Mat × Option Err)
  | 0 => pure ([X], X, none)
  | n + 1 => do
    let (outputs, output, err) ← forwardTrainLoopP m X n
    if let some e := err then
      return ([], output, some e)
    let lp ← listGetP m.layers n
    let (out, err) ← forwardTrainP lp output
    if let some e := err then
      return ([], out, some e)
    return (outputs ++ [out], out, none)

/-- model.go:143-169 `Forward(X, true)`. -/
def modelForwardTrainP (m : Model α) (X : Mat) : Prog α (List Mat × Option Err) := do
  let (outputs, _, err) ← forwardTrainLoopP m X m.modelSize.toNat
  return (outputs, err)

/-- model.go:178, 198: is layer i the final softmax layer trained with cross-entropy? -/
def fusedLastP (m : Model α) (i : Int) : Prog α Bool := do
  let lp ← listGetP m.layers i
  let l ← prim (.layParams lp)
  return l.kind = .softmax ∧ m.lossType = 2

/-- model.go:197-207, the layer loop of `Backward`. -/
def backwardLoopP (m : Model α) (outputs : List Mat) :
    Nat → List Gradients → Mat → Prog α (List Gradients × Option Err)
  | 0, gs, _ => pure (gs, none)
  | k + 1, gs, dValues => do
    let fused ← fusedLastP m k
    if fused ∧ (k : Int) = m.modelSize - 1 then
      backwardLoopP m outputs k gs dValues
    else
      let lp ← listGetP m.layers k
      let x ← listGetP outputs k
      let g ← layerBackwardP lp x dValues
      if let some e := g.err then
        return ([], some e)
      backwardLoopP m outputs k (gs ++ [⟨g.dWeights, g.dBiases⟩]) g.dInputs

/-- model.go:172-211 `Backward`. -/
def modelBackwardP (m : Model α) (outputs : List Mat) (Y : Mat) : Prog α (List Gradients × Option Err) := do
  let fused ← fusedLastP m (m.modelSize - 1)
  if fused then
    let lp ← listGetP m.layers (m.modelSize - 1)
    let x ← listGetP outputs (m.modelSize - 1)
    let out ← listGetP outputs m.modelSize
    let g ← softmaxBackwardCEP lp x Y out
    if let some e := g.err then
      return ([], some e)
    backwardLoopP m outputs m.modelSize.toNat [⟨g.dWeights, g.dBiases⟩] g.dInputs
  else
    let out ← listGetP outputs m.modelSize
    let loss ← derefP m.loss
    let (dInputs, err) ← loss.backwardP out Y
    if let some e := err then
      return ([], some e)
    backwardLoopP m outputs m.modelSize.toNat [] dInputs

/-- model.go:253-260, applying the optimizers. -/
def updateLayersP (m : Model α) (gradients : List Gradients) : Prog α (Option Err) :=
  forRet m.modelSize.toNat fun layer => do
    let lp ← listGetP m.layers layer
    let l ← prim (.layParams lp)
    let op ← listGetP m.optims layer
    let g ← listGetP gradients (m.modelSize - layer - 1)
    let err ← optUpdateP op l.weights l.biases g.dWeights g.dBiases
    if let some e := err then
      prim (.log (.error .update e))
      return some e
    return none

/-- model.go:234-260, one batch step of `Fit`. -/
def fitBatchP (m : Model α) (X Y : Mat) (batchSize : Int) (batchStep : Nat) : Prog α (Option Err) := do
  let lo : Int := batchStep * batchSize
  let hi := batchHi α batchStep batchSize Y.rows
  let (batchX, _) ← newMatrixFromSliceP (← resliceP X.m lo hi)
  let (batchY, _) ← newMatrixFromSliceP (← resliceP Y.m lo hi)
  let (outputs, err) ← modelForwardTrainP m batchX
  if let some e := err then
    prim (.log (.error .forward e))
    return some e
  let (gradients, err) ← modelBackwardP m outputs batchY
  if let some e := err then
    prim (.log (.error .forward e))
    return some e
  updateLayersP m gradients

/-- model.go:264-279 and 282-297, the logging part of an epoch. -/
def fitLogP (m : Model α) (X Y : Mat) (sl sa : LogStage) (mk : α → α → LogEvent α) : Prog α (Option Err) := do
  let (loss, err) ← calculateLossP m X Y
  if let some e := err then
    prim (.log (.error sl e))
    return some e
  let (accuracy, err) ← calculateAccuracyP m X Y
  if let some e := err then
    prim (.log (.error sa e))
    return some e
  prim (.log (mk loss accuracy))
  return none

/-- model.go:231-298, one epoch of `Fit`. -/
def fitEpochP (m : Model α) (X Y : Mat) (steps batchSize : Int) (xVal yVal : Mat) (logEvery : Int) (epoch : Nat) :
    Prog α (Option Err) := do
  let err ← forRet steps.toNat fun s => fitBatchP m X Y batchSize s
  if let some e := err then
    return some e
  if logEvery ≠ 0 ∧ Int.tmod epoch logEvery = 0 then
    let err ← fitLogP m X Y .loss .accuracy (fun l a => .info epoch l a)
    if let some e := err then
      return some e
  if yVal.rows ≠ 0 ∧ logEvery ≠ 0 ∧ Int.tmod epoch logEvery = 0 then
    let err ← fitLogP m xVal yVal .valLoss .valAccuracy (fun l a => .valInfo epoch l a)
    if let some e := err then
      return some e
  return none

/-- model.go:214-301 `Fit`. -/
def fitP (m : Model α) (X Y : Mat) (epochs batchSize : Int) (xVal yVal : Mat) (logEvery : Int) :
    Prog α (Option Err) :=
  let plan := batchPlan Y.rows batchSize
  forRet epochs.toNat fun epoch => fitEpochP m X Y plan.1 plan.2 xVal yVal logEvery epoch

end NN
