import Verif.Model.Matrix
/- Model of /repo/optimizers.go.  An optimizer is used through its address `op` in `World.opt`. -/

namespace NN
variable {α : Type} [Flt α]
open Go

/-- The zero value of an optimizer struct. -/
def Optim.zero (k : OptKind) : Optim α :=
  ⟨k, Flt.zero, Flt.zero, Flt.zero, Flt.zero, Flt.zero, Flt.zero, Flt.zero, 0,
    Mat.zero, Mat.zero, Mat.zero, Mat.zero, false, false⟩

/-- model.go:28-31, the optimizer codes. -/
def OptKind.code : OptKind → Int
  | .sgd => 0 | .adam => 1

/-- Dereference an optimizer pointer. -/
def optGet (op : Nat) : Go α (Optim α) := fun w => .ok (w.opt op, w)

/-- Assign to an optimizer object. -/
def optSet (op : Nat) (o : Optim α) : Go α Unit := fun w => .ok ((), { w with opt := upd w.opt op o })

/-- `&o` -/
def optNew (o : Optim α) : Go α Nat := fun w =>
  .ok (w.next, { w with next := w.next + 1, opt := upd w.opt w.next o })

/-- optimizers.go:54-61 and 181-190 `getValues`. -/
def Optim.getValues (o : Optim α) : GoMap α :=
  match o.kind with
  | .sgd => [(str "learningRate", o.learningRate), (str "decay", o.decay), (str "momentum", o.momentum),
      (str "type", Flt.ofInt o.kind.code)]
  | .adam => [(str "learningRate", o.learningRate), (str "decay", o.decay), (str "epsilon", o.epsilon),
      (str "beta1", o.beta1), (str "beta2", o.beta2), (str "type", Flt.ofInt o.kind.code)]

/-- optimizers.go:64-68 and 193-199 `setValues`. -/
def Optim.setValues (o : Optim α) (values : GoMap α) : Optim α :=
  match o.kind with
  | .sgd => { o with
      learningRate := values.get (str "learningRate"), decay := values.get (str "decay"),
      momentum := values.get (str "momentum") }
  | .adam => { o with
      learningRate := values.get (str "learningRate"), decay := values.get (str "decay"),
      epsilon := values.get (str "epsilon"), beta1 := values.get (str "beta1"), beta2 := values.get (str "beta2") }

/-- optimizers.go:22-37 `NewOptimizerFromType`.  `none` is the nil interface. -/
def newOptimizerFromType (optimizerType : Int) (values : GoMap α) : Go α (Option Nat × Option Err) := do
  if optimizerType = 0 then
    let o : Optim α := { (Optim.zero .sgd : Optim α) with
      currentRate := values.get (str "learningRate"),
      useDecay := !Flt.eq (values.get (str "decay")) Flt.zero,
      useMomentum := !Flt.eq (values.get (str "momentum")) Flt.zero }
    let p ← optNew (o.setValues values)
    return (some p, none)
  else if optimizerType = 1 then
    let o : Optim α := { (Optim.zero .adam : Optim α) with
      currentRate := values.get (str "learningRate"),
      useDecay := !Flt.eq (values.get (str "decay")) Flt.zero,
      useMomentum := !Flt.eq (values.get (str "momentum")) Flt.zero }
    let p ← optNew (o.setValues values)
    return (some p, none)
  return (none, some .optType)

/-- optimizers.go:71-93 `NewSGDOptimizer`. -/
def newSGDOptimizer (learningRate decay momentum : α) : Optim α × Option Err :=
  if Flt.le learningRate Flt.zero then (Optim.zero .sgd, some .sgdRate)
  else if Flt.lt decay Flt.zero then (Optim.zero .sgd, some .sgdDecay)
  else if Flt.lt momentum Flt.zero then (Optim.zero .sgd, some .sgdMomentum)
  else ({ (Optim.zero .sgd : Optim α) with
    learningRate := learningRate, decay := decay, momentum := momentum, currentRate := learningRate,
    useDecay := !Flt.eq decay Flt.zero, useMomentum := !Flt.eq momentum Flt.zero }, none)

/-- optimizers.go:202-222 `NewAdamOptimizer`. -/
def newAdamOptimizer (learningRate decay epsilon beta1 beta2 : α) : Optim α × Option Err :=
  if Flt.le learningRate Flt.zero then (Optim.zero .adam, some .adamRate)
  else if Flt.lt decay Flt.zero then (Optim.zero .adam, some .adamDecay)
  else ({ (Optim.zero .adam : Optim α) with
    learningRate := learningRate, decay := decay, epsilon := epsilon, beta1 := beta1, beta2 := beta2,
    currentRate := learningRate, useDecay := !Flt.eq decay Flt.zero }, none)

/-- The learning-rate schedule, optimizers.go:98-100 and 227-229. -/
def Optim.decayed (o : Optim α) : Optim α :=
  if o.useDecay then
    { o with currentRate := o.learningRate *. (Flt.one /. (Flt.one +. o.decay *. Flt.ofInt o.iterations)) }
  else o

/-- `for i,j { w.M[i][j] += u.M[i][j] }` (optimizers.go:128-138). -/
def addInto (wm u : Mat) : Go α Unit :=
  forN wm.rows.toNat fun i => forN wm.cols.toNat fun j => do
    let x ← wm.at i j
    let y ← u.at i j
    wm.setAt i j (x +. y)

/-- `for i,j { w.M[i][j] -= u.M[i][j] }` (optimizers.go:145-155). -/
def subInto (wm u : Mat) : Go α Unit :=
  forN wm.rows.toNat fun i => forN wm.cols.toNat fun j => do
    let x ← wm.at i j
    let y ← u.at i j
    wm.setAt i j (x -. y)

/-- optimizers.go:96-161 `SGDOptimizer.Update`.  On an error from Sub the momentum field has already been
overwritten by the zero Matrix that Sub returns. -/
def sgdUpdate (op : Nat) (weights biases dWeights dBiases : Mat) : Go α (Option Err) := do
  let o ← optGet op
  let o := o.decayed
  optSet op o
  if o.useMomentum then
    let mut o := o
    if o.weightMomentums.rows = 0 then
      let (wm, _) ← newMatrix weights.rows weights.cols
      let (bm, _) ← newMatrix biases.rows biases.cols
      o := { o with weightMomentums := wm, biasMomentums := bm }
      optSet op o
    let sm ← o.weightMomentums.mulScalar o.momentum
    let sg ← dWeights.mulScalar o.currentRate
    let (wm, err) ← sm.sub sg
    o := { o with weightMomentums := wm }
    optSet op o
    if let some e := err then
      return some e
    let sm ← o.biasMomentums.mulScalar o.momentum
    let sg ← dBiases.mulScalar o.currentRate
    let (bm, err) ← sm.sub sg
    o := { o with biasMomentums := bm }
    optSet op o
    if let some e := err then
      return some e
    addInto weights o.weightMomentums
    addInto biases o.biasMomentums
    optSet op { o with iterations := o.iterations + 1 }
    return none
  else
    let wu ← dWeights.mulScalar o.currentRate
    let bu ← dBiases.mulScalar o.currentRate
    subInto weights wu
    subInto biases bu
    optSet op { o with iterations := o.iterations + 1 }
    return none

/-- optimizers.go:281-285 and 287-291, the parameter step of Adam. -/
def adamStep (wm mom cache : Mat) (rate epsilon : α) : Go α Unit :=
  forN wm.rows.toNat fun i => forN wm.cols.toNat fun j => do
    let x ← wm.at i j
    let m ← mom.at i j
    let c ← cache.at i j
    wm.setAt i j (x +. Flt.neg rate *. m /. (Flt.sqrt c +. epsilon))

/-- The correction factor of optimizers.go:256-257 and 277-278 (Beta1 is used for the caches, too). -/
def Optim.correction (o : Optim α) : α :=
  Flt.one /. (Flt.one -. Flt.pow o.beta1 (Flt.ofInt (o.iterations + 1)))

/-- optimizers.go:225-296 `AdamOptimizer.Update`. -/
def adamUpdate (op : Nat) (weights biases dWeights dBiases : Mat) : Go α (Option Err) := do
  let o ← optGet op
  let mut o := o.decayed
  optSet op o
  if o.weightMomentums.rows = 0 then
    let (wm, _) ← newMatrix weights.rows weights.cols
    let (bm, _) ← newMatrix biases.rows biases.cols
    let (wc, _) ← newMatrix weights.rows weights.cols
    let (bc, _) ← newMatrix biases.rows biases.cols
    o := { o with weightMomentums := wm, biasMomentums := bm, weightCache := wc, biasCache := bc }
    optSet op o
  let sm ← o.weightMomentums.mulScalar o.beta1
  let sg ← dWeights.mulScalar (Flt.one -. o.beta1)
  let (wm, err) ← sm.add sg
  o := { o with weightMomentums := wm }
  optSet op o
  if let some e := err then
    return some e
  let sm ← o.biasMomentums.mulScalar o.beta1
  let sg ← dBiases.mulScalar (Flt.one -. o.beta1)
  let (bm, err) ← sm.add sg
  o := { o with biasMomentums := bm }
  optSet op o
  if let some e := err then
    return some e
  let cwm ← o.weightMomentums.mulScalar o.correction
  let cbm ← o.biasMomentums.mulScalar o.correction
  let sm ← o.weightCache.mulScalar o.beta2
  let sg ← dWeights.powScalar (Flt.ofInt 2)
  let sg ← sg.mulScalar (Flt.one -. o.beta2)
  let (wc, err) ← sm.add sg
  o := { o with weightCache := wc }
  optSet op o
  if let some e := err then
    return some e
  let sm ← o.biasCache.mulScalar o.beta2
  let sg ← dBiases.powScalar (Flt.ofInt 2)
  let sg ← sg.mulScalar (Flt.one -. o.beta2)
  let (bc, err) ← sm.add sg
  o := { o with biasCache := bc }
  optSet op o
  if let some e := err then
    return some e
  let cwc ← o.weightCache.mulScalar o.correction
  let cbc ← o.biasCache.mulScalar o.correction
  adamStep weights cwm cwc o.currentRate o.epsilon
  adamStep biases cbm cbc o.currentRate o.epsilon
  optSet op { o with iterations := o.iterations + 1 }
  return none

/-- `Optimizer.Update` through the interface (optimizers.go:17); `weights`, `biases` are `*Matrix`. -/
def optUpdate (op : Nat) (weights biases : Option Mat) (dWeights dBiases : Mat) : Go α (Option Err) := do
  let o ← optGet op
  let wm ← deref weights
  let bm ← deref biases
  match o.kind with
  | .sgd => sgdUpdate op wm bm dWeights dBiases
  | .adam => adamUpdate op wm bm dWeights dBiases

end NN
