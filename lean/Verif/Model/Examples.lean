import Verif.Model.ModelGo
import Verif.Model.Misc
/-
Model of the hand-written training programs of the repository: /repo/examples/sine_test.go and /repo/optimizers_test.go.  They train a network
of three layers with the exported methods of layers, losses and optimizers, without `Model` and `Fit`.

Simplifications: log output is dropped (the values it reads are read); numbers that the program computes with `math.Sin` or draws with
`math/rand` are arguments; the result is the error that the test reports with `t.Errorf`, `none` if it reports none.
-/

namespace NN
variable {α : Type} [Flt α]
open Go

/-- `opt.Update(l.Weights, l.Biases, dWeights, dBiases)`. -/
def updateOne (op lp : Nat) (g : Grads) : Go α (Option Err) := do
  let l ← layGet lp
  optUpdate op l.weights l.biases g.dWeights g.dBiases

/-- examples/sine_test.go:63-156, the work on one batch in epoch i.  The errors of `Update` are dropped (lines 141-155 test an old
error value). -/
def sineStep (l1 l2 l3 o1 o2 o3 : Nat) (loss : Loss) (i : Nat) (X Y : Mat) : Go α (Option Err) := do
  let (out1, err) ← layerForward l1 X
  if let some e := err then
    return some e
  let (out2, err) ← layerForward l2 out1
  if let some e := err then
    return some e
  let (out3, err) ← layerForward l3 out2
  if let some e := err then
    return some e
  let (_, err) ← loss.forward out3 Y
  if let some e := err then
    return some e
  if i % 100 = 0 then
    forN 24 fun n => do
      let _ ← out3.at n 0
      let _ ← Y.at n 0
  let (d, err) ← loss.backward out3 Y
  if let some e := err then
    return some e
  let g3 ← layerBackward l3 out2 d
  if let some e := g3.err then
    return some e
  let g2 ← layerBackward l2 out1 g3.dInputs
  if let some e := g2.err then
    return some e
  let g1 ← layerBackward l1 X g2.dInputs
  if let some e := g1.err then
    return some e
  let _ ← updateOne o3 l3 g3
  let _ ← updateOne o2 l2 g2
  let _ ← updateOne o1 l1 g1
  return none

/-- optimizers_test.go:49-101 and 151-203, the work of one epoch. -/
def optStep (l1 l2 l3 o1 o2 o3 : Nat) (loss : Loss) (X Y : Mat) : Go α (Option Err) := do
  let (out1, err) ← layerForward l1 X
  if let some e := err then
    return some e
  let (out2, err) ← layerForward l2 out1
  if let some e := err then
    return some e
  let (out3, err) ← layerForward l3 out2
  if let some e := err then
    return some e
  let (_, err) ← loss.forward out3 Y
  if let some e := err then
    return some e
  let g3 ← softmaxBackwardCE l3 out2 Y out3
  if let some e := g3.err then
    return some e
  let g2 ← layerBackward l2 out1 g3.dInputs
  if let some e := g2.err then
    return some e
  let g1 ← layerBackward l1 X g2.dInputs
  if let some e := g1.err then
    return some e
  let err ← updateOne o3 l3 g3
  if let some e := err then
    return some e
  let err ← updateOne o2 l2 g2
  if let some e := err then
    return some e
  let err ← updateOne o1 l1 g1
  if let some e := err then
    return some e
  return none

/-- examples/sine_test.go:57-158 (steps = 10, b = 25, epochs = 1000) and optimizers_test.go:43-112, 145-219 (steps = 1, b = 100,
epochs = 500): in every epoch, for every batch, the matrices of the batch are made and `step` works on them. -/
def handLoop (epochs steps b : Nat) (x y : Mat) (step : Nat → Mat → Mat → Go α (Option Err)) : Go α (Option Err) :=
  forRet epochs fun i => forRet steps fun s => do
    let (X, _) ← newMatrixFromSlice (← reslice x.m ((s * b : Nat) : Int) ((s * b + b : Nat) : Int))
    let (Y, _) ← newMatrixFromSlice (← reslice y.m ((s * b : Nat) : Int) ((s * b + b : Nat) : Int))
    step i X Y

/-- `l, _ := New...Layer(...)` (the error is dropped). -/
def layerVar (k : LayerKind) (inputs outputs : Int) : Go α Nat := do
  let (l, _) ← newLayer k inputs outputs Flt.zero Flt.zero
  layNew l

/-- examples/sine_test.go:14-159 `TestSine`.  `o` is the optimizer that the three calls of `NewAdamOptimizer` return, `sin` stands for
`math.Sin` and `draw` for the draws of `rand.Shuffle`. -/
def testSine (o : Optim α) (sin : α → α) (draw : Nat → Nat) : Go α (Option Err) := do
  let l1 ← layerVar .hidden 1 64
  let l2 ← layerVar .hidden 64 64
  let l3 ← layerVar .linear 64 1
  let (loss, _) := newLoss .mse 1
  layerInit l1
  layerInit l2
  layerInit l3
  let o1 ← optNew o
  let o2 ← optNew o
  let o3 ← optNew o
  let (x, _) ← newMatrix 250 1
  let (y, _) ← newMatrix 250 1
  forN 250 fun i => do
    let _ ← x.set i 0 (Flt.ofInt i /. Flt.ofInt 250)
    let _ ← y.set i 0 (sin (Flt.ofInt i /. Flt.ofInt 250))
  shuffleFrom draw (fun i j => do
    swapRows x.m i j
    swapRows y.m i j) 249
  handLoop 1000 10 25 x y (sineStep l1 l2 l3 o1 o2 o3 loss)

/-- optimizers_test.go:12-114 `TestSGDOptimizer` and 116-220 `TestAdamOptimizer`: the two differ in the optimizers only.  `o` is the
optimizer that the constructor returns, `rnd i` the i-th result of `rand.Float64`. -/
def testOptimizer (o : Optim α) (rnd : Nat → α) : Go α (Option Err) := do
  let o1 ← optNew o
  let o2 ← optNew o
  let o3 ← optNew o
  let l1 ← layerVar .hidden 1 8
  layerInit l1
  let l2 ← layerVar .hidden 8 8
  layerInit l2
  let l3 ← layerVar .softmax 8 2
  layerInit l3
  let (loss, _) := newLoss .ce 2
  let (x, _) ← newMatrix 100 1
  let (y, _) ← newMatrix 100 2
  forN 100 fun i => x.setAt i 0 (rnd i)
  forN 100 fun i => do
    let v ← x.at i 0
    if Flt.lt v Flt.half then
      y.setAt i 0 Flt.one
    else
      y.setAt i 1 Flt.one
  handLoop 500 1 100 x y (fun _ X Y => optStep l1 l2 l3 o1 o2 o3 loss X Y)

end NN
