import Verif.Model.ModelGo
/-
Model of calls made at the same time by several goroutines: the read-only calls `Predict`, `CalculateLoss`, `CalculateAccuracy` here, `Fit` in
ConcFit.lean.

A goroutine is a program that is a tree of single memory accesses (`Prog`): one access to an element of a slice, one allocation, one access to
a layer object.  Goroutines take turns after every access, in any order (`PoolStep`).  The programs of this file have the text of the functions in
Model/Matrix.lean … Model/ModelGo.lean (same citations); `Prog.run` of each of them equals that function (Lemmas/Conc.lean, `run_predictP` …), so
they add nothing to the model but where a goroutine can be interrupted.

Simplifications: accesses are sequentially consistent.  Each goroutine allocates from an address range of its own; Go promises only that an
allocated address is not in use, and no function of the package depends on the numerical value of an address.  The fields of a layer object that
hold its parameters are read in one access; writing one field of a layer object (a slice header and two numbers) is one access.  A layer object
with the matrices it remembers is read, and an optimizer object is read or written, in one access.
-/

namespace NN

/-- A layer object without the fields that `Forward` writes. -/
def Layer.params {α : Type} (l : Layer α) : Layer α := { l with reluInputs := Mat.zero, outputs := Mat.zero, binaryMask := Mat.zero }

/-- A single memory access. -/
inductive Prim (α : Type) : Type → Type 1
  /-- `make([]float64, n)` -/
  | allocRow (n : Nat) : Prim α Nat
  /-- `make([][]float64, n)` -/
  | allocOuter (n : Nat) : Prim α Slice
  /-- read `s[i]` of a `[][]float64` -/
  | rowRef (s : Slice) (i : Int) : Prim α Nat
  /-- write `s[i]` of a `[][]float64` -/
  | setRowRef (s : Slice) (i : Int) (r : Nat) : Prim α Unit
  /-- read `row[j]` -/
  | rowGet (r : Nat) (j : Int) : Prim α α
  /-- write `row[j]` -/
  | rowSet (r : Nat) (j : Int) (v : α) : Prim α Unit
  /-- `len(row)` -/
  | rowLen (r : Nat) : Prim α Int
  /-- read the sizes, parameters, slope and rate of a layer object -/
  | layParams (lp : Nat) : Prim α (Layer α)
  /-- `l.reluInputs = m` (network.go:111, 459, 821) -/
  | setRelu (lp : Nat) (m : Mat) : Prim α Unit
  /-- `l.outputs = m` (network.go:580) -/
  | setOutputs (lp : Nat) (m : Mat) : Prim α Unit
  /-- `l.binaryMask = m` (network.go:787) -/
  | setMask (lp : Nat) (m : Mat) : Prim α Unit
  /-- read a layer object with the matrices that `Forward` has put there -/
  | layGet (lp : Nat) : Prim α (Layer α)
  /-- read an optimizer object -/
  | optGet (op : Nat) : Prim α (Optim α)
  /-- write an optimizer object -/
  | optSet (op : Nat) (o : Optim α) : Prim α Unit
  /-- `Logger.Printf` (a Go logger writes a line as a whole) -/
  | log (e : LogEvent α) : Prim α Unit
  /-- `rand.Float64()` of the source that all goroutines share (binomial.go:42) -/
  | unif : Prim α α
  /-- a panic -/
  | panic {γ : Type} (p : Panic) : Prim α γ

/-- A program: single accesses one after another. -/
inductive Prog (α β : Type) : Type 1
  | ret (b : β) : Prog α β
  | op {γ : Type} (p : Prim α γ) (k : γ → Prog α β) : Prog α β

namespace Prog
variable {α β γ : Type}

/-- Sequencing. -/
protected def bind : Prog α β → (β → Prog α γ) → Prog α γ
  | .ret b, f => f b
  | .op p k, f => .op p (fun c => (k c).bind f)

instance : Monad (Prog α) where
  pure := .ret
  bind := Prog.bind

/-- A program of one access. -/
def prim (p : Prim α γ) : Prog α γ := .op p .ret

/-- `for i := 0; i < n; i++ { body(i) }` -/
def forN : Nat → (Nat → Prog α Unit) → Prog α Unit
  | 0, _ => pure ()
  | n + 1, body => do forN n body; body n

/-- `for i := 0; i < n; i++ { acc = body(i, acc) }` -/
def foldN : Nat → (Nat → β → Prog α β) → β → Prog α β
  | 0, _, b => pure b
  | n + 1, body, b => do let b' ← foldN n body b; body n b'

/-- `for i := 0; i < n; i++ { ... return x ... }`: the body may return from the enclosing function. -/
def forRet : Nat → (Nat → Prog α (Option β)) → Prog α (Option β)
  | 0, _ => pure none
  | n + 1, body => do
    match ← forRet n body with
    | some b => pure (some b)
    | none => body n

end Prog

variable {α : Type} [Flt α]

/-- What an access does. -/
def Prim.sem {γ : Type} : Prim α γ → Go α γ
  | .allocRow n => NN.allocRow n
  | .allocOuter n => NN.allocOuter n
  | .rowRef s i => NN.rowRef s i
  | .setRowRef s i r => NN.setRowRef s i r
  | .rowGet r j => NN.rowGet r j
  | .rowSet r j v => NN.rowSet r j v
  | .layParams lp => fun w => .ok ((w.lay lp).params, w)
  | .setRelu lp m => fun w => .ok ((), { w with lay := upd w.lay lp { w.lay lp with reluInputs := m } })
  | .setOutputs lp m => fun w => .ok ((), { w with lay := upd w.lay lp { w.lay lp with outputs := m } })
  | .rowLen r => NN.rowLen r
  | .setMask lp m => fun w => .ok ((), { w with lay := upd w.lay lp { w.lay lp with binaryMask := m } })
  | .layGet lp => NN.layGet lp
  | .optGet op => NN.optGet op
  | .optSet op o => NN.optSet op o
  | .log e => NN.logEvent e
  | .unif => drawUnif
  | .panic p => Go.panic p

/-- Run a program alone, from beginning to end. -/
def Prog.run {β : Type} : Prog α β → Go α β
  | .ret b => pure b
  | .op p k => fun w =>
    match p.sem w with
    | .error e => .error e
    | .ok (c, w') => (k c).run w'

/-- Several goroutines: the shared memory, and for each goroutine its next free address and what it has still to do. -/
structure Pool (α β : Type) where
  mem : World α
  next : Nat → Nat
  thr : Nat → Prog α β

/-- The memory as goroutine i sees it. -/
def Pool.view {β : Type} (P : Pool α β) (i : Nat) : World α := { P.mem with next := P.next i }

/-- One access by one of the n goroutines. -/
inductive PoolStep {β : Type} (n : Nat) : Pool α β → Pool α β → Prop
  | step {P : Pool α β} {i : Nat} {γ : Type} {p : Prim α γ} {k : γ → Prog α β} {c : γ} {w' : World α} :
      i < n → P.thr i = .op p k → p.sem (P.view i) = .ok (c, w') →
      PoolStep n P ⟨{ w' with next := P.mem.next }, upd P.next i w'.next, fun j => if j = i then k c else P.thr j⟩

/-- A goroutine is about to panic. -/
def Pool.Panics {β : Type} (P : Pool α β) (i : Nat) : Prop :=
  ∃ (γ : Type) (p : Prim α γ) (k : γ → Prog α β) (e : Panic), P.thr i = .op p k ∧ p.sem (P.view i) = .error e

open Prog

/-! ### The programs -/

/-- `m.M[i][j]` -/
def Mat.atP (m : Mat) (i j : Int) : Prog α α := do
  let r ← prim (.rowRef m.m i)
  prim (.rowGet r j)

/-- `m.M[i][j] = v` -/
def Mat.setAtP (m : Mat) (i j : Int) (v : α) : Prog α Unit := do
  let r ← prim (.rowRef m.m i)
  prim (.rowSet r j v)

/-- Dereference a `*Matrix`. -/
def derefP {β : Type} (p : Option β) : Prog α β :=
  match p with
  | some m => pure m
  | none => prim (.panic .nilDeref)

/-- `xs[i]` for a slice of Go values held by the caller. -/
def listGetP {β : Type} (xs : List β) (i : Int) : Prog α β :=
  if 0 ≤ i then
    match xs[i.toNat]? with
    | some x => pure x
    | none => prim (.panic .index)
  else prim (.panic .index)

/-- matrix.go:37-57 `NewMatrix`. -/
def newMatrixP (rows cols : Int) : Prog α (Mat × Option Err) := do
  if rows < 1 ∨ cols < 1 then
    return (Mat.zero, some (.matrixDims rows cols))
  let s ← prim (.allocOuter rows.toNat)
  forN rows.toNat fun i => do
    let r ← prim (.allocRow cols.toNat)
    prim (.setRowRef s i r)
  return (⟨rows, cols, s⟩, none)

/-- matrix.go:227-247 `Sub`. -/
def Mat.subP (m b : Mat) : Prog α (Mat × Option Err) := do
  if m.rows ≠ b.rows ∨ m.cols ≠ b.cols then
    return (Mat.zero, some (.matrixDims b.rows b.cols))
  let (ans, _) ← newMatrixP m.rows m.cols
  forN m.rows.toNat fun i => forN m.cols.toNat fun j => do
    let x ← m.atP i j
    let y ← b.atP i j
    ans.setAtP i j (x -. y)
  return (ans, none)

/-- matrix.go:314-341 `Dot`. -/
def Mat.dotP (m b : Mat) : Prog α (Mat × Option Err) := do
  if m.cols ≠ b.rows then
    return (Mat.zero, some (.matrixDims b.rows b.cols))
  let (ans, _) ← newMatrixP m.rows b.cols
  forN m.rows.toNat fun i => forN b.cols.toNat fun j => do
    let sum ← foldN m.cols.toNat (fun n sum => do
      let x ← m.atP i n
      let y ← b.atP n j
      return sum +. x *. y) Flt.zero
    ans.setAtP i j sum
  return (ans, none)

/-- matrix.go:386-400 `Sum` along axis 1. -/
def Mat.sum1P (m : Mat) : Prog α Mat := do
  let (ans, _) ← newMatrixP 1 m.rows
  forN m.rows.toNat fun i => do
    let s ← foldN m.cols.toNat (fun j s => do
      let x ← m.atP i j
      return s +. x) Flt.zero
    ans.setAtP 0 i s
  return ans

/-- matrix.go:403-415 `Clip` (in place). -/
def clipP (X : Mat) : Prog α Mat := do
  forN X.rows.toNat fun i => forN X.cols.toNat fun j => do
    let x ← X.atP i j
    if Flt.lt x Flt.zero then
      X.setAtP i j Flt.eps7
    else
      let x' ← X.atP i j
      if Flt.lt Flt.one x' then
        X.setAtP i j Flt.oneSubEps7
  return X

/-- misc.go:35-56 `RowMax`. -/
def rowMaxP (X : Mat) : Prog α Mat := do
  let (ans, _) ← newMatrixP X.rows 1
  forN X.rows.toNat fun i => do
    let (largest, _) ← foldN X.cols.toNat (fun j (p : Int × α) => do
      let x ← X.atP i j
      if Flt.lt p.2 x then
        let x' ← X.atP i j
        return ((j : Int), x')
      else return p) ((0 : Int), (Flt.zero : α))
    ans.setAtP i 0 (Flt.ofInt largest)
  return ans

/-- misc.go:60-73 `OutputBinaryValues` (in place). -/
def outputBinaryValuesP (X : Mat) : Prog α Mat := do
  forN X.rows.toNat fun i => forN X.cols.toNat fun j => do
    let x ← X.atP i j
    if Flt.lt x Flt.half then
      X.setAtP i j Flt.zero
    else
      X.setAtP i j Flt.one
  return X

/-- activation.go:12-22 `RELU`. -/
def reluP (m : Mat) : Prog α Mat := do
  forN m.rows.toNat fun i => forN m.cols.toNat fun j => do
    let x ← m.atP i j
    m.setAtP i j (Flt.max x Flt.zero)
  return m

/-- activation.go:41-51 `Sigmoid`. -/
def sigmoidP (m : Mat) : Prog α Mat := do
  forN m.rows.toNat fun i => forN m.cols.toNat fun j => do
    let x ← m.atP i j
    m.setAtP i j (Flt.one /. (Flt.one +. Flt.exp (Flt.neg x)))
  return m

/-- activation.go:69-81 `LeakyRELU`. -/
def leakyReluP (m : Mat) (slope : α) : Prog α Mat := do
  forN m.rows.toNat fun i => forN m.cols.toNat fun j => do
    let x ← m.atP i j
    if Flt.lt x Flt.zero then
      let x' ← m.atP i j
      m.setAtP i j (x' *. slope)
  return m

/-- activation.go:100-115 `Softmax`. -/
def softmaxP (m : Mat) : Prog α Mat := do
  forN m.rows.toNat fun i => do
    let sum ← foldN m.cols.toNat (fun j sum => do
      let x ← m.atP i j
      m.setAtP i j (Flt.exp x)
      let e ← m.atP i j
      return sum +. e) Flt.zero
    forN m.cols.toNat fun j => do
      let e ← m.atP i j
      m.setAtP i j (e /. sum)
  return m

/-- The common first part of every forward pass (network.go:92-108, 209-225, 317-333, 440-456, 558-574, 802-818). -/
def affineP (l : Layer α) (x : Mat) : Prog α (Mat × Option Err) := do
  if x.cols ≠ l.inputSize then
    return (Mat.zero, some (.matrixDims x.rows x.cols))
  let wm ← derefP l.weights
  let (out, err) ← x.dotP wm
  if let some e := err then
    return (Mat.zero, some e)
  forN out.rows.toNat fun i => forN out.cols.toNat fun j => do
    let v ← out.atP i j
    let bm ← derefP l.biases
    let b ← bm.atP 0 j
    out.setAtP i j (v +. b)
  return (out, none)

/-- model.go:148-165 for `training = false`: `Forward` of the layers (network.go:92-118, 209-229, 317-340, 440-466, 558-584) and
`ForwardNoDropout` (network.go:802-828). -/
def inferP (lp : Nat) (x : Mat) : Prog α (Mat × Option Err) := do
  let l ← prim (.layParams lp)
  let (out, err) ← affineP l x
  if let some e := err then
    return (Mat.zero, some e)
  match l.kind with
  | .hidden | .dropout => do
    prim (.setRelu lp out)
    let out ← reluP out
    return (out, none)
  | .linear => return (out, none)
  | .sigmoid => do
    let out ← sigmoidP out
    return (out, none)
  | .leaky => do
    prim (.setRelu lp out)
    let out ← leakyReluP out l.slope
    return (out, none)
  | .softmax => do
    let out ← softmaxP out
    prim (.setOutputs lp out)
    return (out, none)

/-- model.go:147-165, the loop of `Forward`. -/
def forwardLoopP (m : Model α) (X : Mat) : Nat → Prog α (List Mat × Mat × Option Err)
  | 0 => pure ([X], X, none)
  | n + 1 => do
    let (outputs, output, err) ← forwardLoopP m X n
    if let some e := err then
      return ([], output, some e)
    let lp ← listGetP m.layers n
    let (out, err) ← inferP lp output
    if let some e := err then
      return ([], out, some e)
    return (outputs ++ [out], out, none)

/-- model.go:143-169 `Forward(X, false)`. -/
def modelForwardP (m : Model α) (X : Mat) : Prog α (List Mat × Option Err) := do
  let (outputs, _, err) ← forwardLoopP m X m.modelSize.toNat
  return (outputs, err)

/-- model.go:340-356 `Predict`. -/
def predictP (m : Model α) (X : Mat) : Prog α (Mat × Option Err) := do
  let (outputs, err) ← modelForwardP m X
  if let some e := err then
    return (Mat.zero, some e)
  if m.accType = 0 then
    return (← listGetP outputs m.modelSize, none)
  else if m.accType = 1 then
    let out ← listGetP outputs m.modelSize
    return (← rowMaxP out, none)
  else if m.accType = 2 then
    let out ← listGetP outputs m.modelSize
    return (← outputBinaryValuesP out, none)
  return (Mat.zero, some .accType)

/-- loss.go:54-78 `MeanSquaredLoss.Forward`. -/
def mseForwardP (size : Int) (yhat y : Mat) : Prog α (α × Option Err) := do
  if let some e := lossCheck size yhat y then
    return (Flt.zero, some e)
  let (sub, err) ← yhat.subP y
  if let some e := err then
    return (Flt.zero, some e)
  forN sub.cols.toNat fun i => do
    let x ← sub.atP 0 i
    sub.setAtP 0 i (Flt.pow x (Flt.ofInt 2))
  let s ← sub.sum1P
  let v ← s.atP 0 0
  return (v /. Flt.ofInt sub.cols, none)

/-- loss.go:131-155 `MeanAbsoluteLoss.Forward`. -/
def maeForwardP (size : Int) (yhat y : Mat) : Prog α (α × Option Err) := do
  if let some e := lossCheck size yhat y then
    return (Flt.zero, some e)
  let (sub, err) ← yhat.subP y
  if let some e := err then
    return (Flt.zero, some e)
  forN sub.cols.toNat fun i => do
    let x ← sub.atP 0 i
    sub.setAtP 0 i (Flt.abs x)
  let s ← sub.sum1P
  let v ← s.atP 0 0
  return (v /. Flt.ofInt sub.cols, none)

/-- loss.go:218-251 `CrossEntropyLoss.Forward`. -/
def ceForwardP (size : Int) (yhat y : Mat) : Prog α (α × Option Err) := do
  if let some e := lossCheck size yhat y then
    return (Flt.zero, some e)
  let clipped ← clipP yhat
  let (likelihoods, _) ← newMatrixP yhat.rows 1
  forN yhat.rows.toNat fun i => do
    let sum ← foldN yhat.cols.toNat (fun j sum => do
      let p ← clipped.atP i j
      let t ← y.atP i j
      return sum +. p *. t) Flt.zero
    likelihoods.setAtP i 0 (Flt.neg (Flt.log sum))
  let sum ← foldN likelihoods.rows.toNat (fun i sum => do
    let v ← likelihoods.atP i 0
    return sum +. v /. Flt.ofInt likelihoods.rows) Flt.zero
  return (sum, none)

/-- loss.go:305-329 `BinaryCrossEntropyLoss.Forward`. -/
def bceForwardP (size : Int) (yhat y : Mat) : Prog α (α × Option Err) := do
  if let some e := lossCheck size yhat y then
    return (Flt.zero, some e)
  let clipped ← clipP yhat
  let sum ← foldN yhat.rows.toNat (fun i sum => foldN yhat.cols.toNat (fun j sum => do
    let t ← y.atP i j
    let p ← clipped.atP i j
    return sum +. (Flt.neg (t *. Flt.log p +. (Flt.one -. t) *. Flt.log (Flt.one -. p))
      /. Flt.ofInt yhat.rows) /. Flt.ofInt size) sum) Flt.zero
  return (sum, none)

/-- `Forward` of the `Loss` interface (loss.go:17). -/
def Loss.forwardP (l : Loss) (yhat y : Mat) : Prog α (α × Option Err) :=
  match l.kind with
  | .mse => mseForwardP l.size yhat y
  | .mae => maeForwardP l.size yhat y
  | .ce => ceForwardP l.size yhat y
  | .bce => bceForwardP l.size yhat y

/-- accuracy.go:13-27 `RegressionAccuracy`. -/
def regressionAccuracyP (yHat Y : Mat) (percision : α) : Prog α α := do
  let accuracy ← foldN Y.rows.toNat (fun i acc => foldN Y.cols.toNat (fun j (acc : Int) => do
    let a ← yHat.atP i j
    let b ← Y.atP i j
    if Flt.lt (Flt.abs (a -. b)) percision then return acc + 1 else return acc) acc) (0 : Int)
  return Flt.ofInt accuracy /. Flt.ofInt (Y.rows * Y.cols)

/-- accuracy.go:31-46 `CategoricalAccuracy`. -/
def categoricalAccuracyP (yHat Y : Mat) : Prog α α := do
  let outputs ← rowMaxP yHat
  let accuracy ← foldN Y.rows.toNat (fun i (acc : Int) => do
    let k ← outputs.atP i 0
    let y ← Y.atP i (Flt.toInt k)
    if Flt.eq y Flt.one then return acc + 1 else return acc) (0 : Int)
  return Flt.ofInt accuracy /. Flt.ofInt Y.rows

/-- accuracy.go:50-67 `BinaryCategoricalAccuracy`. -/
def binaryCategoricalAccuracyP (yHat Y : Mat) : Prog α α := do
  let outputs ← outputBinaryValuesP yHat
  let accuracy ← foldN Y.rows.toNat (fun i acc => foldN Y.cols.toNat (fun j (acc : Int) => do
    let a ← outputs.atP i j
    let b ← Y.atP i j
    if Flt.eq a b then return acc + 1 else return acc) acc) (0 : Int)
  return Flt.ofInt accuracy /. Flt.ofInt (Y.rows * Y.cols)

/-- model.go:304-318 `CalculateLoss`. -/
def calculateLossP (m : Model α) (X Y : Mat) : Prog α (α × Option Err) := do
  let (outputs, err) ← modelForwardP m X
  if let some e := err then
    return (Flt.zero, some e)
  let out ← listGetP outputs m.modelSize
  let loss ← derefP m.loss
  let (j, err) ← loss.forwardP out Y
  if let some e := err then
    return (Flt.zero, some e)
  return (j, none)

/-- model.go:321-337 `CalculateAccuracy`. -/
def calculateAccuracyP (m : Model α) (X Y : Mat) : Prog α (α × Option Err) := do
  let (outputs, err) ← modelForwardP m X
  if let some e := err then
    return (Flt.zero, some e)
  if m.accType = 0 then
    let out ← listGetP outputs m.modelSize
    return (← regressionAccuracyP out Y m.accPrec, none)
  else if m.accType = 1 then
    let out ← listGetP outputs m.modelSize
    return (← categoricalAccuracyP out Y, none)
  else if m.accType = 2 then
    let out ← listGetP outputs m.modelSize
    return (← binaryCategoricalAccuracyP out Y, none)
  return (Flt.zero, some .accType)

end NN
