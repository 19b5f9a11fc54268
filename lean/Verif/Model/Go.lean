import Verif.Model.Flt
/-
The Go runtime as seen by the package: the mutable state (`World`), computations that may panic (`Go`),
loops, slices and slice-of-slice indexing.
-/

namespace NN

/-- The header of a `[][]float64`: backing array, offset, length, capacity.
Simplification: a row (`[]float64`) is identified with its whole backing array, so rows need no header;
the package never re-slices a row. -/
structure Slice where
  addr : Nat
  off  : Nat
  len  : Nat
  cap  : Nat
deriving Repr, DecidableEq, Inhabited

/-- matrix.go:29-34 `type Matrix struct`. -/
structure Mat where
  rows : Int
  cols : Int
  m    : Slice
deriving Repr, DecidableEq, Inhabited

/-- The nil `[][]float64`. -/
def Slice.nil : Slice := ⟨0, 0, 0, 0⟩

/-- `Matrix{}`. -/
def Mat.zero : Mat := ⟨0, 0, Slice.nil⟩

/-- The kinds of run-time panic that the modelled code can raise. -/
inductive Panic where
  | index      -- index or slice bounds out of range
  | nilDeref   -- nil pointer / nil interface
  | makeLen    -- make with a negative length
  | axis       -- the explicit panic in Matrix.Sum
  | shuffle    -- rand.Shuffle with negative n
deriving Repr, DecidableEq

/-- The error values of the package (their texts are in Model/Texts.lean). -/
inductive Err where
  | matrixDims (rows cols : Int)     -- matrix.go:14
  | matrixIndex (row col : Int)      -- matrix.go:19
  | sliceDims (len : Int)            -- matrix.go:24
  | layerDims (i o : Int)            -- network.go:26
  | badSlope                         -- network.go:390
  | badDropout                       -- network.go:712
  | lossSize (size : Int)            -- loss.go:22
  | oneHotSize                       -- misc.go:18
  | sgdRate | sgdDecay | sgdMomentum -- optimizers.go:73-81
  | adamRate | adamDecay             -- optimizers.go:204-209
  | optType                          -- optimizers.go:36
  | addLayer                         -- model.go:85
  | finalizeLoss                     -- model.go:104
  | finalizePrecision                -- model.go:128
  | accType                          -- model.go:336,355
  | eof                              -- io.EOF / io.ErrUnexpectedEOF
  | modelMagic                       -- model_data.go:186
  | layerMagic                       -- layer_data.go:131
  | loadLossType                     -- model_data.go:154
  | loadOptType                      -- model_data.go:171
  | layerType                        -- layer_data.go:259
  | os                               -- an error of the operating system
deriving Repr, DecidableEq

/-- The six layer types of network.go. -/
inductive LayerKind where
  | hidden | linear | sigmoid | leaky | softmax | dropout
deriving Repr, DecidableEq, Inhabited

/-- A layer object.  One record for the six structs of network.go:32-38, 150-155, 258-263, 372-379, 498-504,
693-701; a field that a Go struct lacks keeps its zero value here.  `Weights`/`Biases` are `*Matrix`; the
package never assigns to the fields of a pointed-to Matrix, so the pointer is modelled by the (optional) struct. -/
structure Layer (α : Type) where
  kind       : LayerKind
  inputSize  : Int
  outputSize : Int
  weights    : Option Mat
  biases     : Option Mat
  slope      : α
  dropout    : α
  reluInputs : Mat
  outputs    : Mat
  binaryMask : Mat

/-- The two optimizer types. -/
inductive OptKind where
  | sgd | adam
deriving Repr, DecidableEq, Inhabited

/-- An optimizer object.  One record for optimizers.go:41-51 and 164-178. -/
structure Optim (α : Type) where
  kind            : OptKind
  learningRate    : α
  decay           : α
  momentum        : α
  epsilon         : α
  beta1           : α
  beta2           : α
  currentRate     : α
  iterations      : Int
  weightMomentums : Mat
  biasMomentums   : Mat
  weightCache     : Mat
  biasCache       : Mat
  useDecay        : Bool
  useMomentum     : Bool

/-- The part of `Fit` that an error line of the log names: the text before ": %s" in model.go:241, 248, 257, 268, 273, 286, 291.  The
lines 241 (forward pass) and 248 (backward pass) have the same text. -/
inductive LogStage where
  | forward | update | loss | accuracy | valLoss | valAccuracy
deriving Repr, DecidableEq

/-- What `Fit` writes to the loggers (model.go:241-296). -/
inductive LogEvent (α : Type) where
  | info (epoch : Int) (loss accuracy : α)        -- model.go:278
  | valInfo (epoch : Int) (loss accuracy : α)     -- model.go:296
  | error (at_ : LogStage) (e : Err)              -- model.go:241,248,257,268,273,286,291
  | warnVersion (v : Str)                         -- model_data.go:197

/-- The mutable state of a Go program using the package. -/
structure World (α : Type) where
  /-- next free address (one counter for all kinds of objects) -/
  next : Nat
  /-- backing arrays of `[]float64` -/
  flt  : Nat → List α
  /-- backing arrays of `[][]float64`: addresses of rows -/
  outs : Nat → List Nat
  /-- layer objects (layers are used through pointers) -/
  lay  : Nat → Layer α
  /-- optimizer objects -/
  opt  : Nat → Optim α
  /-- the stream of `NormFloat64` draws and how many have been used -/
  norm : Nat → α
  normPos : Nat
  /-- the stream of `Float64` draws of golang.org/x/exp/rand and how many have been used -/
  unif : Nat → α
  unifPos : Nat
  /-- the log written so far -/
  log : List (LogEvent α)
  /-- has `InitLogger` been called successfully? (the loggers are nil before) -/
  logger : Bool

/-- A Go computation: it changes the state and returns a value, or panics. -/
def Go (α β : Type) : Type := World α → Except Panic (β × World α)

namespace Go

variable {α β γ : Type}

protected def pure (b : β) : Go α β := fun w => .ok (b, w)

protected def bind (x : Go α β) (f : β → Go α γ) : Go α γ := fun w =>
  match x w with
  | .error p => .error p
  | .ok (b, w') => f b w'

instance : Monad (Go α) where
  pure := Go.pure
  bind := Go.bind

/-- A run-time panic. -/
def panic (p : Panic) : Go α β := fun _ => .error p

/-- Read the state. -/
def get : Go α (World α) := fun w => .ok (w, w)

/-- Change the state. -/
def modify (f : World α → World α) : Go α Unit := fun w => .ok ((), f w)

/-- `for i := 0; i < n; i++ { body(i) }` -/
def forN : Nat → (Nat → Go α Unit) → Go α Unit
  | 0, _ => pure ()
  | n + 1, body => do forN n body; body n

/-- `for i := 0; i < n; i++ { acc = body(i, acc) }` -/
def foldN : Nat → (Nat → β → Go α β) → β → Go α β
  | 0, _, b => pure b
  | n + 1, body, b => do let b' ← foldN n body b; body n b'

/-- `for i := 0; i < n; i++ { ... return x ... }`: the body may return from the enclosing function. -/
def forRet : Nat → (Nat → Go α (Option β)) → Go α (Option β)
  | 0, _ => pure none
  | n + 1, body => do
    match ← forRet n body with
    | some b => pure (some b)
    | none => body n

end Go

/-- Function update. -/
def upd {β : Type} (f : Nat → β) (a : Nat) (b : β) : Nat → β := fun x => if x = a then b else f x

variable {α : Type}

/-- `make([]float64, n)`: allocate a zeroed row. -/
def allocRow [Flt α] (n : Nat) : Go α Nat := fun w =>
  .ok (w.next, { w with next := w.next + 1, flt := upd w.flt w.next (List.replicate n Flt.zero) })

/-- `make([][]float64, n)`: allocate an array of n rows.  The rows are nil at first, written as address 0;
every use in the package fills them before they are read. -/
def allocOuter (n : Nat) : Go α Slice := fun w =>
  .ok (⟨w.next, 0, n, n⟩, { w with next := w.next + 1, outs := upd w.outs w.next (List.replicate n 0) })

/-- `s[i]` for a `[][]float64`. -/
def rowRef (s : Slice) (i : Int) : Go α Nat := fun w =>
  if 0 ≤ i ∧ i < s.len then
    match (w.outs s.addr)[s.off + i.toNat]? with
    | some a => .ok (a, w)
    | none => .error .index
  else .error .index

/-- `s[i] = r` for a `[][]float64`. -/
def setRowRef (s : Slice) (i : Int) (r : Nat) : Go α Unit := fun w =>
  if 0 ≤ i ∧ i < s.len then
    .ok ((), { w with outs := upd w.outs s.addr ((w.outs s.addr).set (s.off + i.toNat) r) })
  else .error .index

/-- `row[j]` -/
def rowGet (r : Nat) (j : Int) : Go α α := fun w =>
  if 0 ≤ j then
    match (w.flt r)[j.toNat]? with
    | some v => .ok (v, w)
    | none => .error .index
  else .error .index

/-- `row[j] = v` -/
def rowSet (r : Nat) (j : Int) (v : α) : Go α Unit := fun w =>
  if 0 ≤ j ∧ j < (w.flt r).length then
    .ok ((), { w with flt := upd w.flt r ((w.flt r).set j.toNat v) })
  else .error .index

/-- `len(row)` -/
def rowLen (r : Nat) : Go α Int := fun w => .ok (((w.flt r).length : Int), w)

/-- `s[lo:hi]` -/
def reslice (s : Slice) (lo hi : Int) : Go α Slice := fun w =>
  if 0 ≤ lo ∧ lo ≤ hi ∧ hi ≤ s.cap then
    .ok (⟨s.addr, s.off + lo.toNat, (hi - lo).toNat, s.cap - lo.toNat⟩, w)
  else .error .index

/-- `m.M[i][j]` -/
def Mat.at (m : Mat) (i j : Int) : Go α α := do
  let r ← rowRef m.m i
  rowGet r j

/-- `m.M[i][j] = v` -/
def Mat.setAt (m : Mat) (i j : Int) (v : α) : Go α Unit := do
  let r ← rowRef m.m i
  rowSet r j v

/-- Dereference a `*Matrix`. -/
def deref {β : Type} (p : Option β) : Go α β :=
  match p with
  | some m => pure m
  | none => Go.panic .nilDeref

/-- `xs[i]` for a slice of Go values held by the caller. -/
def listGet {β : Type} (xs : List β) (i : Int) : Go α β :=
  if 0 ≤ i then
    match xs[i.toNat]? with
    | some x => pure x
    | none => Go.panic .index
  else Go.panic .index

/-- `map[string]float64`: an association list (distinct keys are an invariant kept by `GoMap.put`). -/
abbrev GoMap (α : Type) := List (Str × α)

/-- `m[k]` (zero value when absent). -/
def GoMap.get [Flt α] (m : GoMap α) (k : Str) : α :=
  match m.find? (fun p => p.1 == k) with
  | some p => p.2
  | none => Flt.zero

/-- `m[k] = v` -/
def GoMap.put (m : GoMap α) (k : Str) (v : α) : GoMap α :=
  if m.any (fun p => p.1 == k) then m.map (fun p => if p.1 == k then (k, v) else p)
  else m ++ [(k, v)]

/-- `delete(m, k)` -/
def GoMap.del (m : GoMap α) (k : Str) : GoMap α := m.filter (fun p => !(p.1 == k))

end NN
