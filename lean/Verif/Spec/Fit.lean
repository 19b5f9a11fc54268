import Verif.Spec.Backprop
import Verif.Spec.Optim
/-
Specification vocabulary for training: the division of a dataset into batches, and what `Fit` does with a batch.
-/

namespace NN
variable {α : Type} [Flt α]
open Go

/-- The batches of a dataset of `n` rows, as pairs (first row, number of rows): consecutive blocks of `b` rows, the
last one possibly shorter; a single block for `b = 0`. -/
def blocks (n b : Nat) : List (Nat × Nat) :=
  if b = 0 then [(0, n)] else (List.range ((n + b - 1) / b)).map fun s => (s * b, min b (n - s * b))

/-- The rows lo, ..., lo+k-1 of a matrix, as a matrix that shares storage with it. -/
def rowsOf (m : Mat) (p : Nat × Nat) : Mat := ⟨p.2, m.cols, ⟨m.m.addr, m.m.off + p.1, p.2, m.m.cap - p.1⟩⟩

/-- A training step on one batch: forward pass, backward pass, optimizer step for every layer.  A failing step is logged
and returned. -/
def trainOn (m : Model α) (x y : Mat) : Go α (Option Err) := do
  let (outputs, err) ← modelForward m x true
  if let some e := err then
    logEvent (.error .forward e)
    return some e
  let (gradients, err) ← modelBackward m outputs y
  if let some e := err then
    logEvent (.error .forward e)
    return some e
  updateLayers m gradients

/-- What happens at the end of epoch `e`: a line about the training data and one about the validation data, if there is
validation data, in every epoch divisible by `k`. -/
def endOfEpoch (m : Model α) (X Y xVal yVal : Mat) (k : Int) (e : Nat) : Go α (Option Err) := do
  if k ≠ 0 ∧ k ∣ e then
    let err ← fitLog m X Y .loss .accuracy (fun l a => .info e l a)
    if let some er := err then
      return some er
    if yVal.rows ≠ 0 then
      fitLog m xVal yVal .valLoss .valAccuracy (fun l a => .valInfo e l a)
    else return none
  else return none

/-- An epoch: a training step on each batch in the list, in order, then the end of the epoch. -/
def trainEpoch (m : Model α) (bs : List (Nat × Nat)) (X Y xVal yVal : Mat) (k : Int) (e : Nat) : Go α (Option Err) := do
  let err ← forRet bs.length fun s => trainOn m (rowsOf X (bs.getD s (0, 0))) (rowsOf Y (bs.getD s (0, 0)))
  if let some er := err then
    return some er
  endOfEpoch m X Y xVal yVal k e

/-- In state `w`, `m` is a model with the layers of `net` and an optimizer object `op i` with content `S i` for each
layer, all in separate storage. -/
structure IsTask (w : World α) (m : Model α) (net : Net α) (op : Nat → Nat) (S : Nat → OptSpec α) : Prop where
  isNet : IsNet w m net
  own : OwnNet w net
  pos : 0 < net.size
  optims : m.optims = (List.range net.size).map op
  opt : ∀ i, i < net.size → IsOpt w (op i) (net.L i).n (net.L i).o 1 (net.L i).o (S i)
  inj : ∀ i j, i < net.size → j < net.size → op i = op j → i = j
  sep : ∀ i a, i < net.size → w.IsOptRow (w.opt (op i)) (net.L i).n 1 a → ¬ w.IsNetParam net a

/-- Two models that differ at most in the values of weights and biases. -/
structure SameShape (net net' : Net α) : Prop where
  size : net'.size = net.size
  dim : net'.dim = net.dim
  lp : net'.lp = net.lp
  wm : net'.wm = net.wm
  bm : net'.bm = net.bm
  layer : ∀ i, ∃ W b, net'.L i = { net.L i with W := W, b := b }

/-- The model after an optimizer step with the gradients of back-propagation. -/
def stepNet (net : Net α) (S : Nat → OptSpec α) (r : Nat) (V G : Nat → Nat → Nat → α) : Net α :=
  { net with L := fun i => { net.L i with
      W := (S i).newW (net.L i).W (gradW r (V i) (G i))
      b := fun j => (S i).newB (fun _ j => (net.L i).b j) (gradB r (G i)) 0 j } }

/-- The optimizers after that step. -/
def stepOpts (S : Nat → OptSpec α) (r : Nat) (V G : Nat → Nat → Nat → α) (i : Nat) : OptSpec α :=
  (S i).step (gradW r (V i) (G i)) (gradB r (G i))

/-- One step of gradient descent on a batch of r rows (X, Y), with uniform numbers u for the dropout masks: forward pass,
back-propagation of the loss, optimizer step for every layer. -/
def TrainStep (m : Model α) (loss : LossKind) (r : Nat) (u : Nat → α) (X Y : Nat → Nat → α) (net : Net α) (S : Nat → OptSpec α)
    (net' : Net α) (S' : Nat → OptSpec α) : Prop :=
  ∃ G D : Nat → Nat → Nat → α,
    NetGrad m net loss r (trainVals net r u X) (fun k => dropBits (net.L k) fun q => u (dropDraws net r k + q)) Y G D ∧
    net' = stepNet net S r (trainVals net r u X) G ∧ S' = stepOpts S r (trainVals net r u X) G

/-- Gradient descent over a list of batches of the dataset (X, Y): a batch (lo, k) consists of the k rows from row lo on.
The uniform numbers used start at position p and end at position p'. -/
inductive Descent (m : Model α) (loss : LossKind) (u : Nat → α) (X Y : Nat → Nat → α) (net : Net α) (S : Nat → OptSpec α)
    (p : Nat) : List (Nat × Nat) → Net α → (Nat → OptSpec α) → Nat → Prop
  | start : Descent m loss u X Y net S p [] net S p
  | step {bs : List (Nat × Nat)} {b : Nat × Nat} {net1 net2 : Net α} {S1 S2 : Nat → OptSpec α} {p1 : Nat} :
      Descent m loss u X Y net S p bs net1 S1 p1 →
      TrainStep m loss b.2 (fun q => u (p1 + q)) (fun i j => X (b.1 + i) j) (fun i j => Y (b.1 + i) j) net1 S1 net2 S2 →
      Descent m loss u X Y net S p (bs ++ [b]) net2 S2 (p1 + dropDraws net1 b.2 net1.size)

/-- Everything that C70 requires of a call of Fit. -/
structure FitArgs (w : World α) (m : Model α) (net : Net α) (op : Nat → Nat) (S : Nat → OptSpec α) (loss : Loss) (X Y : Mat) (n : Nat)
    (A B : Nat → Nat → α) : Prop where
  task : IsTask w m net op S
  noSigmoid : ∀ k, k < net.size → (net.L k).kind ≠ .sigmoid
  loss_eq : m.loss = some loss
  loss_size : loss.size = net.dim net.size
  x : IsMat w X n (net.dim 0) A
  y : IsMat w Y n (net.dim net.size) B
  xcap : n ≤ X.m.cap
  ycap : n ≤ Y.m.cap
  xsep : ∀ a, w.IsNetParam net a → ¬ w.IsRow X n a
  ysep : ∀ a, w.IsNetParam net a → ¬ w.IsRow Y n a

end NN
