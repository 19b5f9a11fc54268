import Verif.Spec.Fit
import Mathlib.Data.Finset.Prod
import Mathlib.Data.Finset.Card
/-
Specification vocabulary for evaluation: the value of a loss and of an accuracy for predictions P and targets T (r rows, c columns),
and the lines that a training run writes to the log.
-/

namespace NN
variable {α : Type} [Flt α]

/-- The sum over all positions, row by row, in one accumulator. -/
def sum2 (r c : Nat) (f : Nat → Nat → α) : α :=
  (List.range r).foldl (fun s i => (List.range c).foldl (fun s j => s +. f i j) s) Flt.zero

/-- The value of the loss.  The squared and the absolute error are those of the FIRST row only (as in the code, see C21 and C23). -/
def lossOf (k : LossKind) (r c : Nat) (P T : Nat → Nat → α) : α :=
  match k with
  | .mse => (fsum c fun j => Flt.pow (P 0 j -. T 0 j) (Flt.ofInt 2)) /. Flt.ofInt (c : Int)
  | .mae => (fsum c fun j => Flt.abs (P 0 j -. T 0 j)) /. Flt.ofInt (c : Int)
  | .ce => fsum r fun i => Flt.neg (Flt.log (fsum c fun j => clipped (P i j) *. T i j)) /. Flt.ofInt (r : Int)
  | .bce => sum2 r c fun i j =>
      (Flt.neg (T i j *. Flt.log (clipped (P i j)) +. (Flt.one -. T i j) *. Flt.log (Flt.one -. clipped (P i j))) /. Flt.ofInt (r : Int))
        /. Flt.ofInt (c : Int)

/-- The column of the largest positive entry among the first c, the first one if there are several, 0 if there is none; and that entry. -/
def bestCol (f : Nat → α) : Nat → Nat × α
  | 0 => (0, Flt.zero)
  | c + 1 => if Flt.lt (bestCol f c).2 (f c) then (c, f c) else bestCol f c

/-- Number of rows satisfying `p`. -/
def rowsWith (r : Nat) (p : Nat → Bool) : Nat := ((Finset.range r).filter fun i => p i).card

/-- Number of positions satisfying `p`. -/
def cellsWith (r c : Nat) (p : Nat → Nat → Bool) : Nat := ((Finset.range r ×ˢ Finset.range c).filter fun q => p q.1 q.2).card

/-- The accuracy: regression (0): the share of entries closer than `prec` to the target; categorical (1): the share of rows whose target
is 1 in the best column; binary (2): the share of entries that, rounded to 0 or 1, equal the target. -/
def accOf (t : Int) (prec : α) (r c : Nat) (P T : Nat → Nat → α) : α :=
  if t = 0 then Flt.ofInt (cellsWith r c fun i j => Flt.lt (Flt.abs (P i j -. T i j)) prec) /. Flt.ofInt ((r : Int) * c)
  else if t = 1 then Flt.ofInt (rowsWith r fun i => Flt.eq (T i (bestCol (P i) c).1) Flt.one) /. Flt.ofInt (r : Int)
  else Flt.ofInt (cellsWith r c fun i j => Flt.eq (if Flt.lt (P i j) Flt.half then Flt.zero else Flt.one) (T i j)) /. Flt.ofInt ((r : Int) * c)

/-- A data set: number of rows, inputs, targets. -/
structure DataSet (α : Type) where
  rows : Nat
  X : Nat → Nat → α
  Y : Nat → Nat → α

/-- Loss of the network on a data set. -/
def netLoss (net : Net α) (k : LossKind) (d : DataSet α) : α :=
  lossOf k d.rows (net.dim net.size) (netOut net d.X net.size) d.Y

/-- Accuracy of the network on a data set. -/
def netAcc (net : Net α) (t : Int) (prec : α) (d : DataSet α) : α :=
  accOf t prec d.rows (net.dim net.size) (netOut net d.X net.size) d.Y

/-- The log lines at the end of epoch e, if `net` is the network at that moment: in epochs divisible by k, a line about the training data
and, if there is validation data, a line about the validation data. -/
def epochLines (net : Net α) (l : LossKind) (t : Int) (prec : α) (train : DataSet α) (val : Option (DataSet α)) (k : Int) (e : Nat) :
    List (LogEvent α) :=
  if k ≠ 0 ∧ k ∣ e then
    .info e (netLoss net l train) (netAcc net t prec train) ::
      match val with
      | none => []
      | some v => [.valInfo e (netLoss net l v) (netAcc net t prec v)]
  else []

/-- Training with logging: `e` epochs of gradient descent over the blocks of the training data, starting at (net, S) and position p of the
random source, end with the network, optimizers and position given, and have written the given lines. -/
inductive Epochs (m : Model α) (l : LossKind) (u : Nat → α) (train : DataSet α) (val : Option (DataSet α)) (k : Int) (b : Nat) (net : Net α)
    (S : Nat → OptSpec α) (p : Nat) : Nat → Net α → (Nat → OptSpec α) → Nat → List (LogEvent α) → Prop
  | start : Epochs m l u train val k b net S p 0 net S p []
  | next {e : Nat} {net1 net2 : Net α} {S1 S2 : Nat → OptSpec α} {p1 p2 : Nat} {lines : List (LogEvent α)} :
      Epochs m l u train val k b net S p e net1 S1 p1 lines →
      Descent m l u train.X train.Y net1 S1 p1 (blocks train.rows b) net2 S2 p2 →
      Epochs m l u train val k b net S p (e + 1) net2 S2 p2 (lines ++ epochLines net2 l m.accType m.accPrec train val k e)

/-- The validation arguments of Fit: yVal is empty, or they hold a data set of the right widths, stored apart from the parameters. -/
def IsVal (w : World α) (net : Net α) (xv yv : Mat) : Option (DataSet α) → Prop
  | none => yv.rows = 0
  | some v => IsMat w xv v.rows (net.dim 0) v.X ∧ IsMat w yv v.rows (net.dim net.size) v.Y ∧
      ∀ a, w.IsNetParam net a → ¬ w.IsRow xv v.rows a ∧ ¬ w.IsRow yv v.rows a

end NN
