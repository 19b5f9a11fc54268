import Verif.Spec.Eval
import Verif.Spec.PlaceFit
import Verif.Spec.Same
/-
Specification vocabulary for whole programs that use a finished model: sequences of calls of Fit, Predict, CalculateLoss, CalculateAccuracy and
InitLayers on numbered data sets, and what each call does and answers.
-/

namespace NN
variable {α : Type} [Flt α]
open NN.Go

/-- A call on the model.  `t` and `v` are numbers of data sets (`v = none`: no validation data). -/
inductive Op where
  | fit (t : Nat) (epochs : Int) (b : Nat) (v : Option Nat) (k : Int)
  | predict (t : Nat)
  | loss (t : Nat)
  | accuracy (t : Nat)
  | init

/-- Calls that only look at the model. -/
def Op.reads : Op → Bool
  | .predict _ | .loss _ | .accuracy _ => true
  | .fit .. | .init => false

/-- The call uses data sets with numbers below N, which are small enough for the batch size. -/
def Op.Uses (N : Nat) (d : Nat → DataSet α) : Op → Prop
  | .fit t _ b v _ => t < N ∧ (d t).rows + b ≤ 2 ^ 53 ∧ ∀ q, v = some q → q < N
  | .predict t | .loss t | .accuracy t => t < N
  | .init => True

/-- What a call returns to the program. -/
inductive Reply (α : Type) where
  | done (e : Option Err)
  | matrix (x : Mat) (e : Option Err)
  | number (v : α) (e : Option Err)

/-- The call, on the model m and the matrices D of the data sets. -/
def Op.run (m : Model α) (D : Nat → Mat × Mat) : Op → Go α (Reply α)
  | .fit t epochs b v k => do
    let val := (v.map D).getD (Mat.zero, Mat.zero)
    let e ← NN.fit m (D t).1 (D t).2 epochs b val.1 val.2 k
    return .done e
  | .predict t => do
    let p ← NN.predict m (D t).1
    return .matrix p.1 p.2
  | .loss t => do
    let p ← calculateLoss m (D t).1 (D t).2
    return .number p.1 p.2
  | .accuracy t => do
    let p ← calculateAccuracy m (D t).1 (D t).2
    return .number p.1 p.2
  | .init => do
    initLayers m
    return .done none

/-- One call after the other. -/
def runAll (m : Model α) (D : Nat → Mat × Mat) : List Op → Go α (List (Reply α))
  | [] => pure []
  | c :: cs => do
    let r ← c.run m D
    let rs ← runAll m D cs
    return r :: rs

/-- The content of a reply. -/
inductive Answer (α : Type) where
  | done
  | matrix (r c : Nat) (V : Nat → Nat → α)
  | number (v : α)

/-- In state w, the reply reports no error and has this content. -/
def Reply.Says (w : World α) : Reply α → Answer α → Prop
  | .done e, .done => e = none
  | .matrix x e, .matrix r c V => e = none ∧ IsMat w x r c V
  | .number v e, .number v' => e = none ∧ v = v'
  | _, _ => False

/-- What a program can influence: the parameters, the states of the optimizers, and how many random numbers have been used. -/
structure Situation (α : Type) where
  net : Net α
  S : Nat → OptSpec α
  upos : Nat
  npos : Nat

/-- How many numbers the first q layers take from the normal distribution in InitLayers: one for every weight. -/
def weightsBefore (net : Net α) (q : Nat) : Nat := ((List.range q).map fun l => (net.L l).n * (net.L l).o).sum

/-- What Predict makes of the outputs P (c columns): the outputs themselves (accuracy type 0), the best column (1), or zeros and ones (2). -/
def answerOf (t : Int) (r c : Nat) (P : Nat → Nat → α) : Answer α :=
  if t = 0 then .matrix r c P
  else if t = 1 then .matrix r 1 fun i _ => Flt.ofInt (bestCol (P i) c).1
  else .matrix r c fun i j => if Flt.lt (P i j) Flt.half then Flt.zero else Flt.one

/-- What a call does: the situation before, the answer, the situation after, and the lines it writes to the log.  `u` and `nrm` are the
sources of uniform and normal random numbers. -/
def Op.Does (m : Model α) (l : LossKind) (u nrm : Nat → α) (d : Nat → DataSet α) :
    Op → Situation α → Answer α → Situation α → List (LogEvent α) → Prop
  | .fit t epochs b v k, s, a, s', ls => a = .done ∧ s'.npos = s.npos ∧
      Epochs m l u (d t) (v.map d) k b s.net s.S s.upos epochs.toNat s'.net s'.S s'.upos ls
  | .predict t, s, a, s', ls => s' = s ∧ ls = [] ∧
      a = answerOf m.accType (d t).rows (s.net.dim s.net.size) (netOut s.net (d t).X s.net.size)
  | .loss t, s, a, s', ls => s' = s ∧ ls = [] ∧ a = .number (netLoss s.net l (d t))
  | .accuracy t, s, a, s', ls => s' = s ∧ ls = [] ∧ a = .number (netAcc s.net m.accType m.accPrec (d t))
  | .init, s, a, s', ls => a = .done ∧ ls = [] ∧ s'.S = s.S ∧ s'.upos = s.upos ∧ s'.npos = s.npos + weightsBefore s.net s.net.size ∧
      SameShape s.net s'.net ∧ ∀ q, q < s.net.size → (s'.net.L q).b = (s.net.L q).b ∧ (s'.net.L q).W = fun i j =>
        nrm (s.npos + (weightsBefore s.net q + i * (s.net.L q).o + j)) *. Flt.sqrt (Flt.ofInt 2 /. Flt.ofInt (s.net.L q).n)

/-- What a sequence of calls does. -/
inductive Session (m : Model α) (l : LossKind) (u nrm : Nat → α) (d : Nat → DataSet α) :
    List Op → Situation α → List (Answer α) → Situation α → List (LogEvent α) → Prop
  | nil {s : Situation α} : Session m l u nrm d [] s [] s []
  | cons {c : Op} {cs : List Op} {s s1 s2 : Situation α} {a : Answer α} {as : List (Answer α)} {ls ls' : List (LogEvent α)} :
      c.Does m l u nrm d s a s1 ls → Session m l u nrm d cs s1 as s2 ls' → Session m l u nrm d (c :: cs) s (a :: as) s2 (ls ++ ls')

/-- `cs'` is `cs` with some of the calls that only look at the model left out. -/
inductive Fewer : List Op → List Op → Prop
  | nil : Fewer [] []
  | keep {c : Op} {cs cs' : List Op} : Fewer cs cs' → Fewer (c :: cs) (c :: cs')
  | drop {c : Op} {cs cs' : List Op} : c.reads = true → Fewer cs cs' → Fewer (c :: cs) cs'

/-- Answers with the same content. -/
def SameAnswer : Answer α → Answer α → Prop
  | .done, .done => True
  | .matrix r c V, .matrix r' c' V' => r' = r ∧ c' = c ∧ Agree r c V V'
  | .number v, .number v' => v' = v
  | _, _ => False

/-- Two programs that are related by `Fewer` and their answers: the calls that were kept are answered in the same way. -/
inductive SameAnswers : List Op → List Op → List (Answer α) → List (Answer α) → Prop
  | nil : SameAnswers [] [] [] []
  | keep {c : Op} {cs cs' : List Op} {a a' : Answer α} {as as' : List (Answer α)} :
      SameAnswer a a' → SameAnswers cs cs' as as' → SameAnswers (c :: cs) (c :: cs') (a :: as) (a' :: as')
  | drop {c : Op} {cs cs' : List Op} {a : Answer α} {as as' : List (Answer α)} :
      c.reads = true → SameAnswers cs cs' as as' → SameAnswers (c :: cs) cs' (a :: as) as'

end NN
