import Verif.Spec.Layer
/-
Specification vocabulary for optimizers: the mathematical content of an optimizer object and the update rules.
-/

namespace NN
variable {α : Type}

/-- The mathematical content of an optimizer: hyper-parameters, number of updates so far, and for each entry of the
weights (`vw`, `cw`) and biases (`vb`, `cb`) the velocity (SGD) or first moment (Adam) and the second moment (Adam). -/
structure OptSpec (α : Type) where
  kind : OptKind
  lr : α
  decay : α
  momentum : α
  epsilon : α
  beta1 : α
  beta2 : α
  t : Nat
  vw : Nat → Nat → α
  vb : Nat → Nat → α
  cw : Nat → Nat → α
  cb : Nat → Nat → α

variable [Flt α]

/-- Does the optimizer keep state besides its counter? -/
def OptSpec.stateful (S : OptSpec α) : Prop := S.kind = .adam ∨ Flt.eq S.momentum Flt.zero = false

/-- The matrices in which an optimizer keeps its state: absent (all zero) before the first update, later of the shapes
of the parameters. -/
inductive Slots (w : World α) (o : Optim α) (rw cw rb cb : Nat) (S : OptSpec α) : Prop
  | unset (h : o.weightMomentums.rows = 0) (vw : ∀ i j, S.vw i j = Flt.zero) (vb : ∀ i j, S.vb i j = Flt.zero)
      (cw : ∀ i j, S.cw i j = Flt.zero) (cb : ∀ i j, S.cb i j = Flt.zero)
  | set (vw : IsMat w o.weightMomentums rw cw S.vw) (vb : IsMat w o.biasMomentums rb cb S.vb)
      (cw : S.kind = .adam → IsMat w o.weightCache rw cw S.cw) (cb : S.kind = .adam → IsMat w o.biasCache rb cb S.cb)

/-- The fields of an optimizer object with content `S`. -/
structure OptFields (o : Optim α) (S : OptSpec α) : Prop where
  kind : o.kind = S.kind
  lr : o.learningRate = S.lr
  decay : o.decay = S.decay
  momentum : S.kind = .sgd → o.momentum = S.momentum
  epsilon : o.epsilon = S.epsilon
  beta1 : o.beta1 = S.beta1
  beta2 : o.beta2 = S.beta2
  iter : o.iterations = S.t
  useDecay : o.useDecay = !Flt.eq S.decay Flt.zero
  useMomentum : S.kind = .sgd → o.useMomentum = !Flt.eq S.momentum Flt.zero
  rate : Flt.eq S.decay Flt.zero = true → o.currentRate = S.lr

/-- In state `w` there is an optimizer object at `op` with content `S`, for weights of shape rw × cw and biases of shape
rb × cb. -/
structure IsOpt (w : World α) (op : Nat) (rw cw rb cb : Nat) (S : OptSpec α) : Prop where
  lt : op < w.next
  fields : OptFields (w.opt op) S
  slots : Slots w (w.opt op) rw cw rb cb S
  plain : ¬ S.stateful → (w.opt op).weightMomentums.rows = 0

/-- `a` is the address of a row of the optimizer's state. -/
def World.IsOptRow (w : World α) (o : Optim α) (rw rb : Nat) (a : Nat) : Prop :=
  o.weightMomentums.rows ≠ 0 ∧
    (w.IsRow o.weightMomentums rw a ∨ w.IsRow o.biasMomentums rb a ∨
      o.kind = .adam ∧ (w.IsRow o.weightCache rw a ∨ w.IsRow o.biasCache rb a))

/-- `a` is the address of a row of the weights or biases. -/
def World.IsPRow (w : World α) (wm bm : Mat) (rw rb : Nat) (a : Nat) : Prop := w.IsRow wm rw a ∨ w.IsRow bm rb a

/-- Weights and biases in state `w`, not sharing storage. -/
structure IsParams (w : World α) (wm bm : Mat) (rw cw rb cb : Nat) (W B : Nat → Nat → α) : Prop where
  wmat : IsMat w wm rw cw W
  bmat : IsMat w bm rb cb B
  wd : DistinctRows w wm rw
  bd : DistinctRows w bm rb
  disj : ∀ a, w.IsRow wm rw a → ¬ w.IsRow bm rb a

/-- The learning rate of the next update. -/
def OptSpec.rate (S : OptSpec α) : α :=
  if Flt.eq S.decay Flt.zero then S.lr else S.lr *. (Flt.one /. (Flt.one +. S.decay *. Flt.ofInt S.t))

/-- The correction factor that Adam applies in the next update, to both moments. -/
def OptSpec.corr (S : OptSpec α) : α := Flt.one /. (Flt.one -. Flt.pow S.beta1 (Flt.ofInt (S.t + 1)))

/-- velocity or first moment after an update with gradient g -/
def OptSpec.vel (S : OptSpec α) (v g : α) : α :=
  match S.kind with
  | .sgd => if Flt.eq S.momentum Flt.zero then v else v *. S.momentum -. g *. S.rate
  | .adam => v *. S.beta1 +. g *. (Flt.one -. S.beta1)

/-- second moment after an update with gradient g -/
def OptSpec.cache (S : OptSpec α) (c g : α) : α :=
  match S.kind with
  | .sgd => c
  | .adam => c *. S.beta2 +. Flt.pow g (Flt.ofInt 2) *. (Flt.one -. S.beta2)

/-- a parameter x after an update with gradient g, where v and c are its moments before -/
def OptSpec.upd (S : OptSpec α) (x v c g : α) : α :=
  match S.kind with
  | .sgd => if Flt.eq S.momentum Flt.zero then x -. g *. S.rate else x +. S.vel v g
  | .adam => x +. Flt.neg S.rate *. (S.vel v g *. S.corr) /. (Flt.sqrt (S.cache c g *. S.corr) +. S.epsilon)

/-- The content of the optimizer after an update with gradients GW, GB. -/
def OptSpec.step (S : OptSpec α) (GW GB : Nat → Nat → α) : OptSpec α :=
  { S with
    t := S.t + 1
    vw := fun i j => S.vel (S.vw i j) (GW i j)
    vb := fun i j => S.vel (S.vb i j) (GB i j)
    cw := fun i j => S.cache (S.cw i j) (GW i j)
    cb := fun i j => S.cache (S.cb i j) (GB i j) }

/-- The weights after an update with gradients GW. -/
def OptSpec.newW (S : OptSpec α) (W GW : Nat → Nat → α) (i j : Nat) : α :=
  S.upd (W i j) (S.vw i j) (S.cw i j) (GW i j)

/-- The biases after an update with gradients GB. -/
def OptSpec.newB (S : OptSpec α) (B GB : Nat → Nat → α) (i j : Nat) : α :=
  S.upd (B i j) (S.vb i j) (S.cb i j) (GB i j)

/-- A matrix without rows and columns (the zero value of the struct). -/
def Mat.Empty (m : Mat) : Prop := m.rows = 0 ∧ m.cols = 0

/-- The state of an optimizer after any history of updates, rejected ones included: a rejected update replaces the state
of the weights or of the biases by an empty matrix. -/
inductive SlotsOk (w : World α) (o : Optim α) (rw cw rb cb : Nat) : Prop
  | unset (h : o.weightMomentums.rows = 0)
  | set (vw : ∃ V, IsMat w o.weightMomentums rw cw V)
      (vb : (∃ V, IsMat w o.biasMomentums rb cb V) ∨ o.biasMomentums.Empty)
      (cw : o.kind = .adam → ∃ V, IsMat w o.weightCache rw cw V)
      (cb : o.kind = .adam → ∃ V, IsMat w o.biasCache rb cb V)

/-- In state `w` there is an optimizer object at `op` with the hyper-parameters and counter of `S`, keeping state (Adam or
SGD with momentum), after any history. -/
structure OptOk (w : World α) (op : Nat) (rw cw rb cb : Nat) (S : OptSpec α) : Prop where
  lt : op < w.next
  fields : OptFields (w.opt op) S
  stateful : S.stateful
  slots : SlotsOk w (w.opt op) rw cw rb cb

/-- An earlier update was rejected because of the shape of the bias gradient. -/
def Optim.biasLost (o : Optim α) : Prop := o.weightMomentums.rows ≠ 0 ∧ o.biasMomentums.rows = 0

end NN
