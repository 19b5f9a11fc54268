import Verif.Spec.Fit
import Verif.Spec.Save
/-
Specification vocabulary for comparing two training runs: models and optimizers with the same content.
-/

namespace NN
variable {α : Type} [Flt α]

/-- The same entries in the first r rows and c columns. -/
def Agree (r c : Nat) (A A' : Nat → Nat → α) : Prop := ∀ i j, i < r → j < c → A' i j = A i j

/-- Models with the same layers, in whatever storage. -/
structure SameNet (net net' : Net α) : Prop where
  size : net'.size = net.size
  dim : ∀ k, k ≤ net.size → net'.dim k = net.dim k
  ins : ∀ k, k < net.size → (net.L k).n = net.dim k
  outs : ∀ k, k < net.size → (net.L k).o = net.dim (k + 1)
  layer : ∀ k, k < net.size → SameLayer (net.L k) (net'.L k)

/-- Optimizers with the same settings and the same state, for weights of shape n × o and o biases. -/
structure SameOpt (n o : Nat) (S S' : OptSpec α) : Prop where
  kind : S'.kind = S.kind
  lr : S'.lr = S.lr
  decay : S'.decay = S.decay
  momentum : S.kind = .sgd → S'.momentum = S.momentum
  epsilon : S.kind = .adam → S'.epsilon = S.epsilon
  beta1 : S.kind = .adam → S'.beta1 = S.beta1
  beta2 : S.kind = .adam → S'.beta2 = S.beta2
  t : S'.t = S.t
  vw : Agree n o S.vw S'.vw
  vb : Agree 1 o S.vb S'.vb
  cw : Agree n o S.cw S'.cw
  cb : Agree 1 o S.cb S'.cb

/-- Plain gradient descent: SGD without decay and momentum. -/
def OptSpec.Plain (S : OptSpec α) : Prop :=
  S.kind = .sgd ∧ Flt.eq S.decay Flt.zero = true ∧ Flt.eq S.momentum Flt.zero = true

/-- Optimizers that take the same steps: same settings and state, or plain gradient descent with the same learning rate. -/
def OptLike (n o : Nat) (S S' : OptSpec α) : Prop := SameOpt n o S S' ∨ S.Plain ∧ S'.Plain ∧ S'.lr = S.lr

end NN
