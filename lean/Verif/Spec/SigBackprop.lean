import Verif.Spec.Fit
import Verif.Lemmas.Back
/-
Specification vocabulary for back-propagation as the package does it in models with sigmoid layers.  A sigmoid layer
writes the gradient at its pre-activations over its INPUT, so that the layer below it and its own weight gradient use
that gradient where they should use the input.
-/

namespace NN
variable {α : Type} [Flt α]

/-- What the matrix of the values after k layers holds once layer k has done its backward pass: a sigmoid layer has
overwritten it with its gradient, other layers leave it alone. -/
def held (net : Net α) (V G : Nat → Nat → Nat → α) (k : Nat) : Nat → Nat → α :=
  if k < net.size ∧ (net.L k).kind = .sigmoid then G k else V k

/-- Back-propagation through the first t layers, with what sigmoid layers do to it: the gradient at the pre-activations of a
sigmoid layer is computed from its input instead of its output, and the layer below sees its own output overwritten. -/
structure SigBackprop (net : Net α) (V M G D : Nat → Nat → Nat → α) (t : Nat) : Prop where
  act : ∀ k, k < t → G k = if (net.L k).kind = .sigmoid then sigBack (V k) (D (k + 1))
    else actBack (net.L k) (held net V G (k + 1)) (M k) (D (k + 1))
  inp : ∀ k, k < t → D k = gradX (net.L k) (G k)

/-- The same for the whole model, starting from the loss. -/
structure SigNetGrad (m : Model α) (net : Net α) (loss : LossKind) (r : Nat) (V M : Nat → Nat → Nat → α) (Y : Nat → Nat → α)
    (G D : Nat → Nat → Nat → α) : Prop where
  fused : Fused m net → G (net.size - 1) = fusedGrad r (V net.size) Y ∧
    D (net.size - 1) = gradX (net.L (net.size - 1)) (G (net.size - 1)) ∧ SigBackprop net V M G D (net.size - 1)
  plain : ¬ Fused m net → D net.size = lossGrad loss r (net.dim net.size) (V net.size) Y ∧
    SigBackprop net (fun k => if k = net.size then afterLoss loss (V k) else V k) M G D net.size

/-- One training step: the weights of a sigmoid layer are changed along the product of its gradient with itself. -/
def SigTrainStep (m : Model α) (loss : LossKind) (r : Nat) (u : Nat → α) (X Y : Nat → Nat → α) (net : Net α) (S : Nat → OptSpec α)
    (net' : Net α) (S' : Nat → OptSpec α) : Prop :=
  ∃ G D : Nat → Nat → Nat → α,
    SigNetGrad m net loss r (trainVals net r u X) (fun k => dropBits (net.L k) fun q => u (dropDraws net r k + q)) Y G D ∧
    net' = stepNet net S r (held net (trainVals net r u X) G) G ∧ S' = stepOpts S r (held net (trainVals net r u X) G) G

/-- Training over a list of batches of the dataset (X, Y). -/
inductive SigDescent (m : Model α) (loss : LossKind) (u : Nat → α) (X Y : Nat → Nat → α) (net : Net α) (S : Nat → OptSpec α)
    (p : Nat) : List (Nat × Nat) → Net α → (Nat → OptSpec α) → Nat → Prop
  | start : SigDescent m loss u X Y net S p [] net S p
  | step {bs : List (Nat × Nat)} {b : Nat × Nat} {net1 net2 : Net α} {S1 S2 : Nat → OptSpec α} {p1 : Nat} :
      SigDescent m loss u X Y net S p bs net1 S1 p1 →
      SigTrainStep m loss b.2 (fun q => u (p1 + q)) (fun i j => X (b.1 + i) j) (fun i j => Y (b.1 + i) j) net1 S1 net2 S2 →
      SigDescent m loss u X Y net S p (bs ++ [b]) net2 S2 (p1 + dropDraws net1 b.2 net1.size)

end NN
