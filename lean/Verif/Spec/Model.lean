import Verif.Spec.Layer
import Verif.Model.ModelGo
/-
Specification vocabulary for whole models: what it means for a model with given layers to be present in a state, and
the mathematical function it computes.
-/

namespace NN
variable {α : Type}

/-- The mathematical content of a model: `size` layers, layer i maps rows of `dim i` numbers to rows of `dim (i+1)`
numbers; `lp`, `wm`, `bm` name the objects that hold them. -/
structure Net (α : Type) where
  size : Nat
  dim : Nat → Nat
  lp : Nat → Nat
  wm : Nat → Mat
  bm : Nat → Mat
  L : Nat → LayerSpec α

/-- In state `w`, `m` is a model with the layers of `net`. -/
structure IsNet (w : World α) (m : Model α) (net : Net α) : Prop where
  size : m.modelSize = net.size
  ptrs : m.layers = (List.range net.size).map net.lp
  lay : ∀ i, i < net.size → IsLayer w (net.lp i) (net.wm i) (net.bm i) (net.L i)
  ins : ∀ i, i < net.size → (net.L i).n = net.dim i
  outs : ∀ i, i < net.size → (net.L i).o = net.dim (i + 1)
  input : 0 < net.size → m.inputSize = net.dim 0
  output : 0 < net.size → m.outputSize = net.dim net.size

/-- `a` is the address of a row of the parameters of the model. -/
def World.IsNetParam (w : World α) (net : Net α) (a : Nat) : Prop :=
  ∃ i, i < net.size ∧ w.IsParam (net.wm i) (net.bm i) (net.L i).n a

/-- Different layers of the model are different objects with separate parameters. -/
structure OwnNet (w : World α) (net : Net α) : Prop where
  own : ∀ i, i < net.size → OwnParams w (net.wm i) (net.bm i) (net.L i).n
  inj : ∀ i j, i < net.size → j < net.size → net.lp i = net.lp j → i = j
  sep : ∀ i j a, i < net.size → j < net.size → w.IsParam (net.wm i) (net.bm i) (net.L i).n a →
    w.IsParam (net.wm j) (net.bm j) (net.L j).n a → i = j

variable [Flt α]

/-- The output of the first k layers (inference). -/
def netOut (net : Net α) (X : Nat → Nat → α) : Nat → Nat → Nat → α
  | 0 => X
  | k + 1 => infer (net.L k) (netOut net X k)

/-- How many uniform numbers the first k layers use in a training pass over r rows. -/
def dropDraws (net : Net α) (r : Nat) : Nat → Nat
  | 0 => 0
  | k + 1 => dropDraws net r k + if (net.L k).kind = .dropout then r * (net.L k).o else 0

/-- The output of the first k layers in a training pass over r rows, with uniform numbers u. -/
def trainVals (net : Net α) (r : Nat) (u : Nat → α) (X : Nat → Nat → α) : Nat → Nat → Nat → α
  | 0 => X
  | k + 1 => trainOut (net.L k) (fun q => u (dropDraws net r k + q)) (trainVals net r u X k)

end NN
