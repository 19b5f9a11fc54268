import Verif.Spec.Fit
/-
Models in which the same layer object occurs at several places (AddLayer, model.go:76-100, accepts that), and what training does to
them.
-/

namespace NN
variable {α : Type} [Flt α]

/-- Places of the model that hold the same layer object are described by the same layer; different layer objects have separate
parameters. -/
structure TiedNet (w : World α) (net : Net α) : Prop where
  own : ∀ i, i < net.size → OwnParams w (net.wm i) (net.bm i) (net.L i).n
  same : ∀ i j, i < net.size → j < net.size → net.lp i = net.lp j → net.L i = net.L j
  sep : ∀ i j a, i < net.size → j < net.size → w.IsParam (net.wm i) (net.bm i) (net.L i).n a →
    w.IsParam (net.wm j) (net.bm j) (net.L j).n a → net.lp i = net.lp j

/-- Layers that occur more than once are linear. -/
def TiedLinear (net : Net α) : Prop := ∀ i j, i < net.size → j < net.size → net.lp i = net.lp j → i ≠ j → (net.L i).kind = .linear

/-- Like `IsTask`, for models in which layers may occur more than once.  Every place still has its own optimizer. -/
structure TiedTask (w : World α) (m : Model α) (net : Net α) (op : Nat → Nat) (S : Nat → OptSpec α) : Prop where
  isNet : IsNet w m net
  tied : TiedNet w net
  pos : 0 < net.size
  optims : m.optims = (List.range net.size).map op
  opt : ∀ i, i < net.size → IsOpt w (op i) (net.L i).n (net.L i).o 1 (net.L i).o (S i)
  inj : ∀ i j, i < net.size → j < net.size → op i = op j → i = j
  sep : ∀ i a, i < net.size → w.IsOptRow (w.opt (op i)) (net.L i).n 1 a → ¬ w.IsNetParam net a

/-- The layer at place i after the optimizers of the places 0, ..., k-1 have made their steps: each place that holds the same layer
object has contributed a step with its own gradient. -/
def tiedL (net : Net α) (S : Nat → OptSpec α) (r : Nat) (V G : Nat → Nat → Nat → α) (i : Nat) : Nat → LayerSpec α
  | 0 => net.L i
  | k + 1 =>
    if net.lp k = net.lp i then
      { tiedL net S r V G i k with
        W := (S k).newW (tiedL net S r V G i k).W (gradW r (V k) (G k))
        b := fun j => (S k).newB (fun _ j => (tiedL net S r V G i k).b j) (gradB r (G k)) 0 j }
    else tiedL net S r V G i k

/-- The model after the optimizer steps of all places. -/
def tiedNet (net : Net α) (S : Nat → OptSpec α) (r : Nat) (V G : Nat → Nat → Nat → α) : Net α :=
  { net with L := fun i => tiedL net S r V G i net.size }

/-- One training step on a batch (X, Y) of r rows: forward pass, back-propagation, optimizer steps. -/
def TiedStep (m : Model α) (loss : LossKind) (r : Nat) (u : Nat → α) (X Y : Nat → Nat → α) (net : Net α) (S : Nat → OptSpec α)
    (net' : Net α) (S' : Nat → OptSpec α) : Prop :=
  ∃ G D : Nat → Nat → Nat → α,
    NetGrad m net loss r (trainVals net r u X) (fun k => dropBits (net.L k) fun q => u (dropDraws net r k + q)) Y G D ∧
    net' = tiedNet net S r (trainVals net r u X) G ∧ S' = stepOpts S r (trainVals net r u X) G

/-- Training steps over a list of batches, like `Descent`. -/
inductive TiedDescent (m : Model α) (loss : LossKind) (u : Nat → α) (X Y : Nat → Nat → α) (net : Net α) (S : Nat → OptSpec α)
    (p : Nat) : List (Nat × Nat) → Net α → (Nat → OptSpec α) → Nat → Prop
  | start : TiedDescent m loss u X Y net S p [] net S p
  | step {bs : List (Nat × Nat)} {b : Nat × Nat} {net1 net2 : Net α} {S1 S2 : Nat → OptSpec α} {p1 : Nat} :
      TiedDescent m loss u X Y net S p bs net1 S1 p1 →
      TiedStep m loss b.2 (fun q => u (p1 + q)) (fun i j => X (b.1 + i) j) (fun i j => Y (b.1 + i) j) net1 S1 net2 S2 →
      TiedDescent m loss u X Y net S p (bs ++ [b]) net2 S2 (p1 + dropDraws net1 b.2 net1.size)

end NN
