import Verif.Spec.Model
/-
Specification vocabulary for back-propagation: the textbook recursion, in float64 arithmetic.
-/

namespace NN
variable {α : Type} [Flt α]

/-- The gradient at the pre-activations of a layer, from the gradient `D` at its outputs, the outputs `P` of the layer
and (for dropout) the mask `M`.  Sigmoid layers are not covered. -/
def actBack (L : LayerSpec α) (P M D : Nat → Nat → α) (i j : Nat) : α :=
  match L.kind with
  | .linear | .sigmoid => D i j
  | .hidden => if Flt.le (P i j) Flt.zero then Flt.zero else D i j
  | .leaky => if Flt.lt (P i j) Flt.zero then D i j *. L.slope else D i j
  | .dropout => if Flt.le (P i j) Flt.zero then Flt.zero else D i j *. M i j
  | .softmax => fsum L.o fun k => ((if j = k then P i j else Flt.zero) -. fsum 1 fun _ => P i j *. P i k) *. D i k

/-- XᵀG, the gradient of the weights. -/
def gradW (r : Nat) (X G : Nat → Nat → α) (k j : Nat) : α := fsum r fun i => X i k *. G i j

/-- The column sums of G, the gradient of the biases. -/
def gradB (r : Nat) (G : Nat → Nat → α) (_ j : Nat) : α := fsum r fun i => G i j

/-- GWᵀ, the gradient of the inputs. -/
def gradX (L : LayerSpec α) (G : Nat → Nat → α) (i k : Nat) : α := fsum L.o fun j => G i j *. L.W k j

/-- Back-propagation through the first t layers: `V k` are the values after k layers, `D k` is the gradient at these
values, `G k` the gradient at the pre-activations of layer k. -/
structure Backprop (net : Net α) (V M G D : Nat → Nat → Nat → α) (t : Nat) : Prop where
  act : ∀ k, k < t → G k = actBack (net.L k) (V (k + 1)) (M k) (D (k + 1))
  inp : ∀ k, k < t → D k = gradX (net.L k) (G k)

/-- A value clipped to [1e-7, 1-1e-7], as far as `Clip` does it: values below 0 and above 1 only. -/
def clipped (x : α) : α := if Flt.lt x Flt.zero then Flt.eps7 else if Flt.lt Flt.one x then Flt.oneSubEps7 else x

/-- The gradient of each loss at the predictions `P` (r × c) for the targets `Y`, as the package computes it. -/
def lossGrad (k : LossKind) (r c : Nat) (P Y : Nat → Nat → α) (i j : Nat) : α :=
  match k with
  | .mse => (P i j -. Y i j) *. (Flt.ofInt 2 /. Flt.ofInt (c : Int))
  | .mae => if Flt.lt Flt.zero (P i j -. Y i j) then Flt.ofInt (Int.tdiv 1 c)
      else if Flt.lt (P i j -. Y i j) Flt.zero then Flt.ofInt (Int.tdiv (-1) c) else Flt.zero
  | .ce => (Flt.neg (Y i j) /. P i j) /. Flt.ofInt (r : Int)
  | .bce => (Flt.neg (Y i j /. clipped (P i j) -. (Flt.one -. Y i j) /. (Flt.one -. clipped (P i j))) /. Flt.ofInt (c : Int))
      /. Flt.ofInt (r : Int)

/-- The gradient at the pre-activations of a softmax layer trained with cross-entropy on one-hot targets. -/
def fusedGrad (r : Nat) (P Y : Nat → Nat → α) (i j : Nat) : α :=
  if Flt.eq (Y i j) Flt.one then (P i j -. Flt.one) /. Flt.ofInt r else P i j /. Flt.ofInt r

/-- The predictions after the loss has been computed: binary cross-entropy clips them in place. -/
def afterLoss (k : LossKind) (P : Nat → Nat → α) (i j : Nat) : α :=
  match k with
  | .bce => clipped (P i j)
  | _ => P i j

/-- Is the last layer a softmax layer trained with cross-entropy? -/
def Fused (m : Model α) (net : Net α) : Prop := (net.L (net.size - 1)).kind = .softmax ∧ m.lossType = 2

instance (m : Model α) (net : Net α) : Decidable (Fused m net) := by unfold Fused; infer_instance

/-- Back-propagation of the training objective through the whole model, for the values `V` of a forward pass with masks
`M` and targets `Y`: `V'` are the values after the loss has been computed. -/
structure NetGrad (m : Model α) (net : Net α) (loss : LossKind) (r : Nat) (V M : Nat → Nat → Nat → α) (Y : Nat → Nat → α)
    (G D : Nat → Nat → Nat → α) : Prop where
  fused : Fused m net → G (net.size - 1) = fusedGrad r (V net.size) Y ∧
    D (net.size - 1) = gradX (net.L (net.size - 1)) (G (net.size - 1)) ∧ Backprop net V M G D (net.size - 1)
  plain : ¬ Fused m net → D net.size = lossGrad loss r (net.dim net.size) (V net.size) Y ∧
    Backprop net (fun k => if k = net.size then afterLoss loss (V k) else V k) M G D net.size

/-- After a forward pass on r rows, every layer remembers what its backward pass needs: `o k` is the matrix of values
after k layers. -/
structure Tape (w : World α) (m : Model α) (net : Net α) (r : Nat) (o mask : Nat → Mat) (V M : Nat → Nat → Nat → α) :
    Prop where
  isNet : IsNet w m net
  mats : ∀ k, k ≤ net.size → IsMat w (o k) r (net.dim k) (V k)
  relu : ∀ k, k < net.size → (net.L k).kind = .hidden ∨ (net.L k).kind = .leaky ∨ (net.L k).kind = .dropout →
    (w.lay (net.lp k)).reluInputs = o (k + 1)
  soft : ∀ k, k < net.size → (net.L k).kind = .softmax → (w.lay (net.lp k)).outputs = o (k + 1)
  drop : ∀ k, k < net.size → (net.L k).kind = .dropout → (w.lay (net.lp k)).binaryMask = mask k ∧
    IsMat w (mask k) r (net.dim (k + 1)) (M k)

/-- The predictions share no storage with anything else that back-propagation needs. -/
structure FreeOut (w : World α) (net : Net α) (r : Nat) (o mask : Nat → Mat) (y : Mat) : Prop where
  distinct : DistinctRows w (o net.size) r
  outs : ∀ k a, k < net.size → w.IsRow (o k) r a → ¬ w.IsRow (o net.size) r a
  masks : ∀ k a, k < net.size → (net.L k).kind = .dropout → w.IsRow (mask k) r a → ¬ w.IsRow (o net.size) r a
  params : ∀ a, w.IsNetParam net a → ¬ w.IsRow (o net.size) r a
  targets : ∀ a, w.IsRow y r a → ¬ w.IsRow (o net.size) r a

/-- The list of gradients: entry size-1-k belongs to layer k, for the layers t, ..., size-1.  They are new matrices. -/
structure HasGrads (w w' : World α) (net : Net α) (r t : Nat) (V G : Nat → Nat → Nat → α) (gs : List Gradients) : Prop where
  len : gs.length = net.size - t
  get : ∀ k, t ≤ k → k < net.size → ∃ dw db, gs[net.size - 1 - k]? = some ⟨dw, db⟩ ∧
    Fresh w w' dw (net.L k).n (net.L k).o (gradW r (V k) (G k)) ∧ Fresh w w' db 1 (net.L k).o (gradB r (G k)) ∧
    ∀ a, w'.IsRow dw (net.L k).n a → ¬ w'.IsRow db 1 a

end NN
