import Verif.Spec.Model
import Verif.Model.ModelData
/-
Specification vocabulary for saving and loading: what a finalized model is, and when two layers or models are the same
up to the addresses of their storage.
-/

namespace NN
variable {α : Type} [Flt α]
open NN.Go

/-- What the file format can express of a layer: positive sizes below 2^31.  Only leaky layers have a slope and only dropout
layers a dropout rate (the other Go types have no such field). -/
structure LayerSpec.Saveable (L : LayerSpec α) : Prop where
  n : 0 < L.n
  o : 0 < L.o
  nlt : L.n < 2 ^ 31
  olt : L.o < 2 ^ 31
  slope : L.kind ≠ .leaky → L.slope = Flt.zero
  dropout : L.kind ≠ .dropout → L.dropout = Flt.zero

/-- Same kind, sizes, settings, weights and biases. -/
structure SameLayer (L L' : LayerSpec α) : Prop where
  kind : L'.kind = L.kind
  n : L'.n = L.n
  o : L'.o = L.o
  slope : L'.slope = L.slope
  dropout : L'.dropout = L.dropout
  W : ∀ i j, i < L.n → j < L.o → L'.W i j = L.W i j
  b : ∀ j, j < L.o → L'.b j = L.b j

/-- In state `w`, `m` is a model with the layers of `net` that has been finalized with a loss of kind `k` and the optimizer
settings of `o`. -/
structure Ready (w : World α) (m : Model α) (net : Net α) (k : LossKind) (o : Optim α) : Prop where
  isNet : IsNet w m net
  empty : net.size = 0 → m.inputSize = 0 ∧ m.outputSize = 0
  loss : m.loss = some ⟨k, m.outputSize⟩
  lossType : m.lossType = k.code
  optType : m.optType = o.kind.code
  optValues : m.optValues = o.getValues.del (str "type")
  prec : Flt.lt m.accPrec Flt.zero = false
  accLo : -128 ≤ m.accType
  accHi : m.accType < 128

/-- The same model: equal settings, and the same layers. -/
structure SameModel (m m' : Model α) (net net' : Net α) : Prop where
  modelSize : m'.modelSize = m.modelSize
  inputSize : m'.inputSize = m.inputSize
  outputSize : m'.outputSize = m.outputSize
  loss : m'.loss = m.loss
  lossType : m'.lossType = m.lossType
  accType : m'.accType = m.accType
  accPrec : m'.accPrec = m.accPrec
  optType : m'.optType = m.optType
  optValues : m'.optValues = m.optValues
  size : net'.size = net.size
  layer : ∀ i, i < net.size → SameLayer (net.L i) (net'.L i)

/-- Saving `m` in state `w`, visiting the optimizer values in the given order, writes `bytes` and reports no error. -/
def SavedAs [FltBits α] (w : World α) (m : Model α) (order : GoMap α) (bytes : List Byte) : Prop :=
  ∃ d : SavedModelData α, newSavedModelData m w = .ok (d, w) ∧ serialize d order [] w = .ok ((none, bytes), w)

/-- The bytes of a matrix: its entries row by row, 8 bytes each. -/
def matBytes [FltBits α] (n o : Nat) (W : Nat → Nat → α) : List Byte :=
  (List.range n).flatMap fun i => (List.range o).flatMap fun j => encFlt (W i j)

/-- The bytes of a layer (LayerData.md). -/
def layerBytes [FltBits α] (L : LayerSpec α) : List Byte :=
  str "LA" ++ (encInt8 L.kind.code ++ (encInt32 L.n ++ (encInt32 L.o ++ (encFlt L.slope ++ (encFlt L.dropout ++
    (matBytes L.n L.o L.W ++ matBytes 1 L.o fun _ j => L.b j))))))

end NN
