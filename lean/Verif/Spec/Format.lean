import Verif.Spec.Save
/-
The documented byte layout of saved models and layers (/repo/ModelData.md, /repo/LayerData.md), written down without using
any definition of the encoder.
-/

namespace NN
variable {α : Type} [FltBits α]

/-- "int" of k bytes: two's complement, least significant byte first. -/
def docInt (k : Nat) (n : Int) : List Byte := (List.range k).map fun i => BitVec.ofInt 8 (n / 256 ^ i)

/-- "float" of 8 bytes: the IEEE bits, least significant byte first. -/
def docFlt (x : α) : List Byte := docInt 8 (FltBits.toBits x).toNat

/-- "floats", rows by cols. -/
def docMat (n o : Nat) (W : Nat → Nat → α) : List Byte :=
  ((List.range n).map fun i => ((List.range o).map fun j => docFlt (W i j)).flatten).flatten

/-- The numbers of the layer types (layer_data.go:18-25). -/
def docKind : LayerKind → Int
  | .hidden => 0 | .linear => 1 | .sigmoid => 2 | .leaky => 3 | .softmax => 4 | .dropout => 5

/-- The numbers of the losses (model.go:16-21). -/
def docLoss : LossKind → Int
  | .mse => 0 | .mae => 1 | .ce => 2 | .bce => 3

/-- The numbers of the optimizers (model.go:24-32). -/
def docOpt : OptKind → Int
  | .sgd => 0 | .adam => 1

/-- The table of LayerData.md.  The two optional fields are always there. -/
def docLayer (L : LayerSpec α) : List Byte :=
  [0x4C, 0x41]                          -- magic bytes: LA
    ++ docInt 1 (docKind L.kind)        -- layer type
    ++ docInt 4 L.n                     -- input size
    ++ docInt 4 L.o                     -- output size
    ++ docFlt L.slope                   -- slope
    ++ docFlt L.dropout                 -- dropout
    ++ docMat L.n L.o L.W               -- weight values
    ++ docMat 1 L.o fun _ j => L.b j    -- bias values

/-- The second table of ModelData.md, for values listed in the given order. -/
def docValues (order : List (List Byte × α)) : List Byte :=
  docInt 1 order.length                                                                  -- length
    ++ (order.map fun p => docInt 1 p.1.length ++ p.1 ++ docFlt p.2).flatten             -- length of key, key, value

/-- The first table of ModelData.md. -/
def docModel (size ins outs loss acc : Int) (prec : α) (opt : Int) (order : List (List Byte × α)) (layers : List (LayerSpec α)) :
    List Byte :=
  [0x4E, 0x4E, 0x4D, 0x4C]                   -- magic bytes: NNML
    ++ [0x31, 0x2E, 0x30, 0x2E, 0x33]        -- version: 1.0.3
    ++ docInt 1 size                         -- model size
    ++ docInt 4 ins                          -- input size
    ++ docInt 4 outs                         -- output size
    ++ docInt 1 loss                         -- loss type
    ++ docInt 1 acc                          -- accuracy type
    ++ docFlt prec                           -- accuracy percision
    ++ docInt 1 opt                          -- optimizer type
    ++ docValues order                       -- optimizer values
    ++ (layers.map docLayer).flatten         -- layers

/-- The names and values that are saved for an optimizer. -/
def docOptValues (o : Optim α) : List (List Byte × α) :=
  match o.kind with
  | .sgd => [(str "learningRate", o.learningRate), (str "decay", o.decay), (str "momentum", o.momentum)]
  | .adam => [(str "learningRate", o.learningRate), (str "decay", o.decay), (str "epsilon", o.epsilon), (str "beta1", o.beta1),
      (str "beta2", o.beta2)]

end NN
