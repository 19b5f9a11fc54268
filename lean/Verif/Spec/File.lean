import Verif.Spec.Format
/-
The files that LoadModel (/repo/model_data.go:177-347) accepts, written down as a set of byte strings, and what is left of such
a file when the loaded model is saved again.  Nothing here refers to the code that reads files.
-/

namespace NN
variable {α : Type} [Flt α] [FltBits α]

/-- The fields of a file, in the order of ModelData.md.  `size` and `count` are the two length bytes as signed numbers; `values`
are the optimizer values as listed, possibly with repeated or unknown names; a layer has a slope and a dropout rate whatever its
type. -/
structure ModelFile (α : Type) where
  version : List Byte
  size : Int
  ins : Int
  outs : Int
  loss : Int
  acc : Int
  prec : α
  opt : Int
  count : Int
  values : List (List Byte × α)
  layers : List (LayerSpec α)

/-- The bytes of the file. -/
def ModelFile.bytes (F : ModelFile α) : List Byte :=
  [0x4E, 0x4E, 0x4D, 0x4C] ++ (F.version ++ (docInt 1 F.size ++ (docInt 4 F.ins ++ (docInt 4 F.outs ++ (docInt 1 F.loss ++
    (docInt 1 F.acc ++ (docFlt F.prec ++ (docInt 1 F.opt ++ (docInt 1 F.count ++
    ((F.values.map fun p => docInt 1 p.1.length ++ p.1 ++ docFlt p.2).flatten ++ (F.layers.map docLayer).flatten))))))))))

/-- The number of inputs of the first layer, 0 without layers. -/
def firstInputs (ls : List (LayerSpec α)) : Nat := (ls.head?.map LayerSpec.n).getD 0

/-- The number of outputs of the last layer, 0 without layers. -/
def lastOutputs (ls : List (LayerSpec α)) : Nat := (ls.getLast?.map LayerSpec.o).getD 0

/-- The files that are accepted.  A negative number of values or layers counts as none.  The number of inputs is not looked at,
nor are the names and values of the optimizer, the slopes, the dropout rates and the weights. -/
structure ModelFile.Ok (F : ModelFile α) : Prop where
  version : F.version.length = 5
  size : -128 ≤ F.size ∧ F.size < 128
  ins : -2 ^ 31 ≤ F.ins ∧ F.ins < 2 ^ 31
  acc : -128 ≤ F.acc ∧ F.acc < 128
  count : -128 ≤ F.count ∧ F.count < 128
  values : F.values.length = F.count.toNat
  keys : ∀ p ∈ F.values, p.1.length < 128
  layers : F.layers.length = F.size.toNat
  sizes : ∀ L ∈ F.layers, 0 < L.n ∧ L.n < 2 ^ 31 ∧ 0 < L.o ∧ L.o < 2 ^ 31
  chain : ∀ i L L', F.layers[i]? = some L → F.layers[i + 1]? = some L' → L'.n = L.o
  outs : F.outs = lastOutputs F.layers
  loss : F.loss = 0 ∨ F.loss = 1 ∨ F.loss = 2 ∨ F.loss = 3
  opt : F.opt = 0 ∨ F.opt = 1
  prec : Flt.lt F.prec Flt.zero = false

/-- The last value listed under a name, 0 if there is none. -/
def lastOf (vs : List (List Byte × α)) (key : List Byte) : α := vs.foldl (fun a p => if p.1 = key then p.2 else a) Flt.zero

/-- The optimizer values that survive: those that the optimizer has. -/
def ModelFile.keptValues (F : ModelFile α) : List (List Byte × α) :=
  if F.opt = 0 then [str "learningRate", str "decay", str "momentum"].map fun k => (k, lastOf F.values k)
  else [str "learningRate", str "decay", str "epsilon", str "beta1", str "beta2"].map fun k => (k, lastOf F.values k)

/-- What survives of a layer: everything but the slope of a layer that is not leaky and the dropout rate of one without
dropout. -/
def LayerSpec.kept (L : LayerSpec α) : LayerSpec α :=
  { L with slope := if L.kind = .leaky then L.slope else Flt.zero, dropout := if L.kind = .dropout then L.dropout else Flt.zero }

/-- The file as it is written again, with the optimizer values in the given order. -/
def ModelFile.resaved (F : ModelFile α) (order : List (List Byte × α)) : List Byte :=
  docModel F.layers.length (firstInputs F.layers) F.outs F.loss F.acc F.prec F.opt order (F.layers.map LayerSpec.kept)

end NN
