import Verif.Model.Network
/- Model of /repo/layer_data.go, with the parts of `bytes.Buffer` and `encoding/binary` it uses. -/

namespace NN
variable {α : Type} [Flt α] [FltBits α]
open Go

/-! ### `encoding/binary` and `bytes.Buffer` -/

/-- Little-endian bytes of the low 8k bits. -/
def leBytes : Nat → Nat → List Byte
  | 0, _ => []
  | k + 1, n => BitVec.ofNat 8 n :: leBytes k (n / 256)

/-- The number with the given little-endian bytes. -/
def leNat : List Byte → Nat
  | [] => 0
  | b :: bs => b.toNat + 256 * leNat bs

/-- `binary.Write(buf, binary.LittleEndian, int8(n))` appends: -/
def encInt8 (n : Int) : List Byte := leBytes 1 (BitVec.ofInt 8 n).toNat
/-- `binary.Write(buf, binary.LittleEndian, int32(n))` appends: -/
def encInt32 (n : Int) : List Byte := leBytes 4 (BitVec.ofInt 32 n).toNat
/-- `binary.Write(buf, binary.LittleEndian, x)` for a float64 appends: -/
def encFlt (x : α) : List Byte := leBytes 8 (FltBits.toBits x).toNat

/-- A loader: consumes bytes of the buffer and ends with a value or an error value (after an error every loader
returns at once, so errors propagate); it may also panic. The remaining buffer is returned in both cases. -/
def Rd (α β : Type) : Type := List Byte → Go α (Except Err β × List Byte)

namespace Rd
variable {β γ : Type}

/-- Return a value. -/
protected def pure (b : β) : Rd α β := fun buf => pure (.ok b, buf)

/-- `x, err := f(buf); if err != nil { return ..., err }; ...` -/
protected def bind (x : Rd α β) (f : β → Rd α γ) : Rd α γ := fun buf => do
  match ← x buf with
  | (.error e, buf') => return (.error e, buf')
  | (.ok b, buf') => f b buf'

instance : Monad (Rd α) where
  pure := Rd.pure
  bind := Rd.bind

/-- Return an error. -/
def fail (e : Err) : Rd α β := fun buf => pure (.error e, buf)

/-- Run a computation that does not touch the buffer. -/
def lift (x : Go α β) : Rd α β := fun buf => do
  let b ← x
  return (.ok b, buf)

/-- `for i := 0; i < n; i++ { body(i) }` where body may return an error from the enclosing function. -/
def loop : Nat → (Nat → Rd α Unit) → Rd α Unit
  | 0, _ => pure ()
  | n + 1, body => do loop n body; body n

/-- `for i := 0; i < n; i++ { acc = body(i, acc) }` where body may return an error from the enclosing function. -/
def loopAcc : Nat → (Nat → β → Rd α β) → β → Rd α β
  | 0, _, b => pure b
  | n + 1, body, b => do let b' ← loopAcc n body b; body n b'

end Rd

/-- `p := make([]byte, n); _, err := buf.Read(p)`: `bytes.Buffer.Read` reports EOF only when the buffer is empty and
n > 0; otherwise it copies what there is, leaving the rest of p zero.  `make` panics on negative n. -/
def readBuf (n : Int) : Rd α (List Byte) := fun buf =>
  if n < 0 then Go.panic .makeLen
  else if buf = [] ∧ 0 < n then pure (.error .eof, [])
  else
    let got := buf.take n.toNat
    pure (.ok (got ++ List.replicate (n.toNat - got.length) 0), buf.drop n.toNat)

/-- `binary.Read` of a k-byte value: `io.ReadFull`, i.e. an error unless k bytes are there. -/
def readFull (k : Nat) : Rd α Nat := fun buf =>
  if buf.length < k then pure (.error .eof, [])
  else pure (.ok (leNat (buf.take k)), buf.drop k)

/-- `binary.Read` into an int8. -/
def readInt8 : Rd α Int := do
  let n ← readFull 1
  return (BitVec.ofNat 8 n).toInt

/-- `binary.Read` into an int32. -/
def readInt32 : Rd α Int := do
  let n ← readFull 4
  return (BitVec.ofNat 32 n).toInt

/-- `binary.Read` into a float64. -/
def readFlt : Rd α α := do
  let n ← readFull 8
  return FltBits.ofBits (BitVec.ofNat 64 n)

/-! ### layer_data.go -/

/-- layer_data.go:29-37 `type SavedLayerData struct`. -/
structure SavedLayerData (α : Type) where
  type    : Int
  inputs  : Int
  outputs : Int
  slope   : α
  dropout : α
  weights : Mat
  biases  : Mat

/-- layer_data.go:40-54 `NewSavedLayerData` (copies the Matrix structs, not the numbers). -/
def newSavedLayerData (lp : Nat) : Go α (SavedLayerData α) := do
  let l ← layGet lp
  let values := l.values
  let wm ← deref l.weights
  let bm ← deref l.biases
  return ⟨(BitVec.ofInt 8 (Flt.toInt (values.get (str "type")))).toInt, Flt.toInt (values.get (str "inputs")),
    Flt.toInt (values.get (str "outputs")), values.get (str "slope"), values.get (str "dropout"), wm, bm⟩

/-- layer_data.go:97-104 and 107-114: append all entries of a matrix, row by row. -/
def writeMat (m : Mat) (buf : List Byte) : Go α (List Byte) :=
  foldN m.rows.toNat (fun i buf => foldN m.cols.toNat (fun j buf => do
    let x ← m.at i j
    return buf ++ encFlt x) buf) buf

/-- layer_data.go:57-118 `SerializeLayer`: the error, and the buffer afterwards. Writing to a `bytes.Buffer` never
fails. -/
def serializeLayer (l : SavedLayerData α) (buf : List Byte) : Go α (Option Err × List Byte) := do
  if l.weights.rows ≠ l.inputs ∨ l.weights.cols ≠ l.outputs then
    return (some (.layerDims l.inputs l.outputs), buf)
  if l.biases.rows ≠ 1 ∨ l.biases.cols ≠ l.outputs then
    return (some (.layerDims l.inputs l.outputs), buf)
  let buf := buf ++ str "LA" ++ encInt8 l.type ++ encInt32 l.inputs ++ encInt32 l.outputs ++ encFlt l.slope
    ++ encFlt l.dropout
  let buf ← writeMat l.weights buf
  let buf ← writeMat l.biases buf
  return (none, buf)

/-- `m, err := NewMatrix(r, c); if err != nil { return ..., err }` -/
def newMatrixRd (r c : Int) : Rd α Mat := do
  let (m, err) ← Rd.lift (newMatrix r c)
  match err with
  | some e => Rd.fail e
  | none => return m

/-- layer_data.go:122-202 `loadLayerBuffer`. -/
def loadLayerBuffer : Rd α (SavedLayerData α) := do
  let magic ← readBuf 2
  if magic ≠ str "LA" then
    Rd.fail .layerMagic
  else do
    let layerType ← readInt8
    let inputSize ← readInt32
    let outputSize ← readInt32
    let slope ← readFlt
    let dropout ← readFlt
    let weights ← newMatrixRd inputSize outputSize
    Rd.loop inputSize.toNat fun i => Rd.loop outputSize.toNat fun j => do
      let x ← readFlt
      Rd.lift (weights.setAt i j x)
    let biases ← newMatrixRd 1 outputSize
    Rd.loop outputSize.toNat fun j => do
      let x ← readFlt
      Rd.lift (biases.setAt 0 j x)
    return ⟨layerType, inputSize, outputSize, slope, dropout, weights, biases⟩

/-- layer_data.go:213-260, the switch on the type code. -/
def kindOfCode (t : Int) : Option LayerKind :=
  if t = 0 then some .hidden else if t = 1 then some .linear else if t = 2 then some .sigmoid
  else if t = 3 then some .leaky else if t = 4 then some .softmax else if t = 5 then some .dropout else none

/-- layer_data.go:205-261 `LoadLayer`. -/
def loadLayer : Rd α Nat := do
  let d ← loadLayerBuffer
  match kindOfCode d.type with
  | some k => Rd.lift (layNew { (Layer.zero k : Layer α) with
      inputSize := d.inputs, outputSize := d.outputs, weights := some d.weights, biases := some d.biases,
      slope := if k = .leaky then d.slope else Flt.zero,
      dropout := if k = .dropout then d.dropout else Flt.zero })
  | none => Rd.fail .layerType

end NN
