import Verif.Model.ModelGo
import Verif.Model.LayerData
/- Model of /repo/model_data.go and of `InitLogger` (nn.go). -/

namespace NN
variable {α : Type} [Flt α] [FltBits α]
open Go

/-- nn.go:14 `VERSION`. -/
def VERSION : Str := str "1.0.3"

/-- nn.go:28-55 `InitLogger(verbose, useFile, file)`: installs the three loggers, unless a log file is asked for and cannot be
opened (`openFails`: os.OpenFile returns an error).  `World.log` is what the loggers are given; whether that ends up in the
file, on stdout or nowhere (not verbose) is not modelled. -/
def initLogger (_verbose useFile openFails : Bool) : Go α (Option Err) := fun w =>
  if useFile then
    if openFails then .ok (some .os, w) else .ok (none, { w with logger := true })
  else .ok (none, { w with logger := true })

/-- model_data.go:16-27 `type SavedModelData struct`. -/
structure SavedModelData (α : Type) where
  version    : Str
  modelSize  : Int
  inputSize  : Int
  outputSize : Int
  lossType   : Int
  accType    : Int
  accPrec    : α
  optType    : Int
  optValues  : GoMap α
  layers     : List (SavedLayerData α)

/-- model_data.go:30-50 `NewSavedModelData`. -/
def newSavedModelData (m : Model α) : Go α (SavedModelData α) := do
  let layers ← foldN m.modelSize.toNat (fun i layers => do
    let lp ← listGet m.layers i
    let d ← newSavedLayerData lp
    return layers ++ [d]) []
  return ⟨VERSION, m.modelSize, m.inputSize, m.outputSize, m.lossType, m.accType, m.accPrec, m.optType,
    m.optValues, layers⟩

/-- model_data.go:105-120, one key-value pair. -/
def encPair (kv : Str × α) : List Byte := encInt8 kv.1.length ++ kv.1 ++ encFlt kv.2

/-- model_data.go:53-102, everything before the key-value pairs. -/
def encHeader (m : SavedModelData α) : List Byte :=
  str "NNML" ++ m.version ++ encInt8 m.modelSize ++ encInt32 m.inputSize ++ encInt32 m.outputSize
    ++ encInt8 m.lossType ++ encInt8 m.accType ++ encFlt m.accPrec ++ encInt8 m.optType
    ++ encInt8 m.optValues.length

/-- model_data.go:123-128, the layers. -/
def serializeLayers (m : SavedModelData α) : Nat → List Byte → Go α (Option Err × List Byte)
  | 0, buf => pure (none, buf)
  | n + 1, buf => do
    let (err, buf) ← serializeLayers m n buf
    if let some e := err then
      return (some e, buf)
    let d ← listGet m.layers n
    serializeLayer d buf

/-- model_data.go:53-131 `Serialize`.  `order` is the order in which this execution's `range m.OptimizerValues`
visits the map: any permutation of it. -/
def serialize (m : SavedModelData α) (order : GoMap α) (buf : List Byte) : Go α (Option Err × List Byte) := do
  let buf := buf ++ encHeader m ++ (order.map encPair).flatten
  serializeLayers m m.modelSize.toNat buf

/-- model_data.go:135-156 `loadLoss`. -/
def loadLoss (lossType size : Int) : Except Err Loss :=
  if lossType = 0 then .ok ⟨.mse, size⟩
  else if lossType = 1 then .ok ⟨.mae, size⟩
  else if lossType = 2 then .ok ⟨.ce, size⟩
  else if lossType = 3 then .ok ⟨.bce, size⟩
  else .error .loadLossType

/-- model_data.go:160-173 `loadOptimizer`; only the resulting object's `getValues` is used by `LoadModel`. -/
def loadOptimizer (optType : Int) (values : GoMap α) : Except Err (Optim α) :=
  if optType = 0 then .ok ((Optim.zero .sgd : Optim α).setValues values)
  else if optType = 1 then .ok ((Optim.zero .adam : Optim α).setValues values)
  else .error .loadOptType

/-- model_data.go:255-279, one iteration of the loop reading the optimizer values. -/
def readPair (values : GoMap α) : Rd α (GoMap α) := do
  let lenKey ← readInt8
  let key ← readBuf lenKey
  let value ← readFlt
  return values.put key value

/-- model_data.go:177-308 `loadModelBuffer`. -/
def loadModelBuffer : Rd α (SavedModelData α × List Nat) := do
  let magic ← readBuf 4
  if magic ≠ str "NNML" then
    Rd.fail .modelMagic
  else do
    let version ← readBuf 5
    if version ≠ VERSION then
      Rd.lift (logEvent (.warnVersion version))
    let modelSize ← readInt8
    let inputSize ← readInt32
    let outputSize ← readInt32
    let lossType ← readInt8
    let accType ← readInt8
    let accPrec ← readFlt
    let optType ← readInt8
    let lenOpt ← readInt8
    let values ← Rd.loopAcc lenOpt.toNat (fun _ values => readPair values) []
    let layers ← Rd.loopAcc modelSize.toNat (fun _ layers => do
      let lp ← loadLayer
      return layers ++ [lp]) []
    return (⟨version, modelSize, inputSize, outputSize, lossType, accType, accPrec, optType, values, []⟩, layers)

/-- model_data.go:322-327: AddLayer for each of the layers. -/
def addLayers (layers : List Nat) : Nat → Model α → Go α (Model α × Option Err)
  | 0, m => pure (m, none)
  | n + 1, m => do
    let (m, err) ← addLayers layers n m
    if let some e := err then
      return (m, some e)
    let lp ← listGet layers n
    addLayer m lp

/-- model_data.go:311-347 `LoadModel`. -/
def loadModel : Rd α (Model α) := do
  let (d, layers) ← loadModelBuffer
  let (m, err) ← Rd.lift (addLayers layers d.modelSize.toNat newModel)
  match err with
  | some e => Rd.fail e
  | none =>
    match loadLoss d.lossType d.outputSize with
    | .error e => Rd.fail e
    | .ok loss =>
      match loadOptimizer d.optType d.optValues with
      | .error e => Rd.fail e
      | .ok o => do
        let (m, err) ← Rd.lift (finalize m loss o.getValues d.accType d.accPrec)
        match err with
        | some e => Rd.fail e
        | none => return m

/-! ### Files -/

/-- A file system: contents by name. -/
abbrev FS := Str → Option (List Byte)

/-- The effects of `SaveFile` on the file system. -/
inductive FsOp where
  | create (name : Str)                      -- os.Create: create or truncate
  | write (name : Str) (bytes : List Byte)   -- file.Write: append (the file was just truncated)

/-- Run one effect to completion. -/
def FsOp.run (op : FsOp) (fs : FS) : FS :=
  match op with
  | .create name => fun n => if n = name then some [] else fs n
  | .write name bytes => fun n => if n = name then some ((fs name).getD [] ++ bytes) else fs n

/-- The states a crash during the effect can leave: before it, after it, or after writing a part of the bytes. -/
inductive FsOp.Crash : FsOp → FS → FS → Prop
  | before (op fs) : FsOp.Crash op fs fs
  | create (name fs) : FsOp.Crash (.create name) fs ((FsOp.create name).run fs)
  | write (name bytes k fs) : FsOp.Crash (.write name bytes) fs ((FsOp.write name (bytes.take k)).run fs)

/-- Run effects one after another. -/
def runOps : List FsOp → FS → FS
  | [], fs => fs
  | op :: ops, fs => runOps ops (op.run fs)

/-- A crash while running effects: some are complete, then one is interrupted. -/
inductive CrashOps : List FsOp → FS → FS → Prop
  | here {op ops fs fs'} : op.Crash fs fs' → CrashOps (op :: ops) fs fs'
  | later {op ops fs fs'} : CrashOps ops (op.run fs) fs' → CrashOps (op :: ops) fs fs'

/-- model_data.go:351-376 `SaveFile`: the error and the effects on the file system.  `createFails`: os.Create returns
an error; `writeFails = some k`: file.Write stops after k bytes with an error. -/
def saveFile (m : Model α) (name : Str) (order : GoMap α) (createFails : Bool) (writeFails : Option Nat) :
    Go α (Option Err × List FsOp) := do
  let data ← newSavedModelData m
  if createFails then
    return (some .os, [])
  let (err, buf) ← serialize data order []
  if let some e := err then
    return (some e, [.create name])
  match writeFails with
  | some k => return (some .os, [.create name, .write name (buf.take k)])
  | none => return (none, [.create name, .write name buf])

/-- What one `file.Read(buffer)` into a zeroed buffer of the size of the file leaves in it: everything, or, if Read returns
early after k bytes (which `io.Reader` allows and Go on Linux does after 2^30 bytes), zeros after those. -/
def readOnce (bytes : List Byte) (short : Option Nat) : List Byte :=
  match short with
  | none => bytes
  | some k => bytes.take k ++ List.replicate (bytes.length - k) 0

/-- model_data.go:379-403 `LoadFile`.  `short`: see `readOnce`; the number of bytes read is ignored by the code. -/
def loadFile (fs : FS) (name : Str) (short : Option Nat := none) : Go α (Except Err (Model α)) := do
  match fs name with
  | none => return .error .os
  | some bytes =>
    let (r, _) ← loadModel (readOnce bytes short)
    return r

end NN
