import Verif.Model.ModelData
import Mathlib.Data.Nat.Digits.Defs
/-
The texts of errors and log lines.

`fmt.Sprintf` with %d is modelled exactly.  What %f prints is left open (any text), because the value it prints is not part of `Err`; the
texts are therefore a relation between an error and a string (Model/LogFile.lean fills in the numbers).  Errors of the operating system and io.EOF are not errors of the package
and have no text here.  The prefix and time stamp that a `log.Logger` adds to a line are
in Model/LogFile.lean.
-/

namespace NN

/-- The decimal digits of a natural number, as `fmt` prints them. -/
def decimalNat (n : Nat) : Str := if n = 0 then [48] else ((Nat.digits 10 n).reverse.map fun d => BitVec.ofNat 8 (48 + d))

/-- `%d` of package fmt for an int. -/
def decimal (i : Int) : Str := if i < 0 then 45 :: decimalNat i.natAbs else decimalNat i.natAbs

/-- What the text of an error starts with, up to the first value printed (the places are cited at `Err.Text`). -/
def Err.head : Err → Option Str
  | .matrixDims _ _ => some (str "nn.Matrix: Invalid matrix dimensions: ")
  | .matrixIndex _ _ => some (str "nn.Matrix: Invalid index for matrix: ")
  | .sliceDims _ => some (str "nn.Matrix: Invalid slice dimensions: ")
  | .layerDims _ _ => some (str "nn.Layer: Invalid layer dimensions: ")
  | .badSlope => some (str "nn.LeakyLayer: Invalid LeakyRELU slope.")
  | .badDropout => some (str "Invalid dropout value.")
  | .lossSize _ => some (str "nn.Loss: Invalid loss input size: ")
  | .oneHotSize => some (str "nn.SparseToOneHot: Invalid size attribute.")
  | .sgdRate => some (str "nn.SGDOptimizer: Invalid learning rate: ")
  | .sgdDecay => some (str "nn.SGDOptimizer: Invalid decay: ")
  | .sgdMomentum => some (str "nn.SGDOptimizer: Invalid momentum: ")
  | .adamRate => some (str "nn.AdamOptimizer: Invalid learning rate: ")
  | .adamDecay => some (str "nn.AdamOptimizer: Invalid decay: ")
  | .optType => some (str "nn.Optimizer: Invalid optimizer type.")
  | .addLayer => some (str "nn.Model: Layer's input size does not match up with previous layer's input size.")
  | .finalizeLoss => some (str "nn.Model: Loss size does not match up with output size.")
  | .finalizePrecision => some (str "nn.Model: Accuracy percision cannot be less than zero.")
  | .accType => some (str "nn.Model: Invalid accuracy type.")
  | .modelMagic => some (str "nn.LoadModel: Invalid magic bytes. Check that the data is not corrupted.")
  | .layerMagic => some (str "nn.LoadLayer: Invalid magic bytes. Check that the data is not corrupted.")
  | .loadLossType => some (str "nn.LoadModel: Invalid loss type.")
  | .loadOptType => some (str "nn.LoadModel: Invalid optimizer type.")
  | .layerType => some (str "nn.LoadLayer: Invalid layer type value.")
  | .eof => none
  | .os => none

/-- What follows the head in the text of an error. -/
def Err.Tail : Err → Str → Prop
  | .matrixDims r c, t => t = decimal r ++ str ", " ++ decimal c   -- matrix.go:15
  | .matrixIndex r c, t => t = decimal r ++ str ", " ++ decimal c  -- matrix.go:20
  | .sliceDims n, t => t = decimal n                               -- matrix.go:25
  | .layerDims i o, t => t = decimal i ++ str ", " ++ decimal o    -- network.go:27
  | .lossSize n, t => t = decimal n                                -- loss.go:23
  | .sgdRate, _ => True                                            -- optimizers.go:74, %f
  | .sgdDecay, _ => True                                           -- optimizers.go:77, %f
  | .sgdMomentum, _ => True                                        -- optimizers.go:80, %f
  | .adamRate, _ => True                                           -- optimizers.go:205, %f
  | .adamDecay, _ => True                                          -- optimizers.go:208, %f
  | _, t => t = []

/-- `s` can be the text of the error `e`: network.go:390, 712; misc.go:18; optimizers.go:36; model.go:85, 104, 128, 336, 355;
model_data.go:154, 171, 186; layer_data.go:131, 259; and the lines cited at `Err.Tail`. -/
def Err.Text (e : Err) (s : Str) : Prop := ∃ h t, e.head = some h ∧ e.Tail t ∧ s = h ++ t

/-- The beginning of an error line (model.go:241, 248, 257, 268, 273, 286, 291). -/
def LogStage.head : LogStage → Str
  | .forward => str "Failed to perform forward pass: "
  | .update => str "Failed to update using optimizer: "
  | .loss => str "Failed to calculate loss: "
  | .accuracy => str "Failed to calculate accuracy: "
  | .valLoss => str "Failed to calculate validation loss: "
  | .valAccuracy => str "Failed to calculate validation accuracy: "

/-- The beginning of a log line. -/
def LogEvent.head {α : Type} : LogEvent α → Str
  | .info _ _ _ => str "Epoch: "
  | .valInfo _ _ _ => str "Epoch: "
  | .error st _ => st.head
  | .warnVersion _ => str "Model version "

/-- What follows: model.go:278, 296 (the texts of the two floats are left open), the error lines, model_data.go:197 with
the version of the package (nn.go:15). -/
def LogEvent.Tail {α : Type} : LogEvent α → Str → Prop
  | .info e _ _, t => ∃ l a, t = decimal e ++ str ", Loss: " ++ l ++ str ", Accuracy: " ++ a
  | .valInfo e _ _, t => ∃ l a, t = decimal e ++ str ", Validation Loss: " ++ l ++ str ", Validation Accuracy: " ++ a
  | .error _ er, t => er.Text t
  | .warnVersion v, t => t = v ++ (str " may be incompatable with nn version " ++ VERSION ++ str ".")

/-- `s` can be the text of the log line `l`. -/
def LogEvent.Text {α : Type} (l : LogEvent α) (s : Str) : Prop := ∃ t, l.Tail t ∧ s = l.head ++ t

end NN
