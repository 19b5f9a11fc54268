import Verif.Model.Network
import Verif.Model.Loss
/- Model of the methods `setValues` of layers and losses (network.go, loss.go).  They are part of the interfaces `Layer` and `Loss`; the
package never calls them. -/

namespace NN
variable {α : Type} [Flt α]
open Go

/-- `getValues` of a layer: weights, biases and the map (network.go:61-64, 178-181, 286-289, 408-411, 527-530, 730-733). -/
def layerGetValues (lp : Nat) : Go α (Option Mat × Option Mat × GoMap α) := do
  let l ← layGet lp
  return (l.weights, l.biases, l.values)

/-- `setValues` of a layer (network.go:67-72, 184-189, 292-297, 533-538; 414-420 with the slope; 736-742 with the dropout rate).  The
matrices are passed by value: the layer gets pointers to copies of the structs, whose rows are shared with the arguments. -/
def layerSetValues (lp : Nat) (weights biases : Mat) (values : GoMap α) : Go α Unit := do
  let l ← layGet lp
  let l := { l with inputSize := Flt.toInt (values.get (str "inputs")), outputSize := Flt.toInt (values.get (str "outputs")) }
  let l := if l.kind = .leaky then { l with slope := values.get (str "slope") } else l
  let l := if l.kind = .dropout then { l with dropout := values.get (str "dropout") } else l
  laySet lp { l with weights := some weights, biases := some biases }

/-- `setValues` of a loss (loss.go:38-40, 115-117, 202-204, 289-291). -/
def Loss.setValues (l : Loss) (size : Int) : Loss := { l with size := size }

end NN
