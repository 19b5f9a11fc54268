import Verif.Model.Misc
/- Model of /repo/accuracy.go. -/

namespace NN
variable {α : Type} [Flt α]
open Go

/-- accuracy.go:13-27 `RegressionAccuracy`. -/
def regressionAccuracy (yHat Y : Mat) (percision : α) : Go α α := do
  let accuracy ← foldN Y.rows.toNat (fun i acc => foldN Y.cols.toNat (fun j (acc : Int) => do
    let a ← yHat.at i j
    let b ← Y.at i j
    if Flt.lt (Flt.abs (a -. b)) percision then return acc + 1 else return acc) acc) (0 : Int)
  return Flt.ofInt accuracy /. Flt.ofInt (Y.rows * Y.cols)

/-- accuracy.go:31-46 `CategoricalAccuracy`. -/
def categoricalAccuracy (yHat Y : Mat) : Go α α := do
  let outputs ← rowMax yHat
  let accuracy ← foldN Y.rows.toNat (fun i (acc : Int) => do
    let k ← outputs.at i 0
    let y ← Y.at i (Flt.toInt k)
    if Flt.eq y Flt.one then return acc + 1 else return acc) (0 : Int)
  return Flt.ofInt accuracy /. Flt.ofInt Y.rows

/-- accuracy.go:50-67 `BinaryCategoricalAccuracy` (thresholds yHat in place). -/
def binaryCategoricalAccuracy (yHat Y : Mat) : Go α α := do
  let outputs ← outputBinaryValues yHat
  let accuracy ← foldN Y.rows.toNat (fun i acc => foldN Y.cols.toNat (fun j (acc : Int) => do
    let a ← outputs.at i j
    let b ← Y.at i j
    if Flt.eq a b then return acc + 1 else return acc) acc) (0 : Int)
  return Flt.ofInt accuracy /. Flt.ofInt (Y.rows * Y.cols)

end NN
