import Verif.Model.Matrix
/- Model of /repo/misc.go. -/

namespace NN
variable {α : Type} [Flt α]
open Go

/-- misc.go:15-31 `SparseToOneHot`. -/
def sparseToOneHot (X : Mat) (size : Int) : Go α (Mat × Option Err) := do
  if size ≤ 0 then
    return (Mat.zero, some .oneHotSize)
  let (ans, _) ← newMatrix X.rows size
  forN X.rows.toNat fun i => do
    let x ← X.at i 0
    ans.setAt i (Flt.toInt x) Flt.one
  return (ans, none)

/-- misc.go:35-56 `RowMax`: the scan starts with index 0 and value 0. -/
def rowMax (X : Mat) : Go α Mat := do
  let (ans, _) ← newMatrix X.rows 1
  forN X.rows.toNat fun i => do
    let (largest, _) ← foldN X.cols.toNat (fun j (p : Int × α) => do
      let x ← X.at i j
      if Flt.lt p.2 x then
        let x' ← X.at i j
        return ((j : Int), x')
      else return p) ((0 : Int), (Flt.zero : α))
    ans.setAt i 0 (Flt.ofInt largest)
  return ans

/-- misc.go:60-73 `OutputBinaryValues` (in place). -/
def outputBinaryValues (X : Mat) : Go α Mat := do
  forN X.rows.toNat fun i => forN X.cols.toNat fun j => do
    let x ← X.at i j
    if Flt.lt x Flt.half then
      X.setAt i j Flt.zero
    else
      X.setAt i j Flt.one
  return X

/-- `s[i], s[j] = s[j], s[i]` on a `[][]float64`. -/
def swapRows (s : Slice) (i j : Int) : Go α Unit := do
  let a ← rowRef s j
  let b ← rowRef s i
  setRowRef s i a
  setRowRef s j b

/-- math/rand `Shuffle(n, swap)`: panics for n < 0; for i = n-1 downto 1 it draws j in [0,i] and swaps.
`draw i` is the number drawn at step i, an arbitrary function (theorems assume `draw i ≤ i`);
`shuffleFrom k` performs the steps k, k-1, ..., 1. -/
def shuffleFrom (draw : Nat → Nat) (swap : Int → Int → Go α Unit) : Nat → Go α Unit
  | 0 => pure ()
  | k + 1 => do
    swap ((k + 1 : Nat) : Int) (draw (k + 1))
    shuffleFrom draw swap k

/-- misc.go:77-89 `ShuffleDataset`.  `draw` is the outcome of the random source. -/
def shuffleDataset (draw : Nat → Nat) (X Y : Mat) : Go α (Mat × Mat) := do
  if X.rows < 0 then
    Go.panic .shuffle
  shuffleFrom draw (fun i j => do
    swapRows X.m i j
    swapRows Y.m i j) (X.rows.toNat - 1)
  return (X, Y)

end NN
