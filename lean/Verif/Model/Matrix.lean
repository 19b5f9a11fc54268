import Verif.Model.Go
/- Model of /repo/matrix.go. -/

namespace NN
variable {α : Type} [Flt α]
open Go

/-- matrix.go:37-57 `NewMatrix`. -/
def newMatrix (rows cols : Int) : Go α (Mat × Option Err) := do
  if rows < 1 ∨ cols < 1 then
    return (Mat.zero, some (.matrixDims rows cols))
  let s ← allocOuter rows.toNat
  forN rows.toNat fun i => do
    let r ← allocRow cols.toNat
    setRowRef s i r
  return (⟨rows, cols, s⟩, none)

/-- matrix.go:60-77 `NewMatrixFromSlice` (shares the slice; only the first row's length is inspected). -/
def newMatrixFromSlice (s : Slice) : Go α (Mat × Option Err) := do
  let rows : Int := s.len
  if rows < 1 then
    return (Mat.zero, some (.matrixDims rows 0))
  let r0 ← rowRef s 0
  let cols ← rowLen r0
  if cols < 1 then
    return (Mat.zero, some (.matrixDims rows cols))
  return (⟨rows, cols, s⟩, none)

/-- matrix.go:80-90 `Get`. -/
def Mat.get (m : Mat) (row col : Int) : Go α (α × Option Err) := do
  if row ≥ m.rows ∨ col ≥ m.cols then
    return (Flt.zero, some (.matrixIndex row col))
  let v ← m.at row col
  return (v, none)

/-- matrix.go:93-105 `Set`. -/
def Mat.set (m : Mat) (row col : Int) (value : α) : Go α (Option Err) := do
  if row ≥ m.rows ∨ col ≥ m.cols then
    return some (.matrixIndex row col)
  m.setAt row col value
  return none

/-- matrix.go:108-118 `GetRow`: returns the row itself (its address), `none` standing for nil. -/
def Mat.getRow (m : Mat) (row : Int) : Go α (Option Nat × Option Err) := do
  if row ≥ m.rows then
    return (none, some (.matrixIndex row (-1)))
  let r ← rowRef m.m row
  return (some r, none)

/-- matrix.go:121-137 `GetColumn`: a new slice.  `make` panics on a negative length. -/
def Mat.getColumn (m : Mat) (col : Int) : Go α (Option Nat × Option Err) := do
  if col ≥ m.cols then
    return (none, some (.matrixIndex (-1) col))
  if m.rows < 0 then
    Go.panic .makeLen
  let s ← allocRow m.rows.toNat
  forN m.rows.toNat fun i => do
    let v ← m.at i col
    rowSet s i v
  return (some s, none)

/-- matrix.go:140-157 `SetRow`: installs the slice itself. -/
def Mat.setRow (m : Mat) (row : Int) (values : Nat) : Go α (Option Err) := do
  if row ≥ m.rows then
    return some (.matrixIndex row (-1))
  let n ← rowLen values
  if n ≠ m.cols then
    return some (.sliceDims n)
  setRowRef m.m row values
  return none

/-- matrix.go:160-179 `SetColumn`: copies the values. -/
def Mat.setColumn (m : Mat) (col : Int) (values : Nat) : Go α (Option Err) := do
  if col ≥ m.cols then
    return some (.matrixIndex (-1) col)
  let n ← rowLen values
  if n ≠ m.rows then
    return some (.sliceDims n)
  forN m.rows.toNat fun i => do
    let v ← rowGet values i
    m.setAt i col v
  return none

/-- matrix.go:182-201 `Equals`. -/
def Mat.equals (m b : Mat) : Go α Bool := do
  if m.rows ≠ b.rows ∨ m.cols ≠ b.cols then
    return false
  let r ← forRet m.rows.toNat fun i =>
    forRet m.cols.toNat fun j => do
      let x ← m.at i j
      let y ← b.at i j
      if !Flt.eq x y then return some false else return none
  match r with
  | some v => return v
  | none => return true

/-- matrix.go:205-225 `Add`. -/
def Mat.add (m b : Mat) : Go α (Mat × Option Err) := do
  if m.rows ≠ b.rows ∨ m.cols ≠ b.cols then
    return (Mat.zero, some (.matrixDims b.rows b.cols))
  let (ans, _) ← newMatrix m.rows m.cols
  forN m.rows.toNat fun i => forN m.cols.toNat fun j => do
    let x ← m.at i j
    let y ← b.at i j
    ans.setAt i j (x +. y)
  return (ans, none)

/-- matrix.go:227-247 `Sub`. -/
def Mat.sub (m b : Mat) : Go α (Mat × Option Err) := do
  if m.rows ≠ b.rows ∨ m.cols ≠ b.cols then
    return (Mat.zero, some (.matrixDims b.rows b.cols))
  let (ans, _) ← newMatrix m.rows m.cols
  forN m.rows.toNat fun i => forN m.cols.toNat fun j => do
    let x ← m.at i j
    let y ← b.at i j
    ans.setAt i j (x -. y)
  return (ans, none)

/-- matrix.go:250-265 `Neg`. -/
def Mat.neg (m : Mat) : Go α Mat := do
  let (ans, _) ← newMatrix m.rows m.cols
  forN m.rows.toNat fun i => forN m.cols.toNat fun j => do
    let x ← m.at i j
    ans.setAt i j (Flt.neg x)
  return ans

/-- matrix.go:268-281 `AddScalar`. -/
def Mat.addScalar (m : Mat) (x : α) : Go α Mat := do
  let (ans, _) ← newMatrix m.rows m.cols
  forN m.rows.toNat fun i => forN m.cols.toNat fun j => do
    let y ← m.at i j
    ans.setAt i j (y +. x)
  return ans

/-- matrix.go:283-296 `MulScalar`. -/
def Mat.mulScalar (m : Mat) (x : α) : Go α Mat := do
  let (ans, _) ← newMatrix m.rows m.cols
  forN m.rows.toNat fun i => forN m.cols.toNat fun j => do
    let y ← m.at i j
    ans.setAt i j (y *. x)
  return ans

/-- matrix.go:298-311 `PowScalar`. -/
def Mat.powScalar (m : Mat) (x : α) : Go α Mat := do
  let (ans, _) ← newMatrix m.rows m.cols
  forN m.rows.toNat fun i => forN m.cols.toNat fun j => do
    let y ← m.at i j
    ans.setAt i j (Flt.pow y x)
  return ans

/-- matrix.go:314-341 `Dot`. -/
def Mat.dot (m b : Mat) : Go α (Mat × Option Err) := do
  if m.cols ≠ b.rows then
    return (Mat.zero, some (.matrixDims b.rows b.cols))
  let (ans, _) ← newMatrix m.rows b.cols
  forN m.rows.toNat fun i => forN b.cols.toNat fun j => do
    let sum ← foldN m.cols.toNat (fun n sum => do
      let x ← m.at i n
      let y ← b.at n j
      return sum +. x *. y) Flt.zero
    ans.setAt i j sum
  return (ans, none)

/-- `len` of a possibly nil row is 0, so `SetColumn` with nil only fails its length test; used by `T`,
where `GetRow(i)` with i < Rows never returns nil. -/
def Mat.setColumnOpt (m : Mat) (col : Int) (values : Option Nat) : Go α (Option Err) :=
  match values with
  | some v => m.setColumn col v
  | none => return some (.sliceDims 0)

/-- matrix.go:344-356 `T` (errors of GetRow/SetColumn are ignored). -/
def Mat.t (m : Mat) : Go α Mat := do
  let (ans, _) ← newMatrix m.cols m.rows
  forN m.rows.toNat fun i => do
    let (col, _) ← m.getRow i
    let _ ← ans.setColumnOpt i col
  return ans

/-- matrix.go:359-400 `Sum`. -/
def Mat.sum (m : Mat) (axis : Int) : Go α Mat := do
  if axis ≠ 0 ∧ axis ≠ 1 then
    Go.panic .axis
  if axis = 0 then
    let (ans, _) ← newMatrix 1 m.cols
    forN m.cols.toNat fun i => do
      let s ← foldN m.rows.toNat (fun j s => do
        let x ← m.at j i
        return s +. x) Flt.zero
      ans.setAt 0 i s
    return ans
  let (ans, _) ← newMatrix 1 m.rows
  forN m.rows.toNat fun i => do
    let s ← foldN m.cols.toNat (fun j s => do
      let x ← m.at i j
      return s +. x) Flt.zero
    ans.setAt 0 i s
  return ans

/-- matrix.go:403-415 `Clip` (in place). -/
def clip (X : Mat) : Go α Mat := do
  forN X.rows.toNat fun i => forN X.cols.toNat fun j => do
    let x ← X.at i j
    if Flt.lt x Flt.zero then
      X.setAt i j Flt.eps7
    else
      let x' ← X.at i j
      if Flt.lt Flt.one x' then
        X.setAt i j Flt.oneSubEps7
  return X

end NN
