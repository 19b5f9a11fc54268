/-
The float64 operations used by the package, as an interface WITHOUT laws.

`Flt α` lists every floating-point primitive that occurs in /repo/*.go.  A theorem proved for an
arbitrary `[Flt α]` therefore holds for IEEE-754 doubles with whatever `math.Exp`, `math.Log`, ...
the platform supplies.  Instances: `ℝ` (`Verif/Real/Inst.lean`, exact arithmetic) and a bit-level
binary64 (`Verif/IEEE/*.lean`).
-/

namespace NN

/-- float64 primitives used in /repo/*.go. -/
class Flt (α : Type) where
  /-- `float64(n)` for an `int` n; also the value of integral constants and of the zero value. -/
  ofInt : Int → α
  /-- `x + y` -/
  add : α → α → α
  /-- `x - y` -/
  sub : α → α → α
  /-- `x * y` -/
  mul : α → α → α
  /-- `x / y` -/
  div : α → α → α
  /-- `-x` -/
  neg : α → α
  /-- `x < y` (also used for `y > x`) -/
  lt : α → α → Bool
  /-- `x <= y` (also used for `y >= x`) -/
  le : α → α → Bool
  /-- `x == y` -/
  eq : α → α → Bool
  /-- `math.Max` -/
  max : α → α → α
  /-- `math.Min` -/
  min : α → α → α
  /-- `math.Abs` -/
  abs : α → α
  /-- `math.Pow` -/
  pow : α → α → α
  /-- `math.Exp` -/
  exp : α → α
  /-- `math.Log` -/
  log : α → α
  /-- `math.Sqrt` -/
  sqrt : α → α
  /-- `int(x)` -/
  toInt : α → Int
  /-- the constant `0.5` -/
  half : α
  /-- the constant `1e-7` -/
  eps7 : α
  /-- the constant `1 - 1e-7` -/
  oneSubEps7 : α

infixl:65 " +. " => Flt.add
infixl:65 " -. " => Flt.sub
infixl:70 " *. " => Flt.mul
infixl:70 " /. " => Flt.div

/-- The zero value of `float64`. -/
abbrev Flt.zero {α : Type} [Flt α] : α := Flt.ofInt 0
/-- The constant 1. -/
abbrev Flt.one {α : Type} [Flt α] : α := Flt.ofInt 1

/-- Exactness of `int`/`float64` conversions up to 2^53 (a theorem for the ℝ and the binary64 instances).
Needed wherever the package sends an `int` through a `float64` (`getValues`, the batch bounds of `Fit`). -/
class FltInt (α : Type) [Flt α] : Prop where
  toInt_ofInt : ∀ n : Int, -(2 ^ 53) ≤ n → n ≤ 2 ^ 53 → Flt.toInt (Flt.ofInt n : α) = n
  toInt_min : ∀ a b : Int, -(2 ^ 53) ≤ a → a ≤ 2 ^ 53 → -(2 ^ 53) ≤ b → b ≤ 2 ^ 53 →
    Flt.toInt (Flt.min (Flt.ofInt a : α) (Flt.ofInt b)) = Min.min a b

/-- A byte. -/
abbrev Byte := BitVec 8

/-- A Go string: its bytes. -/
abbrev Str := List Byte

/-- The bytes of an ASCII literal. -/
def str (s : String) : Str := s.toList.map fun c => BitVec.ofNat 8 c.toNat

/-- `math.Float64bits` / `math.Float64frombits`, as used by `encoding/binary`. -/
class FltBits (α : Type) where
  toBits : α → BitVec 64
  ofBits : BitVec 64 → α
  /-- reading back the bits gives the same float64 -/
  ofBits_toBits : ∀ x, ofBits (toBits x) = x

end NN
