import Verif.Model.Flt
import Mathlib.Analysis.Real.Sqrt
import Mathlib.Analysis.SpecialFunctions.Exp
import Mathlib.Analysis.SpecialFunctions.Log.Basic
import Mathlib.Analysis.SpecialFunctions.Pow.Real
import Mathlib.Data.Int.Log
import Mathlib.Algebra.Order.Floor.Ring
/-
IEEE-754 binary64 at the level of bits.  Addition, subtraction, multiplication, division, square root and conversion from
int are correctly rounded (to nearest, ties to even), as IEEE requires and Go promises.  `exp`, `log` and `pow` are those of
any library (`Libm`) that keeps the special cases of Go's documentation and is accurate to one ulp; correct rounding and
monotony are NOT assumed.  Every NaN result of + - * / sqrt is the same NaN.  int(x) of a value that does not fit is the smallest
int64 (amd64).
-/

namespace NN
open Classical

/-- A float64: its 64 bits. -/
structure F64 where
  bits : BitVec 64

namespace F64

/-- The bits without the sign. -/
def absBits (x : F64) : Nat := x.bits.toNat % 2 ^ 63

/-- The sign bit. -/
def sign (x : F64) : Bool := x.bits.msb

/-- The bits of +Inf. -/
def infBits : Nat := 2047 * 2 ^ 52

/-- Sign and magnitude to float64. -/
def mk' (s : Bool) (n : Nat) : F64 := ⟨BitVec.ofNat 64 ((if s then 2 ^ 63 else 0) + n)⟩

def nan : F64 := mk' false (infBits + 2 ^ 51)
def inf (s : Bool) : F64 := mk' s infBits
def zero (s : Bool) : F64 := mk' s 0

def isNaN (x : F64) : Bool := decide (infBits < x.absBits)
def isInf (x : F64) : Bool := decide (x.absBits = infBits)
def isZero (x : F64) : Bool := decide (x.absBits = 0)

/-- The number with exponent field b / 2^52 and fraction field b % 2^52. -/
noncomputable def mag (b : Nat) : ℝ :=
  if b / 2 ^ 52 = 0 then (b % 2 ^ 52 : ℕ) * (2 : ℝ) ^ (-1074 : ℤ)
  else ((2 ^ 52 + b % 2 ^ 52 : ℕ) : ℝ) * (2 : ℝ) ^ ((b / 2 ^ 52 : ℕ) - 1075 : ℤ)

/-- The value of a finite float64. -/
noncomputable def val (x : F64) : ℝ := if x.sign then -mag x.absBits else mag x.absBits

/-- The nearest integer, ties to even. -/
noncomputable def roundEven (y : ℝ) : ℤ :=
  if y - ⌊y⌋ < 1 / 2 then ⌊y⌋
  else if 1 / 2 < y - ⌊y⌋ then ⌊y⌋ + 1
  else if ⌊y⌋ % 2 = 0 then ⌊y⌋ else ⌊y⌋ + 1

/-- The exponent of the last place for numbers around y > 0. -/
noncomputable def ulpExp (y : ℝ) : ℤ := max (Int.log 2 y - 52) (-1074)

/-- The magnitude bits of the float64 nearest to y > 0. -/
noncomputable def roundBits (y : ℝ) : Nat :=
  let b : ℤ := (ulpExp y + 1074) * 2 ^ 52 + roundEven (y / (2 : ℝ) ^ ulpExp y)
  if infBits ≤ b then infBits else b.toNat

/-- The float64 nearest to y; `s` is the sign if y = 0. -/
noncomputable def round (s : Bool) (y : ℝ) : F64 :=
  if y = 0 then zero s else mk' (decide (y < 0)) (roundBits |y|)

/-- Flip the sign. -/
def neg (x : F64) : F64 := mk' (!x.sign) x.absBits

noncomputable def add (x y : F64) : F64 :=
  if x.isNaN || y.isNaN then nan
  else if x.isInf then (if y.isInf && x.sign != y.sign then nan else x)
  else if y.isInf then y
  else round (x.sign && y.sign) (x.val + y.val)

noncomputable def mul (x y : F64) : F64 :=
  if x.isNaN || y.isNaN then nan
  else if (x.isInf && y.isZero) || (x.isZero && y.isInf) then nan
  else if x.isInf || y.isInf then inf (x.sign != y.sign)
  else round (x.sign != y.sign) (x.val * y.val)

noncomputable def div (x y : F64) : F64 :=
  if x.isNaN || y.isNaN then nan
  else if (x.isInf && y.isInf) || (x.isZero && y.isZero) then nan
  else if x.isInf || y.isZero then inf (x.sign != y.sign)
  else if y.isInf then zero (x.sign != y.sign)
  else round (x.sign != y.sign) (x.val / y.val)

/-- The order of the non-NaN float64s as an order of integers; both zeros have key 0. -/
def key (x : F64) : Int := if x.sign then -x.absBits else x.absBits

def lt (x y : F64) : Bool := !x.isNaN && !y.isNaN && decide (x.key < y.key)
def le (x y : F64) : Bool := !x.isNaN && !y.isNaN && decide (x.key ≤ y.key)
def eq (x y : F64) : Bool := !x.isNaN && !y.isNaN && decide (x.key = y.key)

/-- math.Max: +Inf wins over NaN, +0 over -0. -/
def max (x y : F64) : F64 :=
  if x.isInf && !x.sign || y.isInf && !y.sign then inf false
  else if x.isNaN || y.isNaN then nan
  else if x.isZero && y.isZero then zero (x.sign && y.sign)
  else if decide (y.key < x.key) then x else y

/-- math.Min: -Inf wins over NaN, -0 over +0. -/
def min (x y : F64) : F64 :=
  if x.isInf && x.sign || y.isInf && y.sign then inf true
  else if x.isNaN || y.isNaN then nan
  else if x.isZero && y.isZero then zero (x.sign || y.sign)
  else if decide (x.key < y.key) then x else y

def abs (x : F64) : F64 := mk' false x.absBits

noncomputable def sqrt (x : F64) : F64 :=
  if x.isNaN then nan
  else if x.isZero then x
  else if x.sign then nan
  else if x.isInf then x
  else round false (Real.sqrt x.val)

/-- The exponential, correctly rounded: one of the functions that `Libm` admits (see IEEE/Libm.lean). -/
noncomputable def expR (x : F64) : F64 :=
  if x.isNaN then nan
  else if x.isInf then (if x.sign then zero false else x)
  else round false (Real.exp x.val)

/-- The logarithm, correctly rounded. -/
noncomputable def logR (x : F64) : F64 :=
  if x.isNaN then nan
  else if x.isZero then inf true
  else if x.sign then nan
  else if x.isInf then x
  else round false (Real.log x.val)

/-- An integer. -/
noncomputable def isInt (x : F64) : Bool := decide (∃ n : ℤ, x.val = n)
/-- An odd integer. -/
noncomputable def isOdd (x : F64) : Bool := decide (∃ n : ℤ, x.val = 2 * n + 1)

/-- The power, correctly rounded, with the special cases in the order of the documentation of math.Pow. -/
noncomputable def powR (x y : F64) : F64 :=
  if y.isZero then mk' false 0x3FF0000000000000
  else if x.isNaN || y.isNaN then (if x.bits = 0x3FF0000000000000#64 then x else nan)
  else if x.isZero then
    if y.sign then (if !y.isInf && y.isOdd then inf x.sign else inf false)
    else (if !y.isInf && y.isOdd then zero x.sign else zero false)
  else if y.isInf then
    if x.absBits = 0x3FF0000000000000 then mk' false 0x3FF0000000000000
    else if decide (0x3FF0000000000000 < x.absBits) != y.sign then inf false else zero false
  else if x.isInf then
    if y.sign then zero (x.sign && y.isOdd) else inf (x.sign && y.isOdd)
  else if x.sign && !y.isInt then nan
  else
    let r := |x.val| ^ y.val
    round false (if x.sign && y.isOdd then -r else r)

/-- int(x): truncation. -/
noncomputable def toInt (x : F64) : Int :=
  if x.isNaN || x.isInf then -(2 ^ 63)
  else
    let n := if x.sign then -⌊mag x.absBits⌋ else ⌊mag x.absBits⌋
    if -(2 ^ 63) ≤ n ∧ n < 2 ^ 63 then n else -(2 ^ 63)

end F64

/-- math.Exp, math.Log and math.Pow of the Go library, as far as the theorems on float64 depend on them: some of the special cases that
their documentation lists, and an error of at most one ulp (2^-52 of the exact value, plus 2^-1074 where the result of Exp can be subnormal).
Nothing is said about the direction of the error, about monotony or about which NaN is returned. -/
class Libm where
  exp : F64 → F64
  log : F64 → F64
  pow : F64 → F64 → F64
  /-- Exp(NaN) = NaN -/
  exp_nan : ∀ x : F64, x.isNaN = true → (exp x).isNaN = true
  /-- Exp(+Inf) = +Inf, Exp(-Inf) = 0 -/
  exp_inf : ∀ x : F64, x.isInf = true → exp x = if x.sign then F64.zero false else F64.inf false
  /-- The exponential of a finite number is a number and not negative. -/
  exp_num : ∀ x : F64, x.absBits < F64.infBits → (exp x).isNaN = false ∧ 0 ≤ (exp x).key
  /-- Its error is at most one ulp, if it is finite. -/
  exp_near : ∀ x : F64, x.absBits < F64.infBits → (exp x).absBits < F64.infBits →
    |(exp x).val - Real.exp x.val| ≤ 2 ^ (-52 : ℤ) * Real.exp x.val + 2 ^ (-1074 : ℤ)
  /-- It is finite if the exact value is at most 2^1023. -/
  exp_fits : ∀ x : F64, x.absBits < F64.infBits → Real.exp x.val ≤ 2 ^ (1023 : ℤ) → (exp x).absBits < F64.infBits
  /-- Large values overflow to +Inf. -/
  exp_over : ∀ x : F64, x.absBits < F64.infBits → 710 ≤ x.val → exp x = F64.inf false
  /-- Small values underflow to 0. -/
  exp_under : ∀ x : F64, x.absBits < F64.infBits → x.val ≤ -800 → exp x = F64.zero false
  /-- Log(NaN) = NaN -/
  log_nan : ∀ x : F64, x.isNaN = true → (log x).isNaN = true
  /-- Log(0) = -Inf -/
  log_zero : ∀ x : F64, x.isZero = true → log x = F64.inf true
  /-- The logarithm of a positive finite number is finite and off by at most one ulp. -/
  log_near : ∀ x : F64, x.absBits < F64.infBits → 0 < x.val →
    (log x).absBits < F64.infBits ∧ |(log x).val - Real.log x.val| ≤ 2 ^ (-52 : ℤ) * |Real.log x.val|
  /-- Pow(1, y) = 1 for any y -/
  pow_one : ∀ y : F64, pow (F64.mk' false 0x3FF0000000000000) y = F64.mk' false 0x3FF0000000000000
  /-- Pow(NaN, y) = NaN for y not 0 -/
  pow_nan : ∀ x y : F64, x.isNaN = true → y.isZero = false → (pow x y).isNaN = true
  /-- Pow(±0, 2) = +0 -/
  pow_zero_two : ∀ x y : F64, x.isZero = true → y.absBits < F64.infBits → y.val = 2 → pow x y = F64.zero false
  /-- Pow(x, 2) is the square of x wherever that is a float64. -/
  pow_two : ∀ x y z : F64, x.absBits < F64.infBits → y.absBits < F64.infBits → z.absBits < F64.infBits → y.val = 2 → z.val = x.val ^ 2 →
    (pow x y).absBits < F64.infBits ∧ (pow x y).val = z.val

/-- math.Exp, math.Log, math.Pow of the library at hand. -/
abbrev F64.exp [Libm] : F64 → F64 := Libm.exp
abbrev F64.log [Libm] : F64 → F64 := Libm.log
abbrev F64.pow [Libm] : F64 → F64 → F64 := Libm.pow

/-- The exponential of the library at hand keeps the order of the numbers.  Go does not promise it; the theorems that need it say so. -/
def ExpMono [Libm] : Prop := ∀ x y : F64, x.isNaN = false → y.isNaN = false → x.key ≤ y.key → (F64.exp x).key ≤ (F64.exp y).key

noncomputable instance [Libm] : Flt F64 where
  ofInt n := F64.round false n
  add := F64.add
  sub x y := F64.add x y.neg
  mul := F64.mul
  div := F64.div
  neg := F64.neg
  lt := F64.lt
  le := F64.le
  eq := F64.eq
  max := F64.max
  min := F64.min
  abs := F64.abs
  pow := F64.pow
  exp := F64.exp
  log := F64.log
  sqrt := F64.sqrt
  toInt := F64.toInt
  half := F64.round false (1 / 2)
  eps7 := F64.round false (1 / 10 ^ 7)
  oneSubEps7 := F64.round false (1 - 1 / 10 ^ 7)

instance : FltBits F64 where
  toBits x := x.bits
  ofBits b := ⟨b⟩
  ofBits_toBits _ := rfl

end NN
