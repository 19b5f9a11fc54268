import Verif.Model.Flt
import Mathlib.Analysis.SpecialFunctions.Pow.Real
import Mathlib.Analysis.SpecialFunctions.Log.Basic
import Mathlib.Analysis.SpecialFunctions.Sqrt
/-
Exact real arithmetic as an instance of the float interface.  Comparisons are decided classically;
`math.Pow` is `Real.rpow`, `int(x)` truncates towards zero.
-/

namespace NN
open Classical

noncomputable instance instFltReal : Flt ℝ where
  ofInt n := (n : ℝ)
  add x y := x + y
  sub x y := x - y
  mul x y := x * y
  div x y := x / y
  neg x := -x
  lt x y := decide (x < y)
  le x y := decide (x ≤ y)
  eq x y := decide (x = y)
  max x y := Max.max x y
  min x y := Min.min x y
  abs x := |x|
  pow x y := x ^ y
  exp x := Real.exp x
  log x := Real.log x
  sqrt x := Real.sqrt x
  toInt x := if 0 ≤ x then ⌊x⌋ else ⌈x⌉
  half := 1 / 2
  eps7 := 1 / 10 ^ 7
  oneSubEps7 := 1 - 1 / 10 ^ 7

@[simp] theorem real_ofInt (n : Int) : (Flt.ofInt n : ℝ) = (n : ℝ) := rfl
@[simp] theorem real_add (x y : ℝ) : x +. y = x + y := rfl
@[simp] theorem real_sub (x y : ℝ) : x -. y = x - y := rfl
@[simp] theorem real_mul (x y : ℝ) : x *. y = x * y := rfl
@[simp] theorem real_div (x y : ℝ) : x /. y = x / y := rfl
@[simp] theorem real_neg (x : ℝ) : Flt.neg x = -x := rfl
@[simp] theorem real_lt (x y : ℝ) : Flt.lt x y = decide (x < y) := rfl
@[simp] theorem real_le (x y : ℝ) : Flt.le x y = decide (x ≤ y) := rfl
@[simp] theorem real_eq (x y : ℝ) : Flt.eq x y = decide (x = y) := rfl
@[simp] theorem real_max (x y : ℝ) : Flt.max x y = Max.max x y := rfl
@[simp] theorem real_min (x y : ℝ) : Flt.min x y = Min.min x y := rfl
@[simp] theorem real_abs (x : ℝ) : Flt.abs x = |x| := rfl
@[simp] theorem real_pow (x y : ℝ) : Flt.pow x y = x ^ y := rfl
@[simp] theorem real_exp (x : ℝ) : Flt.exp x = Real.exp x := rfl
@[simp] theorem real_log (x : ℝ) : Flt.log x = Real.log x := rfl
@[simp] theorem real_sqrt (x : ℝ) : Flt.sqrt x = Real.sqrt x := rfl
@[simp] theorem real_half : (Flt.half : ℝ) = 1 / 2 := rfl
@[simp] theorem real_eps7 : (Flt.eps7 : ℝ) = 1 / 10 ^ 7 := rfl
@[simp] theorem real_oneSubEps7 : (Flt.oneSubEps7 : ℝ) = 1 - 1 / 10 ^ 7 := rfl

@[simp] theorem real_toInt_ofInt (n : Int) : Flt.toInt ((n : Int) : ℝ) = n := by
  show (if 0 ≤ (n : ℝ) then ⌊(n : ℝ)⌋ else ⌈(n : ℝ)⌉) = n
  split <;> simp

instance : FltInt ℝ where
  toInt_ofInt n _ _ := by rw [real_ofInt, real_toInt_ofInt]
  toInt_min a b _ _ _ _ := by
    rw [real_min, real_ofInt, real_ofInt, ← Int.cast_min, real_toInt_ofInt]

end NN
