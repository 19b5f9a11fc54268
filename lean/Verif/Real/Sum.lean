import Verif.Real.Inst
import Verif.Spec.Arith
import Mathlib.Algebra.BigOperators.Intervals
/- Over ℝ the loop sums are `Finset` sums. -/

namespace NN
open Finset

theorem fsum_real (n : Nat) (f : Nat → ℝ) : fsum n f = ∑ k ∈ range n, f k := by
  induction n with
  | zero => simp [fsum, Flt.zero]
  | succ n ih => simp [fsum, ih, Finset.sum_range_succ]

end NN
