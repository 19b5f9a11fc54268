import Verif.Model.Flt
/- Specification vocabulary: float64 sums in the order of the loops. -/

namespace NN
variable {α : Type} [Flt α]

/-- The left-to-right sum ((0 + f 0) + f 1) + ... + f (n-1) in float64 arithmetic. -/
def fsum : Nat → (Nat → α) → α
  | 0, _ => Flt.zero
  | n + 1, f => fsum n f +. f n

end NN
