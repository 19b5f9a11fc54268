import Verif.Model.Go
import Mathlib.Algebra.BigOperators.Group.Finset.Basic
/- Specification vocabulary: how much memory a program has asked for. -/

namespace NN
variable {α : Type}
open Go

/-- Nothing is stored at addresses not handed out yet. -/
def Clean (w : World α) : Prop := ∀ a, w.next ≤ a → w.flt a = []

/-- The number of float64 numbers in all arrays of numbers allocated so far (each takes 8 bytes). -/
def floats (w : World α) : Nat := ∑ a ∈ Finset.range w.next, (w.flt a).length

end NN
