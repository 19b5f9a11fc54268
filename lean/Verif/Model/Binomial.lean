import Verif.Model.Go
/- Model of /repo/binomial.go, restricted to the direct method (N < 25).
The package's only use is `binomial{N: 1, P: 1 - Dropout}` (network.go:788), so the two rejection methods
(lines 70-129) are unreachable through the API; they are in BinomialFull.lean. -/

namespace NN
variable {α : Type} [Flt α]
open Go

/-- One draw of `rand.Float64` (binomial.go:42).  `b.Src` is always nil: `NewSource` (binomial.go:32-34) has a
value receiver, so it assigns to a copy and has no effect. -/
def drawUnif : Go α α := fun w => .ok (w.unif w.unifPos, { w with unifPos := w.unifPos + 1 })

/-- binomial.go:37-68 `Rand` for `b.N = n < 25`. -/
def binomialRand (n : Nat) (P : α) : Go α α := do
  let p := if Flt.lt Flt.half P then Flt.one -. P else P
  let bnl ← foldN n (fun _ bnl => do
    let u ← drawUnif
    if Flt.lt u p then return bnl +. Flt.one else return bnl) Flt.zero
  if !Flt.eq p P then
    return Flt.ofInt n -. bnl
  return bnl

end NN
