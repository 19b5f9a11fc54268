import Verif.Model.Binomial
/-
Model of /repo/binomial.go for every N.  The package itself only calls `Rand` with N = 1 (network.go:788-792, `binomialRand`);
this file covers the two rejection methods for N ≥ 25 as well.

Simplifications: the random source is a pair of arbitrary streams (`rand.Float64`, `rand.ExpFloat64`; `b.Src` is always nil, see
`drawUnif`).  A loop without a bound takes an argument `fuel`; the result is `none` if the fuel does not suffice.  `Rand` returns v
exactly if the result is v for some fuel.
-/

namespace NN

/-- The functions and constants of binomial.go that are not used elsewhere in the package: math.Floor, math.Tan, math.Log1p, math.Lgamma
(first result), math.Pi, and the literals 1.0/6, 2.6e-2, 1.2. -/
class FltMath (α : Type) where
  floor : α → α
  tan : α → α
  log1p : α → α
  lgamma : α → α
  pi : α
  sixth : α
  logM : α
  c1p2 : α

/-- The streams of `rand.Float64` and `rand.ExpFloat64`. -/
structure Draws (α : Type) where
  unif : Nat → α
  exp : Nat → α

/-- How many draws have been taken from each stream. -/
structure DrawPos where
  u : Nat
  e : Nat
deriving DecidableEq

variable {α : Type} [Flt α]

/-- binomial.go:59-63, the loop of the direct method: the count after k iterations. -/
def directCount (d : Draws α) (p : α) (q : DrawPos) : Nat → α
  | 0 => Flt.zero
  | k + 1 => if Flt.lt (d.unif (q.u + k)) p then directCount d p q k +. Flt.one else directCount d p q k

/-- binomial.go:75, 88: the Padé approximant of log(1 + z). -/
def pade [FltMath α] (z : α) : α :=
  (Flt.one +. Flt.half *. z) *. z /. (Flt.one +. (Flt.one +. FltMath.sixth *. z) *. z)

/-- binomial.go:79-85: k iterations of the inner loop of the Poisson proposal, from sum `t` and count `bnl`. -/
def poissonCount (d : Draws α) (am : α) : Nat → α → α → DrawPos → α × DrawPos
  | 0, _, bnl, q => (bnl, q)
  | k + 1, t, bnl, q =>
    let t := t +. d.exp q.e
    let q := { q with e := q.e + 1 }
    if Flt.le am t then (bnl, q) else poissonCount d am k t (bnl +. Flt.one) q

/-- binomial.go:76-93: the rejection loop with the Poisson proposal. -/
def poissonLoop [FltMath α] (d : Draws α) (N am pclog : α) : Nat → DrawPos → Option (α × DrawPos)
  | 0, _ => none
  | fuel + 1, q =>
    let (bnl, q) := poissonCount d am (Flt.toInt N).toNat Flt.zero Flt.zero q
    let bnlc := N -. bnl
    let z := Flt.neg bnl /. N
    let log1p := pade z
    let t := (bnlc +. Flt.half) *. log1p +. bnl -. bnlc *. pclog +. Flt.one /. (Flt.ofInt 12 *. bnlc) -. am +. FltMath.logM
    let x := d.exp q.e
    let q := { q with e := q.e + 1 }
    if Flt.le t x then some (bnl, q) else poissonLoop d N am pclog fuel q

/-- binomial.go:110-129: the rejection loop with the Cauchy proposal.  The inner loop (lines 112-118) and the outer one are one
recursion: both start over with the next uniform draw. -/
def cauchyLoop [FltMath α] (d : Draws α) (N am g plog pclog sq : α) : Nat → DrawPos → Option (α × DrawPos)
  | 0, _ => none
  | fuel + 1, q =>
    let y := FltMath.tan (FltMath.pi *. d.unif q.u)
    let q := { q with u := q.u + 1 }
    let em := sq *. y +. am
    if Flt.le Flt.zero em && Flt.lt em (N +. Flt.one) then
      let em := FltMath.floor em
      let lg1 := FltMath.lgamma (em +. Flt.one)
      let lg2 := FltMath.lgamma (N -. em +. Flt.one)
      let t := FltMath.c1p2 *. sq *. (Flt.one +. y *. y) *.
        Flt.exp (g -. lg1 -. lg2 +. em *. plog +. (N -. em) *. pclog)
      let x := d.unif q.u
      let q := { q with u := q.u + 1 }
      if Flt.le x t then some (em, q) else cauchyLoop d N am g plog pclog sq fuel q
    else cauchyLoop d N am g plog pclog sq fuel q

/-- binomial.go:50-53: the smaller of P and 1 - P. -/
def smallP (P : α) : α := if Flt.lt Flt.half P then Flt.one -. P else P

/-- binomial.go:64-67, 94-97, 124-127: mirror the count if P was mirrored. -/
def mirror (N P bnl : α) : α := if !Flt.eq (smallP P) P then N -. bnl else bnl

/-- binomial.go:37-130 `Rand` for all N and P. -/
def binomialFull [FltMath α] (d : Draws α) (N P : α) (fuel : Nat) (q : DrawPos) : Option (α × DrawPos) :=
  if Flt.lt N (Flt.ofInt 25) then
    some (mirror N P (directCount d (smallP P) q (Flt.toInt N).toNat), { q with u := q.u + (Flt.toInt N).toNat })
  else if Flt.lt (N *. smallP P) Flt.one then
    (poissonLoop d N (N *. smallP P) (pade (Flt.neg (smallP P))) fuel q).map fun r => (mirror N P r.1, r.2)
  else
    (cauchyLoop d N (N *. smallP P) (FltMath.lgamma (N +. Flt.one)) (Flt.log (smallP P)) (FltMath.log1p (Flt.neg (smallP P)))
      (Flt.sqrt (Flt.ofInt 2 *. (N *. smallP P) *. (Flt.one -. smallP P))) fuel q).map fun r => (mirror N P r.1, r.2)

end NN
