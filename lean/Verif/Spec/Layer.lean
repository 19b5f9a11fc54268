import Verif.Spec.State
import Verif.Spec.Arith
/-
Specification vocabulary for layers: what it means for a layer with given parameters to be present in a state, and
the mathematical function of each layer type.
-/

namespace NN
variable {α : Type}

/-- `m` is a matrix whose storage did not exist in `w` and whose rows do not share storage. -/
structure Fresh (w w' : World α) (m : Mat) (r c : Nat) (V : Nat → Nat → α) : Prop where
  mat : IsMat w' m r c V
  fresh_outer : w.next ≤ m.m.addr
  fresh : ∀ a, w'.IsRow m r a → w.next ≤ a
  distinct : DistinctRows w' m r
  off : m.m.off = 0
  cap : m.m.cap = r

/-- The mathematical content of a layer: type, sizes, weights, biases, slope, dropout. -/
structure LayerSpec (α : Type) where
  kind : LayerKind
  n : Nat
  o : Nat
  W : Nat → Nat → α
  b : Nat → α
  slope : α
  dropout : α

/-- In state `w` there is a layer object at `lp` with content `L`, whose parameters are the matrices `wm` and `bm`. -/
structure IsLayer (w : World α) (lp : Nat) (wm bm : Mat) (L : LayerSpec α) : Prop where
  lt : lp < w.next
  kind : (w.lay lp).kind = L.kind
  ins : (w.lay lp).inputSize = L.n
  outs : (w.lay lp).outputSize = L.o
  weights : (w.lay lp).weights = some wm
  biases : (w.lay lp).biases = some bm
  slope : (w.lay lp).slope = L.slope
  dropout : (w.lay lp).dropout = L.dropout
  wmat : IsMat w wm L.n L.o L.W
  bmat : IsMat w bm 1 L.o (fun _ j => L.b j)

/-- `a` is the address of a row of the parameters. -/
def World.IsParam (w : World α) (wm bm : Mat) (n : Nat) (a : Nat) : Prop := w.IsRow wm n a ∨ w.IsRow bm 1 a

/-- The parameters do not share storage internally. -/
structure OwnParams (w : World α) (wm bm : Mat) (n : Nat) : Prop where
  distinct : DistinctRows w wm n
  disjoint : ∀ a, w.IsRow wm n a → ¬ w.IsRow bm 1 a
  outer : wm.m.addr ≠ bm.m.addr

/-- A layer of content `L`, its r-row input `X`, and an upstream gradient `D`, all in separate storage. -/
structure Stage (w : World α) (lp : Nat) (wm bm x d : Mat) (L : LayerSpec α) (r : Nat) (X D : Nat → Nat → α) : Prop where
  layer : IsLayer w lp wm bm L
  own : OwnParams w wm bm L.n
  xmat : IsMat w x r L.n X
  dmat : IsMat w d r L.o D
  xd : DistinctRows w x r
  dd : DistinctRows w d r
  px : ∀ a, w.IsParam wm bm L.n a → ¬ w.IsRow x r a
  pd : ∀ a, w.IsParam wm bm L.n a → ¬ w.IsRow d r a
  sep : ∀ a, w.IsRow x r a → ¬ w.IsRow d r a

/-- Since `w1`, the layer object and the matrix `out` returned by its forward pass have not been changed. -/
structure Intact (w1 w2 : World α) (lp : Nat) (out : Mat) (r o : Nat) : Prop where
  lay : w2.lay lp = w1.lay lp
  out : ∀ V, IsMat w1 out r o V → IsMat w2 out r o V

variable [Flt α]

/-- XW + b, summed in the order of the loops. -/
def preact (L : LayerSpec α) (X : Nat → Nat → α) (i j : Nat) : α :=
  (fsum L.n fun k => X i k *. L.W k j) +. L.b j

/-- The activation of each layer type, applied to one row of pre-activations (inference mode). -/
def actRow (k : LayerKind) (slope : α) (o : Nat) (z : Nat → α) (j : Nat) : α :=
  match k with
  | .hidden | .dropout => Flt.max (z j) Flt.zero
  | .linear => z j
  | .sigmoid => Flt.one /. (Flt.one +. Flt.exp (Flt.neg (z j)))
  | .leaky => if Flt.lt (z j) Flt.zero then z j *. slope else z j
  | .softmax => Flt.exp (z j) /. fsum o fun k => Flt.exp (z k)

/-- The inference function of a layer. -/
def infer (L : LayerSpec α) (X : Nat → Nat → α) (i j : Nat) : α :=
  actRow L.kind L.slope L.o (preact L X i) j

/-- `binomial{N: 1, P}.Rand` as a function of the uniform draw. -/
def bern (P u : α) : α :=
  let p := if Flt.lt Flt.half P then Flt.one -. P else P
  let bnl := if Flt.lt u p then Flt.zero +. Flt.one else Flt.zero
  if Flt.eq p P then bnl else Flt.one -. bnl

/-- The mask of a dropout layer, drawn from the uniform numbers u 0, u 1, ... in row order. -/
def dropBits (L : LayerSpec α) (u : Nat → α) (i j : Nat) : α := bern (Flt.one -. L.dropout) (u (i * L.o + j))

/-- The training-mode function of a layer, with uniform numbers u: dropout layers scale the kept entries. -/
def trainOut (L : LayerSpec α) (u : Nat → α) (X : Nat → Nat → α) (i j : Nat) : α :=
  if L.kind = .dropout then Flt.max (preact L X i j) Flt.zero *. (dropBits L u i j /. (Flt.one -. L.dropout))
  else infer L X i j

/-- The matrices that a layer object remembers after a forward pass that returned `out`. -/
def remember (k : LayerKind) (l : Layer α) (out : Mat) : Layer α :=
  match k with
  | .hidden | .leaky | .dropout => { l with reluInputs := out }
  | .softmax => { l with outputs := out }
  | .linear | .sigmoid => l

end NN
