import Verif.Model.Go
/-
Specification vocabulary: what it means for a matrix to be present in a state, and what it means for a state change
to be confined to a given footprint.  Independent of the modelled functions.
-/

namespace NN
variable {α : Type}

/-- The address of row `i` of `m` (if the backing array has such a position). -/
def World.rowAddr (w : World α) (m : Mat) (i : Nat) : Option Nat := (w.outs m.m.addr)[m.m.off + i]?

/-- In state `w`, `m` is a well-formed `r × c` matrix (`r, c ≥ 1`) whose entry at (i, j) is `A i j`. -/
structure IsMat (w : World α) (m : Mat) (r c : Nat) (A : Nat → Nat → α) : Prop where
  rows : m.rows = r
  cols : m.cols = c
  len  : m.m.len = r
  rpos : 0 < r
  cpos : 0 < c
  addr_lt : m.m.addr < w.next
  row  : ∀ i, i < r → ∃ a, w.rowAddr m i = some a ∧ a < w.next ∧ w.flt a = (List.range c).map (A i)

/-- `a` is the address of one of the `r` rows of `m`. -/
def World.IsRow (w : World α) (m : Mat) (r : Nat) (a : Nat) : Prop := ∃ i, i < r ∧ w.rowAddr m i = some a

/-- No two rows of `m` share storage. -/
def DistinctRows (w : World α) (m : Mat) (r : Nat) : Prop :=
  ∀ i j a, i < r → j < r → w.rowAddr m i = some a → w.rowAddr m j = some a → i = j

/-- Which parts of the state a computation may change. -/
structure Foot where
  /-- addresses of rows -/
  flt  : Nat → Prop := fun _ => False
  /-- addresses of arrays of rows -/
  outs : Nat → Prop := fun _ => False
  /-- addresses of layers -/
  lay  : Nat → Prop := fun _ => False
  /-- addresses of optimizers -/
  opt  : Nat → Prop := fun _ => False
  /-- may draw from the uniform source -/
  unif : Prop := False
  /-- may draw from the normal source -/
  norm : Prop := False
  /-- may write log lines -/
  log  : Prop := False

/-- Nothing that existed in `w` is changed in `w'`, except inside the footprint. -/
structure Frame (f : Foot) (w w' : World α) : Prop where
  next_le : w.next ≤ w'.next
  flt  : ∀ a, a < w.next → ¬ f.flt a → w'.flt a = w.flt a
  outs : ∀ a, a < w.next → ¬ f.outs a → w'.outs a = w.outs a
  lay  : ∀ a, a < w.next → ¬ f.lay a → w'.lay a = w.lay a
  opt  : ∀ a, a < w.next → ¬ f.opt a → w'.opt a = w.opt a
  norm : w'.norm = w.norm
  unif : w'.unif = w.unif
  normPos : ¬ f.norm → w'.normPos = w.normPos
  unifPos : ¬ f.unif → w'.unifPos = w.unifPos
  log  : ¬ f.log → w'.log = w.log
  logger : w'.logger = w.logger

/-- The state change consists of allocations only: everything that existed before is as before. -/
abbrev OnlyAllocs (w w' : World α) : Prop := Frame {} w w'

/-- `m` is a newly allocated `r × c` matrix with entries `V`: its storage did not exist before, its rows do not share
storage, and nothing that existed before has changed. -/
structure NewMat (w w' : World α) (m : Mat) (r c : Nat) (V : Nat → Nat → α) : Prop where
  mat : IsMat w' m r c V
  frame : OnlyAllocs w w'
  fresh_outer : w.next ≤ m.m.addr
  fresh : ∀ a, w'.IsRow m r a → w.next ≤ a
  distinct : DistinctRows w' m r
  off : m.m.off = 0
  cap : m.m.cap = r

/-- The state change consists of giving `m` the entries `V`: no other row changes, nothing is allocated. -/
structure SetMat (w w' : World α) (m : Mat) (r c : Nat) (V : Nat → Nat → α) : Prop where
  mat : IsMat w' m r c V
  frame : Frame { flt := w.IsRow m r } w w'
  next : w'.next = w.next
  outs : w'.outs = w.outs

end NN
