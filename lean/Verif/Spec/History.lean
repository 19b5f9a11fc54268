import Verif.Spec.Optim
import Verif.Model.Optimizers
/-
Histories of optimizer updates.  The program around the optimizer may do anything between two updates, except change
the parameters, the optimizer object, or the optimizer's state.
-/

namespace NN
variable {α : Type} [Flt α]

/-- The state `w'` arises from `u` without changes to the parameters, the optimizer object at `op` and its state. -/
def Elsewhere (op : Nat) (wm bm : Mat) (rw rb : Nat) (u w' : World α) : Prop :=
  Frame
    { flt := fun a => ¬ (u.IsPRow wm bm rw rb a ∨ u.IsOptRow (u.opt op) rw rb a)
      outs := fun a => ¬ (a = wm.m.addr ∨ a = bm.m.addr ∨ a = (u.opt op).weightMomentums.m.addr ∨
        a = (u.opt op).biasMomentums.m.addr ∨ a = (u.opt op).weightCache.m.addr ∨ a = (u.opt op).biasCache.m.addr)
      lay := fun _ => True
      opt := fun a => a ≠ op
      unif := True
      norm := True
      log := True } u w'

/-- `w 0, w 1, …` are the states before the updates number 0, 1, …, k-1 (and `w k` a state after the last one), where
update number t gets the gradients `gw t`, `gb t` with entries `GW t`, `GB t`. -/
structure History (k : Nat) (w : Nat → World α) (op : Nat) (wm bm : Mat) (rw cw rb cb : Nat) (gw gb : Nat → Mat)
    (GW GB : Nat → Nat → Nat → α) : Prop where
  gradW : ∀ t, t < k → IsMat (w t) (gw t) rw cw (GW t)
  gradB : ∀ t, t < k → IsMat (w t) (gb t) rb cb (GB t)
  next : ∀ t, t < k → ∀ e u, optUpdate op (some wm) (some bm) (gw t) (gb t) (w t) = .ok (e, u) →
    Elsewhere op wm bm rw rb u (w (t + 1))

/-- All k updates of the history succeed, each changes nothing but the parameters and the optimizer object (in particular
not the gradients, unless they share storage with the parameters), and for each t ≤ k the parameters before update number
t are `W t`, `B t`. -/
structure Follows (k : Nat) (w : Nat → World α) (op : Nat) (wm bm : Mat) (rw cw rb cb : Nat) (gw gb : Nat → Mat)
    (W B : Nat → Nat → Nat → α) : Prop where
  params : ∀ t, t ≤ k → IsParams (w t) wm bm rw cw rb cb (W t) (B t)
  ok : ∀ t, t < k → ∃ u, optUpdate op (some wm) (some bm) (gw t) (gb t) (w t) = .ok (none, u) ∧
    Frame { flt := (w t).IsPRow wm bm rw rb, opt := fun a => a = op } (w t) u

/-- The learning rate of update number t. -/
def rateAt (lr decay : α) (t : Nat) : α :=
  if Flt.eq decay Flt.zero then lr else lr *. (Flt.one /. (Flt.one +. decay *. Flt.ofInt t))

/-- SGD without momentum: x ← x - g·rate. -/
def sgdSeq (lr decay : α) (X : Nat → Nat → α) (G : Nat → Nat → Nat → α) : Nat → Nat → Nat → α
  | 0 => X
  | t + 1 => fun i j => sgdSeq lr decay X G t i j -. G t i j *. rateAt lr decay t

/-- The velocity before update number t: zero at first, then v ← v·mu - g·rate. -/
def velSeq (lr decay mu : α) (G : Nat → Nat → Nat → α) : Nat → Nat → Nat → α
  | 0 => fun _ _ => Flt.zero
  | t + 1 => fun i j => velSeq lr decay mu G t i j *. mu -. G t i j *. rateAt lr decay t

/-- SGD with momentum: x ← x + v, with the velocity just computed. -/
def momSeq (lr decay mu : α) (X : Nat → Nat → α) (G : Nat → Nat → Nat → α) : Nat → Nat → Nat → α
  | 0 => X
  | t + 1 => fun i j => momSeq lr decay mu X G t i j +. velSeq lr decay mu G (t + 1) i j

/-- First moment: m ← m·b1 + g·(1-b1). -/
def m1Seq (b1 : α) (G : Nat → Nat → Nat → α) : Nat → Nat → Nat → α
  | 0 => fun _ _ => Flt.zero
  | t + 1 => fun i j => m1Seq b1 G t i j *. b1 +. G t i j *. (Flt.one -. b1)

/-- Second moment: v ← v·b2 + g²·(1-b2). -/
def m2Seq (b2 : α) (G : Nat → Nat → Nat → α) : Nat → Nat → Nat → α
  | 0 => fun _ _ => Flt.zero
  | t + 1 => fun i j => m2Seq b2 G t i j *. b2 +. Flt.pow (G t i j) (Flt.ofInt 2) *. (Flt.one -. b2)

/-- Adam with correction factors c1 for the first and c2 for the second moment. -/
def adamSeq (lr decay eps b1 b2 : α) (c1 c2 : Nat → α) (X : Nat → Nat → α) (G : Nat → Nat → Nat → α) :
    Nat → Nat → Nat → α
  | 0 => X
  | t + 1 => fun i j => adamSeq lr decay eps b1 b2 c1 c2 X G t i j +.
      Flt.neg (rateAt lr decay t) *. (m1Seq b1 G (t + 1) i j *. c1 t) /.
        (Flt.sqrt (m2Seq b2 G (t + 1) i j *. c2 t) +. eps)

/-- The factor 1/(1 - b^(t+1)). -/
def unbias (b : α) (t : Nat) : α := Flt.one /. (Flt.one -. Flt.pow b (Flt.ofInt (t + 1)))

end NN
