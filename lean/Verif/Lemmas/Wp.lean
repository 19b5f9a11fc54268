import Verif.Model.Go
import Mathlib.Tactic.Ring
import Mathlib.Tactic.Linarith
/-
A small program logic for the `Go` monad.  `wp x w Q`: started in state `w`, the computation `x` does not panic,
and its result and final state satisfy `Q`.
-/

namespace NN
variable {α β γ : Type}
open Go

/-- `x` run from `w` returns normally (no panic) with a result and final state satisfying `Q`. -/
def wp (x : Go α β) (w : World α) (Q : β → World α → Prop) : Prop :=
  match x w with
  | .ok (b, w') => Q b w'
  | .error _ => False

/-- `x` run from `w` panics. -/
def Panics (x : Go α β) (w : World α) : Prop := ∃ p, x w = .error p

theorem wp_iff {x : Go α β} {w : World α} {Q : β → World α → Prop} :
    wp x w Q ↔ ∃ b w', x w = .ok (b, w') ∧ Q b w' := by
  unfold wp
  cases h : x w with
  | error p => simp
  | ok p => obtain ⟨b, w'⟩ := p; simp

theorem wp_not_panics {x : Go α β} {w : World α} {Q} (h : wp x w Q) : ¬ Panics x w := by
  rintro ⟨p, hp⟩
  simp [wp, hp] at h

theorem wp_mono {x : Go α β} {w : World α} {Q Q' : β → World α → Prop}
    (h : wp x w Q) (hQ : ∀ b w', Q b w' → Q' b w') : wp x w Q' := by
  rw [wp_iff] at *
  obtain ⟨b, w', e, q⟩ := h
  exact ⟨b, w', e, hQ _ _ q⟩

theorem wp_and {x : Go α β} {w : World α} {Q Q' : β → World α → Prop}
    (h : wp x w Q) (h' : wp x w Q') : wp x w (fun b w' => Q b w' ∧ Q' b w') := by
  rw [wp_iff] at *
  obtain ⟨b, w', e, q⟩ := h
  obtain ⟨b2, w2, e2, q2⟩ := h'
  rw [e] at e2; cases e2
  exact ⟨b, w', e, q, q2⟩

@[simp] theorem wp_pure {b : β} {w : World α} {Q : β → World α → Prop} :
    wp (pure b : Go α β) w Q ↔ Q b w := Iff.rfl

@[simp] theorem wp_bind {x : Go α β} {f : β → Go α γ} {w : World α} {Q : γ → World α → Prop} :
    wp (x >>= f) w Q ↔ wp x w (fun b w' => wp (f b) w' Q) := by
  show wp (Go.bind x f) w Q ↔ _
  unfold wp Go.bind
  cases h : x w with
  | error p => simp
  | ok p => obtain ⟨b, w'⟩ := p; simp

@[simp] theorem wp_panic {p : Panic} {w : World α} {Q : β → World α → Prop} :
    wp (Go.panic p : Go α β) w Q ↔ False := Iff.rfl

theorem wp_bind_mono {x : Go α β} {f : β → Go α γ} {w : World α} {R : β → World α → Prop}
    {Q : γ → World α → Prop} (h : wp x w R) (hf : ∀ b w', R b w' → wp (f b) w' Q) : wp (x >>= f) w Q := by
  rw [wp_bind]; exact wp_mono h hf

theorem wp_of_ok {x : Go α β} {w w' : World α} {b : β} {Q : β → World α → Prop} (h : x w = .ok (b, w'))
    (hQ : Q b w') : wp x w Q := wp_iff.2 ⟨b, w', h, hQ⟩

theorem wp_bind_ok {x : Go α β} {f : β → Go α γ} {w w' : World α} {b : β} {Q : γ → World α → Prop}
    (h : x w = .ok (b, w')) (hf : wp (f b) w' Q) : wp (x >>= f) w Q := by
  rw [wp_bind]; exact wp_of_ok h hf

theorem bind_ok {x : Go α β} {f : β → Go α γ} {w w' : World α} {b : β} (h : x w = .ok (b, w')) :
    (x >>= f) w = f b w' := by
  show Go.bind x f w = _
  simp [Go.bind, h]

theorem bind_error {x : Go α β} {f : β → Go α γ} {w : World α} {p : Panic} (h : x w = .error p) :
    (x >>= f) w = .error p := by
  show Go.bind x f w = _
  simp [Go.bind, h]

theorem pure_run {b : β} {w : World α} : (pure b : Go α β) w = .ok (b, w) := rfl

instance : LawfulMonad (Go α) := LawfulMonad.mk'
  (id_map := by intro _ x; funext w; show Go.bind x _ w = _; unfold Go.bind; rcases x w with _ | ⟨b, w'⟩ <;> rfl)
  (pure_bind := by intros; rfl)
  (bind_assoc := by
    intro _ _ _ x f g; funext w
    show Go.bind (Go.bind x f) g w = Go.bind x (fun b => Go.bind (f b) g) w
    unfold Go.bind; rcases x w with _ | ⟨b, w'⟩ <;> rfl)
  (map_const := by intros; rfl)
  (bind_pure_comp := by intros; rfl)
  (bind_map := by intros; rfl)

/-! ### Loops -/

theorem wp_forN {n : Nat} {body : Nat → Go α Unit} {w : World α} (Inv : Nat → World α → Prop)
    (h0 : Inv 0 w) (hs : ∀ k w', k < n → Inv k w' → wp (body k) w' (fun _ w'' => Inv (k + 1) w'')) :
    wp (forN n body) w (fun _ w' => Inv n w') := by
  induction n with
  | zero => exact h0
  | succ n ih =>
    unfold forN
    rw [wp_bind]
    refine wp_mono (ih fun k w' hk => hs k w' (by omega)) ?_
    intro _ w' hw'
    exact hs n w' (by omega) hw'

theorem wp_foldN {n : Nat} {body : Nat → β → Go α β} {b : β} {w : World α} (Inv : Nat → β → World α → Prop)
    (h0 : Inv 0 b w)
    (hs : ∀ k b' w', k < n → Inv k b' w' → wp (body k b') w' (fun b'' w'' => Inv (k + 1) b'' w'')) :
    wp (foldN n body b) w (fun b' w' => Inv n b' w') := by
  induction n with
  | zero => exact h0
  | succ n ih =>
    unfold foldN
    rw [wp_bind]
    refine wp_mono (ih fun k b' w' hk => hs k b' w' (by omega)) ?_
    intro _ w' hw'
    exact hs n _ w' (by omega) hw'

/-- The accumulator of a loop that only reads the state. -/
def accN : Nat → (Nat → β → β) → β → β
  | 0, _, b => b
  | n + 1, f, b => f n (accN n f b)

theorem wp_foldN_read {n : Nat} {body : Nat → β → Go α β} {b : β} {w : World α} (f : Nat → β → β)
    (hs : ∀ k b', k < n → wp (body k b') w (fun b'' w'' => b'' = f k b' ∧ w'' = w)) :
    wp (foldN n body b) w (fun b' w' => b' = accN n f b ∧ w' = w) := by
  refine wp_foldN (fun k b' w' => b' = accN k f b ∧ w' = w) ⟨rfl, rfl⟩ ?_
  rintro k b' w' hk ⟨rfl, rfl⟩
  refine wp_mono (hs k _ hk) ?_
  rintro b'' w'' ⟨rfl, rfl⟩
  exact ⟨rfl, rfl⟩

theorem accN_congr {n : Nat} {f g : Nat → β → β} {b : β} (h : ∀ k < n, ∀ x, f k x = g k x) :
    accN n f b = accN n g b := by
  induction n with
  | zero => rfl
  | succ n ih =>
    simp only [accN]
    rw [ih fun k hk => h k (by omega), h n (by omega)]

/-- Loops with early return: either no iteration returned, or some iteration did (and the earlier ones did not). -/
theorem wp_forRet {n : Nat} {body : Nat → Go α (Option β)} {w : World α} (Inv : Nat → World α → Prop)
    (Out : β → World α → Prop) (h0 : Inv 0 w)
    (hs : ∀ k w', k < n → Inv k w' → wp (body k) w' (fun r w'' =>
      match r with | none => Inv (k + 1) w'' | some b => Out b w'')) :
    wp (forRet n body) w (fun r w' => match r with | none => Inv n w' | some b => Out b w') := by
  induction n with
  | zero => exact h0
  | succ n ih =>
    unfold forRet
    rw [wp_bind]
    refine wp_mono (ih fun k w' hk => hs k w' (by omega)) ?_
    intro r w' hr
    cases r with
    | some b => exact hr
    | none => exact hs n w' (by omega) hr

theorem wp_forRet_none {n : Nat} {body : Nat → Go α (Option β)} {w : World α} (Inv : Nat → World α → Prop)
    (h0 : Inv 0 w)
    (hs : ∀ k w', k < n → Inv k w' → wp (body k) w' (fun r w'' => r = none ∧ Inv (k + 1) w'')) :
    wp (forRet n body) w (fun r w' => r = none ∧ Inv n w') := by
  refine wp_mono (wp_forRet Inv (fun _ _ => False) h0 fun k w' hk hi => wp_mono (hs k w' hk hi) ?_) ?_
  · rintro r w'' ⟨rfl, h⟩; exact h
  · intro r w'' h
    cases r with
    | none => exact ⟨rfl, h⟩
    | some b => exact h.elim

/-- A loop with an invariant panics when some iteration is certain to. -/
theorem forN_panics {n : Nat} {body : Nat → Go α Unit} {w : World α} (Inv : Nat → World α → Prop) (h0 : Inv 0 w)
    (hs : ∀ k w', k < n → Inv k w' → wp (body k) w' (fun _ w'' => Inv (k + 1) w'') ∨ Panics (body k) w')
    (hbad : ∃ k, k < n ∧ ∀ w', Inv k w' → Panics (body k) w') : Panics (forN n body) w := by
  have key : ∀ n', n' ≤ n → wp (forN n' body) w (fun _ w' => Inv n' w') ∨ Panics (forN n' body) w := by
    intro n' hn'
    induction n' with
    | zero => exact .inl h0
    | succ n' ih =>
      unfold forN
      rcases ih (by omega) with h | ⟨p, h⟩
      · rw [wp_iff] at h
        obtain ⟨b, w1, e, hi⟩ := h
        rcases hs n' w1 (by omega) hi with h | ⟨p, h⟩
        · exact .inl (wp_bind_ok e h)
        · exact .inr ⟨p, (bind_ok e).trans h⟩
      · exact .inr ⟨p, bind_error h⟩
  obtain ⟨k, hk, hb⟩ := hbad
  have hk1 : Panics (forN (k + 1) body) w := by
    unfold forN
    rcases key k (by omega) with h | ⟨p, h⟩
    · rw [wp_iff] at h
      obtain ⟨b, w1, e, hi⟩ := h
      obtain ⟨p, h⟩ := hb w1 hi
      exact ⟨p, (bind_ok e).trans h⟩
    · exact ⟨p, bind_error h⟩
  have up : ∀ d, Panics (forN (k + 1 + d) body) w := by
    intro d
    induction d with
    | zero => exact hk1
    | succ d ih =>
      obtain ⟨p, h⟩ := ih
      exact ⟨p, by rw [show k + 1 + (d + 1) = (k + 1 + d) + 1 from rfl]; unfold forN; exact bind_error h⟩
  have := up (n - (k + 1))
  rwa [show k + 1 + (n - (k + 1)) = n by omega] at this

/-! ### Primitives -/

@[simp] theorem upd_same {f : Nat → β} {a : Nat} {b : β} : upd f a b a = b := by simp [upd]
theorem upd_ne {f : Nat → β} {a x : Nat} {b : β} (h : x ≠ a) : upd f a b x = f x := by simp [upd, h]

@[simp] theorem wp_deref_some {p : β} {w : World α} {Q : β → World α → Prop} :
    wp (deref (some p)) w Q ↔ Q p w := Iff.rfl

theorem wp_listGet {xs : List β} {i : Nat} {x : β} {w : World α} {Q : β → World α → Prop}
    (h : xs[i]? = some x) : wp (listGet xs (i : Int)) w Q ↔ Q x w := by
  simp [listGet, h]

end NN
