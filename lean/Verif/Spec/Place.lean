import Verif.Spec.State
import Verif.Lemmas.Mat
import Verif.Model.Network
import Verif.Model.Optimizers
/-
Concrete states, used in the non-vacuity examples beside the theorems: `place w r c V` adds an `r × c` matrix with
entries `V` to the state `w`, built directly (not through the modelled code).
-/

namespace NN
variable {α : Type}

/-- A state without any object. -/
def emptyWorld [Flt α] : World α where
  next := 1
  flt := fun _ => []
  outs := fun _ => []
  lay := fun _ => Layer.zero .linear
  opt := fun _ => Optim.zero .sgd
  norm := fun _ => Flt.one
  normPos := 0
  unif := fun _ => Flt.half
  unifPos := 0
  log := []
  logger := true

/-- The matrix added by `placeW`. -/
def placeM (w : World α) (r c : Nat) : Mat := ⟨r, c, ⟨w.next, 0, r, r⟩⟩

/-- The state after adding a matrix. -/
def placeW (w : World α) (r c : Nat) (V : Nat → Nat → α) : World α :=
  { w with
    next := w.next + 1 + r
    outs := upd w.outs w.next ((List.range r).map fun i => w.next + 1 + i)
    flt := fun a => if w.next + 1 ≤ a ∧ a < w.next + 1 + r then (List.range c).map (V (a - (w.next + 1)))
      else w.flt a }

theorem place_spec (w : World α) {r c : Nat} (V : Nat → Nat → α) (hr : 0 < r) (hc : 0 < c) :
    NewMat w (placeW w r c V) (placeM w r c) r c V := by
  have hrow : ∀ i, i < r → (placeW w r c V).rowAddr (placeM w r c) i = some (w.next + 1 + i) := by
    intro i hi; simp [World.rowAddr, placeW, placeM, hi]
  refine ⟨⟨rfl, rfl, rfl, hr, hc, ?_, ?_⟩, ?_, ?_, ?_, ?_, rfl, rfl⟩
  · simp [placeW, placeM]; omega
  · intro i hi
    refine ⟨w.next + 1 + i, hrow i hi, by simp [placeW, hi], ?_⟩
    simp [placeW, hi]
  · refine ⟨by simp [placeW]; omega, ?_, ?_, fun _ _ _ => rfl, fun _ _ _ => rfl, rfl, rfl, fun _ => rfl,
      fun _ => rfl, fun _ => rfl, rfl⟩
    · intro a ha _
      simp only [placeW]
      rw [if_neg (by omega)]
    · intro a ha _
      simp only [placeW]
      rw [upd_ne (by omega)]
  · simp [placeM]
  · rintro a ⟨i, hi, e⟩
    rw [hrow i hi] at e; cases e; omega
  · intro i j a hi hj h1 h2
    rw [hrow i hi] at h1
    rw [hrow j hj] at h2
    cases h1
    simp only [Option.some.injEq] at h2
    omega

/-- There is a state with one matrix of any given entries. -/
theorem exists_mat [Flt α] {r c : Nat} (hr : 0 < r) (hc : 0 < c) (A : Nat → Nat → α) :
    ∃ w : World α, ∃ m, IsMat w m r c A ∧ DistinctRows w m r :=
  ⟨_, _, (place_spec emptyWorld A hr hc).mat, (place_spec emptyWorld A hr hc).distinct⟩

/-- There is a state with two separate matrices of any given entries. -/
theorem exists_mat2 [Flt α] {r c r' c' : Nat} (hr : 0 < r) (hc : 0 < c) (hr' : 0 < r') (hc' : 0 < c')
    (A B : Nat → Nat → α) :
    ∃ w : World α, ∃ m b, IsMat w m r c A ∧ DistinctRows w m r ∧ IsMat w b r' c' B ∧ DistinctRows w b r' ∧
      (∀ a, w.IsRow m r a → ¬ w.IsRow b r' a) := by
  have h1 := place_spec emptyWorld A hr hc
  have h2 := place_spec (placeW emptyWorld r c A) B hr' hc'
  refine ⟨_, _, _, h1.mat.allocs h2.frame, ?_, h2.mat, h2.distinct, ?_⟩
  · exact h1.distinct.frame h2.frame h1.mat.addr_lt (fun h => h)
  · intro a ha hb
    have := h2.fresh a hb
    have := h1.mat.isRow_lt ((h1.mat.isRow_frame h2.frame (fun h => h) a).1 ha)
    omega

/-- There is a state with three separate matrices of any given entries. -/
theorem exists_mat3 [Flt α] {r c r' c' r'' c'' : Nat} (hr : 0 < r) (hc : 0 < c) (hr' : 0 < r') (hc' : 0 < c')
    (hr'' : 0 < r'') (hc'' : 0 < c'') (A B C : Nat → Nat → α) :
    ∃ w : World α, ∃ m b d, IsMat w m r c A ∧ IsMat w b r' c' B ∧ IsMat w d r'' c'' C := by
  have h1 := place_spec emptyWorld A hr hc
  have h2 := place_spec (placeW emptyWorld r c A) B hr' hc'
  have h3 := place_spec (placeW (placeW emptyWorld r c A) r' c' B) C hr'' hc''
  exact ⟨_, _, _, _, (h1.mat.allocs h2.frame).allocs h3.frame, h2.mat.allocs h3.frame, h3.mat⟩

end NN
