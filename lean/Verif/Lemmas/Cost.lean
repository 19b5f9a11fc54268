import Verif.Lemmas.Wlp
import Verif.Lemmas.ParseBad
import Verif.Spec.Memory
/-
How many float64 numbers a run allocates: the rules for sequences and loops, and for loaders a rule that weighs the bytes
read against the bytes allocated.
-/

set_option linter.unusedSectionVars false

namespace NN
variable {α β γ : Type}
open Go

/-- The step from `w` to `w'` allocated `k` numbers. -/
def Costs (w w' : World α) (k : Nat) : Prop := Clean w → Clean w' ∧ floats w' = floats w + k

theorem Costs.refl (w : World α) : Costs w w 0 := fun h => ⟨h, rfl⟩

theorem Costs.trans {w w1 w2 : World α} {k l : Nat} (h : Costs w w1 k) (h' : Costs w1 w2 l) : Costs w w2 (k + l) := by
  intro hc
  obtain ⟨c1, e1⟩ := h hc
  obtain ⟨c2, e2⟩ := h' c1
  exact ⟨c2, by omega⟩

theorem Costs.of_eq {w w' : World α} {k l : Nat} (h : Costs w w' k) (e : k = l) : Costs w w' l := e ▸ h

/-- A step that touches no array of numbers. -/
theorem Costs.none {w w' : World α} (hn : w'.next = w.next) (hf : w'.flt = w.flt) : Costs w w' 0 := by
  intro hc
  unfold Clean floats at *
  rw [hn, hf]
  exact ⟨hc, rfl⟩

/-- A step that places an object other than an array of numbers. -/
theorem Costs.obj {w w' : World α} (hn : w'.next = w.next + 1) (hf : w'.flt = w.flt) : Costs w w' 0 := by
  intro hc
  unfold Clean floats at *
  rw [hn, hf]
  refine ⟨fun a ha => hc a (by omega), ?_⟩
  rw [Finset.sum_range_succ, hc _ le_rfl]
  rfl

theorem cost_allocRow [Flt α] (n : Nat) (w : World α) : wlp (allocRow n) w (fun _ w' => Costs w w' n) := by
  intro b w' e
  cases e
  intro hc
  unfold Clean floats at *
  refine ⟨fun a ha => ?_, ?_⟩
  · dsimp only at ha ⊢
    rw [upd_ne (by omega)]
    exact hc a (by omega)
  · dsimp only
    rw [Finset.sum_range_succ, upd_same, List.length_replicate]
    congr 1
    refine Finset.sum_congr rfl fun a ha => ?_
    rw [upd_ne (by have := Finset.mem_range.1 ha; omega)]

theorem cost_allocOuter (n : Nat) (w : World α) : wlp (allocOuter n : Go α _) w (fun _ w' => Costs w w' 0) := by
  intro b w' e
  cases e
  exact Costs.obj rfl rfl

theorem cost_setRowRef (s : Slice) (i : Int) (r : Nat) (w : World α) :
    wlp (setRowRef s i r : Go α _) w (fun _ w' => Costs w w' 0) := by
  intro b w' e
  unfold setRowRef at e
  split at e
  · cases e; exact Costs.none rfl rfl
  · cases e

theorem cost_rowSet (r : Nat) (j : Int) (v : α) (w : World α) : wlp (rowSet r j v) w (fun _ w' => Costs w w' 0) := by
  intro b w' e
  unfold rowSet at e
  split at e
  · rename_i hj
    cases e
    intro hc
    unfold Clean floats at *
    have hr : r < w.next := by
      by_contra h
      rw [hc r (by omega)] at hj
      simp at hj
      omega
    refine ⟨fun a ha => ?_, ?_⟩
    · dsimp only at ha ⊢
      rw [upd_ne (by omega)]
      exact hc a ha
    · dsimp only
      refine Finset.sum_congr rfl fun a _ => ?_
      by_cases h : a = r
      · subst h
        rw [upd_same, List.length_set]
      · rw [upd_ne h]
  · cases e

theorem cost_setAt (m : Mat) (i j : Int) (v : α) (w : World α) : wlp (m.setAt i j v) w (fun _ w' => Costs w w' 0) := by
  unfold Mat.setAt
  refine wlp_bind (R := fun _ w' => w' = w) ?_ ?_
  · intro b w' e
    unfold rowRef at e
    split at e
    · split at e <;> cases e; rfl
    · cases e
  · rintro a w' rfl
    exact cost_rowSet _ _ _ _

theorem cost_forN {n : Nat} {body : Nat → Go α Unit} {w : World α} (k : Nat)
    (hs : ∀ i w', i < n → wlp (body i) w' (fun _ w'' => Costs w' w'' k)) :
    wlp (forN n body) w (fun _ w' => Costs w w' (n * k)) := by
  refine wlp_forN (fun i w' => Costs w w' (i * k)) ((Costs.refl w).of_eq (by omega)) ?_
  intro i w' hi h
  exact wlp_mono (hs i w' hi) fun _ w'' h' => (h.trans h').of_eq (by rw [Nat.succ_mul])

/-- NewMatrix allocates rows·cols numbers, or none if it refuses. -/
theorem cost_newMatrix [Flt α] (r c : Int) (w : World α) :
    wlp (newMatrix r c) w (fun p w' => (p.2 = none → 1 ≤ r ∧ 1 ≤ c ∧ Costs w w' (r.toNat * c.toNat)) ∧
      (p.2 ≠ none → Costs w w' 0)) := by
  unfold newMatrix
  by_cases h : r < 1 ∨ c < 1
  · rw [if_pos h]
    exact wlp_pure ⟨(fun h => by cases h), fun _ => Costs.refl w⟩
  · rw [if_neg h]
    refine wlp_bind (R := fun _ w' => Costs w w' 0) (cost_allocOuter _ _) ?_
    intro s w1 h1
    refine wlp_bind (R := fun _ w' => Costs w1 w' (r.toNat * c.toNat)) (cost_forN _ fun i w' _ => ?_) ?_
    · refine wlp_bind (cost_allocRow _ _) ?_
      intro a w2 h2
      exact wlp_mono (cost_setRowRef _ _ _ _) fun _ _ h3 => h2.trans h3
    · intro _ w2 h2
      exact wlp_pure ⟨fun _ => ⟨by omega, by omega, (h1.trans h2).of_eq (by omega)⟩, fun h => absurd rfl h⟩

/-! ### Loaders -/

/-- A loader that ends normally has allocated at most the bytes it has read plus `d`, and its result satisfies `P`; one
that ends with an error has allocated at most as many bytes as the buffer has, plus `E`. -/
def Pays (x : Rd α β) (P : β → Prop) (d E : Int) : Prop := ∀ buf w, wlp (x buf) w (fun p w' =>
  ∃ k, Costs w w' k ∧
    match p.1 with
    | .ok b => P b ∧ 8 * (k : Int) + p.2.length ≤ buf.length + d
    | .error _ => 8 * (k : Int) ≤ buf.length + E)

theorem Pays.mono {x : Rd α β} {P P' : β → Prop} {d d' E E' : Int} (h : Pays x P d E) (hP : ∀ b, P b → P' b) (hd : d ≤ d')
    (hE : E ≤ E') : Pays x P' d' E' := by
  intro buf w
  refine wlp_mono (h buf w) ?_
  rintro ⟨r, rest⟩ w' ⟨k, hk, h⟩
  refine ⟨k, hk, ?_⟩
  cases r with
  | ok b => exact ⟨hP _ h.1, by have := h.2; simp only at this ⊢; omega⟩
  | error e => simp only at h ⊢; omega

theorem Pays.pure {b : β} {P : β → Prop} (h : P b) : Pays (Pure.pure b : Rd α β) P 0 0 := by
  intro buf w
  exact wlp_pure ⟨0, Costs.refl w, h, by simp⟩

theorem Pays.fail {e : Err} {P : β → Prop} {d : Int} : Pays (Rd.fail e : Rd α β) P d 0 := by
  intro buf w
  exact wlp_pure ⟨0, Costs.refl w, by simp⟩

theorem Pays.bind {x : Rd α β} {f : β → Rd α γ} {P : β → Prop} {Q : γ → Prop} {d1 d2 d E1 E2 E : Int} (h : Pays x P d1 E1)
    (hf : ∀ b, P b → Pays (f b) Q d2 E2) (hd : d1 + d2 ≤ d) (h1 : E1 ≤ E) (h2 : d1 + E2 ≤ E) :
    Pays (x >>= f) Q d E := by
  intro buf w
  refine wlp_bind (h buf w) ?_
  rintro ⟨r, rest⟩ w1 ⟨k, hk, h⟩
  cases r with
  | error e =>
    refine wlp_pure ⟨k, hk, ?_⟩
    simp only at h ⊢
    omega
  | ok b =>
    simp only at h
    refine wlp_mono (hf b h.1 rest w1) ?_
    rintro ⟨r2, rest2⟩ w2 ⟨k2, hk2, h'⟩
    refine ⟨k + k2, hk.trans hk2, ?_⟩
    cases r2 with
    | error e => simp only at h' ⊢; push_cast; omega
    | ok c => exact ⟨h'.1, by have := h'.2; simp only at this ⊢; push_cast; omega⟩

theorem Pays.lift {x : Go α β} {P : β → Prop} (h : ∀ w, wlp x w (fun b w' => P b ∧ Costs w w' 0)) : Pays (Rd.lift x) P 0 0 := by
  intro buf w
  refine wlp_bind (h w) ?_
  intro b w' hb
  exact wlp_pure ⟨0, hb.2, hb.1, by simp⟩

theorem Pays.loop {n : Nat} {body : Nat → Rd α Unit} {k : Int} (hk : 0 ≤ k) (h : ∀ i, i < n → Pays (body i) (fun _ => True) (-k) 0) :
    Pays (Rd.loop n body) (fun _ => True) (-(k * n)) 0 := by
  induction n with
  | zero => exact (Pays.pure trivial).mono (fun _ h => h) (by simp) le_rfl
  | succ n ih =>
    unfold Rd.loop
    have : 0 ≤ k * n := mul_nonneg hk (Nat.cast_nonneg n)
    refine (ih fun i hi => h i (by omega)).bind (fun _ _ => h n (by omega)) ?_ le_rfl ?_
    · push_cast; rw [mul_add]; omega
    · omega

theorem Pays.loopAcc {n : Nat} {body : Nat → β → Rd α β} {b : β} {E : Int} (hE : 0 ≤ E)
    (h : ∀ i b, i < n → Pays (body i b) (fun _ => True) 0 E) :
    Pays (Rd.loopAcc n body b) (fun _ => True) 0 E := by
  induction n with
  | zero => exact (Pays.pure trivial).mono (fun _ h => h) (by simp) hE
  | succ n ih =>
    unfold Rd.loopAcc
    exact (ih fun i b hi => h i b (by omega)).bind (fun _ _ => h n _ (by omega)) (by omega) le_rfl (by omega)

theorem pays_readBuf (n : Int) : Pays (readBuf n : Rd α _) (fun _ => True) 0 0 := by
  intro buf w
  unfold readBuf
  split
  · exact wlp_panic
  · split
    · exact wlp_pure ⟨0, Costs.refl w, by simp⟩
    · exact wlp_pure ⟨0, Costs.refl w, trivial, by simp⟩

theorem pays_readFull (n : Nat) : Pays (readFull n : Rd α _) (fun _ => True) (-n) 0 := by
  intro buf w
  unfold readFull
  split
  · exact wlp_pure ⟨0, Costs.refl w, by simp⟩
  · refine wlp_pure ⟨0, Costs.refl w, trivial, ?_⟩
    simp
    omega

theorem pays_readInt8 : Pays (readInt8 : Rd α _) (fun _ => True) (-1) 0 :=
  (pays_readFull 1).bind (fun _ _ => Pays.pure trivial) (by simp) le_rfl (by simp)

theorem pays_readInt32 : Pays (readInt32 : Rd α _) (fun n => n < 2 ^ 31) (-4) 0 := by
  refine (pays_readFull 4).bind (fun n _ => Pays.pure ?_) (by simp) le_rfl (by simp)
  have := BitVec.toInt_lt (x := BitVec.ofNat 32 n)
  simpa using this

theorem pays_readFlt [Flt α] [FltBits α] : Pays (readFlt : Rd α _) (fun _ => True) (-8) 0 :=
  (pays_readFull 8).bind (fun _ _ => Pays.pure trivial) (by simp) le_rfl (by simp)

theorem pays_newMatrix [Flt α] (r c : Int) :
    Pays (newMatrixRd r c : Rd α _) (fun _ => 1 ≤ r ∧ 1 ≤ c) (8 * (r.toNat * c.toNat)) 0 := by
  intro buf w
  unfold newMatrixRd
  refine wlp_bind (R := fun p w' => p.2 = buf ∧ ∃ m : Mat × Option Err, p.1 = .ok m ∧
    (m.2 = none → 1 ≤ r ∧ 1 ≤ c ∧ Costs w w' (r.toNat * c.toNat)) ∧ (m.2 ≠ none → Costs w w' 0)) ?_ ?_
  · refine wlp_bind (cost_newMatrix r c w) ?_
    intro m w' h
    exact wlp_pure ⟨rfl, m, rfl, h⟩
  · rintro ⟨p, rest⟩ w' ⟨hr, ⟨m, err⟩, hp, h1, h2⟩
    dsimp only at hr hp
    subst hr hp
    cases err with
    | none =>
      obtain ⟨a, b, hc⟩ := h1 rfl
      exact wlp_pure ⟨_, hc, ⟨a, b⟩, by push_cast; omega⟩
    | some e => exact wlp_pure ⟨0, h2 (fun h => by cases h), by simp⟩

end NN
