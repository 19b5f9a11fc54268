import Verif.Lemmas.Wlp
/-
Partial-correctness frame rules for the functions used by `Fit`: for arbitrary, possibly malformed arguments, what can
have been written when the function returns normally.
-/

set_option linter.unusedSectionVars false

namespace NN
variable {α β γ : Type}
open Go

/-- `x` only reads. -/
def RO (x : Go α β) : Prop := ∀ w b w', x w = .ok (b, w') → w' = w

theorem wlp_ro_bind {x : Go α β} (hx : RO x) {k : β → Go α γ} {w : World α} {Q : γ → World α → Prop}
    (h : ∀ v, wlp (k v) w Q) : wlp (x >>= k) w Q := by
  refine wlp_bind (R := fun _ w' => w' = w) (fun b w' e => hx w b w' e) ?_
  rintro v w' rfl
  exact h v

theorem RO.pure (b : β) : RO (pure b : Go α β) := fun _ _ _ e => by cases e; rfl

theorem RO.panic (p : Panic) : RO (Go.panic p : Go α β) := fun _ _ _ e => by cases e

theorem RO.bind {x : Go α β} {k : β → Go α γ} (hx : RO x) (hk : ∀ b, RO (k b)) : RO (x >>= k) := by
  intro w b w' e
  exact wlp_ro_bind (Q := fun _ w' => w' = w) hx (fun v b' w'' e' => hk v w b' w'' e') b w' e

theorem RO.deref (p : Option β) : RO (deref p : Go α β) := by
  unfold NN.deref
  split
  · exact .pure _
  · exact .panic _

theorem RO.listGet (xs : List β) (i : Int) : RO (listGet xs i : Go α β) := by
  unfold NN.listGet
  split
  · split
    · exact .pure _
    · exact .panic _
  · exact .panic _

theorem RO.rowRef (s : Slice) (i : Int) : RO (rowRef s i : Go α Nat) := by
  intro w b w' e
  unfold NN.rowRef at e
  split at e
  · split at e <;> cases e; rfl
  · cases e

theorem RO.rowGet (r : Nat) (j : Int) : RO (rowGet r j : Go α α) := by
  intro w b w' e
  unfold NN.rowGet at e
  split at e
  · split at e <;> cases e; rfl
  · cases e

theorem RO.rowLen (r : Nat) : RO (rowLen r : Go α Int) := fun w b w' e => by cases e; rfl

theorem RO.reslice (s : Slice) (lo hi : Int) : RO (reslice s lo hi : Go α Slice) := by
  intro w b w' e
  unfold NN.reslice at e
  split at e <;> cases e; rfl

theorem RO.layGet (lp : Nat) : RO (layGet lp : Go α (Layer α)) := fun w b w' e => by cases e; rfl

theorem RO.optGet (lp : Nat) : RO (optGet lp : Go α (Optim α)) := fun w b w' e => by cases e; rfl

theorem wlp_layGet_bind {lp : Nat} {k : Layer α → Go α γ} {w : World α} {Q : γ → World α → Prop}
    (h : wlp (k (w.lay lp)) w Q) : wlp (layGet lp >>= k) w Q := by
  refine wlp_bind (R := fun l w' => l = w.lay lp ∧ w' = w) (fun _ _ e => by cases e; exact ⟨rfl, rfl⟩) ?_
  rintro _ w' ⟨rfl, rfl⟩
  exact h

theorem wlp_deref_bind {p : Option β} {k : β → Go α γ} {w : World α} {Q : γ → World α → Prop}
    (h : ∀ v, p = some v → wlp (k v) w Q) : wlp (deref p >>= k) w Q := by
  cases p with
  | none => exact wlp_bind (R := fun _ _ => False) wlp_panic fun _ _ h => h.elim
  | some v =>
    refine wlp_bind (R := fun b w' => b = v ∧ w' = w) (wlp_pure ⟨rfl, rfl⟩) ?_
    rintro b w' ⟨rfl, rfl⟩
    exact h b rfl

theorem wlp_listGet_bind {xs : List β} {i : Int} {k : β → Go α γ} {w : World α} {Q : γ → World α → Prop}
    (h : ∀ v, 0 ≤ i → xs[i.toNat]? = some v → wlp (k v) w Q) : wlp (listGet xs i >>= k) w Q := by
  unfold listGet
  split
  · split
    · rename_i hi _ v hv
      exact wlp_bind (R := fun b w' => b = v ∧ w' = w) (wlp_pure ⟨rfl, rfl⟩) fun b w' hb => by
        obtain ⟨rfl, rfl⟩ := hb
        exact h b hi hv
    · exact wlp_bind (R := fun _ _ => False) wlp_panic fun _ _ h => h.elim
  · exact wlp_bind (R := fun _ _ => False) wlp_panic fun _ _ h => h.elim

theorem wlp_optGet_bind {op : Nat} {k : Optim α → Go α γ} {w : World α} {Q : γ → World α → Prop}
    (h : wlp (k (w.opt op)) w Q) : wlp (optGet op >>= k) w Q := by
  refine wlp_bind (R := fun l w' => l = w.opt op ∧ w' = w) (fun _ _ e => by cases e; exact ⟨rfl, rfl⟩) ?_
  rintro _ w' ⟨rfl, rfl⟩
  exact h

variable [Flt α]

theorem RO.newMatrixFromSlice (s : Slice) : RO (newMatrixFromSlice s : Go α (Mat × Option Err)) := by
  unfold NN.newMatrixFromSlice
  dsimp only
  split
  · exact .pure _
  refine (RO.rowRef _ _).bind fun _ => (RO.rowLen _).bind fun _ => ?_
  split <;> exact .pure _

theorem RO.getRow (m : Mat) (i : Int) : RO (m.getRow i : Go α (Option Nat × Option Err)) := by
  unfold Mat.getRow
  split
  · exact .pure _
  exact (RO.rowRef _ _).bind fun _ => .pure _

theorem RO.fusedLast (m : Model α) (i : Int) : RO (fusedLast m i) := by
  unfold NN.fusedLast
  exact (RO.listGet _ _).bind fun _ => (RO.layGet _).bind fun _ => .pure _

/-! ### Loops over the entries of a matrix -/

variable {f : Foot} {w0 w : World α} {ms : List Mat}

theorem wlp_loop2 {r c : Nat} {body : Nat → Nat → Go α Unit} (h : Since f w0 w ms)
    (hs : ∀ i j w', Since f w0 w' ms → wlp (body i j) w' (fun _ w'' => Since f w0 w'' ms)) :
    wlp (forN r fun i => forN c fun j => body i j) w (fun _ w' => Since f w0 w' ms) :=
  wlp_forN_since h fun i _ h2 => wlp_forN_since h2 fun j w3 h3 => hs i j w3 h3

theorem wlp_add {a b : Mat} (h : Since f w0 w ms) :
    wlp (a.add b) w (fun p w' => Since f w0 w' (p.1 :: ms)) := by
  unfold Mat.add
  split
  · exact wlp_pure h.zero
  refine wlp_bind (wlp_newMatrix h) ?_
  rintro ⟨ans, e⟩ w1 h1
  dsimp only at h1 ⊢
  refine wlp_bind (wlp_loop2 h1 fun i j w3 h3 =>
    wlp_at_bind fun _ => wlp_at_bind fun _ => wlp_setAt h3 List.mem_cons_self) ?_
  rintro _ w2 h2
  exact wlp_pure h2

theorem wlp_mulScalar {a : Mat} {x : α} (h : Since f w0 w ms) :
    wlp (a.mulScalar x) w (fun p w' => Since f w0 w' (p :: ms)) := by
  unfold Mat.mulScalar
  refine wlp_bind (wlp_newMatrix h) ?_
  rintro ⟨ans, e⟩ w1 h1
  dsimp only at h1 ⊢
  refine wlp_bind (wlp_loop2 h1 fun i j w3 h3 => wlp_at_bind fun _ => wlp_setAt h3 List.mem_cons_self) ?_
  rintro _ w2 h2
  exact wlp_pure h2

theorem wlp_powScalar {a : Mat} {x : α} (h : Since f w0 w ms) :
    wlp (a.powScalar x) w (fun p w' => Since f w0 w' (p :: ms)) := by
  unfold Mat.powScalar
  refine wlp_bind (wlp_newMatrix h) ?_
  rintro ⟨ans, e⟩ w1 h1
  dsimp only at h1 ⊢
  refine wlp_bind (wlp_loop2 h1 fun i j w3 h3 => wlp_at_bind fun _ => wlp_setAt h3 List.mem_cons_self) ?_
  rintro _ w2 h2
  exact wlp_pure h2

theorem wlp_dot {a b : Mat} (h : Since f w0 w ms) :
    wlp (a.dot b) w (fun p w' => Since f w0 w' (p.1 :: ms)) := by
  unfold Mat.dot
  split
  · exact wlp_pure h.zero
  refine wlp_bind (wlp_newMatrix h) ?_
  rintro ⟨ans, e⟩ w1 h1
  dsimp only at h1 ⊢
  refine wlp_bind (wlp_loop2 h1 fun i j w3 h3 => wlp_bind (wlp_foldN_since h3 fun n b w4 h4 =>
    wlp_at_bind fun _ => wlp_at_bind fun _ => wlp_pure h4) fun _ w4 h4 => wlp_setAt h4 List.mem_cons_self) ?_
  rintro _ w2 h2
  exact wlp_pure h2

theorem wlp_t {a : Mat} (h : Since f w0 w ms) :
    wlp (a.t) w (fun p w' => Since f w0 w' (p :: ms) ∧ NewOuter w0 p) := by
  unfold Mat.t
  refine wlp_bind (wlp_newMatrix' h) ?_
  rintro ⟨ans, e⟩ w1 ⟨h1, ho⟩
  dsimp only at h1 ho ⊢
  refine wlp_bind (wlp_forN_since h1 fun i w2 h2 => wlp_ro_bind (RO.getRow _ _) fun v => ?_) ?_
  · obtain ⟨c, e⟩ := v
    dsimp only
    refine wlp_bind (R := fun _ w' => Since f w0 w' (ans :: ms)) ?_ fun _ _ h3 => wlp_pure h3
    unfold Mat.setColumnOpt
    split
    · unfold Mat.setColumn
      split
      · exact wlp_pure h2
      refine wlp_ro_bind (RO.rowLen _) fun n => ?_
      split
      · exact wlp_pure h2
      refine wlp_bind (wlp_forN_since h2 fun i w3 h3 => wlp_ro_bind (RO.rowGet _ _) fun _ =>
        wlp_setAt h3 List.mem_cons_self) fun _ _ h3 => wlp_pure h3
    · exact wlp_pure h2
  · rintro _ w2 h2
    exact wlp_pure ⟨h2, ho⟩

theorem wlp_sum' {a : Mat} {ax : Int} (h : Since f w0 w ms) :
    wlp (a.sum ax) w (fun p w' => Since f w0 w' (p :: ms)) := by
  unfold Mat.sum
  by_cases h0 : ax = 0
  · rw [if_pos h0]
    dsimp only
    split
    · exact wlp_bind (R := fun _ _ => False) wlp_panic fun _ _ h => h.elim
    refine wlp_bind (wlp_newMatrix h) ?_
    rintro ⟨ans, e⟩ w1 h1
    dsimp only at h1 ⊢
    refine wlp_bind (wlp_forN_since h1 fun i w2 h2 => wlp_bind (wlp_foldN_since h2 fun j b w3 h3 =>
      wlp_at_bind fun _ => wlp_pure h3) fun _ w3 h3 => wlp_setAt h3 List.mem_cons_self) ?_
    rintro _ w2 h2
    exact wlp_pure h2
  · rw [if_neg h0]
    dsimp only
    split
    · exact wlp_bind (R := fun _ _ => False) wlp_panic fun _ _ h => h.elim
    refine wlp_bind (wlp_newMatrix h) ?_
    rintro ⟨ans, e⟩ w1 h1
    dsimp only at h1 ⊢
    refine wlp_bind (wlp_forN_since h1 fun i w2 h2 => wlp_bind (wlp_foldN_since h2 fun j b w3 h3 =>
      wlp_at_bind fun _ => wlp_pure h3) fun _ w3 h3 => wlp_setAt h3 List.mem_cons_self) ?_
    rintro _ w2 h2
    exact wlp_pure h2

/-! ### Activation functions (in place) -/

theorem wlp_relu {a : Mat} (h : Since f w0 w ms) (ha : a ∈ ms) :
    wlp (relu a) w (fun p w' => p = a ∧ Since f w0 w' ms) := by
  unfold relu
  exact wlp_bind (wlp_loop2 h fun i j w3 h3 => wlp_at_bind fun _ => wlp_setAt h3 ha) fun _ w2 h2 => wlp_pure ⟨rfl, h2⟩

theorem wlp_sigmoid {a : Mat} (h : Since f w0 w ms) (ha : a ∈ ms) :
    wlp (sigmoid a) w (fun p w' => p = a ∧ Since f w0 w' ms) := by
  unfold sigmoid
  exact wlp_bind (wlp_loop2 h fun i j w3 h3 => wlp_at_bind fun _ => wlp_setAt h3 ha) fun _ w2 h2 => wlp_pure ⟨rfl, h2⟩

theorem wlp_leakyRelu {a : Mat} {s : α} (h : Since f w0 w ms) (ha : a ∈ ms) :
    wlp (leakyRelu a s) w (fun p w' => p = a ∧ Since f w0 w' ms) := by
  unfold leakyRelu
  refine wlp_bind (wlp_loop2 h fun i j w3 h3 => wlp_at_bind fun _ => ?_) fun _ w2 h2 => wlp_pure ⟨rfl, h2⟩
  split
  · exact wlp_at_bind fun _ => wlp_setAt h3 ha
  · exact wlp_pure h3

theorem wlp_softmax {a : Mat} (h : Since f w0 w ms) (ha : a ∈ ms) :
    wlp (softmax a) w (fun p w' => p = a ∧ Since f w0 w' ms) := by
  unfold softmax
  refine wlp_bind (wlp_forN_since h fun i w1 h1 => ?_) fun _ w2 h2 => wlp_pure ⟨rfl, h2⟩
  refine wlp_bind (wlp_foldN_since h1 fun j b w2 h2 => wlp_at_bind fun _ => ?_) fun _ w2 h2 => ?_
  · exact wlp_bind (wlp_setAt h2 ha) fun _ w3 h3 => wlp_at_bind fun _ => wlp_pure h3
  · exact wlp_forN_since h2 fun j w3 h3 => wlp_at_bind fun _ => wlp_setAt h3 ha

theorem wlp_reluPrime {a x : Mat} (h : Since f w0 w ms) (ha : a ∈ ms) :
    wlp (reluPrime a x) w (fun p w' => p = a ∧ Since f w0 w' ms) := by
  unfold reluPrime
  refine wlp_bind (wlp_loop2 h fun i j w3 h3 => wlp_at_bind fun _ => ?_) fun _ w2 h2 => wlp_pure ⟨rfl, h2⟩
  split
  · exact wlp_setAt h3 ha
  · exact wlp_pure h3

theorem wlp_leakyReluPrime {a x : Mat} {s : α} (h : Since f w0 w ms) (ha : a ∈ ms) :
    wlp (leakyReluPrime a x s) w (fun p w' => p = a ∧ Since f w0 w' ms) := by
  unfold leakyReluPrime
  refine wlp_bind (wlp_loop2 h fun i j w3 h3 => wlp_at_bind fun _ => ?_) fun _ w2 h2 => wlp_pure ⟨rfl, h2⟩
  split
  · exact wlp_at_bind fun _ => wlp_setAt h3 ha
  · exact wlp_pure h3

theorem wlp_sigmoidPrime {a d : Mat} (h : Since f w0 w ms) (ha : a ∈ ms) :
    wlp (sigmoidPrime a d) w (fun p w' => p = a ∧ Since f w0 w' ms) := by
  unfold sigmoidPrime
  refine wlp_bind (wlp_sigmoid h ha) ?_
  rintro _ w1 ⟨rfl, h1⟩
  exact wlp_bind (wlp_loop2 h1 fun i j w3 h3 => wlp_at_bind fun _ => wlp_at_bind fun _ => wlp_at_bind fun _ =>
    wlp_setAt h3 ha) fun _ w2 h2 => wlp_pure ⟨rfl, h2⟩

/-! ### Objects -/

/-- A layer object in the footprint is given new remembered matrices. -/
theorem wlp_laySet {lp : Nat} {l : Layer α} (h : Since f w0 w ms) (hf : f.lay lp)
    (hl : lp < w0.next → l.static = (w0.lay lp).static) : wlp (laySet lp l) w (fun _ w' => Since f w0 w' ms) := by
  intro b w' e
  cases e
  have hf' := h.frame
  refine ⟨⟨hf'.next_le, hf'.flt, hf'.outs, ?_, hf'.opt, hf'.norm, hf'.unif, hf'.normPos, hf'.unifPos, hf'.log,
    hf'.logger⟩, ?_, h.len, fun m hm => ⟨(h.mats m hm).lt, (h.mats m hm).rows⟩⟩
  · intro a ha hna
    exact (upd_ne (show a ≠ lp by rintro rfl; exact hna hf)).trans (hf'.lay a ha hna)
  · intro a ha
    by_cases e : a = lp
    · subst e
      exact (congrArg Layer.static (upd_same ..)).trans (hl ha)
    · exact (congrArg Layer.static (upd_ne e)).trans (h.stat a ha)

/-- An optimizer in the footprint is given new contents. -/
theorem wlp_optSet {op : Nat} {o : Optim α} (h : Since f w0 w ms) (hf : f.opt op) :
    wlp (optSet op o) w (fun _ w' => Since f w0 w' ms) := by
  intro b w' e
  cases e
  have hf' := h.frame
  refine h.step ⟨hf'.next_le, hf'.flt, hf'.outs, hf'.lay, ?_, hf'.norm, hf'.unif, hf'.normPos, hf'.unifPos, hf'.log,
    hf'.logger⟩ le_rfl (fun _ _ => rfl) (fun _ _ => rfl) (fun _ _ => rfl)
  intro a ha hna
  exact (upd_ne (show a ≠ op by rintro rfl; exact hna hf)).trans (hf'.opt a ha hna)

theorem wlp_drawUnif (h : Since f w0 w ms) (hu : f.unif) :
    wlp (drawUnif : Go α α) w (fun _ w' => Since f w0 w' ms) := by
  intro b w' e
  cases e
  have hf' := h.frame
  exact h.step ⟨hf'.next_le, hf'.flt, hf'.outs, hf'.lay, hf'.opt, hf'.norm, hf'.unif, hf'.normPos,
    fun h => absurd hu h, hf'.log, hf'.logger⟩ le_rfl (fun _ _ => rfl) (fun _ _ => rfl) (fun _ _ => rfl)

theorem wlp_binomialRand {n : Nat} {P : α} (h : Since f w0 w ms) (hu : f.unif) :
    wlp (binomialRand n P) w (fun _ w' => Since f w0 w' ms) := by
  unfold binomialRand
  dsimp only
  generalize (if Flt.lt Flt.half P then Flt.one -. P else P) = p
  refine wlp_bind (wlp_foldN_since h fun j b w2 h2 => wlp_bind (wlp_drawUnif h2 hu) fun u w3 h3 => ?_) fun _ w2 h2 => ?_
  · split <;> exact wlp_pure h3
  · split <;> exact wlp_pure h2

/-! ### Forward passes -/

theorem wlp_affine {l : Layer α} {x : Mat} (h : Since f w0 w ms) :
    wlp (affine l x) w (fun p w' => Since f w0 w' (p.1 :: ms)) := by
  unfold affine
  split
  · exact wlp_pure h.zero
  refine wlp_ro_bind (RO.deref _) fun wm => wlp_bind (wlp_dot h) ?_
  rintro ⟨out, e⟩ w1 h1
  dsimp only at h1 ⊢
  split
  · exact wlp_pure h1.tail.zero
  refine wlp_bind (wlp_loop2 h1 fun i j w3 h3 => wlp_at_bind fun _ => wlp_ro_bind (RO.deref _) fun _ =>
    wlp_at_bind fun _ => wlp_setAt h3 List.mem_cons_self) fun _ w2 h2 => wlp_pure h2

/-- Forward passes write only to matrices made by them, to the layer object and to the random source. -/
theorem wlp_forwardStep {training : Bool} {lp : Nat} {x : Mat} (h : Since f w0 w ms) (hl : f.lay lp)
    (hu : training = true → (w.lay lp).kind = .dropout → f.unif) :
    wlp (forwardStep training lp x) w (fun p w' => Since f w0 w' (p.1 :: ms)) := by
  have hst : lp < w0.next → (w.lay lp).static = (w0.lay lp).static := h.stat lp
  -- the common shape of the layers with one in-place activation
  have act : ∀ (g : Mat → Go α Mat) (s : Mat → Layer α), (∀ m, (s m).static = (w.lay lp).static) →
      (∀ m ms w', Since f w0 w' ms → m ∈ ms → wlp (g m) w' (fun p w'' => p = m ∧ Since f w0 w'' ms)) →
      wlp (do
        let (out, err) ← affine (w.lay lp) x
        if let some e := err then
          return (Mat.zero, some e)
        laySet lp (s out)
        let out ← g out
        return (out, none) : Go α (Mat × Option Err)) w (fun p w' => Since f w0 w' (p.1 :: ms)) := by
    intro g s hs hg
    refine wlp_bind (wlp_affine h) ?_
    rintro ⟨out, e⟩ w1 h1
    dsimp only at h1 ⊢
    split
    · exact wlp_pure h1.tail.zero
    refine wlp_bind (wlp_laySet h1 hl fun hlt => (hs out).trans (hst hlt)) fun _ w2 h2 => ?_
    refine wlp_bind (hg _ _ _ h2 List.mem_cons_self) ?_
    rintro _ w3 ⟨rfl, h3⟩
    exact wlp_pure h3
  unfold forwardStep
  refine wlp_layGet_bind ?_
  split
  · unfold dropoutForwardNo
    refine wlp_layGet_bind ?_
    exact act relu (fun out => { w.lay lp with reluInputs := out }) (fun _ => rfl) fun m ms w' h hm => wlp_relu h hm
  rename_i htr
  unfold layerForward
  refine wlp_layGet_bind ?_
  split
  · unfold hiddenForward
    refine wlp_layGet_bind ?_
    exact act relu (fun out => { w.lay lp with reluInputs := out }) (fun _ => rfl) fun m ms w' h hm => wlp_relu h hm
  · unfold linearForward
    refine wlp_ro_bind (RO.layGet _) fun l => wlp_bind (wlp_affine h) ?_
    rintro ⟨out, e⟩ w1 h1
    dsimp only at h1 ⊢
    split
    · exact wlp_pure h1.tail.zero
    · exact wlp_pure h1
  · unfold sigmoidForward
    refine wlp_ro_bind (RO.layGet _) fun l => wlp_bind (wlp_affine h) ?_
    rintro ⟨out, e⟩ w1 h1
    dsimp only at h1 ⊢
    split
    · exact wlp_pure h1.tail.zero
    refine wlp_bind (wlp_sigmoid h1 List.mem_cons_self) ?_
    rintro _ w3 ⟨rfl, h3⟩
    exact wlp_pure h3
  · unfold leakyForward
    refine wlp_layGet_bind ?_
    exact act (leakyRelu · _) (fun out => { w.lay lp with reluInputs := out }) (fun _ => rfl)
      fun m ms w' h hm => wlp_leakyRelu h hm
  · unfold softmaxForward
    refine wlp_layGet_bind ?_
    refine wlp_bind (wlp_affine h) ?_
    rintro ⟨out, e⟩ w1 h1
    dsimp only at h1 ⊢
    split
    · exact wlp_pure h1.tail.zero
    refine wlp_bind (wlp_softmax h1 List.mem_cons_self) ?_
    rintro _ w2 ⟨rfl, h2⟩
    refine wlp_bind (wlp_laySet h2 hl fun hlt => ?_) fun _ w3 h3 => wlp_pure h3
    exact Eq.trans rfl (hst hlt)
  · rename_i hk
    have hu : f.unif := hu (by
      by_contra hc
      exact htr ⟨hk, by simpa using hc⟩) hk
    unfold dropoutForward
    refine wlp_layGet_bind ?_
    refine wlp_bind (wlp_affine h) ?_
    rintro ⟨out, e⟩ w1 h1
    dsimp only at h1 ⊢
    split
    · exact wlp_pure h1.tail.zero
    refine wlp_bind (wlp_laySet h1 hl fun hlt => Eq.trans rfl (hst hlt)) fun _ w2 h2 => ?_
    refine wlp_bind (wlp_relu h2 List.mem_cons_self) ?_
    rintro out w3 ⟨rfl, h3⟩
    refine wlp_bind (wlp_newMatrix h3) ?_
    rintro ⟨mask, e⟩ w4 h4
    dsimp only at h4 ⊢
    refine wlp_bind (wlp_laySet h4 hl fun hlt => Eq.trans rfl (hst hlt)) fun _ w5 h5 => ?_
    refine wlp_bind (wlp_loop2 h5 fun i j w6 h6 => wlp_bind (wlp_binomialRand h6 hu) fun r w7 h7 =>
      wlp_bind (wlp_setAt h7 List.mem_cons_self) fun _ w8 h8 => wlp_at_bind fun _ => wlp_at_bind fun _ =>
        wlp_setAt h8 (List.mem_cons_of_mem _ List.mem_cons_self)) fun _ w6 h6 => wlp_pure h6.tail

/-! ### Backward passes -/

theorem Since.rowRef_new {m : Mat} (h : Since f w0 w ms) (hm : m ∈ ms) {i : Int} :
    wlp (rowRef m.m i) w (fun a w' => w' = w ∧ (f.flt a ∨ w0.next ≤ a)) := by
  intro a w' e
  unfold rowRef at e
  split at e
  · rename_i hc
    split at e
    · rename_i b hb
      cases e
      exact ⟨rfl, (h.mats m hm).rows i.toNat a (by omega) hb⟩
    · cases e
  · cases e

theorem wlp_sliceOfRow {r : Nat} (h : Since f w0 w ms) : wlp (sliceOfRow r) w (fun _ w' => Since f w0 w' ms) := by
  intro s w' e
  have hf := h.frame
  have hne : ∀ a, a < w.next → a ≠ w.next := fun a h => Nat.ne_of_lt h
  unfold sliceOfRow allocOuter setRowRef at e
  cases e
  refine h.step ⟨hf.next_le.trans (Nat.le_succ _), hf.flt, ?_, hf.lay, hf.opt, hf.norm, hf.unif, hf.normPos, hf.unifPos,
    hf.log, hf.logger⟩ (Nat.le_succ _) ?_ (fun _ _ => rfl) (fun _ _ => rfl)
  · intro a ha hna
    exact (upd_ne (hne a (ha.trans_le hf.next_le))).trans ((upd_ne (hne a (ha.trans_le hf.next_le))).trans
      (hf.outs a ha hna))
  · intro a ha
    exact (upd_ne (hne a ha)).trans (upd_ne (hne a ha))

theorem wlp_setRow {nd : Mat} {i : Int} {r : Nat} (h : Since f w0 w ms) (ho : NewOuter w0 nd)
    (hr : f.flt r ∨ w0.next ≤ r) : wlp (nd.setRow i r) w (fun _ w' => Since f w0 w' ms) := by
  unfold Mat.setRow
  split
  · exact wlp_pure h
  refine wlp_ro_bind (RO.rowLen _) fun n => ?_
  split
  · exact wlp_pure h
  refine wlp_bind (R := fun _ w' => Since f w0 w' ms) ?_ fun _ _ h => wlp_pure h
  intro b w' e
  unfold setRowRef at e
  split at e
  · rename_i hc
    cases e
    have hf := h.frame
    refine ⟨⟨hf.next_le, hf.flt, ?_, hf.lay, hf.opt, hf.norm, hf.unif, hf.normPos, hf.unifPos, hf.log, hf.logger⟩,
      h.stat, h.len, fun m hm => ⟨(h.mats m hm).lt, ?_⟩⟩
    · intro a ha hna
      refine (upd_ne (show a ≠ nd.m.addr from ?_)).trans (hf.outs a ha hna)
      rcases ho with h0 | h0
      · omega
      · omega
    · intro k a hk e
      unfold World.rowAddr at e
      dsimp only at e
      by_cases ea : m.m.addr = nd.m.addr
      · rw [ea, upd_same, List.getElem?_set] at e
        split at e
        · split at e
          · cases e; exact hr
          · cases e
        · rw [← ea] at e
          exact (h.mats m hm).rows k a hk e
      · rw [upd_ne ea] at e
        exact (h.mats m hm).rows k a hk e
  · cases e

theorem wlp_gradTail {l : Layer α} {x d : Mat} (h : Since f w0 w ms) :
    wlp (gradTail l x d) w (fun g w' => Since f w0 w' (g.dInputs :: ms)) := by
  unfold gradTail
  refine wlp_bind (wlp_t h) ?_
  rintro it w1 ⟨h1, -⟩
  refine wlp_ro_bind (RO.deref _) fun wm => wlp_bind (wlp_t h1.tail) ?_
  rintro wt w2 ⟨h2, -⟩
  refine wlp_bind (wlp_dot h2.tail) ?_
  rintro ⟨dw, e⟩ w3 h3
  dsimp only at h3 ⊢
  split
  · exact wlp_pure h3.tail.zero
  refine wlp_bind (wlp_sum' h3.tail) fun db w4 h4 => wlp_bind (wlp_dot h4.tail) ?_
  rintro ⟨di, e⟩ w5 h5
  exact wlp_pure h5

theorem wlp_softmaxBackRow {l : Layer α} {d nd : Mat} {i : Nat} (h : Since f w0 w ms) (ho : NewOuter w0 nd) :
    wlp (softmaxBackRow l d nd i) w (fun _ w' => Since f w0 w' ms) := by
  unfold softmaxBackRow
  refine wlp_bind (wlp_newMatrix h) ?_
  rintro ⟨diag, e⟩ w1 h1
  dsimp only at h1 ⊢
  refine wlp_bind (wlp_forN_since h1 fun j w2 h2 => wlp_at_bind fun _ => wlp_setAt h2 List.mem_cons_self) fun _ w2 h2 => ?_
  refine wlp_ro_bind (RO.rowRef _ _) fun r => wlp_bind (wlp_sliceOfRow h2.tail) fun s w3 h3 => ?_
  refine wlp_ro_bind (RO.newMatrixFromSlice _) ?_
  rintro ⟨orow, e⟩
  dsimp only
  refine wlp_bind (wlp_t h3) ?_
  rintro ot w4 ⟨h4, -⟩
  refine wlp_bind (wlp_t h4.tail) ?_
  rintro ott w5 ⟨h5, -⟩
  refine wlp_bind (wlp_dot h5.tail) ?_
  rintro ⟨od, e⟩ w6 h6
  dsimp only at h6 ⊢
  split
  · exact wlp_pure h6.tail
  refine wlp_bind (wlp_sub h6.tail) ?_
  rintro ⟨jac, e⟩ w7 h7
  dsimp only at h7 ⊢
  split
  · exact wlp_pure h7.tail
  refine wlp_ro_bind (RO.rowRef _ _) fun r => wlp_bind (wlp_sliceOfRow h7.tail) fun s w8 h8 => ?_
  refine wlp_ro_bind (RO.newMatrixFromSlice _) ?_
  rintro ⟨drow, e⟩
  dsimp only
  refine wlp_bind (wlp_t h8) ?_
  rintro dt w9 ⟨h9, -⟩
  refine wlp_bind (wlp_dot h9.tail) ?_
  rintro ⟨row, e⟩ w10 h10
  dsimp only at h10 ⊢
  split
  · exact wlp_pure h10.tail
  refine wlp_bind (wlp_t h10.tail) ?_
  rintro rt w11 ⟨h11, -⟩
  refine wlp_bind (h11.rowRef_new List.mem_cons_self) ?_
  rintro r w12 ⟨rfl, hr⟩
  exact wlp_bind (wlp_setRow h11.tail ho hr) fun _ w13 h13 => wlp_pure h13

/-- Backward passes write only to the upstream gradient, to matrices made by them and, for sigmoid, to the input. -/
theorem wlp_layerBackward {lp : Nat} {x d : Mat} (h : Since f w0 w ms) (hd : d ∈ ms)
    (hx : (w.lay lp).kind = .sigmoid → x ∈ ms) :
    wlp (layerBackward lp x d) w (fun g w' => Since f w0 w' (g.dInputs :: ms)) := by
  unfold layerBackward
  refine wlp_layGet_bind ?_
  split
  · unfold hiddenBackward
    refine wlp_layGet_bind ?_
    split
    · exact wlp_pure h.zero
    refine wlp_bind (wlp_reluPrime h hd) ?_
    rintro _ w1 ⟨rfl, h1⟩
    exact wlp_gradTail h1
  · unfold linearBackward
    refine wlp_layGet_bind ?_
    split
    · exact wlp_pure h.zero
    exact wlp_gradTail h
  · rename_i hk
    unfold sigmoidBackward
    refine wlp_layGet_bind ?_
    split
    · exact wlp_pure h.zero
    refine wlp_bind (wlp_sigmoidPrime h (hx hk)) ?_
    rintro _ w1 ⟨rfl, h1⟩
    exact wlp_gradTail h1
  · unfold leakyBackward
    refine wlp_layGet_bind ?_
    split
    · exact wlp_pure h.zero
    refine wlp_bind (wlp_leakyReluPrime h hd) ?_
    rintro _ w1 ⟨rfl, h1⟩
    exact wlp_gradTail h1
  · unfold softmaxBackward
    refine wlp_layGet_bind ?_
    split
    · exact wlp_pure h.zero
    split
    · exact wlp_pure h.zero
    split
    · exact wlp_pure h.zero
    split
    · exact wlp_pure h.zero
    dsimp only
    refine wlp_bind (wlp_newMatrix' h) ?_
    rintro ⟨nd, e⟩ w1 ⟨h1, ho⟩
    dsimp only at h1 ho ⊢
    refine wlp_bind (wlp_forRet (fun _ w' => Since f w0 w' ms) (fun _ w' => Since f w0 w' ms) h1.tail
      fun k w' _ h' => wlp_mono (wlp_softmaxBackRow h' ho) fun r w'' h => by cases r <;> exact h) ?_
    intro r w2 h2
    cases r with
    | some e => exact wlp_pure (Since.zero h2)
    | none => exact wlp_gradTail h2
  · unfold dropoutBackward
    refine wlp_layGet_bind ?_
    split
    · exact wlp_pure h.zero
    refine wlp_bind (wlp_loop2 h fun i j w1 h1 => wlp_at_bind fun _ => wlp_at_bind fun _ => wlp_setAt h1 hd) fun _ w1 h1 => ?_
    refine wlp_bind (wlp_reluPrime h1 hd) ?_
    rintro _ w1 ⟨rfl, h1⟩
    exact wlp_gradTail h1

theorem wlp_softmaxBackwardCE {lp : Nat} {x y d : Mat} (h : Since f w0 w ms) :
    wlp (softmaxBackwardCE lp x y d) w (fun g w' => Since f w0 w' (g.dInputs :: ms)) := by
  unfold softmaxBackwardCE
  refine wlp_layGet_bind ?_
  split
  · exact wlp_pure h.zero
  split
  · exact wlp_pure h.zero
  split
  · exact wlp_pure h.zero
  refine wlp_bind (wlp_newMatrix h) ?_
  rintro ⟨nd, e⟩ w1 h1
  dsimp only at h1 ⊢
  refine wlp_bind (wlp_loop2 h1 fun i j w2 h2 => wlp_at_bind fun _ => ?_) fun _ w2 h2 => wlp_gradTail h2.tail
  split <;> exact wlp_at_bind fun _ => wlp_setAt h2 List.mem_cons_self

/-- `Loss.Backward` writes only to its result and (binary cross-entropy) to the prediction. -/
theorem wlp_lossBackward {l : Loss} {yhat y : Mat} (h : Since f w0 w ms) (hy : yhat ∈ ms) :
    wlp (l.backward yhat y : Go α _) w (fun p w' => Since f w0 w' (p.1 :: ms)) := by
  unfold Loss.backward
  split
  · unfold mseBackward
    split
    · exact wlp_pure h.zero
    refine wlp_bind (wlp_sub h) ?_
    rintro ⟨s, e⟩ w1 h1
    dsimp only at h1 ⊢
    split
    · exact wlp_pure h1.tail.zero
    exact wlp_bind (wlp_mulScalar h1.tail) fun _ w2 h2 => wlp_pure h2
  · unfold maeBackward
    split
    · exact wlp_pure h.zero
    refine wlp_bind (wlp_sub h) ?_
    rintro ⟨s, e⟩ w1 h1
    dsimp only at h1 ⊢
    split
    · exact wlp_pure h1.tail.zero
    refine wlp_bind (wlp_loop2 h1 fun i j w2 h2 => wlp_at_bind fun _ => ?_) fun _ w2 h2 => wlp_pure h2
    split
    · exact wlp_setAt h2 List.mem_cons_self
    refine wlp_at_bind fun _ => ?_
    split <;> exact wlp_setAt h2 List.mem_cons_self
  · unfold ceBackward
    split
    · exact wlp_pure h.zero
    refine wlp_bind (wlp_newMatrix h) ?_
    rintro ⟨nd, e⟩ w1 h1
    dsimp only at h1 ⊢
    exact wlp_bind (wlp_loop2 h1 fun i j w2 h2 => wlp_at_bind fun _ => wlp_at_bind fun _ =>
      wlp_setAt h2 List.mem_cons_self) fun _ w2 h2 => wlp_pure h2
  · unfold bceBackward
    split
    · exact wlp_pure h.zero
    refine wlp_bind (wlp_clip h hy) ?_
    rintro _ w1 ⟨rfl, h1⟩
    refine wlp_bind (wlp_newMatrix h1) ?_
    rintro ⟨nd, e⟩ w1 h1
    dsimp only at h1 ⊢
    exact wlp_bind (wlp_loop2 h1 fun i j w2 h2 => wlp_at_bind fun _ => wlp_at_bind fun _ =>
      wlp_setAt h2 List.mem_cons_self) fun _ w2 h2 => wlp_pure h2

/-! ### Optimizers -/

theorem wlp_addInto {a b : Mat} (h : Since f w0 w ms) (ha : a ∈ ms) :
    wlp (addInto a b) w (fun _ w' => Since f w0 w' ms) := by
  unfold addInto
  exact wlp_loop2 h fun i j w3 h3 => wlp_at_bind fun _ => wlp_at_bind fun _ => wlp_setAt h3 ha

theorem wlp_subInto {a b : Mat} (h : Since f w0 w ms) (ha : a ∈ ms) :
    wlp (subInto a b) w (fun _ w' => Since f w0 w' ms) := by
  unfold subInto
  exact wlp_loop2 h fun i j w3 h3 => wlp_at_bind fun _ => wlp_at_bind fun _ => wlp_setAt h3 ha

theorem wlp_adamStep {a b c : Mat} {r e : α} (h : Since f w0 w ms) (ha : a ∈ ms) :
    wlp (adamStep a b c r e) w (fun _ w' => Since f w0 w' ms) := by
  unfold adamStep
  exact wlp_loop2 h fun i j w3 h3 => wlp_at_bind fun _ => wlp_at_bind fun _ => wlp_at_bind fun _ => wlp_setAt h3 ha

/-- A matrix operation followed by anything that does not care about the result. -/
theorem wlp_new_bind {x : Go α Mat} {k : Mat → Go α β} {Q : β → World α → Prop}
    (hx : wlp x w (fun p w' => Since f w0 w' (p :: ms))) (hk : ∀ m w', Since f w0 w' ms → wlp (k m) w' Q) :
    wlp (x >>= k) w Q := wlp_bind hx fun m w' h => hk m w' h.tail

theorem wlp_new_bind' {x : Go α (Mat × Option Err)} {k : Mat × Option Err → Go α β} {Q : β → World α → Prop}
    (hx : wlp x w (fun p w' => Since f w0 w' (p.1 :: ms))) (hk : ∀ m e w', Since f w0 w' ms → wlp (k (m, e)) w' Q) :
    wlp (x >>= k) w Q := wlp_bind hx fun m w' h => hk m.1 m.2 w' h.tail

theorem wlp_optSet_bind {op : Nat} {o : Optim α} {k : Unit → Go α β} {Q : β → World α → Prop} (h : Since f w0 w ms)
    (hf : f.opt op) (hk : ∀ w', Since f w0 w' ms → wlp (k ()) w' Q) : wlp (optSet op o >>= k) w Q :=
  wlp_bind (wlp_optSet h hf) fun _ w' h' => hk w' h'

theorem wlp_sgdUpdate {op : Nat} {wm bm dw db : Mat} (h : Since f w0 w ms) (hf : f.opt op) (hw : wm ∈ ms) (hb : bm ∈ ms) :
    wlp (sgdUpdate op wm bm dw db) w (fun _ w' => Since f w0 w' ms) := by
  unfold sgdUpdate
  refine wlp_optGet_bind (wlp_optSet_bind h hf fun w h => ?_)
  dsimp only
  split
  · split
    on_goal 1 =>
      refine wlp_new_bind' (wlp_newMatrix h) fun m e w h => wlp_new_bind' (wlp_newMatrix h) fun m e w h => ?_
      dsimp only
      refine wlp_optSet_bind h hf fun w h => ?_
    all_goals
      refine wlp_new_bind (wlp_mulScalar h) fun m w h => wlp_new_bind (wlp_mulScalar h) fun m w h =>
        wlp_new_bind' (wlp_sub h) fun m e w h => ?_
      dsimp only
      refine wlp_optSet_bind h hf fun w h => ?_
      split
      · exact wlp_pure h
      refine wlp_new_bind (wlp_mulScalar h) fun m w h => wlp_new_bind (wlp_mulScalar h) fun m w h =>
        wlp_new_bind' (wlp_sub h) fun m e w h => ?_
      dsimp only
      refine wlp_optSet_bind h hf fun w h => ?_
      split
      · exact wlp_pure h
      refine wlp_bind (wlp_addInto h hw) fun _ w h => wlp_bind (wlp_addInto h hb) fun _ w h =>
        wlp_optSet_bind h hf fun w h => wlp_pure h
  · refine wlp_new_bind (wlp_mulScalar h) fun m w h => wlp_new_bind (wlp_mulScalar h) fun m w h => ?_
    exact wlp_bind (wlp_subInto h hw) fun _ w h => wlp_bind (wlp_subInto h hb) fun _ w h =>
      wlp_optSet_bind h hf fun w h => wlp_pure h

theorem wlp_adamUpdate {op : Nat} {wm bm dw db : Mat} (h : Since f w0 w ms) (hf : f.opt op) (hw : wm ∈ ms) (hb : bm ∈ ms) :
    wlp (adamUpdate op wm bm dw db) w (fun _ w' => Since f w0 w' ms) := by
  unfold adamUpdate
  refine wlp_optGet_bind (wlp_optSet_bind h hf fun w h => ?_)
  dsimp only
  split
  on_goal 1 =>
    refine wlp_new_bind' (wlp_newMatrix h) fun m e w h => wlp_new_bind' (wlp_newMatrix h) fun m e w h =>
      wlp_new_bind' (wlp_newMatrix h) fun m e w h => wlp_new_bind' (wlp_newMatrix h) fun m e w h => ?_
    dsimp only
    refine wlp_optSet_bind h hf fun w h => ?_
  all_goals
    refine wlp_new_bind (wlp_mulScalar h) fun m w h => wlp_new_bind (wlp_mulScalar h) fun m w h =>
      wlp_new_bind' (wlp_add h) fun m e w h => ?_
    dsimp only
    refine wlp_optSet_bind h hf fun w h => ?_
    split
    · exact wlp_pure h
    refine wlp_new_bind (wlp_mulScalar h) fun m w h => wlp_new_bind (wlp_mulScalar h) fun m w h =>
      wlp_new_bind' (wlp_add h) fun m e w h => ?_
    dsimp only
    refine wlp_optSet_bind h hf fun w h => ?_
    split
    · exact wlp_pure h
    refine wlp_new_bind (wlp_mulScalar h) fun m w h => wlp_new_bind (wlp_mulScalar h) fun m w h => ?_
    refine wlp_new_bind (wlp_mulScalar h) fun m w h => wlp_new_bind (wlp_powScalar h) fun m w h =>
      wlp_new_bind (wlp_mulScalar h) fun m w h => wlp_new_bind' (wlp_add h) fun m e w h => ?_
    dsimp only
    refine wlp_optSet_bind h hf fun w h => ?_
    split
    · exact wlp_pure h
    refine wlp_new_bind (wlp_mulScalar h) fun m w h => wlp_new_bind (wlp_powScalar h) fun m w h =>
      wlp_new_bind (wlp_mulScalar h) fun m w h => wlp_new_bind' (wlp_add h) fun m e w h => ?_
    dsimp only
    refine wlp_optSet_bind h hf fun w h => ?_
    split
    · exact wlp_pure h
    refine wlp_new_bind (wlp_mulScalar h) fun m w h => wlp_new_bind (wlp_mulScalar h) fun m w h => ?_
    exact wlp_bind (wlp_adamStep h hw) fun _ w h => wlp_bind (wlp_adamStep h hb) fun _ w h =>
      wlp_optSet_bind h hf fun w h => wlp_pure h

/-- Optimizers write only to the parameters, to themselves and to matrices made by them. -/
theorem wlp_optUpdate {op : Nat} {wo bo : Option Mat} {dw db : Mat} (h : Since f w0 w ms) (hf : f.opt op)
    (hw : ∀ wm, wo = some wm → wm ∈ ms) (hb : ∀ bm, bo = some bm → bm ∈ ms) :
    wlp (optUpdate op wo bo dw db) w (fun _ w' => Since f w0 w' ms) := by
  unfold optUpdate
  refine wlp_ro_bind (RO.optGet _) fun o => ?_
  refine wlp_deref_bind fun wm ew => wlp_deref_bind fun bm eb => ?_
  split
  · exact wlp_sgdUpdate h hf (hw _ ew) (hb _ eb)
  · exact wlp_adamUpdate h hf (hw _ ew) (hb _ eb)

end NN
