import Verif.Lemmas.Parse
import Verif.Lemmas.Build
import Verif.Spec.PlaceNet
/- LoadLayer and LoadModel follow the pure parser of `Verif/Lemmas/Parse.lean`. -/

set_option linter.unusedSectionVars false

namespace NN
variable {α : Type} [Flt α] [FltBits α]
open NN.Go NN.Parser

/-- The loader `x` does on `buf` in state `w` what the parser `p` says: if `p` succeeds, `x` returns a value related by `R` and leaves
the same bytes; if `p` fails, `x` returns an error in a state satisfying `E`; if `p` says panic, `x` panics. -/
def Corr {β γ : Type} (x : Rd α β) (p : Parser γ) (buf : List Byte) (w : World α) (R : β → γ → World α → Prop) (E : World α → Prop) :
    Prop :=
  match p buf with
  | .ok c rest => wp (x buf) w fun r w' => ∃ b, r = (.ok b, rest) ∧ R b c w'
  | .err => wp (x buf) w fun r w' => (∃ e, r.1 = .error e) ∧ E w'
  | .bad => Panics (x buf) w

variable {β γ δ ε : Type}

theorem Corr.mk_ok {x : Rd α β} {p : Parser γ} {buf rest : List Byte} {w : World α} {R : β → γ → World α → Prop} {E : World α → Prop} {c : γ}
    (h : p buf = .ok c rest) (h' : wp (x buf) w fun r w' => ∃ b, r = (.ok b, rest) ∧ R b c w') : Corr x p buf w R E := by
  unfold Corr; rw [h]; exact h'

theorem Corr.mk_err {x : Rd α β} {p : Parser γ} {buf : List Byte} {w : World α} {R : β → γ → World α → Prop} {E : World α → Prop}
    (h : p buf = .err) (h' : wp (x buf) w fun r w' => (∃ e, r.1 = .error e) ∧ E w') : Corr x p buf w R E := by
  unfold Corr; rw [h]; exact h'

theorem Corr.mk_bad {x : Rd α β} {p : Parser γ} {buf : List Byte} {w : World α} {R : β → γ → World α → Prop} {E : World α → Prop}
    (h : p buf = .bad) (h' : Panics (x buf) w) : Corr x p buf w R E := by
  unfold Corr; rw [h]; exact h'

theorem Corr.ok {x : Rd α β} {p : Parser γ} {buf rest : List Byte} {w : World α} {R : β → γ → World α → Prop} {E : World α → Prop} {c : γ}
    (h : Corr x p buf w R E) (e : p buf = .ok c rest) : wp (x buf) w fun r w' => ∃ b, r = (.ok b, rest) ∧ R b c w' := by
  unfold Corr at h; rwa [e] at h

theorem Corr.err {x : Rd α β} {p : Parser γ} {buf : List Byte} {w : World α} {R : β → γ → World α → Prop} {E : World α → Prop}
    (h : Corr x p buf w R E) (e : p buf = .err) : wp (x buf) w fun r w' => (∃ e, r.1 = .error e) ∧ E w' := by
  unfold Corr at h; rwa [e] at h

theorem Corr.bad {x : Rd α β} {p : Parser γ} {buf : List Byte} {w : World α} {R : β → γ → World α → Prop} {E : World α → Prop}
    (h : Corr x p buf w R E) (e : p buf = .bad) : Panics (x buf) w := by
  unfold Corr at h; rwa [e] at h

theorem rd_bind (x : Rd α β) (f : β → Rd α γ) (buf : List Byte) :
    (x >>= f) buf = x buf >>= fun r => match r with
      | (.error e, buf') => pure (.error e, buf')
      | (.ok b, buf') => f b buf' := rfl

theorem panics_bind {x : Go α β} {f : β → Go α γ} {w : World α} (h : Panics x w) : Panics (x >>= f) w := by
  obtain ⟨p, h⟩ := h
  exact ⟨p, bind_error h⟩

theorem panics_of_wp {x : Go α β} {f : β → Go α γ} {w : World α} (h : wp x w fun b w' => Panics (f b) w') : Panics (x >>= f) w := by
  rw [wp_iff] at h
  obtain ⟨b, w', e, p, h⟩ := h
  exact ⟨p, (bind_ok e).trans h⟩

theorem Corr.bind {x : Rd α β} {f : β → Rd α γ} {p : Parser δ} {q : δ → Parser ε} {buf : List Byte} {w : World α}
    {R : β → δ → World α → Prop} {R' : γ → ε → World α → Prop} {E : World α → Prop} (h : Corr x p buf w R E)
    (h' : ∀ b c rest w', R b c w' → Corr (f b) (q c) rest w' R' E) : Corr (x >>= f) (p >>= q) buf w R' E := by
  cases hp : p buf with
  | ok c rest =>
    have h1 := h.ok hp
    cases hq : q c rest with
    | ok d rest' =>
      refine Corr.mk_ok ((Parser.bind_ok hp).trans hq) ?_
      rw [rd_bind, wp_bind]
      refine wp_mono h1 ?_
      rintro _ w' ⟨b, rfl, hR⟩
      exact (h' b c rest w' hR).ok hq
    | err =>
      refine Corr.mk_err ((Parser.bind_ok hp).trans hq) ?_
      rw [rd_bind, wp_bind]
      refine wp_mono h1 ?_
      rintro _ w' ⟨b, rfl, hR⟩
      exact (h' b c rest w' hR).err hq
    | bad =>
      refine Corr.mk_bad ((Parser.bind_ok hp).trans hq) ?_
      rw [rd_bind]
      refine panics_of_wp (wp_mono h1 ?_)
      rintro _ w' ⟨b, rfl, hR⟩
      exact (h' b c rest w' hR).bad hq
  | err =>
    refine Corr.mk_err (Parser.bind_err hp) ?_
    rw [rd_bind, wp_bind]
    refine wp_mono (h.err hp) ?_
    rintro ⟨_, r⟩ w' ⟨⟨e, rfl⟩, hE⟩
    exact ⟨⟨e, rfl⟩, hE⟩
  | bad =>
    refine Corr.mk_bad (Parser.bind_bad hp) ?_
    rw [rd_bind]
    exact panics_bind (h.bad hp)

theorem Corr.pure {b : β} {c : γ} {buf : List Byte} {w : World α} {R : β → γ → World α → Prop} {E : World α → Prop} (h : R b c w) :
    Corr (Pure.pure b : Rd α β) (Pure.pure c : Parser γ) buf w R E := Corr.mk_ok rfl ⟨b, rfl, h⟩

theorem Corr.fail {e : Err} {buf : List Byte} {w : World α} {R : β → γ → World α → Prop} {E : World α → Prop} (h : E w) :
    Corr (Rd.fail e : Rd α β) (Parser.fail : Parser γ) buf w R E := Corr.mk_err rfl ⟨⟨e, rfl⟩, h⟩

theorem Corr.mono {x : Rd α β} {p : Parser γ} {buf : List Byte} {w : World α} {R R' : β → γ → World α → Prop} {E : World α → Prop}
    (h : Corr x p buf w R E) (hR : ∀ b c w', R b c w' → R' b c w') : Corr x p buf w R' E := by
  cases hp : p buf with
  | ok c rest =>
    refine Corr.mk_ok hp (wp_mono (h.ok hp) ?_)
    rintro _ w' ⟨b, rfl, h⟩
    exact ⟨b, rfl, hR _ _ _ h⟩
  | err => exact Corr.mk_err hp (h.err hp)
  | bad => exact Corr.mk_bad hp (h.bad hp)

/-- A step that does not read, which the parser does not see. -/
theorem Corr.lift {x : Go α β} {f : β → Rd α γ} {p : Parser ε} {buf : List Byte} {w : World α} {R : γ → ε → World α → Prop}
    {E : World α → Prop} {Q : β → World α → Prop} (h : wp x w Q) (h' : ∀ b w', Q b w' → Corr (f b) p buf w' R E) :
    Corr (Rd.lift x >>= f) p buf w R E := by
  have e : (Rd.lift x >>= f) buf = x >>= fun b => f b buf := by
    rw [rd_bind]
    funext w
    show Go.bind (Go.bind x fun b => Pure.pure (Except.ok b, buf)) _ w = Go.bind x _ w
    unfold Go.bind
    cases x w <;> rfl
  rw [wp_iff] at h
  obtain ⟨b, w', e1, hQ⟩ := h
  have e2 : (Rd.lift x >>= f) buf w = f b buf w' := by rw [e]; exact bind_ok e1
  have := h' b w' hQ
  unfold Corr wp Panics at this ⊢
  rw [e2]
  exact this

/-- A step that reads nothing. -/
theorem Corr.silent {x : Rd α β} {f : β → Rd α γ} {p : Parser ε} {buf : List Byte} {w : World α}
    {R : β → Unit → World α → Prop} {R' : γ → ε → World α → Prop} {E : World α → Prop}
    (h : Corr x (Pure.pure () : Parser Unit) buf w R E) (h' : ∀ b w', R b () w' → Corr (f b) p buf w' R' E) :
    Corr (x >>= f) p buf w R' E := by
  have h1 := h.ok (c := ()) (rest := buf) rfl
  rw [wp_iff] at h1
  obtain ⟨_, w', e, b, rfl, hR⟩ := h1
  have e2 : (x >>= f) buf w = f b buf w' := by rw [rd_bind]; exact bind_ok e
  have := h' b w' hR
  unfold Corr wp Panics at this ⊢
  rw [e2]
  exact this

/-! ### Primitives -/

theorem corr_readFull (k : Nat) (buf : List Byte) (w : World α) {E : World α → Prop} (hE : E w) :
    Corr (readFull k) (pFull k) buf w (fun b c w' => b = c ∧ w' = w) E := by
  by_cases h : buf.length < k
  · refine Corr.mk_err (if_pos h) ?_
    unfold readFull
    rw [if_pos h]
    exact ⟨⟨_, rfl⟩, hE⟩
  · refine Corr.mk_ok (if_neg h) ?_
    unfold readFull
    rw [if_neg h]
    exact ⟨_, rfl, rfl, rfl⟩

theorem corr_readInt8 (buf : List Byte) (w : World α) {E : World α → Prop} (hE : E w) :
    Corr readInt8 pInt8 buf w (fun b c w' => b = c ∧ w' = w) E :=
  (corr_readFull 1 buf w hE).bind fun _ _ _ _ h => Corr.pure (by rw [h.1]; exact ⟨rfl, h.2⟩)

theorem corr_readInt32 (buf : List Byte) (w : World α) {E : World α → Prop} (hE : E w) :
    Corr readInt32 pInt32 buf w (fun b c w' => b = c ∧ w' = w) E :=
  (corr_readFull 4 buf w hE).bind fun _ _ _ _ h => Corr.pure (by rw [h.1]; exact ⟨rfl, h.2⟩)

theorem corr_readFlt (buf : List Byte) (w : World α) {E : World α → Prop} (hE : E w) :
    Corr readFlt pFlt buf w (fun b c w' => b = c ∧ w' = w) E :=
  (corr_readFull 8 buf w hE).bind fun _ _ _ _ h => Corr.pure (by rw [h.1]; exact ⟨rfl, h.2⟩)

theorem corr_readBuf (n : Int) (buf : List Byte) (w : World α) {E : World α → Prop} (hE : E w) :
    Corr (readBuf n) (pRead n) buf w (fun b c w' => b = c ∧ w' = w) E := by
  by_cases h : n < 0
  · refine Corr.mk_bad (if_pos h) ?_
    unfold readBuf
    rw [if_pos h]
    exact ⟨_, rfl⟩
  · by_cases h' : buf = [] ∧ 0 < n
    · refine Corr.mk_err ((if_neg h).trans (if_pos h')) ?_
      unfold readBuf
      rw [if_neg h, if_pos h']
      exact ⟨⟨_, rfl⟩, hE⟩
    · refine Corr.mk_ok ((if_neg h).trans (if_neg h')) ?_
      unfold readBuf
      rw [if_neg h, if_neg h']
      exact ⟨_, rfl, rfl, rfl⟩

theorem corr_magic {x : Rd α γ} {q : Unit → Parser ε} (s : Str) (n : Int) (hn : n = s.length) (e : Err) (buf : List Byte)
    (w : World α) {R : γ → ε → World α → Prop} {E : World α → Prop} (hE : E w) (h : ∀ rest, Corr x (q ()) rest w R E) :
    Corr (readBuf n >>= fun m => if m ≠ s then Rd.fail e else x) (pMagic s >>= q) buf w R E := by
  have e1 : (pMagic s >>= q : Parser ε) = pRead n >>= fun b => if b ≠ s then Parser.fail else q () := by
    subst hn
    funext buf
    unfold pMagic
    cases hp : pRead s.length buf with
    | ok b r =>
      rw [Parser.bind_ok hp]
      by_cases hb : b ≠ s
      · rw [if_pos hb]
        refine Parser.bind_err ((Parser.bind_ok hp).trans ?_)
        rw [if_pos hb]; rfl
      · rw [if_neg hb]
        refine Parser.bind_ok (b := ()) ((Parser.bind_ok hp).trans ?_)
        rw [if_neg hb]; rfl
    | err => rw [Parser.bind_err hp]; exact Parser.bind_err (Parser.bind_err hp)
    | bad => rw [Parser.bind_bad hp]; exact Parser.bind_bad (Parser.bind_bad hp)
  rw [e1]
  refine (corr_readBuf n buf w hE).bind ?_
  rintro b _ rest w ⟨rfl, rfl⟩
  by_cases hb : b ≠ s
  · rw [if_pos hb, if_pos hb]; exact Corr.fail hE
  · rw [if_neg hb, if_neg hb]; exact h rest

/-! ### Matrices -/

/-- One entry: read it, store it. -/
theorem corr_entry {w w1 : World α} {m : Mat} {n o : Nat} {A V : Nat → Nat → α} {i j : Nat} {buf : List Byte}
    (hw : SetMat w w1 m n o (mix A V i j)) (hd : DistinctRows w m n) (hi : i < n) (hj : j < o)
    (hv : fltOf buf = V i j) :
    (buf.length < 8 ∧ wp ((do let x ← readFlt; Rd.lift (m.setAt i j x) : Rd α Unit) buf) w1 fun r w' => (∃ e, r.1 = .error e) ∧ w' = w1) ∨
    (8 ≤ buf.length ∧ wp ((do let x ← readFlt; Rd.lift (m.setAt i j x) : Rd α Unit) buf) w1 fun r w' =>
      r = (.ok (), buf.drop 8) ∧ SetMat w w' m n o (mix A V i (j + 1))) := by
  have hc := corr_readFlt (α := α) buf w1 (E := fun w' => w' = w1) rfl
  by_cases h : buf.length < 8
  · left
    refine ⟨h, ?_⟩
    rw [rd_bind, wp_bind]
    refine wp_mono (hc.err (by rw [pFlt_eq, if_pos h])) ?_
    rintro ⟨_, r⟩ w' ⟨⟨e, rfl⟩, hE⟩
    exact ⟨⟨e, rfl⟩, hE⟩
  · right
    refine ⟨by omega, ?_⟩
    rw [rd_bind, wp_bind]
    refine wp_mono (hc.ok (c := fltOf buf) (rest := buf.drop 8) (by rw [pFlt_eq, if_neg h])) ?_
    rintro _ _ ⟨_, rfl, rfl, rfl⟩
    dsimp only
    unfold Rd.lift
    rw [wp_bind]
    refine wp_mono (SetMat.put hw hd hi hj hv) ?_
    intro _ w' hw'
    exact ⟨rfl, hw'⟩

theorem rd_loop_succ (n : Nat) (body : Nat → Rd α Unit) : Rd.loop (n + 1) body = Rd.loop n body >>= fun _ => body n := rfl

/-- One row. -/
theorem corr_row {w w1 : World α} {m : Mat} {n o : Nat} {A V : Nat → Nat → α} {i : Nat} {buf : List Byte}
    (hw : SetMat w w1 m n o (mix A V i 0)) (hd : DistinctRows w m n) (hi : i < n) {k : Nat} (hk : k ≤ o)
    (hv : ∀ j, j < o → fltOf (buf.drop (8 * j)) = V i j) :
    (buf.length < 8 * k ∧ wp (Rd.loop k (fun j => do let x ← readFlt; Rd.lift (m.setAt i j x) : Nat → Rd α Unit) buf) w1
      fun r w' => (∃ e, r.1 = .error e) ∧ ∃ B, SetMat w w' m n o B) ∨
    (8 * k ≤ buf.length ∧ wp (Rd.loop k (fun j => do let x ← readFlt; Rd.lift (m.setAt i j x) : Nat → Rd α Unit) buf) w1 fun r w' =>
      r = (.ok (), buf.drop (8 * k)) ∧ SetMat w w' m n o (mix A V i k)) := by
  induction k with
  | zero => right; exact ⟨by omega, rfl, hw⟩
  | succ k ih =>
    rw [rd_loop_succ, rd_bind]
    rcases ih (by omega) with ⟨h1, h2⟩ | ⟨h1, h2⟩
    · left
      refine ⟨by omega, ?_⟩
      rw [wp_bind]
      refine wp_mono h2 ?_
      rintro ⟨_, r⟩ w' ⟨⟨e, rfl⟩, hE⟩
      exact ⟨⟨e, rfl⟩, hE⟩
    · by_cases hl : buf.length < 8 * (k + 1)
      · left
        refine ⟨hl, ?_⟩
        rw [wp_bind]
        refine wp_mono h2 ?_
        rintro _ w' ⟨rfl, hS⟩
        rcases corr_entry hS hd hi (by omega) (hv k (by omega)) with ⟨-, h⟩ | ⟨h, -⟩
        · refine wp_mono h ?_
          rintro r _ ⟨he, rfl⟩
          exact ⟨he, _, hS⟩
        · rw [List.length_drop] at h; omega
      · right
        refine ⟨by omega, ?_⟩
        rw [wp_bind]
        refine wp_mono h2 ?_
        rintro _ w' ⟨rfl, hS⟩
        rcases corr_entry hS hd hi (by omega) (hv k (by omega)) with ⟨h, -⟩ | ⟨-, h⟩
        · rw [List.length_drop] at h; omega
        · refine wp_mono h ?_
          rintro _ w2 ⟨rfl, hw2⟩
          refine ⟨?_, hw2⟩
          rw [List.drop_drop]
          congr 2

theorem corr_rows {w : World α} {m : Mat} {n o : Nat} {A V : Nat → Nat → α} {buf : List Byte}
    (hw : IsMat w m n o A) (hd : DistinctRows w m n) {k : Nat} (hk : k ≤ n)
    (hv : ∀ i j, i < n → j < o → fltOf (buf.drop (8 * (i * o + j))) = V i j) :
    (buf.length < 8 * (k * o) ∧ wp (Rd.loop k (fun i => Rd.loop o (fun j => do let x ← readFlt; Rd.lift (m.setAt i j x)) : Nat → Rd α Unit) buf) w
      fun r w' => (∃ e, r.1 = .error e) ∧ ∃ B, SetMat w w' m n o B) ∨
    (8 * (k * o) ≤ buf.length ∧ wp (Rd.loop k (fun i => Rd.loop o (fun j => do let x ← readFlt; Rd.lift (m.setAt i j x)) : Nat → Rd α Unit) buf) w
      fun r w' => r = (.ok (), buf.drop (8 * (k * o))) ∧ SetMat w w' m n o (mix A V k 0)) := by
  induction k with
  | zero =>
    right
    refine ⟨by omega, ?_, ?_⟩
    · rw [Nat.zero_mul]; rfl
    · exact (SetMat.refl hw).congr (by intro i j _ _; simp [mix])
  | succ k ih =>
    have e : 8 * ((k + 1) * o) = 8 * (k * o) + 8 * o := by ring
    rw [rd_loop_succ, rd_bind, e]
    have hrow : ∀ j, j < o → fltOf ((buf.drop (8 * (k * o))).drop (8 * j)) = V k j := by
      intro j hj
      rw [List.drop_drop, ← Nat.mul_add]
      exact hv k j (by omega) hj
    rcases ih (by omega) with ⟨h1, h2⟩ | ⟨h1, h2⟩
    · left
      refine ⟨by omega, ?_⟩
      rw [wp_bind]
      refine wp_mono h2 ?_
      rintro ⟨_, r⟩ w' ⟨⟨e, rfl⟩, hE⟩
      exact ⟨⟨e, rfl⟩, hE⟩
    · by_cases hl : buf.length < 8 * (k * o) + 8 * o
      · left
        refine ⟨hl, ?_⟩
        rw [wp_bind]
        refine wp_mono h2 ?_
        rintro _ w' ⟨rfl, hS⟩
        rcases corr_row hS hd (by omega) le_rfl hrow with ⟨-, h⟩ | ⟨h, -⟩
        · exact h
        · rw [List.length_drop] at h; omega
      · right
        refine ⟨by omega, ?_⟩
        rw [wp_bind]
        refine wp_mono h2 ?_
        rintro _ w' ⟨rfl, hS⟩
        rcases corr_row hS hd (by omega) le_rfl hrow with ⟨h, -⟩ | ⟨-, h⟩
        · rw [List.length_drop] at h; omega
        · refine wp_mono h ?_
          rintro _ w2 ⟨rfl, hw2⟩
          refine ⟨?_, ?_⟩
          · rw [List.drop_drop]
          · refine hw2.congr ?_
            intro i' j' hi' hj'
            simp only [mix]
            by_cases h1 : i' < k
            · simp [h1, Nat.lt_succ_of_lt h1]
            · by_cases h2 : i' = k
              · subst h2; simp [hj']
              · have : ¬ i' < k + 1 := by omega
                simp [h1, h2, this]

theorem corr_fill {w : World α} {m : Mat} {n o : Nat} {A : Nat → Nat → α} (buf : List Byte) (hw : IsMat w m n o A)
    (hd : DistinctRows w m n) {E : World α → Prop} (hE : ∀ w' B, SetMat w w' m n o B → E w') :
    Corr (Rd.loop n (fun i => Rd.loop o (fun j => do let x ← readFlt; Rd.lift (m.setAt i j x)) : Nat → Rd α Unit)) (pMat n o) buf w
      (fun _ V w' => SetMat w w' m n o V) E := by
  rcases corr_rows (V := fun i j => fltOf (buf.drop (8 * (i * o + j)))) hw hd le_rfl (fun _ _ _ _ => rfl) with ⟨h1, h2⟩ | ⟨h1, h2⟩
  · refine Corr.mk_err (if_pos h1) (wp_mono h2 ?_)
    rintro r w' ⟨he, B, hB⟩
    exact ⟨he, hE w' B hB⟩
  · refine Corr.mk_ok (if_neg (by omega)) (wp_mono h2 ?_)
    rintro _ w' ⟨rfl, hS⟩
    refine ⟨(), rfl, hS.congr ?_⟩
    intro i j hi hj
    rw [if_pos ⟨hi, hj⟩]
    simp [mix, hi]

theorem corr_fill1 {w : World α} {m : Mat} {o : Nat} {A : Nat → Nat → α} (buf : List Byte) (hw : IsMat w m 1 o A)
    (hd : DistinctRows w m 1) {E : World α → Prop} (hE : ∀ w' B, SetMat w w' m 1 o B → E w') :
    Corr (Rd.loop o (fun j => do let x ← readFlt; Rd.lift (m.setAt 0 j x) : Nat → Rd α Unit)) (pMat 1 o) buf w
      (fun _ V w' => SetMat w w' m 1 o V) E := by
  have h := corr_fill buf hw hd hE
  have e : (Rd.loop 1 (fun i => Rd.loop o (fun j => do let x ← readFlt; Rd.lift (m.setAt i j x)) : Nat → Rd α Unit)) =
      Rd.loop o (fun j => do let x ← readFlt; Rd.lift (m.setAt 0 j x) : Nat → Rd α Unit) := by
    rw [rd_loop_succ]
    rfl
  rwa [e] at h

/-! ### Layers -/

instance : LawfulMonad Parser := LawfulMonad.mk'
  (id_map := fun p => by funext buf; show Parser.bind p Parser.pure buf = _; unfold Parser.bind Parser.pure; cases p buf <;> rfl)
  (pure_bind := fun _ _ => rfl)
  (bind_assoc := fun p q r => by
    funext buf
    show Parser.bind (Parser.bind p q) r buf = Parser.bind p (fun x => Parser.bind (q x) r) buf
    unfold Parser.bind
    cases p buf <;> rfl)

theorem fail_bind (q : β → Parser γ) : (Parser.fail >>= q) = Parser.fail := rfl

theorem ite_bind (c : Prop) [Decidable c] (p p' : Parser β) (q : β → Parser γ) :
    (if c then p else p') >>= q = if c then p >>= q else p' >>= q := by split <;> rfl

/-- The data of a layer: type code, sizes, slope, dropout rate, weights, biases. -/
structure RawLayer (α : Type) where
  t : Int
  n : Nat
  o : Nat
  slope : α
  dropout : α
  W : Nat → Nat → α
  b : Nat → Nat → α

def pRaw : Parser (RawLayer α) := do
  let _ ← pMagic (str "LA")
  let t ← pInt8
  let n ← pInt32
  let o ← pInt32
  let slope ← pFlt
  let dropout ← pFlt
  if n < 1 ∨ o < 1 then Parser.fail else do
    let W ← pMat n.toNat o.toNat
    let b ← pMat 1 o.toNat
    return ⟨t, n.toNat, o.toNat, slope, dropout, W, b⟩

def RawLayer.spec (d : RawLayer α) : Parser (LayerSpec α) :=
  match kindOfCode d.t with
  | some k => return ⟨k, d.n, d.o, d.W, d.b 0, if k = .leaky then d.slope else Flt.zero, if k = .dropout then d.dropout else Flt.zero⟩
  | none => Parser.fail

theorem pLayer_raw : (pLayer : Parser (LayerSpec α)) = pRaw >>= RawLayer.spec := by
  unfold pLayer pRaw
  simp only [bind_assoc, ite_bind, fail_bind, pure_bind]
  rfl

/-- What loadLayerBuffer has read. -/
structure RawOk (w w' : World α) (s : SavedLayerData α) (d : RawLayer α) : Prop where
  allocs : OnlyAllocs w w'
  type : s.type = d.t
  inputs : s.inputs = d.n
  outputs : s.outputs = d.o
  slope : s.slope = d.slope
  dropout : s.dropout = d.dropout
  wmat : IsMat w' s.weights d.n d.o d.W
  bmat : IsMat w' s.biases 1 d.o d.b
  own : OwnParams w' s.weights s.biases d.n
  params : ∀ a, w'.IsParam s.weights s.biases d.n a → w.next ≤ a

theorem corr_newMatrixRd {r c : Nat} (hr : 0 < r) (hc : 0 < c) (buf : List Byte) (w : World α) {E : World α → Prop} :
    Corr (newMatrixRd (r : Int) (c : Int)) (Pure.pure () : Parser Unit) buf w (fun m _ w' => NewMat w w' m r c (fun _ _ => Flt.zero)) E := by
  unfold newMatrixRd
  refine Corr.lift (newMatrix_spec hr hc) ?_
  rintro ⟨m, err⟩ w' ⟨he, h⟩
  obtain rfl : err = none := he
  exact Corr.pure h

theorem corr_raw (buf : List Byte) (w : World α) :
    Corr loadLayerBuffer pRaw buf w (fun s d w' => RawOk w w' s d) (fun w' => OnlyAllocs w w') := by
  unfold loadLayerBuffer pRaw
  refine corr_magic (str "LA") 2 rfl _ buf w (E := fun w' => OnlyAllocs w w') (Frame.refl _ _) fun rest => ?_
  refine (corr_readInt8 _ w (Frame.refl _ _)).bind ?_
  rintro t _ rest w ⟨rfl, rfl⟩
  refine (corr_readInt32 _ w (Frame.refl _ _)).bind ?_
  rintro n _ rest w ⟨rfl, rfl⟩
  refine (corr_readInt32 _ w (Frame.refl _ _)).bind ?_
  rintro o _ rest w ⟨rfl, rfl⟩
  refine (corr_readFlt _ w (Frame.refl _ _)).bind ?_
  rintro slope _ rest w ⟨rfl, rfl⟩
  refine (corr_readFlt _ w (Frame.refl _ _)).bind ?_
  rintro dropout _ rest w ⟨rfl, rfl⟩
  by_cases hpos : n < 1 ∨ o < 1
  · rw [if_pos hpos]
    refine Corr.mk_err rfl ?_
    rw [rd_bind, wp_bind]
    unfold newMatrixRd
    rw [rd_bind, wp_bind]
    unfold Rd.lift
    rw [wp_bind]
    refine wp_of_ok (newMatrix_bad hpos w) ?_
    exact ⟨⟨_, rfl⟩, Frame.refl _ _⟩
  · rw [if_neg hpos]
    obtain ⟨n, rfl⟩ : ∃ k : Nat, n = k := ⟨n.toNat, by omega⟩
    obtain ⟨o, rfl⟩ : ∃ k : Nat, o = k := ⟨o.toNat, by omega⟩
    have hn : 0 < n := by omega
    have ho : 0 < o := by omega
    rw [Int.toNat_natCast, Int.toNat_natCast]
    refine (corr_newMatrixRd hn ho rest w).silent ?_
    intro wm w1 h1
    refine (corr_fill rest h1.mat h1.distinct (E := fun w' => OnlyAllocs w w') fun w' B hB => (h1.set hB).frame).bind ?_
    intro _ W rest w2 h2
    have h2 := h1.set h2
    refine (corr_newMatrixRd Nat.one_pos ho rest w2).silent ?_
    intro bm w3 h3
    refine (corr_fill1 rest h3.mat h3.distinct (E := fun w' => OnlyAllocs w w') fun w' B hB => h2.frame.trans (h3.set hB).frame).bind ?_
    intro _ b rest w4 h4
    have h4 := h3.set h4
    refine Corr.pure ⟨h2.frame.trans h4.frame, rfl, rfl, rfl, rfl, rfl, h2.mat.allocs h4.frame, h4.mat, ⟨?_, ?_, ?_⟩, ?_⟩
    · exact h2.distinct.frame h4.frame h2.mat.addr_lt (fun h => h)
    · intro a ha hb
      have := h4.fresh a hb
      have := h2.mat.isRow_lt ((h2.mat.isRow_frame h4.frame (fun h => h) a).1 ha)
      omega
    · have := h4.fresh_outer
      have := h2.mat.addr_lt
      dsimp only at *
      omega
    · rintro a (ha | ha)
      · exact h2.fresh a ((h2.mat.isRow_frame h4.frame (fun h => h) a).1 ha)
      · exact h2.frame.next_le.trans (h4.fresh a ha)

/-- Placing a layer object around matrices made since `w`. -/
theorem newLayer_put {w w1 : World α} {l : Layer α} {wm bm : Mat} {L : LayerSpec α} (ha : OnlyAllocs w w1) (hk : l.kind = L.kind)
    (hn : l.inputSize = L.n) (ho : l.outputSize = L.o) (hw : l.weights = some wm) (hb : l.biases = some bm) (hs : l.slope = L.slope)
    (hd : l.dropout = L.dropout) (hW : IsMat w1 wm L.n L.o L.W) (hB : IsMat w1 bm 1 L.o fun _ j => L.b j)
    (hown : OwnParams w1 wm bm L.n) (hp : ∀ a, w1.IsParam wm bm L.n a → w.next ≤ a) :
    NewLayer w { w1 with next := w1.next + 1, lay := upd w1.lay w1.next l } w1.next wm bm L := by
  set w2 : World α := { w1 with next := w1.next + 1, lay := upd w1.lay w1.next l } with hw2
  have h3 : OnlyAllocs w1 w2 :=
    ⟨Nat.le_succ _, fun _ _ _ => rfl, fun _ _ _ => rfl, fun a ha _ => upd_ne (by omega), fun _ _ _ => rfl, rfl, rfl,
      fun _ => rfl, fun _ => rfl, fun _ => rfl, rfl⟩
  have e : w2.lay w1.next = l := upd_same
  exact ⟨ha.trans h3, ⟨Nat.lt_succ_self _, by rw [e, hk], by rw [e, hn], by rw [e, ho], by rw [e, hw], by rw [e, hb], by rw [e, hs],
    by rw [e, hd], hW.allocs h3, hB.allocs h3⟩, ⟨hown.distinct, hown.disjoint, hown.outer⟩, ha.next_le, hp⟩

/-- LoadLayer. -/
theorem corr_layer (buf : List Byte) (w : World α) :
    Corr loadLayer pLayer buf w (fun lp L w' => ∃ wm bm, NewLayer w w' lp wm bm L) (fun w' => OnlyAllocs w w') := by
  rw [pLayer_raw]
  unfold loadLayer
  refine (corr_raw buf w).bind ?_
  intro s d rest w1 h
  unfold RawLayer.spec
  rw [h.type]
  cases kindOfCode d.t with
  | none => exact Corr.fail h.allocs
  | some k =>
    refine Corr.mk_ok rfl ?_
    exact ⟨_, rfl, s.weights, s.biases, newLayer_put h.allocs rfl h.inputs h.outputs rfl rfl (by dsimp only; rw [h.slope])
      (by dsimp only; rw [h.dropout]) h.wmat (h.bmat.congr fun i j hi _ => by rw [Nat.lt_one_iff.1 hi]) h.own h.params⟩

end NN
