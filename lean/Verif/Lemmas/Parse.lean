import Verif.Spec.Save
import Verif.Spec.Layer
import Mathlib.Data.List.Induction
import Mathlib.Data.List.Nodup
import Mathlib.Data.List.GetD
import Mathlib.Tactic.Ring
import Mathlib.Tactic.Linarith
/-
The data format of layer_data.go and model_data.go as a pure parser, and its behaviour on encoded data and on strict
prefixes of it.  The parser is a proof device: `Verif/Lemmas/Load.lean` shows that LoadLayer and LoadModel follow it.
-/

set_option linter.unusedSectionVars false

namespace NN

/-- The outcome of parsing: a value and the unread bytes, an error, or a panic. -/
inductive Res (β : Type) where
  | ok (b : β) (rest : List Byte)
  | err
  | bad

/-- A pure parser. -/
def Parser (β : Type) : Type := List Byte → Res β

namespace Parser
variable {β γ : Type}

protected def pure (b : β) : Parser β := fun buf => .ok b buf

protected def bind (p : Parser β) (q : β → Parser γ) : Parser γ := fun buf =>
  match p buf with
  | .ok b rest => q b rest
  | .err => .err
  | .bad => .bad

instance : Monad Parser where
  pure := Parser.pure
  bind := Parser.bind

def fail : Parser β := fun _ => .err

def stop : Parser β := fun _ => .bad

/-- n times. -/
def loop : Nat → (β → Parser β) → β → Parser β
  | 0, _, b => pure b
  | n + 1, p, b => do let b' ← loop n p b; p b'

theorem bind_ok {p : Parser β} {q : β → Parser γ} {buf rest : List Byte} {b : β} (h : p buf = .ok b rest) :
    (p >>= q) buf = q b rest := by
  show Parser.bind p q buf = _
  unfold Parser.bind; rw [h]

theorem bind_err {p : Parser β} {q : β → Parser γ} {buf : List Byte} (h : p buf = .err) : (p >>= q) buf = .err := by
  show Parser.bind p q buf = _
  unfold Parser.bind; rw [h]

theorem bind_bad {p : Parser β} {q : β → Parser γ} {buf : List Byte} (h : p buf = .bad) : (p >>= q) buf = .bad := by
  show Parser.bind p q buf = _
  unfold Parser.bind; rw [h]

theorem bind_inv {p : Parser β} {q : β → Parser γ} {buf rest : List Byte} {c : γ} (h : (p >>= q) buf = .ok c rest) :
    ∃ b r, p buf = .ok b r ∧ q b r = .ok c rest := by
  cases hp : p buf with
  | ok b r => exact ⟨b, r, rfl, (bind_ok hp).symm.trans h⟩
  | err => rw [bind_err hp] at h; cases h
  | bad => rw [bind_bad hp] at h; cases h

/-- `p` reads `enc` as `b`, whatever follows. -/
def Accepts (p : Parser β) (enc : List Byte) (b : β) : Prop := ∀ rest, p (enc ++ rest) = .ok b rest

/-- `p` reports an error on every strict prefix of `enc`. -/
def Rejects (p : Parser β) (enc : List Byte) : Prop := ∀ k, k < enc.length → p (enc.take k) = .err

/-- On every strict prefix of `enc`, `p` reports an error or uses up all bytes. -/
def Exhausts (p : Parser β) (enc : List Byte) : Prop :=
  ∀ k, k < enc.length → p (enc.take k) = .err ∨ ∃ b, p (enc.take k) = .ok b []

theorem Accepts.bind {p : Parser β} {q : β → Parser γ} {e1 e2 : List Byte} {b : β} {c : γ} (hp : Accepts p e1 b)
    (hq : Accepts (q b) e2 c) : Accepts (p >>= q) (e1 ++ e2) c := by
  intro rest
  rw [List.append_assoc, bind_ok (hp _)]
  exact hq rest

theorem Accepts.pure (b : β) : Accepts (Pure.pure b : Parser β) [] b := fun _ => rfl

theorem Rejects.pure (b : β) : Rejects (Pure.pure b : Parser β) [] := fun k hk => absurd hk (Nat.not_lt_zero k)

theorem take_split {e1 e2 : List Byte} {k : Nat} (hk : k < (e1 ++ e2).length) :
    (k < e1.length ∧ (e1 ++ e2).take k = e1.take k) ∨
      (e1.length ≤ k ∧ k - e1.length < e2.length ∧ (e1 ++ e2).take k = e1 ++ e2.take (k - e1.length)) := by
  rw [List.length_append] at hk
  by_cases h : k < e1.length
  · left
    refine ⟨h, ?_⟩
    rw [List.take_append_of_le_length (by omega)]
  · right
    refine ⟨by omega, by omega, ?_⟩
    rw [List.take_append, List.take_of_length_le (by omega)]

theorem Rejects.bind {p : Parser β} {q : β → Parser γ} {e1 e2 : List Byte} {b : β} (hp : Accepts p e1 b)
    (hr : Rejects p e1) (hq : Rejects (q b) e2) : Rejects (p >>= q) (e1 ++ e2) := by
  intro k hk
  rcases take_split hk with ⟨h1, h2⟩ | ⟨-, h1, h2⟩
  · rw [h2]; exact bind_err (hr k h1)
  · rw [h2, bind_ok (hp _)]; exact hq _ h1

theorem Exhausts.bind {p : Parser β} {q : β → Parser γ} {e1 e2 : List Byte} {b : β} (hp : Accepts p e1 b)
    (hr : Exhausts p e1) (hq : Rejects (q b) e2) (h0 : ∀ b', q b' [] = .err) : Rejects (p >>= q) (e1 ++ e2) := by
  intro k hk
  rcases take_split hk with ⟨h1, h2⟩ | ⟨-, h1, h2⟩
  · rw [h2]
    rcases hr k h1 with h | ⟨b', h⟩
    · exact bind_err h
    · rw [bind_ok h]; exact h0 b'
  · rw [h2, bind_ok (hp _)]; exact hq _ h1

theorem Accepts.loop {n : Nat} {p : β → Parser β} {enc : Nat → List Byte} {acc : Nat → β}
    (h : ∀ i, i < n → Accepts (p (acc i)) (enc i) (acc (i + 1))) :
    Accepts (loop n p (acc 0)) ((List.range n).flatMap enc) (acc n) := by
  induction n with
  | zero => exact Accepts.pure _
  | succ n ih =>
    rw [List.range_succ, List.flatMap_append, List.flatMap_singleton]
    exact Accepts.bind (ih fun i hi => h i (by omega)) (h n (by omega))

theorem Rejects.loop {n : Nat} {p : β → Parser β} {enc : Nat → List Byte} {acc : Nat → β}
    (h : ∀ i, i < n → Accepts (p (acc i)) (enc i) (acc (i + 1))) (hr : ∀ i, i < n → Rejects (p (acc i)) (enc i)) :
    Rejects (Parser.loop n p (acc 0)) ((List.range n).flatMap enc) := by
  induction n with
  | zero => exact Rejects.pure _
  | succ n ih =>
    rw [List.range_succ, List.flatMap_append, List.flatMap_singleton]
    exact Rejects.bind (Accepts.loop fun i hi => h i (by omega)) (ih (fun i hi => h i (by omega)) fun i hi => hr i (by omega))
      (hr n (by omega))

end Parser

open NN.Parser

/-! ### Numbers -/

theorem length_leBytes (k n : Nat) : (leBytes k n).length = k := by
  induction k generalizing n with
  | zero => rfl
  | succ k ih => simp [leBytes, ih]

theorem leNat_leBytes (k n : Nat) : leNat (leBytes k n) = n % 256 ^ k := by
  induction k generalizing n with
  | zero => simp [leBytes, leNat, Nat.mod_one]
  | succ k ih =>
    rw [leBytes, leNat, ih, BitVec.toNat_ofNat, pow_succ' 256, Nat.mod_mul]

theorem leNat_bits {k : Nat} (x : BitVec (8 * k)) : leNat (leBytes k x.toNat) = x.toNat := by
  rw [leNat_leBytes, Nat.mod_eq_of_lt]
  have := x.isLt
  rwa [pow_mul] at this

/-- k bytes. -/
def pFull (k : Nat) : Parser Nat := fun buf => if buf.length < k then .err else .ok (leNat (buf.take k)) (buf.drop k)

theorem pFull_acc {k : Nat} {enc : List Byte} (h : enc.length = k) : Accepts (pFull k) enc (leNat enc) := by
  intro rest
  unfold pFull
  rw [if_neg (by rw [List.length_append]; omega), List.take_left' h, List.drop_left' h]

theorem pFull_rej {k : Nat} {enc : List Byte} (h : enc.length = k) : Rejects (pFull k) enc := by
  intro i hi
  unfold pFull
  rw [if_pos (by rw [List.length_take]; omega)]

theorem pFull_nil {k : Nat} (hk : 0 < k) : pFull k [] = .err := if_pos hk

def pInt8 : Parser Int := do
  let n ← pFull 1
  return (BitVec.ofNat 8 n).toInt

def pInt32 : Parser Int := do
  let n ← pFull 4
  return (BitVec.ofNat 32 n).toInt

theorem acc_map {β γ : Type} {p : Parser β} {enc : List Byte} {b : β} (hp : Accepts p enc b) (f : β → γ) :
    Accepts (p >>= fun x => (pure (f x) : Parser γ)) enc (f b) := by
  have := hp.bind (q := fun x => (pure (f x) : Parser γ)) (Accepts.pure (f b))
  rwa [List.append_nil] at this

theorem rej_map {β γ : Type} {p : Parser β} {enc : List Byte} (hp : Rejects p enc) (f : β → γ) :
    Rejects (p >>= fun x => (pure (f x) : Parser γ)) enc := fun k hk => bind_err (hp k hk)

theorem pInt8_acc (n : Int) : Accepts pInt8 (encInt8 n) (toInt8 n) := by
  have h := acc_map (pFull_acc (length_leBytes 1 (BitVec.ofInt 8 n).toNat)) fun n => (BitVec.ofNat 8 n).toInt
  rw [leNat_bits (k := 1), BitVec.ofNat_toNat, BitVec.setWidth_eq] at h
  exact h

theorem pInt8_rej (n : Int) : Rejects pInt8 (encInt8 n) :=
  rej_map (pFull_rej (length_leBytes 1 (BitVec.ofInt 8 n).toNat)) _

theorem pInt8_nil : pInt8 [] = .err := rfl

theorem pInt32_acc (n : Int) : Accepts pInt32 (encInt32 n) (BitVec.ofInt 32 n).toInt := by
  have h := acc_map (pFull_acc (length_leBytes 4 (BitVec.ofInt 32 n).toNat)) fun n => (BitVec.ofNat 32 n).toInt
  rw [leNat_bits (k := 4), BitVec.ofNat_toNat, BitVec.setWidth_eq] at h
  exact h

theorem pInt32_rej (n : Int) : Rejects pInt32 (encInt32 n) :=
  rej_map (pFull_rej (length_leBytes 4 (BitVec.ofInt 32 n).toNat)) _

theorem toInt8_id {n : Int} (h1 : -128 ≤ n) (h2 : n < 128) : toInt8 n = n := by
  unfold toInt8
  rw [BitVec.toInt_ofInt]
  exact Int.bmod_eq_of_le (by norm_num; omega) (by norm_num; omega)

theorem toInt32_id {n : Int} (h1 : -2147483648 ≤ n) (h2 : n < 2147483648) : (BitVec.ofInt 32 n).toInt = n := by
  rw [BitVec.toInt_ofInt]
  exact Int.bmod_eq_of_le (by norm_num; omega) (by norm_num; omega)

/-! ### Buffer reads -/

/-- `buf.Read` into n bytes. -/
def pRead (n : Int) : Parser (List Byte) := fun buf =>
  if n < 0 then .bad
  else if buf = [] ∧ 0 < n then .err
  else .ok (buf.take n.toNat ++ List.replicate (n.toNat - (buf.take n.toNat).length) 0) (buf.drop n.toNat)

theorem pRead_acc (enc : List Byte) : Accepts (pRead enc.length) enc enc := by
  intro rest
  unfold pRead
  have h : ¬ (enc ++ rest = [] ∧ 0 < (enc.length : Int)) := by
    rintro ⟨h1, h2⟩
    rw [List.append_eq_nil_iff] at h1
    rw [h1.1] at h2
    exact absurd h2 (by decide)
  rw [if_neg (by omega), if_neg h, Int.toNat_natCast, List.take_left' rfl, List.drop_left' rfl, Nat.sub_self]
  simp

theorem pRead_exh (enc : List Byte) : Exhausts (pRead enc.length) enc := by
  intro k hk
  unfold pRead
  rw [if_neg (by omega)]
  split
  · exact .inl rfl
  · right
    rw [Int.toNat_natCast, List.drop_eq_nil_of_le (as := enc.take k) (i := enc.length) (by rw [List.length_take]; omega)]
    exact ⟨_, rfl⟩

/-- Magic bytes. -/
def pMagic (s : Str) : Parser Unit := do
  let b ← pRead s.length
  if b ≠ s then fail else pure ()

theorem pMagic_acc (s : Str) : Accepts (pMagic s) s () := by
  have := (pRead_acc s).bind (q := fun b => if b ≠ s then fail else pure ()) (e2 := []) (c := ()) (by simp [Accepts.pure])
  rwa [List.append_nil] at this

/-- No strict prefix of text without NUL bytes, padded with NUL bytes, is that text. -/
theorem pMagic_rej (s : Str) (h0 : ∀ b ∈ s, b ≠ 0) : Rejects (pMagic s) s := by
  intro k hk
  unfold pMagic
  rcases pRead_exh s k hk with h | ⟨b, h⟩
  · exact bind_err h
  · rw [bind_ok h]
    unfold pRead at h
    rw [if_neg (by omega)] at h
    split at h
    · cases h
    · rw [Int.toNat_natCast] at h
      injection h with h1 h2
      rw [if_pos]
      · rfl
      · rintro rfl
        have : (0 : Byte) ∈ b := by
          rw [← h1]
          refine List.mem_append_right _ (List.mem_replicate.2 ⟨?_, rfl⟩)
          rw [List.length_take, List.length_take]; omega
        exact h0 0 this rfl

variable {α : Type} [Flt α] [FltBits α]

/-! ### Floats and matrices -/

/-- The float64 in the first eight bytes. -/
def fltOf (buf : List Byte) : α := FltBits.ofBits (BitVec.ofNat 64 (leNat (buf.take 8)))

def pFlt : Parser α := do
  let n ← pFull 8
  return FltBits.ofBits (BitVec.ofNat 64 n)

theorem length_encFlt (x : α) : (encFlt x).length = 8 := length_leBytes _ _

theorem fltOf_enc (x : α) (rest : List Byte) : fltOf (encFlt x ++ rest) = x := by
  unfold fltOf
  rw [List.take_left' (length_encFlt x)]
  unfold encFlt
  rw [leNat_bits (k := 8), BitVec.ofNat_toNat, BitVec.setWidth_eq, FltBits.ofBits_toBits]

theorem pFlt_eq (buf : List Byte) : (pFlt : Parser α) buf = if buf.length < 8 then .err else .ok (fltOf buf) (buf.drop 8) := by
  unfold pFlt
  by_cases h : buf.length < 8
  · rw [if_pos h]; exact bind_err (if_pos h)
  · rw [if_neg h]; exact (bind_ok (if_neg h)).trans rfl

theorem pFlt_acc (x : α) : Accepts pFlt (encFlt x) x := by
  intro rest
  rw [pFlt_eq, if_neg (by rw [List.length_append, length_encFlt]; omega), fltOf_enc, List.drop_left' (length_encFlt x)]

theorem pFlt_rej (x : α) : Rejects (pFlt : Parser α) (encFlt x) := rej_map (pFull_rej (length_encFlt x)) _

theorem pFlt_nil : (pFlt : Parser α) [] = .err := by rw [pFlt_eq]; rfl

/-- An n × o matrix, row by row. -/
def pMat (n o : Nat) : Parser (Nat → Nat → α) := fun buf =>
  if buf.length < 8 * (n * o) then .err
  else .ok (fun i j => if i < n ∧ j < o then fltOf (buf.drop (8 * (i * o + j))) else Flt.zero) (buf.drop (8 * (n * o)))

theorem length_flatMap_range {n s : Nat} {f : Nat → List Byte} (hf : ∀ i, i < n → (f i).length = s) :
    ((List.range n).flatMap f).length = s * n := by
  induction n with
  | zero => simp
  | succ n ih =>
    rw [List.range_succ, List.flatMap_append, List.flatMap_singleton, List.length_append, ih fun i hi => hf i (by omega),
      hf n (by omega)]
    ring

theorem drop_flatMap_range {n s : Nat} {f : Nat → List Byte} (hf : ∀ i, i < n → (f i).length = s) {i : Nat} (hi : i < n)
    (rest : List Byte) : ∃ tl, ((List.range n).flatMap f ++ rest).drop (s * i) = f i ++ tl := by
  induction n generalizing rest with
  | zero => omega
  | succ n ih =>
    rw [List.range_succ, List.flatMap_append, List.flatMap_singleton, List.append_assoc]
    by_cases h : i < n
    · exact ih (fun i hi => hf i (by omega)) h _
    · obtain rfl : i = n := by omega
      refine ⟨rest, ?_⟩
      rw [List.drop_left' (length_flatMap_range fun j hj => hf j (by omega))]

theorem length_matBytes (n o : Nat) (W : Nat → Nat → α) : (matBytes n o W).length = 8 * (n * o) := by
  unfold matBytes
  rw [length_flatMap_range (s := 8 * o) fun i _ => length_flatMap_range fun j _ => length_encFlt _]
  ring

/-- The entries in range. -/
def inRange (n o : Nat) (W : Nat → Nat → α) (i j : Nat) : α := if i < n ∧ j < o then W i j else Flt.zero

/-- A matrix is read back entry by entry. -/
theorem pMat_acc (n o : Nat) (W : Nat → Nat → α) : Accepts (pMat n o) (matBytes n o W) (inRange n o W) := by
  intro rest
  unfold pMat
  rw [if_neg (by rw [List.length_append, length_matBytes]; omega), List.drop_left' (length_matBytes n o W)]
  congr 1
  funext i j
  unfold inRange
  by_cases hij : i < n ∧ j < o
  · rw [if_pos hij, if_pos hij]
    obtain ⟨hi, hj⟩ := hij
    have e : 8 * (i * o + j) = 8 * o * i + 8 * j := by ring
    rw [e, ← List.drop_drop]
    obtain ⟨tl, h⟩ := drop_flatMap_range (s := 8 * o) (f := fun i => (List.range o).flatMap fun j => encFlt (W i j))
      (fun i _ => length_flatMap_range fun j _ => length_encFlt _) hi rest
    unfold matBytes
    rw [h]
    obtain ⟨tl', h'⟩ := drop_flatMap_range (s := 8) (f := fun j => encFlt (W i j)) (fun j _ => length_encFlt _) hj tl
    rw [h', fltOf_enc]
  · rw [if_neg hij, if_neg hij]

theorem pMat_rej (n o : Nat) (W : Nat → Nat → α) : Rejects (pMat n o : Parser (Nat → Nat → α)) (matBytes n o W) := by
  intro k hk
  unfold pMat
  rw [length_matBytes] at hk
  rw [if_pos (by rw [List.length_take]; omega)]

/-! ### Layers -/

/-- The same layer, with parameters outside the matrices set to 0. -/
def LayerSpec.norm (L : LayerSpec α) : LayerSpec α :=
  { L with W := inRange L.n L.o L.W, b := fun j => inRange 1 L.o (fun _ j => L.b j) 0 j }

/-- A layer. -/
def pLayer : Parser (LayerSpec α) := do
  let _ ← pMagic (str "LA")
  let t ← pInt8
  let n ← pInt32
  let o ← pInt32
  let slope ← pFlt
  let dropout ← pFlt
  if n < 1 ∨ o < 1 then fail else do
    let W ← pMat n.toNat o.toNat
    let b ← pMat 1 o.toNat
    match kindOfCode t with
    | some k => return ⟨k, n.toNat, o.toNat, W, b 0, if k = .leaky then slope else Flt.zero,
        if k = .dropout then dropout else Flt.zero⟩
    | none => fail

theorem kindOfCode_code (k : LayerKind) : kindOfCode k.code = some k := by cases k <;> rfl

theorem code_toInt8 (k : LayerKind) : toInt8 k.code = k.code := by cases k <;> decide

theorem LayerSpec.Saveable.slope_eq {L : LayerSpec α} (h : L.Saveable) :
    (if L.kind = .leaky then L.slope else Flt.zero) = L.slope := by
  by_cases e : L.kind = .leaky
  · rw [if_pos e]
  · rw [if_neg e, h.slope e]

theorem LayerSpec.Saveable.dropout_eq {L : LayerSpec α} (h : L.Saveable) :
    (if L.kind = .dropout then L.dropout else Flt.zero) = L.dropout := by
  by_cases e : L.kind = .dropout
  · rw [if_pos e]
  · rw [if_neg e, h.dropout e]

theorem pLayer_acc (L : LayerSpec α) (h : L.Saveable) : Accepts pLayer (layerBytes L) L.norm := by
  have hn := h.n
  have ho := h.o
  have hn' := h.nlt
  have ho' := h.olt
  unfold pLayer layerBytes
  refine (pMagic_acc _).bind ((pInt8_acc _).bind ((pInt32_acc _).bind ((pInt32_acc _).bind ((pFlt_acc _).bind ((pFlt_acc _).bind ?_)))))
  rw [toInt32_id (by omega) (by omega), toInt32_id (by omega) (by omega), if_neg (by omega), code_toInt8, kindOfCode_code,
    Int.toNat_natCast, Int.toNat_natCast]
  refine (pMat_acc _ _ _).bind ?_
  dsimp only
  rw [h.slope_eq, h.dropout_eq]
  exact acc_map (pMat_acc 1 L.o fun _ j => L.b j) fun b =>
    (⟨L.kind, L.n, L.o, inRange L.n L.o L.W, b 0, L.slope, L.dropout⟩ : LayerSpec α)

theorem str_LA_nul : ∀ b ∈ str "LA", b ≠ 0 := by decide

theorem pLayer_rej (L : LayerSpec α) (h : L.Saveable) : Rejects (pLayer : Parser (LayerSpec α)) (layerBytes L) := by
  have hn := h.n
  have ho := h.o
  have hn' := h.nlt
  have ho' := h.olt
  unfold pLayer layerBytes
  refine (pMagic_rej _ str_LA_nul).bind (pMagic_acc _) ((pInt8_rej _).bind (pInt8_acc _) ((pInt32_rej _).bind (pInt32_acc _)
    ((pInt32_rej _).bind (pInt32_acc _) ((pFlt_rej _).bind (pFlt_acc _) ((pFlt_rej _).bind (pFlt_acc _) ?_)))))
  rw [toInt32_id (by omega) (by omega), toInt32_id (by omega) (by omega), if_neg (by omega), code_toInt8, kindOfCode_code,
    Int.toNat_natCast, Int.toNat_natCast]
  exact (pMat_rej _ _ _).bind (pMat_acc _ _ _) (rej_map (pMat_rej _ _ _) _)

theorem pInt32_lt {buf rest : List Byte} {n : Int} (h : pInt32 buf = .ok n rest) : n < 2 ^ 31 := by
  obtain ⟨b, r, -, h⟩ := bind_inv h
  injection h with h _
  rw [← h]
  exact BitVec.toInt_lt

theorem pInt32_le {buf rest : List Byte} {n : Int} (h : pInt32 buf = .ok n rest) : -(2 ^ 31) ≤ n := by
  obtain ⟨b, r, -, h⟩ := bind_inv h
  injection h with h _
  rw [← h]
  exact BitVec.le_toInt _

theorem pInt8_lt {buf rest : List Byte} {n : Int} (h : pInt8 buf = .ok n rest) : n < 128 := by
  obtain ⟨b, r, -, h⟩ := bind_inv h
  injection h with h _
  rw [← h]
  exact BitVec.toInt_lt

theorem pInt8_le {buf rest : List Byte} {n : Int} (h : pInt8 buf = .ok n rest) : -128 ≤ n := by
  obtain ⟨b, r, -, h⟩ := bind_inv h
  injection h with h _
  rw [← h]
  exact BitVec.le_toInt _

/-- Whatever is parsed is saveable. -/
theorem pLayer_saveable {buf rest : List Byte} {L : LayerSpec α} (h : pLayer buf = .ok L rest) : L.Saveable := by
  unfold pLayer at h
  obtain ⟨-, r1, -, h⟩ := bind_inv h
  obtain ⟨t, r2, -, h⟩ := bind_inv h
  obtain ⟨n, r3, h3, h⟩ := bind_inv h
  obtain ⟨o, r4, h4, h⟩ := bind_inv h
  obtain ⟨sl, r5, -, h⟩ := bind_inv h
  obtain ⟨dr, r6, -, h⟩ := bind_inv h
  have hn := pInt32_lt h3
  have ho := pInt32_lt h4
  split at h
  · cases h
  · rename_i hpos
    obtain ⟨W, r7, -, h⟩ := bind_inv h
    obtain ⟨b, r8, -, h⟩ := bind_inv h
    cases hk : kindOfCode t with
    | some k =>
      rw [hk] at h
      injection h with h _
      rw [← h]
      exact ⟨by dsimp only; omega, by dsimp only; omega, by dsimp only; omega, by dsimp only; omega, fun e => if_neg e,
        fun e => if_neg e⟩
    | none => rw [hk] at h; cases h

/-! ### Models -/

/-- The content of a file. -/
structure RawModel (α : Type) where
  version : Str
  size : Int
  ins : Int
  outs : Int
  lossType : Int
  accType : Int
  accPrec : α
  optType : Int
  values : GoMap α
  layers : List (LayerSpec α)

/-- One optimizer value. -/
def pPair (values : GoMap α) : Parser (GoMap α) := do
  let k ← pInt8
  let key ← pRead k
  let v ← pFlt
  return values.put key v

def pNext (ls : List (LayerSpec α)) : Parser (List (LayerSpec α)) := do
  let L ← pLayer
  return ls ++ [L]

/-- Everything after the version. -/
def pBody (version : Str) : Parser (RawModel α) := do
  let size ← pInt8
  let ins ← pInt32
  let outs ← pInt32
  let lossType ← pInt8
  let accType ← pInt8
  let accPrec ← pFlt
  let optType ← pInt8
  let count ← pInt8
  let values ← Parser.loop count.toNat pPair []
  let layers ← Parser.loop size.toNat pNext []
  return ⟨version, size, ins, outs, lossType, accType, accPrec, optType, values, layers⟩

/-- A whole model.  Another version is reported to the logger, which panics without InitLogger. -/
def pModel (logger : Bool) : Parser (RawModel α) := do
  let _ ← pMagic (str "NNML")
  let version ← pRead 5
  if version ≠ VERSION ∧ logger = false then stop else pBody version

/-- Everything after the version, without the layers. -/
def headBytes (d : RawModel α) (count : Int) (order : GoMap α) : List Byte :=
  encInt8 d.size ++ (encInt32 d.ins ++ (encInt32 d.outs ++ (encInt8 d.lossType ++ (encInt8 d.accType ++ (encFlt d.accPrec ++
    (encInt8 d.optType ++ (encInt8 count ++ order.flatMap encPair)))))))

theorem flatMap_range {β : Type} (xs : List β) (f : β → List Byte) (d : β) :
    xs.flatMap f = (List.range xs.length).flatMap fun i => f (xs.getD i d) := by
  induction xs using List.reverseRecOn with
  | nil => rfl
  | append_singleton xs x ih =>
    rw [List.flatMap_append, List.flatMap_singleton, List.length_append, List.length_singleton, List.range_succ, List.flatMap_append,
      List.flatMap_singleton, ih]
    congr 1
    · refine List.flatMap_congr fun i hi => ?_
      rw [List.mem_range] at hi
      rw [List.getD_append _ _ _ _ hi]
    · rw [List.getD_append_right _ _ _ _ le_rfl, Nat.sub_self]; rfl

/-- The keys are distinct and short. -/
structure GoMap.Keys (m : GoMap α) : Prop where
  nodup : (m.map Prod.fst).Nodup
  short : ∀ p ∈ m, p.1.length < 128

theorem put_new {m : GoMap α} {k : Str} {v : α} (h : k ∉ m.map Prod.fst) : m.put k v = m ++ [(k, v)] := by
  unfold GoMap.put
  rw [if_neg]
  intro h'
  rw [List.any_eq_true] at h'
  obtain ⟨p, h1, h2⟩ := h'
  exact h (List.mem_map.2 ⟨p, h1, by simpa using h2⟩)

theorem pPair_acc {values : GoMap α} {kv : Str × α} (hl : kv.1.length < 128) (hk : kv.1 ∉ values.map Prod.fst) :
    Accepts (pPair values) (encPair kv) (values ++ [kv]) := by
  unfold pPair encPair
  rw [List.append_assoc]
  refine (pInt8_acc _).bind ?_
  rw [toInt8_id (by omega) (by omega)]
  refine (pRead_acc _).bind ?_
  rw [← put_new hk]
  exact acc_map (pFlt_acc _) _

theorem pPair_rej {values : GoMap α} {kv : Str × α} (hl : kv.1.length < 128) : Rejects (pPair values) (encPair kv) := by
  unfold pPair encPair
  rw [List.append_assoc]
  refine (pInt8_rej _).bind (pInt8_acc _) ?_
  rw [toInt8_id (by omega) (by omega)]
  refine (pRead_exh _).bind (pRead_acc _) (rej_map (pFlt_rej _) _) fun b => ?_
  exact bind_err pFlt_nil

theorem pPairs_step {order : GoMap α} (h : order.Keys) {i : Nat} (hi : i < order.length) (d : Str × α) :
    (order.getD i d).1.length < 128 ∧ (order.getD i d).1 ∉ (order.take i).map Prod.fst ∧
      order.take i ++ [order.getD i d] = order.take (i + 1) := by
  have e : order.getD i d = order[i] := by rw [List.getD_eq_getElem _ _ hi]
  rw [e]
  refine ⟨h.short _ (List.getElem_mem hi), ?_, ?_⟩
  · intro hm
    rw [List.mem_map] at hm
    obtain ⟨p, h1, h2⟩ := hm
    obtain ⟨j, hj, h3⟩ := List.getElem_of_mem h1
    rw [List.length_take] at hj
    rw [List.getElem_take] at h3
    have hne : j ≠ i := by omega
    refine hne ((List.Nodup.getElem_inj_iff h.nodup (hi := by rw [List.length_map]; omega)
      (hj := by rw [List.length_map]; omega)).1 ?_)
    rw [List.getElem_map, List.getElem_map, h3, h2]
  · rw [List.take_succ_eq_append_getElem hi]

theorem pPairs_acc {order : GoMap α} (h : order.Keys) : Accepts (Parser.loop order.length pPair []) (order.flatMap encPair) order := by
  rw [flatMap_range order encPair ([], Flt.zero)]
  have := Accepts.loop (n := order.length) (p := pPair) (enc := fun i => encPair (order.getD i ([], Flt.zero)))
    (acc := fun i => order.take i) fun i hi => by
      obtain ⟨h1, h2, h3⟩ := pPairs_step h hi ([], Flt.zero)
      rw [← h3]
      exact pPair_acc h1 h2
  rwa [List.take_zero, List.take_length] at this

theorem pPairs_rej {order : GoMap α} (h : order.Keys) :
    Rejects (Parser.loop order.length (pPair (α := α)) []) (order.flatMap encPair) := by
  rw [flatMap_range order encPair ([], Flt.zero)]
  have := Rejects.loop (n := order.length) (p := pPair) (enc := fun i => encPair (order.getD i ([], Flt.zero)))
    (acc := fun i => order.take i) (fun i hi => by
      obtain ⟨h1, h2, h3⟩ := pPairs_step h hi ([], Flt.zero)
      rw [← h3]
      exact pPair_acc h1 h2) fun i hi => pPair_rej (pPairs_step h hi ([], Flt.zero)).1
  rwa [List.take_zero] at this

theorem pLayers_acc {L : Nat → LayerSpec α} {n : Nat} (h : ∀ i, i < n → (L i).Saveable) :
    Accepts (Parser.loop n pNext []) ((List.range n).flatMap fun i => layerBytes (L i)) ((List.range n).map fun i => (L i).norm) :=
  Accepts.loop (acc := fun n => (List.range n).map fun i => (L i).norm) fun i hi => by
    rw [List.range_succ, List.map_append]
    exact acc_map (pLayer_acc _ (h i hi)) _

theorem pLayers_rej {L : Nat → LayerSpec α} {n : Nat} (h : ∀ i, i < n → (L i).Saveable) :
    Rejects (Parser.loop n (pNext (α := α)) []) ((List.range n).flatMap fun i => layerBytes (L i)) :=
  Rejects.loop (acc := fun n => (List.range n).map fun i => (L i).norm) (fun i hi => by
    rw [List.range_succ, List.map_append]
    exact acc_map (pLayer_acc _ (h i hi)) _) fun i hi => rej_map (pLayer_rej _ (h i hi)) _

/-- The bytes of a model with the layers `L 0`, ..., `L (n-1)`. -/
def modelBytes (d : RawModel α) (count : Int) (order : GoMap α) (n : Nat) (L : Nat → LayerSpec α) : List Byte :=
  str "NNML" ++ (VERSION ++ (headBytes d count order ++ (List.range n).flatMap fun i => layerBytes (L i)))

/-- What the format can express. -/
structure RawModel.Fits (d : RawModel α) (count : Int) (order : GoMap α) : Prop where
  version : d.version = VERSION
  size : toInt8 d.size = d.size
  ins : -2147483648 ≤ d.ins ∧ d.ins < 2147483648
  outs : -2147483648 ≤ d.outs ∧ d.outs < 2147483648
  lossType : toInt8 d.lossType = d.lossType
  accType : toInt8 d.accType = d.accType
  optType : toInt8 d.optType = d.optType
  count : count = order.length
  few : order.length < 128
  keys : order.Keys
  values : d.values = order

theorem str_NNML_nul : ∀ b ∈ str "NNML", b ≠ 0 := by decide

theorem pModel_acc {d : RawModel α} {count : Int} {order : GoMap α} {L : Nat → LayerSpec α} (h : d.Fits count order) (logger : Bool)
    (hl : d.layers = (List.range d.size.toNat).map fun i => (L i).norm) (hs : ∀ i, i < d.size.toNat → (L i).Saveable) :
    Accepts (pModel logger) (modelBytes d count order d.size.toNat L) d := by
  unfold pModel modelBytes
  refine (pMagic_acc _).bind ?_
  refine (show Accepts (pRead 5) VERSION VERSION from pRead_acc VERSION).bind ?_
  rw [if_neg (by simp)]
  unfold pBody headBytes
  simp only [List.append_assoc]
  refine (pInt8_acc _).bind ((pInt32_acc _).bind ((pInt32_acc _).bind ((pInt8_acc _).bind ((pInt8_acc _).bind ((pFlt_acc _).bind
    ((pInt8_acc _).bind ((pInt8_acc _).bind ?_)))))))
  have hf := h.few
  rw [h.size, toInt32_id h.ins.1 h.ins.2, toInt32_id h.outs.1 h.outs.2, h.lossType, h.accType, h.optType, h.count,
    toInt8_id (by omega) (by omega), Int.toNat_natCast]
  refine (pPairs_acc h.keys).bind ?_
  have := acc_map (pLayers_acc hs) fun ls => (⟨VERSION, d.size, d.ins, d.outs, d.lossType, d.accType, d.accPrec, d.optType, order, ls⟩ :
    RawModel α)
  rw [← hl, ← h.version, ← h.values] at this
  rw [← h.version, ← h.values]
  exact this

theorem pModel_rej {d : RawModel α} {count : Int} {order : GoMap α} {L : Nat → LayerSpec α} (h : d.Fits count order)
    (hs : ∀ i, i < d.size.toNat → (L i).Saveable) :
    Rejects (pModel true : Parser (RawModel α)) (modelBytes d count order d.size.toNat L) := by
  unfold pModel modelBytes
  refine (pMagic_rej _ str_NNML_nul).bind (pMagic_acc _) ?_
  refine (show Exhausts (pRead 5) VERSION from pRead_exh VERSION).bind (show Accepts (pRead 5) VERSION VERSION from pRead_acc VERSION) ?_
    ?_
  · rw [if_neg (by simp)]
    unfold pBody headBytes
    simp only [List.append_assoc]
    refine (pInt8_rej _).bind (pInt8_acc _) ((pInt32_rej _).bind (pInt32_acc _) ((pInt32_rej _).bind (pInt32_acc _)
      ((pInt8_rej _).bind (pInt8_acc _) ((pInt8_rej _).bind (pInt8_acc _) ((pFlt_rej _).bind (pFlt_acc _)
      ((pInt8_rej _).bind (pInt8_acc _) ((pInt8_rej _).bind (pInt8_acc _) ?_)))))))
    have hf := h.few
    rw [h.size, h.count, toInt8_id (by omega) (by omega), Int.toNat_natCast]
    exact (pPairs_rej h.keys).bind (pPairs_acc h.keys) (rej_map (pLayers_rej hs) _)
  · intro b
    rw [if_neg (by simp)]
    exact bind_err pInt8_nil

end NN
