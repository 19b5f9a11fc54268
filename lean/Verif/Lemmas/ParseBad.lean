import Verif.Lemmas.Save
/- Where the parser panics; how it depends on the version. -/

set_option linter.unusedSectionVars false

namespace NN
variable {α : Type} [Flt α] [FltBits α]
open NN.Go NN.Parser

variable {β γ : Type}

theorem bad_inv {p : Parser β} {q : β → Parser γ} {buf : List Byte} (h : (p >>= q) buf = .bad) :
    p buf = .bad ∨ ∃ b r, p buf = .ok b r ∧ q b r = .bad := by
  cases hp : p buf with
  | ok b r => exact .inr ⟨b, r, rfl, (Parser.bind_ok hp).symm.trans h⟩
  | err => rw [Parser.bind_err hp] at h; cases h
  | bad => exact .inl rfl

/-- Never panics. -/
def NoBad (p : Parser β) : Prop := ∀ buf, p buf ≠ .bad

theorem NoBad.bind {p : Parser β} {q : β → Parser γ} (hp : NoBad p) (hq : ∀ b, NoBad (q b)) : NoBad (p >>= q) := by
  intro buf h
  rcases bad_inv h with h | ⟨b, r, -, h⟩
  · exact hp buf h
  · exact hq b r h

theorem NoBad.pure (b : β) : NoBad (Pure.pure b : Parser β) := fun buf h => by cases h

theorem NoBad.fail : NoBad (Parser.fail : Parser β) := fun buf h => by cases h

theorem noBad_full (k : Nat) : NoBad (pFull k) := by
  intro buf h
  unfold pFull at h
  split at h <;> cases h

theorem noBad_int8 : NoBad pInt8 := (noBad_full 1).bind fun _ => NoBad.pure _
theorem noBad_int32 : NoBad pInt32 := (noBad_full 4).bind fun _ => NoBad.pure _
theorem noBad_flt : NoBad (pFlt : Parser α) := (noBad_full 8).bind fun _ => NoBad.pure _

theorem noBad_read {n : Int} (hn : 0 ≤ n) : NoBad (pRead n) := by
  intro buf h
  unfold pRead at h
  rw [if_neg (by omega)] at h
  split at h <;> cases h

theorem noBad_magic (s : Str) : NoBad (pMagic s) := by
  refine (noBad_read (by omega)).bind fun b => ?_
  split
  · exact NoBad.fail
  · exact NoBad.pure _

theorem noBad_mat (n o : Nat) : NoBad (pMat n o : Parser (Nat → Nat → α)) := by
  intro buf h
  unfold pMat at h
  split at h <;> cases h

theorem noBad_layer : NoBad (pLayer : Parser (LayerSpec α)) := by
  unfold pLayer
  refine (noBad_magic _).bind fun _ => noBad_int8.bind fun t => noBad_int32.bind fun n => noBad_int32.bind fun o =>
    noBad_flt.bind fun slope => noBad_flt.bind fun dropout => ?_
  split
  · exact NoBad.fail
  · refine (noBad_mat _ _).bind fun W => (noBad_mat _ _).bind fun b => ?_
    cases kindOfCode t with
    | some k => exact NoBad.pure _
    | none => exact NoBad.fail

theorem noBad_next (ls : List (LayerSpec α)) : NoBad (pNext ls) := noBad_layer.bind fun _ => NoBad.pure _

theorem NoBad.loop {n : Nat} {p : β → Parser β} (h : ∀ b, NoBad (p b)) (b : β) : NoBad (Parser.loop n p b) := by
  induction n with
  | zero => exact NoBad.pure _
  | succ n ih => exact ih.bind h

/-- A full read takes the first k bytes. -/
theorem full_inv {k n : Nat} {buf rest : List Byte} (h : pFull k buf = .ok n rest) : ∃ e, buf = e ++ rest ∧ e.length = k ∧ n = leNat e := by
  unfold pFull at h
  split at h
  · cases h
  · rename_i hk
    injection h with h1 h2
    refine ⟨buf.take k, ?_, ?_, h1.symm⟩
    · rw [← h2, List.take_append_drop]
    · rw [List.length_take]; omega

theorem int8_inv {n : Int} {buf rest : List Byte} (h : pInt8 buf = .ok n rest) : ∃ b : Byte, buf = b :: rest ∧ n = b.toInt := by
  obtain ⟨k, r, h1, h⟩ := bind_inv h
  injection h with h2 h3
  subst h3
  obtain ⟨e, he, hl, rfl⟩ := full_inv h1
  match e, hl with
  | [b], _ =>
    refine ⟨b, he, ?_⟩
    rw [← h2]
    simp [leNat]

theorem int32_inv {n : Int} {buf rest : List Byte} (h : pInt32 buf = .ok n rest) : ∃ e, buf = e ++ rest ∧ e.length = 4 := by
  obtain ⟨k, r, h1, h⟩ := bind_inv h
  injection h with h2 h3
  subst h3
  obtain ⟨e, he, hl, rfl⟩ := full_inv h1
  exact ⟨e, he, hl⟩

theorem flt_inv {x : α} {buf rest : List Byte} (h : pFlt buf = .ok x rest) : ∃ e, buf = e ++ rest ∧ e.length = 8 := by
  obtain ⟨k, r, h1, h⟩ := bind_inv h
  injection h with h2 h3
  subst h3
  obtain ⟨e, he, hl, rfl⟩ := full_inv h1
  exact ⟨e, he, hl⟩

/-- A read takes the first n bytes, or all of them. -/
theorem read_inv {n : Nat} {b buf rest : List Byte} (h : pRead n buf = .ok b rest) :
    rest = [] ∨ ∃ e, buf = e ++ rest ∧ e.length = n ∧ b = e := by
  unfold pRead at h
  rw [if_neg (by omega)] at h
  split at h
  · cases h
  · injection h with h1 h2
    rw [Int.toNat_natCast] at h1 h2
    by_cases hl : buf.length < n
    · left; rw [← h2]; exact List.drop_eq_nil_of_le (by omega)
    · right
      refine ⟨buf.take n, by rw [← h2, List.take_append_drop], by rw [List.length_take]; omega, ?_⟩
      rw [← h1, List.length_take, Nat.min_eq_left (by omega), Nat.sub_self, List.replicate_zero, List.append_nil]

/-- Well-formed optimizer values: length of the key, key, number. -/
def IsPair (p : List Byte) : Prop := ∃ (k : Byte) (rest : List Byte), p = k :: rest ∧ 0 ≤ k.toInt ∧ (rest.length : Int) = k.toInt + 8

theorem pair_inv {values v' : GoMap α} {buf rest : List Byte} (h : pPair values buf = .ok v' rest) : ∃ p, buf = p ++ rest ∧ IsPair p := by
  unfold pPair at h
  obtain ⟨k, r1, h1, h⟩ := bind_inv h
  obtain ⟨key, r2, h2, h⟩ := bind_inv h
  obtain ⟨x, r3, h3, h⟩ := bind_inv h
  injection h with _ h
  subst h
  obtain ⟨b, rfl, rfl⟩ := int8_inv h1
  obtain ⟨e, rfl, he⟩ := flt_inv h3
  have hb : 0 ≤ b.toInt := by
    by_contra hc
    unfold pRead at h2
    rw [if_pos (by omega)] at h2
    cases h2
  obtain ⟨n, hn⟩ : ∃ n : Nat, b.toInt = n := ⟨b.toInt.toNat, by omega⟩
  rw [hn] at h2
  rcases read_inv h2 with h | ⟨e', rfl, hl, -⟩
  · rw [List.append_eq_nil_iff] at h
    rw [h.1] at he; simp at he
  · refine ⟨b :: (e' ++ e), by simp, b, e' ++ e, rfl, hb, ?_⟩
    rw [List.length_append, hn]
    omega

theorem pair_bad {values : GoMap α} {buf : List Byte} (h : pPair values buf = .bad) : ∃ (b : Byte) (rest : List Byte), buf = b :: rest ∧ b.toInt < 0 := by
  unfold pPair at h
  rcases bad_inv h with h | ⟨k, r1, h1, h⟩
  · exact absurd h (noBad_int8 _)
  obtain ⟨b, rfl, rfl⟩ := int8_inv h1
  refine ⟨b, r1, rfl, ?_⟩
  by_contra hc
  rcases bad_inv h with h | ⟨key, r2, -, h⟩
  · exact noBad_read (not_lt.1 hc) _ h
  · exact (noBad_flt.bind fun _ => NoBad.pure _) _ h

theorem pairs_inv {n : Nat} {values v' : GoMap α} {buf rest : List Byte} (h : Parser.loop n pPair values buf = .ok v' rest) :
    ∃ ps : List (List Byte), ps.length = n ∧ buf = ps.flatten ++ rest ∧ ∀ p ∈ ps, IsPair p := by
  induction n generalizing v' rest with
  | zero =>
    injection h with _ h
    subst h
    exact ⟨[], rfl, rfl, fun p hp => by cases hp⟩
  | succ n ih =>
    obtain ⟨v1, r1, h1, h2⟩ := bind_inv h
    obtain ⟨ps, hl, rfl, hp⟩ := ih h1
    obtain ⟨p, rfl, hpp⟩ := pair_inv h2
    refine ⟨ps ++ [p], by simp [hl], by simp, fun q hq => ?_⟩
    rcases List.mem_append.1 hq with hq | hq
    · exact hp q hq
    · rw [List.mem_singleton.1 hq]; exact hpp

theorem pairs_bad {n : Nat} {values : GoMap α} {buf : List Byte} (h : Parser.loop n pPair values buf = .bad) :
    ∃ (ps : List (List Byte)) (b : Byte) (rest : List Byte), ps.length < n ∧ buf = ps.flatten ++ b :: rest ∧ (∀ p ∈ ps, IsPair p) ∧ b.toInt < 0 := by
  induction n with
  | zero => cases h
  | succ n ih =>
    rcases bad_inv h with h | ⟨v1, r1, h1, h2⟩
    · obtain ⟨ps, b, rest, h1, h2⟩ := ih h
      exact ⟨ps, b, rest, by omega, h2⟩
    · obtain ⟨ps, hl, rfl, hp⟩ := pairs_inv h1
      obtain ⟨b, rest, rfl, hb⟩ := pair_bad h2
      exact ⟨ps, b, rest, by omega, rfl, hp, hb⟩

theorem magic_inv {s : Str} (h0 : ∀ b ∈ s, b ≠ 0) {buf rest : List Byte} (h : pMagic s buf = .ok () rest) : buf = s ++ rest := by
  unfold pMagic at h
  obtain ⟨b, r, h1, h⟩ := bind_inv h
  have hb : b = s := by
    by_contra hb
    rw [if_pos hb] at h; cases h
  rw [if_neg (not_not.2 hb)] at h
  injection h with _ h
  subst h
  rcases read_inv h1 with hr | ⟨e, rfl, -, rfl⟩
  · by_cases hl : s.length ≤ buf.length
    · subst hr
      unfold pRead at h1
      rw [if_neg (by omega)] at h1
      split at h1
      · cases h1
      · injection h1 with h1 h2
        rw [Int.toNat_natCast] at h1 h2
        rw [List.drop_eq_nil_iff] at h2
        have e : buf.length = s.length := by omega
        rw [List.length_take, e, Nat.min_self, Nat.sub_self, List.replicate_zero, List.append_nil, ← e, List.take_length] at h1
        rw [h1, hb, List.append_nil]
    · exfalso
      unfold pRead at h1
      rw [if_neg (by omega)] at h1
      split at h1
      · cases h1
      · injection h1 with h1 h2
        rw [Int.toNat_natCast] at h1
        rw [hb] at h1
        refine h0 0 ?_ rfl
        rw [← h1, List.mem_append]
        right
        rw [List.mem_replicate]
        rw [List.length_take]
        exact ⟨by omega, rfl⟩
  · rw [hb]

/-- With a logger, a panic means a negative length of a key. -/
theorem model_bad {buf : List Byte} (h : (pModel true buf : Res (RawModel α)) = .bad) :
    ∃ (head : List Byte) (count : Byte) (ps : List (List Byte)) (b : Byte) (rest : List Byte), buf = head ++ count :: (ps.flatten ++ b :: rest) ∧
      head.length = 29 ∧ (ps.length : Int) < count.toInt ∧ (∀ p ∈ ps, IsPair p) ∧ b.toInt < 0 := by
  unfold pModel at h
  rcases bad_inv h with h | ⟨_, r1, h1, h⟩
  · exact absurd h (noBad_magic _ _)
  have e1 := magic_inv str_NNML_nul h1
  rcases bad_inv h with h | ⟨v, r2, h2, h⟩
  · exact absurd h (noBad_read (by decide) _)
  rw [if_neg (by simp)] at h
  unfold pBody at h
  rcases bad_inv h with h | ⟨size, r3, h3, h⟩
  · exact absurd h (noBad_int8 _)
  rcases bad_inv h with h | ⟨ins, r4, h4, h⟩
  · exact absurd h (noBad_int32 _)
  rcases bad_inv h with h | ⟨outs, r5, h5, h⟩
  · exact absurd h (noBad_int32 _)
  rcases bad_inv h with h | ⟨lt, r6, h6, h⟩
  · exact absurd h (noBad_int8 _)
  rcases bad_inv h with h | ⟨ac, r7, h7, h⟩
  · exact absurd h (noBad_int8 _)
  rcases bad_inv h with h | ⟨ap, r8, h8, h⟩
  · exact absurd h (noBad_flt _)
  rcases bad_inv h with h | ⟨ot, r9, h9, h⟩
  · exact absurd h (noBad_int8 _)
  rcases bad_inv h with h | ⟨ct, r10, h10, h⟩
  · exact absurd h (noBad_int8 _)
  rcases bad_inv h with h | ⟨vs, r11, h11, h⟩
  swap
  · exact absurd h ((NoBad.loop noBad_next _).bind (fun _ => NoBad.pure _) _)
  obtain ⟨b3, rfl, -⟩ := int8_inv h3
  obtain ⟨e4, rfl, l4⟩ := int32_inv h4
  obtain ⟨e5, rfl, l5⟩ := int32_inv h5
  obtain ⟨b6, rfl, -⟩ := int8_inv h6
  obtain ⟨b7, rfl, -⟩ := int8_inv h7
  obtain ⟨e8, rfl, l8⟩ := flt_inv h8
  obtain ⟨b9, rfl, -⟩ := int8_inv h9
  obtain ⟨b10, rfl, rfl⟩ := int8_inv h10
  obtain ⟨ps, b, rest, hl, rfl, hp, hb⟩ := pairs_bad h
  rcases read_inv (n := 5) h2 with h2 | ⟨e2, rfl, l2, -⟩
  · cases h2
  refine ⟨str "NNML" ++ (e2 ++ (b3 :: (e4 ++ (e5 ++ b6 :: b7 :: (e8 ++ [b9]))))), b10, ps, b, rest, ?_, ?_, by omega, hp, hb⟩
  · rw [e1]; simp
  · have : (str "NNML").length = 4 := rfl
    simp only [List.length_append, List.length_cons, List.length_nil, this, l2, l4, l5, l8]

/-! ### Another version -/

theorem rd_assoc (x : Rd α β) (f : β → Rd α γ) {δ : Type} (g : γ → Rd α δ) : (x >>= f) >>= g = x >>= fun b => f b >>= g := by
  funext buf
  rw [rd_bind, rd_bind, rd_bind, bind_assoc]
  congr 1
  funext r
  rcases r with ⟨r, b'⟩
  cases r with
  | error e => rfl
  | ok b => rfl

theorem rd_pure_bind (b : β) (f : β → Rd α γ) : (pure b : Rd α β) >>= f = f b := rfl

/-- The part of LoadModel after the version. -/
def loadRest : Rd α (Model α) := do
  let modelSize ← readInt8
  let inputSize ← readInt32
  let outputSize ← readInt32
  let lossType ← readInt8
  let accType ← readInt8
  let accPrec ← readFlt
  let optType ← readInt8
  let lenOpt ← readInt8
  let values ← Rd.loopAcc lenOpt.toNat (fun _ values => readPair values) []
  let layers ← Rd.loopAcc modelSize.toNat (fun _ layers => do
    let lp ← loadLayer
    return layers ++ [lp]) []
  rebuild ⟨VERSION, modelSize, inputSize, outputSize, lossType, accType, accPrec, optType, values, []⟩ layers

theorem loadModel_rest : (loadModel : Rd α (Model α)) = (do
    let magic ← readBuf 4
    if magic ≠ str "NNML" then Rd.fail .modelMagic else do
      let version ← readBuf 5
      if version ≠ VERSION then do
        Rd.lift (logEvent (.warnVersion version))
        loadRest
      else loadRest) := by
  rw [loadModel_eq]
  unfold loadModelBuffer
  rw [rd_assoc]
  congr 1
  funext magic
  by_cases h : magic ≠ str "NNML"
  · rw [if_pos h, if_pos h]; rfl
  · rw [if_neg h, if_neg h, rd_assoc]
    congr 1
    funext version
    by_cases hv : version ≠ VERSION
    · rw [if_pos hv, if_pos hv]
      simp only [rd_assoc, rd_pure_bind]
      rfl
    · rw [if_neg hv, if_neg hv]
      simp only [rd_assoc, rd_pure_bind]
      rfl

theorem readBuf_app (n : Nat) {e rest : List Byte} (he : e.length = n) (hn : 0 < n) (w : World α) {k : Int} (hk : k = n) :
    (readBuf k : Rd α _) (e ++ rest) w = .ok ((.ok e, rest), w) := by
  subst hk
  unfold readBuf
  have : ¬ (e ++ rest = [] ∧ 0 < (n : Int)) := by
    rintro ⟨h, -⟩
    rw [List.append_eq_nil_iff] at h
    rw [h.1] at he; simp at he; omega
  rw [if_neg (by omega), if_neg this, Int.toNat_natCast, List.take_left' he, List.drop_left' he, he, Nat.sub_self]
  simp
  rfl

theorem rd_bind_ok {x : Rd α β} {f : β → Rd α γ} {buf rest : List Byte} {w w' : World α} {b : β} (h : x buf w = .ok ((.ok b, rest), w')) :
    (x >>= f) buf w = f b rest w' := by
  rw [rd_bind]
  exact bind_ok h

/-- On a file with another version, LoadModel does what it does on the same file with this version, after a warning. -/
theorem loadModel_version {v tail : List Byte} (hv : v.length = 5) (hne : v ≠ VERSION) {w : World α} (hl : w.logger = true) :
    loadModel (str "NNML" ++ (v ++ tail)) w = loadModel (str "NNML" ++ (VERSION ++ tail)) { w with log := w.log ++ [.warnVersion v] } := by
  rw [loadModel_rest]
  refine ((rd_bind_ok (readBuf_app 4 rfl (by omega) _ rfl)).trans ?_).trans (rd_bind_ok (readBuf_app 4 rfl (by omega) _ rfl)).symm
  rw [if_neg (by simp)]
  refine ((rd_bind_ok (readBuf_app 5 hv (by omega) _ rfl)).trans ?_).trans
    (rd_bind_ok (readBuf_app 5 (by rfl) (by omega) _ rfl)).symm
  rw [if_pos hne, if_neg (by simp)]
  refine lift_bind (b := ()) ?_
  exact if_pos hl

end NN
