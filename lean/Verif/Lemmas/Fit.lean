import Verif.Lemmas.FitTrack
import Verif.Spec.Fit
/- `Fit` in terms of training steps on batches. -/

set_option linter.unusedSectionVars false

namespace NN
variable {α : Type} [Flt α]
open Go

theorem forRet_succ {β : Type} (n : Nat) (body : Nat → Go α (Option β)) (w : World α) :
    forRet (n + 1) body w = (forRet n body >>= fun r => match r with
      | some b => pure (some b)
      | none => body n) w := rfl

theorem forRet_congr {β : Type} {n : Nat} {body body' : Nat → Go α (Option β)} (Inv : World α → Prop) {w : World α} (h : Inv w)
    (hs : ∀ k w', k < n → Inv w' → wlp (body k) w' (fun r w'' => r = none → Inv w''))
    (he : ∀ k w', k < n → Inv w' → body k w' = body' k w') : forRet n body w = forRet n body' w := by
  have key : ∀ n', n' ≤ n → forRet n' body w = forRet n' body' w ∧ wlp (forRet n' body) w (fun r w' => r = none → Inv w') := by
    intro n' hn
    induction n' with
    | zero => exact ⟨rfl, wlp_pure fun _ => h⟩
    | succ n' ih =>
      obtain ⟨h1, h2⟩ := ih (by omega)
      constructor
      · show Go.bind _ _ w = Go.bind _ _ w
        unfold Go.bind
        rw [← h1]
        cases e : forRet n' body w with
        | error p => rfl
        | ok p =>
          obtain ⟨r, w'⟩ := p
          dsimp only
          cases r with
          | some b => rfl
          | none => exact he n' w' (by omega) (h2 _ _ e rfl)
      · unfold forRet
        refine wlp_bind h2 fun r w' hr => ?_
        cases r with
        | some b => exact wlp_pure fun h => by cases h
        | none => exact hs n' w' (by omega) (hr rfl)
  exact (key n le_rfl).1

/-! ### The batches -/

theorem blocks_length (n b : Nat) (hb : 0 < b) : (blocks n b).length = (n + b - 1) / b := by
  unfold blocks; rw [if_neg (by omega)]; simp

theorem blocks_get (n b s : Nat) (hb : 0 < b) (hs : s < (blocks n b).length) :
    (blocks n b)[s]? = some (s * b, min b (n - s * b)) := by
  rw [blocks_length n b hb] at hs
  unfold blocks; rw [if_neg (by omega)]; simp [hs]

theorem lt_ceil {n b s : Nat} (hb : 0 < b) : s < (n + b - 1) / b ↔ s * b < n := by
  rw [Nat.lt_iff_add_one_le, Nat.le_div_iff_mul_le hb, Nat.add_mul]; omega

theorem plan_steps (n b : Nat) (hb : 0 < b) : (batchPlan n b).1 = ((n + b - 1) / b : Nat) ∧ (batchPlan n b).2 = b := by
  unfold batchPlan
  rw [if_pos (by omega)]
  refine ⟨?_, rfl⟩
  dsimp only
  have e : Int.tdiv (n : Int) b = ((n / b : Nat) : Int) := by
    rw [Int.tdiv_eq_ediv_of_nonneg (by omega)]; rfl
  rw [e]
  have h1 := Nat.div_add_mod n b
  have h2 := Nat.mod_lt n hb
  rw [Nat.mul_comm] at h1
  split
  · rename_i h
    have h : n / b * b < n := by exact_mod_cast h
    have : (n + b - 1) / b = n / b + 1 := by
      apply Nat.div_eq_of_lt_le
      · rw [Nat.add_mul]; omega
      · rw [Nat.add_mul, Nat.add_mul]; omega
    rw [this]; rfl
  · rename_i h
    have h : ¬ n / b * b < n := by exact_mod_cast h
    have : (n + b - 1) / b = n / b := by
      apply Nat.div_eq_of_lt_le
      · omega
      · rw [Nat.add_mul]; omega
    rw [this]

theorem batchHi_eq [FltInt α] {n b s : Nat} (h1 : (s + 1) * b ≤ 2 ^ 53) (h2 : n ≤ 2 ^ 53) :
    batchHi α s b n = (min ((s + 1) * b) n : Nat) := by
  unfold batchHi
  have e : ((s : Int) + 1) * (b : Int) = (((s + 1) * b : Nat) : Int) := by push_cast; ring
  rw [e, FltInt.toInt_min _ _ (by omega) (by omega) (by omega) (by omega)]
  omega

theorem IsMat.rowsOf {w : World α} {m : Mat} {r c : Nat} {A : Nat → Nat → α} (h : IsMat w m r c A) {lo k : Nat} (hk : 0 < k)
    (hlo : lo + k ≤ r) : IsMat w (rowsOf m (lo, k)) k c (fun i j => A (lo + i) j) := by
  refine ⟨rfl, h.cols, rfl, hk, h.cpos, h.addr_lt, ?_⟩
  intro i hi
  obtain ⟨a, ha, hlt, he⟩ := h.row (lo + i) (by omega)
  refine ⟨a, ?_, hlt, he⟩
  rw [← ha]
  show (w.outs m.m.addr)[m.m.off + lo + i]? = (w.outs m.m.addr)[m.m.off + (lo + i)]?
  rw [Nat.add_assoc]

theorem slice_rows {w : World α} {m : Mat} {r c : Nat} {A : Nat → Nat → α} (h : IsMat w m r c A) (hc : r ≤ m.m.cap)
    {lo k : Nat} (hk : 0 < k) (hlo : lo + k ≤ r) {hi : Int} (hh : hi = (lo + k : Nat)) :
    (do newMatrixFromSlice (← reslice m.m (lo : Int) hi) : Go α (Mat × Option Err)) w
      = .ok ((rowsOf m (lo, k), none), w) := by
  subst hh
  have e : (reslice m.m (lo : Int) ((lo + k : Nat) : Int) : Go α Slice) w = .ok ((rowsOf m (lo, k)).m, w) := by
    unfold reslice
    rw [if_pos (by omega)]
    simp [NN.rowsOf]
  exact (bind_ok e).trans (newMatrixFromSlice_spec (h.rowsOf hk hlo))

theorem fitBatch_eq {w : World α} {m : Model α} {X Y : Mat} {r cx cy : Nat} {A B : Nat → Nat → α} (hX : IsMat w X r cx A)
    (hY : IsMat w Y r cy B) (hcX : r ≤ X.m.cap) (hcY : r ≤ Y.m.cap) {bs : Int} {s lo k : Nat} (hlo : (s : Int) * bs = lo)
    (hk : 0 < k) (hr : lo + k ≤ r) (hhi : batchHi α s bs Y.rows = (lo + k : Nat)) :
    fitBatch m X Y bs s w = trainOn m (rowsOf X (lo, k)) (rowsOf Y (lo, k)) w := by
  unfold fitBatch
  dsimp only
  rw [hhi, hlo]
  have e1 := slice_rows hX hcX hk hr rfl
  have e2 := slice_rows hY hcY hk hr rfl
  have step : ∀ {β : Type} (m : Mat) (lo hi : Int) (f : Mat × Option Err → Go α β),
      (reslice m.m lo hi >>= fun s => newMatrixFromSlice s >>= f) = ((reslice m.m lo hi >>= fun s => newMatrixFromSlice s) >>= f) :=
    fun m lo hi f => (bind_assoc _ _ _).symm
  rw [step]
  refine (bind_ok e1).trans ?_
  rw [step]
  exact (bind_ok e2).trans rfl

/-! ### The invariant: all matrices keep their shape -/

theorem Since.start (f : Foot) (w : World α) {ms : List Mat} (h : ∀ m ∈ ms, NewIn f w w m) : Since f w w ms :=
  ⟨Frame.refl f w, Static.refl w, fun _ _ => rfl, h⟩

/-- The footprint that allows everything except changing arrays of rows. -/
def allFoot : Foot := { flt := fun _ => True, lay := fun _ => True, opt := fun _ => True, unif := True, norm := True, log := True }

theorem tracks_all (w0 : World α) (m : Model α) (X : Mat) : Tracks allFoot w0 m X [] :=
  ⟨fun _ _ => trivial, fun _ _ => trivial, trivial, fun _ h => h, .inl fun _ => trivial, .inl fun _ => trivial⟩

theorem list_eq_map_range {β : Type} [Inhabited β] (l : List β) (c : Nat) (h : l.length = c) :
    l = (List.range c).map fun j => l.getD j default := by
  subst h
  apply List.ext_getElem?
  intro i
  rcases Nat.lt_or_ge i l.length with hi | hi
  · simp [hi, List.getD_eq_getElem?_getD]
  · simp [hi]

/-- A matrix that existed in `w0` is still a matrix of the same shape. -/
theorem Since.isMat {f : Foot} {w0 w : World α} {ms : List Mat} {m : Mat} {r c : Nat} {A : Nat → Nat → α}
    (h : Since f w0 w ms) (ho : ∀ a, ¬ f.outs a) (hA : IsMat w0 m r c A) :
    IsMat w m r c (fun i j => (w.flt ((w.rowAddr m i).getD 0)).getD j Flt.zero) := by
  refine ⟨hA.rows, hA.cols, hA.len, hA.rpos, hA.cpos, hA.addr_lt.trans_le h.frame.next_le, ?_⟩
  intro i hi
  obtain ⟨a, ha, hlt, he⟩ := hA.row i hi
  have ea : w.rowAddr m i = some a := by
    rw [rowAddr_eq (h.frame.outs _ hA.addr_lt (ho _))]; exact ha
  refine ⟨a, ea, hlt.trans_le h.frame.next_le, ?_⟩
  rw [ea]
  have hl : (w.flt a).length = c := by rw [h.len a hlt, he]; simp
  exact @list_eq_map_range α ⟨Flt.zero⟩ (w.flt a) c hl

theorem endOfEpoch_eq (m : Model α) (X Y xVal yVal : Mat) (k : Int) (e : Nat) (w : World α) :
    (do
      if k ≠ 0 ∧ Int.tmod e k = 0 then
        let err ← fitLog m X Y .loss .accuracy (fun l a => .info e l a)
        if let some e := err then
          return some e
      if yVal.rows ≠ 0 ∧ k ≠ 0 ∧ Int.tmod e k = 0 then
        let err ← fitLog m xVal yVal .valLoss .valAccuracy (fun l a => .valInfo e l a)
        if let some e := err then
          return some e
      return none : Go α (Option Err)) w = endOfEpoch m X Y xVal yVal k e w := by
  unfold endOfEpoch
  have hdvd : (k ≠ 0 ∧ k ∣ (e : Int)) ↔ (k ≠ 0 ∧ Int.tmod e k = 0) :=
    and_congr_right fun _ => Int.dvd_iff_tmod_eq_zero
  by_cases h : k ≠ 0 ∧ Int.tmod e k = 0
  · have h' := hdvd.2 h
    by_cases h2 : yVal.rows ≠ 0
    · rw [if_pos h, if_pos h', if_pos ⟨h2, h⟩]
      refine congrArg (fun f => (fitLog m X Y .loss .accuracy (fun l a => .info e l a) >>= f) w) (funext fun r => ?_)
      cases r with
      | some er => rfl
      | none =>
        dsimp only
        rw [if_pos h2]
        conv_rhs => rw [← bind_pure (fitLog m xVal yVal _ _ _)]
        refine congrArg (fun f => (fitLog m xVal yVal .valLoss .valAccuracy (fun l a => .valInfo e l a) >>= f)) (funext fun r => ?_)
        cases r <;> rfl
    · rw [if_pos h, if_pos h', if_neg (fun h => h2 h.1), if_neg h2]
      refine congrArg (fun f => (fitLog m X Y .loss .accuracy (fun l a => .info e l a) >>= f) w) (funext fun r => ?_)
      cases r <;> rfl
  · rw [if_neg h, if_neg (mt hdvd.1 h), if_neg (fun h' => h h'.2)]

theorem fitEpoch_eq (m : Model α) (X Y : Mat) (steps bs : Int) (xv yv : Mat) (k : Int) (e : Nat) :
    fitEpoch m X Y steps bs xv yv k e = (forRet steps.toNat (fun s => fitBatch m X Y bs s) >>= fun err => match err with
      | some er => pure (some er)
      | none => endOfEpoch m X Y xv yv k e) := by
  unfold fitEpoch
  refine congrArg (fun f => (forRet steps.toNat (fun s => fitBatch m X Y bs s) >>= f)) (funext fun r => ?_)
  cases r with
  | some er => rfl
  | none => exact funext fun w => endOfEpoch_eq m X Y xv yv k e w

theorem wlp_endOfEpoch {f : Foot} {w0 w : World α} {ms : List Mat} {m : Model α} {X Y xv yv : Mat} {k : Int} {e : Nat}
    (ht : ∀ lp, lp ∈ m.layers → f.lay lp) (hlog : f.log)
    (hpos : (∀ a, f.flt a) ∨ 0 < m.modelSize) (h : Since f w0 w ms) :
    wlp (endOfEpoch m X Y xv yv k e) w (fun _ w' => Since f w0 w' ms) := by
  unfold endOfEpoch
  split
  · refine wlp_bind (wlp_fitLog ht hlog hpos h) fun r w1 h1 => ?_
    cases r with
    | some er => exact wlp_pure h1
    | none =>
      dsimp only
      split
      · exact wlp_fitLog ht hlog hpos h1
      · exact wlp_pure h1
  · exact wlp_pure h

theorem wlp_fitEpoch {f : Foot} {w0 w : World α} {ms : List Mat} {m : Model α} {X Y xv yv : Mat} {steps bs k : Int} {e : Nat}
    (ht : Tracks f w0 m X ms) (hlog : f.log) (hpos : (∀ a, f.flt a) ∨ 0 < m.modelSize) (h : Since f w0 w ms) :
    wlp (fitEpoch m X Y steps bs xv yv k e) w (fun _ w' => Since f w0 w' ms) := by
  rw [fitEpoch_eq]
  refine wlp_bind (wlp_forRet_within h fun k w2 h2 => wlp_fitBatch ht h2) fun e w2 h2 => ?_
  replace h2 := h2 (.inr hlog)
  cases e with
  | some e => exact wlp_pure h2
  | none => exact wlp_endOfEpoch ht.lay hlog hpos h2

/-- `Fit` is a training step on each block of the dataset, in order, in every epoch. -/
theorem fit_blocks [FltInt α] {w : World α} {m : Model α} {X Y xv yv : Mat} {n cx cy : Nat} {A B : Nat → Nat → α}
    (hX : IsMat w X n cx A) (hY : IsMat w Y n cy B) (hcX : n ≤ X.m.cap) (hcY : n ≤ Y.m.cap) (epochs : Int) (b : Nat)
    (hbig : n + b ≤ 2 ^ 53) (k : Int) :
    fit m X Y epochs b xv yv k w = forRet epochs.toNat (trainEpoch m (blocks n b) X Y xv yv k) w := by
  unfold fit
  have ht := tracks_all w m X
  refine forRet_congr (fun w' => Since allFoot w w' []) (Since.start _ w (fun _ h => by cases h)) ?_ ?_
  · exact fun e w' _ h => wlp_mono (wlp_fitEpoch ht trivial (.inl fun _ => trivial) h) fun _ _ h _ => h
  intro e w' _ h
  rw [fitEpoch_eq]
  unfold trainEpoch
  have key : forRet (batchPlan Y.rows b).1.toNat (fun s => fitBatch m X Y (batchPlan Y.rows b).2 s) w' =
      forRet (blocks n b).length (fun s => trainOn m (rowsOf X ((blocks n b).getD s (0, 0)))
        (rowsOf Y ((blocks n b).getD s (0, 0)))) w' := by
    rw [hY.rows]
    rcases Nat.eq_zero_or_pos b with rfl | hb
    · have hs : blocks n 0 = [(0, n)] := rfl
      have hp : batchPlan (n : Int) ((0 : Nat) : Int) = (1, (n : Int)) := rfl
      rw [hs, hp]
      refine forRet_congr (fun w' => Since allFoot w w' []) h ?_ ?_
      · exact fun s w' _ h => wlp_mono (wlp_fitBatch ht h) fun _ _ h _ => h (.inr trivial)
      intro s w1 hs h1
      obtain rfl : s = 0 := by have : s < 1 := hs; omega
      refine fitBatch_eq (h1.isMat (fun _ h => h) hX) (h1.isMat (fun _ h => h) hY) hcX hcY (lo := 0) (k := n) (by simp) hX.rpos
        (by omega) ?_
      rw [hY.rows, batchHi_eq (by omega) (by omega)]
      congr 1; omega
    · obtain ⟨h1, h2⟩ := plan_steps n b hb
      rw [h1, h2, blocks_length n b hb, Int.toNat_natCast]
      refine forRet_congr (fun w' => Since allFoot w w' []) h ?_ ?_
      · exact fun s w' _ h => wlp_mono (wlp_fitBatch ht h) fun _ _ h _ => h (.inr trivial)
      intro s w1 hs h1
      have hlt := (lt_ceil hb).1 hs
      have hget := blocks_get n b s hb (by rw [blocks_length n b hb]; exact hs)
      rw [List.getD_eq_getElem?_getD, hget, Option.getD_some]
      refine fitBatch_eq (h1.isMat (fun _ h => h) hX) (h1.isMat (fun _ h => h) hY) hcX hcY (by push_cast; ring) ?_ ?_ ?_
      · omega
      · omega
      · have : (s + 1) * b = s * b + b := by ring
        rw [hY.rows, batchHi_eq (by omega) (by omega)]
        congr 1; omega
  show Go.bind _ _ w' = Go.bind _ _ w'
  unfold Go.bind
  rw [key]
  cases forRet (blocks n b).length (fun s => trainOn m (rowsOf X ((blocks n b).getD s (0, 0)))
        (rowsOf Y ((blocks n b).getD s (0, 0)))) w' with
  | error p => rfl
  | ok p => obtain ⟨r, w2⟩ := p; cases r <;> rfl

end NN
