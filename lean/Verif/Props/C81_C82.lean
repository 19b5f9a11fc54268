import Verif.Spec.Eval
import Verif.Spec.PlaceFit
import Verif.Lemmas.Build
import Verif.Lemmas.FitRun
import Verif.Lemmas.Loss
import Verif.Lemmas.Misc
import Verif.Lemmas.Same
import Verif.Props.C52_C57
/-
C81: what CalculateLoss and CalculateAccuracy return.  C82: training with logging and validation, and what the lines of the log say.
-/

set_option linter.unusedSectionVars false

namespace NN
open NN.Go

variable {α : Type} [Flt α]

theorem accN_foldl {β : Type} (n : Nat) (f : Nat → β → β) (b : β) : accN n f b = (List.range n).foldl (fun s i => f i s) b := by
  induction n with
  | zero => rfl
  | succ n ih => rw [List.range_succ, List.foldl_append, ← ih]; rfl

theorem fsum2_sum2 (r c : Nat) (f : Nat → Nat → α) : fsum2 r c f = sum2 r c f := by
  unfold fsum2 sum2
  rw [accN_foldl]
  congr 1
  funext s i
  rw [accN_foldl]

theorem scanMax_bestCol (f : Nat → α) (c : Nat) : (scanMax c f).1 = ((bestCol f c).1 : Int) ∧ (scanMax c f).2 = (bestCol f c).2 := by
  induction c with
  | zero => exact ⟨rfl, rfl⟩
  | succ c ih =>
    have e : scanMax (c + 1) f = if Flt.lt (scanMax c f).2 (f c) then ((c : Int), f c) else scanMax c f := rfl
    rw [e, bestCol, ih.2]
    split
    · exact ⟨rfl, rfl⟩
    · exact ih

theorem wp_with {β : Type} {x : Go α β} {w : World α} {Q R : β → World α → Prop} (h : wp x w Q) (h' : wlp x w R) :
    wp x w fun b w' => Q b w' ∧ R b w' := by
  obtain ⟨b, w', e, hQ⟩ := wp_iff.1 h
  exact wp_iff.2 ⟨b, w', e, hQ, h' b w' e⟩

/-- C81: CalculateLoss returns the loss of the network on the data, and changes nothing but what the layers remember. -/
theorem C81_loss (w : World α) (m : Model α) (net : Net α) (hN : IsNet w m net) (h0 : 0 < net.size) (loss : Loss) (hl : m.loss = some loss)
    (hls : loss.size = net.dim net.size) (x y : Mat) (d : DataSet α) (hX : IsMat w x d.rows (net.dim 0) d.X)
    (hY : IsMat w y d.rows (net.dim net.size) d.Y) :
    wp (calculateLoss m x y) w fun p w' => p = (netLoss net loss.kind d, none) ∧ Frame net.foot w w' ∧ Static w w' := by
  refine wp_with ?_ (calculateLoss_frame hN h0 hX y)
  unfold calculateLoss
  refine wp_bind_mono (modelInfer_spec hN h0 hX) ?_
  rintro ⟨outs, e⟩ w1 ⟨he, -, out, h1, h2⟩
  obtain rfl : e = none := he
  dsimp only at h1 ⊢
  refine wp_bind_ok (listGet_size hN h1 w1) ?_
  rw [hl]
  refine wp_bind_ok (show deref (some loss) w1 = .ok (loss, w1) from rfl) ?_
  have hY1 : IsMat w1 y d.rows (net.dim net.size) d.Y := hY.frame h2.frame (fun h => h) (fun _ _ h => h)
  have hdis : ∀ a, w1.IsRow y d.rows a → ¬ w1.IsRow out d.rows a := fun a ha hb => by
    have := hY.isRow_lt ((hY.isRow_frame h2.frame (fun h => h) a).1 ha)
    have := h2.res.fresh a hb
    omega
  refine wp_bind_mono (R := fun p _ => p = (netLoss net loss.kind d, none)) ?_ ?_
  · obtain ⟨k, sz⟩ := loss
    dsimp only at hls ⊢
    subst hls
    unfold Loss.forward netLoss lossOf
    cases k with
    | mse => exact wp_mono (mseForward_spec h2.res.mat hY1) fun p _ h => Prod.ext h.2.2 h.1
    | mae => exact wp_mono (maeForward_spec h2.res.mat hY1) fun p _ h => Prod.ext h.2.2 h.1
    | ce => exact wp_mono (ceForward_spec h2.res.mat h2.res.distinct hY1 (Nat.le_refl _) hdis) fun p _ h => Prod.ext h.2.2.2 h.1
    | bce => exact wp_mono (bceForward_spec h2.res.mat h2.res.distinct hY1 (Nat.le_refl _) hdis) fun p _ h =>
        Prod.ext (h.2.2.trans (fsum2_sum2 _ _ _)) h.1
  · rintro p w2 rfl
    exact wp_pure.2 rfl

/-- C81: CalculateAccuracy returns the accuracy of the network on the data, and changes nothing but what the layers remember; for an unknown
accuracy type it returns an error. -/
theorem C81_accuracy [FltInt α] (w : World α) (m : Model α) (net : Net α) (hN : IsNet w m net) (h0 : 0 < net.size)
    (hbig : net.dim net.size ≤ 2 ^ 53) (x y : Mat) (d : DataSet α) (hX : IsMat w x d.rows (net.dim 0) d.X)
    (hY : IsMat w y d.rows (net.dim net.size) d.Y) :
    wp (calculateAccuracy m x y) w fun p w' => (m.accType = 0 ∨ m.accType = 1 ∨ m.accType = 2 → p = (netAcc net m.accType m.accPrec d, none)) ∧
      (¬ (m.accType = 0 ∨ m.accType = 1 ∨ m.accType = 2) → p = (Flt.zero, some .accType)) ∧ Frame net.foot w w' ∧ Static w w' := by
  refine wp_mono (wp_with (Q := fun p _ => (m.accType = 0 ∨ m.accType = 1 ∨ m.accType = 2 → p = (netAcc net m.accType m.accPrec d, none)) ∧
    (¬ (m.accType = 0 ∨ m.accType = 1 ∨ m.accType = 2) → p = (Flt.zero, some .accType))) ?_ (calculateAccuracy_frame hN h0 hX y))
    fun _ _ h => ⟨h.1.1, h.1.2, h.2⟩
  unfold calculateAccuracy
  refine wp_bind_mono (modelInfer_spec hN h0 hX) ?_
  rintro ⟨outs, e⟩ w1 ⟨he, -, out, h1, h2⟩
  obtain rfl : e = none := he
  dsimp only at h1 ⊢
  have hl := listGet_size hN h1 w1
  have hY1 : IsMat w1 y d.rows (net.dim net.size) d.Y := hY.frame h2.frame (fun h => h) (fun _ _ h => h)
  have hdis : ∀ a, w1.IsRow y d.rows a → ¬ w1.IsRow out d.rows a := fun a ha hb => by
    have := hY.isRow_lt ((hY.isRow_frame h2.frame (fun h => h) a).1 ha)
    have := h2.res.fresh a hb
    omega
  by_cases t0 : m.accType = 0
  · rw [if_pos t0]
    refine wp_bind_ok hl (wp_bind_mono (regressionAccuracy_spec h2.res.mat hY1 m.accPrec) ?_)
    rintro v w2 ⟨-, rfl⟩
    refine wp_pure.2 ⟨fun _ => ?_, fun h => absurd (.inl t0) h⟩
    unfold netAcc accOf
    rw [if_pos t0, count2_card]; rfl
  · rw [if_neg t0]
    by_cases t1 : m.accType = 1
    · rw [if_pos t1]
      refine wp_bind_ok hl (wp_bind_mono (categoricalAccuracy_spec h2.res.mat hY1 hbig) ?_)
      rintro v w2 ⟨-, rfl⟩
      refine wp_pure.2 ⟨fun _ => ?_, fun h => absurd (.inr (.inl t1)) h⟩
      unfold netAcc accOf rowsWith
      rw [if_neg t0, if_pos t1, accN_count_card, Nat.zero_add]
      simp only [(scanMax_bestCol _ _).1, Int.toNat_natCast]
    · rw [if_neg t1]
      by_cases t2 : m.accType = 2
      · rw [if_pos t2]
        refine wp_bind_ok hl (wp_bind_mono (binaryAccuracy_spec h2.res.mat h2.res.distinct hY1 hdis) ?_)
        rintro v w2 ⟨-, rfl⟩
        refine wp_pure.2 ⟨fun _ => ?_, fun h => absurd (.inr (.inr t2)) h⟩
        unfold netAcc accOf
        rw [if_neg t0, if_neg t1, count2_card]; rfl
      · rw [if_neg t2]
        exact wp_pure.2 ⟨fun h => by omega, fun _ => rfl⟩

/-! ### C82 -/

variable {w w' : World α} {m : Model α} {net net' : Net α} {op : Nat → Nat} {S S' : Nat → OptSpec α}

/-- The batches of one epoch. -/
theorem batches_run {loss : Loss} {XM YM : Mat} {n : Nat} {X Y : Nat → Nat → α} (hT : IsTask w m net op S)
    (hns : ∀ k, k < net.size → (net.L k).kind ≠ .sigmoid) (hl : m.loss = some loss) (hls : loss.size = net.dim net.size)
    (hX : IsMat w XM n (net.dim 0) X) (hY : IsMat w YM n (net.dim net.size) Y)
    (hpX : ∀ a, w.IsNetParam net a → ¬ w.IsRow XM n a) (hpY : ∀ a, w.IsNetParam net a → ¬ w.IsRow YM n a) (bs : List (Nat × Nat))
    (hbs : ∀ p ∈ bs, 0 < p.2 ∧ p.1 + p.2 ≤ n) :
    wp (forRet bs.length fun s => trainOn m (rowsOf XM (bs.getD s (0, 0))) (rowsOf YM (bs.getD s (0, 0)))) w
      (fun r w' => r = none ∧ ∃ net' S', Trained m loss.kind X Y op net S w bs net' S' w') := by
  have h := wp_forRet_none (n := bs.length)
    (body := fun s => trainOn m (rowsOf XM (bs.getD s (0, 0))) (rowsOf YM (bs.getD s (0, 0)))) (w := w)
    (fun s w' => ∃ net' S', Trained m loss.kind X Y op net S w (bs.take s) net' S' w')
    ⟨net, S, .start, hT, SameShape.refl net, Static.refl w, Frame.refl _ _⟩ ?_
  · rwa [List.take_length] at h
  · rintro s w2 hs ⟨net2, S2, h2⟩
    have hget : bs.getD s (0, 0) = bs[s] := by rw [List.getD_eq_getElem?_getD]; simp [hs]
    have hmem := hbs _ (List.getElem_mem hs : bs[s] ∈ bs)
    rw [hget]
    refine wp_mono (h2.next hT.isNet hns hl hls hX hY hpX hpY hmem.1 hmem.2) ?_
    rintro e w3 ⟨he, net3, S3, h3⟩
    refine ⟨he, net3, S3, ?_⟩
    rw [List.take_append_getElem] at h3
    exact h3

/-- What evaluating and logging changes: what the layers remember, and the log. -/
def logFoot (net : Net α) : Foot := { lay := fun a => ∃ i, i < net.size ∧ a = net.lp i, log := True }

theorem fitLog_run [FltInt α] (hN : IsNet w m net) (h0 : 0 < net.size) {loss : Loss} (hl : m.loss = some loss)
    (hls : loss.size = net.dim net.size) (hbig : net.dim net.size ≤ 2 ^ 53) (ht : m.accType = 0 ∨ m.accType = 1 ∨ m.accType = 2)
    (hlog : w.logger = true) {x y : Mat} {d : DataSet α} (hX : IsMat w x d.rows (net.dim 0) d.X)
    (hY : IsMat w y d.rows (net.dim net.size) d.Y) (sl sa : LogStage) (mk : α → α → LogEvent α) :
    wp (fitLog m x y sl sa mk) w fun r w' => r = none ∧ w'.log = w.log ++ [mk (netLoss net loss.kind d) (netAcc net m.accType m.accPrec d)] ∧
      Frame (logFoot net) w w' ∧ Static w w' := by
  unfold fitLog
  refine wp_bind_mono (C81_loss w m net hN h0 loss hl hls x y d hX hY) ?_
  rintro _ w1 ⟨rfl, hf1, hs1⟩
  dsimp only
  have hN1 := hN.frame hf1 hs1 (fun _ h => h) (fun _ _ h => h)
  refine wp_bind_mono (C81_accuracy w1 m net hN1 h0 hbig x y d (hX.frame hf1 (fun h => h) fun _ _ h => h)
    (hY.frame hf1 (fun h => h) fun _ _ h => h)) ?_
  rintro p w2 ⟨hp, -, hf2, hs2⟩
  obtain rfl := hp ht
  dsimp only
  have hlg : w2.logger = true := by rw [hf2.logger, hf1.logger, hlog]
  refine wp_bind_ok (show logEvent _ w2 = .ok ((), { w2 with log := w2.log ++ [_] }) by unfold logEvent; rw [if_pos hlg]) ?_
  have hf3 : Frame { log := True } w2 { w2 with log := w2.log ++ [mk (netLoss net loss.kind d) (netAcc net m.accType m.accPrec d)] } :=
    ⟨Nat.le_refl _, fun _ _ _ => rfl, fun _ _ _ => rfl, fun _ _ _ => rfl, fun _ _ _ => rfl, rfl, rfl, fun _ => rfl, fun _ => rfl,
      fun h => absurd trivial h, rfl⟩
  have hf12 : Frame net.foot w w2 := hf1.trans_same hf2
  refine wp_pure.2 ⟨rfl, ?_, ?_, hs1.trans hf1.next_le hs2⟩
  · show w2.log ++ _ = _
    rw [hf2.log fun h => h, hf1.log fun h => h]
  · exact hf12.trans hf3 (fun _ _ h => h.elim) (fun _ _ h => h.elim) (fun _ _ h => h.elim) (fun _ _ h => h.elim) (fun _ _ h => h)
      (fun _ _ h => h.elim) (fun _ _ h => h.elim) (fun _ _ h => h.elim) False.elim False.elim False.elim False.elim False.elim (fun _ => trivial)

/-- C82: Fit with any logEvery and with or without validation data, on a model without sigmoid layers, with a loss of the right size, one of the
three accuracy types and data of the right shapes, once the loggers are there: no error; gradient descent over the batches in every epoch;
and the log gets exactly the lines of `Epochs`: in every epoch divisible by logEvery the loss and accuracy, on the training data and on the
validation data, of the network as it is at the end of that epoch. -/
theorem C82_fit [FltInt α] (w : World α) (m : Model α) (net : Net α) (op : Nat → Nat) (S : Nat → OptSpec α)
    (hT : IsTask w m net op S) (hns : ∀ k, k < net.size → (net.L k).kind ≠ .sigmoid) (loss : Loss) (hl : m.loss = some loss)
    (hls : loss.size = net.dim net.size) (hdim : net.dim net.size ≤ 2 ^ 53) (ht : m.accType = 0 ∨ m.accType = 1 ∨ m.accType = 2)
    (hlog : w.logger = true) (X Y xv yv : Mat) (train : DataSet α) (val : Option (DataSet α))
    (hX : IsData w net X train.rows (net.dim 0) train.X) (hY : IsData w net Y train.rows (net.dim net.size) train.Y)
    (hv : IsVal w net xv yv val) (epochs k : Int) (b : Nat) (hbig : train.rows + b ≤ 2 ^ 53) :
    wp (fit m X Y epochs b xv yv k) w (fun e w' => e = none ∧ ∃ net' S' lines,
      Epochs m loss.kind w.unif train val k b net S w.unifPos epochs.toNat net' S' w'.unifPos lines ∧ w'.log = w.log ++ lines ∧
      IsTask w' m net' op S' ∧ SameShape net net' ∧ IsMat w' X train.rows (net.dim 0) train.X ∧
      IsMat w' Y train.rows (net.dim net.size) train.Y ∧
      Frame { flt := w.IsNetParam net
              lay := fun a => ∃ i, i < net.size ∧ a = net.lp i
              opt := fun a => ∃ i, i < net.size ∧ a = op i
              unif := ∃ i, i < net.size ∧ (net.L i).kind = .dropout
              log := True } w w') := by
  unfold wp
  rw [fit_blocks hX.mat hY.mat hX.cap hY.cap epochs b hbig]
  change wp _ w _
  set F : Foot := { flt := w.IsNetParam net
                    lay := fun a => ∃ i, i < net.size ∧ a = net.lp i
                    opt := fun a => ∃ i, i < net.size ∧ a = op i
                    unif := ∃ i, i < net.size ∧ (net.L i).kind = .dropout
                    log := True } with hF
  refine wp_mono (wp_forRet_none (fun e w' => ∃ net' S' lines,
    Epochs m loss.kind w.unif train val k b net S w.unifPos e net' S' w'.unifPos lines ∧ w'.log = w.log ++ lines ∧
    IsTask w' m net' op S' ∧ SameShape net net' ∧ Static w w' ∧ Frame F w w') ?_ ?_) ?_
  · exact ⟨net, S, [], .start, by simp, hT, SameShape.refl net, Static.refl w, Frame.refl _ _⟩
  · rintro e w1 he ⟨net1, S1, lines, h1, hlog1, hT1, hsh1, hst1, hf1⟩
    have hpar : ∀ a, w1.IsNetParam net1 a ↔ w.IsNetParam net a := fun a =>
      (hsh1.isParam w1 a).trans (hT.isNet.isParam hf1 (fun _ h => h) a)
    have hm : ∀ {Z : Mat} {r c : Nat} {C : Nat → Nat → α}, IsMat w Z r c C → (∀ a, w.IsNetParam net a → ¬ w.IsRow Z r a) →
        IsMat w1 Z r c C ∧ ∀ a, w1.IsNetParam net1 a → ¬ w1.IsRow Z r a := fun h hs =>
      ⟨h.frame hf1 (fun h => h) fun a h1 h2 => hs a h2 h1, fun a h1 h2 => hs a ((hpar a).1 h1) ((h.isRow_frame hf1 (fun h => h) a).1 h2)⟩
    unfold trainEpoch
    have hls1 : loss.size = net1.dim net1.size := by rw [hsh1.dim, hsh1.size]; exact hls
    have hns1 : ∀ k, k < net1.size → (net1.L k).kind ≠ .sigmoid := fun k hk => by
      rw [hsh1.kind]; exact hns k (by rw [← hsh1.size]; exact hk)
    obtain ⟨hX1, hpX1⟩ := hm hX.mat hX.sep
    obtain ⟨hY1, hpY1⟩ := hm hY.mat hY.sep
    rw [← hsh1.dim] at hX1 hY1
    rw [← hsh1.size] at hY1
    refine wp_bind_mono (batches_run hT1 hns1 hl hls1 hX1 hY1 hpX1 hpY1 (blocks train.rows b) fun p hp =>
      ⟨(blocks_mem hX.mat.rpos hp).1, (blocks_mem hX.mat.rpos hp).2.1⟩) ?_
    rintro r w2 ⟨rfl, net2, S2, h2⟩
    dsimp only
    have hsh2 : SameShape net net2 := hsh1.trans h2.shape
    have hD : Descent m loss.kind w.unif train.X train.Y net1 S1 w1.unifPos (blocks train.rows b) net2 S2 w2.unifPos := by
      have := h2.run
      rwa [hf1.unif] at this
    have hf2 : Frame F w w2 := by
      have h5 : Frame F w1 w2 := by
        refine h2.frame.weaken (fun a _ h => (hpar a).1 h) (fun _ _ h => h) ?_ ?_ ?_ id False.elim
        · rintro a _ ⟨i, hi, e⟩
          exact ⟨i, by rw [← hsh1.size]; exact hi, by rw [← hsh1.lp]; exact e⟩
        · rintro a _ ⟨i, hi, e⟩
          exact ⟨i, by rw [← hsh1.size]; exact hi, e⟩
        · rintro ⟨i, hi, e⟩
          exact ⟨i, by rw [← hsh1.size]; exact hi, by rw [← hsh1.kind]; exact e⟩
      exact hf1.trans_same h5
    have hlog2 : w2.log = w.log ++ lines := by rw [h2.frame.log fun h => h, hlog1]
    have hst2 : Static w w2 := hst1.trans hf1.next_le h2.stat
    have hE : ∀ pos, pos = w2.unifPos → Epochs m loss.kind w.unif train val k b net S w.unifPos (e + 1) net2 S2 pos
        (lines ++ epochLines net2 loss.kind m.accType m.accPrec train val k e) := fun pos hp => by rw [hp]; exact h1.next hD
    unfold endOfEpoch
    by_cases hk : k ≠ 0 ∧ k ∣ e
    swap
    · rw [if_neg hk]
      refine wp_pure.2 ⟨rfl, net2, S2, _, hE _ rfl, ?_, h2.task, hsh2, hst2, hf2⟩
      unfold epochLines
      rw [if_neg hk, List.append_nil, hlog2]
    · rw [if_pos hk]
      have hmat : ∀ {w3 : World α} {Z : Mat} {r c : Nat} {C : Nat → Nat → α}, Frame F w w3 → IsMat w Z r c C →
          (∀ a, w.IsNetParam net a → ¬ w.IsRow Z r a) → IsMat w3 Z r c C := fun hf h hs =>
        h.frame hf (fun h => h) fun a h1 h2 => hs a h2 h1
      have hls2 : loss.size = net2.dim net2.size := by rw [hsh2.dim, hsh2.size]; exact hls
      have hdim2 : net2.dim net2.size ≤ 2 ^ 53 := by rw [hsh2.dim, hsh2.size]; exact hdim
      have hlf : ∀ {w3 w4 : World α}, Frame F w w3 → Frame (logFoot net2) w3 w4 → Frame F w w4 := fun h h' =>
        h.trans_same (h'.weaken (fun _ _ h => h.elim) (fun _ _ h => h.elim)
          (fun a _ ⟨i, hi, e⟩ => ⟨i, by rw [← hsh2.size]; exact hi, by rw [← hsh2.lp]; exact e⟩) (fun _ _ h => h.elim) False.elim
          False.elim id)
      have hpos2 : 0 < net2.size := by rw [hsh2.size]; exact hT.pos
      refine wp_bind_mono (fitLog_run (d := train) h2.task.isNet hpos2 hl hls2 hdim2 ht (by rw [hf2.logger, hlog])
        (by rw [hsh2.dim]; exact hmat hf2 hX.mat hX.sep) (by rw [hsh2.dim, hsh2.size]; exact hmat hf2 hY.mat hY.sep) _ _ _) ?_
      rintro r w3 ⟨rfl, hlog3, hf3, hst3⟩
      dsimp only
      have hT3 : IsTask w3 m net2 op S2 := h2.task.frame hf3 hst3 (fun _ h => h) (fun _ h => h) (fun _ _ h => h) (fun _ _ _ _ h => h)
      have hff3 : Frame F w w3 := hlf hf2 hf3
      have hst3' : Static w w3 := hst2.trans hf2.next_le hst3
      cases val with
      | none =>
        have hv : yv.rows = 0 := hv
        rw [if_neg (by rw [hv]; simp)]
        refine wp_pure.2 ⟨rfl, net2, S2, _, hE _ (hf3.unifPos fun h => h), ?_, hT3, hsh2, hst3', hff3⟩
        unfold epochLines
        rw [if_pos hk, hlog3, hlog2, List.append_assoc]
      | some v =>
        obtain ⟨hxv, hyv, hsep⟩ := hv
        rw [if_pos (by have := hyv.rows; have := hyv.rpos; omega)]
        refine wp_mono (fitLog_run (d := v) hT3.isNet hpos2 hl hls2 hdim2 ht (by rw [hff3.logger, hlog])
          (by rw [hsh2.dim]; exact hmat hff3 hxv fun a h => (hsep a h).1)
          (by rw [hsh2.dim, hsh2.size]; exact hmat hff3 hyv fun a h => (hsep a h).2) _ _ _) ?_
        rintro r w4 ⟨rfl, hlog4, hf4, hst4⟩
        refine ⟨rfl, net2, S2, _, hE _ ((hf4.unifPos fun h => h).trans (hf3.unifPos fun h => h)), ?_,
          hT3.frame hf4 hst4 (fun _ h => h) (fun _ h => h) (fun _ _ h => h) (fun _ _ _ _ h => h), hsh2,
          hst3'.trans hff3.next_le hst4, hlf hff3 hf4⟩
        unfold epochLines
        rw [if_pos hk, hlog4, hlog3, hlog2]
        simp
  · rintro e w' ⟨he, net', S', lines, h1, h2, h3, h4, -, h6⟩
    exact ⟨he, net', S', lines, h1, h2, h3, h4, hX.mat.frame h6 (fun h => h) fun a h1 h2 => hX.sep a h2 h1,
      hY.mat.frame h6 (fun h => h) fun a h1 h2 => hY.sep a h2 h1, h6⟩

theorem Descent.append {l : LossKind} {u : Nat → α} {X Y : Nat → Nat → α} {net1 net2 : Net α} {S1 S2 : Nat → OptSpec α} {p p1 p2 : Nat}
    {bs cs : List (Nat × Nat)} (h : Descent m l u X Y net S p bs net1 S1 p1) (h' : Descent m l u X Y net1 S1 p1 cs net2 S2 p2) :
    Descent m l u X Y net S p (bs ++ cs) net2 S2 p2 := by
  induction h' with
  | start => rw [List.append_nil]; exact h
  | step _ hs ih => rw [← List.append_assoc]; exact ih.step hs

/-- Training with logging is gradient descent over the batches of all epochs. -/
theorem Epochs.descent {l : LossKind} {u : Nat → α} {train : DataSet α} {val : Option (DataSet α)} {k : Int} {b p e p1 : Nat} {net1 : Net α}
    {S1 : Nat → OptSpec α} {lines : List (LogEvent α)} (h : Epochs m l u train val k b net S p e net1 S1 p1 lines) :
    Descent m l u train.X train.Y net S p (List.replicate e (blocks train.rows b)).flatten net1 S1 p1 := by
  induction h with
  | start => exact .start
  | next h hd ih =>
    rw [List.replicate_succ', List.flatten_append]
    simpa using ih.append hd

/-- C82: logging and validation do not influence the training: with and without them, Fit ends with the same parameters, the same optimizer
states and the same position in the random source. -/
theorem C82_unaffected [FltInt α] (w : World α) (m : Model α) (net : Net α) (op : Nat → Nat) (S : Nat → OptSpec α)
    (hT : IsTask w m net op S) (hns : ∀ k, k < net.size → (net.L k).kind ≠ .sigmoid) (loss : Loss) (hl : m.loss = some loss)
    (hls : loss.size = net.dim net.size) (hdim : net.dim net.size ≤ 2 ^ 53) (ht : m.accType = 0 ∨ m.accType = 1 ∨ m.accType = 2)
    (hlog : w.logger = true) (X Y xv yv xv' yv' : Mat) (train : DataSet α) (val : Option (DataSet α))
    (hX : IsData w net X train.rows (net.dim 0) train.X) (hY : IsData w net Y train.rows (net.dim net.size) train.Y)
    (hv : IsVal w net xv yv val) (epochs k : Int) (b : Nat) (hbig : train.rows + b ≤ 2 ^ 53) :
    wp (fit m X Y epochs b xv yv k) w fun e w1 => wp (fit m X Y epochs b xv' yv' 0) w fun e' w1' => e = none ∧ e' = none ∧
      w1.unifPos = w1'.unifPos ∧ ∃ net1 net1' S1 S1', IsTask w1 m net1 op S1 ∧ IsTask w1' m net1' op S1' ∧ SameNet net1 net1' ∧
        ∀ i, i < net.size → OptLike (net.L i).n (net.L i).o (S1 i) (S1' i) := by
  refine wp_mono (C82_fit w m net op S hT hns loss hl hls hdim ht hlog X Y xv yv train val hX hY hv epochs k b hbig) ?_
  rintro e w1 ⟨he, net1, S1, lines, hE, -, t1, s1, -⟩
  refine wp_mono (C70_fit w m net op S hT hns loss hl hls X Y xv' yv' train.rows train.X train.Y hX.mat hY.mat hX.cap hY.cap hX.sep hY.sep
    epochs b hbig) ?_
  rintro e' w1' ⟨he', net1', S1', d2, t2, -⟩
  have hself : SameRun net net S S := ⟨⟨rfl, fun _ _ => rfl, hT.isNet.ins, hT.isNet.outs, fun _ _ => SameLayer.refl _⟩, fun i _ =>
    .inl ⟨rfl, rfl, rfl, fun _ => rfl, fun _ => rfl, fun _ => rfl, fun _ => rfl, rfl, Agree.refl _ _ _, Agree.refl _ _ _, Agree.refl _ _ _,
      Agree.refl _ _ _⟩⟩
  obtain ⟨hr, -, -, d, hd1, hd2⟩ := descent_same rfl (fun _ => rfl) hself hT.pos (Agree.refl _ _ _) (Agree.refl _ _ _) _ (fun p hp => by
    obtain ⟨l, hl, hp⟩ := List.mem_flatten.1 hp
    rw [List.eq_of_mem_replicate hl] at hp
    exact (blocks_mem hX.mat.rpos hp).2.1) hE.descent d2
  refine ⟨he, he', hd1.trans hd2.symm, net1, net1', S1, S1', t1, t2, hr.layers, fun i hi => ?_⟩
  have := hr.opt i (by rw [s1.size]; exact hi)
  obtain ⟨W, b, e⟩ := s1.layer i
  rw [e] at this
  exact this

/-- Three layers without sigmoid, squared error, regression accuracy, Adam, 5 training rows, 2 validation rows, loggers: the hypotheses of
C81 and C82; and five epochs with logEvery 2 write six lines. -/
example : ∃ (w : World ℝ) (m : Model ℝ) (net : Net ℝ) (op : Nat → Nat) (S : Nat → OptSpec ℝ) (X Y xv yv : Mat) (train v : DataSet ℝ),
    IsTask w m net op S ∧ net.size = 3 ∧ m.loss = some ⟨.mse, net.dim net.size⟩ ∧ net.dim net.size ≤ 2 ^ 53 ∧ m.accType = 0 ∧
    (∀ k, (net.L k).kind ≠ .sigmoid) ∧ IsData w net X train.rows (net.dim 0) train.X ∧ IsData w net Y train.rows (net.dim net.size) train.Y ∧
    IsVal w net xv yv (some v) ∧ train.rows = 5 ∧ v.rows = 2 ∧ w.logger = true ∧
    ∀ net1, ((List.range 5).flatMap (epochLines net1 .mse 0 m.accPrec train (some v) 2)).length = 6 := by
  obtain ⟨o, ho⟩ := adam_ok_real (lr := 1 / 1000) (decay := 0) (by norm_num) le_rfl (1 / 10 ^ 7) (9 / 10) (999 / 1000)
  have hrows : o.weightMomentums.rows = 0 := by rw [newAdam_ok ho]; rfl
  obtain ⟨w, net, op, XM, YM, xM, yM, hf, hs, hL, hdim, hT, dX, dY, dx, dy⟩ := exists_task (emptyWorld : World ℝ) 3 (by decide)
    demoT demoT_pos demoT_chain { newModel with loss := some ⟨.mse, 5⟩, accType := 0 } o (OptSpec.fresh o) hrows
    (fun w p i hlt e => e ▸ isOpt_newAdam _ _ _ _ hlt (e.symm ▸ ho)) (r := 5) (r' := 2) (by decide) (by decide)
    (fun i j => (i : ℝ) + j) (fun i j => (i : ℝ) - j) (fun i _ => (i : ℝ)) (fun _ j => (j : ℝ))
  have d0 : net.dim 0 = (demoT 0 : LayerSpec ℝ).n := by rw [hdim]
  have d1 : net.dim net.size = (demoT 3 : LayerSpec ℝ).n := by rw [hdim, hs]
  refine ⟨w, _, net, op, _, XM, YM, xM, yM, ⟨5, _, _⟩, ⟨2, _, _⟩, hT, hs, ?_, ?_, rfl, ?_, d0 ▸ dX, d1 ▸ dY,
    ⟨(d0 ▸ dx.mat), (d1 ▸ dy.mat), fun a ha => ⟨dx.sep a ha, dy.sep a ha⟩⟩, rfl, rfl, hf.logger, fun net1 => ?_⟩
  · rw [d1]; rfl
  · rw [d1]; show 5 ≤ 2 ^ 53; decide
  · rw [hL]; exact demoT_kind
  · have : ∀ e : Nat, (epochLines net1 .mse 0 (Net.task net op { newModel with loss := some ⟨.mse, 5⟩, accType := 0 }).accPrec ⟨5, fun i j => (i : ℝ) + j, fun i j => (i : ℝ) - j⟩ (some ⟨2, fun i _ => (i : ℝ), fun _ j => (j : ℝ)⟩) 2 e).length =
        if (2 : Int) ∣ e then 2 else 0 := fun e => by
      unfold epochLines
      by_cases h : (2 : Int) ∣ e <;> simp [h]
    rw [List.length_flatMap]
    simp only [this]
    decide

end NN
