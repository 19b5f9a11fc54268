import Verif.Lemmas.Train
import Verif.Lemmas.Fit
/- `Fit` is gradient descent over the batches. -/

set_option linter.unusedSectionVars false

namespace NN
variable {α : Type} [Flt α]
open Go

variable {w w' : World α} {m : Model α} {net net' : Net α} {op : Nat → Nat} {S S' : Nat → OptSpec α}

theorem SameShape.refl (net : Net α) : SameShape net net := ⟨rfl, rfl, rfl, rfl, rfl, fun _ => ⟨_, _, rfl⟩⟩

theorem SameShape.trans {net'' : Net α} (h : SameShape net net') (h' : SameShape net' net'') : SameShape net net'' :=
  ⟨h'.size.trans h.size, h'.dim.trans h.dim, h'.lp.trans h.lp, h'.wm.trans h.wm, h'.bm.trans h.bm, fun i => by
    obtain ⟨W, b, e⟩ := h.layer i
    obtain ⟨W', b', e'⟩ := h'.layer i
    exact ⟨W', b', by rw [e', e]⟩⟩

theorem SameShape.n (h : SameShape net net') (i : Nat) : (net'.L i).n = (net.L i).n := by
  obtain ⟨W, b, e⟩ := h.layer i; rw [e]

theorem SameShape.o (h : SameShape net net') (i : Nat) : (net'.L i).o = (net.L i).o := by
  obtain ⟨W, b, e⟩ := h.layer i; rw [e]

theorem SameShape.kind (h : SameShape net net') (i : Nat) : (net'.L i).kind = (net.L i).kind := by
  obtain ⟨W, b, e⟩ := h.layer i; rw [e]

theorem SameShape.isParam (h : SameShape net net') (w : World α) (a : Nat) : w.IsNetParam net' a ↔ w.IsNetParam net a :=
  isNetParam_congr h.size h.wm h.bm h.n w a

theorem TrainStep.shape {loss : LossKind} {r : Nat} {u : Nat → α} {X Y : Nat → Nat → α}
    (h : TrainStep m loss r u X Y net S net' S') : SameShape net net' := by
  obtain ⟨G, D, -, rfl, -⟩ := h
  exact ⟨rfl, rfl, rfl, rfl, rfl, fun _ => ⟨_, _, rfl⟩⟩

/-- What training may change: the entries of weights and biases, what layers remember, the optimizers, the random source. -/
def trainFoot (w : World α) (net : Net α) (op : Nat → Nat) : Foot where
  flt := w.IsNetParam net
  lay := fun a => ∃ i, i < net.size ∧ a = net.lp i
  opt := fun a => ∃ i, i < net.size ∧ a = op i
  unif := ∃ i, i < net.size ∧ (net.L i).kind = .dropout

/-- The invariant of training: gradient descent over the batches so far. -/
structure Trained (m : Model α) (loss : LossKind) (X Y : Nat → Nat → α) (op : Nat → Nat) (net : Net α) (S : Nat → OptSpec α)
    (w : World α) (bs : List (Nat × Nat)) (net' : Net α) (S' : Nat → OptSpec α) (w' : World α) : Prop where
  run : Descent m loss w.unif X Y net S w.unifPos bs net' S' w'.unifPos
  task : IsTask w' m net' op S'
  shape : SameShape net net'
  stat : Static w w'
  frame : Frame (trainFoot w net op) w w'

theorem Trained.next {loss : Loss} {XM YM : Mat} {n : Nat} {X Y : Nat → Nat → α} {bs : List (Nat × Nat)}
    (hN : IsNet w m net) (hT : Trained m loss.kind X Y op net S w bs net' S' w')
    (hns : ∀ k, k < net.size → (net.L k).kind ≠ .sigmoid) (hl : m.loss = some loss) (hls : loss.size = net.dim net.size)
    (hX : IsMat w XM n (net.dim 0) X) (hY : IsMat w YM n (net.dim net.size) Y)
    (hpX : ∀ a, w.IsNetParam net a → ¬ w.IsRow XM n a) (hpY : ∀ a, w.IsNetParam net a → ¬ w.IsRow YM n a)
    {b : Nat × Nat} (hb : 0 < b.2) (hbn : b.1 + b.2 ≤ n) :
    wp (trainOn m (rowsOf XM b) (rowsOf YM b)) w' (fun e w2 => e = none ∧ ∃ net2 S2,
      Trained m loss.kind X Y op net S w (bs ++ [b]) net2 S2 w2) := by
  have hX' : IsMat w' XM n (net'.dim 0) X := by
    rw [hT.shape.dim]; exact hX.frame hT.frame (fun h => h) fun a h1 h2 => hpX a h2 h1
  have hY' : IsMat w' YM n (net'.dim net'.size) Y := by
    rw [hT.shape.dim, hT.shape.size]; exact hY.frame hT.frame (fun h => h) fun a h1 h2 => hpY a h2 h1
  obtain ⟨lo, k⟩ := b
  refine wp_mono (trainOn_spec hT.task (fun k hk => by rw [hT.shape.kind]; exact hns k (by rw [← hT.shape.size]; exact hk))
    hl (by rw [hT.shape.dim, hT.shape.size]; exact hls) (hX'.rowsOf hb hbn) (hY'.rowsOf hb hbn)) ?_
  rintro e w2 ⟨he, net2, S2, h1, h2, h3, h4, h5⟩
  refine ⟨he, net2, S2, ?_, h2, hT.shape.trans h1.shape, hT.stat.trans hT.frame.next_le h4, ?_⟩
  · rw [hT.frame.unif] at h1
    rw [h3]
    exact hT.run.step h1
  · have hf := hT.frame
    have hpe : ∀ a, w'.IsNetParam net' a ↔ w.IsNetParam net a := fun a =>
      (hT.shape.isParam w' a).trans (hN.isParam hf (fun _ h => h) a)
    have h5' : Frame (trainFoot w net op) w' w2 := by
      refine h5.weaken (fun a _ h => (hpe a).1 h) (fun _ _ h => h) ?_ ?_ ?_ id id
      · rintro a _ ⟨i, hi, e⟩
        exact ⟨i, by rw [← hT.shape.size]; exact hi, by rw [← hT.shape.lp]; exact e⟩
      · rintro a _ ⟨i, hi, e⟩
        exact ⟨i, by rw [← hT.shape.size]; exact hi, e⟩
      · rintro ⟨i, hi, e⟩
        exact ⟨i, by rw [← hT.shape.size]; exact hi, by rw [← hT.shape.kind]; exact e⟩
    frames hf h5'

theorem blocks_mem {n b : Nat} (hn : 0 < n) {p : Nat × Nat} (hp : p ∈ blocks n b) : 0 < p.2 ∧ p.1 + p.2 ≤ n ∧ (b ≠ 0 → p.2 ≤ b) := by
  unfold blocks at hp
  split at hp
  · simp at hp; subst hp; simp_all
  · rename_i hb
    have hb : 0 < b := by omega
    obtain ⟨s, hs, rfl⟩ := List.mem_map.1 hp
    have := (lt_ceil hb).1 (List.mem_range.1 hs)
    dsimp only
    omega

/-- `Fit` with logging off. -/
theorem fit_run [FltInt α] {loss : Loss} {XM YM xv yv : Mat} {n : Nat} {X Y : Nat → Nat → α} (hT : IsTask w m net op S)
    (hns : ∀ k, k < net.size → (net.L k).kind ≠ .sigmoid) (hl : m.loss = some loss) (hls : loss.size = net.dim net.size)
    (hX : IsMat w XM n (net.dim 0) X) (hY : IsMat w YM n (net.dim net.size) Y) (hcX : n ≤ XM.m.cap) (hcY : n ≤ YM.m.cap)
    (hpX : ∀ a, w.IsNetParam net a → ¬ w.IsRow XM n a) (hpY : ∀ a, w.IsNetParam net a → ¬ w.IsRow YM n a)
    (epochs : Int) (b : Nat) (hbig : n + b ≤ 2 ^ 53) :
    wp (fit m XM YM epochs b xv yv 0) w (fun e w' => e = none ∧ ∃ net' S',
      Trained m loss.kind X Y op net S w (List.replicate epochs.toNat (blocks n b)).flatten net' S' w') := by
  unfold wp
  rw [fit_blocks hX hY hcX hcY epochs b hbig]
  change wp _ w _
  refine wp_mono (wp_forRet_none (fun e w' => ∃ net' S',
    Trained m loss.kind X Y op net S w (List.replicate e (blocks n b)).flatten net' S' w') ?_ ?_) fun e w' h => h
  · exact ⟨net, S, .start, hT, SameShape.refl net, Static.refl w, Frame.refl _ _⟩
  · rintro e w1 he ⟨net1, S1, h1⟩
    unfold trainEpoch
    set bs := blocks n b with hbs
    have hloop : wp (forRet bs.length fun s => trainOn m (rowsOf XM (bs.getD s (0, 0))) (rowsOf YM (bs.getD s (0, 0)))) w1
        (fun r w' => r = none ∧ ∃ net' S', Trained m loss.kind X Y op net S w
          ((List.replicate e bs).flatten ++ bs.take bs.length) net' S' w') := by
      refine wp_forRet_none (fun s w' => ∃ net' S', Trained m loss.kind X Y op net S w
          ((List.replicate e bs).flatten ++ bs.take s) net' S' w') ?_ ?_
      · exact ⟨net1, S1, by simpa using h1⟩
      · rintro s w2 hs ⟨net2, S2, h2⟩
        have hget : bs.getD s (0, 0) = bs[s] := by rw [List.getD_eq_getElem?_getD]; simp [hs]
        have hmem := blocks_mem hX.rpos (List.getElem_mem hs : bs[s] ∈ bs)
        rw [hget]
        refine wp_mono (h2.next hT.isNet hns hl hls hX hY hpX hpY hmem.1 hmem.2.1) ?_
        rintro e w3 ⟨he, net3, S3, h3⟩
        refine ⟨he, net3, S3, ?_⟩
        rw [List.append_assoc, List.take_append_getElem] at h3
        exact h3
    refine wp_bind_mono hloop ?_
    rintro r w2 ⟨rfl, net2, S2, h2⟩
    dsimp only
    unfold endOfEpoch
    rw [if_neg (by simp)]
    refine ⟨rfl, net2, S2, ?_⟩
    rw [List.take_length] at h2
    rw [List.replicate_succ', List.flatten_append]
    simpa using h2

end NN
