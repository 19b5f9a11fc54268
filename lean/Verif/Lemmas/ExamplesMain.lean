import Verif.Lemmas.ExamplesRun
import Verif.Props.C71
/- The hand-written training programs: layers, optimizers and data together. -/

set_option linter.unusedSectionVars false

namespace NN
variable {α : Type} [Flt α]
open Go

variable {w w' w0 w1 w2 : World α} {lp : Nat → Nat} {wm bm : Nat → Mat} {L : Nat → LayerSpec α} {x y : Mat} {A B : Nat → Nat → α}

/-- A permutation of the rows of both matrices, by exchanging the row headers. -/
theorem DataPair.shuffle {r cx cy : Nat} (h : DataPair w0 w x y r cx cy A B) (draw : Nat → Nat) (hdraw : ∀ i, 1 ≤ i → i < r → draw i ≤ i) :
    wp (shuffleFrom draw (fun i j => do swapRows x.m i j; swapRows y.m i j) (r - 1)) w (fun _ w' => ∃ σ : Equiv.Perm Nat,
      (∀ i, i < r ↔ σ i < r) ∧ DataPair w0 w' x y r cx cy (fun i => A (σ i)) (fun i => B (σ i))) := by
  have hr := h.xm.rpos
  refine wp_mono (shuffleFrom_spec draw h.ne (r - 1) (by omega) (fun i h1 h2 => hdraw i h1 (by omega)) w A B h.xm h.ym) ?_
  rintro _ w1 ⟨σ, hσ, e, o, pX, pY, -⟩
  have hσr : ∀ i, i < r ↔ σ i < r := by
    intro i
    constructor
    · intro hi
      by_contra h
      have := σ.injective (hσ (σ i) (by omega))
      omega
    · intro hi
      by_contra h
      rw [hσ i (by omega)] at hi
      exact h hi
  have hn : w1.next = w.next := by rw [e]
  have hf : w1.flt = w.flt := by rw [e]
  have rX : ∀ a, w1.IsRow x r a → w.IsRow x r a := by
    rintro a ⟨i, hi, ha⟩
    exact ⟨σ i, (hσr i).1 hi, by rw [← pX i hi]; exact ha⟩
  have rY : ∀ a, w1.IsRow y r a → w.IsRow y r a := by
    rintro a ⟨i, hi, ha⟩
    exact ⟨σ i, (hσr i).1 hi, by rw [← pY i hi]; exact ha⟩
  refine ⟨σ, hσr, ?_, ?_, ?_, ?_, ?_, fun a h1 h2 => h.sep a (rX a h1) (rY a h2), h.ne, fun a ha => h.fx a (rX a ha), fun a ha => h.fy a (rY a ha),
    h.ox, h.oy, h.xcap, h.ycap⟩
  · have ha := h.allocs
    refine ⟨by rw [hn]; exact ha.next_le, ?_, ?_, ?_, ?_, ?_, ?_, ?_, ?_, ?_, ?_⟩
    · intro a h1 h2; rw [hf]; exact ha.flt a h1 h2
    · intro a h1 h2
      have := h.ox
      have := h.oy
      rw [o a (by omega) (by omega)]; exact ha.outs a h1 h2
    all_goals rw [e]
    · exact ha.lay
    · exact ha.opt
    · exact ha.norm
    · exact ha.unif
    · exact ha.normPos
    · exact ha.unifPos
    · exact ha.log
    · exact ha.logger
  · refine ⟨h.xm.rows, h.xm.cols, h.xm.len, h.xm.rpos, h.xm.cpos, by rw [hn]; exact h.xm.addr_lt, ?_⟩
    intro i hi
    rw [pX i hi, hn, hf]
    exact h.xm.row _ ((hσr i).1 hi)
  · refine ⟨h.ym.rows, h.ym.cols, h.ym.len, h.ym.rpos, h.ym.cpos, by rw [hn]; exact h.ym.addr_lt, ?_⟩
    intro i hi
    rw [pY i hi, hn, hf]
    exact h.ym.row _ ((hσr i).1 hi)
  · intro i j a hi hj h1 h2
    rw [pX i hi] at h1
    rw [pX j hj] at h2
    exact σ.injective (h.xd _ _ a ((hσr i).1 hi) ((hσr j).1 hj) h1 h2)
  · intro i j a hi hj h1 h2
    rw [pY i hi] at h1
    rw [pY j hj] at h2
    exact σ.injective (h.yd _ _ a ((hσr i).1 hi) ((hσr j).1 hj) h1 h2)

/-- The loop after the preparation. -/
theorem Setup.run (hs : Setup w0 w1 3 lp wm bm L) {dim : Nat → Nat} (hi : ∀ i, i < 3 → (L i).n = dim i) (ho : ∀ i, i < 3 → (L i).o = dim (i + 1))
    {o : Optim α} (hc : Constructed o) {op : Nat → Nat} (hge : ∀ i, i < 3 → w0.next ≤ op i) (hlt : ∀ i, i < 3 → op i < w1.next)
    (hop : ∀ i, i < 3 → w1.opt (op i) = o) (hinj : ∀ i j, i < 3 → j < 3 → op i = op j → i = j) (loss : Loss) (lossType : Int)
    (hnd : ∀ i, i < 3 → (L i).kind ≠ .dropout) {steps b epochs : Nat} (hb : 0 < b) (hd : DataPair w1 w2 x y (steps * b) (dim 0) (dim 3) A B)
    {step : Nat → Mat → Mat → Go α (Option Err)} {k : LossKind}
    (hstep : ∀ (w : World α) net S i x y A B, IsTask w (ghost lp op dim loss lossType) net op S → SameShape ⟨3, dim, lp, wm, bm, L⟩ net →
      IsMat w x b (dim 0) A → IsMat w y b (dim 3) B → wp (step i x y) w (IsStep (ghost lp op dim loss lossType) k op b A B net S w)) :
    wp (handLoop epochs steps b x y step) w2 (fun e w' => e = none ∧ Frame { norm := True } w0 w' ∧ ∃ net' S',
      Descent (ghost lp op dim loss lossType) k w0.unif A B ⟨3, dim, lp, wm, bm, L⟩ (fun _ => OptSpec.fresh o) w0.unifPos
        (List.replicate epochs (blocks (steps * b) b)).flatten net' S' w'.unifPos ∧
      IsTask w' (ghost lp op dim loss lossType) net' op S' ∧ SameShape ⟨3, dim, lp, wm, bm, L⟩ net') := by
  have hs2 := hs.allocs hd.allocs
  have hle := hd.allocs.next_le
  have hT := hs2.task hi ho hc (fun i h => (hlt i h).trans_le hle)
    (fun i h => by rw [hd.allocs.opt _ (hlt i h) (fun h => h)]; exact hop i h) hinj loss lossType
  set net : Net α := ⟨3, dim, lp, wm, bm, L⟩ with hnet
  have hpar : ∀ a, w2.IsNetParam net a → a < w1.next ∧ w0.next ≤ a := by
    rintro a ⟨i, hi, ha⟩
    refine ⟨?_, hs2.params i a hi ha⟩
    have hL := hs.laid.layer i hi
    rcases (IsParam_frame hL hd.allocs (fun _ h => h) a).1 ha with h | h
    · exact hL.wmat.isRow_lt h
    · exact hL.bmat.isRow_lt h
  refine wp_mono (handLoop_spec hT hb hd.xm hd.ym hd.xcap.ge hd.ycap.ge (fun a h1 h2 => ?_) (fun a h1 h2 => ?_) hstep) ?_
  · have := (hpar a h1).1
    have := hd.fx a h2
    omega
  · have := (hpar a h1).1
    have := hd.fy a h2
    omega
  rintro e w' ⟨he, net', S', h⟩
  have hf2 := hs2.frame
  refine ⟨he, ?_, net', S', ?_, h.task, h.shape⟩
  · refine hf2.trans h.frame (fun _ _ h => h) (fun x hx h => ?_) (fun _ _ h => h) (fun _ _ h => h) (fun _ _ h => h) (fun x hx h => ?_)
      (fun _ _ h => h) (fun x hx h => ?_) False.elim (fun h => ?_) id False.elim id id
    · have := (hpar x h).2; omega
    · obtain ⟨i, hi, rfl⟩ := h
      have := hs.fresh i hi
      change lp i < _ at hx
      omega
    · obtain ⟨i, hi, rfl⟩ := h
      have := hge i hi
      omega
    · obtain ⟨i, hi, hk⟩ := h
      exact absurd hk (hnd i hi)
  · have := h.run
    rw [hf2.unif, hf2.unifPos fun h => h] at this
    exact this

/-! ### Three layers -/

/-- The layers of a fresh network of three layers. -/
def startL (kind : Nat → LayerKind) (dim : Nat → Nat) (d : Nat → α) (i : Nat) : LayerSpec α :=
  { newSpec (kind i) (dim i) (dim (i + 1)) Flt.zero Flt.zero with
    W := fun j k => d ((match i with
      | 0 => 0
      | 1 => dim 0 * dim 1
      | _ => dim 0 * dim 1 + dim 1 * dim 2) + j * dim (i + 1) + k) *. Flt.sqrt (Flt.ofInt 2 /. Flt.ofInt (dim i)) }

/-- Init of layer k after p draws. -/
theorem Setup.initAt {n : Nat} (h : Setup w0 w n lp wm bm L) {k p : Nat} (hk : k < n) (hp : w.normPos = w0.normPos + p) :
    wp (layerInit (lp k)) w (fun _ w' => w'.normPos = w0.normPos + (p + (L k).n * (L k).o) ∧
      Setup w0 w' n lp wm bm (upd L k
        { L k with W := fun i j => w0.norm (w0.normPos + (p + i * (L k).o + j)) *. Flt.sqrt (Flt.ofInt 2 /. Flt.ofInt (L k).n) })) := by
  refine wp_mono (h.init hk) ?_
  rintro _ w1 ⟨h1, h2⟩
  refine ⟨by omega, ?_⟩
  have e : initW w (L k).n (L k).o = fun i j => w0.norm (w0.normPos + (p + i * (L k).o + j)) *. Flt.sqrt (Flt.ofInt 2 /. Flt.ofInt (L k).n) := by
    funext i j
    unfold initW
    rw [h.frame.norm, hp]
    congr 2
    omega
  rw [e] at h2
  exact h2

theorem good_layer {k : LayerKind} (h1 : k ≠ .leaky) (h2 : k ≠ .dropout) {i o : Nat} (hi : 0 < i) (ho : 0 < o) :
    ¬ BadLayer k (i : Int) (o : Int) (Flt.zero : α) Flt.zero := by
  rintro (h | h | h | h)
  · omega
  · omega
  · exact h1 h.1
  · exact h2 h.1

theorem Setup.congr {n : Nat} (h : Setup w0 w n lp wm bm L) {lp' : Nat → Nat} {wm' bm' : Nat → Mat} {L' : Nat → LayerSpec α}
    (h1 : ∀ i, i < n → lp' i = lp i) (h2 : ∀ i, i < n → wm' i = wm i) (h3 : ∀ i, i < n → bm' i = bm i) (h4 : ∀ i, i < n → L' i = L i) :
    Setup w0 w n lp' wm' bm' L' := by
  refine ⟨⟨fun i hi => ?_, fun i hi => ?_, fun i j hi hj h' => ?_, fun i j a hi hj ha hb => ?_⟩, h.frame, fun i hi => ?_, fun i a hi ha => ?_⟩
  · rw [h1 i hi, h2 i hi, h3 i hi, h4 i hi]; exact h.laid.layer i hi
  · rw [h2 i hi, h3 i hi, h4 i hi]; exact h.laid.own i hi
  · rw [h1 i hi, h1 j hj] at h'; exact h.laid.inj i j hi hj h'
  · rw [h2 i hi, h3 i hi, h4 i hi] at ha
    rw [h2 j hj, h3 j hj, h4 j hj] at hb
    exact h.laid.sep i j a hi hj ha hb
  · rw [h1 i hi]; exact h.fresh i hi
  · rw [h2 i hi, h3 i hi, h4 i hi] at ha
    exact h.params i a hi ha

theorem below3 {P : Nat → Prop} (h0 : P 0) (h1 : P 1) (h2 : P 2) : ∀ i, i < 3 → P i
  | 0, _ => h0
  | 1, _ => h1
  | 2, _ => h2
  | i + 3, h => absurd h (by omega)

/-- Three layers are made, then initialised. -/
theorem layers_then_init (w : World α) (kind : Nat → LayerKind) (dim : Nat → Nat) (hk : ∀ i, i < 3 → kind i ≠ .leaky ∧ kind i ≠ .dropout)
    (hd : ∀ i, i ≤ 3 → 0 < dim i) {β : Type} {K : Nat → Nat → Nat → Go α β} {Q : β → World α → Prop}
    (hK : ∀ (lp : Nat → Nat) (wm bm : Nat → Mat) (w1 : World α),
      Setup w w1 3 lp wm bm (startL kind dim fun q => w.norm (w.normPos + q)) → wp (K (lp 0) (lp 1) (lp 2)) w1 Q) :
    wp (do
      let l1 ← layerVar (kind 0) (dim 0) (dim 1)
      let l2 ← layerVar (kind 1) (dim 1) (dim 2)
      let l3 ← layerVar (kind 2) (dim 2) (dim 3)
      layerInit l1
      layerInit l2
      layerInit l3
      K l1 l2 l3) w Q := by
  have g : ∀ i, i < 3 → ¬ BadLayer (kind i) (dim i : Int) (dim (i + 1) : Int) (Flt.zero : α) Flt.zero := fun i hi =>
    good_layer (hk i hi).1 (hk i hi).2 (hd i (by omega)) (hd (i + 1) (by omega))
  refine wp_bind_mono ((Setup.nil w fun _ => newSpec (kind 0) 0 0 Flt.zero Flt.zero).layer (g 0 (by omega))) ?_
  rintro l1 w1 ⟨p1, wm1, bm1, s1⟩
  refine wp_bind_mono (s1.layer (g 1 (by omega))) ?_
  rintro l2 w2 ⟨p2, wm2, bm2, s2⟩
  refine wp_bind_mono (s2.layer (g 2 (by omega))) ?_
  rintro l3 w3 ⟨p3, wm3, bm3, s3⟩
  have i1 := s3.initAt (k := 0) (p := 0) (by omega) (by omega)
  refine wp_bind_mono i1 ?_
  rintro _ w4 ⟨p4, s4⟩
  refine wp_bind_mono (s4.initAt (k := 1) (by omega) p4) ?_
  rintro _ w5 ⟨p5, s5⟩
  refine wp_bind_mono (s5.initAt (k := 2) (by omega) p5) ?_
  rintro _ w6 ⟨p6, s6⟩
  have s7 := s6.congr (L' := startL kind dim fun q => w.norm (w.normPos + q)) (fun _ _ => rfl) (fun _ _ => rfl) (fun _ _ => rfl)
    (below3 (by simp [upd, startL, newSpec]) (by simp [upd, startL, newSpec]) (by simp [upd, startL, newSpec]))
  exact hK _ _ _ _ s7

/-- Three layers, each made and initialised in turn. -/
theorem layers_with_init (w : World α) (kind : Nat → LayerKind) (dim : Nat → Nat) (hk : ∀ i, i < 3 → kind i ≠ .leaky ∧ kind i ≠ .dropout)
    (hd : ∀ i, i ≤ 3 → 0 < dim i) {β : Type} {K : Nat → Nat → Nat → Go α β} {Q : β → World α → Prop}
    (hK : ∀ (lp : Nat → Nat) (wm bm : Nat → Mat) (w1 : World α),
      Setup w w1 3 lp wm bm (startL kind dim fun q => w.norm (w.normPos + q)) → wp (K (lp 0) (lp 1) (lp 2)) w1 Q) :
    wp (do
      let l1 ← layerVar (kind 0) (dim 0) (dim 1)
      layerInit l1
      let l2 ← layerVar (kind 1) (dim 1) (dim 2)
      layerInit l2
      let l3 ← layerVar (kind 2) (dim 2) (dim 3)
      layerInit l3
      K l1 l2 l3) w Q := by
  have g : ∀ i, i < 3 → ¬ BadLayer (kind i) (dim i : Int) (dim (i + 1) : Int) (Flt.zero : α) Flt.zero := fun i hi =>
    good_layer (hk i hi).1 (hk i hi).2 (hd i (by omega)) (hd (i + 1) (by omega))
  refine wp_bind_mono ((Setup.nil w fun _ => newSpec (kind 0) 0 0 Flt.zero Flt.zero).layer (g 0 (by omega))) ?_
  rintro l1 w1 ⟨p1, wm1, bm1, s1⟩
  refine wp_bind_mono (s1.initAt (k := 0) (p := 0) (by omega) (by omega)) ?_
  rintro _ w2 ⟨p2, s2⟩
  refine wp_bind_mono (s2.layer (g 1 (by omega))) ?_
  rintro l2 w3 ⟨p3, wm3, bm3, s3⟩
  refine wp_bind_mono (s3.initAt (k := 1) (by omega) (p3.trans p2)) ?_
  rintro _ w4 ⟨p4, s4⟩
  refine wp_bind_mono (s4.layer (g 2 (by omega))) ?_
  rintro l3 w5 ⟨p5, wm5, bm5, s5⟩
  refine wp_bind_mono (s5.initAt (k := 2) (by omega) (p5.trans p4)) ?_
  rintro _ w6 ⟨p6, s6⟩
  have s7 := s6.congr (L' := startL kind dim fun q => w.norm (w.normPos + q)) (fun _ _ => rfl) (fun _ _ => rfl) (fun _ _ => rfl)
    (below3 (by simp [upd, startL, newSpec]) (by simp [upd, startL, newSpec]) (by simp [upd, startL, newSpec]))
  exact hK _ _ _ _ s7

end NN
