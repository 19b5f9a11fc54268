import Verif.Lemmas.Examples
import Verif.Lemmas.Client
import Verif.Lemmas.Misc
/- The hand-written training programs: making layers, optimizers and data, and the loop over the batches. -/

set_option linter.unusedSectionVars false

namespace NN
variable {α : Type} [Flt α]
open Go

variable {w w' w0 : World α} {m : Model α} {net net' : Net α} {op : Nat → Nat} {S S' : Nat → OptSpec α}

/-! ### Layers -/

/-- n layers made and possibly initialised since `w0`, while nothing else has changed. -/
structure Setup (w0 w : World α) (n : Nat) (lp : Nat → Nat) (wm bm : Nat → Mat) (L : Nat → LayerSpec α) : Prop where
  laid : Laid w n lp wm bm L
  frame : Frame { norm := True } w0 w
  fresh : ∀ i, i < n → w0.next ≤ lp i
  params : ∀ i a, i < n → w.IsParam (wm i) (bm i) (L i).n a → w0.next ≤ a

theorem Setup.nil (w : World α) (L : Nat → LayerSpec α) : Setup w w 0 (fun _ => 0) (fun _ => Mat.zero) (fun _ => Mat.zero) L :=
  ⟨Laid.nil _ _ _ _ _, Frame.refl _ _, fun _ h => absurd h (by omega), fun _ _ h => absurd h (by omega)⟩

theorem OnlyAllocs.toNorm (h : OnlyAllocs w w') : Frame { norm := True } w w' :=
  h.weaken (fun _ _ h => h) (fun _ _ h => h) (fun _ _ h => h) (fun _ _ h => h) id (fun h => h.elim) id

theorem Laid.frame {f : Foot} {n : Nat} {lp : Nat → Nat} {wm bm : Nat → Mat} {L : Nat → LayerSpec α} (h : Laid w n lp wm bm L)
    (hf : Frame f w w') (hl : ∀ a, ¬ f.lay a) (ho : ∀ a, ¬ f.outs a) (hp : ∀ i a, i < n → w.IsParam (wm i) (bm i) (L i).n a → ¬ f.flt a) :
    Laid w' n lp wm bm L := by
  refine ⟨fun i hi => (h.layer i hi).frame hf (hl _) (ho _) (ho _) fun a => hp i a hi, fun i hi => ?_, h.inj, fun i j a hi hj h1 h2 => ?_⟩
  · have hL := h.layer i hi
    exact ⟨(h.own i hi).distinct.frame hf hL.wmat.addr_lt (ho _), fun a ha hb => (h.own i hi).disjoint a
        ((hL.wmat.isRow_frame hf (ho _) a).1 ha) ((hL.bmat.isRow_frame hf (ho _) a).1 hb), (h.own i hi).outer⟩
  · exact h.sep i j a hi hj ((IsParam_frame (h.layer i hi) hf ho a).1 h1) ((IsParam_frame (h.layer j hj) hf ho a).1 h2)

variable {n : Nat} {lp : Nat → Nat} {wm bm : Nat → Mat} {L : Nat → LayerSpec α}

theorem Setup.allocs (h : Setup w0 w n lp wm bm L) (ha : OnlyAllocs w w') : Setup w0 w' n lp wm bm L :=
  ⟨h.laid.frame ha (fun _ h => h) (fun _ h => h) (fun _ _ _ _ h => h), by frames h.frame ha, h.fresh,
    fun i a hi h1 => h.params i a hi ((IsParam_frame (h.laid.layer i hi) ha (fun _ h => h) a).1 h1)⟩

/-- One more layer. -/
theorem Setup.layer (h : Setup w0 w n lp wm bm L) {k : LayerKind} {i o : Nat} (hb : ¬ BadLayer k i o (Flt.zero : α) Flt.zero) :
    wp (layerVar k i o) w (fun l w' => w'.normPos = w.normPos ∧ ∃ wm' bm',
      Setup w0 w' (n + 1) (upd lp n l) (upd wm n wm') (upd bm n bm') (upd L n (newSpec k i o Flt.zero Flt.zero))) := by
  unfold layerVar
  refine wp_bind_mono (newLayer_spec hb) ?_
  rintro ⟨l, e⟩ w2 ⟨-, ha2, wm', bm', hl⟩
  dsimp only at hl ⊢
  obtain ⟨w3, e3, hnew, -⟩ := hl.put ha2
  refine wp_of_ok e3 ⟨hnew.allocs.normPos fun h => h, wm', bm', h.laid.snoc hnew, by frames h.frame hnew.allocs, fun q hq => ?_, fun q a hq h1 => ?_⟩
  · by_cases e : q = n
    · subst e; rw [upd_same]; exact h.frame.next_le.trans hnew.fresh
    · rw [upd_ne e]; exact h.fresh q (by omega)
  · by_cases e : q = n
    · subst e
      rw [upd_same, upd_same, upd_same] at h1
      exact h.frame.next_le.trans (hnew.params a h1)
    · rw [upd_ne e, upd_ne e, upd_ne e] at h1
      exact h.params q a (by omega) ((IsParam_frame (h.laid.layer q (by omega)) hnew.allocs (fun _ h => h) a).1 h1)

/-- Init of a layer. -/
theorem Setup.init (h : Setup w0 w n lp wm bm L) {k : Nat} (hk : k < n) :
    wp (layerInit (lp k)) w (fun _ w' => w'.normPos = w.normPos + (L k).n * (L k).o ∧
      Setup w0 w' n lp wm bm (upd L k { L k with W := initW w (L k).n (L k).o })) := by
  refine wp_mono (layerInit_spec (h.laid.layer k hk) (h.laid.own k hk)) ?_
  rintro _ w1 ⟨hL, hf, hn, ho, hp⟩
  refine ⟨hp, ?_⟩
  have hn' : ∀ i, (upd L k { L k with W := initW w (L k).n (L k).o } i).n = (L i).n := fun i => by
    by_cases e : i = k
    · subst e; rw [upd_same]
    · rw [upd_ne e]
  have hpar : ∀ i a, i < n → (w1.IsParam (wm i) (bm i) (L i).n a ↔ w.IsParam (wm i) (bm i) (L i).n a) := fun i a hi =>
    IsParam_frame (h.laid.layer i hi) hf (fun _ h => h) a
  refine ⟨⟨fun i hi => ?_, fun i hi => ?_, h.laid.inj, fun i j a hi hj h1 h2 => ?_⟩, ?_, h.fresh, fun i a hi h1 => ?_⟩
  · by_cases e : i = k
    · subst e; rw [upd_same]; exact hL
    · rw [upd_ne e]
      exact (h.laid.layer i hi).frame hf (fun h => h) (fun h => h) (fun h => h) fun a h1 h2 => e (h.laid.sep i k a hi hk h1 (.inl h2))
  · rw [hn']
    have hL := h.laid.layer i hi
    exact ⟨(h.laid.own i hi).distinct.frame hf hL.wmat.addr_lt (fun h => h), fun a ha hb => (h.laid.own i hi).disjoint a
        ((hL.wmat.isRow_frame hf (fun h => h) a).1 ha) ((hL.bmat.isRow_frame hf (fun h => h) a).1 hb), (h.laid.own i hi).outer⟩
  · rw [hn'] at h1 h2
    exact h.laid.sep i j a hi hj ((hpar i a hi).1 h1) ((hpar j a hj).1 h2)
  · frames h.frame hf
    intro a ha h1
    have := h.params k a hk (.inl h1)
    omega
  · rw [hn'] at h1
    exact h.params i a hi ((hpar i a hi).1 h1)

/-! ### Optimizers -/

/-- The optimizer comes from one of the constructors. -/
def Constructed (o : Optim α) : Prop :=
  (∃ lr decay mom : α, newSGDOptimizer lr decay mom = (o, none)) ∨ ∃ lr decay eps b1 b2 : α, newAdamOptimizer lr decay eps b1 b2 = (o, none)

theorem Constructed.isOpt {o : Optim α} (h : Constructed o) {q : Nat} (rw cw rb cb : Nat) (hlt : q < w.next) (e : w.opt q = o) :
    IsOpt w q rw cw rb cb (OptSpec.fresh o) := by
  subst e
  rcases h with ⟨lr, d, mom, h⟩ | ⟨lr, d, eps, b1, b2, h⟩
  · exact isOpt_newSGD rw cw rb cb hlt h
  · exact isOpt_newAdam rw cw rb cb hlt h

theorem Constructed.rows {o : Optim α} (h : Constructed o) : o.weightMomentums.rows = 0 := by
  rcases h with ⟨lr, d, mom, h⟩ | ⟨lr, d, eps, b1, b2, h⟩
  · rw [newSGD_ok h]; rfl
  · rw [newAdam_ok h]; rfl

theorem optNew_allocs (o : Optim α) (w : World α) : ∃ w', optNew o w = .ok (w.next, w') ∧ OnlyAllocs w w' ∧ w'.next = w.next + 1 ∧
    w'.opt w.next = o :=
  ⟨_, rfl, ⟨Nat.le_succ _, fun _ _ _ => rfl, fun _ _ _ => rfl, fun _ _ _ => rfl, fun a ha _ => upd_ne (by omega), rfl, rfl,
      fun _ => rfl, fun _ => rfl, fun _ => rfl, rfl⟩, rfl, upd_same⟩

/-- Three new optimizers. -/
theorem optNew3 (o : Optim α) (w : World α) : ∃ w1 w2 w3, optNew o w = .ok (w.next, w1) ∧ optNew o w1 = .ok (w.next + 1, w2) ∧
    optNew o w2 = .ok (w.next + 2, w3) ∧ OnlyAllocs w w3 ∧ w3.next = w.next + 3 ∧ ∀ i, i < 3 → w3.opt (w.next + i) = o := by
  obtain ⟨w1, a1, a2, a3, a4⟩ := optNew_allocs o w
  obtain ⟨w2, b1, b2, b3, b4⟩ := optNew_allocs o w1
  obtain ⟨w3, c1, c2, c3, c4⟩ := optNew_allocs o w2
  rw [a3] at b1 b4
  rw [b3, a3] at c1 c4
  refine ⟨w1, w2, w3, a1, b1, c1, (a2.trans b2).trans c2, by omega, fun i hi => ?_⟩
  match i with
  | 0 => rw [Nat.add_zero, (b2.trans c2).opt w.next (by omega) (fun h => h)]; exact a4
  | 1 => rw [c2.opt (w.next + 1) (by omega) (fun h => h)]; exact b4
  | 2 => exact c4

/-- A model with these layers and optimizers: it does not occur in the program, only in the proof. -/
def ghost (lp op : Nat → Nat) (dim : Nat → Nat) (loss : Loss) (lossType : Int) : Model α :=
  { (newModel : Model α) with
    modelSize := 3, layers := (List.range 3).map lp, optims := (List.range 3).map op, inputSize := dim 0, outputSize := dim 3
    loss := some loss, lossType := lossType }

theorem Setup.task (h : Setup w0 w 3 lp wm bm L) {dim : Nat → Nat} (hi : ∀ i, i < 3 → (L i).n = dim i) (ho : ∀ i, i < 3 → (L i).o = dim (i + 1))
    {o : Optim α} (hc : Constructed o) (hlt : ∀ i, i < 3 → op i < w.next) (hop : ∀ i, i < 3 → w.opt (op i) = o)
    (hinj : ∀ i j, i < 3 → j < 3 → op i = op j → i = j) (loss : Loss) (lossType : Int) :
    IsTask w (ghost lp op dim loss lossType) ⟨3, dim, lp, wm, bm, L⟩ op (fun _ => OptSpec.fresh o) :=
  ⟨⟨rfl, rfl, h.laid.layer, hi, ho, fun _ => rfl, fun _ => rfl⟩, ⟨h.laid.own, h.laid.inj, h.laid.sep⟩, Nat.succ_pos 2, rfl,
    fun i hi => hc.isOpt _ _ _ _ (hlt i hi) (hop i hi), hinj, fun i a hi h1 => absurd (by rw [hop i hi]; exact hc.rows) h1.1⟩

/-! ### Data -/

/-- Two matrices of r rows made since `w0` in separate storage, while nothing else has changed. -/
structure DataPair (w0 w : World α) (x y : Mat) (r cx cy : Nat) (A B : Nat → Nat → α) : Prop where
  allocs : OnlyAllocs w0 w
  xm : IsMat w x r cx A
  ym : IsMat w y r cy B
  xd : DistinctRows w x r
  yd : DistinctRows w y r
  sep : ∀ a, w.IsRow x r a → ¬ w.IsRow y r a
  ne : x.m.addr ≠ y.m.addr
  fx : ∀ a, w.IsRow x r a → w0.next ≤ a
  fy : ∀ a, w.IsRow y r a → w0.next ≤ a
  ox : w0.next ≤ x.m.addr
  oy : w0.next ≤ y.m.addr
  xcap : x.m.cap = r
  ycap : y.m.cap = r

theorem dataPair_new {r cx cy : Nat} (hr : 0 < r) (hx : 0 < cx) (hy : 0 < cy) (w : World α) :
    ∃ x y w1 w2, newMatrix (r : Int) (cx : Int) w = .ok ((x, none), w1) ∧ newMatrix (r : Int) (cy : Int) w1 = .ok ((y, none), w2) ∧
      DataPair w w2 x y r cx cy (fun _ _ => Flt.zero) (fun _ _ => Flt.zero) := by
  obtain ⟨⟨x, e⟩, w1, e1, he, h1⟩ := wp_iff.1 (newMatrix_spec (w := w) hr hx)
  obtain rfl : e = none := he
  obtain ⟨⟨y, e⟩, w2, e2, he, h2⟩ := wp_iff.1 (newMatrix_spec (w := w1) hr hy)
  obtain rfl : e = none := he
  dsimp only at h1 h2
  have hle := h1.frame.next_le
  have hrow := h1.mat.isRow_frame h2.frame (fun h => h)
  refine ⟨x, y, w1, w2, e1, e2, h1.frame.trans h2.frame, h1.mat.allocs h2.frame, h2.mat, h1.distinct.frame h2.frame h1.mat.addr_lt (fun h => h),
    h2.distinct, fun a ha hb => ?_, ?_, fun a ha => h1.fresh a ((hrow a).1 ha), fun a ha => hle.trans (h2.fresh a ha), h1.fresh_outer,
    hle.trans h2.fresh_outer, h1.cap, h2.cap⟩
  · have := h1.mat.isRow_lt ((hrow a).1 ha)
    have := h2.fresh a hb
    omega
  · have := h1.mat.addr_lt
    have := h2.fresh_outer
    omega

variable {x y : Mat} {r cx cy : Nat} {A B : Nat → Nat → α}

theorem DataPair.setX (h : DataPair w0 w x y r cx cy A B) {A' : Nat → Nat → α} (hs : SetMat w w' x r cx A') : DataPair w0 w' x y r cx cy A' B := by
  have hx := h.xm.isRow_frame hs.frame (fun h => h)
  have hy := h.ym.isRow_frame hs.frame (fun h => h)
  refine ⟨?_, hs.mat, h.ym.frame hs.frame (fun h => h) (fun a h1 h2 => h.sep a h2 h1), h.xd.frame hs.frame h.xm.addr_lt (fun h => h),
    h.yd.frame hs.frame h.ym.addr_lt (fun h => h), fun a h1 h2 => h.sep a ((hx a).1 h1) ((hy a).1 h2), h.ne, fun a ha => h.fx a ((hx a).1 ha),
    fun a ha => h.fy a ((hy a).1 ha), h.ox, h.oy, h.xcap, h.ycap⟩
  have ha := h.allocs
  have hf := hs.frame
  unfold OnlyAllocs
  frames ha hf
  intro a hlt h1
  have := h.fx a h1
  omega

theorem DataPair.symm (h : DataPair w0 w x y r cx cy A B) : DataPair w0 w y x r cy cx B A :=
  ⟨h.allocs, h.ym, h.xm, h.yd, h.xd, fun a h1 h2 => h.sep a h2 h1, h.ne.symm, h.fy, h.fx, h.oy, h.ox, h.ycap, h.xcap⟩

theorem DataPair.setY (h : DataPair w0 w x y r cx cy A B) {B' : Nat → Nat → α} (hs : SetMat w w' y r cy B') : DataPair w0 w' x y r cx cy A B' :=
  (h.symm.setX hs).symm

theorem DataPair.congr (h : DataPair w0 w x y r cx cy A B) {A' B' : Nat → Nat → α} (hA : ∀ i j, i < r → j < cx → A i j = A' i j)
    (hB : ∀ i j, i < r → j < cy → B i j = B' i j) : DataPair w0 w x y r cx cy A' B' :=
  { h with xm := h.xm.congr hA, ym := h.ym.congr hB }

/-! ### The loop -/

theorem Trained.step {loss : LossKind} {X Y : Nat → Nat → α} {bs : List (Nat × Nat)} (hN : IsNet w m net)
    (hT : Trained m loss X Y op net S w bs net' S' w') {b : Nat × Nat} {e : Option Err} {w2 : World α}
    (h : IsStep m loss op b.2 (fun i j => X (b.1 + i) j) (fun i j => Y (b.1 + i) j) net' S' w' e w2) :
    e = none ∧ ∃ net2 S2, Trained m loss X Y op net S w (bs ++ [b]) net2 S2 w2 := by
  obtain ⟨he, net2, S2, h1, h2, h3, h4, h5⟩ := h
  refine ⟨he, net2, S2, ?_, h2, hT.shape.trans h1.shape, hT.stat.trans hT.frame.next_le h4, ?_⟩
  · rw [hT.frame.unif] at h1
    rw [h3]
    exact hT.run.step h1
  · have hf := hT.frame
    have hpe : ∀ a, w'.IsNetParam net' a ↔ w.IsNetParam net a := fun a =>
      (hT.shape.isParam w' a).trans (hN.isParam hf (fun _ h => h) a)
    have h5' : Frame (trainFoot w net op) w' w2 := by
      refine h5.weaken (fun a _ h => (hpe a).1 h) (fun _ _ h => h) ?_ ?_ ?_ id id
      · rintro a _ ⟨i, hi, e⟩
        exact ⟨i, by rw [← hT.shape.size]; exact hi, by rw [← hT.shape.lp]; exact e⟩
      · rintro a _ ⟨i, hi, e⟩
        exact ⟨i, by rw [← hT.shape.size]; exact hi, e⟩
      · rintro ⟨i, hi, e⟩
        exact ⟨i, by rw [← hT.shape.size]; exact hi, by rw [← hT.shape.kind]; exact e⟩
    frames hf h5'

theorem blocks_mul {s b : Nat} (hb : 0 < b) : blocks (s * b) b = (List.range s).map fun k => (k * b, b) := by
  unfold blocks
  rw [if_neg (by omega)]
  have e : (s * b + b - 1) / b = s := by
    rw [Nat.add_sub_assoc hb, Nat.add_comm, Nat.add_mul_div_right _ _ hb, Nat.div_eq_of_lt (by omega), Nat.zero_add]
  rw [e]
  refine List.map_congr_left fun k hk => ?_
  have hk := List.mem_range.1 hk
  have : (k + 1) * b ≤ s * b := Nat.mul_le_mul_right _ hk
  rw [Nat.add_mul, Nat.one_mul] at this
  rw [min_eq_left (by omega)]

/-- The hand-written loop over epochs and batches is gradient descent over the batches, if its step is a training step. -/
theorem handLoop_spec {loss : LossKind} {XM YM : Mat} {X Y : Nat → Nat → α} {epochs steps b : Nat}
    {step : Nat → Mat → Mat → Go α (Option Err)} (hT : IsTask w m net op S) (hb : 0 < b)
    (hX : IsMat w XM (steps * b) (net.dim 0) X) (hY : IsMat w YM (steps * b) (net.dim net.size) Y) (hcX : steps * b ≤ XM.m.cap)
    (hcY : steps * b ≤ YM.m.cap) (hpX : ∀ a, w.IsNetParam net a → ¬ w.IsRow XM (steps * b) a)
    (hpY : ∀ a, w.IsNetParam net a → ¬ w.IsRow YM (steps * b) a)
    (hstep : ∀ (w1 : World α) net1 S1 i x y A B, IsTask w1 m net1 op S1 → SameShape net net1 → IsMat w1 x b (net.dim 0) A →
      IsMat w1 y b (net.dim net.size) B → wp (step i x y) w1 (IsStep m loss op b A B net1 S1 w1)) :
    wp (handLoop epochs steps b XM YM step) w (fun e w' => e = none ∧ ∃ net' S',
      Trained m loss X Y op net S w (List.replicate epochs (blocks (steps * b) b)).flatten net' S' w') := by
  unfold handLoop
  set bs := blocks (steps * b) b with hbs
  have hlen : bs.length = steps := by rw [hbs, blocks_mul hb]; simp
  refine wp_mono (wp_forRet_none (fun e w' => ∃ net' S',
    Trained m loss X Y op net S w (List.replicate e bs).flatten net' S' w') ?_ ?_) fun e w' h => h
  · exact ⟨net, S, .start, hT, SameShape.refl net, Static.refl w, Frame.refl _ _⟩
  · rintro e w1 he ⟨net1, S1, h1⟩
    have hloop : wp (forRet steps fun s => do
        let (X, _) ← newMatrixFromSlice (← reslice XM.m ((s * b : Nat) : Int) ((s * b + b : Nat) : Int))
        let (Y, _) ← newMatrixFromSlice (← reslice YM.m ((s * b : Nat) : Int) ((s * b + b : Nat) : Int))
        step e X Y) w1 (fun r w' => r = none ∧ ∃ net' S', Trained m loss X Y op net S w
          ((List.replicate e bs).flatten ++ bs.take steps) net' S' w') := by
      refine wp_forRet_none (fun s w' => ∃ net' S', Trained m loss X Y op net S w
          ((List.replicate e bs).flatten ++ bs.take s) net' S' w') ?_ ?_
      · exact ⟨net1, S1, by simpa using h1⟩
      · rintro s w2 hs ⟨net2, S2, h2⟩
        have hk : (s + 1) * b ≤ steps * b := Nat.mul_le_mul_right _ hs
        rw [Nat.add_mul, Nat.one_mul] at hk
        have hX2 : IsMat w2 XM (steps * b) (net.dim 0) X := hX.frame h2.frame (fun h => h) fun a h1 h2 => hpX a h2 h1
        have hY2 : IsMat w2 YM (steps * b) (net.dim net.size) Y := hY.frame h2.frame (fun h => h) fun a h1 h2 => hpY a h2 h1
        have assoc : ∀ {β : Type} (m : Mat) (lo hi : Int) (f : Mat × Option Err → Go α β),
            (reslice m.m lo hi >>= fun s => newMatrixFromSlice s >>= f) = ((reslice m.m lo hi >>= fun s => newMatrixFromSlice s) >>= f) :=
          fun m lo hi f => (bind_assoc _ _ _).symm
        rw [assoc]
        refine wp_bind_ok (slice_rows hX2 hcX hb hk rfl) ?_
        dsimp only
        rw [assoc]
        refine wp_bind_ok (slice_rows hY2 hcY hb hk rfl) ?_
        dsimp only
        refine wp_mono (hstep w2 net2 S2 e _ _ _ _ h2.task h2.shape (hX2.rowsOf hb hk) (hY2.rowsOf hb hk)) ?_
        intro r w3 h3
        obtain ⟨hr, net3, S3, h4⟩ := h2.step hT.isNet (b := (s * b, b)) h3
        refine ⟨hr, net3, S3, ?_⟩
        have hs' : s < bs.length := by omega
        have hget : bs[s] = (s * b, b) := by simp only [hbs, blocks_mul hb]; simp
        rw [List.append_assoc, ← hget, List.take_append_getElem] at h4
        exact h4
    refine wp_mono hloop ?_
    rintro r w2 ⟨rfl, net2, S2, h2⟩
    refine ⟨rfl, net2, S2, ?_⟩
    rw [List.take_of_length_le hlen.le] at h2
    rw [List.replicate_succ', List.flatten_append]
    simpa using h2

end NN
