import Verif.Props.C65_C69
import Verif.Props.C71
import Verif.Props.C81_C82
import Verif.IEEE.IntArith
/-
C107: the whole life of a model: make it, train it, save it, load it in another program, and use it there.
-/

set_option linter.unusedSectionVars false

namespace NN
open Go

section Any
variable {α : Type} [Flt α]

theorem sum2_congr {r c : Nat} {f g : Nat → Nat → α} (h : ∀ i j, j < c → f i j = g i j) : sum2 r c f = sum2 r c g := by
  unfold sum2
  congr 1
  funext s i
  refine List.foldl_ext _ _ _ fun s j hj => ?_
  rw [h i j (List.mem_range.1 hj)]

/-- The loss depends only on the entries of the predictions. -/
theorem lossOf_congr (k : LossKind) {r c : Nat} {P P' T : Nat → Nat → α} (h : ∀ i j, j < c → P' i j = P i j) :
    lossOf k r c P' T = lossOf k r c P T := by
  cases k with
  | mse =>
    show fsum c _ /. _ = fsum c _ /. _
    rw [fsum_congr fun j hj => by rw [h 0 j hj]]
  | mae =>
    show fsum c _ /. _ = fsum c _ /. _
    rw [fsum_congr fun j hj => by rw [h 0 j hj]]
  | ce =>
    refine fsum_congr fun i _ => ?_
    rw [fsum_congr fun j hj => by rw [h i j hj]]
  | bce => exact sum2_congr fun i j hj => by rw [h i j hj]

theorem bestCol_congr {f g : Nat → α} (c : Nat) (h : ∀ j, j < c → f j = g j) : bestCol f c = bestCol g c := by
  induction c with
  | zero => rfl
  | succ c ih => rw [bestCol, bestCol, ih fun j hj => h j (by omega), h c (by omega)]

theorem cellsWith_congr {r c : Nat} {p q : Nat → Nat → Bool} (h : ∀ i j, j < c → p i j = q i j) : cellsWith r c p = cellsWith r c q := by
  unfold cellsWith
  congr 1
  refine Finset.filter_congr fun x hx => ?_
  rw [h x.1 x.2 (Finset.mem_range.1 (Finset.mem_product.1 hx).2)]

/-- The accuracy depends only on the entries of the predictions. -/
theorem accOf_congr (t : Int) (prec : α) {r c : Nat} {P P' T : Nat → Nat → α} (h : ∀ i j, j < c → P' i j = P i j) :
    accOf t prec r c P' T = accOf t prec r c P T := by
  unfold accOf
  have e1 : cellsWith r c (fun i j => Flt.lt (Flt.abs (P' i j -. T i j)) prec) =
      cellsWith r c fun i j => Flt.lt (Flt.abs (P i j -. T i j)) prec := cellsWith_congr fun i j hj => by rw [h i j hj]
  have e2 : cellsWith r c (fun i j => Flt.eq (if Flt.lt (P' i j) Flt.half then Flt.zero else Flt.one) (T i j)) =
      cellsWith r c fun i j => Flt.eq (if Flt.lt (P i j) Flt.half then Flt.zero else Flt.one) (T i j) :=
    cellsWith_congr fun i j hj => by rw [h i j hj]
  have e : (fun i => Flt.eq (T i (bestCol (P' i) c).1) Flt.one) = fun i => Flt.eq (T i (bestCol (P i) c).1) Flt.one := by
    funext i
    rw [bestCol_congr c fun j hj => h i j hj]
  rw [e, e1, e2]

/-- The widths of a model and of the same model. -/
theorem SameModel.dims {w w' : World α} {m m' : Model α} {net net' : Net α} (hm : SameModel m m' net net') (hN : IsNet w m net)
    (hN' : IsNet w' m' net') (hpos : 0 < net.size) : net'.dim 0 = net.dim 0 ∧ net'.dim net'.size = net.dim net.size := by
  constructor
  · rw [← hN'.ins 0 (by rw [hm.size]; exact hpos), ← hN.ins 0 hpos, (hm.layer 0 hpos).n]
  · obtain ⟨n, hn⟩ : ∃ n, net.size = n + 1 := ⟨net.size - 1, by omega⟩
    rw [hm.size, hn, ← hN'.outs n (by rw [hm.size]; omega), ← hN.outs n (by omega), (hm.layer n (by omega)).o]

/-- What a model computes, whatever storage it is in: on every input of the right width Predict returns the decoded output of `net`, and
CalculateLoss and CalculateAccuracy return the loss and the accuracy of `net`; none reports an error. -/
structure Behaves (w : World α) (m : Model α) (net : Net α) (k : LossKind) (accType : Int) (accPrec : α) (cx cy : Nat) : Prop where
  predict : ∀ (x : Mat) (r : Nat) (V : Nat → Nat → α), IsMat w x r cx V →
    wp (predict m x) w fun p w' => p.2 = none ∧
      (accType = 0 → IsMat w' p.1 r cy (netOut net V net.size)) ∧
      (accType = 1 → IsMat w' p.1 r 1 fun i _ => Flt.ofInt (bestCol (netOut net V net.size i) cy).1) ∧
      (accType = 2 → IsMat w' p.1 r cy fun i j => if Flt.lt (netOut net V net.size i j) Flt.half then Flt.zero else Flt.one)
  loss : ∀ (x y : Mat) (d : DataSet α), IsMat w x d.rows cx d.X → IsMat w y d.rows cy d.Y →
    wp (calculateLoss m x y) w fun p _ => p = (lossOf k d.rows cy (netOut net d.X net.size) d.Y, none)
  accuracy : ∀ (x y : Mat) (d : DataSet α), IsMat w x d.rows cx d.X → IsMat w y d.rows cy d.Y →
    wp (calculateAccuracy m x y) w fun p _ => p = (accOf accType accPrec d.rows cy (netOut net d.X net.size) d.Y, none)

/-- A model computes what its own layers say. -/
theorem behaves_self [FltInt α] {w : World α} {m : Model α} {net : Net α} (hN : IsNet w m net) (hpos : 0 < net.size) {loss : Loss}
    (hl : m.loss = some loss) (hls : loss.size = net.dim net.size) (hbig : net.dim net.size ≤ 2 ^ 53)
    (ht : m.accType = 0 ∨ m.accType = 1 ∨ m.accType = 2) :
    Behaves w m net loss.kind m.accType m.accPrec (net.dim 0) (net.dim net.size) := by
  refine ⟨fun x r V hX => ?_, fun x y d hX hY => ?_, fun x y d hX hY => ?_⟩
  · refine wp_mono (predict_spec hN hpos hX) ?_
    rintro p w' ⟨-, -, h1, -⟩
    obtain ⟨he, hF⟩ := h1 ht
    refine ⟨he, fun t => ?_, fun t => ?_, fun t => ?_⟩
    · have h := hF.mat
      rw [if_neg (by omega)] at h
      refine h.congr fun i j _ _ => ?_
      unfold decoded
      rw [if_pos t]
    · have h := hF.mat
      rw [if_pos t] at h
      refine h.congr fun i j _ _ => ?_
      unfold decoded
      rw [if_neg (by omega), if_pos t, (scanMax_bestCol _ _).1]
    · have h := hF.mat
      rw [if_neg (by omega)] at h
      refine h.congr fun i j _ _ => ?_
      unfold decoded
      rw [if_neg (by omega), if_neg (by omega)]
  · exact wp_mono (C81_loss w m net hN hpos loss hl hls x y d hX hY) fun p _ h => h.1
  · exact wp_mono (C81_accuracy w m net hN hpos hbig x y d hX hY) fun p _ h => h.1 ht

/-- The same model computes the same. -/
theorem Behaves.same [FltBits α] {w w' : World α} {m m' : Model α} {net net' : Net α} {k : LossKind} {t : Int} {p : α} (hm : SameModel m m' net net')
    (hN : IsNet w m net) (hN' : IsNet w' m' net') (hpos : 0 < net.size)
    (h : Behaves w' m' net' k t p (net'.dim 0) (net'.dim net'.size)) :
    Behaves w' m' net k t p (net.dim 0) (net.dim net.size) := by
  obtain ⟨d0, dn⟩ := hm.dims hN hN' hpos
  rw [d0, dn] at h
  have hV : ∀ (V : Nat → Nat → α) (i j : Nat), j < net.dim net.size → netOut net' V net'.size i j = netOut net V net.size i j := by
    intro V i j hj
    rw [hm.size]
    exact netOut_same hm hN (fun _ _ => rfl) net.size le_rfl j hj
  refine ⟨fun x r V hX => ?_, fun x y d hX hY => ?_, fun x y d hX hY => ?_⟩
  · refine wp_mono (h.predict x r V hX) ?_
    rintro q w1 ⟨he, h0, h1, h2⟩
    refine ⟨he, fun t => (h0 t).congr fun i j _ hj => hV V i j hj, fun t => (h1 t).congr fun i j _ _ => ?_,
      fun t => (h2 t).congr fun i j _ hj => by rw [hV V i j hj]⟩
    rw [bestCol_congr _ fun j hj => (hV V i j hj)]
  · refine wp_mono (h.loss x y d hX hY) fun q _ hq => ?_
    rw [hq, lossOf_congr k fun i j hj => hV d.X i j hj]
  · refine wp_mono (h.accuracy x y d hX hY) fun q _ hq => ?_
    rw [hq, accOf_congr t p fun i j hj => hV d.X i j hj]

/-- C107: CalculateLoss and CalculateAccuracy of the same model return the same numbers, and Predict the same matrix (see also C59_predict). -/
theorem C107_evaluate [FltBits α] [FltInt α] (w w' : World α) (m m' : Model α) (net net' : Net α) (hm : SameModel m m' net net') (hN : IsNet w m net)
    (hN' : IsNet w' m' net') (hpos : 0 < net.size) (loss : Loss) (hl : m.loss = some loss) (hls : loss.size = net.dim net.size)
    (hbig : net.dim net.size ≤ 2 ^ 53) (ht : m.accType = 0 ∨ m.accType = 1 ∨ m.accType = 2) :
    Behaves w m net loss.kind m.accType m.accPrec (net.dim 0) (net.dim net.size) ∧
      Behaves w' m' net loss.kind m.accType m.accPrec (net.dim 0) (net.dim net.size) := by
  refine ⟨behaves_self hN hpos hl hls hbig ht, ?_⟩
  have dn := (hm.dims hN hN' hpos).2
  have h := behaves_self hN' (by rw [hm.size]; exact hpos) (hm.loss.trans hl) (by rw [dn]; exact hls) (by rw [dn]; exact hbig)
    (by rw [hm.accType]; exact ht)
  rw [hm.accType, hm.accPrec] at h
  exact h.same hm hN hN' hpos

end Any

section Bits
variable {α : Type} [Flt α] [FltBits α] [FltInt α]

/-- C107: make a model without sigmoid layers, train it, save it to a file, and load the file in any other program: no step reports an
error, whatever the iteration order of the optimizer settings and the old contents of the disk, and the loaded model computes, bit for
bit, what the trained model computes: the network that gradient descent makes of the random start. -/
theorem C107_life (w : World α) (a : Nat → LayerArg α) (hs : ∀ i, (a i).inputs < 2 ^ 31 ∧ (a i).outputs < 2 ^ 31) (n : Nat)
    (h127 : n ≤ 127) (hlo : ∀ i, -(2 ^ 53) ≤ (a i).inputs ∧ -(2 ^ 53) ≤ (a i).outputs)
    (hok : ArgsOk a n) (hn : 0 < n) (hns : ∀ i, i < n → (a i).kind ≠ .sigmoid) (loss : Loss)
    (hl : loss.size = (a (n - 1)).outputs) (o : Optim α) (accType : Int) (ht : accType = 0 ∨ accType = 1 ∨ accType = 2) (accPrec : α)
    (hp : Flt.lt accPrec Flt.zero = false) (X Y : Mat) (r cx cy : Nat) (A B : Nat → Nat → α) (hcx : (cx : Int) = (a 0).inputs)
    (hcy : (cy : Int) = (a (n - 1)).outputs) (hX : IsMat w X r cx A) (hY : IsMat w Y r cy B) (hcX : r ≤ X.m.cap) (hcY : r ≤ Y.m.cap)
    (epochs : Int) (b : Nat) (hbig : r + b ≤ 2 ^ 53) (order : GoMap α) (ho : order.Perm (o.getValues.del (str "type"))) (name : Str)
    (fs : FS) :
    wp (trainNew a n loss o accType accPrec X Y epochs b) w fun p w1 => p.2 = none ∧
      ∃ start trained S', IsStart a (fun q => w.norm (w.normPos + q)) start ∧ start.size = n ∧
        Descent p.1 loss.kind w.unif A B start (fun _ => OptSpec.fresh (optFrom o)) w.unifPos
          (List.replicate epochs.toNat (blocks r b)).flatten trained S' w1.unifPos ∧
        Behaves w1 p.1 trained loss.kind accType accPrec cx cy ∧
        ∃ ops, saveFile p.1 name order false none w1 = .ok ((none, ops), w1) ∧ (∀ f, f ≠ name → runOps ops fs f = fs f) ∧
          ∀ w2 : World α, wp (loadFile (runOps ops fs) name) w2 fun x w3 => ∃ m', x = .ok m' ∧
            Behaves w3 m' trained loss.kind accType accPrec cx cy := by
  refine wp_mono (C71_train w a (fun i => ⟨(hlo i).1, by have := (hs i).1; omega, (hlo i).2, by have := (hs i).2; omega⟩) n hok hn hns
    loss hl o accType accPrec hp X Y r cx cy A B hcx hcy hX hY hcX hcY epochs b hbig) ?_
  rintro ⟨m, e⟩ w1 ⟨he, -, hset, net, op, net', S', hst, hsz, hD, hT, hsh⟩
  refine ⟨he, net, net', S', hst, hsz, hD, ?_⟩
  dsimp only at hset hT ⊢
  have hN := hT.isNet
  have hsz' : net'.size = n := hsh.size.trans hsz
  have hpos : 0 < net'.size := by omega
  have hL : ∀ i, i < n → (net'.L i).kind = (a i).kind ∧ ((net'.L i).n : Int) = (a i).inputs ∧ ((net'.L i).o : Int) = (a i).outputs ∧
      ((net'.L i).slope = if (a i).kind = .leaky then (a i).slope else Flt.zero) ∧
      ((net'.L i).dropout = if (a i).kind = .dropout then (a i).dropout else Flt.zero) := by
    intro i hi
    obtain ⟨W, bb, e⟩ := hsh.layer i
    obtain ⟨h1, h2, h3, h4, h5, -⟩ := hst i (by omega)
    rw [e]
    exact ⟨h1, h2, h3, h4, h5⟩
  have d0 : net'.dim 0 = cx := by
    have := hN.ins 0 hpos
    have := (hL 0 hn).2.1
    omega
  have dn : net'.dim net'.size = cy := by
    have h1 := hN.outs (n - 1) (by omega)
    have h2 := (hL (n - 1) (by omega)).2.2.1
    have h3 : n - 1 + 1 = net'.size := by omega
    rw [h3] at h1
    omega
  have hls : loss.size = net'.dim net'.size := by rw [dn, hl, hcy]
  have hb2 : net'.dim net'.size ≤ 2 ^ 53 := by
    have := (hs (n - 1)).2
    omega
  have hsv : ∀ i, i < net'.size → (net'.L i).Saveable := by
    intro i hi
    obtain ⟨h1, h2, h3, h4, h5⟩ := hL i (by omega)
    obtain ⟨g1, g2, -⟩ := hok.1 i (by omega)
    have := hs i
    refine ⟨by omega, by omega, by omega, by omega, fun hk => ?_, fun hk => ?_⟩
    · rw [h4, if_neg (by rw [← h1]; exact hk)]
    · rw [h5, if_neg (by rw [← h1]; exact hk)]
  have hR : Ready w1 m net' loss.kind o := by
    refine ⟨hN, fun h => by omega, ?_, hset.lossType, hset.optType, hset.optValues, by rw [hset.accPrec]; exact hp,
      by rw [hset.accType]; omega, by rw [hset.accType]; omega⟩
    rw [hset.hasLoss, hN.output hpos, ← hls]
  have hc := behaves_self hN hpos hset.hasLoss hls hb2 (by rw [hset.accType]; exact ht)
  rw [hset.accType, hset.accPrec, d0, dn] at hc
  refine ⟨hc, ?_⟩
  obtain ⟨ops, h1, h2, h3⟩ := C68_roundtrip w1 m net' loss.kind o hR hsv (by omega) order (by rw [hset.optValues]; exact ho) name fs
  refine ⟨ops, h1, h2, fun w2 => wp_mono (h3 w2) ?_⟩
  rintro x w3 ⟨m', net2, rfl, hsame, hN2, -⟩
  have := (C107_evaluate w1 w3 m m' net' net2 hsame hN hN2 hpos loss hset.hasLoss hls hb2 (by rw [hset.accType]; exact ht)).2
  rw [hset.accType, hset.accPrec, d0, dn] at this
  exact ⟨m', rfl, this⟩

end Bits

/-- Three layers (ReLU 2→3, dropout 3→4, linear 4→1) of valid arguments that fit, a loss of size 1, a regression model, and data of 5 rows
(hypotheses of C107_life). -/
example [Libm] : ∃ (w : World F64) (a : Nat → LayerArg F64) (loss : Loss) (X Y : Mat) (A B : Nat → Nat → F64),
    (∀ i, (a i).inputs < 2 ^ 31 ∧ (a i).outputs < 2 ^ 31) ∧ (∀ i, -(2 ^ 53) ≤ (a i).inputs ∧ -(2 ^ 53) ≤ (a i).outputs) ∧
    ArgsOk a 3 ∧ (∀ i, i < 3 → (a i).kind ≠ .sigmoid) ∧ loss.size = (a (3 - 1)).outputs ∧ Flt.lt (Flt.one : F64) Flt.zero = false ∧
    ((2 : Nat) : Int) = (a 0).inputs ∧ ((1 : Nat) : Int) = (a (3 - 1)).outputs ∧ IsMat w X 5 2 A ∧ IsMat w Y 5 1 B ∧
    5 ≤ X.m.cap ∧ 5 ≤ Y.m.cap := by
  have h10 : Flt.lt (Flt.one : F64) Flt.zero = false := by rw [f64_lt_int 1 0 (by norm_num) (by norm_num)]; rfl
  have h11 : Flt.lt (Flt.one : F64) Flt.one = false := by rw [f64_lt_int 1 1 (by norm_num) (by norm_num)]; rfl
  let a : Nat → LayerArg F64 := fun i => match i with
    | 0 => ⟨.hidden, 2, 3, Flt.zero, Flt.zero⟩
    | 1 => ⟨.dropout, 3, 4, Flt.zero, Flt.one⟩
    | _ => ⟨.linear, 4, 1, Flt.zero, Flt.zero⟩
  have hx := place_spec (emptyWorld (α := F64)) (r := 5) (c := 2) (fun i j => Flt.ofInt (i + j)) (by decide) (by decide)
  have hy := place_spec (placeW (emptyWorld (α := F64)) 5 2 (fun i j => Flt.ofInt (i + j))) (r := 5) (c := 1) (fun i _ => Flt.ofInt i) (by decide) (by decide)
  refine ⟨_, a, ⟨.mse, 1⟩, _, _, _, _, ?_, ?_, ⟨?_, ?_⟩, ?_, rfl, h10, rfl, rfl, hx.mat.allocs hy.frame, hy.mat, hx.cap.ge, hy.cap.ge⟩
  · intro i
    match i with
    | 0 => simp [a]
    | 1 => simp [a]
    | k + 2 => simp [a]
  · intro i
    match i with
    | 0 => simp [a]
    | 1 => simp [a]
    | k + 2 => simp [a]
  · intro i hi
    match i with
    | 0 => simp [a]
    | 1 => exact ⟨by simp [a], by simp [a], (fun h => by cases h), fun _ => ⟨h11, h10⟩⟩
    | k + 2 => simp [a]
  · intro i hi
    match i with
    | 0 => rfl
    | 1 => rfl
    | k + 2 => omega
  · intro i hi
    match i with
    | 0 => simp [a]
    | 1 => simp [a]
    | k + 2 => simp [a]

/-- C107_evaluate: a classification model with 6 layers, and the model loaded from its file. -/
example [Libm] : ∃ (w w' : World F64) (m m' : Model F64) (net net' : Net F64) (loss : Loss), SameModel m m' net net' ∧ IsNet w m net ∧ IsNet w' m' net' ∧
    net.size = 6 ∧ m.loss = some loss ∧ loss.size = net.dim net.size ∧ net.dim net.size ≤ 2 ^ 53 ∧ m.accType = 1 := by
  obtain ⟨w, m, net, o, h1, -, h3, -, h5⟩ := exists_saveable 6 (by decide) (by decide)
  obtain ⟨n1, n2, n3, n4, n5, n6, n7⟩ := h3.isNet
  have hR : Ready w { m with accType := 1 } net .ce o :=
    ⟨⟨n1, n2, n3, n4, n5, n6, n7⟩, h3.empty, h3.loss, h3.lossType, h3.optType, h3.optValues, h3.prec, (show (-128 : Int) ≤ 1 by decide), (show (1 : Int) < 128 by decide)⟩
  obtain ⟨d, -, hd⟩ := C59_model_roundtrip w _ net .ce o hR h5 (by omega)
  obtain ⟨bytes, -, hb⟩ := hd d.optValues (List.Perm.refl _)
  obtain ⟨x, w', -, m', net', -, hs, hN, -⟩ := (wp_iff).1 (hb w [])
  refine ⟨w, w', _, m', net, net', ⟨.ce, m.outputSize⟩, hs, hR.isNet, hN, h1, h3.loss, h3.isNet.output (by omega), ?_, rfl⟩
  have e := n5 5 (by omega)
  have := (h5 5 (by omega)).olt
  rw [h1]
  have e : (net.L 5).o = net.dim 6 := e
  omega

end NN
