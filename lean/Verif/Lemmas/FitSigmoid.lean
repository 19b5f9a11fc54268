import Verif.Lemmas.FitSafe
/- A training step of a model that consists of one sigmoid layer: it overwrites the batch. -/

set_option linter.unusedSectionVars false

namespace NN
variable {α : Type} [Flt α]
open Go

theorem sigmoid_step {w : World α} {m : Model α} {net : Net α} {op : Nat → Nat} {S : Nat → OptSpec α}
    (h : IsTask w m net op S) (h1 : net.size = 1) (hs : (net.L 0).kind = .sigmoid) (hno : (net.L 0).n = (net.L 0).o)
    {loss : Loss} (hl : m.loss = some loss) (hk : loss.kind = .mse) (hls : loss.size = net.dim net.size)
    {x y : Mat} {r : Nat} {X Y : Nat → Nat → α}
    (hX : IsMat w x r (net.dim 0) X) (hd : DistinctRows w x r) (hpx : ∀ a, w.IsNetParam net a → ¬ w.IsRow x r a)
    (hox : ∀ i a, i < net.size → w.IsOptRow (w.opt (op i)) (net.L i).n 1 a → ¬ w.IsRow x r a)
    (hY : IsMat w y r (net.dim net.size) Y) :
    wp (trainOn m x y) w (fun e w' => e = none ∧
      IsMat w' x r (net.dim 0) (sigBack X (lossGrad .mse r (net.L 0).o (infer (net.L 0) X) Y))) := by
  have hN := h.isNet
  have p0 : 0 < net.size := h.pos
  unfold trainOn
  refine wp_bind_mono (modelForward_spec hN hX true) ?_
  rintro ⟨outs, e⟩ w1 ⟨o, mask, V, M, he1, he2, ho, hV, hrun⟩
  obtain rfl : e = none := he2
  dsimp only at he1 ⊢
  subst he1
  have f1 := hrun.frame
  have hT1 : IsTask w1 m net op S := h.frame f1 hrun.stat (fun _ h => h) (fun _ h => h) (fun _ _ h => h)
    (fun _ _ _ _ h => h)
  have hN1 := hT1.isNet
  have hX1 : IsMat w1 x r (net.dim 0) X := hX.frame f1 (fun h => h) (fun _ _ h => h)
  have hY1 := hY.frame f1 (fun h => h) (fun _ _ h => h)
  have hres : Fresh w w1 (o net.size) r (net.dim net.size) (infer (net.L 0) X) := by
    have h2 := hrun.res 0 p0
    rw [hrun.val 0 p0 (fun h => by rw [hs] at h; exact absurd h.2 (by decide)), hV] at h2
    rw [h1]; exact h2
  have hsz : m.modelSize - 1 = ((0 : Nat) : Int) := by rw [hN.size, h1]; rfl
  have e1 := hN.ins 0 p0
  have e2 : (net.L 0).o = net.dim net.size := by rw [h1]; exact hN.outs 0 p0
  have hL1 := hN1.lay 0 p0
  have hback : wp (modelBackward m ((List.range (net.size + 1)).map o) y) w1 (fun p w' => p.2 = none ∧ ∃ g : Grads,
      p.1 = [⟨g.dWeights, g.dBiases⟩] ∧ IsMat w' x r (net.dim 0) (sigBack X (lossGrad .mse r (net.L 0).o (infer (net.L 0) X) Y)) ∧
      (∃ GW, IsMat w' g.dWeights (net.L 0).n (net.L 0).o GW) ∧ (∃ GB, IsMat w' g.dBiases 1 (net.L 0).o GB) ∧
      Frame { flt := w1.IsRow x r } w1 w') := by
    unfold modelBackward
    rw [hsz]
    refine wp_bind_ok (fusedLast_run hN1 p0) ?_
    rw [if_neg (by simp [hs])]
    refine wp_bind_ok (listGet_last hN1 o) ?_
    rw [hl]
    refine wp_bind_ok rfl ?_
    have hb : (loss.backward (o net.size) y : Go α (Mat × Option Err)) = mseBackward ((net.dim net.size : Nat) : Int) (o net.size) y := by
      unfold Loss.backward
      rw [hk, hls]
    rw [hb]
    refine wp_bind_mono (mseBackward_spec hres.mat hY1) ?_
    rintro ⟨d, e⟩ w2 ⟨he, hd2⟩
    obtain rfl : e = none := he
    dsimp only at hd2 ⊢
    have f2 := hd2.frame
    have hN2 : IsNet w2 m net := hN1.frame f2 (Static.of_frame f2 fun _ _ h => h) (fun _ h => h) (fun _ _ h => h)
    have hL2 := hN2.lay 0 p0
    rw [hN.size, h1]
    show wp (backwardLoop m _ 1 [] d) w2 _
    unfold backwardLoop
    refine wp_bind_ok (fusedLast_run hN2 p0) ?_
    rw [if_neg (by simp [hs])]
    refine wp_bind_ok (b := net.lp 0) (w' := w2) (by simp [listGet, hN.get_layer p0]; rfl) ?_
    refine wp_bind_ok (b := x) (w' := w2) (by simp [listGet, ho]; rfl) ?_
    have hX2 := hX1.allocs f2
    have hrow1 : ∀ a, w1.IsRow x r a ↔ w.IsRow x r a := hX.isRow_frame f1 (fun h => h)
    have hrow2 : ∀ a, w2.IsRow x r a ↔ w1.IsRow x r a := hX1.isRow_frame f2 (fun h => h)
    have hlb : layerBackward (net.lp 0) x d w2 = sigmoidBackward (net.lp 0) x d w2 := by
      unfold layerBackward
      refine (bind_ok (show layGet (net.lp 0) w2 = .ok (w2.lay (net.lp 0), w2) from rfl)).trans ?_
      rw [hL2.kind, hs]
    rw [← e1] at hX2
    have hd2m := hd2.mat
    rw [← e2] at hd2m
    have hsig := sigmoidBackward_spec hL2 hX2 hd2m hno.le ((hd.frame f1 hX.addr_lt (fun h => h)).frame f2 hX1.addr_lt (fun h => h))
      (fun a ha hb => by
        have := hd2.fresh a ha
        have := hX1.isRow_lt ((hrow2 a).1 hb)
        omega)
      (fun a ha hb => hpx a ((hN.isParam f1 (fun _ h => h) a).1 ((hN1.isParam f2 (fun _ h => h) a).1 ⟨0, p0, .inl ha⟩))
        ((hrow1 a).1 ((hrow2 a).1 hb)))
    have hbind : ∀ (f : Grads → Go α (List Gradients × Option Err)),
        (layerBackward (net.lp 0) x d >>= f) w2 = (sigmoidBackward (net.lp 0) x d >>= f) w2 := by
      intro f
      show Go.bind _ _ w2 = Go.bind _ _ w2
      unfold Go.bind
      rw [hlb]
    unfold wp
    rw [hbind]
    change wp _ w2 _
    refine wp_bind_mono hsig ?_
    rintro g w3 ⟨g1, g2, g3, g4, -, -, g5⟩
    rw [g1]
    refine ⟨rfl, g, rfl, ?_, ⟨_, by rw [← hno]; exact g3⟩, ⟨_, by rw [← hno]; exact g4⟩, ?_⟩
    · rw [e1] at g2
      exact g2
    · frames f2 g5
      · exact fun a _ h => (hrow2 a).1 h
  refine wp_bind_mono hback ?_
  rintro ⟨gs, e⟩ w2 ⟨he, g, hg, hx2, ⟨GW, hGW⟩, ⟨GB, hGB⟩, f2⟩
  obtain rfl : e = none := he
  dsimp only at hg ⊢
  subst hg
  have hrow1 : ∀ a, w1.IsRow x r a ↔ w.IsRow x r a := hX.isRow_frame f1 (fun h => h)
  have hT2 : IsTask w2 m net op S := by
    refine hT1.frame f2 (Static.of_frame f2 fun _ _ h => h) (fun _ h => h) (fun _ h => h) ?_ ?_
    · exact fun a ha hb => hpx a ((hN.isParam f1 (fun _ h => h) a).1 ha) ((hrow1 a).1 hb)
    · exact fun i a hi ha hb => hox i a hi (((h.opt i hi).optRow_frame f1 (fun h => h) (fun _ h => h) a).1 ha) ((hrow1 a).1 hb)
  unfold updateLayers
  rw [hN.size, h1]
  show wp (forRet 1 _) w2 _
  have hL2 := hT2.isNet.lay 0 p0
  have hrow2 : ∀ a, w2.IsRow x r a ↔ w1.IsRow x r a := hX1.isRow_frame f2 (fun h => h)
  refine wp_mono (wp_forRet_none (fun k w' => IsMat w' x r (net.dim 0) (sigBack X (lossGrad .mse r (net.L 0).o (infer (net.L 0) X) Y)) ∧
    (k = 0 → w' = w2)) ⟨hx2, fun _ => rfl⟩ ?_) fun e w' h => ⟨h.1, h.2.1⟩
  rintro k w' hk1 ⟨-, hw⟩
  obtain rfl : k = 0 := by omega
  obtain rfl := hw rfl
  refine wp_bind_ok (b := net.lp 0) (w' := w') (by simp [listGet, hN.get_layer p0]; rfl) ?_
  refine wp_bind_ok rfl ?_
  refine wp_bind_ok (b := op 0) (w' := w') (by rw [h.optims]; simp [listGet, p0]; rfl) ?_
  refine wp_bind_ok (b := ⟨g.dWeights, g.dBiases⟩) (w' := w') (by simp [listGet]; rfl) ?_
  rw [hL2.weights, hL2.biases]
  refine wp_bind_mono (task_update (net' := { net with L := fun i => if i = 0 then { net.L 0 with
      W := (S 0).newW (net.L 0).W GW, b := fun j => (S 0).newB (fun _ j => (net.L 0).b j) GB 0 j } else net.L i })
    (S' := fun i => if i = 0 then (S 0).step GW GB else S i) hT2 p0 hGW hGB rfl rfl rfl rfl rfl rfl
    (fun i hi => if_neg hi) rfl (fun i hi => if_neg hi)) ?_
  rintro e w3 ⟨he, -, f3⟩
  subst he
  refine ⟨rfl, hx2.frame f3 (fun h => h) fun a ha hb => ?_, fun h => absurd h (by omega)⟩
  exact hpx a ((hN.isParam f1 (fun _ h => h) a).1 ((hN1.isParam f2 (fun _ h => h) a).1 hb)) ((hrow1 a).1 ((hrow2 a).1 ha))

end NN
