import Verif.Lemmas.Save
import Verif.IEEE.Exact
/- Concrete finalized models over binary64, used in the non-vacuity examples and counterexamples for saving and loading. -/

namespace NN
open NN.Go

/-- demoL with slope and dropout only where the layer type has them. -/
noncomputable def saveL [Libm] (i : Nat) : LayerSpec F64 :=
  { (demoL i : LayerSpec F64) with
    slope := if (demoL i : LayerSpec F64).kind = .leaky then Flt.half else Flt.zero
    dropout := if (demoL i : LayerSpec F64).kind = .dropout then Flt.half else Flt.zero }

theorem saveL_saveable [Libm] {i : Nat} (hi : i < 1000) : (saveL i).Saveable :=
  ⟨by show 0 < i + 2; omega, by show 0 < i + 3; omega, by show i + 2 < 2 ^ 31; omega, by show i + 3 < 2 ^ 31; omega, fun h => if_neg h,
    fun h => if_neg h⟩

theorem f64_lt_self [Libm] (x : F64) : Flt.lt x x = false := by
  show F64.lt x x = false
  unfold F64.lt
  simp

/-- A model finalized with cross-entropy and the optimizer settings of `o`. -/
noncomputable def saveM [Libm] (out : Nat) (o : Optim F64) : Model F64 :=
  { (newModel : Model F64) with
    loss := some ⟨.ce, out⟩
    lossType := 2
    optType := o.kind.code
    optValues := o.getValues.del (str "type")
    accType := 1
    accPrec := Flt.zero }

/-- There is a finalized model with n layers, of all types. -/
theorem exists_ready [Libm] (L : Nat → LayerSpec F64) (hL : ∀ i, 0 < (L i).n ∧ 0 < (L i).o) (hc : ∀ i, (L i).o = (L (i + 1)).n) (n : Nat)
    (hn : 0 < n) (o : Optim F64) :
    ∃ (w : World F64) (m : Model F64) (net : Net F64), net.size = n ∧ net.L = L ∧ Ready w m net .ce o ∧ OwnNet w net := by
  obtain ⟨w, net, x, h1, h2, h3, h4, h5, -⟩ := exists_net n L hL hc (saveM (L n).n o) (r := 1) Nat.one_pos fun _ _ => Flt.zero
  refine ⟨w, _, net, h1, h2, ⟨h4, fun h => by omega, ?_, rfl, rfl, rfl, f64_lt_self _, ?_, ?_⟩, h5⟩
  · show some (⟨.ce, ((L n).n : Int)⟩ : Loss) = some ⟨.ce, ((net.dim net.size : Nat) : Int)⟩
    rw [h3, h1]
  · show (-128 : Int) ≤ 1; decide
  · show (1 : Int) < 128; decide

end NN
