import Verif.Model.Copies
import Verif.Lemmas.Build
import Verif.Spec.PlaceNet
import Verif.Real.Inst
/- C128: copies of a Model share the array of their layers.  A program in which AddLayer is called only on the longest copy sees models with
lists of layers; after `b := a` and AddLayer on both, `a` has the new layer of `b` unless the array was full. -/

namespace NN
open Go
variable {α : Type} [Flt α]

/-! ### Programs that do not see the sharing -/

/-- Where the value of each variable comes from: from the zero value of a variable or from a NewModel call.  `next` counts these calls. -/
structure Kin where
  of : Nat → Nat ⊕ Nat
  next : Nat

/-- No variable has been assigned to. -/
def Kin.start : Kin := ⟨Sum.inl, 0⟩

/-- The kinship after one operation. -/
def VarOp.kin : VarOp α → Kin → Kin
  | .new v, k => ⟨upd k.of v (.inr k.next), k.next + 1⟩
  | .copy v u, k => ⟨upd k.of v (k.of u), k.next⟩
  | .add _ _, k => k
  | .call _ _, k => k

/-- AddLayer is called on an empty model or on one that has at least as many layers as each of its copies; other calls do not change Layers. -/
def VarOp.Careful : VarOp α → Kin → (Nat → Model α) → Prop
  | .add v _, k, env => (env v).layers = [] ∨ ∀ u, k.of u = k.of v → (env u).layers.length ≤ (env v).layers.length
  | .call _ f, _, _ => ∀ m w p w', f m w = .ok (p, w') → p.1.layers = m.layers
  | _, _, _ => True

/-- Every operation of the program is careful. -/
def CarefulRun : List (VarOp α) → Kin → (Nat → Model α) → World α → Prop
  | [], _, _, _ => True
  | op :: ops, k, env, w => op.Careful k env ∧ ∀ p w', op.stepList env w = .ok (p, w') → CarefulRun ops (op.kin k) p.1 w'

/-- The variables with slices hold the models of the variables with lists. -/
structure SameVars (A : Arrays) (env : Nat → ModelVar α) (envL : Nat → Model α) (k : Kin) : Prop where
  view : ∀ v, (env v).view A = envL v
  room : ∀ v, 0 < (env v).layers.cap → 0 < (env v).layers.len ∧ (env v).layers.arr < A.next
  share : ∀ v u, 0 < (env v).layers.cap → 0 < (env u).layers.cap → (env v).layers.arr = (env u).layers.arr → k.of v = k.of u
  len : ∀ v, (env v).layers.len ≤ (env v).layers.cap

theorem Arrays.list_length (A : Arrays) (s : LaySlice) : (A.list s).length = s.len := by simp [Arrays.list]

theorem Arrays.list_congr {A B : Arrays} {s t : LaySlice} (hl : s.len = t.len) (h : ∀ i, i < s.len → A.elem s.arr i = B.elem t.arr i) : A.list s = B.list t := by
  unfold Arrays.list
  rw [hl] at h ⊢
  exact List.map_congr_left fun i hi => h i (List.mem_range.1 hi)

/-- What append does to its own slice. -/
theorem goAppend_list (grow : Nat → Nat) (A : Arrays) (s : LaySlice) (x : Nat) :
    (goAppend grow A s x).1.list (goAppend grow A s x).2 = A.list s ++ [x] := by
  have key : ∀ (B : Arrays) (t : LaySlice), t.len = s.len + 1 → (B.elem t.arr = upd (A.elem s.arr) s.len x) → B.list t = A.list s ++ [x] := by
    intro B t h1 h2
    unfold Arrays.list
    rw [h1, h2, List.range_succ, List.map_append]
    congr 1
    · exact List.map_congr_left fun i hi => upd_ne (by have := List.mem_range.1 hi; omega)
    · simp
  unfold goAppend
  split
  · exact key _ _ rfl (by simp)
  · exact key _ _ rfl (by simp)

/-- What append does to another slice. -/
theorem goAppend_other (grow : Nat → Nat) (A : Arrays) (s t : LaySlice) (x : Nat) (ha : 0 < t.len → t.arr < A.next)
    (h : s.len < s.cap → t.arr = s.arr → t.len ≤ s.len) : (goAppend grow A s x).1.list t = A.list t := by
  refine Arrays.list_congr rfl fun i hi => ?_
  unfold goAppend
  split
  · rename_i hc
    by_cases e : t.arr = s.arr
    · have := h hc e
      simp only [e, upd_same]
      exact upd_ne (by omega)
    · exact congrFun (upd_ne e) i
  · have := ha (by omega)
    exact congrFun (upd_ne (by omega)) i

theorem newModelVar_view (A : Arrays) : (newModelVar : ModelVar α).view A = newModel := rfl

/-- AddLayer rejects the layer. -/
def Misfit (m : Model α) (l : Layer α) : Prop :=
  m.modelSize ≠ 0 ∧ m.outputSize ≠ Flt.toInt (l.values.get (str "inputs"))

/-- The fields other than Layers after a successful AddLayer. -/
def Model.grown (m : Model α) (l : Layer α) : Model α :=
  { m with
    inputSize := if m.modelSize = 0 then Flt.toInt (l.values.get (str "inputs")) else m.inputSize
    modelSize := m.modelSize + 1
    outputSize := Flt.toInt (l.values.get (str "outputs")) }

theorem addLayerVar_reject (grow : Nat → Nat) (A : Arrays) (v : ModelVar α) (lp : Nat) (w : World α) (h : Misfit v.fields (w.lay lp)) :
    addLayerVar grow A v lp w = .ok (((A, v), some .addLayer), w) := by
  unfold addLayerVar
  refine (bind_ok (show layGet lp w = .ok (w.lay lp, w) from rfl)).trans ?_
  unfold Misfit at h
  simp only [if_pos h, if_neg h.1]; rfl

theorem addLayerVar_accept (grow : Nat → Nat) (A : Arrays) (v : ModelVar α) (lp : Nat) (w : World α) (h : ¬ Misfit v.fields (w.lay lp)) :
    addLayerVar grow A v lp w = .ok ((((goAppend grow A v.layers lp).1, ⟨v.fields.grown (w.lay lp), (goAppend grow A v.layers lp).2⟩), none), w) := by
  unfold addLayerVar
  refine (bind_ok (show layGet lp w = .ok (w.lay lp, w) from rfl)).trans ?_
  unfold Misfit at h
  unfold Model.grown
  simp only [if_neg h]
  by_cases h0 : v.fields.modelSize = 0
  · simp only [if_pos h0]; rfl
  · simp only [if_neg h0]; rfl

theorem addLayer_misfit (m : Model α) (lp : Nat) (w : World α) (h : Misfit m (w.lay lp)) : addLayer m lp w = .ok ((m, some .addLayer), w) := by
  unfold addLayer
  refine (bind_ok (show layGet lp w = .ok (w.lay lp, w) from rfl)).trans ?_
  unfold Misfit at h
  simp only [if_pos h, if_neg h.1]; rfl

theorem addLayer_fit (m : Model α) (lp : Nat) (w : World α) (h : ¬ Misfit m (w.lay lp)) :
    addLayer m lp w = .ok (({ m.grown (w.lay lp) with layers := m.layers ++ [lp] }, none), w) := by
  unfold addLayer
  refine (bind_ok (show layGet lp w = .ok (w.lay lp, w) from rfl)).trans ?_
  unfold Misfit at h
  unfold Model.grown
  simp only [if_neg h]
  by_cases h0 : m.modelSize = 0
  · simp only [if_pos h0]; rfl
  · simp only [if_neg h0]; rfl

theorem goAppend_next (grow : Nat → Nat) (A : Arrays) (s : LaySlice) (x : Nat) : A.next ≤ (goAppend grow A s x).1.next := by
  unfold goAppend; split
  · exact le_refl _
  · exact Nat.le_succ _

theorem goAppend_len (grow : Nat → Nat) (A : Arrays) (s : LaySlice) (x : Nat) : (goAppend grow A s x).2.len = s.len + 1 := by
  unfold goAppend; split <;> rfl

/-- One careful operation. -/
theorem SameVars.step {grow : Nat → Nat} (hg : ∀ c, c < grow c) {A : Arrays} {env : Nat → ModelVar α} {envL : Nat → Model α} {k : Kin}
    (h : SameVars A env envL k) (op : VarOp α) (hc : op.Careful k envL) (w : World α) :
    (∀ p, op.stepList envL w = .error p → op.step grow (A, env) w = .error p) ∧
    (∀ e1 err w', op.stepList envL w = .ok ((e1, err), w') → ∃ A' env', op.step grow (A, env) w = .ok (((A', env'), err), w') ∧ SameVars A' env' e1 (op.kin k)) := by
  cases op with
  | new v =>
    refine ⟨(fun p e => by cases e), fun e1 err w' e => ?_⟩
    cases e
    refine ⟨A, upd env v newModelVar, rfl, fun u => ?_, fun u => ?_, fun u u' => ?_, fun u => ?_⟩
    · by_cases e : u = v
      · subst e; simp only [upd_same]; rfl
      · rw [upd_ne e, upd_ne e]; exact h.view u
    · by_cases e : u = v
      · subst e; simp only [upd_same]; exact fun hc => absurd hc (Nat.lt_irrefl 0)
      · rw [upd_ne e]; exact h.room u
    · by_cases e : u = v
      · subst e; simp only [upd_same]; exact fun hc => absurd hc (Nat.lt_irrefl 0)
      · by_cases e' : u' = v
        · subst e'; simp only [upd_same]; exact fun _ hc => absurd hc (Nat.lt_irrefl 0)
        · simp only [VarOp.kin]
          rw [upd_ne e, upd_ne e', upd_ne e, upd_ne e']; exact h.share u u'
    · by_cases e : u = v
      · subst e; simp only [upd_same]; exact Nat.le_refl 0
      · rw [upd_ne e]; exact h.len u
  | copy v u =>
    refine ⟨(fun p e => by cases e), fun e1 err w' e => ?_⟩
    cases e
    have key : ∀ x, ∃ y, upd env v (env u) x = env y ∧ upd envL v (envL u) x = envL y ∧ upd k.of v (k.of u) x = k.of y := by
      intro x
      by_cases e : x = v
      · subst e; exact ⟨u, by simp, by simp, by simp⟩
      · exact ⟨x, upd_ne e, upd_ne e, upd_ne e⟩
    refine ⟨A, upd env v (env u), rfl, fun x => ?_, fun x => ?_, fun x x' => ?_, fun x => ?_⟩
    · obtain ⟨y, e1, e2, e3⟩ := key x; rw [e1, e2]; exact h.view y
    · obtain ⟨y, e1, e2, e3⟩ := key x; rw [e1]; exact h.room y
    · obtain ⟨y, e1, e2, e3⟩ := key x
      obtain ⟨y', e1', e2', e3'⟩ := key x'
      simp only [VarOp.kin]
      rw [e1, e1', e3, e3']; exact h.share y y'
    · obtain ⟨y, e1, e2, e3⟩ := key x; rw [e1]; exact h.len y
  | call v f =>
    have hv := h.view v
    refine ⟨fun p e => ?_, fun e1 err w' e => ?_⟩
    · simp only [VarOp.stepList, VarOp.step] at e ⊢
      rw [hv]
      cases hf : f (envL v) w with
      | error q => rw [bind_error hf] at e ⊢; cases e; rfl
      | ok r => rw [bind_ok (b := r.1) (w' := r.2) hf] at e; cases e
    · simp only [VarOp.stepList] at e
      cases hf : f (envL v) w with
      | error q => rw [bind_error hf] at e; cases e
      | ok r =>
        obtain ⟨⟨m, er⟩, w1⟩ := r
        rw [bind_ok hf] at e
        cases e
        have hl := hc _ _ _ _ hf
        dsimp only at hl
        refine ⟨A, upd env v { env v with fields := m }, ?_, fun u => ?_, fun u => ?_, fun u u' => ?_, fun u => ?_⟩
        · simp only [VarOp.step]
          rw [hv, bind_ok hf]; rfl
        · by_cases e : u = v
          · subst e
            simp only [upd_same]
            unfold ModelVar.view
            have : A.list (env u).layers = m.layers := by rw [hl, ← hv]; rfl
            dsimp only
            rw [this]
          · rw [upd_ne e, upd_ne e]; exact h.view u
        all_goals have key : ∀ x, (upd env v { env v with fields := m } x).layers = (env x).layers := fun x => by
                    by_cases e : x = v
                    · subst e; simp only [upd_same]
                    · rw [upd_ne e]
        · rw [key]; exact h.room u
        · rw [key, key]; exact h.share u u'
        · rw [key]; exact h.len u
  | add v lp =>
    have hv := h.view v
    by_cases hm : Misfit (env v).fields (w.lay lp)
    · have hmL : Misfit (envL v) (w.lay lp) := by rw [← hv]; exact hm
      have e1 : (VarOp.add v lp).stepList envL w = .ok ((upd envL v (envL v), some .addLayer), w) := by
        simp only [VarOp.stepList]; rw [bind_ok (addLayer_misfit _ _ _ hmL)]; rfl
      have e2 : (VarOp.add v lp).step grow (A, env) w = .ok (((A, upd env v (env v)), some .addLayer), w) := by
        simp only [VarOp.step]; rw [bind_ok (addLayerVar_reject grow A _ _ _ hm)]; rfl
      have u1 : upd envL v (envL v) = envL := funext fun x => by by_cases e : x = v <;> simp [upd, e]
      have u2 : upd env v (env v) = env := funext fun x => by by_cases e : x = v <;> simp [upd, e]
      rw [u1] at e1; rw [u2] at e2
      rw [e1, e2]
      refine ⟨(fun p e => by cases e), fun e1 err w' e => ?_⟩
      cases e
      exact ⟨A, env, rfl, h⟩
    · have hmL : ¬ Misfit (envL v) (w.lay lp) := by rw [← hv]; exact hm
      have e1 : (VarOp.add v lp).stepList envL w =
          .ok ((upd envL v { (envL v).grown (w.lay lp) with layers := (envL v).layers ++ [lp] }, none), w) := by
        simp only [VarOp.stepList]; rw [bind_ok (addLayer_fit _ _ _ hmL)]; rfl
      have e2 : (VarOp.add v lp).step grow (A, env) w = .ok ((((goAppend grow A (env v).layers lp).1,
          upd env v ⟨(env v).fields.grown (w.lay lp), (goAppend grow A (env v).layers lp).2⟩), none), w) := by
        simp only [VarOp.step]; rw [bind_ok (addLayerVar_accept grow A _ _ _ hm)]; rfl
      rw [e1, e2]
      refine ⟨(fun p e => by cases e), fun e1 err w' e => ?_⟩
      cases e
      have hlen : ∀ u, (envL u).layers.length = (env u).layers.len := fun u => by
        rw [← h.view u]; exact Arrays.list_length _ _
      have hlist : A.list (env v).layers = (envL v).layers := by rw [← hv]; rfl
      refine ⟨_, _, rfl, fun u => ?_, fun u => ?_, fun u u' => ?_, fun u => ?_⟩
      · by_cases e : u = v
        · subst e
          simp only [upd_same, ModelVar.view, goAppend_list, hlist]
          rw [← hv]; rfl
        · rw [upd_ne e, upd_ne e, ← h.view u]
          unfold ModelVar.view
          rw [goAppend_other]
          · intro h0; exact (h.room u (lt_of_lt_of_le h0 (h.len u))).2
          · intro hroom ha
            by_cases h0 : (env u).layers.len = 0
            · omega
            have hcu : 0 < (env u).layers.cap := lt_of_lt_of_le (Nat.pos_of_ne_zero h0) (h.len u)
            have hcv : 0 < (env v).layers.cap := by omega
            rcases hc with hc | hc
            · have := (h.room v hcv).1
              have h2 := hlen v
              rw [hc] at h2
              simp at h2; omega
            · have := hc u (h.share u v hcu hcv ha)
              rw [hlen, hlen] at this; exact this
      · by_cases e : u = v
        · subst e
          simp only [upd_same]
          intro _
          refine ⟨by rw [goAppend_len]; omega, ?_⟩
          unfold goAppend
          split
          · exact (h.room u (by omega)).2
          · exact Nat.lt_succ_self _
        · rw [upd_ne e]
          exact fun h0 => ⟨(h.room u h0).1, lt_of_lt_of_le (h.room u h0).2 (goAppend_next ..)⟩
      · have key : ∀ x, x ≠ v → 0 < (env x).layers.cap → (goAppend grow A (env v).layers lp).2.arr = (env x).layers.arr → k.of v = k.of x := by
          intro x hx hcx
          unfold goAppend
          split
          · exact h.share v x (by omega) hcx
          · intro e
            have := (h.room x hcx).2
            dsimp only at e
            omega
        simp only [VarOp.kin]
        by_cases e : u = v
        · subst e
          by_cases e' : u' = u
          · subst e'; exact fun _ _ _ => rfl
          · simp only [upd_same]
            rw [upd_ne e']
            exact fun _ h2 h3 => key u' e' h2 h3
        · by_cases e' : u' = v
          · subst e'
            simp only [upd_same]
            rw [upd_ne e]
            exact fun h1 _ h3 => (key u e h1 h3.symm).symm
          · rw [upd_ne e, upd_ne e']; exact h.share u u'
      · by_cases e : u = v
        · subst e
          simp only [upd_same]
          unfold goAppend
          split
          · assumption
          · have := h.len u
            have := hg (env u).layers.cap
            dsimp only; omega
        · rw [upd_ne e]; exact h.len u

theorem SameVars.run {grow : Nat → Nat} (hg : ∀ c, c < grow c) (ops : List (VarOp α)) {A : Arrays} {env : Nat → ModelVar α} {envL : Nat → Model α} {k : Kin}
    (h : SameVars A env envL k) (w : World α) (hc : CarefulRun ops k envL w) :
    (∀ p, runLists ops envL w = .error p → runVars grow ops (A, env) w = .error p) ∧
    (∀ e1 errs w', runLists ops envL w = .ok ((e1, errs), w') →
      ∃ A' env', runVars grow ops (A, env) w = .ok (((A', env'), errs), w') ∧ ∀ v, (env' v).view A' = e1 v) := by
  induction ops generalizing A env envL k w with
  | nil =>
    refine ⟨(fun p e => by cases e), fun e1 errs w' e => ?_⟩
    cases e
    exact ⟨A, env, rfl, h.view⟩
  | cons op ops ih =>
    obtain ⟨h1, h2⟩ := hc
    obtain ⟨s1, s2⟩ := h.step hg op h1 w
    simp only [runLists, runVars]
    cases e : op.stepList envL w with
    | error q =>
      rw [bind_error e, bind_error (s1 _ e)]
      exact ⟨(fun p e => by cases e; rfl), (fun e1 errs w' e => by cases e)⟩
    | ok r =>
      obtain ⟨⟨e1, err⟩, w1⟩ := r
      obtain ⟨A1, env1, t1, t2⟩ := s2 _ _ _ e
      rw [bind_ok e, bind_ok t1]
      obtain ⟨i1, i2⟩ := ih t2 w1 (h2 _ _ e)
      dsimp only
      cases e' : runLists ops e1 w1 with
      | error q =>
        rw [bind_error e', bind_error (i1 _ e')]
        exact ⟨(fun p e => by cases e; rfl), (fun e1 errs w' e => by cases e)⟩
      | ok r =>
        obtain ⟨⟨e2, errs⟩, w2⟩ := r
        obtain ⟨A2, env2, t3, t4⟩ := i2 _ _ _ e'
        rw [bind_ok e', bind_ok t3]
        refine ⟨(fun p e => by cases e), fun e1 errs w' e => ?_⟩
        cases e
        exact ⟨A2, env2, rfl, t4⟩

theorem sameVars_start (A : Arrays) : SameVars A (fun _ => (newModelVar : ModelVar α)) (fun _ => newModel) Kin.start :=
  ⟨fun _ => rfl, fun _ h => absurd h (Nat.lt_irrefl 0), fun _ _ h => absurd h (Nat.lt_irrefl 0), fun _ => Nat.le_refl 0⟩

/-- C128: a program that calls AddLayer only on empty models and on models with at least as many layers as each of their copies does exactly
what it does on models with lists of layers: the same panics, the same errors, the same models, whatever the growth of the arrays. -/
theorem C128_careful (grow : Nat → Nat) (hg : ∀ c, c < grow c) (ops : List (VarOp α)) (A : Arrays) (w : World α)
    (hc : CarefulRun ops Kin.start (fun _ => newModel) w) :
    (∀ p, runLists ops (fun _ => newModel) w = .error p → runVars grow ops (A, fun _ => newModelVar) w = .error p) ∧
    (∀ env errs w', runLists ops (fun _ => newModel) w = .ok ((env, errs), w') →
      ∃ A' env', runVars grow ops (A, fun _ => newModelVar) w = .ok (((A', env'), errs), w') ∧ ∀ v, (env' v).view A' = env v) :=
  (sameVars_start A).run hg ops w hc

theorem careful_nocopy (ops : List (VarOp α)) (hn : ∀ v u, VarOp.copy v u ∉ ops)
    (hf : ∀ v f, VarOp.call v f ∈ ops → ∀ m w p w', f m w = .ok (p, w') → p.1.layers = m.layers) (k : Kin)
    (hk : (∀ v u, k.of v = k.of u → v = u) ∧ ∀ v n, k.of v = .inr n → n < k.next) (env : Nat → Model α) (w : World α) : CarefulRun ops k env w := by
  induction ops generalizing k env w with
  | nil => trivial
  | cons op ops ih =>
    have hn' : ∀ v u, VarOp.copy v u ∉ ops := fun v u h => hn v u (List.mem_cons_of_mem _ h)
    have hf' := fun v f h => hf v f (List.mem_cons_of_mem _ h)
    refine ⟨?_, fun p w' _ => ih hn' hf' _ ?_ _ _⟩
    · cases op with
      | new v => trivial
      | copy v u => trivial
      | add v lp => exact .inr fun u hu => by rw [hk.1 _ _ hu]
      | call v f => exact hf v f (List.mem_cons_self ..)
    · cases op with
      | copy v u => exact absurd (List.mem_cons_self ..) (hn v u)
      | add v lp => exact hk
      | call v f => exact hk
      | new v =>
        simp only [VarOp.kin]
        refine ⟨fun x y e => ?_, fun x n e => ?_⟩
        · by_cases hx : x = v
          · subst hx
            by_cases hy : y = x
            · exact hy.symm
            · rw [upd_same, upd_ne hy] at e
              exact absurd (hk.2 _ _ e.symm) (Nat.lt_irrefl _)
          · by_cases hy : y = v
            · subst hy
              rw [upd_same, upd_ne hx] at e
              exact absurd (hk.2 _ _ e) (Nat.lt_irrefl _)
            · rw [upd_ne hx, upd_ne hy] at e
              exact hk.1 _ _ e
        · by_cases hx : x = v
          · subst hx; rw [upd_same] at e; cases e; exact Nat.lt_succ_self _
          · rw [upd_ne hx] at e; exact (hk.2 _ _ e).trans (Nat.lt_succ_self _)

/-- C128: in particular a program that never copies a Model. -/
theorem C128_nocopy (grow : Nat → Nat) (hg : ∀ c, c < grow c) (ops : List (VarOp α)) (hn : ∀ v u, VarOp.copy v u ∉ ops)
    (hf : ∀ v f, VarOp.call v f ∈ ops → ∀ m w p w', f m w = .ok (p, w') → p.1.layers = m.layers) (A : Arrays) (w : World α) :
    (∀ p, runLists ops (fun _ => newModel) w = .error p → runVars grow ops (A, fun _ => newModelVar) w = .error p) ∧
    (∀ env errs w', runLists ops (fun _ => newModel) w = .ok ((env, errs), w') →
      ∃ A' env', runVars grow ops (A, fun _ => newModelVar) w = .ok (((A', env'), errs), w') ∧ ∀ v, (env' v).view A' = env v) :=
  C128_careful grow hg ops A w (careful_nocopy ops hn hf _ ⟨fun _ _ e => Sum.inl.inj e, fun _ _ e => by cases e⟩ _ _)

/-! ### Two copies, both extended -/

/-- `b := a` has been executed; `a.AddLayer(x)`, `b.AddLayer(y)`.  In an array with room the second call overwrites the layer x of `a`. -/
theorem two_adds (grow : Nat → Nat) (A : Arrays) (env : Nat → ModelVar α) {a b : Nat} (hab : a ≠ b) (he : env b = env a)
    (hA : 0 < (env a).layers.len → (env a).layers.arr < A.next) (w : World α) {x y : Nat}
    (hx : ¬ Misfit (env a).fields (w.lay x)) (hy : ¬ Misfit (env a).fields (w.lay y)) :
    ∃ A' env', runVars grow [.add a x, .add b y] (A, env) w = .ok (((A', env'), [none, none]), w) ∧
      (env' a).view A' = { (env a).fields.grown (w.lay x) with layers := A.list (env a).layers ++ [if (env a).layers.len < (env a).layers.cap then y else x] } ∧
      (env' b).view A' = { (env a).fields.grown (w.lay y) with layers := A.list (env a).layers ++ [y] } := by
  generalize hs : (env a).layers = s at hA
  have e1 : (VarOp.add a x).step grow (A, env) w = .ok ((((goAppend grow A s x).1, upd env a ⟨(env a).fields.grown (w.lay x), (goAppend grow A s x).2⟩), none), w) := by
    simp only [VarOp.step]; rw [bind_ok (addLayerVar_accept grow A _ _ _ hx), hs]; rfl
  have hb : upd env a ⟨(env a).fields.grown (w.lay x), (goAppend grow A s x).2⟩ b = env a := by rw [upd_ne hab.symm, he]
  have e2 : (VarOp.add b y).step grow ((goAppend grow A s x).1, upd env a ⟨(env a).fields.grown (w.lay x), (goAppend grow A s x).2⟩) w =
      .ok ((((goAppend grow (goAppend grow A s x).1 s y).1, upd (upd env a ⟨(env a).fields.grown (w.lay x), (goAppend grow A s x).2⟩) b
        ⟨(env a).fields.grown (w.lay y), (goAppend grow (goAppend grow A s x).1 s y).2⟩), none), w) := by
    simp only [VarOp.step]; rw [hb, bind_ok (addLayerVar_accept grow _ _ _ _ hy), hs]; rfl
  refine ⟨(goAppend grow (goAppend grow A s x).1 s y).1, upd (upd env a ⟨(env a).fields.grown (w.lay x), (goAppend grow A s x).2⟩) b
    ⟨(env a).fields.grown (w.lay y), (goAppend grow (goAppend grow A s x).1 s y).2⟩, ?_, ?_, ?_⟩
  · simp only [runVars]
    rw [bind_ok e1]
    dsimp only
    rw [bind_ok (b := ((_, _), _)) (w' := w) (by rw [bind_ok e2]; rfl)]
    rfl
  · rw [upd_ne hab]
    simp only [upd_same, ModelVar.view]
    congr 1
    by_cases hc : s.len < s.cap
    · rw [if_pos hc]
      have e3 : (goAppend grow A s x).2 = (goAppend grow (goAppend grow A s x).1 s y).2 := by simp [goAppend, hc]
      rw [e3, goAppend_list]
      congr 1
      refine goAppend_other _ _ _ _ _ hA fun _ _ => le_refl _
    · rw [if_neg hc, goAppend_other, goAppend_list]
      · intro _; simp [goAppend, hc]
      · exact fun h => absurd h hc
  · simp only [upd_same, ModelVar.view]
    congr 1
    rw [goAppend_list]
    congr 1
    exact goAppend_other _ _ _ _ _ hA fun _ _ => le_refl _

/-- The growth of a slice of 16-byte elements in the Go runtime (runtime/slice.go, growslice): the capacity is doubled while it is below 256. -/
structure GoGrowth (grow : Nat → Nat) : Prop where
  zero : grow 0 = 1
  double : ∀ c, 0 < c → c < 256 → grow c = 2 * c

/-- The calls `v.AddLayer(l)` for the layers of a list. -/
def addAll (v : Nat) (ls : List Nat) : List (VarOp α) := ls.map fun lp => .add v lp

theorem runVars_append (grow : Nat → Nat) (p q : List (VarOp α)) (s : Arrays × (Nat → ModelVar α)) (w : World α) {s1 s2 : Arrays × (Nat → ModelVar α)}
    {e1 e2 : List (Option Err)} {w1 w2 : World α} (h1 : runVars grow p s w = .ok ((s1, e1), w1)) (h2 : runVars grow q s1 w1 = .ok ((s2, e2), w2)) :
    runVars grow (p ++ q) s w = .ok ((s2, e1 ++ e2), w2) := by
  induction p generalizing s w e1 with
  | nil => cases h1; exact h2
  | cons op p ih =>
    simp only [runVars, List.cons_append] at h1 ⊢
    cases e : op.step grow s w with
    | error q => rw [bind_error e] at h1; cases h1
    | ok r =>
      obtain ⟨⟨t, er⟩, w'⟩ := r
      rw [bind_ok e] at h1 ⊢
      dsimp only at h1 ⊢
      cases e' : runVars grow p t w' with
      | error q => rw [bind_error e'] at h1; cases h1
      | ok r =>
        obtain ⟨⟨t2, er2⟩, w''⟩ := r
        rw [bind_ok e'] at h1
        cases h1
        rw [bind_ok (ih _ _ e')]
        rfl

theorem runLists_append (p q : List (VarOp α)) (s : Nat → Model α) (w : World α) {s2 : Nat → Model α} {errs : List (Option Err)} {w2 : World α}
    (h : runLists (p ++ q) s w = .ok ((s2, errs), w2)) : ∃ s1 e1 w1 e2, runLists p s w = .ok ((s1, e1), w1) ∧ runLists q s1 w1 = .ok ((s2, e2), w2) ∧ errs = e1 ++ e2 := by
  induction p generalizing s w errs with
  | nil => exact ⟨s, [], w, errs, rfl, h, rfl⟩
  | cons op p ih =>
    simp only [runLists, List.cons_append] at h
    cases e : op.stepList s w with
    | error q => rw [bind_error e] at h; cases h
    | ok r =>
      obtain ⟨⟨t, er⟩, w'⟩ := r
      rw [bind_ok e] at h
      dsimp only at h
      cases e' : runLists (p ++ q) t w' with
      | error q => rw [bind_error e'] at h; cases h
      | ok r =>
        obtain ⟨⟨t2, er2⟩, w''⟩ := r
        rw [bind_ok e'] at h
        cases h
        obtain ⟨s1, e1, w1, e2, h1, h2, h3⟩ := ih _ _ e'
        refine ⟨s1, er :: e1, w1, e2, ?_, h2, by rw [h3]; rfl⟩
        simp only [runLists]
        rw [bind_ok e]
        dsimp only
        rw [bind_ok h1]; rfl

/-- The slice of a model with n layers that were added one by one. -/
structure Doubled (s : LaySlice) (n : Nat) : Prop where
  len : s.len = n
  zero : n = 0 → s.cap = 0
  pow : 0 < n → ∃ k, s.cap = 2 ^ k ∧ n ≤ 2 ^ k ∧ 2 ^ k < 2 * n

theorem Doubled.append {grow : Nat → Nat} (hg : GoGrowth grow) {A : Arrays} {s : LaySlice} {n : Nat} (h : Doubled s n) (hn : n < 256) (x : Nat) :
    Doubled (goAppend grow A s x).2 (n + 1) := by
  refine ⟨by rw [goAppend_len, h.len], by omega, fun _ => ?_⟩
  unfold goAppend
  split
  · rename_i hc
    rw [h.len] at hc
    have h0 : 0 < n := by
      rcases Nat.eq_zero_or_pos n with e | e
      · have := h.zero e; omega
      · exact e
    obtain ⟨k, h1, h2, h3⟩ := h.pow h0
    exact ⟨k, h1, by omega, by omega⟩
  · rename_i hc
    rw [h.len] at hc
    rcases Nat.eq_zero_or_pos n with e | e
    · have := h.zero e
      subst e
      exact ⟨0, by simp [this, hg.zero], by simp, by simp⟩
    · obtain ⟨k, h1, h2, h3⟩ := h.pow e
      have : n = 2 ^ k := by omega
      refine ⟨k + 1, ?_, ?_, ?_⟩
      · dsimp only
        rw [h1, hg.double _ (by omega) (by omega), Nat.pow_succ]; ring
      · rw [Nat.pow_succ]; omega
      · rw [Nat.pow_succ]; omega

theorem Doubled.full_iff {s : LaySlice} {n : Nat} (h : Doubled s n) : s.len < s.cap ↔ ¬ (n = 0 ∨ ∃ k, n = 2 ^ k) := by
  rw [h.len]
  rcases Nat.eq_zero_or_pos n with e | e
  · have := h.zero e
    subst e; omega
  · obtain ⟨k, h1, h2, h3⟩ := h.pow e
    constructor
    · rintro hc (h0 | ⟨j, hj⟩)
      · omega
      · have a1 : j < k := (Nat.pow_lt_pow_iff_right (by omega : 1 < 2)).1 (by omega : 2 ^ j < 2 ^ k)
        have a2 : k < j + 1 := (Nat.pow_lt_pow_iff_right (by omega : 1 < 2)).1 (by rw [Nat.pow_succ]; omega : 2 ^ k < 2 ^ (j + 1))
        omega
    · intro hc
      rcases Nat.lt_or_ge n s.cap with h | h
      · exact h
      · exact absurd (Or.inr ⟨k, by omega⟩) hc

/-- A model that is built layer by layer. -/
theorem addAll_run {grow : Nat → Nat} (hg : GoGrowth grow) (v : Nat) (ls : List Nat) {A : Arrays} {env : Nat → ModelVar α} {envL : Nat → Model α} {n : Nat}
    (hv : (env v).view A = envL v) (hd : Doubled (env v).layers n) (hA : 0 < (env v).layers.len → (env v).layers.arr < A.next)
    (hn : n + ls.length ≤ 256) {w w' : World α} {e1 : Nat → Model α} {errs : List (Option Err)} (hr : runLists (addAll v ls) envL w = .ok ((e1, errs), w'))
    (hok : ∀ e ∈ errs, e = none) :
    w' = w ∧ (e1 v).layers = (envL v).layers ++ ls ∧ ∃ A' env', runVars grow (addAll v ls) (A, env) w = .ok (((A', env'), errs), w') ∧
      (env' v).view A' = e1 v ∧ Doubled (env' v).layers (n + ls.length) ∧ (0 < (env' v).layers.len → (env' v).layers.arr < A'.next) := by
  induction ls generalizing A env envL n errs with
  | nil =>
    cases hr
    exact ⟨rfl, by simp, A, env, rfl, hv, hd, hA⟩
  | cons lp ls ih =>
    simp only [addAll, List.map_cons, runLists, runVars, List.length_cons] at hr hn ⊢
    by_cases hm : Misfit (envL v) (w.lay lp)
    · have e1 : (VarOp.add v lp).stepList envL w = .ok ((upd envL v (envL v), some .addLayer), w) := by
        simp only [VarOp.stepList]; rw [bind_ok (addLayer_misfit _ _ _ hm)]; rfl
      rw [bind_ok e1] at hr
      dsimp only at hr
      cases e' : runLists (ls.map fun lp => VarOp.add v lp) (upd envL v (envL v)) w with
      | error q => rw [bind_error e'] at hr; cases hr
      | ok r =>
        obtain ⟨⟨t2, er2⟩, w''⟩ := r
        rw [bind_ok e'] at hr
        cases hr
        cases hok _ (List.mem_cons_self ..)
    · have hmS : ¬ Misfit (env v).fields (w.lay lp) := by rw [← hv] at hm; exact hm
      have e1 : (VarOp.add v lp).stepList envL w =
          .ok ((upd envL v { (envL v).grown (w.lay lp) with layers := (envL v).layers ++ [lp] }, none), w) := by
        simp only [VarOp.stepList]; rw [bind_ok (addLayer_fit _ _ _ hm)]; rfl
      have e2 : (VarOp.add v lp).step grow (A, env) w = .ok ((((goAppend grow A (env v).layers lp).1,
          upd env v ⟨(env v).fields.grown (w.lay lp), (goAppend grow A (env v).layers lp).2⟩), none), w) := by
        simp only [VarOp.step]; rw [bind_ok (addLayerVar_accept grow A _ _ _ hmS)]; rfl
      rw [bind_ok e1] at hr
      rw [bind_ok e2]
      dsimp only at hr ⊢
      cases e' : runLists (ls.map fun lp => VarOp.add v lp) (upd envL v { (envL v).grown (w.lay lp) with layers := (envL v).layers ++ [lp] }) w with
      | error q => rw [bind_error e'] at hr; cases hr
      | ok r =>
        obtain ⟨⟨t2, er2⟩, w''⟩ := r
        rw [bind_ok e'] at hr
        cases hr
        have hlist : A.list (env v).layers = (envL v).layers := by rw [← hv]; rfl
        obtain ⟨i1, i2, A', env', i3, i4, i5, i6⟩ := ih (A := (goAppend grow A (env v).layers lp).1)
          (env := upd env v ⟨(env v).fields.grown (w.lay lp), (goAppend grow A (env v).layers lp).2⟩) (n := n + 1)
          (by simp only [upd_same, ModelVar.view, goAppend_list, hlist]; rw [← hv]; rfl)
          (by rw [upd_same]; exact hd.append hg (by omega) lp)
          (by
            rw [upd_same]
            intro _
            simp only [goAppend]
            split
            · rename_i hc
              refine hA ?_
              rcases Nat.eq_zero_or_pos n with e | e
              · have := hd.zero e; omega
              · rw [hd.len]; exact e
            · exact Nat.lt_succ_self _)
          (by omega) e' (fun e he => hok e (List.mem_cons_of_mem _ he))
        refine ⟨i1, ?_, A', env', ?_, i4, ?_, i6⟩
        · rw [i2, upd_same]; simp
        · unfold addAll at i3
          rw [bind_ok i3]; rfl
        · rw [show n + (ls.length + 1) = n + 1 + ls.length by omega]; exact i5

/-- C128: a model with n layers is built, copied with `b := a`, and each copy gets another layer; n ≤ 256, and with lists of layers no call
returns an error.  Then no call returns an error and `b` is as expected.  If n is 0 or a power of two, so is `a`; otherwise the last layer of
`a` is the layer that was added to `b`, while its other fields are those for its own layer. -/
theorem C128_copies (grow : Nat → Nat) (hg : GoGrowth grow) (ls : List Nat) (hn : ls.length ≤ 256) (x y : Nat) (A : Arrays) (w w' : World α)
    (env : Nat → Model α) (errs : List (Option Err))
    (hr : runLists (.new 0 :: (addAll 0 ls ++ [.copy 1 0, .add 0 x, .add 1 y])) (fun _ => newModel) w = .ok ((env, errs), w')) (hok : ∀ e ∈ errs, e = none) :
    (env 0).layers = ls ++ [x] ∧ (env 1).layers = ls ++ [y] ∧
    ∃ A' env', runVars grow (.new 0 :: (addAll 0 ls ++ [.copy 1 0, .add 0 x, .add 1 y])) (A, fun _ => newModelVar) w = .ok (((A', env'), errs), w') ∧
      (env' 1).view A' = env 1 ∧
      ((ls.length = 0 ∨ ∃ k, ls.length = 2 ^ k) → (env' 0).view A' = env 0) ∧
      (¬ (ls.length = 0 ∨ ∃ k, ls.length = 2 ^ k) → (env' 0).view A' = { env 0 with layers := ls ++ [y] }) := by
  rw [show (VarOp.new 0 : VarOp α) :: (addAll 0 ls ++ [.copy 1 0, .add 0 x, .add 1 y]) = [.new 0] ++ (addAll 0 ls ++ ([.copy 1 0] ++ [.add 0 x, .add 1 y])) from rfl] at hr ⊢
  obtain ⟨s1, e1, w1, e2, h1, h2, rfl⟩ := runLists_append _ _ _ _ hr
  obtain ⟨s2, e3, w2, e4, h3, h4, rfl⟩ := runLists_append _ _ _ _ h2
  obtain ⟨s3, e5, w3, e6, h5, h6, rfl⟩ := runLists_append _ _ _ _ h4
  cases h1
  cases h5
  have k1 := addAll_run hg 0 ls (A := A) (env := upd (fun _ => newModelVar) 0 newModelVar) (n := 0) (by rw [upd_same, upd_same]; rfl)
    (by rw [upd_same]; exact ⟨rfl, fun _ => rfl, fun h => absurd h (Nat.lt_irrefl _)⟩) (by rw [upd_same]; exact fun h => absurd h (Nat.lt_irrefl _)) (by omega) h3
    (fun e he => hok e (by simp [he]))
  obtain ⟨hw, l1, A1, env1, r1, v1, d1, a1⟩ := k1
  subst w2
  rw [upd_same] at l1
  have l1 : (s2 0).layers = ls := l1
  rw [Nat.zero_add] at d1
  -- the two calls with lists
  have fits : ¬ Misfit (s2 0) (w.lay x) ∧ ¬ Misfit (s2 0) (w.lay y) := by
    constructor
    · intro hm
      simp only [runLists] at h6
      have t1 : (VarOp.add 0 x).stepList (upd s2 1 (s2 0)) w = .ok ((upd (upd s2 1 (s2 0)) 0 (s2 0), some .addLayer), w) := by
        simp only [VarOp.stepList]; rw [upd_ne (by omega), bind_ok (addLayer_misfit _ _ _ hm)]; rfl
      rw [bind_ok t1] at h6
      dsimp only at h6
      cases t2 : (VarOp.add 1 y).stepList (upd (upd s2 1 (s2 0)) 0 (s2 0)) w with
      | error q => rw [bind_error (bind_error t2)] at h6; cases h6
      | ok r =>
        rw [bind_ok (b := ((_, [_]))) (w' := r.2) (by rw [bind_ok t2]; rfl)] at h6
        cases h6
        cases hok (some .addLayer) (by simp)
    · intro hm
      simp only [runLists] at h6
      by_cases hx : Misfit (s2 0) (w.lay x)
      · have t1 : (VarOp.add 0 x).stepList (upd s2 1 (s2 0)) w = .ok ((upd (upd s2 1 (s2 0)) 0 (s2 0), some .addLayer), w) := by
          simp only [VarOp.stepList]; rw [upd_ne (by omega), bind_ok (addLayer_misfit _ _ _ hx)]; rfl
        rw [bind_ok t1] at h6
        dsimp only at h6
        cases t2 : (VarOp.add 1 y).stepList (upd (upd s2 1 (s2 0)) 0 (s2 0)) w with
        | error q => rw [bind_error (bind_error t2)] at h6; cases h6
        | ok r =>
          rw [bind_ok (b := ((_, [_]))) (w' := r.2) (by rw [bind_ok t2]; rfl)] at h6
          cases h6
          cases hok (some .addLayer) (by simp)
      · have t1 : (VarOp.add 0 x).stepList (upd s2 1 (s2 0)) w = .ok ((upd (upd s2 1 (s2 0)) 0 { (s2 0).grown (w.lay x) with layers := (s2 0).layers ++ [x] }, none), w) := by
          simp only [VarOp.stepList]; rw [upd_ne (by omega), bind_ok (addLayer_fit _ _ _ hx)]; rfl
        rw [bind_ok t1] at h6
        have t2 : (VarOp.add 1 y).stepList (upd (upd s2 1 (s2 0)) 0 { (s2 0).grown (w.lay x) with layers := (s2 0).layers ++ [x] }) w =
            .ok ((upd (upd (upd s2 1 (s2 0)) 0 { (s2 0).grown (w.lay x) with layers := (s2 0).layers ++ [x] }) 1 (s2 0), some .addLayer), w) := by
          simp only [VarOp.stepList]; rw [upd_ne (by omega), upd_same, bind_ok (addLayer_misfit _ _ _ hm)]; rfl
        dsimp only at h6
        rw [bind_ok (b := ((_, [_]))) (w' := w) (by rw [bind_ok t2]; rfl)] at h6
        cases h6
        cases hok (some .addLayer) (by simp)
  obtain ⟨fx, fy⟩ := fits
  have t1 : (VarOp.add 0 x).stepList (upd s2 1 (s2 0)) w = .ok ((upd (upd s2 1 (s2 0)) 0 { (s2 0).grown (w.lay x) with layers := (s2 0).layers ++ [x] }, none), w) := by
    simp only [VarOp.stepList]; rw [upd_ne (by omega), bind_ok (addLayer_fit _ _ _ fx)]; rfl
  have t2 : (VarOp.add 1 y).stepList (upd (upd s2 1 (s2 0)) 0 { (s2 0).grown (w.lay x) with layers := (s2 0).layers ++ [x] }) w =
      .ok ((upd (upd (upd s2 1 (s2 0)) 0 { (s2 0).grown (w.lay x) with layers := (s2 0).layers ++ [x] }) 1 { (s2 0).grown (w.lay y) with layers := (s2 0).layers ++ [y] }, none), w) := by
    simp only [VarOp.stepList]; rw [upd_ne (by omega), upd_same, bind_ok (addLayer_fit _ _ _ fy)]; rfl
  simp only [runLists] at h6
  rw [bind_ok t1] at h6
  dsimp only at h6
  rw [bind_ok (b := ((_, [_]))) (w' := w) (by rw [bind_ok t2]; rfl)] at h6
  cases h6
  dsimp only
  have f0 : upd env1 1 (env1 0) 0 = env1 0 := upd_ne (by omega)
  have f1 : upd env1 1 (env1 0) 1 = env1 0 := upd_same
  have fx' : ¬ Misfit (upd env1 1 (env1 0) 0).fields (w.lay x) := by rw [f0]; rw [← v1] at fx; exact fx
  have fy' : ¬ Misfit (upd env1 1 (env1 0) 0).fields (w.lay y) := by rw [f0]; rw [← v1] at fy; exact fy
  obtain ⟨A', env', q1, q2, q3⟩ := two_adds grow A1 (upd env1 1 (env1 0)) (a := 0) (b := 1) (by omega) (by rw [f0, f1]) (by rw [f0]; exact a1) w fx' fy'
  rw [f0] at q2 q3
  have hl : A1.list (env1 0).layers = (s2 0).layers := by rw [← v1]; rfl
  rw [hl] at q2 q3
  have g : ∀ (l : Layer α) (q : List Nat), { (env1 0).fields.grown l with layers := q } = { (s2 0).grown l with layers := q } := fun l q => by rw [← v1]; rfl
  rw [g] at q2 q3
  refine ⟨by rw [upd_ne (by omega), upd_same, l1], by rw [upd_same, l1], A', env', ?_, ?_, ?_, ?_⟩
  · refine runVars_append _ _ _ _ _ (e1 := [none]) (w1 := w) rfl ?_
    refine runVars_append _ _ _ _ _ r1 ?_
    exact runVars_append _ _ _ _ _ (e1 := [none]) (w1 := w) rfl q1
  · rw [q3, upd_same]
  · intro hp
    rw [q2, if_neg (fun h => (d1.full_iff.1 h) hp), upd_ne (by omega), upd_same]
  · intro hp
    rw [q2, if_pos (d1.full_iff.2 hp), upd_ne (by omega), upd_same, l1]

/-! ### What the overwritten model computes -/

theorem forwardLoop_layers {m m' : Model α} (h : m.layers = m'.layers) (t : Bool) (X : Mat) (n : Nat) : forwardLoop m t X n = forwardLoop m' t X n := by
  induction n with
  | zero => rfl
  | succ n ih => unfold forwardLoop; rw [ih, h]

/-- Predict does not look at OutputSize and InputSize. -/
theorem predict_fields {m m' : Model α} (h1 : m.layers = m'.layers) (h2 : m.modelSize = m'.modelSize) (h3 : m.accType = m'.accType) (X : Mat) :
    predict m X = predict m' X := by
  unfold predict modelForward
  rw [h2, h3, forwardLoop_layers h1]

/-- The network with another layer at the end. -/
def Net.snoc (net : Net α) (lp : Nat) (wm bm : Mat) (L : LayerSpec α) : Net α where
  size := net.size + 1
  dim i := if i ≤ net.size then net.dim i else L.o
  lp i := if i < net.size then net.lp i else lp
  wm i := if i < net.size then net.wm i else wm
  bm i := if i < net.size then net.bm i else bm
  L i := if i < net.size then net.L i else L

theorem netOut_snoc (net : Net α) (lp : Nat) (wm bm : Mat) (L : LayerSpec α) (X : Nat → Nat → α) (k : Nat) (hk : k ≤ net.size) :
    netOut (net.snoc lp wm bm L) X k = netOut net X k := by
  induction k with
  | zero => rfl
  | succ k ih =>
    simp only [netOut]
    rw [ih (by omega)]
    simp only [Net.snoc, if_pos (by omega : k < net.size)]

omit [Flt α] in
theorem IsNet.snoc {w : World α} {m : Model α} {net : Net α} (hN : IsNet w m net) (h0 : 0 < net.size) {lp : Nat} {wm bm : Mat} {L : LayerSpec α} (hL : IsLayer w lp wm bm L)
    (hd : L.n = net.dim net.size) : IsNet w { m with modelSize := m.modelSize + 1, layers := m.layers ++ [lp], outputSize := L.o } (net.snoc lp wm bm L) := by
  refine ⟨by simp [hN.size, Net.snoc], ?_, fun i hi => ?_, fun i hi => ?_, fun i hi => ?_, fun _ => ?_, fun _ => ?_⟩
  · simp only [Net.snoc]
    rw [List.range_succ, List.map_append, hN.ptrs]
    congr 1
    · exact List.map_congr_left fun i hi => (if_pos (List.mem_range.1 hi)).symm
    · simp
  · simp only [Net.snoc] at hi ⊢
    by_cases h : i < net.size
    · simp only [if_pos h]; exact hN.lay i h
    · simp only [if_neg h]; exact hL
  · simp only [Net.snoc] at hi ⊢
    by_cases h : i < net.size
    · rw [if_pos h, if_pos (by omega)]; exact hN.ins i h
    · obtain rfl : i = net.size := by omega
      rw [if_neg h, if_pos (le_refl _)]; exact hd
  · simp only [Net.snoc] at hi ⊢
    by_cases h : i < net.size
    · rw [if_pos h, if_pos (by omega)]; exact hN.outs i h
    · rw [if_neg h, if_neg (by omega)]
  · simp only [Net.snoc]
    rw [if_pos (Nat.zero_le _)]; exact hN.input h0
  · simp only [Net.snoc]
    rw [if_neg (by omega)]

/-- C128: let a variable hold a network whose array of layers has room, `b := a`, `a.AddLayer(x)`, `b.AddLayer(y)` with layers x and y that fit.
No call returns an error; afterwards Predict on `a` computes the network with the layer y at the end, whatever x is, while OutputSize of `a` is
that of x. -/
theorem C128_predict [FltInt α] (grow : Nat → Nat) (A : Arrays) (env : Nat → ModelVar α) {a b : Nat} (hab : a ≠ b) (w : World α) (net : Net α)
    (hN : IsNet w ((env a).view A) net) (h0 : 0 < net.size) (hroom : (env a).layers.len < (env a).layers.cap) (hA : (env a).layers.arr < A.next)
    {x y : Nat} {wx bx wy by' : Mat} {Lx Ly : LayerSpec α} (hx : IsLayer w x wx bx Lx) (hy : IsLayer w y wy by' Ly) (nx : Lx.n = net.dim net.size) (ny : Ly.n = net.dim net.size)
    (bd : net.dim net.size ≤ 2 ^ 53) (bx : Lx.o ≤ 2 ^ 53) (by_ : Ly.o ≤ 2 ^ 53) :
    ∃ A' env', runVars grow [.copy b a, .add a x, .add b y] (A, env) w = .ok (((A', env'), [none, none, none]), w) ∧
      ((env' a).view A').outputSize = Lx.o ∧ ((env' b).view A').outputSize = Ly.o ∧
      ∀ (X : Mat) (r : Nat) (V : Nat → Nat → α), IsMat w X r (net.dim 0) V → (env a).fields.accType = 0 →
        wp (predict ((env' a).view A') X) w (fun p w' => p.2 = none ∧ IsMat w' p.1 r Ly.o (infer Ly (netOut net V net.size))) := by
  have hfit : ∀ {lp wm bm} {L : LayerSpec α}, IsLayer w lp wm bm L → L.n = net.dim net.size → ¬ Misfit (env a).fields (w.lay lp) := by
    intro lp wm bm L hL hn hm
    have := hm.2
    rw [values_inputs, hL.ins, hn, FltInt.toInt_ofInt _ (by omega) (by omega)] at this
    exact this (hN.output h0)
  have f0 : upd env b (env a) a = env a := upd_ne hab
  have f1 : upd env b (env a) b = env a := upd_same
  obtain ⟨A', env', q1, q2, q3⟩ := two_adds grow A (upd env b (env a)) hab (by rw [f0, f1]) (by rw [f0]; exact fun _ => hA) w (x := x) (y := y)
    (by rw [f0]; exact hfit hx nx) (by rw [f0]; exact hfit hy ny)
  rw [f0] at q2 q3
  rw [if_pos hroom] at q2
  refine ⟨A', env', ?_, ?_, ?_, fun X r V hX hacc => ?_⟩
  · exact runVars_append grow [.copy b a] _ _ _ (e1 := [none]) (w1 := w) rfl q1
  · rw [q2]
    simp only [Model.grown]
    rw [values_outputs, hx.outs, FltInt.toInt_ofInt _ (by omega) (by omega)]
  · rw [q3]
    simp only [Model.grown]
    rw [values_outputs, hy.outs, FltInt.toInt_ofInt _ (by omega) (by omega)]
  · have hS := hN.snoc h0 hy ny
    have e : predict ((env' a).view A') X = predict { (env a).view A with modelSize := ((env a).view A).modelSize + 1, layers := ((env a).view A).layers ++ [y], outputSize := Ly.o } X :=
      predict_fields (by rw [q2]; rfl) (by rw [q2]; rfl) (by rw [q2]; rfl) X
    rw [e]
    have hX' : IsMat w X r ((net.snoc y wy by' Ly).dim 0) V := by simp only [Net.snoc]; rw [if_pos (Nat.zero_le _)]; exact hX
    refine wp_mono (predict_spec hS (by simp [Net.snoc]) hX') ?_
    rintro p w' ⟨-, -, h1, -⟩
    have hacc' : ((env a).view A).accType = 0 := hacc
    obtain ⟨he, hF⟩ := h1 (.inl hacc')
    have hm := hF.mat
    dsimp only at hm
    rw [if_neg (by rw [hacc']; decide)] at hm
    have e1 : (net.snoc y wy by' Ly).dim (net.snoc y wy by' Ly).size = Ly.o := by simp [Net.snoc]
    rw [e1] at hm
    refine ⟨he, ?_⟩
    have e2 : decoded ((env a).view A).accType Ly.o (netOut (net.snoc y wy by' Ly) V (net.snoc y wy by' Ly).size) = infer Ly (netOut net V net.size) := by
      funext i j
      unfold decoded
      rw [if_pos hacc']
      change netOut (net.snoc y wy by' Ly) V (net.size + 1) i j = _
      simp only [netOut]
      rw [netOut_snoc _ _ _ _ _ _ _ (le_refl _)]
      simp [Net.snoc]
    rw [e2] at hm
    exact hm

/-! ### Examples -/

/-- A program with a copy that is careful: `a := NewModel(); a.AddLayer(l5); b := a; b.AddLayer(l6); b.AddLayer(l7)`. -/
example (w : World α) : CarefulRun [.new 0, .add 0 5, .copy 1 0, .add 1 6, .add 1 7] Kin.start (fun _ => newModel) w := by
  refine ⟨trivial, fun p w1 h1 => ?_⟩
  cases h1
  refine ⟨.inl rfl, fun p w2 h2 => ⟨trivial, fun q w3 h3 => ?_⟩⟩
  cases h3
  obtain ⟨e, er⟩ := p
  -- what AddLayer does to the lengths
  have key : ∀ {v lp : Nat} {env env' : Nat → Model α} {err : Option Err} {w w' : World α}, (VarOp.add v lp).stepList env w = .ok ((env', err), w') →
      (∀ u, u ≠ v → env' u = env u) ∧ (env v).layers.length ≤ (env' v).layers.length := by
    intro v lp env env' err w w' h
    simp only [VarOp.stepList] at h
    by_cases hm : Misfit (env v) (w.lay lp)
    · rw [bind_ok (addLayer_misfit _ _ _ hm)] at h
      cases h
      exact ⟨fun u hu => upd_ne hu, by rw [upd_same]⟩
    · rw [bind_ok (addLayer_fit _ _ _ hm)] at h
      cases h
      exact ⟨fun u hu => upd_ne hu, by rw [upd_same]; simp⟩
  have hk : ∀ u, upd (upd Kin.start.of 0 (.inr 0)) 1 (upd Kin.start.of 0 (.inr 0) 0) u = upd (upd Kin.start.of 0 (.inr 0)) 1 (upd Kin.start.of 0 (.inr 0) 0) 1 → u = 0 ∨ u = 1 := by
    intro u
    by_cases h1 : u = 1
    · exact fun _ => .inr h1
    · by_cases h0 : u = 0
      · exact fun _ => .inl h0
      · rw [upd_ne h1, upd_ne h0, upd_same, upd_same]
        intro h; cases h
  refine ⟨.inr fun u hu => ?_, fun p w4 h4 => ⟨.inr fun u hu => ?_, fun _ _ _ => trivial⟩⟩
  · rcases hk u hu with rfl | rfl
    · exact le_refl _
    · rfl
  · obtain ⟨e', er'⟩ := p
    obtain ⟨a1, a2⟩ := key h4
    dsimp only at a1 a2
    rcases hk u hu with rfl | rfl
    · dsimp only
      rw [a1 0 (by omega), upd_ne (by omega)]
      rw [upd_same] at a2
      exact a2
    · rfl

/-- Three layers 2→2, then one more for each copy (hypotheses of C128_copies; 3 is neither 0 nor a power of two). -/
example : ∃ (w w' : World ℝ) (env : Nat → Model ℝ) (errs : List (Option Err)),
    runLists (.new 0 :: (addAll 0 [10, 11, 12] ++ [.copy 1 0, .add 0 13, .add 1 14])) (fun _ => newModel) w = .ok ((env, errs), w') ∧ (∀ e ∈ errs, e = none) ∧
    ¬ (([10, 11, 12] : List Nat).length = 0 ∨ ∃ k, ([10, 11, 12] : List Nat).length = 2 ^ k) := by
  have step : ∀ (w : World ℝ) (env : Nat → Model ℝ) (v lp : Nat), (w.lay lp).inputSize = 2 → (w.lay lp).outputSize = 2 → (env v).modelSize = 0 ∨ (env v).outputSize = 2 →
      ∃ m, (VarOp.add v lp).stepList env w = .ok ((upd env v m, none), w) ∧ m.outputSize = 2 := by
    intro w env v lp h1 h2 h3
    have hm : ¬ Misfit (env v) (w.lay lp) := by
      rintro ⟨h4, h5⟩
      rcases h3 with h3 | h3
      · exact h4 h3
      · rw [values_inputs, h1, FltInt.toInt_ofInt _ (by norm_num) (by norm_num)] at h5
        exact h5 h3
    refine ⟨_, (bind_ok (addLayer_fit _ _ _ hm)).trans rfl, ?_⟩
    simp only [Model.grown]
    rw [values_outputs, h2, FltInt.toInt_ofInt _ (by norm_num) (by norm_num)]
  let w : World ℝ := { (emptyWorld : World ℝ) with lay := fun _ => { (Layer.zero .linear : Layer ℝ) with inputSize := 2, outputSize := 2 } }
  obtain ⟨m1, s1, o1⟩ := step w (upd (fun _ => newModel) 0 newModel) 0 10 rfl rfl (.inl rfl)
  obtain ⟨m2, s2, o2⟩ := step w (upd (upd (fun _ => newModel) 0 newModel) 0 m1) 0 11 rfl rfl (.inr o1)
  obtain ⟨m3, s3, o3⟩ := step w (upd (upd (upd (fun _ => newModel) 0 newModel) 0 m1) 0 m2) 0 12 rfl rfl (.inr o2)
  obtain ⟨m4, s4, o4⟩ := step w (upd (upd (upd (upd (upd (fun _ => newModel) 0 newModel) 0 m1) 0 m2) 0 m3) 1 m3) 0 13 rfl rfl (.inr o3)
  obtain ⟨m5, s5, o5⟩ := step w (upd (upd (upd (upd (upd (upd (fun _ => newModel) 0 newModel) 0 m1) 0 m2) 0 m3) 1 m3) 0 m4) 1 14 rfl rfl (.inr o3)
  refine ⟨w, w, upd (upd (upd (upd (upd (upd (upd (fun _ => newModel) 0 newModel) 0 m1) 0 m2) 0 m3) 1 m3) 0 m4) 1 m5, [none, none, none, none, none, none, none], ?_, by simp, ?_⟩
  rotate_left
  · rintro (h | ⟨k, h⟩)
    · cases h
    · match k, h with
      | 0, h => cases h
      | 1, h => cases h
      | k + 2, h =>
        have := Nat.one_le_two_pow (n := k)
        simp only [List.length_cons, List.length_nil, Nat.pow_succ] at h
        omega
  · simp only [addAll, List.map_cons, List.map_nil, List.cons_append, List.nil_append, runLists]
    refine (bind_ok (b := (upd (fun _ => newModel) 0 newModel, none)) (w' := w) rfl).trans ?_
    refine (bind_ok (w' := w) (b := (upd (upd (upd (upd (upd (upd (upd (fun _ => newModel) 0 newModel) 0 m1) 0 m2) 0 m3) 1 m3) 0 m4) 1 m5, [none, none, none, none, none, none])) ?_).trans rfl
    refine (bind_ok s1).trans ?_
    refine (bind_ok (w' := w) (b := (upd (upd (upd (upd (upd (upd (upd (fun _ => newModel) 0 newModel) 0 m1) 0 m2) 0 m3) 1 m3) 0 m4) 1 m5, [none, none, none, none, none])) ?_).trans rfl
    refine (bind_ok s2).trans ?_
    refine (bind_ok (w' := w) (b := (upd (upd (upd (upd (upd (upd (upd (fun _ => newModel) 0 newModel) 0 m1) 0 m2) 0 m3) 1 m3) 0 m4) 1 m5, [none, none, none, none])) ?_).trans rfl
    refine (bind_ok s3).trans ?_
    refine (bind_ok (w' := w) (b := (upd (upd (upd (upd (upd (upd (upd (fun _ => newModel) 0 newModel) 0 m1) 0 m2) 0 m3) 1 m3) 0 m4) 1 m5, [none, none, none])) ?_).trans rfl
    refine (bind_ok (b := (upd (upd (upd (upd (upd (fun _ => newModel) 0 newModel) 0 m1) 0 m2) 0 m3) 1 m3, none)) (w' := w) rfl).trans ?_
    refine (bind_ok (w' := w) (b := (upd (upd (upd (upd (upd (upd (upd (fun _ => newModel) 0 newModel) 0 m1) 0 m2) 0 m3) 1 m3) 0 m4) 1 m5, [none, none])) ?_).trans rfl
    refine (bind_ok s4).trans ?_
    refine (bind_ok (w' := w) (b := (upd (upd (upd (upd (upd (upd (upd (fun _ => newModel) 0 newModel) 0 m1) 0 m2) 0 m3) 1 m3) 0 m4) 1 m5, [none])) ?_).trans rfl
    exact (bind_ok s5).trans rfl

/-- A network of three layers in an array of four, and two layers to add that differ in their output size (hypotheses of C128_predict). -/
example : ∃ (w : World ℝ) (A : Arrays) (v : ModelVar ℝ) (net : Net ℝ) (x y : Nat) (wx bx wy by' : Mat) (Lx Ly : LayerSpec ℝ),
    IsNet w (v.view A) net ∧ net.size = 3 ∧ v.layers.len < v.layers.cap ∧ v.layers.arr < A.next ∧ IsLayer w x wx bx Lx ∧ IsLayer w y wy by' Ly ∧
    Lx.n = net.dim net.size ∧ Ly.n = net.dim net.size ∧ net.dim net.size ≤ 2 ^ 53 ∧ Lx.o = 2 ∧ Ly.o = 5 := by
  obtain ⟨w, net, x, h1, h2, h3, h4, -, -, -⟩ := exists_net (α := ℝ) 5 (fun i => if i = 4 then ⟨.sigmoid, 2, 5, fun i j => i + j, fun _ => 1, 0, 0⟩ else
      if i < 4 then ⟨.hidden, 2, 2, fun i j => i + j, fun _ => 1, 0, 0⟩ else ⟨.hidden, 5, 5, fun i j => i + j, fun _ => 1, 0, 0⟩)
    (fun i => by split_ifs <;> simp) (fun i => by split_ifs <;> first | rfl | omega) newModel (r := 1) (by omega) (fun _ _ => 1)
  have d3 : net.dim 3 = 2 := by rw [h3]; rfl
  refine ⟨w, ⟨1, fun _ => net.lp⟩, ⟨{ (newModel : Model ℝ) with modelSize := 3, inputSize := 2, outputSize := 2 }, ⟨0, 3, 4⟩⟩, { net with size := 3 }, net.lp 3, net.lp 4, net.wm 3,
    net.bm 3, net.wm 4, net.bm 4, net.L 3, net.L 4, ⟨rfl, rfl, fun i hi => h4.lay i (by dsimp only at hi; omega), fun i hi => h4.ins i (by dsimp only at hi; omega), fun i hi => h4.outs i (by dsimp only at hi; omega),
      fun _ => ?_, fun _ => ?_⟩, rfl, by simp, by simp, h4.lay 3 (by omega), h4.lay 4 (by omega), ?_, ?_, ?_, ?_, ?_⟩
  · dsimp only; rw [h3]; rfl
  · dsimp only; rw [d3]; rfl
  · dsimp only; rw [d3, h2]; rfl
  · dsimp only; rw [d3, h2]; rfl
  · dsimp only; rw [d3]; norm_num
  · rw [h2]; rfl
  · rw [h2]; rfl

end NN
