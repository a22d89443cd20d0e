import Verif.Spec.SharpAffine
import Verif.Lemmas.SharpLMM
import Mathlib.Tactic.Module
import Mathlib.Tactic.FieldSimp
import Mathlib.Tactic.Ring
import Mathlib.Tactic.LinearCombination
import Mathlib.Data.List.GetD

/-!
Affine invariants of the SharpClaw time step (C89).
-/
set_option linter.unusedSectionVars false

namespace PyClaw
open Spec

variable {K E : Type*} [Field K] [LinearOrder K] [IsStrictOrderedRing K] [AddCommGroup E] [Module K E]

section steps

variable {u : E} {D : Submodule K E} {p : SharpRhs K E}

theorem comb_mem {x y : E} {a b : K} (hx : x - u ∈ D) (hy : y - u ∈ D) (h : a + b = 1) : a • x + b • y - u ∈ D := by
  have e : a • x + b • y - u = a • (x - u) + b • (y - u) := by
    have : a = 1 - b := by linear_combination h
    subst this
    module
  rw [e]
  exact D.add_mem (D.smul_mem _ hx) (D.smul_mem _ hy)

theorem shift_mem {x d : E} (hx : x - u ∈ D) (hd : d ∈ D) : x + d - u ∈ D := by
  have e : x + d - u = (x - u) + d := by abel
  rw [e]
  exact D.add_mem hx hd

/-- What the stages need. -/
structure StageIn (p : SharpRhs K E) (u : E) (D : Submodule K E) : Prop where
  dq : ∀ dt t x, x - u ∈ D → p.dq dt t x ∈ D
  stage : ∀ t x, x - u ∈ D → p.stage t x - u ∈ D

theorem ssp22_mem (hp : StageIn p u D) (dt t : K) {f q : E} (hf : f ∈ D) (hq : q - u ∈ D) :
    ssp22Step p dt t f q - u ∈ D := by
  unfold ssp22Step
  dsimp only
  have h1 := hp.stage (t + dt) _ (shift_mem hq (D.smul_mem dt hf))
  have h2 := hp.dq dt (t + dt) _ h1
  generalize p.stage (t + dt) (q + dt • f) = y at h1 h2 ⊢
  have e : (1 / 2 : K) • (q + y + p.dq dt (t + dt) y) - u = ((1 / 2 : K) • q + (1 / 2 : K) • (y + p.dq dt (t + dt) y)) - u := by
    module
  rw [e]
  exact comb_mem hq (shift_mem h1 h2) (by norm_num)

theorem ssp33_mem (hp : StageIn p u D) (dt t : K) {f q : E} (hf : f ∈ D) (hq : q - u ∈ D) :
    ssp33Step p dt t f q - u ∈ D := by
  unfold ssp33Step
  dsimp only
  have h1 := hp.stage (t + dt) _ (shift_mem hq (D.smul_mem dt hf))
  have h2 := hp.dq dt (t + dt) _ h1
  have h3 := hp.stage (t + 1 / 2 * dt) _ (comb_mem (a := 3 / 4) (b := 1 / 4) hq (shift_mem h1 h2) (by norm_num))
  exact comb_mem hq (shift_mem h3 (hp.dq dt _ _ h3)) (by norm_num)

theorem ssp104Stage_mem (hp : StageIn p u D) (dt : K) {s : E × K} (hs : s.1 - u ∈ D) : (ssp104Stage p dt s).1 - u ∈ D := by
  unfold ssp104Stage
  have h1 := hp.stage s.2 _ hs
  exact shift_mem h1 (D.smul_mem _ (hp.dq dt s.2 _ h1))

theorem ssp104Loop_mem (hp : StageIn p u D) (dt : K) {s : E × K} (hs : s.1 - u ∈ D) : (ssp104Loop p dt s).1 - u ∈ D := by
  unfold ssp104Loop
  exact ssp104Stage_mem hp dt (ssp104Stage_mem hp dt (ssp104Stage_mem hp dt (ssp104Stage_mem hp dt hs)))

theorem ssp104_mem (hp : StageIn p u D) (dt t : K) {f q : E} (hf : f ∈ D) (hq : q - u ∈ D) :
    ssp104Step p dt t f q - u ∈ D := by
  unfold ssp104Step
  dsimp only
  have h1 := ssp104Loop_mem (s := (q + (1 / 6 : K) • (dt • f), t + dt / 6)) hp dt
    (shift_mem hq (D.smul_mem _ (D.smul_mem _ hf)))
  generalize ssp104Loop p dt (q + (1 / 6 : K) • (dt • f), t + dt / 6) = s at h1 ⊢
  have e1 : (15 : K) • ((1 / 25 : K) • q + (36 / 100 : K) • s.1) - (5 : K) • s.1 = (15 / 25 : K) • q + (2 / 5 : K) • s.1 := by
    module
  have h2 := ssp104Loop_mem (s := ((15 : K) • ((1 / 25 : K) • q + (36 / 100 : K) • s.1) - (5 : K) • s.1, t + dt / 3)) hp dt
    (by
      show (15 : K) • ((1 / 25 : K) • q + (36 / 100 : K) • s.1) - (5 : K) • s.1 - u ∈ D
      rw [e1]; exact comb_mem hq h1 (by norm_num))
  generalize ssp104Loop p dt ((15 : K) • ((1 / 25 : K) • q + (36 / 100 : K) • s.1) - (5 : K) • s.1, t + dt / 3) = s' at h2 ⊢
  have h3 := hp.stage s'.2 _ h2
  have h4 := hp.dq dt s'.2 _ h3
  generalize p.stage s'.2 s'.1 = y at h3 h4 ⊢
  have e2 : (1 / 25 : K) • q + (36 / 100 : K) • s.1 + ((6 / 10 : K) • y + (1 / 10 : K) • p.dq dt s'.2 y) - u =
      (1 / 25 : K) • (q - u) + (36 / 100 : K) • (s.1 - u) + (6 / 10 : K) • (y - u) + (1 / 10 : K) • p.dq dt s'.2 y := by
    module
  rw [e2]
  exact D.add_mem (D.add_mem (D.add_mem (D.smul_mem _ hq) (D.smul_mem _ h1)) (D.smul_mem _ h3)) (D.smul_mem _ h4)

theorem foldl_mem (w : Nat → K) (l : List (E × Nat)) (hl : ∀ r ∈ l, r.1 ∈ D) (acc : E) (ha : acc - u ∈ D) :
    l.foldl (fun s r => s + w r.2 • r.1) acc - u ∈ D := by
  induction l generalizing acc with
  | nil => exact ha
  | cons r l ih =>
    exact ih (fun x hx => hl x (List.mem_cons_of_mem _ hx)) _ (shift_mem ha (D.smul_mem _ (hl r List.mem_cons_self)))

theorem addRegisters_mem (w : Nat → K) {acc : E} (ha : acc - u ∈ D) {regs : List E} (hr : ∀ r ∈ regs, r ∈ D) :
    addRegisters w acc regs - u ∈ D := by
  unfold addRegisters
  refine foldl_mem w _ (fun r h => ?_) acc ha
  exact hr _ (List.fst_mem_of_mem_zipIdx h)

theorem rkStages_mem (hp : StageIn p u D) (a : Nat → Nat → K) (c : Nat → K) (dt t : K) {q : E} (hq : q - u ∈ D) (n : Nat)
    (regs : List E) (hr : ∀ r ∈ regs, r ∈ D) : ∀ r ∈ rkStages p a c dt t q n regs, r ∈ D := by
  induction n generalizing regs with
  | zero => exact hr
  | succ n ih =>
    unfold rkStages
    refine ih _ fun r h => ?_
    rcases List.mem_append.mp h with h | h
    · exact hr r h
    · rw [List.mem_singleton] at h
      subst h
      exact hp.dq dt _ _ (addRegisters_mem _ (hp.stage _ _ hq) hr)

theorem rkStep_mem (hp : StageIn p u D) (a : Nat → Nat → K) (b c : Nat → K) (n : Nat) (dt t : K) {f q : E} (hf : f ∈ D)
    (hq : q - u ∈ D) : rkStep p a b c n dt t f q - u ∈ D := by
  unfold rkStep
  refine addRegisters_mem _ hq (rkStages_mem hp a c dt t hq _ _ ?_)
  intro r h
  rw [List.mem_singleton] at h
  subst h
  exact D.smul_mem _ hf

theorem lmmTerms_mem (alpha beta : List K) (dt : K) {regs : List (E × K)} {prevDq : List E} (hr : ∀ r ∈ regs, r.1 - u ∈ D)
    (hd : ∀ f ∈ prevDq, f ∈ D) (acc : E) (n : Nat) (v : E) (h : lmmTerms alpha beta dt regs prevDq acc n = some v) :
    v - acc - (∑ i ∈ Finset.range n, alpha.getD i 0) • u ∈ D := by
  induction n generalizing v with
  | zero => simp only [lmmTerms, Option.some.injEq] at h; subst h; simp
  | succ n ih =>
    simp only [lmmTerms] at h
    split at h
    · rename_i v' a r b f h1 h2 h3 h4 h5
      cases h
      have e : v' + (a • r.1 + (b * dt) • f) - acc - (∑ i ∈ Finset.range (n + 1), alpha.getD i 0) • u =
          (v' - acc - (∑ i ∈ Finset.range n, alpha.getD i 0) • u) + a • (r.1 - u) + (b * dt) • f := by
        have : alpha.getD n 0 = a := by rw [List.getD_eq_getElem?_getD, h2]; rfl
        rw [Finset.sum_range_succ, this]
        module
      rw [e]
      exact D.add_mem (D.add_mem (ih v' h1) (D.smul_mem _ (hr r (List.mem_of_getElem? h3))))
        (D.smul_mem _ (hd f (List.mem_of_getElem? h5)))
    · cases h

theorem lmmUpdate_mem {alpha beta : List K} {steps : Nat} (hA : AlphaSum alpha steps) {dt : K} {regs : List (E × K)}
    {prevDq : List E} (hr : ∀ r ∈ regs, r.1 - u ∈ D) (hd : ∀ f ∈ prevDq, f ∈ D) {v : E}
    (h : lmmUpdate alpha beta steps dt regs prevDq = some v) : v - u ∈ D := by
  unfold lmmUpdate at h
  split at h
  · rename_i a r b f h1 h2 h3 h4
    have hm := lmmTerms_mem alpha beta dt hr hd _ _ v h
    unfold AlphaSum at hA
    rw [h1] at hA
    simp only [Option.getD_some] at hA
    generalize (∑ i ∈ Finset.range (steps - 1), alpha.getD i 0) = σ at hm hA
    have e : v - u = (v - (a • r.1 + (b * dt) • f) - σ • u) + a • (r.1 - u) + (b * dt) • f := by
      have : σ = 1 - a := by linear_combination hA
      subst this
      module
    rw [e]
    exact D.add_mem (D.add_mem hm (D.smul_mem _ (hr r (List.mem_of_getLast? h2)))) (D.smul_mem _ (hd f (List.mem_of_getLast? h4)))
  · cases h

theorem ssplmmk2_mem {dt : K} {prevDt : List K} (ho : lmmSpan prevDt / dt ≠ 0) {f q qk : E} (hf : f ∈ D) (hq : q - u ∈ D)
    (hk : qk - u ∈ D) : ssplmmk2Update dt prevDt f q qk - u ∈ D := by
  unfold ssplmmk2Update
  dsimp only
  generalize lmmSpan prevDt / dt = om at ho ⊢
  have e : ((om + 1) / om) • (((om - 1) / om) • q + dt • f) + (1 / om ^ 2) • qk =
      (((om + 1) / om * ((om - 1) / om)) • q + (1 / om ^ 2) • qk) + ((om + 1) / om * dt) • f := by
    module
  rw [e]
  exact shift_mem (comb_mem hq hk (by field_simp; ring)) (D.smul_mem _ hf)

theorem ssplmmk3_mem {dt : K} {prevDt : List K} (ho : lmmSpan prevDt / dt ≠ 0) {f q qk fk : E} (hf : f ∈ D) (hq : q - u ∈ D)
    (hk : qk - u ∈ D) (hfk : fk ∈ D) : ssplmmk3Update dt prevDt q f qk fk - u ∈ D := by
  unfold ssplmmk3Update
  dsimp only
  generalize lmmSpan prevDt / dt = om at ho ⊢
  have e : ((om + 1) ^ 2 / om ^ 2) • (((om - 2) / om) • q + dt • f) +
        ((om - 2) / om * ((om + 1) / om ^ 2) + (4 * (om + 1) - om ^ 2) / om ^ 3) • qk + ((om + 1) / om ^ 2 * dt) • fk =
      ((((om + 1) ^ 2 / om ^ 2 * ((om - 2) / om)) • q +
        ((om - 2) / om * ((om + 1) / om ^ 2) + (4 * (om + 1) - om ^ 2) / om ^ 3) • qk) +
        ((om + 1) ^ 2 / om ^ 2 * dt) • f) + ((om + 1) / om ^ 2 * dt) • fk := by
    module
  rw [e]
  exact shift_mem (shift_mem (comb_mem hq hk (by field_simp; ring)) (D.smul_mem _ hf)) (D.smul_mem _ hfk)

end steps

/-! ### The step -/

/-- The saved values lie in the affine subspace, the saved slopes in its direction. -/
structure SavedIn (u : E) (D : Submodule K E) (s : SharpState K E) : Prop where
  q : s.q - u ∈ D
  regs : ∀ r ∈ s.regs, r.1 - u ∈ D
  slopes : ∀ f ∈ s.prevDq, f ∈ D

/-- The same between two attempts: the last slope counts only if it is used again. -/
structure StateIn (u : E) (D : Submodule K E) (s : SharpState K E) : Prop extends SavedIn u D s where
  slope : s.accept = true ∨ s.dqDt ∈ D

/-- What is needed of the coefficients of the method at that moment. -/
def CoefOk (c : SharpCfg K) (stepIndex : Int) (s : SharpState K E) : Prop :=
  match c.integ with
  | .ssplmmk2 => (c.lmmSteps : Int) ≤ stepIndex → lmmSpan s.prevDt / s.dt ≠ 0
  | .ssplmmk3 => (c.lmmSteps : Int) ≤ stepIndex → lmmSpan s.prevDt / s.dt ≠ 0
  | .lmm al _ => AlphaSum al c.lmmSteps
  | _ => True

/-- The conditions on the problem. -/
structure TangentIn (env : SharpEnv K E) (u : E) (D : Submodule K E) : Prop where
  dq : ∀ dt t x, x - u ∈ D → (env.dq dt t x).1 ∈ D
  before : ∀ t x, x - u ∈ D → env.before t x - u ∈ D
  stage : ∀ t x, x - u ∈ D → env.stage t x - u ∈ D

variable {u : E} {D : Submodule K E} {env : SharpEnv K E} {c : SharpCfg K}

theorem rollIn_mem {α : Type*} {P : α → Prop} {l : List α} {x : α} (hl : ∀ y ∈ l, P y) (hx : P x) : ∀ y ∈ rollIn l x, P y := by
  intro y hy
  unfold rollIn at hy
  rcases List.mem_append.mp hy with h | h
  · exact hl y (List.mem_of_mem_drop h)
  · obtain ⟨_, _, rfl⟩ := List.mem_map.mp h
    exact hx

theorem append_mem {α : Type*} {P : α → Prop} {l : List α} {x : α} (hl : ∀ y ∈ l, P y) (hx : P x) : ∀ y ∈ l ++ [x], P y := by
  intro y hy
  rcases List.mem_append.mp hy with h | h
  · exact hl y h
  · rw [List.mem_singleton] at h; subst h; exact hx

theorem setLast_mem {α : Type*} {P : α → Prop} {l : List α} {x : α} (hl : ∀ y ∈ l, P y) (hx : P x) :
    ∀ y ∈ setLast l x, P y := by
  intro y hy
  unfold setLast at hy
  split at hy
  · simp at hy
  · exact append_mem (fun z hz => hl z (List.dropLast_subset l hz)) hx y hy

theorem setFirst_mem {P : E × K → Prop} {l : List (E × K)} {x : E × K} (hl : ∀ y ∈ l, P y) (hx : P x) :
    ∀ y ∈ setFirst l x, P y := by
  intro y hy
  unfold setFirst at hy
  split at hy
  · simp at hy
  · rcases List.mem_cons.mp hy with h | h
    · subst h; exact hx
    · exact hl y (List.mem_cons_of_mem _ h)

theorem getLast_mem {α : Type*} {P : α → Prop} {l : List α} {x : α} (hl : ∀ y ∈ l, P y) (hx : P x) : P (l.getLast?.getD x) := by
  cases h : l.getLast? with
  | none => exact hx
  | some y => exact hl y (List.mem_of_getLast? h)

theorem rollSaved_in {s : SharpState K E} (h : SavedIn u D s) (hf : s.dqDt ∈ D) (i : Int) (d : K) :
    SavedIn u D (rollSaved c s i d) := by
  have hq := (rollSaved_fields c s i d).1
  refine ⟨by rw [hq]; exact h.q, ?_, ?_⟩
  · show ∀ r ∈ rollIn s.regs (s.q, s.t), r.1 - u ∈ D
    exact rollIn_mem (P := fun r : E × K => r.1 - u ∈ D) h.regs h.q
  · unfold rollSaved
    dsimp only
    cases c.integ <;> dsimp only <;> (try split) <;> first
      | exact h.slopes
      | exact append_mem h.slopes hf
      | exact rollIn_mem h.slopes hf

theorem evalRhs_in (ht : TangentIn env u D) {s : SharpState K E} (h : StateIn u D s) :
    SavedIn u D (evalRhs env s) ∧ (evalRhs env s).dqDt ∈ D := by
  obtain ⟨e1, _, e3, e4, _⟩ := evalRhs_fields env s
  refine ⟨⟨by rw [e1]; exact h.q, by rw [e3]; exact h.regs, by rw [e4]; exact h.slopes⟩, ?_⟩
  unfold evalRhs
  by_cases ha : s.accept = true
  · rw [if_pos ha]
    exact D.smul_mem _ (ht.dq _ _ _ h.q)
  · rw [if_neg ha]
    exact h.slope.resolve_left ha

theorem updateSaved_in {s : SharpState K E} (h : SavedIn u D s) (hf : s.dqDt ∈ D) (i : Int) :
    SavedIn u D (updateSaved c s i).1 ∧ (updateSaved c s i).1.dqDt ∈ D := by
  by_cases hp : s.prevDt = []
  · rw [updateSaved_first c s i hp]
    have h1 := setLast_mem (P := fun r : E × K => r.1 - u ∈ D) (x := (s.q, s.t)) h.regs h.q
    have h2 := append_mem (P := fun f => f ∈ D) h.slopes hf
    split <;> exact ⟨⟨h.q, h1, h2⟩, hf⟩
  · by_cases ha : s.accept = true
    · rcases updateSaved_accepted c s i hp ha with ⟨_, b, e⟩ | ⟨_, _, _, e⟩ <;> rw [e]
      · exact ⟨rollSaved_in (s := { s with lmmCond := b }) ⟨h.q, h.regs, h.slopes⟩ hf i _,
          by rw [(rollSaved_fields c { s with lmmCond := b } i _).2.2.1]; exact hf⟩
      · exact ⟨⟨getLast_mem (P := fun r : E × K => r.1 - u ∈ D) h.regs h.q, h.regs, h.slopes⟩, getLast_mem h.slopes hf⟩
    · rw [updateSaved_rejected c s i hp (by simpa using ha)]
      exact ⟨h, hf⟩

theorem prepare_in (ht : TangentIn env u D) {s : SharpState K E} (h : StateIn u D s) :
    SavedIn u D (prepare env c s).1 ∧ (prepare env c s).1.dqDt ∈ D := by
  unfold prepare
  dsimp only
  have h1 : StateIn u D { s with q := env.before s.t s.q } := ⟨⟨ht.before _ _ h.q, h.regs, h.slopes⟩, h.slope⟩
  have h2 := evalRhs_in ht h1
  split
  · exact updateSaved_in h2.1 h2.2 _
  · exact h2

theorem integrate_in (ht : TangentIn env u D) {s : SharpState K E} (h : SavedIn u D s) (hf : s.dqDt ∈ D) (i : Int)
    (hco : CoefOk c i s) : SavedIn u D (integrate env c i s).1 := by
  have hp : StageIn ⟨fun dt t q => (env.dq dt t q).1, env.stage⟩ u D := ⟨ht.dq, ht.stage⟩
  have hr : ∀ r ∈ setFirst s.regs (env.stage (s.t + s.dt) (s.q + s.dt • s.dqDt), s.t + s.dt), r.1 - u ∈ D :=
    setFirst_mem (P := fun r : E × K => r.1 - u ∈ D) h.regs (ht.stage _ _ (shift_mem h.q (D.smul_mem _ hf)))
  unfold CoefOk at hco
  unfold integrate
  cases hi : c.integ with
  | euler => exact ⟨shift_mem h.q (D.smul_mem _ hf), h.regs, h.slopes⟩
  | ssp22 => exact ⟨ssp22_mem hp _ _ hf h.q, hr, h.slopes⟩
  | ssp33 => exact ⟨ssp33_mem hp _ _ hf h.q, h.regs, h.slopes⟩
  | ssp104 => exact ⟨ssp104_mem hp _ _ hf h.q, h.regs, h.slopes⟩
  | rk a b cc n => exact ⟨rkStep_mem hp a b cc n _ _ hf h.q, h.regs, h.slopes⟩
  | unknown => exact h
  | ssplmmk2 =>
    rw [hi] at hco
    simp only at hco ⊢
    by_cases hl : i < c.lmmSteps
    · rw [if_pos hl]
      exact ⟨ssp22_mem hp _ _ hf h.q, hr, h.slopes⟩
    · rw [if_neg hl]
      cases hk : fromEnd s.regs c.lmmSteps with
      | none => exact h
      | some r =>
        have hm : r ∈ s.regs := by
          unfold fromEnd at hk
          split at hk
          · exact List.mem_of_getElem? hk
          · cases hk
        exact ⟨ssplmmk2_mem (hco (by omega)) hf h.q (h.regs r hm), h.regs, h.slopes⟩
  | ssplmmk3 =>
    rw [hi] at hco
    simp only at hco ⊢
    by_cases hl : i < c.lmmSteps
    · rw [if_pos hl]
      exact ⟨ssp22_mem hp _ _ hf h.q, hr, h.slopes⟩
    · rw [if_neg hl]
      split
      · rename_i r f1 fk h1 h2 h3
        have hm : r ∈ s.regs := by
          unfold fromEnd at h1
          split at h1
          · exact List.mem_of_getElem? h1
          · cases h1
        have hm' : fk ∈ s.prevDq := by
          unfold fromEnd at h3
          split at h3
          · exact List.mem_of_getElem? h3
          · cases h3
        exact ⟨ssplmmk3_mem (hco (by omega)) (h.slopes _ (List.mem_of_getLast? h2)) h.q (h.regs r hm) (h.slopes _ hm'),
          h.regs, h.slopes⟩
      · exact h
  | lmm al be =>
    rw [hi] at hco
    simp only at hco ⊢
    by_cases hl : i < s.regs.length
    · rw [if_pos hl]
      exact ⟨ssp104_mem hp _ _ hf h.q, h.regs, h.slopes⟩
    · rw [if_neg hl]
      cases hv : lmmUpdate al be c.lmmSteps s.dt s.regs s.prevDq with
      | none => exact h
      | some v => exact ⟨lmmUpdate_mem hco h.regs h.slopes hv, h.regs, h.slopes⟩

/-- The attempt in terms of its parts. -/
theorem sharpAttempt_eq (env : SharpEnv K E) (c : SharpCfg K) (m ts : K) (te : Option K) (n : Nat) (s : SharpState K E) :
    let p := prepare env c s
    let r := integrate env c p.2 (withStep c ts te p.1)
    sharpAttempt env c m ts te n s =
    (match r.2 with
    | .error e => (r.1, .error e)
    | .ok () =>
      let s3 := { r.1 with cfl := max r.1.cfl m }
      let acc := sharpAccepts c s3
      let s4 := { s3 with accept := acc }
      if acc then
        ({ s4 with t := if c.dtVariable then s4.t + s4.dt else ts + (n + 1 : Nat) * s4.dt,
                   numsteps := s4.numsteps + 1 }, .ok true)
      else if c.dtVariable then ({ s4 with q := s.q, t := s.t }, .ok false)
      else (s4, .error (.exception "CFL too large, giving up!"))) := rfl

theorem withStep_in {ts : K} {te : Option K} {s : SharpState K E} (h : SavedIn u D s) (hf : s.dqDt ∈ D) :
    SavedIn u D (withStep c ts te s) ∧ (withStep c ts te s).dqDt ∈ D := by
  obtain ⟨g1, _, _, g4, g5, _, _, g8, _⟩ := sharpGetDt_fields c ts te s
  refine ⟨⟨?_, ?_, ?_⟩, ?_⟩
  · show (sharpGetDt c ts te s).q - u ∈ D
    rw [g8]; exact h.q
  · show ∀ r ∈ (sharpGetDt c ts te s).regs, _
    rw [g5]; exact h.regs
  · show ∀ r ∈ (sharpGetDt c ts te s).prevDq, _
    rw [g1]; exact h.slopes
  · show (sharpGetDt c ts te s).dqDt ∈ D
    rw [g4]; exact hf

theorem attempt_in (ht : TangentIn env u D) {s : SharpState K E} (h : StateIn u D s) {m ts : K} {te : Option K} {n : Nat}
    (hco : CoefOk c (prepare env c s).2 (withStep c ts te (prepare env c s).1)) :
    StateIn u D (sharpAttempt env c m ts te n s).1 := by
  have h1 := prepare_in (c := c) ht h
  have h2 := withStep_in (c := c) (ts := ts) (te := te) h1.1 h1.2
  have h3 := integrate_in ht h2.1 h2.2 _ hco
  have h4 : (integrate env c (prepare env c s).2 (withStep c ts te (prepare env c s).1)).1.dqDt ∈ D := by
    rw [(integrate_fields env c (prepare env c s).2 (withStep c ts te (prepare env c s).1)).2.2.2.1]
    exact h2.2
  rw [sharpAttempt_eq]
  dsimp only
  split
  · exact ⟨h3, Or.inr h4⟩
  · split
    · exact ⟨⟨h3.q, h3.regs, h3.slopes⟩, Or.inr h4⟩
    · split
      · exact ⟨⟨h.q, h3.regs, h3.slopes⟩, Or.inr h4⟩
      · exact ⟨⟨h3.q, h3.regs, h3.slopes⟩, Or.inr h4⟩

/-! ### Runs -/

section runs

variable {I : SharpState K E → Prop} {P : E → Prop}

/-- A property of the state and one of all recorded solutions. -/
def RunIn (I : SharpState K E → Prop) (P : E → Prop) (r : SharpRun K E) : Prop :=
  I r.st ∧ ∀ a ∈ r.log, P a.qBefore ∧ P a.qAfter

theorem try_in (hI : ∀ m ts te n s, I s → (∀ x, te = some x → s.t < x) → I (sharpAttempt env c m ts te n s).1)
    (hP : ∀ s, I s → P s.q) {m ts : K} {te : Option K} {n : Nat} {r : SharpRun K E} (h : RunIn I P r)
    (hte : ∀ x, te = some x → r.st.t < x) : RunIn I P (sharpTry env c m ts te n r).1 := by
  have h1 := hI m ts te n r.st h.1 hte
  have hl : ∀ (o : Outcome), ∀ a ∈ r.log ++ [(⟨te, r.st.t, r.st.q, (sharpAttempt env c m ts te n r.st).1.dt,
      (sharpAttempt env c m ts te n r.st).1.cfl, m, o, (sharpAttempt env c m ts te n r.st).1.t,
      (sharpAttempt env c m ts te n r.st).1.q⟩ : SharpTry K E)], P a.qBefore ∧ P a.qAfter := fun o =>
    append_mem (P := fun a : SharpTry K E => P a.qBefore ∧ P a.qAfter) h.2 ⟨hP _ h.1, hP _ h1⟩
  unfold sharpTry
  dsimp only
  split
  · split
    · exact ⟨h1, hl _⟩
    · exact ⟨h1, hl _⟩
  · exact ⟨h1, hl _⟩
  · exact ⟨h1, hl _⟩

theorem loop_in (hI : ∀ m ts te n s, I s → (∀ x, te = some x → s.t < x) → I (sharpAttempt env c m ts te n s).1)
    (hP : ∀ s, I s → P s.q) {σ : Nat → K} {ts : K} {te : Option K} (fuel n k : Nat) (r : SharpRun K E) (h : RunIn I P r)
    (hte : 0 < fuel → ∀ x, te = some x → r.st.t < x) : RunIn I P (sharpLoop env c σ ts te fuel n k r).1 := by
  induction fuel generalizing n k r with
  | zero => exact h
  | succ fuel ih =>
    have h1 := try_in (m := σ n) (ts := ts) (n := n) hI hP h (hte (by omega))
    unfold sharpLoop
    split
    · rename_i r' e he
      rw [he] at h1; exact h1
    · rename_i r' acc he
      rw [he] at h1
      dsimp only
      split
      · exact h1
      · rename_i x
        split
        · exact h1
        · rename_i hx
          exact ih _ _ _ h1 (by
            intro _ y hy
            cases hy
            exact not_le.mp hx)

theorem evolve_in [FloorRing K]
    (hI : ∀ m ts te n s, I s → (∀ x, te = some x → s.t < x) → I (sharpAttempt env c m ts te n s).1)
    (hP : ∀ s, I s → P s.q) {σ : Nat → K} {te : Option K} {r : SharpRun K E} (h : RunIn I P r) :
    RunIn I P (sharpEvolveToTime env c σ te r).1 := by
  have hf : ∀ f : Ret (SharpRun K E) Unit, f = (if c.dtVariable then (r, .ok ()) else sharpFixedSetup r.st.t te r) →
      f.1.st = r.st ∧ f.1.log = r.log := by
    intro f hf
    subst hf
    split
    · exact ⟨rfl, rfl⟩
    · unfold sharpFixedSetup
      split
      · exact ⟨rfl, rfl⟩
      · split
        · exact ⟨rfl, rfl⟩
        · dsimp only
          split <;> exact ⟨rfl, rfl⟩
  unfold sharpEvolveToTime
  dsimp only
  generalize hg : (if c.dtVariable then (r, .ok ()) else sharpFixedSetup r.st.t te r : Ret (SharpRun K E) Unit) = f
  obtain ⟨f1, f2⟩ := hf f hg.symm
  have hr : RunIn I P f.1 := ⟨by rw [f1]; exact h.1, by rw [f2]; exact h.2⟩
  split
  · exact hr
  · split
    · exact hr
    · have key : ∀ r2 : SharpRun K E, RunIn I P r2 → (0 < r2.maxSteps.toNat → ∀ x, te = some x → r2.st.t < x) →
          RunIn I P (sharpLoop env c σ r.st.t te r2.maxSteps.toNat 0 0 r2).1 := fun r2 h3 h4 =>
        loop_in hI hP _ 0 0 r2 h3 h4
      cases te with
      | none =>
        have h2 := key f.1 hr (by intro _ x hx; cases hx)
        dsimp only
        split
        · rename_i r' e he
          rw [he] at h2; exact h2
        · rename_i r' k he
          rw [he] at h2
          exact h2
      | some x =>
        dsimp only
        by_cases hx : x ≤ r.st.t
        · have h2 := key { f.1 with maxSteps := 0 } hr (by intro h0; simp at h0)
          rw [if_pos hx]
          split
          · rename_i r' e he
            rw [he] at h2; exact h2
          · rename_i r' k he
            rw [he] at h2
            split <;> exact h2
        · have h2 := key f.1 hr (by intro _ y hy; cases hy; rw [f1]; exact not_le.mp hx)
          rw [if_neg hx]
          split
          · rename_i r' e he
            rw [he] at h2; exact h2
          · rename_i r' k he
            rw [he] at h2
            split <;> exact h2

theorem session_in [FloorRing K]
    (hI : ∀ m ts te n s, I s → (∀ x, te = some x → s.t < x) → I (sharpAttempt env c m ts te n s).1)
    (hP : ∀ s, I s → P s.q) (ks : List (SharpCall K)) (r : SharpRun K E) (h : RunIn I P r) :
    RunIn I P (sharpSession env c ks r) := by
  induction ks generalizing r with
  | nil => exact h
  | cons k ks ih => exact ih _ (evolve_in hI hP (r := { r with maxSteps := k.maxSteps }) h)

end runs

end PyClaw
