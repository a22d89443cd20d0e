import Verif.Model.SharpEvolve
import Verif.Spec.SharpLMM
import Mathlib.Data.List.Basic
import Mathlib.Tactic.FieldSimp
import Mathlib.Algebra.Order.Field.Basic

/-!
Facts about the saved lists of the multistep methods.
-/
set_option linter.unusedSectionVars false

namespace PyClaw
open Spec

section lists
variable {α β : Type*}

theorem back_append_zero (l : List α) (x : α) : back (l ++ [x]) 0 = some x := by simp [back]

theorem back_append_succ (l : List α) (x : α) (j : Nat) : back (l ++ [x]) (j + 1) = back l j := by simp [back]

theorem back_cons {l : List α} {x : α} {j : Nat} (h : j < l.length) : back (x :: l) j = back l j := by
  simp only [back, List.reverse_cons]
  rw [List.getElem?_append_left (by simpa using h)]

theorem back_cons_last (l : List α) (x : α) : back (x :: l) l.length = some x := by
  simp [back]

theorem back_map (f : α → β) (l : List α) (j : Nat) : back (l.map f) j = (back l j).map f := by
  simp [back, ← List.map_reverse]

theorem back_lt {l : List α} {j : Nat} (h : j < l.length) : ∃ x, back l j = some x := by
  refine ⟨l.reverse[j]'(by simpa using h), ?_⟩
  simp [back, h]

theorem back_zero (l : List α) : back l 0 = l.getLast? := by
  rcases List.eq_nil_or_concat l with h | ⟨l', x, h⟩ <;> subst h <;> simp [back]

theorem fromEnd_eq {l : List α} {k : Nat} (h0 : 0 < k) (h : k ≤ l.length) : fromEnd l k = back l (k - 1) := by
  have hk : k - 1 < l.length := by omega
  simp only [fromEnd, back]
  rw [if_pos ⟨h0, h⟩, List.getElem?_reverse hk]
  congr 1
  omega

theorem rollIn_cons (a : α) (l : List α) (x : α) : rollIn (a :: l) x = l ++ [x] := rfl

theorem rollIn_length (l : List α) (x : α) : (rollIn l x).length = l.length := by
  cases l <;> simp [rollIn]

theorem setLast_length (l : List α) (x : α) : (setLast l x).length = l.length := by
  unfold setLast
  split
  · simp_all
  · have := List.length_pos_iff.2 ‹_›
    simp
    omega

theorem holdsLast_roll {k : Nat} {cur l : List α} (x : α) (hl : l.length = k) (hk : 0 < k) (h : HoldsLast k cur l) :
    HoldsLast k (cur ++ [x]) (rollIn l x) := by
  cases l with
  | nil => simp at hl; omega
  | cons a l =>
    rw [rollIn_cons]
    intro j hj hj'
    cases j with
    | zero => rw [back_append_zero, back_append_zero]
    | succ j =>
      rw [back_append_succ, back_append_succ]
      rw [List.length_append, List.length_singleton] at hj'
      rw [List.length_cons] at hl
      rw [← h j (by omega) (by omega), back_cons (by omega)]

theorem holdsLast_push {k : Nat} {cur l : List α} (x : α) (h : HoldsLast k cur l) :
    HoldsLast k (cur ++ [x]) (l ++ [x]) := by
  intro j hj hj'
  cases j with
  | zero => rw [back_append_zero, back_append_zero]
  | succ j =>
    rw [back_append_succ, back_append_succ]
    rw [List.length_append, List.length_singleton] at hj'
    exact h j (by omega) (by omega)

theorem isLast_step {k : Nat} {cur l : List α} (x : α) (hk : 0 < k) (h : IsLast k cur l) :
    IsLast k (cur ++ [x]) (if cur.length + 1 ≤ k then l ++ [x] else rollIn l x) := by
  obtain ⟨hl, hh⟩ := h
  split
  · refine ⟨?_, holdsLast_push x hh⟩
    simp only [List.length_append, List.length_singleton]
    omega
  · refine ⟨?_, holdsLast_roll x (by omega) hk hh⟩
    rw [rollIn_length]
    simp only [List.length_append, List.length_singleton]
    omega

theorem isLast_singleton {k : Nat} (hk : 0 < k) (x : α) : IsLast k [x] [x] :=
  ⟨by simp; omega, fun _ _ _ => rfl⟩

theorem holdsLast_setFirst {K E : Type*} {k : Nat} {cur l : List (E × K)} (x : E × K) (hl : l.length = k)
    (hc : cur.length < k) (h : HoldsLast k cur l) : HoldsLast k cur (setFirst l x) := by
  cases l with
  | nil => exact h
  | cons a l =>
    rw [List.length_cons] at hl
    intro j hj hj'
    rw [← h j hj hj']
    simp only [setFirst]
    rw [back_cons (by omega), back_cons (by omega)]

theorem setFirst_length {K E : Type*} (l : List (E × K)) (x : E × K) : (setFirst l x).length = l.length := by
  cases l <;> rfl

/-- A list which is exactly the last `k` entries of a history with at least `k` entries. -/
theorem isLast_eq {k : Nat} {hist l : List α} (h : IsLast k hist l) :
    l = hist.drop (hist.length - k) := by
  apply List.reverse_injective
  apply List.ext_getElem?
  intro j
  by_cases hj : j < l.length
  · have h1 := h.1
    have := h.2 j (by omega) (by omega)
    simp only [back] at this
    rw [this, List.getElem?_reverse (by omega), List.getElem?_reverse (by rw [List.length_drop]; omega),
      List.getElem?_drop, List.length_drop]
    congr 1
    omega
  · have h1 := h.1
    rw [List.getElem?_eq_none (by simpa using hj), List.getElem?_eq_none (by simp; omega)]

end lists

variable {K E : Type*} [Field K] [LinearOrder K] [IsStrictOrderedRing K] [AddCommGroup E] [Module K E]

/-- The saved lists of `s` hold the last `k` of the steps `cur`, the last of which is in progress. -/
structure Saved (c : SharpCfg K) (f : K → E → E) (fe : K → E → K) (k : Nat) (cur : List (StepRec K E))
    (s : SharpState K E) : Prop where
  len : s.regs.length = k
  regs : HoldsLast k (cur.map fun r => (r.q, r.t)) s.regs
  dq : (c.integ matches .ssplmmk2) = false → IsLast k (cur.map fun r => f r.t r.q) s.prevDq
  dts : c.integ.isSspLmm = true → IsLast k (0 :: cur.dropLast.map (·.dt)) s.prevDt
  fes : c.integ.isSspLmm = true → IsLast k (cur.map fun r => fe r.t r.q) s.prevFE
  ne : s.prevDt ≠ []

theorem Saved.congr {c : SharpCfg K} {f : K → E → E} {fe : K → E → K} {k : Nat} {cur : List (StepRec K E)}
    {s s' : SharpState K E} (h : Saved c f fe k cur s) (h1 : s'.regs = s.regs) (h2 : s'.prevDq = s.prevDq)
    (h3 : s'.prevDt = s.prevDt) (h4 : s'.prevFE = s.prevFE) : Saved c f fe k cur s' :=
  ⟨h1 ▸ h.len, h1 ▸ h.regs, h2 ▸ h.dq, h3 ▸ h.dts, h4 ▸ h.fes, h3 ▸ h.ne⟩

theorem Saved.redt {c : SharpCfg K} {f : K → E → E} {fe : K → E → K} {k : Nat} {h : List (StepRec K E)}
    {t : K} {q : E} {d : K} (d' : K)
    {s : SharpState K E} (hs : Saved c f fe k (h ++ [⟨t, q, d⟩]) s) : Saved c f fe k (h ++ [⟨t, q, d'⟩]) s := by
  constructor
  · exact hs.len
  · simpa using hs.regs
  · intro hi; simpa using hs.dq hi
  · intro hi; simpa using hs.dts hi
  · intro hi; simpa using hs.fes hi
  · exact hs.ne

/-- What `_allocate_registers` and `setup` guarantee for a multistep integrator with `k` registers. -/
structure LmmConfig (c : SharpCfg K) (k : Nat) : Prop where
  lmm : c.integ.isLmm = true
  pos : 0 < k
  ssp : c.integ.isSspLmm = true → c.lmmSteps = k
  alpha : ∀ al be, c.integ = .lmm al be → al.length = k

/-- `dq` is `dt` times a right-hand side, with a Courant number proportional to `dt`. -/
def LinearInDt (env : SharpEnv K E) (f : K → E → E) (nu : K → E → K) : Prop :=
  (∀ t q, 0 ≤ nu t q) ∧ ∀ dt t q, 0 < dt → env.dq dt t q = (dt • f t q, dt * nu t q)

/-- The forward Euler step size at a state with wave speed measure `nu`. -/
def feSize (c : SharpCfg K) (nu : K → E → K) (t : K) (q : E) : K := 1 / nu t q * c.cflMax / c.sspcoeff

/-- The situation between two steps; `h` is the list of accepted steps. -/
structure LmmInv (env : SharpEnv K E) (c : SharpCfg K) (f : K → E → E) (fe : K → E → K) (k : Nat)
    (h : List (StepRec K E)) (s : SharpState K E) : Prop where
  steps : s.numsteps = h.length
  len : s.regs.length = k
  cases :
    (h = [] ∧ s.accept = true ∧ s.prevDt = [] ∧ s.prevDq = [] ∧ s.prevFE = []) ∨
    (s.accept = true ∧ ∃ h0 r, h = h0 ++ [r] ∧ Saved c f fe k h s ∧ s.dtOld = some r.dt) ∨
    (s.accept = false ∧ Saved c f fe k (h ++ [⟨s.t, env.before s.t s.q, 0⟩]) s ∧
      s.dqDt = f s.t (env.before s.t s.q))

/-- The situation when the step size is chosen: the saved lists end with the step in progress. -/
structure LmmPrep (c : SharpCfg K) (f : K → E → E) (fe : K → E → K) (k : Nat) (h : List (StepRec K E))
    (t : K) (q : E) (p : SharpState K E × Int) : Prop where
  saved : Saved c f fe k (h ++ [⟨t, q, 0⟩]) p.1
  q_eq : p.1.q = q
  t_eq : p.1.t = t
  dqDt : p.1.dqDt = f t q
  steps : p.1.numsteps = h.length
  index : p.2 = h.length + 1

/-- The third-order check makes the solver go back one step. -/
def discards (env : SharpEnv K E) (c : SharpCfg K) (s : SharpState K E) : Prop :=
  (prepare env c s).1.numsteps < s.numsteps

theorem setLast_saved {c : SharpCfg K} {f : K → E → E} {fe : K → E → K} {k : Nat} {s : SharpState K E} {t : K} {q : E}
    (hk : 0 < k) (hlen : s.regs.length = k) (h1 : s.prevDt = [0]) (h2 : s.prevDq = [f t q])
    (h3 : c.integ.isSspLmm = true → s.prevFE = [fe t q]) (h4 : ∃ l, s.regs = setLast l (q, t)) :
    Saved c f fe k [⟨t, q, 0⟩] s := by
  refine ⟨hlen, ?_, fun _ => ?_, fun _ => ?_, fun hi => ?_, by simp [h1]⟩
  · obtain ⟨l, hl⟩ := h4
    intro j hj hj'
    simp only [List.map_cons, List.map_nil, List.length_singleton] at hj'
    obtain rfl : j = 0 := by omega
    rw [hl]
    have : l ≠ [] := by
      intro h0
      rw [hl, setLast_length, h0] at hlen
      simp at hlen
      omega
    simp only [setLast, if_neg this]
    rw [back_append_zero]
    simp [back]
  · rw [h2]; exact isLast_singleton hk _
  · rw [h1]; exact isLast_singleton hk _
  · rw [h3 hi]; exact isLast_singleton hk _

theorem isLast_map_step {α : Type*} {k : Nat} (hk : 0 < k) (g : StepRec K E → α) (cur : List (StepRec K E))
    (x : StepRec K E) (l : List α) (hl : IsLast k (cur.map g) l) :
    IsLast k ((cur ++ [x]).map g) (if cur.length + 1 ≤ k then l ++ [g x] else rollIn l (g x)) := by
  have := isLast_step (g x) hk hl
  rw [List.length_map] at this
  rw [List.map_append]
  exact this

theorem rollSaved_saved {c : SharpCfg K} {f : K → E → E} {fe : K → E → K} {k : Nat} {h0 : List (StepRec K E)}
    {r : StepRec K E}
    {s : SharpState K E} (hc : LmmConfig c k) (hs : Saved c f fe k (h0 ++ [r]) s) (hd : s.dtOld = some r.dt)
    (hq : s.dqDt = f s.t s.q) (i : Int) (hi : i = (h0 ++ [r]).length + 1) :
    Saved c f fe k ((h0 ++ [r]) ++ [⟨s.t, s.q, 0⟩]) (rollSaved c s i (fe s.t s.q)) := by
  have hst : decide (i ≤ (s.regs.length : Int)) = decide ((h0 ++ [r]).length + 1 ≤ k) := by
    rw [hs.len, hi]
    congr 1
    exact propext (by omega)
  have hregs : HoldsLast k (((h0 ++ [r]) ++ [(⟨s.t, s.q, 0⟩ : StepRec K E)]).map fun r => (r.q, r.t)) (rollIn s.regs (s.q, s.t)) := by
    rw [List.map_append]
    exact holdsLast_roll _ hs.len hc.pos hs.regs
  have hdt : ∀ l : List K, IsLast k (0 :: (h0 ++ [r]).dropLast.map (·.dt)) l →
      IsLast k (0 :: ((h0 ++ [r]) ++ [(⟨s.t, s.q, 0⟩ : StepRec K E)]).dropLast.map (·.dt))
        (if (h0 ++ [r]).length + 1 ≤ k then l ++ [s.dtOld.getD 0] else rollIn l (s.dtOld.getD 0)) := by
    intro l hl
    have := isLast_step (s.dtOld.getD 0) hc.pos hl
    simp only [List.dropLast_concat, List.length_cons, List.length_map] at this hl ⊢
    rw [hd] at this ⊢
    simpa using this
  have hne : ∀ x : K, rollIn s.prevDt x ≠ [] := by
    intro x h
    have := rollIn_length s.prevDt x
    rw [h] at this
    exact hs.ne (List.length_eq_zero_iff.1 (by simpa using this.symm))
  have hlen : (rollIn s.regs (s.q, s.t)).length = k := by rw [rollIn_length, hs.len]
  unfold rollSaved
  simp only [hst]
  have hlmm := hc.lmm
  cases hint : c.integ with
  | ssplmmk2 =>
    have h1 := hdt _ (hs.dts (by rw [hint]; rfl))
    have h2 := isLast_map_step hc.pos (fun r => fe r.t r.q) _ ⟨s.t, s.q, 0⟩ _ (hs.fes (by rw [hint]; rfl))
    by_cases hsp : (h0 ++ [r]).length + 1 ≤ k
    · simp only [hsp, decide_true, ↓reduceIte] at h1 h2 ⊢
      exact ⟨hlen, hregs, fun h => by simp [hint] at h, fun _ => h1, fun _ => h2, by simp⟩
    · simp only [hsp, decide_false, ↓reduceIte, Bool.false_eq_true] at h1 h2 ⊢
      exact ⟨hlen, hregs, fun h => by simp [hint] at h, fun _ => h1, fun _ => h2, hne _⟩
  | ssplmmk3 =>
    have h1 := hdt _ (hs.dts (by rw [hint]; rfl))
    have h2 := isLast_map_step hc.pos (fun r => fe r.t r.q) _ ⟨s.t, s.q, 0⟩ _ (hs.fes (by rw [hint]; rfl))
    have h3 := isLast_map_step hc.pos (fun r => f r.t r.q) _ ⟨s.t, s.q, 0⟩ _ (hs.dq (by rw [hint]))
    by_cases hsp : (h0 ++ [r]).length + 1 ≤ k
    · simp only [hsp, decide_true, ↓reduceIte] at h1 h2 h3 ⊢
      exact ⟨hlen, hregs, fun h => by rw [hq]; exact h3, fun _ => h1, fun _ => h2, by simp⟩
    · simp only [hsp, decide_false, ↓reduceIte, Bool.false_eq_true] at h1 h2 h3 ⊢
      exact ⟨hlen, hregs, fun h => by rw [hq]; exact h3, fun _ => h1, fun _ => h2, hne _⟩
  | lmm al be =>
    have h3 := isLast_map_step hc.pos (fun r => f r.t r.q) _ ⟨s.t, s.q, 0⟩ _ (hs.dq (by rw [hint]))
    by_cases hsp : (h0 ++ [r]).length + 1 ≤ k
    · simp only [hsp, decide_true, ↓reduceIte] at h3 ⊢
      exact ⟨hlen, hregs, fun h => by rw [hq]; exact h3, fun h => by simp [hint, Integrator.isSspLmm] at h,
        fun h => by simp [hint, Integrator.isSspLmm] at h, hs.ne⟩
    · simp only [hsp, decide_false, ↓reduceIte, Bool.false_eq_true] at h3 ⊢
      exact ⟨hlen, hregs, fun h => by rw [hq]; exact h3, fun h => by simp [hint, Integrator.isSspLmm] at h,
        fun h => by simp [hint, Integrator.isSspLmm] at h, hs.ne⟩
  | _ => simp [hint, Integrator.isLmm] at hlmm

theorem updateSaved_first (c : SharpCfg K) (s : SharpState K E) (i : Int) (hp : s.prevDt = []) : updateSaved c s i =
    (if c.integ.isSspLmm then
      ({ s with regs := setLast s.regs (s.q, s.t), prevDq := s.prevDq ++ [s.dqDt], prevDt := [0],
                prevFE := s.prevFE ++ [dtForwardEuler c s], sspcoeff0 := 1 }, i)
    else ({ s with regs := setLast s.regs (s.q, s.t), prevDq := s.prevDq ++ [s.dqDt], prevDt := [0] }, i)) := by
  unfold updateSaved
  rw [if_pos hp]

theorem updateSaved_rejected (c : SharpCfg K) (s : SharpState K E) (i : Int) (hp : s.prevDt ≠ [])
    (ha : s.accept = false) : updateSaved c s i = (s, i) := by
  unfold updateSaved
  rw [if_neg hp, if_neg (by simp [ha])]

/-- After an accepted step the lists are rolled, or the solver goes back one step. -/
theorem updateSaved_accepted (c : SharpCfg K) (s : SharpState K E) (i : Int) (hp : s.prevDt ≠ [])
    (ha : s.accept = true) :
    (((c.integ matches .ssplmmk3) = true → c.checkCond = true → check3rdOrd s i (dtForwardEuler c s) = true) ∧
      ∃ b, updateSaved c s i = (rollSaved c { s with lmmCond := b } i (dtForwardEuler c s), i)) ∨
    ((c.integ matches .ssplmmk3) = true ∧ c.checkCond = true ∧ check3rdOrd s i (dtForwardEuler c s) = false ∧
      updateSaved c s i =
        ({ s with lmmCond := false, accept := false, q := (s.regs.getLast?.getD (s.q, s.t)).1,
                  dqDt := s.prevDq.getLast?.getD s.dqDt, t := (s.regs.getLast?.getD (s.q, s.t)).2,
                  numsteps := s.numsteps - 1 }, s.numsteps - 1 + 1)) := by
  unfold updateSaved
  rw [if_neg hp, if_pos ha]
  by_cases h3 : (c.integ matches .ssplmmk3) = true
  · obtain hi : c.integ = .ssplmmk3 := by
      cases h : c.integ <;> simp [h] at h3 ⊢
    simp only [hi]
    by_cases hch : c.checkCond = true
    · simp only [hch, if_true, Bool.true_and]
      by_cases hck : check3rdOrd s i (dtForwardEuler c s) = true
      · left
        refine ⟨fun _ _ => hck, true, ?_⟩
        simp [hck]
      · right
        rw [Bool.not_eq_true] at hck
        refine ⟨trivial, trivial, hck, ?_⟩
        simp [hck]
    · left
      rw [Bool.not_eq_true] at hch
      refine ⟨fun _ h => by simp [hch] at h, s.lmmCond, ?_⟩
      simp [hch]
  · left
    refine ⟨fun h => absurd h h3, s.lmmCond, ?_⟩
    cases hi : c.integ <;> simp [hi] at h3 ⊢

theorem rollSaved_fields (c : SharpCfg K) (s : SharpState K E) (i : Int) (d : K) :
    (rollSaved c s i d).q = s.q ∧ (rollSaved c s i d).t = s.t ∧ (rollSaved c s i d).dqDt = s.dqDt ∧
    (rollSaved c s i d).numsteps = s.numsteps ∧ (rollSaved c s i d).accept = s.accept ∧
    (rollSaved c s i d).dt = s.dt ∧ (rollSaved c s i d).cfl = s.cfl ∧ (rollSaved c s i d).dtOld = s.dtOld := by
  unfold rollSaved
  dsimp only
  cases c.integ <;> dsimp only <;> (try split) <;> simp

theorem evalRhs_fields (env : SharpEnv K E) (s : SharpState K E) :
    (evalRhs env s).q = s.q ∧ (evalRhs env s).t = s.t ∧ (evalRhs env s).regs = s.regs ∧
    (evalRhs env s).prevDq = s.prevDq ∧ (evalRhs env s).prevDt = s.prevDt ∧ (evalRhs env s).prevFE = s.prevFE ∧
    (evalRhs env s).numsteps = s.numsteps ∧ (evalRhs env s).accept = s.accept ∧ (evalRhs env s).dt = s.dt ∧
    (evalRhs env s).dtOld = s.dtOld := by
  unfold evalRhs
  split <;> simp

theorem evalRhs_accept {env : SharpEnv K E} {f : K → E → E} {nu : K → E → K} (hlin : LinearInDt env f nu)
    (c : SharpCfg K) (s : SharpState K E) (hdt : 0 < s.dt) (ha : s.accept = true) :
    (evalRhs env s).dqDt = f s.t s.q ∧ (evalRhs env s).cfl = s.dt * nu s.t s.q ∧
    dtForwardEuler c (evalRhs env s) = feSize c nu s.t s.q := by
  have h2 : (evalRhs env s).cfl = s.dt * nu s.t s.q := by
    simp only [evalRhs, ha, if_true]
    rw [hlin.2 _ _ _ hdt]
    exact max_eq_right (mul_nonneg hdt.le (hlin.1 _ _))
  refine ⟨?_, h2, ?_⟩
  · simp only [evalRhs, ha, if_true]
    rw [hlin.2 _ _ _ hdt]
    simp only
    rw [smul_smul, inv_mul_cancel₀ hdt.ne', one_smul]
  · simp only [dtForwardEuler, feSize, (evalRhs_fields env s).2.2.2.2.2.2.2.2.1, h2]
    congr 2
    rw [div_mul_eq_div_div, div_self hdt.ne']

theorem prepare_lmm {env : SharpEnv K E} {c : SharpCfg K} (hc : c.integ.isLmm = true) (s : SharpState K E) :
    prepare env c s = updateSaved c (evalRhs env { s with q := env.before s.t s.q }) (s.numsteps + 1) := by
  unfold prepare
  simp only [hc, if_true]

/-- Before any step size is chosen: without going back, the lists end with the step in progress from the current
solution. -/
theorem prepare_keeps {env : SharpEnv K E} {c : SharpCfg K} {f : K → E → E} {nu : K → E → K} {k : Nat}
    {h : List (StepRec K E)} {s : SharpState K E} (hc : LmmConfig c k) (hlin : LinearInDt env f nu) (hdt : 0 < s.dt)
    (hinv : LmmInv env c f (feSize c nu) k h s) (hnd : ¬ discards env c s) :
    LmmPrep c f (feSize c nu) k h s.t (env.before s.t s.q) (prepare env c s) := by
  unfold discards at hnd
  rw [prepare_lmm hc.lmm] at hnd ⊢
  obtain ⟨e1, e2, e3, e4, e5, e6, e7, e8, e9, e10⟩ := evalRhs_fields env { s with q := env.before s.t s.q }
  have hev := evalRhs_accept hlin c { s with q := env.before s.t s.q } hdt
  have hrej : s.accept = false → (evalRhs env { s with q := env.before s.t s.q }).dqDt = s.dqDt := by
    intro ha
    simp [evalRhs, ha]
  generalize evalRhs env { s with q := env.before s.t s.q } = s1 at *
  simp only at e1 e2 e3 e4 e5 e6 e7 e8 e9 e10 hev
  rcases hinv.cases with ⟨h0, hacc, h1, h2, h3⟩ | ⟨hacc, h0, r, hh, hs, hd⟩ | ⟨hacc, hs, hf⟩
  · -- the first step
    obtain ⟨g1, -, g3⟩ := hev hacc
    rw [updateSaved_first _ _ _ (e5.trans h1)]
    have hstep : s.numsteps = 0 := by simpa [h0] using hinv.steps
    subst h0
    split
    · refine ⟨setLast_saved hc.pos ?_ rfl ?_ (fun _ => ?_) ⟨s1.regs, ?_⟩, e1, e2, g1, ?_, by simp [hstep]⟩
      · simpa [setLast_length, e3] using hinv.len
      · simp [e4, h2, g1]
      · simp [e6, h3, g3]
      · simp [e1, e2]
      · simp [e7, hstep]
    · rename_i hssp
      refine ⟨setLast_saved hc.pos ?_ rfl ?_ (fun h => absurd h hssp) ⟨s1.regs, ?_⟩, e1, e2, g1, ?_, by simp [hstep]⟩
      · simpa [setLast_length, e3] using hinv.len
      · simp [e4, h2, g1]
      · simp [e1, e2]
      · simp [e7, hstep]
  · -- after an accepted step
    obtain ⟨g1, -, g3⟩ := hev hacc
    rcases updateSaved_accepted c s1 (s.numsteps + 1) (by rw [e5]; exact hs.ne) (e8.trans hacc) with
      ⟨-, b, hb⟩ | ⟨-, -, -, hb⟩
    · rw [hb]
      obtain ⟨r1, r2, r3, r4, -⟩ := rollSaved_fields c { s1 with lmmCond := b } (s.numsteps + 1) (dtForwardEuler c s1)
      subst hh
      have := rollSaved_saved (s := { s1 with lmmCond := b })
          (f := f) (fe := feSize c nu) hc (hs.congr e3 e4 e5 e6) (e10.trans hd) (by rw [← e1, ← e2] at g1; exact g1)
          (s.numsteps + 1) (by rw [hinv.steps])
      simp only [e1, e2] at this
      rw [g3] at r1 r2 r3 r4 ⊢
      exact ⟨by simpa only [e1, e2] using this, r1.trans e1, r2.trans e2, r3.trans g1, (r4.trans e7).trans hinv.steps, by rw [hinv.steps]⟩
    · rw [hb] at hnd
      exact absurd hnd (by simp [e7])
  · -- after a rejected step
    rw [updateSaved_rejected _ _ _ (by rw [e5]; exact hs.ne) (e8.trans hacc)]
    exact ⟨hs.congr e3 e4 e5 e6, e1, e2, (hrej hacc).trans hf, e7.trans hinv.steps, by simp [hinv.steps]⟩

/-- When the solver goes back one step, the lists end with the previous step, which is now in progress again. -/
theorem prepare_discards {env : SharpEnv K E} {c : SharpCfg K} {f : K → E → E} {nu : K → E → K} {k : Nat}
    {h : List (StepRec K E)} {s : SharpState K E} (hc : LmmConfig c k)
    (hinv : LmmInv env c f (feSize c nu) k h s) (hd : discards env c s) :
    ∃ h0 r, h = h0 ++ [r] ∧ LmmPrep c f (feSize c nu) k h0 r.t r.q (prepare env c s) := by
  unfold discards at hd
  rw [prepare_lmm hc.lmm] at hd ⊢
  obtain ⟨e1, e2, e3, e4, e5, e6, e7, e8, e9, e10⟩ := evalRhs_fields env { s with q := env.before s.t s.q }
  generalize evalRhs env { s with q := env.before s.t s.q } = s1 at *
  simp only at e1 e2 e3 e4 e5 e6 e7 e8 e9 e10
  rcases hinv.cases with ⟨h0, hacc, h1, h2, h3⟩ | ⟨hacc, h0, r, hh, hs, -⟩ | ⟨hacc, hs, hf⟩
  · rw [updateSaved_first _ _ _ (e5.trans h1)] at hd
    split at hd <;> simp [e7] at hd
  · rcases updateSaved_accepted c s1 (s.numsteps + 1) (by rw [e5]; exact hs.ne) (e8.trans hacc) with
      ⟨-, b, hb⟩ | ⟨hi, -, -, hb⟩
    · rw [hb] at hd
      have := (rollSaved_fields c { s1 with lmmCond := b } (s.numsteps + 1) (dtForwardEuler c s1)).2.2.2.1
      simp only at this
      rw [this, e7] at hd
      exact absurd hd (lt_irrefl _)
    · rw [hb]
      subst hh
      refine ⟨h0, r, rfl, ?_⟩
      have hreg : s1.regs.getLast? = some (r.q, r.t) := by
        rw [e3, ← back_zero, hs.regs 0 hc.pos (by simp), List.map_append]
        exact back_append_zero _ _
      have hdq : s1.prevDq.getLast? = some (f r.t r.q) := by
        rw [e4, ← back_zero, (hs.dq (by cases h : c.integ <;> simp [h] at hi ⊢)).2 0 hc.pos (by simp),
          List.map_append]
        exact back_append_zero _ _
      have hst := hinv.steps
      rw [List.length_append, List.length_singleton] at hst
      refine ⟨?_, ?_, ?_, ?_, ?_, ?_⟩
      · exact Saved.redt 0 (hs.congr e3 e4 e5 e6)
      · simp [hreg]
      · simp [hreg]
      · simp [hdq]
      · simp only [e7, hst]; push_cast; omega
      · simp only [e7, hst]; push_cast; omega
  · rw [updateSaved_rejected _ _ _ (by rw [e5]; exact hs.ne) (e8.trans hacc)] at hd
    simp [e7] at hd

/-- The parts of the state that the integrators leave alone. -/
theorem integrate_fields (env : SharpEnv K E) (c : SharpCfg K) (i : Int) (s : SharpState K E) :
    let r := (integrate env c i s).1
    r.prevDq = s.prevDq ∧ r.prevDt = s.prevDt ∧ r.prevFE = s.prevFE ∧ r.dqDt = s.dqDt ∧ r.dt = s.dt ∧
    r.dtOld = s.dtOld ∧ r.numsteps = s.numsteps ∧ r.t = s.t ∧ r.cfl = s.cfl ∧
    (r.regs = s.regs ∨ ((c.integ.isSspLmm = true → i < c.lmmSteps) ∧ (c.integ.isSspLmm = true ∨ c.integ.isLmm = false) ∧
      ∃ x, r.regs = setFirst s.regs x)) := by
  intro r
  have hr : r = (integrate env c i s).1 := rfl
  clear_value r
  subst hr
  unfold integrate
  cases hi : c.integ with
  | ssp22 => refine ⟨rfl, rfl, rfl, rfl, rfl, rfl, rfl, rfl, rfl, Or.inr ⟨by simp [Integrator.isSspLmm], by simp [Integrator.isLmm], _, rfl⟩⟩
  | ssplmmk2 =>
    dsimp only
    split
    · exact ⟨rfl, rfl, rfl, rfl, rfl, rfl, rfl, rfl, rfl, Or.inr ⟨fun _ => by assumption, by simp [Integrator.isSspLmm], _, rfl⟩⟩
    · split <;> exact ⟨rfl, rfl, rfl, rfl, rfl, rfl, rfl, rfl, rfl, Or.inl rfl⟩
  | ssplmmk3 =>
    dsimp only
    split
    · exact ⟨rfl, rfl, rfl, rfl, rfl, rfl, rfl, rfl, rfl, Or.inr ⟨fun _ => by assumption, by simp [Integrator.isSspLmm], _, rfl⟩⟩
    · split <;> exact ⟨rfl, rfl, rfl, rfl, rfl, rfl, rfl, rfl, rfl, Or.inl rfl⟩
  | lmm al be =>
    dsimp only
    split
    · exact ⟨rfl, rfl, rfl, rfl, rfl, rfl, rfl, rfl, rfl, Or.inl rfl⟩
    · split <;> exact ⟨rfl, rfl, rfl, rfl, rfl, rfl, rfl, rfl, rfl, Or.inl rfl⟩
  | _ => exact ⟨rfl, rfl, rfl, rfl, rfl, rfl, rfl, rfl, rfl, Or.inl rfl⟩

theorem sharpGetDt_fields (c : SharpCfg K) (ts : K) (te : Option K) (s : SharpState K E) :
    let r := sharpGetDt c ts te s
    r.prevDq = s.prevDq ∧ r.prevDt = s.prevDt ∧ r.prevFE = s.prevFE ∧ r.dqDt = s.dqDt ∧ r.regs = s.regs ∧
    r.numsteps = s.numsteps ∧ r.t = s.t ∧ r.q = s.q ∧ r.cfl = s.cfl := by
  intro r
  have hr : r = sharpGetDt c ts te s := rfl
  clear_value r
  subst hr
  unfold sharpGetDt
  cases te <;> dsimp only <;> split <;> (try split) <;> simp

/-- The state handed to the integrator: the step size is chosen. -/
def withStep (c : SharpCfg K) (ts : K) (te : Option K) (p : SharpState K E) : SharpState K E :=
  let s1 := sharpGetDt c ts te p
  { s1 with cfl := s1.dt / s1.dtOld.getD 0 * s1.cfl, dtOld := some s1.dt }

/-- What one iteration of the loop does, in terms of the prepared state. -/
theorem sharpAttempt_cases {env : SharpEnv K E} {c : SharpCfg K} {m ts : K} {te : Option K} {n : Nat}
    {s s' : SharpState K E} {b : Bool} (h : sharpAttempt env c m ts te n s = (s', .ok b)) :
    let p := prepare env c s
    let s2 := withStep c ts te p.1
    let r := (integrate env c p.2 s2).1
    (integrate env c p.2 s2).2 = .ok () ∧ s'.accept = b ∧ b = sharpAccepts c { r with cfl := max r.cfl m } ∧
    s'.prevDq = p.1.prevDq ∧ s'.prevDt = p.1.prevDt ∧ s'.prevFE = p.1.prevFE ∧ s'.dqDt = p.1.dqDt ∧ s'.regs = r.regs ∧
    s'.dt = s2.dt ∧ s'.dtOld = some s'.dt ∧ s'.cfl = max r.cfl m ∧
    (b = true → s'.q = r.q ∧ s'.numsteps = p.1.numsteps + 1 ∧
      s'.t = if c.dtVariable then p.1.t + s'.dt else ts + (n + 1 : Nat) * s'.dt) ∧
    (b = false → s'.q = s.q ∧ s'.t = s.t ∧ s'.numsteps = p.1.numsteps) := by
  intro p s2 r
  have e : sharpAttempt env c m ts te n s =
    (match (integrate env c p.2 s2).2 with
    | .error e => (r, .error e)
    | .ok () =>
      let s3 := { r with cfl := max r.cfl m }
      let acc := sharpAccepts c s3
      let s4 := { s3 with accept := acc }
      if acc then
        ({ s4 with t := if c.dtVariable then s4.t + s4.dt else ts + (n + 1 : Nat) * s4.dt,
                   numsteps := s4.numsteps + 1 }, .ok true)
      else if c.dtVariable then ({ s4 with q := s.q, t := s.t }, .ok false)
      else (s4, .error (.exception "CFL too large, giving up!"))) := rfl
  rw [e] at h
  obtain ⟨i1, i2, i3, i4, i5, i6, i7, i8, i9, -⟩ := integrate_fields env c p.2 s2
  obtain ⟨g1, g2, g3, g4, g5, g6, g7, g8, g9⟩ := sharpGetDt_fields c ts te p.1
  have w1 : s2.prevDq = p.1.prevDq := g1
  have w2 : s2.prevDt = p.1.prevDt := g2
  have w3 : s2.prevFE = p.1.prevFE := g3
  have w4 : s2.dqDt = p.1.dqDt := g4
  have w6 : s2.numsteps = p.1.numsteps := g6
  have w7 : s2.t = p.1.t := g7
  have w5 : s2.dtOld = some s2.dt := rfl
  have hr : (integrate env c p.2 s2).1 = r := rfl
  rw [hr] at i1 i2 i3 i4 i5 i6 i7 i8 i9
  clear_value r
  revert h
  split
  · intro h; simp at h
  · rename_i hok
    intro h
    refine ⟨hok, ?_⟩
    dsimp only at h
    split at h
    · rename_i hacc
      simp only [Prod.mk.injEq, Except.ok.injEq] at h
      obtain ⟨rfl, rfl⟩ := h
      simp only at *
      refine ⟨hacc, hacc.symm, by rw [i1, w1], by rw [i2, w2], by rw [i3, w3], by rw [i4, w4], trivial, i5, by rw [i6, w5, i5], trivial,
        fun _ => ⟨trivial, by rw [i7, w6], by rw [i8, w7]⟩, fun h => by simp at h⟩
    · rename_i hacc
      split at h
      · simp only [Prod.mk.injEq, Except.ok.injEq] at h
        obtain ⟨rfl, rfl⟩ := h
        rw [Bool.not_eq_true] at hacc
        simp only at *
        refine ⟨hacc, hacc.symm, by rw [i1, w1], by rw [i2, w2], by rw [i3, w3], by rw [i4, w4], trivial, i5, by rw [i6, w5, i5], trivial,
          fun h => by simp at h, fun _ => ⟨trivial, trivial, by rw [i7, w6]⟩⟩
      · simp at h

end PyClaw
