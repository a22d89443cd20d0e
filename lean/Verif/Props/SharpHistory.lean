import Verif.Lemmas.SharpLMM
import Verif.Props.SharpLMM
import Mathlib.Algebra.BigOperators.Group.Finset.Basic
import Mathlib.Algebra.BigOperators.Intervals
import Mathlib.Data.Rat.Defs
import Mathlib.Algebra.Order.Field.Rat
import Mathlib.Tactic.NormNum
import Mathlib.Algebra.Order.BigOperators.Group.List

/-!
C49: the history kept for the multistep methods.
-/
set_option linter.unusedSectionVars false

namespace PyClaw
open Spec

variable {K E : Type*} [Field K] [LinearOrder K] [IsStrictOrderedRing K] [AddCommGroup E] [Module K E]

/-- The solver after `setup` with `k` registers, before the first step. -/
structure LmmFresh (k : Nat) (s : SharpState K E) : Prop where
  accept : s.accept = true
  numsteps : s.numsteps = 0
  regs : s.regs.length = k
  prevDt : s.prevDt = []
  prevDq : s.prevDq = []
  prevFE : s.prevFE = []

/-- Every sequence of loop iterations, with the list of the accepted steps: where each one started and the step
size it used. The settings `ts te n` of the enclosing `evolve_to_time` and the stage Courant number `m` may be
different in every iteration; `P` is a condition on all iterations, `fun _ _ _ => True` for none. When the third-order
check discards the last accepted step, that step is removed from the list and the new attempt starts where it started.
Each iteration starts with a positive step size. -/
inductive LmmRun (env : SharpEnv K E) (c : SharpCfg K) (P : K → Option K → SharpState K E → Prop)
    (s0 : SharpState K E) : List (StepRec K E) → SharpState K E → Prop
  | start : LmmRun env c P s0 [] s0
  | accepted {h s s' m ts te n} : LmmRun env c P s0 h s → 0 < s.dt → P ts te s → ¬ discards env c s →
      sharpAttempt env c m ts te n s = (s', .ok true) →
      LmmRun env c P s0 (h ++ [⟨s.t, env.before s.t s.q, s'.dt⟩]) s'
  | rejected {h s s' m ts te n} : LmmRun env c P s0 h s → 0 < s.dt → P ts te s → ¬ discards env c s →
      sharpAttempt env c m ts te n s = (s', .ok false) →
      LmmRun env c P s0 h s'
  | redone {h r s s' m ts te n} : LmmRun env c P s0 (h ++ [r]) s → 0 < s.dt → P ts te s → discards env c s →
      sharpAttempt env c m ts te n s = (s', .ok true) →
      LmmRun env c P s0 (h ++ [⟨r.t, r.q, s'.dt⟩]) s'

/-- The saved values survive the rest of the iteration. -/
theorem attempt_saved {env : SharpEnv K E} {c : SharpCfg K} {f : K → E → E} {fe : K → E → K} {k : Nat}
    {h : List (StepRec K E)} {t : K} {q : E} {s s' : SharpState K E} {m ts : K} {te : Option K} {n : Nat} {b : Bool}
    (hc : LmmConfig c k) (hp : LmmPrep c f fe k h t q (prepare env c s))
    (ha : sharpAttempt env c m ts te n s = (s', .ok b)) : Saved c f fe k (h ++ [⟨t, q, 0⟩]) s' := by
  obtain ⟨-, -, -, a1, a2, a3, -, a4, -⟩ := sharpAttempt_cases ha
  have hs := hp.saved
  obtain ⟨-, -, -, -, -, -, -, -, -, hreg⟩ := integrate_fields env c (prepare env c s).2
    (withStep c ts te (prepare env c s).1)
  have hw : (withStep c ts te (prepare env c s).1).regs = (prepare env c s).1.regs :=
    (sharpGetDt_fields c ts te (prepare env c s).1).2.2.2.2.1
  rcases hreg with hreg | ⟨h1, h2, x, hx⟩
  · exact hs.congr (a4.trans (hreg.trans hw)) a1 a2 a3
  · have hssp : c.integ.isSspLmm = true := by
      rcases h2 with h2 | h2
      · exact h2
      · rw [hc.lmm] at h2; cases h2
    have hlt := h1 hssp
    rw [hc.ssp hssp, hp.index] at hlt
    have hre : s'.regs = setFirst (prepare env c s).1.regs x := by rw [a4, hx, hw]
    refine ⟨?_, ?_, a1 ▸ hs.dq, a2 ▸ hs.dts, a3 ▸ hs.fes, a2 ▸ hs.ne⟩
    · rw [hre, setFirst_length, hs.len]
    · rw [hre]
      refine holdsLast_setFirst x hs.len ?_ hs.regs
      simp only [List.length_map, List.length_append, List.length_singleton]
      omega

theorem run_inv {env : SharpEnv K E} {c : SharpCfg K} {f : K → E → E} {nu : K → E → K} {k : Nat}
    {P : K → Option K → SharpState K E → Prop} {s0 : SharpState K E} (hc : LmmConfig c k) (hlin : LinearInDt env f nu) (h0 : LmmFresh k s0)
    {h : List (StepRec K E)} {s : SharpState K E} (hr : LmmRun env c P s0 h s) :
    LmmInv env c f (feSize c nu) k h s := by
  induction hr with
  | start =>
    exact ⟨by simp [h0.numsteps], h0.regs, Or.inl ⟨rfl, h0.accept, h0.prevDt, h0.prevDq, h0.prevFE⟩⟩
  | accepted _ hdt _ hnd ha ih =>
    have hp := prepare_keeps hc hlin hdt ih hnd
    have hs := attempt_saved hc hp ha
    obtain ⟨-, b1, -, -, -, -, -, -, -, b2, -, b3, -⟩ := sharpAttempt_cases ha
    refine ⟨?_, hs.len, Or.inr (Or.inl ⟨b1, _, _, rfl, hs.redt _, b2⟩)⟩
    rw [(b3 rfl).2.1, hp.steps]
    simp
  | rejected _ hdt _ hnd ha ih =>
    have hp := prepare_keeps hc hlin hdt ih hnd
    have hs := attempt_saved hc hp ha
    obtain ⟨-, b1, -, -, -, -, b4, -, -, b2, -, -, b3⟩ := sharpAttempt_cases ha
    obtain ⟨c1, c2, c3⟩ := b3 rfl
    refine ⟨by rw [c3, hp.steps], hs.len, Or.inr (Or.inr ⟨b1, ?_, ?_⟩)⟩
    · rw [c1, c2]; exact hs
    · rw [c1, c2, b4, hp.dqDt]
  | redone _ hdt _ hd ha ih =>
    obtain ⟨h1, r1, e, hp⟩ := prepare_discards hc ih hd
    obtain ⟨rfl, e⟩ := List.append_inj' e rfl
    obtain rfl : _ = r1 := by simpa using e
    have hs := attempt_saved hc hp ha
    obtain ⟨-, b1, -, -, -, -, -, -, -, b2, -, b3, -⟩ := sharpAttempt_cases ha
    refine ⟨?_, hs.len, Or.inr (Or.inl ⟨b1, _, _, rfl, hs.redt _, b2⟩)⟩
    rw [(b3 rfl).2.1, hp.steps]
    simp

/-- C49 without going back. At every iteration of every run, when the step size is about to be chosen: the saved
solutions are those at the beginning of the previous accepted steps, followed by the current one, in order; for the
methods that use them the saved right-hand sides are those at these solutions, and the saved step sizes are those of
the accepted steps (preceded by one unused 0), and the saved forward Euler step sizes are those of these solutions, from the Courant number of
each of them alone. Covers `SSPLMMk2`, `LMM`, `SSPLMMk3` without the check, and those
iterations of `SSPLMMk3` with the check which do not discard a step. -/
theorem C49_history_partial {env : SharpEnv K E} {c : SharpCfg K} {f : K → E → E} {nu : K → E → K} {k : Nat}
    {P : K → Option K → SharpState K E → Prop} {s0 : SharpState K E} (hc : LmmConfig c k) (hlin : LinearInDt env f nu) (h0 : LmmFresh k s0)
    {h : List (StepRec K E)} {s : SharpState K E} (hr : LmmRun env c P s0 h s) (hdt : 0 < s.dt)
    (hnd : ¬ discards env c s) :
    let p := (prepare env c s).1
    let cur := h ++ [⟨s.t, env.before s.t s.q, 0⟩]
    p.q = env.before s.t s.q ∧ p.t = s.t ∧ p.dqDt = f s.t (env.before s.t s.q) ∧
    HoldsLast k (cur.map fun r => (r.q, r.t)) p.regs ∧
    ((c.integ matches .ssplmmk2) = false → IsLast k (cur.map fun r => f r.t r.q) p.prevDq) ∧
    (c.integ.isSspLmm = true → IsLast k (0 :: h.map (·.dt)) p.prevDt ∧
      IsLast k (cur.map fun r => 1 / nu r.t r.q * c.cflMax / c.sspcoeff) p.prevFE) := by
  have hp := prepare_keeps hc hlin hdt (run_inv hc hlin h0 hr) hnd
  refine ⟨hp.q_eq, hp.t_eq, hp.dqDt, hp.saved.regs, hp.saved.dq, fun hi => ⟨?_, hp.saved.fes hi⟩⟩
  have := hp.saved.dts hi
  rwa [List.dropLast_concat] at this

/-- C49 when a step is discarded: the lists, the solution, the time and the right-hand side are those at the
beginning of the discarded step. -/
theorem C49_discard {env : SharpEnv K E} {c : SharpCfg K} {f : K → E → E} {nu : K → E → K} {k : Nat}
    {P : K → Option K → SharpState K E → Prop} {s0 : SharpState K E} (hc : LmmConfig c k) (hlin : LinearInDt env f nu) (h0 : LmmFresh k s0)
    {h : List (StepRec K E)} {s : SharpState K E} (hr : LmmRun env c P s0 h s) (hd : discards env c s) :
    ∃ h0 r, h = h0 ++ [r] ∧
      let p := (prepare env c s).1
      p.q = r.q ∧ p.t = r.t ∧ p.dqDt = f r.t r.q ∧
      HoldsLast k (h.map fun r => (r.q, r.t)) p.regs ∧
      ((c.integ matches .ssplmmk2) = false → IsLast k (h.map fun r => f r.t r.q) p.prevDq) ∧
      (c.integ.isSspLmm = true → IsLast k (0 :: h0.map (·.dt)) p.prevDt ∧
        IsLast k (h.map fun r => 1 / nu r.t r.q * c.cflMax / c.sspcoeff) p.prevFE) := by
  obtain ⟨h1, r, rfl, hp⟩ := prepare_discards hc (run_inv hc hlin h0 hr) hd
  have hs := Saved.redt r.dt hp.saved
  refine ⟨h1, r, rfl, hp.q_eq, hp.t_eq, hp.dqDt, hs.regs, hs.dq, fun hi => ⟨?_, hs.fes hi⟩⟩
  have := hs.dts hi
  rwa [List.dropLast_concat] at this

/-- Only the third-order method with its check ever discards a step. -/
theorem discards_only {env : SharpEnv K E} {c : SharpCfg K} {s : SharpState K E} (hd : discards env c s) :
    c.integ = .ssplmmk3 ∧ c.checkCond = true ∧ s.accept = true := by
  unfold discards prepare at hd
  obtain ⟨-, -, -, -, -, -, e7, e8, -, -⟩ := evalRhs_fields env { s with q := env.before s.t s.q }
  dsimp only at hd e7 e8
  generalize evalRhs env { s with q := env.before s.t s.q } = s1 at *
  by_cases hl : c.integ.isLmm = true
  · rw [if_pos hl] at hd
    by_cases hp : s1.prevDt = []
    · rw [updateSaved_first _ _ _ hp] at hd
      split at hd <;> simp [e7] at hd
    · by_cases ha : s1.accept = true
      · rcases updateSaved_accepted c s1 (s.numsteps + 1) hp ha with ⟨-, b, hb⟩ | ⟨hi, hch, -, hb⟩
        · rw [hb] at hd
          have := (rollSaved_fields c { s1 with lmmCond := b } (s.numsteps + 1) (dtForwardEuler c s1)).2.2.2.1
          simp only at this
          rw [this, e7] at hd
          exact absurd hd (lt_irrefl _)
        · refine ⟨?_, hch, e8 ▸ ha⟩
          cases h : c.integ <;> simp [h] at hi ⊢
      · rw [updateSaved_rejected _ _ _ hp (by simpa using ha)] at hd
        simp [e7] at hd
  · rw [if_neg hl] at hd
    simp [e7] at hd

theorem run_pos {env : SharpEnv K E} {c : SharpCfg K} {P : K → Option K → SharpState K E → Prop} {s0 : SharpState K E}
    {h : List (StepRec K E)} {s : SharpState K E} (hr : LmmRun env c P s0 h s) (hdt : 0 < s.dt) :
    ∀ r ∈ h, 0 < r.dt := by
  induction hr with
  | start => simp
  | accepted _ hd _ _ _ ih =>
    intro r hr
    rcases List.mem_append.1 hr with hr | hr
    · exact ih hd r hr
    · rw [List.mem_singleton.1 hr]; exact hdt
  | rejected _ hd _ _ _ ih => exact ih hd
  | redone _ hd _ _ _ ih =>
    intro r hr
    rcases List.mem_append.1 hr with hr | hr
    · exact ih hd r (List.mem_append_left _ hr)
    · rw [List.mem_singleton.1 hr]; exact hdt

theorem chain_replace {l : List (StepRec K E)} {a b : StepRec K E} (ht : a.t = b.t)
    (h : List.IsChain (fun x y : StepRec K E => x.t + x.dt = y.t) (l ++ [a])) :
    List.IsChain (fun x y : StepRec K E => x.t + x.dt = y.t) (l ++ [b]) := by
  rw [List.isChain_append] at h ⊢
  refine ⟨h.1, List.isChain_singleton _, ?_⟩
  intro x hx y hy
  simp only [List.head?_cons, Option.mem_def, Option.some.injEq] at hy
  subst hy
  rw [← ht]
  exact h.2.2 x hx a rfl

theorem chain_push {l : List (StepRec K E)} {a b : StepRec K E} (ht : a.t + a.dt = b.t)
    (h : List.IsChain (fun x y : StepRec K E => x.t + x.dt = y.t) (l ++ [a])) :
    List.IsChain (fun x y : StepRec K E => x.t + x.dt = y.t) (l ++ [a] ++ [b]) := by
  rw [List.isChain_append]
  refine ⟨h, List.isChain_singleton _, ?_⟩
  intro x hx y hy
  simp only [List.getLast?_append, List.getLast?_singleton, Option.some_or, Option.mem_def, Option.some.injEq,
    List.head?_cons] at hx hy
  subst hx hy
  exact ht

/-- C49, times: with variable steps, each accepted step starts at the time where the previous one ended, and the
solution is at the time where the last one ended. -/
theorem C49_times {env : SharpEnv K E} {c : SharpCfg K} {f : K → E → E} {nu : K → E → K} {k : Nat}
    {P : K → Option K → SharpState K E → Prop} {s0 : SharpState K E} (hc : LmmConfig c k) (hlin : LinearInDt env f nu)
    (h0 : LmmFresh k s0) (hv : c.dtVariable = true)
    {h : List (StepRec K E)} {s : SharpState K E} (hr : LmmRun env c P s0 h s) :
    List.IsChain (fun x y : StepRec K E => x.t + x.dt = y.t) (h ++ [⟨s.t, env.before s.t s.q, 0⟩]) := by
  induction hr with
  | start => exact List.isChain_singleton _
  | accepted hr hd _ hnd ha ih =>
    have hp := prepare_keeps hc hlin hd (run_inv hc hlin h0 hr) hnd
    obtain ⟨-, -, -, -, -, -, -, -, -, -, -, b3, -⟩ := sharpAttempt_cases ha
    have ht := (b3 rfl).2.2
    rw [if_pos hv, hp.t_eq] at ht
    refine chain_push ht.symm (chain_replace ?_ ih)
    rfl
  | rejected _ hd _ _ ha ih =>
    obtain ⟨-, -, -, -, -, -, -, -, -, -, -, -, b3⟩ := sharpAttempt_cases ha
    obtain ⟨-, ht, -⟩ := b3 rfl
    exact chain_replace ht.symm ih
  | redone hr hd _ hdis ha ih =>
    obtain ⟨h1, r1, e, hp⟩ := prepare_discards hc (run_inv hc hlin h0 hr) hdis
    obtain ⟨rfl, e⟩ := List.append_inj' e rfl
    obtain rfl : _ = r1 := by simpa using e
    obtain ⟨-, -, -, -, -, -, -, -, -, -, -, b3, -⟩ := sharpAttempt_cases ha
    have ht := (b3 rfl).2.2
    rw [if_pos hv, hp.t_eq] at ht
    refine chain_push ht.symm (chain_replace ?_ ((List.isChain_append.1 ih).1))
    rfl

/-- The sum of the step sizes of the last `k - 1` steps. -/
def spanAt (k : Nat) (l : List (StepRec K E)) : K := ((l.drop (l.length + 1 - k)).map (·.dt)).sum

/-- The smallest forward Euler step size of the last `k` steps. -/
def feMin (k : Nat) (fe : K → E → K) (l : List (StepRec K E)) : K :=
  listMin ((l.drop (l.length - k)).map fun r => fe r.t r.q)

theorem prep_span {c : SharpCfg K} {f : K → E → E} {fe : K → E → K} {k : Nat} {h : List (StepRec K E)} {t : K} {q : E}
    {p : SharpState K E × Int} (hssp : c.integ.isSspLmm = true) (hp : LmmPrep c f fe k h t q p) :
    lmmSpan p.1.prevDt = spanAt k h := by
  have := isLast_eq (hp.saved.dts hssp)
  rw [List.dropLast_concat] at this
  simp only [lmmSpan, spanAt]
  rw [this, List.drop_drop, List.length_cons, List.length_map, List.drop_succ_cons, List.map_drop]

theorem prep_fe {c : SharpCfg K} {f : K → E → E} {fe : K → E → K} {k : Nat} {h : List (StepRec K E)} {t : K} {q : E}
    {p : SharpState K E × Int} (hssp : c.integ.isSspLmm = true) (hp : LmmPrep c f fe k h t q p) (d : K) :
    listMin (p.1.prevFE.take p.1.regs.length) = feMin k fe (h ++ [⟨t, q, d⟩]) := by
  have hfe := hp.saved.fes hssp
  have := isLast_eq hfe
  have hl := hfe.1
  rw [hp.saved.len, List.take_of_length_le (by omega), this]
  simp [feMin, List.map_drop]

/-- In a chain of times the span is a difference of times. -/
theorem chain_span {l : List (StepRec K E)} {a : StepRec K E} {t : K} {q : E} {d : K}
    (h : List.IsChain (fun x y : StepRec K E => x.t + x.dt = y.t) (a :: l ++ [⟨t, q, d⟩])) :
    ((a :: l).map (·.dt)).sum = t - a.t := by
  induction l generalizing a with
  | nil =>
    simp only [List.cons_append, List.nil_append, List.isChain_cons_cons, List.isChain_singleton, and_true] at h
    simp [← h]
  | cons b l ih =>
    rw [List.cons_append, List.cons_append, List.isChain_cons_cons] at h
    have := ih h.2
    rw [List.map_cons, List.sum_cons, this, ← h.1]
    ring

/-- `q'` is the result of the multistep formula of integrator `i`, applied to the accepted steps `h` and the step `x`
in progress. The general `LMM` takes the last `k` solutions and right-hand sides, oldest first. -/
def MultistepResult (i : Integrator K) (f : K → E → E) (k : Nat) (h : List (StepRec K E)) (x : StepRec K E) (q' : E) :
    Prop :=
  match i with
  | .ssplmmk2 => ∃ old, back (h ++ [x]) (k - 1) = some old ∧
      q' = (k2Coeffs (spanAt k h / x.dt)).apply x.dt x.q (f x.t x.q) old.q (f old.t old.q)
  | .ssplmmk3 => ∃ old, back (h ++ [x]) (k - 1) = some old ∧
      q' = (k3Coeffs (spanAt k h / x.dt)).apply x.dt x.q (f x.t x.q) old.q (f old.t old.q)
  | .lmm al be =>
      let last := (h ++ [x]).drop (h.length + 1 - k)
      q' = ∑ j ∈ Finset.range k, (al.getD j 0 • (last.map (·.q)).getD j 0 +
        (be.getD j 0 * x.dt) • (last.map fun r => f r.t r.q).getD j 0)
  | _ => False

theorem lmmTerms_eq {al be : List K} {dt : K} {regs : List (E × K)} {prevDq : List E} {acc : E} {n : Nat}
    (h1 : n ≤ al.length) (h2 : n ≤ be.length) (h3 : n ≤ regs.length) (h4 : n ≤ prevDq.length) :
    lmmTerms al be dt regs prevDq acc n = some (acc + ∑ j ∈ Finset.range n,
      (al.getD j 0 • (regs.map (·.1)).getD j 0 + (be.getD j 0 * dt) • prevDq.getD j 0)) := by
  induction n with
  | zero => simp [lmmTerms]
  | succ n ih =>
    rw [lmmTerms, ih (by omega) (by omega) (by omega) (by omega), List.getElem?_eq_getElem h1,
      List.getElem?_eq_getElem h2, List.getElem?_eq_getElem h3, List.getElem?_eq_getElem h4]
    simp only [Finset.sum_range_succ, List.getD_eq_getElem?_getD, List.getElem?_map, List.getElem?_eq_getElem h1,
      List.getElem?_eq_getElem h2, List.getElem?_eq_getElem h3, List.getElem?_eq_getElem h4, Option.getD_some,
      Option.map_some]
    rw [add_assoc]

theorem getLast?_getD {α : Type*} {l : List α} {n : Nat} (h : l.length = n + 1) (d : α) :
    l.getLast? = some (l.getD n d) := by
  rw [List.getLast?_eq_getElem?, h, Nat.add_sub_cancel, List.getD_eq_getElem?_getD,
    List.getElem?_eq_getElem (by omega)]
  rfl

theorem lmmUpdate_eq {al be : List K} {dt : K} {regs : List (E × K)} {prevDq : List E} {k : Nat} (hk : 0 < k)
    (h1 : al.length = k) (h2 : be.length = k) (h3 : regs.length = k) (h4 : prevDq.length = k) :
    lmmUpdate al be k dt regs prevDq = some (∑ j ∈ Finset.range k,
      (al.getD j 0 • (regs.map (·.1)).getD j 0 + (be.getD j 0 * dt) • prevDq.getD j 0)) := by
  obtain ⟨n, rfl⟩ : ∃ n, k = n + 1 := ⟨k - 1, by omega⟩
  unfold lmmUpdate
  rw [getLast?_getD h1 0, getLast?_getD h2 0, getLast?_getD h3 (0, 0), getLast?_getD h4 0]
  simp only [Nat.add_sub_cancel]
  rw [lmmTerms_eq (by omega) (by omega) (by omega) (by omega), Finset.sum_range_succ, add_comm]
  congr 4
  simp only [List.getD_eq_getElem?_getD, List.getElem?_map]
  rw [List.getElem?_eq_getElem (by omega)]
  rfl

/-- From a prepared state with at least `k` solutions, the step taken is the multistep formula. -/
theorem prep_result {env : SharpEnv K E} {c : SharpCfg K} {f : K → E → E} {fe : K → E → K} {k : Nat}
    {h : List (StepRec K E)} {t : K} {q : E} {s s' : SharpState K E} {m ts : K} {te : Option K} {n : Nat}
    (hc : LmmConfig c k) (hlm : ∀ al be, c.integ = .lmm al be → be.length = k ∧ c.lmmSteps = k)
    (hp : LmmPrep c f fe k h t q (prepare env c s)) (hk : k ≤ h.length + 1)
    (hsp : c.integ.isSspLmm = true → spanAt k h ≠ 0) (hdt : s'.dt ≠ 0)
    (ha : sharpAttempt env c m ts te n s = (s', .ok true)) :
    MultistepResult c.integ f k h ⟨t, q, s'.dt⟩ s'.q := by
  obtain ⟨hok, -, -, -, -, -, -, -, hd, -, -, b3, -⟩ := sharpAttempt_cases ha
  have hq := (b3 rfl).1
  obtain ⟨g1, g2, g3, g4, g5, g6, g7, g8, g9⟩ := sharpGetDt_fields c ts te (prepare env c s).1
  have w1 : (withStep c ts te (prepare env c s).1).prevDq = (prepare env c s).1.prevDq := g1
  have w2 : (withStep c ts te (prepare env c s).1).prevDt = (prepare env c s).1.prevDt := g2
  have w4 : (withStep c ts te (prepare env c s).1).dqDt = f t q := g4.trans hp.dqDt
  have w5 : (withStep c ts te (prepare env c s).1).regs = (prepare env c s).1.regs := g5
  have w8 : (withStep c ts te (prepare env c s).1).q = q := g8.trans hp.q_eq
  have hs := Saved.redt s'.dt hp.saved
  have hlen : ((h ++ [(⟨t, q, s'.dt⟩ : StepRec K E)]).map fun r => (r.q, r.t)).length = h.length + 1 := by simp
  -- the old point
  obtain ⟨old, hold⟩ := back_lt (l := h ++ [(⟨t, q, s'.dt⟩ : StepRec K E)]) (j := k - 1) (by simp; omega)
  have hkpos := hc.pos
  have hreg : fromEnd (withStep c ts te (prepare env c s).1).regs k = some (old.q, old.t) := by
    rw [w5, fromEnd_eq hc.pos (by rw [hs.len]), hs.regs (k - 1) (by omega) (by omega), back_map, hold]
    rfl
  rw [hq]
  rw [hp.index] at hok ⊢
  have hni : ¬ ((h.length : Int) + 1 < k) := by omega
  unfold integrate at hok ⊢
  cases hi : c.integ with
  | ssplmmk2 =>
    have hst := hc.ssp (by rw [hi]; rfl)
    simp only [hst, if_neg hni, hreg, MultistepResult]
    refine ⟨old, hold, ?_⟩
    have hw : lmmSpan (withStep c ts te (prepare env c s).1).prevDt = spanAt k h := by
      rw [w2]; exact prep_span (by rw [hi]; rfl) hp
    rw [k2_update (fk := f old.t old.q), hw, ← hd, w4, w8]
    rw [hw, ← hd]
    exact div_ne_zero (hsp (by rw [hi]; rfl)) hdt
  | ssplmmk3 =>
    have hst := hc.ssp (by rw [hi]; rfl)
    have hdq := hs.dq (by rw [hi])
    have hdl := hdq.1
    rw [List.length_map, List.length_append, List.length_singleton] at hdl
    have hf1 : (withStep c ts te (prepare env c s).1).prevDq.getLast? = some (f t q) := by
      rw [w1, ← back_zero, hdq.2 0 hc.pos (by simp), List.map_append]
      exact back_append_zero _ _
    have hfk : fromEnd (withStep c ts te (prepare env c s).1).prevDq k = some (f old.t old.q) := by
      rw [w1, fromEnd_eq hc.pos (by omega), hdq.2 (k - 1) (by omega) (by simp; omega), back_map, hold]
      rfl
    simp only [hst, if_neg hni, hreg, hf1, hfk, MultistepResult]
    refine ⟨old, hold, ?_⟩
    have hw : lmmSpan (withStep c ts te (prepare env c s).1).prevDt = spanAt k h := by
      rw [w2]; exact prep_span (by rw [hi]; rfl) hp
    rw [k3_update, hw, ← hd, w8]
    rw [hw, ← hd]
    exact div_ne_zero (hsp (by rw [hi]; rfl)) hdt
  | lmm al be =>
    obtain ⟨hbe, hst⟩ := hlm al be hi
    have hal := hc.alpha al be hi
    have hdq := hs.dq (by rw [hi])
    have hdl := hdq.1
    rw [List.length_map, List.length_append, List.length_singleton] at hdl
    have hrl : ¬ ((h.length : Int) + 1 < (withStep c ts te (prepare env c s).1).regs.length) := by
      rw [w5, hs.len]; omega
    simp only [if_neg hrl, hst, MultistepResult]
    rw [lmmUpdate_eq hc.pos hal hbe (by rw [w5, hs.len]) (by rw [w1, hdl]; omega)]
    have e1 : (prepare env c s).1.prevDq = ((h ++ [(⟨t, q, s'.dt⟩ : StepRec K E)]).drop (h.length + 1 - k)).map
        fun r => f r.t r.q := by
      rw [isLast_eq hdq, List.map_drop]
      congr 1
      simp
    have e2 : (prepare env c s).1.regs = ((h ++ [(⟨t, q, s'.dt⟩ : StepRec K E)]).drop (h.length + 1 - k)).map
        fun r => (r.q, r.t) := by
      have : IsLast k ((h ++ [(⟨t, q, s'.dt⟩ : StepRec K E)]).map fun r => (r.q, r.t)) (prepare env c s).1.regs :=
        ⟨by rw [hs.len, hlen]; omega, hs.regs⟩
      rw [isLast_eq this, List.map_drop]
      congr 1
      simp
    simp only [w1, w5, ← hd, e1, e2, List.map_map]
    rfl
  | _ =>
    have := hc.lmm
    simp [hi, Integrator.isLmm] at this

/-- C49, the step: once `k` solutions are available, every accepted step is the multistep formula applied to the last
accepted steps. -/
theorem C49_multistep_step {env : SharpEnv K E} {c : SharpCfg K} {f : K → E → E} {nu : K → E → K} {k : Nat}
    {P : K → Option K → SharpState K E → Prop} {s0 : SharpState K E} (hc : LmmConfig c k)
    (hlm : ∀ al be, c.integ = .lmm al be → be.length = k ∧ c.lmmSteps = k) (hlin : LinearInDt env f nu)
    (h0 : LmmFresh k s0) {h : List (StepRec K E)} {s s' : SharpState K E} (hr : LmmRun env c P s0 h s)
    (hdt : 0 < s.dt) (hnd : ¬ discards env c s) (hk : k ≤ h.length + 1) (hk2 : c.integ.isSspLmm = true → 2 ≤ k)
    {m ts : K} {te : Option K} {n : Nat} (ha : sharpAttempt env c m ts te n s = (s', .ok true)) (hdt' : s'.dt ≠ 0) :
    MultistepResult c.integ f k h ⟨s.t, env.before s.t s.q, s'.dt⟩ s'.q := by
  refine prep_result hc hlm (prepare_keeps hc hlin hdt (run_inv hc hlin h0 hr) hnd) hk (fun hi => ?_) hdt' ha
  have h2 := hk2 hi
  refine (List.sum_pos _ ?_ ?_).ne'
  · intro x hx
    obtain ⟨r, hr', rfl⟩ := List.mem_map.1 hx
    exact run_pos hr hdt r (List.mem_of_mem_drop hr')
  · intro he
    have := congrArg List.length he
    rw [List.length_map, List.length_drop, List.length_nil] at this
    omega

/-- C49, a redone step starts from the discarded step's start and is the multistep formula on the steps before it. -/
theorem C49_redone_step {env : SharpEnv K E} {c : SharpCfg K} {f : K → E → E} {nu : K → E → K} {k : Nat}
    {P : K → Option K → SharpState K E → Prop} {s0 : SharpState K E} (hc : LmmConfig c k) (hlin : LinearInDt env f nu)
    (h0 : LmmFresh k s0) {h : List (StepRec K E)} {r : StepRec K E} {s s' : SharpState K E}
    (hr : LmmRun env c P s0 (h ++ [r]) s) (hdt : 0 < s.dt) (hd : discards env c s) (hk : k ≤ h.length + 1)
    (hk2 : 2 ≤ k) {m ts : K} {te : Option K} {n : Nat} (ha : sharpAttempt env c m ts te n s = (s', .ok true))
    (hdt' : s'.dt ≠ 0) :
    MultistepResult c.integ f k h ⟨r.t, r.q, s'.dt⟩ s'.q := by
  obtain ⟨h1, r1, e, hp⟩ := prepare_discards hc (run_inv hc hlin h0 hr) hd
  obtain ⟨rfl, e⟩ := List.append_inj' e rfl
  obtain rfl : _ = r1 := by simpa using e
  refine prep_result hc ?_ hp hk (fun hi => ?_) hdt' ha
  · intro al be hi
    rw [(discards_only hd).1] at hi
    cases hi
  · refine (List.sum_pos _ ?_ ?_).ne'
    · intro x hx
      obtain ⟨r', hr', rfl⟩ := List.mem_map.1 hx
      exact run_pos hr hdt r' (List.mem_append_left _ (List.mem_of_mem_drop hr'))
    · intro he
      have := congrArg List.length he
      rw [List.length_map, List.length_drop, List.length_nil] at this
      omega

/-! ### A history that does not hold the accepted steps -/

/-- `q' = q` with a Courant number that varies in space and time. -/
def badEnv : SharpEnv ℚ ℚ where
  dq dt t q := (dt * q, dt * (if t = 0 then 1 / 10 else if q = 5 / 2 then 3 / 10 else if q = 2 then 1 / 10 else 1))
  stage _ q := q
  before _ q := q

/-- `SSPLMMk3` with four steps and `check_lmm_cond`, with the default Courant numbers. -/
def badCfg : SharpCfg ℚ where
  integ := .ssplmmk3
  dtVariable := true
  dtMax := 100
  cflMax := 1 / 6
  cflDesired := 16 / 100
  lmmSteps := 4
  sspcoeff := 1 / 3
  checkCond := true

def badStart : SharpState ℚ ℚ where
  dt := 1
  dtOld := none
  cfl := 0
  accept := true
  numsteps := 0
  dqDt := 0
  regs := [(0, 0), (0, 0), (0, 0), (0, 0)]
  prevDq := []
  prevDt := []
  prevFE := []
  sspcoeff0 := 0
  lmmCond := true
  t := 0
  q := 1

/-- The state after the first step, accepted; its stage has Courant number `1 * 1/10`. -/
def badOne : SharpState ℚ ℚ := (sharpAttempt badEnv badCfg (1 / 10) 0 (some 10) 0 badStart).1

/-- The state after the second iteration: the check discards the first step, the new attempt (step 96/100, Courant
number of its stage 96/100) is rejected. -/
def badTwo : SharpState ℚ ℚ := (sharpAttempt badEnv badCfg (96 / 100) 0 (some 10) 1 badOne).1

/-- C49 fails for `SSPLMMk3` with `check_lmm_cond` when the repeated step is itself rejected: the loop then restores the
discarded solution and time, but the saved lists, the right-hand side and the step count are those of the solution
before it. The next step starts from `q = 5/2` at `t = 1` with the right-hand side at `q = 1`, `t = 0`. -/
theorem C49_violated :
    LmmConfig badCfg 4 ∧ LmmFresh 4 badStart ∧
    LinearInDt badEnv (fun _ q => q)
      (fun t q => if t = 0 then 1 / 10 else if q = 5 / 2 then 3 / 10 else if q = 2 then 1 / 10 else 1) ∧
    ((sharpAttempt badEnv badCfg (1 / 10) 0 (some 10) 0 badStart).2 matches .ok true) = true ∧
    ((sharpAttempt badEnv badCfg (96 / 100) 0 (some 10) 1 badOne).2 matches .ok false) = true ∧
    let p := (prepare badEnv badCfg badTwo).1
    p.q = 5 / 2 ∧ p.t = 1 ∧ p.regs.getLast? = some (1, 0) ∧ p.dqDt = 1 ∧ p.numsteps = 0 := by
  refine ⟨⟨rfl, by decide, fun _ => rfl, fun _ _ h => by cases h⟩, ⟨rfl, rfl, rfl, rfl, rfl, rfl⟩, ⟨?_, ?_⟩, ?_⟩
  · intro t q
    dsimp only
    split
    · norm_num
    · split
      · norm_num
      · split <;> norm_num
  · intro dt t q _
    rfl
  · decide +kernel

/-- The hypotheses of the theorems are met: a run of three iterations of `SSPLMMk2` on `q' = -q`, with one rejected
step. -/
def runEnv : SharpEnv ℚ ℚ where
  dq dt _ q := (dt * (-q), dt * 1)
  stage _ q := q
  before _ q := q

def runCfg : SharpCfg ℚ where
  integ := .ssplmmk2
  dtVariable := true
  dtMax := 100
  cflMax := 1 / 4
  cflDesired := 1 / 5
  lmmSteps := 3
  sspcoeff := 1 / 2
  checkCond := false

def runStart : SharpState ℚ ℚ := { badStart with dt := 1 / 10, regs := [(0, 0), (0, 0), (0, 0)] }

def run1 := (sharpAttempt runEnv runCfg (6 / 10) 0 (some 10) 0 runStart).1
def run2 := (sharpAttempt runEnv runCfg (1 / 10) 0 (some 10) 1 run1).1
def run3 := (sharpAttempt runEnv runCfg (1 / 10) 0 (some 10) 2 run2).1
def run4 := (sharpAttempt runEnv runCfg (1 / 10) 0 (some 10) 3 run3).1

theorem not_discards_run (s : SharpState ℚ ℚ) : ¬ discards runEnv runCfg s := fun h => by
  have := (discards_only h).1
  cases this

def returned (x : Except PyErr Bool) (b : Bool) : Bool := match x with | .ok c => c == b | .error _ => false

theorem eq_of_returned {α : Type*} {x : α × Except PyErr Bool} {b : Bool} (h : returned x.2 b = true) :
    x = (x.1, .ok b) := by
  obtain ⟨x1, x2⟩ := x
  cases x2 with
  | error e => simp [returned] at h
  | ok c => simp [returned] at h; rw [h]

example : LmmConfig runCfg 3 ∧ LmmFresh 3 runStart ∧ LinearInDt runEnv (fun _ q => -q) (fun _ _ => 1) ∧
    ∃ h, h.length = 3 ∧ LmmRun runEnv runCfg (fun _ _ _ => True) runStart h run4 ∧ 0 < run4.dt ∧
      h.map (·.dt) = [1 / 15, 2 / 5, 7 / 29] ∧ h.map (·.t) = [0, 1 / 15, 7 / 15] := by
  refine ⟨⟨rfl, by decide, fun _ => rfl, fun _ _ h => by cases h⟩, ⟨rfl, rfl, rfl, rfl, rfl, rfl⟩,
    ⟨fun _ _ => by norm_num, fun _ _ _ _ => rfl⟩, ?_⟩
  have r1 : LmmRun runEnv runCfg (fun _ _ _ => True) runStart [] run1 :=
    .rejected (m := 6 / 10) (ts := 0) (te := some 10) (n := 0) .start (by decide +kernel) trivial
      (not_discards_run _) (eq_of_returned (by decide +kernel))
  have r2 := LmmRun.accepted (s' := run2) (m := 1 / 10) (ts := 0) (te := some 10) (n := 1) r1 (by decide +kernel) trivial
      (not_discards_run _) (eq_of_returned (by decide +kernel))
  have r3 := LmmRun.accepted (s' := run3) (m := 1 / 10) (ts := 0) (te := some 10) (n := 2) r2 (by decide +kernel) trivial
      (not_discards_run _) (eq_of_returned (by decide +kernel))
  have r4 := LmmRun.accepted (s' := run4) (m := 1 / 10) (ts := 0) (te := some 10) (n := 3) r3 (by decide +kernel) trivial
      (not_discards_run _) (eq_of_returned (by decide +kernel))
  exact ⟨_, rfl, r4, by decide +kernel, by decide +kernel, by decide +kernel⟩

end PyClaw
