import Verif.Props.Evolve
import Verif.Spec.Status

set_option linter.unusedSectionVars false

/-!
# The smallest and the largest time step (C109)
-/
namespace PyClaw
open Spec

variable {K Q W : Type*} [Field K] [LinearOrder K] [FloorRing K]

theorem isMinimum_snoc (m : Option K) (l : List K) (x : K) (h : IsMinimum m l) :
    IsMinimum (minOpt x m) (l ++ [x]) := by
  cases m with
  | none => simp only [IsMinimum] at h; subst h; simp [IsMinimum, minOpt]
  | some y =>
    obtain ⟨h1, h2⟩ := h
    refine ⟨?_, ?_⟩
    · rcases le_total x y with hxy | hxy
      · rw [min_eq_left hxy]; simp
      · rw [min_eq_right hxy]; simp [h1]
    · intro z hz
      rcases List.mem_append.mp hz with hz | hz
      · exact (min_le_right _ _).trans (h2 z hz)
      · rw [List.mem_singleton.mp hz]; exact min_le_left _ _

theorem attempt_dtmin (env : StepEnv K Q W) (ts : K) (te : Option K) (n : Nat) (s : StepState K Q W) :
    (attempt env ts te n s).1.status.dtmin = (chooseDt env.rnd s.set s.status).2.dtmin ∧
      (attempt env ts te n s).1.status.dtmax = (chooseDt env.rnd s.set s.status).2.dtmax := by
  have e : (getDt env.rnd s.sol.t ts te s.set s.status).2 = (chooseDt env.rnd s.set s.status).2 := by
    unfold getDt; cases te <;> rfl
  unfold attempt
  simp only [e]
  cases (env.numeric s.sol.t (getDt env.rnd s.sol.t ts te s.set s.status).1.dt (env.before s.sol.t (s.sol.q, s.sol.rest))).2 with
  | error => exact ⟨rfl, rfl⟩
  | ok cfl =>
    dsimp only
    split_ifs
    · split <;> exact ⟨rfl, rfl⟩
    · split <;> exact ⟨rfl, rfl⟩
    · exact ⟨rfl, rfl⟩
    · exact ⟨rfl, rfl⟩

/-- What holds all through a session of calls with variable steps and unchanged settings. -/
structure StatusInv (env : StepEnv K Q W) (goals : List (Option K)) (dtMax desired : K) (s : StepState K Q W) : Prop where
  var : s.set.dtVariable = true
  max : s.set.dtMax = dtMax
  des : s.set.cflDesired = desired
  fresh : s.log = [] → s.set.dtOld = none
  last : ∀ a, s.log.getLast? = some a → s.set.dtOld.isSome = true ∧ s.set.dt = a.dt ∧ s.set.cfl = a.cfl
  low : IsMinimum s.status.dtmin (proposals env.rnd dtMax desired s.log)
  high : IsMaximum s.status.dtmax (proposals env.rnd dtMax desired s.log)
  steps : ∀ l₁ a b l₂, s.log = l₁ ++ a :: b :: l₂ → 0 < a.cfl →
    b.dt = proposal env.rnd dtMax desired a ∨ ∃ T, some T ∈ goals ∧ b.dt = env.rnd (T - b.tBefore)

theorem proposals_snoc (rnd : K → K) (dtMax desired : K) (l : List (Attempt K)) (a b : Attempt K) :
    proposals rnd dtMax desired (l ++ [a] ++ [b]) =
      proposals rnd dtMax desired (l ++ [a]) ++ if 0 < a.cfl then [proposal rnd dtMax desired a] else [] := by
  unfold proposals
  rw [List.dropLast_concat, List.dropLast_concat, List.filter_append, List.map_append]
  by_cases h : 0 < a.cfl <;> simp [h]

theorem clipDt_cases (rnd : K → K) (ε t ts te dt : K) : clipDt rnd ε t ts te dt = dt ∨ clipDt rnd ε t ts te dt = rnd (te - t) := by
  unfold clipDt
  dsimp only
  split_ifs <;> simp

theorem status_attempt (env : StepEnv K Q W) (goals : List (Option K)) (dtMax desired : K) (ts : K) (te : Option K) (hte : te ∈ goals) (n : Nat)
    (s : StepState K Q W) (a : Attempt K) (h : StatusInv env goals dtMax desired s) (ha : AttemptFacts env ts te n s (attempt env ts te n s) a) :
    StatusInv env goals dtMax desired (attempt env ts te n s).1 := by
  obtain ⟨f1, f2, f3, f4, f5, f6, f7, f8⟩ := getDt_frame env.rnd s.sol.t ts te s.set s.status
  obtain ⟨e1, e2⟩ := attempt_dtmin env ts te n s
  have hdt : (attempt env ts te n s).1.set.dt = a.dt := by rw [ha.set, ha.dt]
  rcases List.eq_nil_or_concat s.log with hl | ⟨l, b, hl⟩
  · have hold := h.fresh hl
    have c : chooseDt env.rnd s.set s.status = ({ s.set with dtOld := some s.set.dt }, s.status) := by
      unfold chooseDt; simp [hold]
    rw [c] at e1 e2
    have hlow := h.low
    have hhigh := h.high
    rw [hl] at hlow hhigh
    refine ⟨by rw [ha.set]; exact f1.trans h.var, by rw [ha.set]; exact f2.trans h.max, by rw [ha.set]; exact f4.trans h.des, ?_, ?_, ?_, ?_, ?_⟩
    · rw [ha.log]; simp
    · intro x hx
      rw [ha.log, hl] at hx
      simp only [List.nil_append, List.getLast?_singleton, Option.some.injEq] at hx
      subst hx
      exact ⟨by rw [ha.set]; exact f8, hdt, by rw [ha.set]⟩
    · rw [e1, ha.log, hl]; exact hlow
    · rw [e2, ha.log, hl]; exact hhigh
    · intro l₁ x y l₂ hxy
      rw [ha.log, hl] at hxy
      have := congrArg List.length hxy
      simp only [List.nil_append, List.length_append, List.length_cons, List.length_nil] at this
      omega
  · rw [List.concat_eq_append] at hl
    obtain ⟨k1, k2, k3⟩ := h.last b (by rw [hl]; simp)
    have hp : ∀ d, min s.set.dtMax (env.rnd (env.rnd (s.set.dt * s.set.cflDesired) / s.set.cfl)) = d → proposal env.rnd dtMax desired b = d := by
      intro d hd
      rw [← hd, k2, k3, h.max, h.des]
      rfl
    have hlow := h.low
    have hhigh := h.high
    rw [hl] at hlow hhigh
    have key : IsMinimum (chooseDt env.rnd s.set s.status).2.dtmin
          (proposals env.rnd dtMax desired (l ++ [b]) ++ if 0 < b.cfl then [proposal env.rnd dtMax desired b] else []) ∧
        IsMaximum (chooseDt env.rnd s.set s.status).2.dtmax
          (proposals env.rnd dtMax desired (l ++ [b]) ++ if 0 < b.cfl then [proposal env.rnd dtMax desired b] else []) ∧
        (0 < b.cfl → (chooseDt env.rnd s.set s.status).1.dt = proposal env.rnd dtMax desired b) := by
      unfold chooseDt
      rw [if_pos ⟨h.var, k1⟩, k3]
      by_cases hb : 0 < b.cfl
      · simp only [if_pos hb]
        have e := hp _ rfl
        have e' : getDtNew env.rnd s.set = proposal env.rnd dtMax desired b := e.symm
        rw [e']
        exact ⟨isMinimum_snoc _ _ _ hlow, isMaximum_snoc _ _ _ hhigh, fun _ => rfl⟩
      · simp only [if_neg hb, List.append_nil]
        exact ⟨hlow, hhigh, fun h => absurd h (by simp_all)⟩
    refine ⟨by rw [ha.set]; exact f1.trans h.var, by rw [ha.set]; exact f2.trans h.max, by rw [ha.set]; exact f4.trans h.des, ?_, ?_, ?_, ?_, ?_⟩
    · rw [ha.log]; simp
    · intro x hx
      rw [ha.log] at hx
      simp only [List.getLast?_append, List.getLast?_singleton, Option.some_or, Option.some.injEq] at hx
      subst hx
      exact ⟨by rw [ha.set]; exact f8, hdt, by rw [ha.set]⟩
    · rw [e1, ha.log, hl, proposals_snoc]; exact key.1
    · rw [e2, ha.log, hl, proposals_snoc]; exact key.2.1
    · intro l₁ x y l₂ hxy hx
      rw [ha.log] at hxy
      rcases List.eq_nil_or_concat l₂ with hn | ⟨l₃, z, hz⟩
      · subst hn
        have e : s.log ++ [a] = (l₁ ++ [x]) ++ [y] := by rw [hxy]; simp
        obtain ⟨g1, g2⟩ := List.append_inj' e rfl
        simp only [List.cons.injEq, and_true] at g2
        subst g2
        rw [hl] at g1
        obtain ⟨-, g3⟩ := List.append_inj' g1 rfl
        simp only [List.cons.injEq, and_true] at g3
        subst g3
        have kd := key.2.2 hx
        rw [ha.dt, ha.tBefore, ← kd]
        cases te with
        | none => exact Or.inl rfl
        | some T =>
          rcases clipDt_cases env.rnd landEps s.sol.t ts T (chooseDt env.rnd s.set s.status).1.dt with hc | hc
          · exact Or.inl hc
          · exact Or.inr ⟨T, hte, hc⟩
      · rw [hz, List.concat_eq_append] at hxy
        have e : s.log ++ [a] = (l₁ ++ x :: y :: l₃) ++ [z] := by rw [hxy]; simp
        exact h.steps l₁ x y l₃ (List.append_inj' e rfl).1 hx

theorem status_session (env : StepEnv K Q W) (all goals : List (Option K)) (hsub : ∀ g ∈ goals, g ∈ all) (dtMax desired : K) (s : StepState K Q W)
    (h : StatusInv env all dtMax desired s) : StatusInv env all dtMax desired (runSteps env (callsTo goals) s) := by
  induction goals generalizing s with
  | nil => exact h
  | cons g goals ih =>
    refine ih (fun x hx => hsub x (List.mem_cons_of_mem _ hx)) _ ?_
    exact evolveToTime_invariant env g s (StatusInv env all dtMax desired) h
      (fun m h => ⟨h.var, h.max, h.des, h.fresh, h.last, h.low, h.high, h.steps⟩)
      (fun n s' a h' _ ha => status_attempt env all dtMax desired _ g (hsub g (by simp)) n s' a h' ha)

theorem status_start (env : StepEnv K Q W) (goals : List (Option K)) (s : StepState K Q W) (hv : s.set.dtVariable = true)
    (hold : s.set.dtOld = none) (hl : s.log = []) (h0 : s.status.dtmin = none) (h1 : s.status.dtmax = none) :
    StatusInv env goals s.set.dtMax s.set.cflDesired s := by
  refine ⟨hv, rfl, rfl, fun _ => hold, ?_, ?_, ?_, ?_⟩
  · rw [hl]; simp
  · rw [h0, hl]; simp [IsMinimum, proposals]
  · rw [h1, hl]; simp [IsMaximum, proposals]
  · rw [hl]; simp

/-- C109, what the two numbers are: with variable steps, after any sequence of calls of a new solver, `status['dtmin']` and
`status['dtmax']` are the smallest and the largest of the steps that the Courant numbers of the attempted steps, accepted or not,
suggested for the attempts after them. -/
theorem C109_recorded (env : StepEnv K Q W) (goals : List (Option K)) (s : StepState K Q W) (hv : s.set.dtVariable = true)
    (hold : s.set.dtOld = none) (hl : s.log = []) (h0 : s.status.dtmin = none) (h1 : s.status.dtmax = none) :
    let s' := runSteps env (callsTo goals) s
    IsMinimum s'.status.dtmin (proposals env.rnd s.set.dtMax s.set.cflDesired s'.log) ∧
      IsMaximum s'.status.dtmax (proposals env.rnd s.set.dtMax s.set.cflDesired s'.log) := by
  have h := status_session env goals goals (fun _ h => h) _ _ s (status_start env goals s hv hold hl h0 h1)
  exact ⟨h.low, h.high⟩

/-- C109 (partial: variable steps; every step but the first, and not the steps after a Courant number that is not positive, nor the steps
adjusted to end at the final time): all attempted steps are between `status['dtmin']` and `status['dtmax']`. -/
theorem C109_between_partial (env : StepEnv K Q W) (goals : List (Option K)) (s : StepState K Q W) (hv : s.set.dtVariable = true)
    (hold : s.set.dtOld = none) (hl : s.log = []) (h0 : s.status.dtmin = none) (h1 : s.status.dtmax = none)
    (earlier later : List (Attempt K)) (a b : Attempt K)
    (hlog : (runSteps env (callsTo goals) s).log = earlier ++ a :: b :: later) (ha : 0 < a.cfl)
    (hb : ∀ T, some T ∈ goals → b.dt ≠ env.rnd (T - b.tBefore)) :
    BetweenTimes (runSteps env (callsTo goals) s).status.dtmin (runSteps env (callsTo goals) s).status.dtmax b.dt := by
  have h := status_session env goals goals (fun _ h => h) _ _ s (status_start env goals s hv hold hl h0 h1)
  have hd : b.dt = proposal env.rnd s.set.dtMax s.set.cflDesired a := by
    rcases h.steps _ _ _ _ hlog ha with hd | ⟨T, hT, hd⟩
    · exact hd
    · exact absurd hd (hb T hT)
  have hm : b.dt ∈ proposals env.rnd s.set.dtMax s.set.cflDesired (runSteps env (callsTo goals) s).log := by
    rw [hd, hlog]
    unfold proposals
    refine List.mem_map_of_mem (List.mem_filter.mpr ⟨?_, by simpa using ha⟩)
    rw [List.dropLast_append_of_ne_nil (by simp)]
    simp
  have hlow := h.low
  have hhigh := h.high
  constructor
  · cases e : (runSteps env (callsTo goals) s).status.dtmin with
    | none => rw [e] at hlow; simp only [IsMinimum] at hlow; rw [hlow] at hm; cases hm
    | some y => rw [e] at hlow; exact ⟨y, rfl, hlow.2 _ hm⟩
  · cases e : (runSteps env (callsTo goals) s).status.dtmax with
    | none => rw [e] at hhigh; simp only [IsMaximum] at hhigh; rw [hhigh] at hm; cases hm
    | some y => rw [e] at hhigh; exact ⟨y, rfl, hhigh.2 _ hm⟩

/-- With fixed steps the two numbers stay what they were. -/
theorem C109_fixed_partial (env : StepEnv K Q W) (goals : List (Option K)) (s : StepState K Q W) (hv : s.set.dtVariable = false) :
    (runSteps env (callsTo goals) s).status.dtmin = s.status.dtmin ∧ (runSteps env (callsTo goals) s).status.dtmax = s.status.dtmax := by
  induction goals generalizing s with
  | nil => exact ⟨rfl, rfl⟩
  | cons g goals ih =>
    have key := evolveToTime_invariant env g s
      (fun s' => s'.set.dtVariable = false ∧ s'.status.dtmin = s.status.dtmin ∧ s'.status.dtmax = s.status.dtmax) ⟨hv, rfl, rfl⟩
      (fun m h => h) (by
        rintro n s' a ⟨i1, i2, i3⟩ _ ha
        obtain ⟨f1, -⟩ := getDt_frame env.rnd s'.sol.t s.sol.t g s'.set s'.status
        obtain ⟨e1, e2⟩ := attempt_dtmin env s.sol.t g n s'
        have c : (chooseDt env.rnd s'.set s'.status).2 = s'.status := by
          unfold chooseDt; simp [i1]
        rw [c] at e1 e2
        exact ⟨by rw [ha.set]; exact f1.trans i1, e1.trans i2, e2.trans i3⟩)
    obtain ⟨k1, k2⟩ := ih (evolveToTime env g s).1 key.1
    exact ⟨k1.trans key.2.1, k2.trans key.2.2⟩

/-! ### Concrete runs -/

/-- Steps whose Courant number is the step size. -/
def exPace : StepEnv ℚ Unit Unit := ⟨id, fun _ d => d, fun _ dt d => (d, .ok dt), fun _ _ => ((), none)⟩

def exPaceStart (dtVariable : Bool) (dt : ℚ) : StepState ℚ Unit Unit :=
  ⟨⟨dtVariable, dt, none, 100, 1, 9 / 10, 1000, 0⟩, {}, ⟨0, (), ()⟩, []⟩

/-- The steps taken, the smallest and the largest step in `status`. -/
def taken (s : StepState ℚ Unit Unit) : List ℚ := (s.log.filter fun a => a.outcome = .accepted).map (·.dt)

/-- Non-vacuity of `C109_recorded` and `C109_between_partial`, and **C109 fails**: a run to time 1 from the step 1/10 takes the steps 1/10 and
9/10. The first one is not recorded, so the smallest step in `status` is 9/10. -/
theorem C109_first_step_violated :
    let s := runSteps exPace (callsTo [some 1]) (exPaceStart true (1 / 10))
    taken s = [1 / 10, 9 / 10] ∧ s.status.dtmin = some (9 / 10) ∧ s.status.dtmax = some (9 / 10) := by decide +kernel

/-- **C109 fails** for the step that ends at the final time: it is shortened after it was recorded. -/
theorem C109_last_step_violated :
    let s := runSteps exPace (callsTo [some 2]) (exPaceStart true (9 / 10))
    taken s = [9 / 10, 9 / 10, 1 / 5] ∧ s.status.dtmin = some (9 / 10) ∧ s.status.dtmax = some (9 / 10) := by decide +kernel

/-- Courant numbers that grow fast. -/
def exShock : StepEnv ℚ Unit Unit := ⟨id, fun _ d => d, fun t dt d => (d, .ok (if t < 1 / 2 then dt / 9 else 3 * dt)), fun _ _ => ((), none)⟩

/-- **C109 fails** for rejected steps: they are recorded too. -/
theorem C109_rejected_violated :
    let s := runSteps exShock (callsTo [none, none, none]) (exPaceStart true (1 / 2))
    taken s = [1 / 2, 3 / 10] ∧ s.status.dtmax = some (81 / 10) := by decide +kernel

/-- **C109 fails** for fixed steps: nothing is recorded. -/
theorem C109_fixed_violated :
    let s := runSteps exPace (callsTo [some 1]) (exPaceStart false (1 / 2))
    taken s = [1 / 2, 1 / 2] ∧ s.status.dtmin = none ∧ s.status.dtmax = none := by decide +kernel

/-- A longer run that meets the hypotheses: five steps, of which the second to the fourth are between the two numbers. -/
example : let s := runSteps exPace (callsTo [some 1, some 3]) (exPaceStart true (1 / 10))
    taken s = [1 / 10, 9 / 10, 9 / 10, 9 / 10, 1 / 5] := by decide +kernel

end PyClaw
