import Verif.Model.Basic
import Mathlib.Algebra.Order.Field.Basic
import Mathlib.Algebra.Order.Floor.Ring

/-!
Model of `Solver.accept_reject_step`, `get_dt_new`, `get_dt`, `evolve_to_time`,
/repo/src/pyclaw/solver.py:524-666, with `ClawSolver.step` (classic/solver.py:96-146) around an arbitrary
numerical step.

Every floating-point operation is followed by the rounding function `rnd` of the environment (`id` for
exact arithmetic); comparisons are exact. NaN and infinities occur only as the initial values of the
status entries (`none`).

Simplifications. `setup` is not modelled (the solver is set up). `before_step`, the numerical step and the
gauge output are arbitrary functions of time, step size and data; they do not change the solver's
attributes other than the Courant number. Logging is dropped.
-/
namespace PyClaw

variable {K : Type*}

/-- Attributes of the solver that the user sets and the time loop reads and changes. -/
structure StepSettings (K : Type*) where
  dtVariable : Bool
  dt : K
  dtOld : Option K
  dtMax : K
  cflMax : K
  cflDesired : K
  maxSteps : Int
  /-- the cached value of the `CFL` object, cfl.py -/
  cfl : K

/-- `solver.status`, solver.py:202-205; `none` is the initial infinity. -/
structure StepStatus (K : Type*) where
  cflmax : Option K := none
  dtmin : Option K := none
  dtmax : Option K := none
  numsteps : Nat := 0

/-- The solution: its time, the array `q`, and everything else a step may change (aux, gauge data,
user data). -/
structure StepSolution (K Q W : Type*) where
  t : K
  q : Q
  rest : W

/-- The parts of a run that are not modelled: rounding, `before_step`, the numerical step with source
terms (given the time and `dt`, it changes the data and either yields a Courant number or raises), and
the gauge output after an accepted step (which may raise). -/
structure StepEnv (K Q W : Type*) where
  rnd : K → K
  before : K → Q × W → Q × W
  numeric : K → K → Q × W → (Q × W) × Except PyErr K
  gauges : K → Q × W → W × Option PyErr

/-- How an attempted step ended. -/
inductive Outcome where
  /-- accepted -/
  | accepted
  /-- accepted, then the gauge output raised -/
  | gaugeFailed
  /-- rejected; `q` and `t` restored -/
  | rejected
  /-- rejected with fixed `dt`: "CFL too large, giving up!" -/
  | gaveUp
  /-- the numerical step raised -/
  | raised
  deriving DecidableEq, Repr

/-- One attempted step, recorded for stating properties (not part of the program). -/
structure Attempt (K : Type*) where
  tBefore : K
  dt : K
  cfl : K
  outcome : Outcome
  tAfter : K

/-- Solver and solution during a run, with the record of attempts. -/
structure StepState (K Q W : Type*) where
  set : StepSettings K
  status : StepStatus K
  sol : StepSolution K Q W
  log : List (Attempt K)

variable {Q W : Type*} [Field K] [LinearOrder K]

/-- `max(x, m)` where `m` may be `-inf`. -/
def maxOpt (x : K) (m : Option K) : Option K :=
  match m with
  | none => some x
  | some y => some (max x y)

/-- `min(x, m)` where `m` may be `inf`. -/
def minOpt (x : K) (m : Option K) : Option K :=
  match m with
  | none => some x
  | some y => some (min x y)

/-- `get_dt_new`, solver.py:531-533. -/
def getDtNew (rnd : K → K) (s : StepSettings K) : K :=
  min s.dtMax (rnd (rnd (s.dt * s.cflDesired) / s.cfl))

/-- The first half of `get_dt`, solver.py:536-545: choice by the Courant number. -/
def chooseDt (rnd : K → K) (s : StepSettings K) (st : StepStatus K) : StepSettings K × StepStatus K :=
  if s.dtVariable = true ∧ s.dtOld.isSome = true then
    if 0 < s.cfl then
      let dt := getDtNew rnd s
      ({ s with dt := dt }, { st with dtmin := minOpt dt st.dtmin, dtmax := maxOpt dt st.dtmax })
    else ({ s with dt := s.dtMax }, st)
  else ({ s with dtOld := some s.dt }, st)

/-- The second half of `get_dt`, solver.py:548-552: adjustment to hit `tend`. The constant `1.e-14` is
the parameter `ε` so that its floating-point value can be used. -/
def clipDt (rnd : K → K) (ε : K) (t tstart tend dt : K) : K :=
  let dt1 := if tend < rnd (t + dt) ∧ tstart < tend then rnd (tend - t) else dt
  if rnd (rnd (tend - t) - dt1) < rnd (ε * t) then rnd (tend - t) else dt1

/-- The literals `1.e-14`, `1e-10` and `1e-5` of solver.py:551, 590, 592. -/
def landEps : K := 1 / 10 ^ 14

/-- `get_dt(t, tstart, tend, take_one_step)`, solver.py:535-552; `tend = none` means `take_one_step`. -/
def getDt (rnd : K → K) (t tstart : K) (tend : Option K) (s : StepSettings K) (st : StepStatus K) :
    StepSettings K × StepStatus K :=
  let r := chooseDt rnd s st
  match tend with
  | none => r
  | some te => ({ r.1 with dt := clipDt rnd landEps t tstart te r.1.dt }, r.2)

/-- One iteration of the main loop, solver.py:605-652: back up, `before_step`, step, accept or reject.
Returns whether the step was accepted. -/
def attempt (env : StepEnv K Q W) (tstart : K) (tend : Option K) (n : Nat) (s : StepState K Q W) :
    Ret (StepState K Q W) Bool :=
  let told := s.sol.t
  let d1 := env.before told (s.sol.q, s.sol.rest)
  -- ClawSolver.step, classic/solver.py:121-144
  let g := getDt env.rnd told tstart tend s.set s.status
  let r := env.numeric told g.1.dt d1
  match r.2 with
  | .error e =>
    ({ set := { g.1 with cfl := 0 }, status := g.2, sol := ⟨told, r.1.1, r.1.2⟩,
       log := s.log ++ [⟨told, g.1.dt, 0, .raised, told⟩] }, .error e)
  | .ok cfl =>
    let set' := { g.1 with cfl := cfl }
    if cfl ≤ s.set.cflMax then
      let status' := { g.2 with cflmax := maxOpt cfl g.2.cflmax }
      let t' := if s.set.dtVariable then env.rnd (told + g.1.dt)
        else env.rnd (tstart + env.rnd ((n + 1 : Nat) * g.1.dt))
      let w := env.gauges t' r.1
      match w.2 with
      | some e =>
        ({ set := set', status := status', sol := ⟨t', r.1.1, w.1⟩,
           log := s.log ++ [⟨told, g.1.dt, cfl, .gaugeFailed, t'⟩] }, .error e)
      | none =>
        ({ set := set', status := { status' with numsteps := status'.numsteps + 1 },
           sol := ⟨t', r.1.1, w.1⟩, log := s.log ++ [⟨told, g.1.dt, cfl, .accepted, t'⟩] }, .ok true)
    else if s.set.dtVariable then
      ({ set := set', status := g.2, sol := ⟨told, s.sol.q, r.1.2⟩,
         log := s.log ++ [⟨told, g.1.dt, cfl, .rejected, told⟩] }, .ok false)
    else
      ({ set := set', status := { g.2 with cflmax := maxOpt cfl g.2.cflmax },
         sol := ⟨told, r.1.1, r.1.2⟩,
         log := s.log ++ [⟨told, g.1.dt, cfl, .gaveUp, told⟩] },
        .error (.exception "CFL too large, giving up!"))

/-- The main loop `for n in range(self.max_steps)`, solver.py:605-657, from iteration `n` with `fuel`
iterations left; returns the number of accepted steps (`num_steps`). -/
def evolveLoop (env : StepEnv K Q W) (tstart : K) (tend : Option K) :
    Nat → Nat → Nat → StepState K Q W → Ret (StepState K Q W) Nat
  | 0, _, k, s => (s, .ok k)
  | fuel + 1, n, k, s =>
    match attempt env tstart tend n s with
    | (s', .error e) => (s', .error e)
    | (s', .ok acc) =>
      let k' := if acc then k + 1 else k
      match tend with
      | none => (s', .ok k')
      | some te => if te ≤ s'.sol.t then (s', .ok k') else evolveLoop env tstart tend fuel (n + 1) k' s'

/-- Python's `int(x)`: truncation towards zero. -/
def pyInt [FloorRing K] (x : K) : Int := if 0 ≤ x then ⌊x⌋ else ⌈x⌉

/-- The set-up of a fixed-dt run, solver.py:586-594: the new `max_steps`, or the exception. -/
def fixedSetup [FloorRing K] (rnd : K → K) (tstart : K) (tend : Option K) (s : StepSettings K) :
    Except PyErr (StepSettings K) × StepSettings K :=
  match tend with
  | none => (.ok { s with maxSteps := 1 }, { s with maxSteps := 1 })
  | some te =>
    if s.dt = 0 then (.error .zeroDivision, s)
    else
      let m := pyInt (rnd (rnd (rnd (te - tstart) + 1 / 10 ^ 10) / s.dt))
      let s' := { s with maxSteps := m }
      if rnd (1 / 10 ^ 5 * rnd (te - tstart)) < |rnd (rnd (m * s.dt) - rnd (te - tstart))| then
        (.error (.exception "dt does not divide (tend-tstart) and dt is fixed!"), s')
      else (.ok s', s')

/-- `evolve_to_time(solution, tend)`, solver.py:554-666. -/
def evolveToTime [FloorRing K] (env : StepEnv K Q W) (tend : Option K) (s : StepState K Q W) :
    Ret (StepState K Q W) Unit :=
  let tstart := s.sol.t
  let f := if s.set.dtVariable then (.ok s.set, s.set) else fixedSetup env.rnd tstart tend s.set
  match f.1 with
  | .error e => ({ s with set := f.2 }, .error e)
  | .ok set1 =>
    if set1.dtVariable = true ∧ set1.cflMax < set1.cflDesired then
      ({ s with set := set1 }, .error (.exception "Variable time-stepping and desired CFL > maximum CFL"))
    else
      let set2 := match tend with
        | none => set1
        | some te => if te ≤ tstart then { set1 with maxSteps := 0 } else set1
      match evolveLoop env tstart tend set2.maxSteps.toNat 0 0 { s with set := set2 } with
      | (s', .error e) => (s', .error e)
      | (s', .ok k) =>
        match tend with
        | none => (s', .ok ())
        | some te =>
          if s'.set.dtVariable = true ∧ s'.sol.t < te ∧ (k : Int) = s'.set.maxSteps then
            (s', .error (.exception "Maximum number of timesteps have been taken"))
          else (s', .ok ())

/-- A user session: calls of `evolve_to_time` on the same solution, exceptions caught by the user, and
arbitrary changes of solver settings and of the solution in between. -/
inductive StepOp (K Q W : Type*) where
  | evolve (tend : Option K)
  | adjust (f : StepSettings K → StepSettings K)
  | assign (f : StepSolution K Q W → StepSolution K Q W)

/-- Run a session. -/
def runSteps [FloorRing K] (env : StepEnv K Q W) : List (StepOp K Q W) → StepState K Q W → StepState K Q W
  | [], s => s
  | .evolve te :: ops, s => runSteps env ops (evolveToTime env te s).1
  | .adjust f :: ops, s => runSteps env ops { s with set := f s.set }
  | .assign f :: ops, s => runSteps env ops { s with sol := f s.sol }

end PyClaw
