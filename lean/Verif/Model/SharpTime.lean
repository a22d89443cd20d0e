import Verif.Model.SharpEvolve

/-!
Model of a SharpClaw run: `Solver.evolve_to_time`, /repo/src/pyclaw/solver.py:554-666, around the SharpClaw time
step (`sharpAttempt`).

Simplifications. As in `Model/SharpEvolve`. In addition the solver is set up, and the largest Courant number
found by the stages of the `n`th step of a call is `σ n` for an arbitrary sequence `σ`.
-/
namespace PyClaw

variable {K E : Type*}

/-- One attempted step, recorded for stating properties (not part of the program). `target` is the `tend` of the
call. -/
structure SharpTry (K E : Type*) where
  target : Option K
  tBefore : K
  qBefore : E
  dt : K
  cfl : K
  stageCfl : K
  outcome : Outcome
  tAfter : K
  qAfter : E
  deriving DecidableEq

/-- Solver and solution during a run: `max_steps` and `status['cflmax']` in addition to `SharpState`, and the
record of attempts. -/
structure SharpRun (K E : Type*) where
  st : SharpState K E
  maxSteps : Int
  cflmax : Option K
  log : List (SharpTry K E)

variable [Field K] [LinearOrder K] [AddCommGroup E] [Module K E]

/-- `'CFL too large, giving up!'`, solver.py:648. -/
def PyErr.isGiveUp : PyErr → Bool
  | .exception m => m == "CFL too large, giving up!"
  | _ => false

/-- One iteration of the main loop with the bookkeeping of `status['cflmax']` (solver.py:625, 645-647) and the
record. -/
def sharpTry (env : SharpEnv K E) (c : SharpCfg K) (stageCfl : K) (tstart : K) (tend : Option K) (n : Nat)
    (r : SharpRun K E) : Ret (SharpRun K E) Bool :=
  let a := sharpAttempt env c stageCfl tstart tend n r.st
  let rec' (o : Outcome) : SharpTry K E :=
    ⟨tend, r.st.t, r.st.q, a.1.dt, a.1.cfl, stageCfl, o, a.1.t, a.1.q⟩
  match a.2 with
  | .error e =>
    if e.isGiveUp then
      ({ r with st := a.1, cflmax := maxOpt a.1.cfl r.cflmax, log := r.log ++ [rec' .gaveUp] }, .error e)
    else ({ r with st := a.1, log := r.log ++ [rec' .raised] }, .error e)
  | .ok true =>
    ({ r with st := a.1, cflmax := maxOpt a.1.cfl r.cflmax, log := r.log ++ [rec' .accepted] }, .ok true)
  | .ok false => ({ r with st := a.1, log := r.log ++ [rec' .rejected] }, .ok false)

/-- The main loop, solver.py:605-657, from iteration `n` with `fuel` iterations left; returns the number of
accepted steps. -/
def sharpLoop (env : SharpEnv K E) (c : SharpCfg K) (σ : Nat → K) (tstart : K) (tend : Option K) :
    Nat → Nat → Nat → SharpRun K E → Ret (SharpRun K E) Nat
  | 0, _, k, r => (r, .ok k)
  | fuel + 1, n, k, r =>
    match sharpTry env c (σ n) tstart tend n r with
    | (r', .error e) => (r', .error e)
    | (r', .ok acc) =>
      let k' := if acc then k + 1 else k
      match tend with
      | none => (r', .ok k')
      | some te => if te ≤ r'.st.t then (r', .ok k') else sharpLoop env c σ tstart tend fuel (n + 1) k' r'

/-- The set-up of a fixed-dt run, solver.py:586-594: the new `max_steps` and perhaps an exception. -/
def sharpFixedSetup [FloorRing K] (tstart : K) (tend : Option K) (r : SharpRun K E) : Ret (SharpRun K E) Unit :=
  match tend with
  | none => ({ r with maxSteps := 1 }, .ok ())
  | some te =>
    if r.st.dt = 0 then (r, .error .zeroDivision)
    else
      let m := pyInt ((te - tstart + 1 / 10 ^ 10) / r.st.dt)
      if 1 / 10 ^ 5 * (te - tstart) < |m * r.st.dt - (te - tstart)| then
        ({ r with maxSteps := m }, .error (.exception "dt does not divide (tend-tstart) and dt is fixed!"))
      else ({ r with maxSteps := m }, .ok ())

/-- `evolve_to_time(solution, tend)`, solver.py:554-666. -/
def sharpEvolveToTime [FloorRing K] (env : SharpEnv K E) (c : SharpCfg K) (σ : Nat → K) (tend : Option K)
    (r : SharpRun K E) : Ret (SharpRun K E) Unit :=
  let tstart := r.st.t
  let f := if c.dtVariable then (r, .ok ()) else sharpFixedSetup tstart tend r
  match f.2 with
  | .error e => (f.1, .error e)
  | .ok () =>
    if c.dtVariable = true ∧ c.cflMax < c.cflDesired then
      (f.1, .error (.exception "Variable time-stepping and desired CFL > maximum CFL"))
    else
      let r2 := match tend with
        | none => f.1
        | some te => if te ≤ tstart then { f.1 with maxSteps := 0 } else f.1
      match sharpLoop env c σ tstart tend r2.maxSteps.toNat 0 0 r2 with
      | (r', .error e) => (r', .error e)
      | (r', .ok k) =>
        match tend with
        | none => (r', .ok ())
        | some te =>
          if c.dtVariable = true ∧ r'.st.t < te ∧ (k : Int) = r'.maxSteps then
            (r', .error (.exception "Maximum number of timesteps have been taken"))
          else (r', .ok ())

/-- One call of a session: the target time, the stage Courant numbers that occur in it, and the value to which the
user sets `max_steps` before it. -/
structure SharpCall (K : Type*) where
  tend : Option K
  stages : Nat → K
  maxSteps : Int

/-- A session: calls of `evolve_to_time` on the same solution; exceptions are caught by the user. -/
def sharpSession [FloorRing K] (env : SharpEnv K E) (c : SharpCfg K) :
    List (SharpCall K) → SharpRun K E → SharpRun K E
  | [], r => r
  | k :: ks, r =>
    sharpSession env c ks (sharpEvolveToTime env c k.stages k.tend { r with maxSteps := k.maxSteps }).1

end PyClaw
