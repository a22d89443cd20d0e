import Verif.Model.SharpTime

/-!
A SharpClaw run whose Courant numbers are computed. In `Model/SharpTime` the largest Courant number found by the stages of a step is
a parameter; here it comes from the evaluations of `self.dq` that the time integrator makes
(/repo/src/pyclaw/sharpclaw/solver.py:305-430), each of which ends with `self.cfl.update_global_max(cfl)`
(solver.py:824, 897, 982).
-/
namespace PyClaw

variable {K E : Type*} [Field K] [LinearOrder K] [AddCommGroup E] [Module K E]

/-- The argument `(state.t, state.q)` of the call of `dq` in `ssp22`, sharpclaw/solver.py:391-397. -/
def ssp22Evals (p : SharpRhs K E) (dt t : K) (dqDt q : E) : List (K × E) :=
  [(t + dt, p.stage (t + dt) (q + dt • dqDt))]

/-- The same for `SSP33`, sharpclaw/solver.py:312-323. -/
def ssp33Evals (p : SharpRhs K E) (dt t : K) (dqDt q : E) : List (K × E) :=
  let y1 := p.stage (t + dt) (q + dt • dqDt)
  let r := (3 / 4 : K) • q + (1 / 4 : K) • (y1 + p.dq dt (t + dt) y1)
  [(t + dt, y1), (t + 1 / 2 * dt, p.stage (t + 1 / 2 * dt) r)]

/-- The calls of `for i in range(4)` in `ssp104`, sharpclaw/solver.py:412-416, 422-426, from the register `s`. -/
def ssp104LoopEvals (p : SharpRhs K E) (dt : K) (s : E × K) : List (K × E) :=
  let s1 := ssp104Stage p dt s
  let s2 := ssp104Stage p dt s1
  let s3 := ssp104Stage p dt s2
  [(s.2, p.stage s.2 s.1), (s1.2, p.stage s1.2 s1.1), (s2.2, p.stage s2.2 s2.1), (s3.2, p.stage s3.2 s3.1)]

/-- The calls of `ssp104`, sharpclaw/solver.py:400-430. -/
def ssp104Evals (p : SharpRhs K E) (dt t : K) (dqDt q : E) : List (K × E) :=
  let a : E × K := (q + (1 / 6 : K) • (dt • dqDt), t + dt / 6)
  let s := ssp104Loop p dt a
  let q1 := (1 / 25 : K) • q + (36 / 100 : K) • s.1
  let b : E × K := ((15 : K) • q1 - (5 : K) • s.1, t + dt / 3)
  let e := ssp104Loop p dt b
  ssp104LoopEvals p dt a ++ ssp104LoopEvals p dt b ++ [(e.2, p.stage e.2 e.1)]

/-- The calls of the stage loop of the general method, sharpclaw/solver.py:336-345. -/
def rkEvals (p : SharpRhs K E) (a : Nat → Nat → K) (c : Nat → K) (dt t : K) (q : E) : Nat → List E → List (K × E)
  | 0, _ => []
  | n + 1, regs =>
    let i := regs.length
    let y := addRegisters (a i) (p.stage (t + dt * c i) q) regs
    (t + dt * c i, y) :: rkEvals p a c dt t q n (regs ++ [p.dq dt (t + dt * c i) y])

/-- All calls of `dq` made by the integrator part of `step`, sharpclaw/solver.py:305-388, in order. -/
def stageEvals (env : SharpEnv K E) (c : SharpCfg K) (stepIndex : Int) (s : SharpState K E) : List (K × E) :=
  let p : SharpRhs K E := ⟨fun dt t q => (env.dq dt t q).1, env.stage⟩
  match c.integ with
  | .euler => []
  | .ssp22 => ssp22Evals p s.dt s.t s.dqDt s.q
  | .ssp33 => ssp33Evals p s.dt s.t s.dqDt s.q
  | .ssp104 => ssp104Evals p s.dt s.t s.dqDt s.q
  | .rk a _ cc n => rkEvals p a cc s.dt s.t s.q (n - 1) [s.dt • s.dqDt]
  | .ssplmmk2 => if stepIndex < c.lmmSteps then ssp22Evals p s.dt s.t s.dqDt s.q else []
  | .ssplmmk3 => if stepIndex < c.lmmSteps then ssp22Evals p s.dt s.t s.dqDt s.q else []
  | .lmm _ _ => if stepIndex < s.regs.length then ssp104Evals p s.dt s.t s.dqDt s.q else []
  | .unknown => []

/-- `self.cfl` after these calls: each updates the maximum, /repo/src/pyclaw/cfl.py:29-30. -/
def stageMax (env : SharpEnv K E) (c : SharpCfg K) (stepIndex : Int) (s : SharpState K E) : K :=
  (stageEvals env c stepIndex s).foldl (fun x e => max x (env.dq s.dt e.1 e.2).2) s.cfl

/-- The largest Courant number of the step that starts in `s`: lines 286-303 of `step`, then the stages. -/
def stepCfl (env : SharpEnv K E) (c : SharpCfg K) (tstart : K) (tend : Option K) (s : SharpState K E) : K :=
  let pr := prepare env c s
  let s1 := sharpGetDt c tstart tend pr.1
  stageMax env c pr.2 { s1 with cfl := s1.dt / s1.dtOld.getD 0 * s1.cfl, dtOld := some s1.dt }

/-- The main loop, solver.py:605-657, as `sharpLoop`, with the Courant numbers of the stages. -/
def sharpLoopC (env : SharpEnv K E) (c : SharpCfg K) (tstart : K) (tend : Option K) :
    Nat → Nat → Nat → SharpRun K E → Ret (SharpRun K E) Nat
  | 0, _, k, r => (r, .ok k)
  | fuel + 1, n, k, r =>
    match sharpTry env c (stepCfl env c tstart tend r.st) tstart tend n r with
    | (r', .error e) => (r', .error e)
    | (r', .ok acc) =>
      let k' := if acc then k + 1 else k
      match tend with
      | none => (r', .ok k')
      | some te => if te ≤ r'.st.t then (r', .ok k') else sharpLoopC env c tstart tend fuel (n + 1) k' r'

/-- `evolve_to_time(solution, tend)`, solver.py:554-666, as `sharpEvolveToTime`. -/
def sharpEvolveC [FloorRing K] (env : SharpEnv K E) (c : SharpCfg K) (tend : Option K) (r : SharpRun K E) : Ret (SharpRun K E) Unit :=
  let tstart := r.st.t
  let f := if c.dtVariable then (r, .ok ()) else sharpFixedSetup tstart tend r
  match f.2 with
  | .error e => (f.1, .error e)
  | .ok () =>
    if c.dtVariable = true ∧ c.cflMax < c.cflDesired then
      (f.1, .error (.exception "Variable time-stepping and desired CFL > maximum CFL"))
    else
      let r2 := match tend with
        | none => f.1
        | some te => if te ≤ tstart then { f.1 with maxSteps := 0 } else f.1
      match sharpLoopC env c tstart tend r2.maxSteps.toNat 0 0 r2 with
      | (r', .error e) => (r', .error e)
      | (r', .ok k) =>
        match tend with
        | none => (r', .ok ())
        | some te =>
          if c.dtVariable = true ∧ r'.st.t < te ∧ (k : Int) = r'.maxSteps then
            (r', .error (.exception "Maximum number of timesteps have been taken"))
          else (r', .ok ())

/-- One call of a session: the target time and the value to which the user sets `max_steps` before it. -/
structure SharpGoal (K : Type*) where
  tend : Option K
  maxSteps : Int

/-- A session: calls of `evolve_to_time` on the same solution with the results of the calls (an exception or not); exceptions are caught
by the user. -/
def sharpSessionC [FloorRing K] (env : SharpEnv K E) (c : SharpCfg K) : List (SharpGoal K) → SharpRun K E → SharpRun K E × List (Except PyErr Unit)
  | [], r => (r, [])
  | k :: ks, r =>
    let a := sharpEvolveC env c k.tend { r with maxSteps := k.maxSteps }
    let b := sharpSessionC env c ks a.1
    (b.1, a.2 :: b.2)

end PyClaw
