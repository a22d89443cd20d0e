import Verif.Model.SharpRK
import Verif.Model.Evolve
import Mathlib.Algebra.BigOperators.Group.List.Basic

/-!
Model of the SharpClaw time step with its saved history: `SharpClawSolver.step`, `update_saved_values`,
`check_3rd_ord_cond`, `accept_reject_step`, `get_dt_new`, /repo/src/pyclaw/sharpclaw/solver.py:283-516, 622-685,
inside the loop body of `Solver.evolve_to_time`, /repo/src/pyclaw/solver.py:605-652.

Simplifications. Arithmetic is exact and division by zero gives 0. Gauge output, logging and the `status`
entries other than `numsteps` are dropped. `self.dq` is a function of `solver.dt`, `state.t`, `state.q` and
returns the array and the Courant number with which it updates the `CFL` object. `before_step` is a function of
time and `q`. Registers are pairs `(q, t)`.
-/
namespace PyClaw

variable {K E : Type*}

/-- `solver.time_integrator` with its coefficients. `unknown` is any other string. -/
inductive Integrator (K : Type*) where
  | euler
  | ssp22
  | ssp33
  | ssp104
  | rk (a : Nat → Nat → K) (b c : Nat → K) (stages : Nat)
  | ssplmmk2
  | ssplmmk3
  | lmm (alpha beta : List K)
  | unknown

/-- `'LMM' in self.time_integrator`. -/
def Integrator.isLmm : Integrator K → Bool
  | .ssplmmk2 => true
  | .ssplmmk3 => true
  | .lmm _ _ => true
  | _ => false

/-- `'SSPLMM' in self.time_integrator`. -/
def Integrator.isSspLmm : Integrator K → Bool
  | .ssplmmk2 => true
  | .ssplmmk3 => true
  | _ => false

/-- The problem. -/
structure SharpEnv (K E : Type*) where
  /-- `self.dq(state)`: the array and the Courant number -/
  dq : K → K → E → E × K
  /-- `before_step` on a stage -/
  stage : K → E → E
  /-- `before_step` at the beginning of a step -/
  before : K → E → E

/-- Solver attributes that do not change during the run. -/
structure SharpCfg (K : Type*) where
  integ : Integrator K
  dtVariable : Bool
  dtMax : K
  cflMax : K
  cflDesired : K
  /-- `solver.lmm_steps` -/
  lmmSteps : Nat
  sspcoeff : K
  /-- `solver.check_lmm_cond` -/
  checkCond : Bool

/-- The changing part: solver attributes, saved values, and the solution. -/
structure SharpState (K E : Type*) where
  dt : K
  dtOld : Option K
  cfl : K
  accept : Bool
  /-- `status['numsteps']` -/
  numsteps : Int
  dqDt : E
  regs : List (E × K)
  prevDq : List E
  prevDt : List K
  prevFE : List K
  sspcoeff0 : K
  lmmCond : Bool
  t : K
  q : E

variable [Field K] [LinearOrder K] [AddCommGroup E] [Module K E]

/-- `self.dq_dt = self.dq(state) / self.dt` after `cfl.set_global_max(0.)`, sharpclaw/solver.py:291-293;
`dq` ends with `cfl.update_global_max`. -/
def evalRhs (env : SharpEnv K E) (s : SharpState K E) : SharpState K E :=
  if s.accept then
    let r := env.dq s.dt s.t s.q
    { s with cfl := max 0 r.2, dqDt := s.dt⁻¹ • r.1 }
  else s

/-- `l[1:] + l[:1]` followed by `l[-1] = x`, e.g. sharpclaw/solver.py:472-473. -/
def rollIn {α : Type*} (l : List α) (x : α) : List α := l.drop 1 ++ (l.take 1).map fun _ => x

/-- `self._registers[-1] := (q, t)`, sharpclaw/solver.py:441-442. -/
def setLast {α : Type*} (l : List α) (x : α) : List α :=
  if l = [] then [] else l.dropLast ++ [x]

/-- The literals `0.6`/`0.57` and `0.9`/`0.962`, sharpclaw/solver.py:507, 511. -/
def lmmRho (steps : Nat) : K := if steps = 4 then 6 / 10 else 57 / 100
def lmmRhoFE (steps : Nat) : K := if steps = 4 then 9 / 10 else 962 / 1000

/-- `check_3rd_ord_cond`, sharpclaw/solver.py:495-516. -/
def check3rdOrd (s : SharpState K E) (stepIndex : Int) (dtFE : K) : Bool :=
  let n := s.regs.length
  let c1 := if stepIndex ≤ n then decide (dtFE * lmmRho n < s.dt) else false
  let dtFEm1 := s.prevFE.getLast?.getD 0
  let c2 := decide (dtFE < lmmRhoFE n * dtFEm1) || decide (dtFEm1 / lmmRhoFE n < dtFE)
  !(c1 || c2)

/-- The forward Euler step size, sharpclaw/solver.py:446-447, 452-453. -/
def dtForwardEuler (c : SharpCfg K) (s : SharpState K E) : K := s.dt / s.cfl * c.cflMax / c.sspcoeff

/-- Rolling of the saved step sizes, right-hand sides and solutions, sharpclaw/solver.py:465-490. -/
def rollSaved (c : SharpCfg K) (s : SharpState K E) (stepIndex : Int) (dtFE : K) : SharpState K E :=
  let startup := decide (stepIndex ≤ s.regs.length)
  let s1 := match c.integ with
    | .ssplmmk2 =>
      if startup then { s with prevDt := s.prevDt ++ [s.dtOld.getD 0], prevFE := s.prevFE ++ [dtFE] }
      else { s with prevDt := rollIn s.prevDt (s.dtOld.getD 0), prevFE := rollIn s.prevFE dtFE }
    | .ssplmmk3 =>
      if startup then
        { s with prevDq := s.prevDq ++ [s.dqDt], prevDt := s.prevDt ++ [s.dtOld.getD 0], prevFE := s.prevFE ++ [dtFE] }
      else
        { s with prevDq := rollIn s.prevDq s.dqDt, prevDt := rollIn s.prevDt (s.dtOld.getD 0),
                 prevFE := rollIn s.prevFE dtFE }
    | .lmm _ _ =>
      if startup then { s with prevDq := s.prevDq ++ [s.dqDt] }
      else { s with prevDq := rollIn s.prevDq s.dqDt }
    | _ => s
  { s1 with regs := rollIn s.regs (s.q, s.t) }

/-- `update_saved_values`, sharpclaw/solver.py:433-492: the new state and the step index. -/
def updateSaved (c : SharpCfg K) (s : SharpState K E) (stepIndex : Int) : SharpState K E × Int :=
  if s.prevDt = [] then
    let s1 := { s with regs := setLast s.regs (s.q, s.t), prevDq := s.prevDq ++ [s.dqDt], prevDt := [0] }
    if c.integ.isSspLmm then
      ({ s1 with prevFE := s.prevFE ++ [dtForwardEuler c s], sspcoeff0 := 1 }, stepIndex)
    else (s1, stepIndex)
  else if s.accept then
    let dtFE := dtForwardEuler c s
    let s1 := match c.integ with
      | .ssplmmk3 => if c.checkCond then { s with lmmCond := check3rdOrd s stepIndex dtFE } else s
      | _ => s
    if (match c.integ with | .ssplmmk3 => c.checkCond && !s1.lmmCond | _ => false) then
      let r := s.regs.getLast?.getD (s.q, s.t)
      ({ s1 with accept := false, q := r.1, dqDt := s.prevDq.getLast?.getD s.dqDt, t := r.2,
                 numsteps := s.numsteps - 1 }, s.numsteps - 1 + 1)
    else (rollSaved c s1 stepIndex dtFE, stepIndex)
  else (s, stepIndex)

/-- Lines 290-296 of `step`, preceded by the `before_step` of the loop (solver.py:614-615): everything before
the step size is chosen. -/
def prepare (env : SharpEnv K E) (c : SharpCfg K) (s : SharpState K E) : SharpState K E × Int :=
  let s := { s with q := env.before s.t s.q }
  let stepIndex := s.numsteps + 1
  let s := evalRhs env s
  if c.integ.isLmm then updateSaved c s stepIndex else (s, stepIndex)

/-- `sum(self.prev_dt_values[1:])`. -/
def lmmSpan (prevDt : List K) : K := (prevDt.drop 1).sum

/-- The smallest entry, `min([...])`, sharpclaw/solver.py:677; of a nonempty list. -/
def listMin : List K → K
  | [] => 0
  | [x] => x
  | x :: y :: l => min x (listMin (y :: l))

/-- `get_dt_new`, sharpclaw/solver.py:653-685: the new `dt`. Called only when the Courant number is positive.
The order `p` is read off the name of the integrator. -/
def sharpDtNew (c : SharpCfg K) (s : SharpState K E) : K :=
  let stepIndex := s.numsteps + 1
  let ssp (p : K) (k3 : Bool) : K :=
    if stepIndex < s.regs.length then
      let dt := s.sspcoeff0 / c.sspcoeff * s.dt * c.cflDesired / s.cfl
      if k3 && c.checkCond && !s.lmmCond then lmmRho s.regs.length * dt else dt
    else if s.accept then
      let mu := listMin (s.prevFE.take s.regs.length)
      let H := lmmSpan s.prevDt
      H * mu / (H + (p - 1) * mu)
    else if k3 && c.checkCond then 1 / 2 * s.dt
    else s.dt
  match c.integ with
  | .ssplmmk2 => ssp 2 false
  | .ssplmmk3 => ssp 3 true
  | _ => s.dt * c.cflDesired / s.cfl

/-- `get_dt`, solver.py:535-552, with the overridden `get_dt_new`, which also sets `dt_old`
(sharpclaw/solver.py:658). -/
def sharpGetDt (c : SharpCfg K) (tstart : K) (tend : Option K) (s : SharpState K E) : SharpState K E :=
  let s1 :=
    if c.dtVariable = true ∧ s.dtOld.isSome = true then
      if 0 < s.cfl then { s with dt := sharpDtNew c s, dtOld := some s.dt }
      else { s with dt := c.dtMax }
    else { s with dtOld := some s.dt }
  match tend with
  | none => s1
  | some te => { s1 with dt := clipDt id landEps s.t tstart te s1.dt }

/-- `SSPLMMk2`, sharpclaw/solver.py:357-363; `qk` is `self._registers[-num_steps].q`. -/
def ssplmmk2Update (dt : K) (prevDt : List K) (dqDt q qk : E) : E :=
  let om := lmmSpan prevDt / dt
  let r := (om - 1) / om
  let delta := 1 / om ^ 2
  let beta := (om + 1) / om
  beta • (r • q + dt • dqDt) + delta • qk

/-- `SSPLMMk3`, sharpclaw/solver.py:364-375; `f1` is `prev_dq_dt_values[-1]`, `fk` is
`prev_dq_dt_values[-num_steps]`. -/
def ssplmmk3Update (dt : K) (prevDt : List K) (q f1 qk fk : E) : E :=
  let om1 := lmmSpan prevDt / dt
  let om := om1 + 1
  let r := (om1 - 2) / om1
  let delta0 := (4 * om - om1 ^ 2) / om1 ^ 3
  let beta0 := om / om1 ^ 2
  let betak := om ^ 2 / om1 ^ 2
  betak • (r • q + dt • f1) + (r * beta0 + delta0) • qk + (beta0 * dt) • fk

/-- The terms `i < n` added by the loop of the `LMM` branch, sharpclaw/solver.py:383-384; an index out of range
is an `IndexError` (`none`). -/
def lmmTerms (alpha beta : List K) (dt : K) (regs : List (E × K)) (prevDq : List E) (acc : E) : Nat → Option E
  | 0 => some acc
  | n + 1 =>
    match lmmTerms alpha beta dt regs prevDq acc n, alpha[n]?, regs[n]?, beta[n]?, prevDq[n]? with
    | some v, some a, some r, some b, some f => some (v + (a • r.1 + (b * dt) • f))
    | _, _, _, _, _ => none

/-- `LMM`, sharpclaw/solver.py:381-384; `l[-1]` of an empty list is an `IndexError` (`none`). -/
def lmmUpdate (alpha beta : List K) (steps : Nat) (dt : K) (regs : List (E × K)) (prevDq : List E) : Option E :=
  match alpha.getLast?, regs.getLast?, beta.getLast?, prevDq.getLast? with
  | some a, some r, some b, some f => lmmTerms alpha beta dt regs prevDq (a • r.1 + (b * dt) • f) (steps - 1)
  | _, _, _, _ => none

/-- `l[-k]`. -/
def fromEnd {α : Type*} (l : List α) (k : Nat) : Option α :=
  if 0 < k ∧ k ≤ l.length then l[l.length - k]? else none

/-- `registers[0].q = x`. -/
def setFirst (l : List (E × K)) (x : E × K) : List (E × K) :=
  match l with
  | [] => []
  | _ :: r => x :: r

/-- The integrator part of `step`, sharpclaw/solver.py:305-388. The stage evaluations of `dq` update the
Courant number; their maximum `stageCfl` is a parameter of this model. Exceptions: registers missing
(`IndexError`) or an unknown integrator. -/
def integrate (env : SharpEnv K E) (c : SharpCfg K) (stepIndex : Int) (s : SharpState K E) :
    Ret (SharpState K E) Unit :=
  let p : SharpRhs K E := ⟨fun dt t q => (env.dq dt t q).1, env.stage⟩
  let ssp22 : SharpState K E :=
    { s with q := ssp22Step p s.dt s.t s.dqDt s.q,
             regs := setFirst s.regs (env.stage (s.t + s.dt) (s.q + s.dt • s.dqDt), s.t + s.dt) }
  match c.integ with
  | .euler => ({ s with q := eulerStep s.dt s.dqDt s.q }, .ok ())
  | .ssp22 => (ssp22, .ok ())
  | .ssp33 => ({ s with q := ssp33Step p s.dt s.t s.dqDt s.q }, .ok ())
  | .ssp104 => ({ s with q := ssp104Step p s.dt s.t s.dqDt s.q }, .ok ())
  | .rk a b cc n => ({ s with q := rkStep p a b cc n s.dt s.t s.dqDt s.q }, .ok ())
  | .ssplmmk2 =>
    if stepIndex < c.lmmSteps then (ssp22, .ok ())
    else match fromEnd s.regs c.lmmSteps with
      | some r => ({ s with q := ssplmmk2Update s.dt s.prevDt s.dqDt s.q r.1 }, .ok ())
      | none => (s, .error .indexError)
  | .ssplmmk3 =>
    if stepIndex < c.lmmSteps then (ssp22, .ok ())
    else match fromEnd s.regs c.lmmSteps, s.prevDq.getLast?, fromEnd s.prevDq c.lmmSteps with
      | some r, some f1, some fk => ({ s with q := ssplmmk3Update s.dt s.prevDt s.q f1 r.1 fk }, .ok ())
      | _, _, _ => (s, .error .indexError)
  | .lmm al be =>
    if stepIndex < s.regs.length then ({ s with q := ssp104Step p s.dt s.t s.dqDt s.q }, .ok ())
    else match lmmUpdate al be c.lmmSteps s.dt s.regs s.prevDq with
      | some q => ({ s with q := q }, .ok ())
      | none => (s, .error .indexError)
  | .unknown => (s, .error (.exception "Unrecognized time integrator"))

/-- `accept_reject_step`, sharpclaw/solver.py:622-650. -/
def sharpAccepts (c : SharpCfg K) (s : SharpState K E) : Bool :=
  if c.integ.isLmm then
    if s.numsteps + 1 < s.regs.length then
      let ratio := if c.integ.isSspLmm then s.sspcoeff0 / c.sspcoeff else 1
      !decide (ratio * c.cflMax < s.cfl)
    else true
  else !decide (c.cflMax < s.cfl)

/-- One iteration of the time loop, solver.py:605-652, with the SharpClaw step. `stageCfl` is the largest
Courant number found by the stage evaluations (any number). Returns whether the step was accepted. -/
def sharpAttempt (env : SharpEnv K E) (c : SharpCfg K) (stageCfl : K) (tstart : K) (tend : Option K) (n : Nat)
    (s : SharpState K E) : Ret (SharpState K E) Bool :=
  let backup := s.q
  let told := s.t
  let pr := prepare env c s
  let s1 := sharpGetDt c tstart tend pr.1
  -- lines 300-303
  let s2 := { s1 with cfl := s1.dt / s1.dtOld.getD 0 * s1.cfl, dtOld := some s1.dt }
  let r := integrate env c pr.2 s2
  match r.2 with
  | .error e => (r.1, .error e)
  | .ok () =>
    let s3 := { r.1 with cfl := max r.1.cfl stageCfl }
    let acc := sharpAccepts c s3
    let s4 := { s3 with accept := acc }
    if acc then
      ({ s4 with t := if c.dtVariable then s4.t + s4.dt else tstart + (n + 1 : Nat) * s4.dt,
                 numsteps := s4.numsteps + 1 }, .ok true)
    else if c.dtVariable then ({ s4 with q := backup, t := told }, .ok false)
    else (s4, .error (.exception "CFL too large, giving up!"))

end PyClaw
