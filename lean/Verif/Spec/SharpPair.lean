import Verif.Model.SharpTime
import Mathlib.Data.List.Forall2

/-!
Specification: two SharpClaw runs go the same way (C95, C96).
-/
namespace PyClaw.Spec

variable {K E E' : Type*}

/-- The records of one attempted step in two runs: the same times, step size, Courant numbers and outcome, and corresponding solutions
before and after. -/
structure SameTry (S : E → E' → Prop) (l : SharpTry K E) (l' : SharpTry K E') : Prop where
  target : l'.target = l.target
  tBefore : l'.tBefore = l.tBefore
  dt : l'.dt = l.dt
  cfl : l'.cfl = l.cfl
  stageCfl : l'.stageCfl = l.stageCfl
  outcome : l'.outcome = l.outcome
  tAfter : l'.tAfter = l.tAfter
  qBefore : S l.qBefore l'.qBefore
  qAfter : S l.qAfter l'.qAfter

/-- Two runs in step: all numbers of solver and solution are the same, all arrays correspond (`S`), and so does the whole history. -/
structure SameSharp (S : E → E' → Prop) (r : SharpRun K E) (r' : SharpRun K E') : Prop where
  t : r'.st.t = r.st.t
  dt : r'.st.dt = r.st.dt
  dtOld : r'.st.dtOld = r.st.dtOld
  cfl : r'.st.cfl = r.st.cfl
  cflmax : r'.cflmax = r.cflmax
  maxSteps : r'.maxSteps = r.maxSteps
  numsteps : r'.st.numsteps = r.st.numsteps
  accept : r'.st.accept = r.st.accept
  prevDt : r'.st.prevDt = r.st.prevDt
  prevFE : r'.st.prevFE = r.st.prevFE
  sspcoeff0 : r'.st.sspcoeff0 = r.st.sspcoeff0
  lmmCond : r'.st.lmmCond = r.st.lmmCond
  q : S r.st.q r'.st.q
  dqDt : S r.st.dqDt r'.st.dqDt
  regs : List.Forall₂ (fun a b => S a.1 b.1 ∧ b.2 = a.2) r.st.regs r'.st.regs
  prevDq : List.Forall₂ S r.st.prevDq r'.st.prevDq
  log : List.Forall₂ (SameTry S) r.log r'.log

end PyClaw.Spec
