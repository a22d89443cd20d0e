import Verif.Model.SharpTime
import Mathlib.LinearAlgebra.AffineSpace.AffineSubspace.Defs
import Mathlib.Algebra.BigOperators.Group.Finset.Basic

/-!
Vocabulary for invariants of SharpClaw runs (C89). An invariant is an affine subspace of the space of arrays: the arrays
with a given total, the single array that is a given uniform state, the arrays that do not depend on one index, …
-/
namespace PyClaw.Spec

variable {K E : Type*} [Field K] [AddCommGroup E] [Module K E]

/-- The right-hand side is tangent to `S` at the points of `S`, and the hooks map `S` to itself. -/
structure Tangent (env : SharpEnv K E) (S : AffineSubspace K E) : Prop where
  dq : ∀ dt t q, q ∈ S → (env.dq dt t q).1 ∈ S.direction
  before : ∀ t q, q ∈ S → env.before t q ∈ S
  stage : ∀ t q, q ∈ S → env.stage t q ∈ S

/-- The coefficients `alpha` of a linear multistep method that the solver uses, all but the last up to `steps - 1` of them
and the last, add up to 1. -/
def AlphaSum (alpha : List K) (steps : Nat) : Prop :=
  ∑ i ∈ Finset.range (steps - 1), alpha.getD i 0 + alpha.getLast?.getD 0 = 1

/-- The configuration of a strong-stability-preserving multistep method with `k` registers: positive limits, positive
Courant numbers, and either a variable step size or no third-order check. -/
structure SspConfig [LinearOrder K] (env : SharpEnv K E) (c : SharpCfg K) (k : Nat) : Prop where
  ssp : c.integ.isSspLmm = true
  steps : c.lmmSteps = k
  two : 2 ≤ k
  mode : c.dtVariable = true ∨ c.checkCond = false
  dtMax : 0 < c.dtMax
  cflMax : 0 < c.cflMax
  cflDesired : 0 < c.cflDesired
  coeff : 0 < c.sspcoeff
  speed : ∀ dt t q, 0 < dt → 0 < (env.dq dt t q).2

/-- The methods: Runge–Kutta with any coefficients, multistep with coefficients that add up to 1, and the
strong-stability-preserving multistep methods. -/
def MethodOk [LinearOrder K] (env : SharpEnv K E) (c : SharpCfg K) (k : Nat) : Prop :=
  (c.integ.isSspLmm = false ∧ ∀ al be, c.integ = .lmm al be → AlphaSum al c.lmmSteps) ∨ SspConfig env c k

/-- A solver after `setup`: no step taken, the `k` registers are copies of the solution (`_allocate_registers`,
sharpclaw/solver.py:614-619). -/
structure FreshFor [LinearOrder K] (k : Nat) (s : SharpState K E) : Prop where
  dt : 0 < s.dt
  dtOld : s.dtOld = none
  accept : s.accept = true
  numsteps : s.numsteps = 0
  regs : s.regs = List.replicate k (s.q, s.t)
  prevDt : s.prevDt = []
  prevDq : s.prevDq = []
  prevFE : s.prevFE = []

/-- A property of the solution at the end and before and after every attempted step. -/
def Throughout (P : E → Prop) (r : SharpRun K E) : Prop :=
  P r.st.q ∧ ∀ a ∈ r.log, P a.qBefore ∧ P a.qAfter

end PyClaw.Spec
