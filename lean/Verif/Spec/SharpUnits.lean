import Verif.Spec.Units
import Verif.Spec.SharpMirror
import Verif.Spec.SharpPair

/-!
Specification of C101 for SharpClaw: problems and runs in other units.
-/
namespace PyClaw.Spec

variable {K : Type*}

section
variable [Field K] {E : Type*} [AddCommGroup E] [Module K E]

/-- Settings of SharpClaw in another unit of time: one old unit is `c` new ones. -/
def sharpCfgIn (c : K) (s : SharpCfg K) : SharpCfg K := { s with dtMax := c * s.dtMax }

/-- The state of a SharpClaw run in another unit of time. Time derivatives are divided by the factor. -/
def sharpStateIn (c : K) (s : SharpState K E) : SharpState K E :=
  { s with dt := c * s.dt, dtOld := s.dtOld.map (c * ·), dqDt := c⁻¹ • s.dqDt, regs := s.regs.map (Prod.map id (c * ·)),
           prevDq := s.prevDq.map (c⁻¹ • ·), prevDt := s.prevDt.map (c * ·), prevFE := s.prevFE.map (c * ·), t := c * s.t }

/-- The record of an attempted step in another unit of time. -/
def sharpTryIn (c : K) (l : SharpTry K E) : SharpTry K E :=
  { l with target := l.target.map (c * ·), tBefore := c * l.tBefore, dt := c * l.dt, tAfter := c * l.tAfter }

/-- A SharpClaw run in another unit of time. -/
def sharpRunIn (c : K) (r : SharpRun K E) : SharpRun K E :=
  { r with st := sharpStateIn c r.st, log := r.log.map (sharpTryIn c) }

/-- A call in another unit of time. -/
def sharpGoalIn (c : K) (k : SharpGoal K) : SharpGoal K := { k with tend := k.tend.map (c * ·) }

/-- `env'` is the problem `env` in another unit of time: the same values at the same instants. -/
structure SameInTime (c : K) (env env' : SharpEnv K E) : Prop where
  dq : ∀ dt t q, env'.dq (c * dt) (c * t) q = env.dq dt t q
  stage : ∀ t q, env'.stage (c * t) q = env.stage t q
  before : ∀ t q, env'.before (c * t) q = env.before t q

end

/-- The total fluctuation solver in other units. -/
def TotalInUnits {A : Type*} [Mul K] {m : Nat} (σ : Fin m → K) (v : K) (onAux : A → A) (tf tf' : TotalFluct K A m) : Prop :=
  match tf, tf' with
  | none, none => True
  | some f, some f' => ∀ ql qr al ar, f' (signed σ ql) (signed σ qr) (onAux al) (onAux ar) = fun k => v * (σ k * f ql qr al ar k)
  | _, _ => False

/-- Units of the solution that a reconstruction does not notice: the WENO reconstructions contain a constant, the TVD reconstruction does
not. -/
def ReconUnits [Field K] {m w : Nat} (σ : Fin m → K) (R : ReconCfg K m w) : Prop :=
  (∀ k, σ k ≠ 0) ∧ (R.limType ≠ 1 → IsSign σ)

/-- Units of the solution that a reconstruction of the Python kernel does not notice: none (`lim_type = -1`), or WENO, which contains a constant;
the wave-based one needs waves that are jumps of the solution. The other options raise exceptions. -/
def PyReconUnits [Field K] {m : Nat} (limType charDecomp : Int) (σ : Fin m → K) (fwave : Bool) : Prop :=
  limType = -1 ∨ limType = 2 ∧ IsSign σ ∧ (charDecomp = 0 ∨ charDecomp = 1 ∧ fwave = false)

/-- The functions of the user (`dq_src` and `before_step`) in other units: solution and aux array converted, time with the factor `tx`. -/
structure ActionsInUnits {d : Nat} [Field K] [LinearOrder K] (m naux : Nat) (σ : Fin m → K) (tx : K) (RA : (Fin naux → K) → Fin naux → K)
    (c c' : SharpGrid (Fin d) K) : Prop where
  source : (c.source = none ∧ c'.source = none) ∨ ∃ f f', c.source = some f ∧ c'.source = some f' ∧
    ∀ dt t, CellImage m naux c'.bc.n id (signed σ) RA (f dt t) (f' (tx * dt) (tx * t))
  before : ∀ t, CellImage m naux c'.bc.n id (signed σ) RA (c.before t) (c'.before (tx * t))
  stage : ∀ t, CellImage m naux c'.bc.n id (signed σ) RA (c.stage t) (c'.stage (tx * t))

end PyClaw.Spec
