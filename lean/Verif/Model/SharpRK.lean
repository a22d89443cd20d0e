import Verif.Model.Basic
import Mathlib.Algebra.Module.Defs
import Mathlib.Algebra.Field.Defs

/-!
The Runge-Kutta updates of `SharpClawSolver.step`, /repo/src/pyclaw/sharpclaw/solver.py:305-348, and the
helpers `ssp22` (391-397), `ssp104` (400-430).

Arrays `q` are elements of a vector space `E` over the number field `K`. `dq dt t q` stands for
`self.dq(state)` (solver.py:532-542), the right-hand side times `dt`, which reads `solver.dt`, `state.t` and
`state.q`. `stage t q` is the effect on `q` of `self.before_step` called on a stage
(`call_before_step_each_stage`, solver.py:316, 321, 339, 395, 413, 423, 428); it is the identity when that
option is off. `dqDt` is `self.dq_dt`. Arithmetic is exact.
-/
namespace PyClaw

variable {K E : Type*} [Field K] [AddCommGroup E] [Module K E]

/-- The parts of the problem used by a stage. -/
structure SharpRhs (K E : Type*) where
  dq : K → K → E → E
  stage : K → E → E

/-- `Euler`, solver.py:306-307. -/
def eulerStep (dt : K) (dqDt q : E) : E := q + dt • dqDt

/-- `ssp22`, solver.py:391-397. -/
def ssp22Step (p : SharpRhs K E) (dt t : K) (dqDt q : E) : E :=
  let r0 := q + dt • dqDt
  let r0 := p.stage (t + dt) r0
  (1 / 2 : K) • (q + r0 + p.dq dt (t + dt) r0)

/-- `SSP33`, solver.py:312-323. -/
def ssp33Step (p : SharpRhs K E) (dt t : K) (dqDt q : E) : E :=
  let r := q + dt • dqDt
  let tr := t + dt
  let r := p.stage tr r
  let r := (3 / 4 : K) • q + (1 / 4 : K) • (r + p.dq dt tr r)
  let tr := t + 1 / 2 * dt
  let r := p.stage tr r
  (1 / 3 : K) • q + (2 / 3 : K) • (r + p.dq dt tr r)

/-- The body of the loops of `ssp104`, solver.py:412-416 and 422-426, on the register `(s1.q, s1.t)`. -/
def ssp104Stage (p : SharpRhs K E) (dt : K) (s : E × K) : E × K :=
  let y := p.stage s.2 s.1
  (y + (1 / 6 : K) • p.dq dt s.2 y, s.2 + dt / 6)

/-- `for i in range(4)`. -/
def ssp104Loop (p : SharpRhs K E) (dt : K) (s : E × K) : E × K :=
  ssp104Stage p dt (ssp104Stage p dt (ssp104Stage p dt (ssp104Stage p dt s)))

/-- `ssp104`, solver.py:400-430. -/
def ssp104Step (p : SharpRhs K E) (dt t : K) (dqDt q : E) : E :=
  let s := ssp104Loop p dt (q + (1 / 6 : K) • (dt • dqDt), t + dt / 6)
  let q1 := (1 / 25 : K) • q + (36 / 100 : K) • s.1
  let s := ssp104Loop p dt ((15 : K) • q1 - (5 : K) • s.1, t + dt / 3)
  let y := p.stage s.2 s.1
  q1 + ((6 / 10 : K) • y + (1 / 10 : K) • p.dq dt s.2 y)

/-- The sum `for j in range(i): acc += w(j)*registers[j].q`, solver.py:341-342, 347-348. -/
def addRegisters (w : Nat → K) (acc : E) (regs : List E) : E :=
  (regs.zipIdx.foldl (fun s r => s + w r.2 • r.1) acc)

/-- The stage loop of the general method, solver.py:336-345: `regs` are the registers already filled, `n`
stages remain. The stage function is called before the earlier stages are added, as in the code. -/
def rkStages (p : SharpRhs K E) (a : Nat → Nat → K) (c : Nat → K) (dt t : K) (q : E) :
    Nat → List E → List E
  | 0, regs => regs
  | n + 1, regs =>
    let i := regs.length
    let y := addRegisters (a i) (p.stage (t + dt * c i) q) regs
    rkStages p a c dt t q n (regs ++ [p.dq dt (t + dt * c i) y])

/-- `RK` with `num_stages = len(b)`, solver.py:328-348. -/
def rkStep (p : SharpRhs K E) (a : Nat → Nat → K) (b c : Nat → K) (stages : Nat) (dt t : K) (dqDt q : E) : E :=
  addRegisters b q (rkStages p a c dt t q (stages - 1) [dt • dqDt])

end PyClaw
