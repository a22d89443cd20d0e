import Verif.Model.Evolve

/-!
Model of `ClawSolver.step`, /repo/src/pyclaw/classic/solver.py:96-146, around an arbitrary homogeneous step
and an arbitrary source term. Simplifications: the choice of `dt` (line 123) is in `Model.Evolve.attempt`;
`self.dt/2.0` is exact (halving is exact in binary arithmetic unless it underflows).
-/
namespace PyClaw

variable {K D : Type*} [Field K] [LinearOrder K]

/-- What the user plugs into a classic solver: `source_split`, `step_source` (may raise), and the class's
`step_hyperbolic` with the Courant number it passes to `cfl.update_global_max`. Both get the current
time and the step size. -/
structure ClassicPlug (K D : Type*) where
  sourceSplit : Int
  source : Option (K → K → D → Ret D Unit)
  hyperbolic : K → K → D → Ret D K

/-- `if self.step_source is not None: self.step_source(self, state, h)`. -/
def ClassicPlug.runSource (p : ClassicPlug K D) (cond : Bool) (t h : K) (d : D) : Ret D Unit :=
  match p.source with
  | none => (d, .ok ())
  | some f => if cond then f t h d else (d, .ok ())

/-- `ClawSolver.step` without the choice of `dt`, solver.py:124-146: the data afterwards and the Courant
number in the `CFL` object (`set_global_max(0.)`, then `update_global_max`), or the exception. -/
def classicNumeric (p : ClassicPlug K D) (cflMax : K) (t dt : K) (d : D) : Ret D K :=
  match p.runSource (p.sourceSplit == 2) t (dt / 2) d with
  | (d1, .error e) => (d1, .error e)
  | (d1, .ok _) =>
    match p.hyperbolic t dt d1 with
    | (d2, .error e) => (d2, .error e)
    | (d2, .ok c) =>
      let cfl := max 0 c
      if cflMax ≤ cfl then (d2, .ok cfl)
      else
        match p.runSource (p.sourceSplit == 2) t (dt / 2) d2 with
        | (d3, .error e) => (d3, .error e)
        | (d3, .ok _) =>
          match p.runSource (p.sourceSplit == 1) t dt d3 with
          | (d4, .error e) => (d4, .error e)
          | (d4, .ok _) => (d4, .ok cfl)

end PyClaw
