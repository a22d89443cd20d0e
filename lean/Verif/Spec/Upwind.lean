import Verif.Model.Classic2
import Verif.Model.Classic3

/-!
Vocabulary for constant-coefficient advection in several dimensions (C75): the one-dimensional upwind formula and the
transverse Riemann solver that splits a fluctuation by the sign of the transverse velocity.
-/
namespace PyClaw.Spec

variable {K : Type*} [Field K] [LinearOrder K]

/-- First-order upwind value of cell `i` for velocity `u`, with `lam = dt/dx`: for `u ≥ 0` the value moves in from
the left neighbour, for `u ≤ 0` from the right one. -/
def upwind (lam u : K) (v : Int → K) (i : Int) : K :=
  if 0 ≤ u then v i - lam * u * (v i - v (i - 1)) else v i - lam * u * (v (i + 1) - v i)

/-- The transverse solver for advection with transverse velocity `v`: everything goes up if `v > 0`, down if
`v < 0`. -/
def advectionRt (v : K) : Transverse K Unit 1 := fun _ _ _ _ _ a => (min v 0 • a, max v 0 • a)

/-- The same in three dimensions, with velocity `v` in the second and `w` in the third direction of the sweep
(`icoor = 2, 3`). -/
def advectionRt3 (v w : K) : Transverse3 K Unit 1 := fun icoor _ _ _ _ _ a =>
  if icoor = 2 then (min v 0 • a, max v 0 • a) else (min w 0 • a, max w 0 • a)

/-- The double transverse solver, which splits what has been split in the other direction already. -/
def advectionRtt3 (v w : K) : Transverse33 K Unit 1 := fun icoor _ _ _ _ _ _ a =>
  if icoor = 2 then (min v 0 • a, max v 0 • a) else (min w 0 • a, max w 0 • a)

end PyClaw.Spec
