import Mathlib.Data.List.Basic
import Mathlib.Logic.Function.Basic

/-!
The value semantics a user expects of solvers and solutions (C12): a solution holds values, not
references, and only operations on a solution change it. Each solver has a private work array whose
ghost part survives between steps.
-/
namespace PyClaw.Spec

variable {K W S : Type*} [DecidableEq S] [DecidableEq W]

/-- `b` with the `k`-th of the positions `is` replaced by the `k`-th value. -/
def overlay (b : Nat → K) (is : List Nat) (vs : List K) (p : Nat) : K :=
  match is.idxOf? p with
  | some k => vs.getD k (b p)
  | none => b p

/-- The entries of `l` at the given positions. -/
def pick (l : List K) (is : List Nat) : List K := is.filterMap (l[·]?)

/-- Values of the solutions, content of the solvers' work arrays. -/
structure VSys (K W S : Type*) where
  q : S → List K
  work : W → Nat → K

/-- A solver: size of the work array, interior positions, effect of a step on the work array. -/
structure VSolver (K : Type*) where
  size : Nat
  interior : List Nat
  kernel : List K → List K

/-- Solver `i` takes a step on solution `j`: only the value of solution `j` changes. -/
def VSys.stepSolver (solver : W → VSolver K) (s : VSys K W S) (i : W) (j : S) : VSys K W S :=
  let w := solver i
  let new := w.kernel ((List.range w.size).map (overlay (s.work i) w.interior (s.q j)))
  { q := Function.update s.q j (pick new w.interior),
    work := Function.update s.work i fun p => new.getD p (s.work i p) }

/-- Solution `j` is assigned new values. -/
def VSys.assign (s : VSys K W S) (j : S) (vs : List K) : VSys K W S :=
  { s with q := Function.update s.q j vs }

end PyClaw.Spec
