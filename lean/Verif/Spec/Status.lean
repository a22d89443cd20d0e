import Verif.Spec.Evolve
import Verif.Spec.Units

/-!
Specification of C109: the smallest and the largest time step in `status`.
-/
namespace PyClaw.Spec

variable {K : Type*}

/-- `m` is the minimum of the list, `none` (infinity) if the list is empty. -/
def IsMinimum [LE K] (m : Option K) (l : List K) : Prop :=
  match m with
  | none => l = []
  | some x => x ∈ l ∧ ∀ y ∈ l, x ≤ y

/-- The step that the Courant number of an attempted step suggests for the next one. -/
def proposal [Field K] [LinearOrder K] (rnd : K → K) (dtMax desired : K) (a : Attempt K) : K :=
  min dtMax (rnd (rnd (a.dt * desired) / a.cfl))

/-- The suggestions of all attempted steps but the last one; Courant numbers that are not positive suggest nothing. -/
def proposals [Field K] [LinearOrder K] (rnd : K → K) (dtMax desired : K) (log : List (Attempt K)) : List K :=
  (log.dropLast.filter fun a => 0 < a.cfl).map (proposal rnd dtMax desired)

/-- `x` is between two bounds, of which `none` stands for the infinite ones. -/
def BetweenTimes [LE K] (lo hi : Option K) (x : K) : Prop := (∃ y, lo = some y ∧ y ≤ x) ∧ ∃ y, hi = some y ∧ x ≤ y

end PyClaw.Spec
