import Verif.Model.Evolve

/-!
Vocabulary for the time-stepping properties (C19–C29).
-/
namespace PyClaw.Spec

variable {K : Type*}

/-- The step was accepted (whether or not the gauge output that follows succeeded). -/
def Accepted (a : Attempt K) : Prop := a.outcome = .accepted ∨ a.outcome = .gaugeFailed

/-- The attempts follow each other: each starts at the time where the previous one ended. -/
def Chain : K → List (Attempt K) → K → Prop
  | t, [], t' => t = t'
  | t, a :: as, t' => a.tBefore = t ∧ Chain a.tAfter as t'

/-- `m` is the maximum of the list, `none` (minus infinity) if the list is empty. -/
def IsMaximum [LE K] (m : Option K) (l : List K) : Prop :=
  match m with
  | none => l = []
  | some x => x ∈ l ∧ ∀ y ∈ l, y ≤ x

end PyClaw.Spec
