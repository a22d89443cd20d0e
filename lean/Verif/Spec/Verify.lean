import Mathlib.Analysis.SpecialFunctions.Sqrt

/-!
Specification for the functions that check results.
-/
namespace PyClaw.Spec

/-- The Euclidean norm of the difference of two lists of numbers. -/
noncomputable def distance (xs ys : List ℝ) : ℝ := Real.sqrt ((xs.zipWith (fun x y => (x - y) ^ 2) ys).sum)

/-- The Euclidean norm of a list of numbers. -/
noncomputable def size (xs : List ℝ) : ℝ := Real.sqrt ((xs.map (· ^ 2)).sum)

end PyClaw.Spec
