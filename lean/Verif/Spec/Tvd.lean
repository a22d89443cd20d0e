import Verif.Spec.Classic1

/-!
Vocabulary for the second-order reconstructions (C78).
-/
namespace PyClaw.Spec

variable {K : Type*} [Field K] [LinearOrder K]

/-- `x` lies between `a` and `b`. -/
def Between (a b x : K) : Prop := min a b ≤ x ∧ x ≤ max a b

/-- Euclidean product. -/
def dot {m : Nat} (u v : Fin m → K) : K := ∑ c, u c * v c

/-- `phi` is an admissible reduction of the wave `W` next to the wave `U` of the upwind interface: between 0 and 2,
zero if the waves oppose each other, the reduced wave is no longer than twice the projection of `U`, and
there is no reduction if the waves are equal. -/
structure Reduces {m : Nat} (U W : Fin m → K) (phi : K) : Prop where
  nonneg : 0 ≤ phi
  le_two : phi ≤ 2
  opposed : dot U W ≤ 0 → phi = 0
  projected : 0 < dot U W → phi * dot W W ≤ 2 * dot U W
  equal : U = W → dot W W ≠ 0 → phi = 1

end PyClaw.Spec
