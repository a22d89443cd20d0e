import Verif.Spec.Runs
import Verif.Spec.Symmetry

/-!
# Between walls

The vocabulary of C102.
-/

namespace PyClaw.Spec

variable {ι K : Type*}

/-- Every axis is closed: it is periodic on both sides or has a reflecting wall on both sides, and the aux values are continued in the
same way. -/
structure Enclosed (bc : BCConfig ι K) : Prop where
  q : ∀ a, (bc.bcLower a = .wall ∧ bc.bcUpper a = .wall) ∨ (bc.bcLower a = .periodic ∧ bc.bcUpper a = .periodic)
  aux : 0 < bc.numAux → ∀ a, bc.auxLower a = bc.bcLower a ∧ bc.auxUpper a = bc.bcUpper a

/-- No wall reflects component `k`. -/
def Unreflected (bc : BCConfig ι K) (k : Nat) : Prop := ∀ a, HasWall bc a → bc.reflect a ≠ k

/-- The signs with which a wall at axis `a` reflects the components. -/
def axisSign [One K] [Neg K] (bc : BCConfig ι K) (a : ι) (m : Nat) : Fin m → K := fun k => if k.val = bc.reflect a then -1 else 1

/-- The Riemann solvers in the plane do not tell a problem from its image in a wall: `across` is the solver across the wall, `along` the
one along it; `σ` says which component the wall reflects. Families that are images of each other have the same limiter. With f-waves
and second order no speed across the wall may be 0 (see `C91_fwave_violated`). -/
structure OwnImage2 {A : Type*} [Field K] [LinearOrder K] {m w : Nat} (σ : Fin m → K) (fwave : Bool) (order : Int) (limiter : Fin w → Int)
    (across along : Riemann K A m w) : Prop where
  mirror : ∃ π, MirrorImage σ id π fwave across across ∧ ∀ p, limiter (π p) = limiter p
  turned : ∃ π, TurnedImage (signed σ) id π along along ∧ ∀ p, limiter (π p) = limiter p
  speeds : fwave = true → order ≠ 1 → ∀ ql qr al ar p, (across ql qr al ar).s p ≠ 0

end PyClaw.Spec
