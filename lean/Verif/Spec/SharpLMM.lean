import Mathlib.Algebra.BigOperators.Group.List.Basic
import Mathlib.Algebra.Module.Basic
import Mathlib.Algebra.Field.Defs
import Mathlib.Algebra.Polynomial.Derivative
import Mathlib.Algebra.Polynomial.Eval.Defs

/-!
Specification of variable-step linear multistep integration: the list of accepted steps, and the formulas.
-/
namespace PyClaw.Spec

/-- One accepted step: the time and solution it started from and the step size it used. -/
structure StepRec (K E : Type*) where
  t : K
  q : E
  dt : K

variable {K E : Type*}

/-- The entry `j` places before the end (`j = 0` is the last). -/
def back {α : Type*} (l : List α) (j : Nat) : Option α := l.reverse[j]?

/-- `saved` ends with the last `k` entries of `hist` (with all of them when there are fewer than `k`), in
order. -/
def HoldsLast {α : Type*} (k : Nat) (hist saved : List α) : Prop :=
  ∀ j, j < k → j < hist.length → back saved j = back hist j

/-- `saved` is exactly the last `k` entries of `hist` (all of them when there are fewer than `k`), in order. -/
def IsLast {α : Type*} (k : Nat) (hist saved : List α) : Prop :=
  saved.length = min k hist.length ∧ HoldsLast k hist saved

variable [Field K] [AddCommGroup E] [Module K E]

/-- A two-point multistep formula `q_{n+1} = a₁ q_n + a₀ q_{n-k+1} + dt (b₁ f_n + b₀ f_{n-k+1})`. -/
structure TwoPoint (K : Type*) where
  a1 : K
  a0 : K
  b1 : K
  b0 : K

def TwoPoint.apply (m : TwoPoint K) (dt : K) (q1 f1 q0 f0 : E) : E :=
  m.a1 • q1 + m.a0 • q0 + dt • (m.b1 • f1 + m.b0 • f0)

open Polynomial in
/-- The formula reproduces the solution `y(t)` of `q' = y'(t)` for every polynomial `y` of degree at most `p`,
when the old point lies `w` steps of size `dt` before the current one. -/
def TwoPoint.ExactTo (m : TwoPoint K) (w : K) (p : Nat) : Prop :=
  ∀ (y : K[X]) (t dt : K), y.natDegree ≤ p →
    m.apply dt (y.eval t) (y.derivative.eval t) (y.eval (t - w * dt)) (y.derivative.eval (t - w * dt))
      = y.eval (t + dt)

end PyClaw.Spec
