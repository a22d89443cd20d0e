import Mathlib.Algebra.BigOperators.Fin
import Mathlib.Analysis.Convex.Function
import Mathlib.Algebra.Module.LinearMap.Defs

/-!
Specifications for time integrators.
-/
namespace PyClaw.Spec

variable {K E : Type*} [Field K] [AddCommGroup E] [Module K E]

/-- An explicit Runge-Kutta method with `n` stages. -/
structure Tableau (K : Type*) (n : Nat) where
  a : Fin n → Fin n → K
  b : Fin n → K

/-- The abscissae. -/
def Tableau.c {n : Nat} (T : Tableau K n) (i : Fin n) : K := ∑ j, T.a i j

/-- `T` is explicit. -/
def Tableau.Explicit {n : Nat} (T : Tableau K n) : Prop := ∀ i j, i ≤ j → T.a i j = 0

/-- `q'` is the result of one step of size `dt` of the method from `(t, q)` for `q' = f(t, q)`: the stage
slopes `k` satisfy the stage equations. -/
def Tableau.Step {n : Nat} (T : Tableau K n) (f : K → E → E) (dt t : K) (q q' : E) : Prop :=
  ∃ k : Fin n → E, (∀ i, k i = f (t + T.c i * dt) (q + dt • ∑ j, T.a i j • k j)) ∧ q' = q + dt • ∑ i, T.b i • k i

/-- The order conditions of Butcher, one per rooted tree. -/
def Tableau.Order1 {n : Nat} (T : Tableau K n) : Prop := ∑ i, T.b i = 1

def Tableau.Order2 {n : Nat} (T : Tableau K n) : Prop := T.Order1 ∧ ∑ i, T.b i * T.c i = 1 / 2

def Tableau.Order3 {n : Nat} (T : Tableau K n) : Prop :=
  T.Order2 ∧ ∑ i, T.b i * T.c i ^ 2 = 1 / 3 ∧ ∑ i, T.b i * ∑ j, T.a i j * T.c j = 1 / 6

def Tableau.Order4 {n : Nat} (T : Tableau K n) : Prop :=
  T.Order3 ∧ ∑ i, T.b i * T.c i ^ 3 = 1 / 4 ∧ ∑ i, T.b i * T.c i * ∑ j, T.a i j * T.c j = 1 / 8 ∧
    ∑ i, T.b i * ∑ j, T.a i j * T.c j ^ 2 = 1 / 12 ∧
    ∑ i, T.b i * ∑ j, T.a i j * ∑ l, T.a j l * T.c l = 1 / 24

/-- Forward Euler steps of size `h` do not increase `φ`. -/
def EulerBounded [LinearOrder K] (f : K → E → E) (φ : E → K) (h : K) : Prop :=
  ∀ t x, φ (x + h • f t x) ≤ φ x

end PyClaw.Spec
