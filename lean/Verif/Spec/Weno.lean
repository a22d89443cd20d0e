import Mathlib.Algebra.Polynomial.Derivative
import Mathlib.Algebra.Polynomial.Eval.Degree
import Mathlib.Algebra.Order.Field.Basic
import Mathlib.Algebra.BigOperators.Fin

/-!
Specifications for reconstruction. Cell `j` is the interval of length `h` around `j*h`. A polynomial is
given by its primitive `P`: its average over a cell is the difference of `P` over the length, its value at a
point is the derivative of `P`.
-/
namespace PyClaw.Spec
open Polynomial

variable {K : Type*} [Field K]

/-- The average over cell `j` of the polynomial whose primitive is `P`. -/
noncomputable def cellAverage (h : K) (P : K[X]) (j : Int) : K :=
  (P.eval ((j + 1 / 2) * h) - P.eval ((j - 1 / 2) * h)) / h

/-- The value at the right edge of cell `j`. -/
noncomputable def rightEdge (h : K) (P : K[X]) (j : Int) : K := P.derivative.eval ((j + 1 / 2) * h)

/-- The value at the left edge of cell `j`. -/
noncomputable def leftEdge (h : K) (P : K[X]) (j : Int) : K := P.derivative.eval ((j - 1 / 2) * h)

/-- The polynomial with primitive `P`, of degree at most `d`, has the averages `q` in the cells
`a, …, b`. -/
def Interpolates (h : K) (q : Int → K) (d : Nat) (a b : Int) (P : K[X]) : Prop :=
  P.natDegree ≤ d + 1 ∧ ∀ j, a ≤ j → j ≤ b → cellAverage h P j = q j

/-- `z` is a convex combination, with positive weights, of `a`, `b`, `c`. -/
def ConvexOf [LT K] (z a b c : K) : Prop :=
  ∃ u v w : K, 0 < u ∧ 0 < v ∧ 0 < w ∧ u + v + w = 1 ∧ z = u * a + v * b + w * c

/-- The smoothness indicator of Jiang and Shu (1996) of a quadratic, with primitive `P`, in cell `c`: the sum over its derivatives
of `h^(2l-1)` times the integral over the cell of the square, which is `(h p')² + 13/12 (h² p'')²` at the centre. -/
noncomputable def smoothness (h : K) (P : K[X]) (c : Int) : K :=
  (h * P.derivative.derivative.eval (c * h)) ^ 2 + 13 / 12 * (h ^ 2 * P.derivative.derivative.derivative.eval (c * h)) ^ 2

/-- The weighted mean of `a 0`, `a 1`, `a 2` with weights proportional to `d k / (eps + b k)²`. -/
def wenoMean (eps : K) (d b a : Fin 3 → K) : K :=
  (∑ k, d k / (eps + b k) ^ 2 * a k) / ∑ k, d k / (eps + b k) ^ 2

/-- The ideal weights of the candidates for the cells `c-2 … c`, `c-1 … c+1`, `c … c+2`, at the right edge of cell `c`. -/
def idealRight : Fin 3 → K := ![1 / 10, 6 / 10, 3 / 10]

/-- The same at the left edge. -/
def idealLeft : Fin 3 → K := ![3 / 10, 6 / 10, 1 / 10]

/-- `z` is the fifth-order WENO value of Jiang and Shu at an edge of cell `c`, with small number `eps` and ideal weights `d`. -/
def IsWeno5 (edge : K → K[X] → Int → K) (d : Fin 3 → K) (eps : K) (q : Int → K) (c : Int) (z : K) : Prop :=
  ∀ h : K, h ≠ 0 → ∀ P : Fin 3 → K[X], (∀ k : Fin 3, Interpolates h q 2 (c - 2 + (k : Nat)) (c + (k : Nat)) (P k)) →
    z = wenoMean eps d (fun k => smoothness h (P k) c) (fun k => edge h (P k) c)

end PyClaw.Spec
