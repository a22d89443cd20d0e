import Mathlib.Algebra.Polynomial.Derivative
import Mathlib.Algebra.Order.Field.Basic

/-!
Specification of WENO reconstruction of any order after Jiang and Shu (1996), on cells of width 1 with centres at the integers.
-/
namespace PyClaw.Spec
open Polynomial

variable {K : Type*} [Field K]

/-- The mean value of the polynomial `p` over the cell of width 1 with centre `j`, that is its integral over that cell. -/
noncomputable def cellMean (p : K[X]) (j : K) : K :=
  p.sum fun m c => c * (((j + 1 / 2) ^ (m + 1) - (j - 1 / 2) ^ (m + 1)) / (m + 1))

/-- The smoothness indicator of a polynomial of degree less than `k` on the cell with centre `j`: the sum of the integrals of the squares
of its derivatives 1, ..., k-1. -/
noncomputable def roughness (k : Nat) (p : K[X]) (j : K) : K :=
  ∑ l ∈ Finset.Ico 1 k, cellMean ((derivative^[l] p) ^ 2) j

/-- `p r` is, for `r < k`, the polynomial of degree less than `k` with mean values `q` on the `k` cells `i-r, ..., i-r+k-1`. -/
def Pieces (k : Nat) (q : Int → K) (i : Int) (p : Nat → K[X]) : Prop :=
  ∀ r, r < k → (p r).natDegree < k ∧ ∀ j : Int, i - r ≤ j → j < i - r + k → cellMean (p r) j = q j

/-- The linear weights `γ` are right for reconstruction at distance `x` from the centre of the cell: they are positive, add up to 1, and
combine the values of the pieces to the value of any polynomial of degree at most `2k-2` the data come from. -/
def LinearWeights [LT K] (k : Nat) (γ : Nat → K) (x : K) : Prop :=
  (∀ r, r < k → 0 < γ r) ∧ ∑ r ∈ Finset.range k, γ r = 1 ∧
    ∀ (P : K[X]) (i : Int) (p : Nat → K[X]), P.natDegree ≤ 2 * k - 2 → Pieces k (fun j => cellMean P j) i p →
      ∑ r ∈ Finset.range k, γ r * (p r).eval (i + x) = P.eval (i + x)

/-- `v` is the reconstruction at `i + x`: there are pieces, and `v` is the average of their values, weighted with `γ r / (eps + β r)^2`,
where `β r` is the smoothness indicator of piece `r` in cell `i`. -/
def IsWenoValue (k : Nat) (γ : Nat → K) (eps : K) (q : Int → K) (i : Int) (x v : K) : Prop :=
  (∃ p, Pieces k q i p) ∧ ∀ p, Pieces k q i p →
    v = (∑ r ∈ Finset.range k, γ r / (eps + roughness k (p r) i) ^ 2 * (p r).eval (i + x)) /
      ∑ r ∈ Finset.range k, γ r / (eps + roughness k (p r) i) ^ 2

end PyClaw.Spec
