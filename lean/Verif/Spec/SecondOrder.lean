import Verif.Spec.Classic1
import Verif.Spec.Upwind
import Mathlib.Algebra.Module.LinearMap.Defs

/-!
Vocabulary for the accuracy of the second-order methods (C76): the Lax–Wendroff formula, linear hyperbolic systems and
polynomial data.
-/
namespace PyClaw.Spec

variable {K : Type*} [Field K] [LinearOrder K] {m w : Nat}

/-- The Lax–Wendroff formula for `q_t + A q_x = 0`, with `lam = dt/dx`. -/
def laxWendroff (A : (Fin m → K) →ₗ[K] (Fin m → K)) (lam : K) (q : Int → Fin m → K) (i : Int) : Fin m → K :=
  q i - (lam / 2) • A (q (i + 1) - q (i - 1)) + (lam ^ 2 / 2) • A (A (q (i + 1) - (2 : K) • q i + q (i - 1)))

/-- A Riemann solver (in the wave form) for the linear system `q_t + A q_x = 0`: the jump is split into eigenvectors of
`A` (waves of speed 0 may be left out, so the waves and the jump agree after multiplication with `A`), and the
fluctuations collect the left- and the right-going waves. -/
structure LinearSolver {B : Type*} (A : (Fin m → K) →ₗ[K] (Fin m → K)) (rp : Riemann K B m w) : Prop where
  jump : ∀ ql qr al ar, A (∑ p, (rp ql qr al ar).wave p) = A (qr - ql)
  eigen : ∀ ql qr al ar p, A ((rp ql qr al ar).wave p) = (rp ql qr al ar).s p • (rp ql qr al ar).wave p
  left : ∀ ql qr al ar, (rp ql qr al ar).amdq = ∑ p, min ((rp ql qr al ar).s p) 0 • (rp ql qr al ar).wave p
  right : ∀ ql qr al ar, (rp ql qr al ar).apdq = ∑ p, max ((rp ql qr al ar).s p) 0 • (rp ql qr al ar).wave p

/-- The same in the f-wave form: the jump of `A q` is split, and no wave stands still. -/
structure LinearFwaveSolver {B : Type*} (A : (Fin m → K) →ₗ[K] (Fin m → K)) (rp : Riemann K B m w) : Prop where
  jump : ∀ ql qr al ar, ∑ p, (rp ql qr al ar).wave p = A (qr - ql)
  eigen : ∀ ql qr al ar p, A ((rp ql qr al ar).wave p) = (rp ql qr al ar).s p • (rp ql qr al ar).wave p
  left : ∀ ql qr al ar, (rp ql qr al ar).amdq =
    ∑ p, if (rp ql qr al ar).s p < 0 then (rp ql qr al ar).wave p else 0
  right : ∀ ql qr al ar, (rp ql qr al ar).apdq =
    ∑ p, if 0 < (rp ql qr al ar).s p then (rp ql qr al ar).wave p else 0
  moving : ∀ ql qr al ar p, (rp ql qr al ar).s p ≠ 0

/-- Exact solution at time `t` of `q_t + A q_x = 0` with the initial data `c0 + x c1 + x² c2`. -/
def quadraticSolution (A : (Fin m → K) →ₗ[K] (Fin m → K)) (c0 c1 c2 : Fin m → K) (t x : K) : Fin m → K :=
  c0 + x • c1 + x ^ 2 • c2 - t • A (c1 + (2 * x) • c2) + t ^ 2 • A (A c2)

end PyClaw.Spec

namespace PyClaw.Spec
variable {K : Type*} [Field K] [LinearOrder K] {m w : Nat}

/-- The fluctuations of a solver are linear in the jump (constant matrices `A⁻`, `A⁺`). -/
def LinearParts {B : Type*} (Am Ap : (Fin m → K) →ₗ[K] (Fin m → K)) (rp : Riemann K B m w) : Prop :=
  ∀ ql qr al ar, (rp ql qr al ar).amdq = Am (qr - ql) ∧ (rp ql qr al ar).apdq = Ap (qr - ql)

/-- A transverse solver for a constant matrix `C`: it splits `C a` into two linear parts. -/
def LinearTransverse {B : Type*} (C : (Fin m → K) →ₗ[K] (Fin m → K)) (rt : Transverse K B m) : Prop :=
  ∃ Cm Cp : (Fin m → K) →ₗ[K] (Fin m → K), Cm + Cp = C ∧ ∀ imp ql qr al ar a, rt imp ql qr al ar a = (Cm a, Cp a)

/-- Quadratic data in two dimensions. -/
structure Quadratic2 (K : Type*) (m : Nat) where
  c00 : Fin m → K
  c10 : Fin m → K
  c01 : Fin m → K
  c20 : Fin m → K
  c11 : Fin m → K
  c02 : Fin m → K

def Quadratic2.at (p : Quadratic2 K m) (x y : K) : Fin m → K :=
  p.c00 + x • p.c10 + y • p.c01 + x ^ 2 • p.c20 + (x * y) • p.c11 + y ^ 2 • p.c02

/-- Exact solution at time `t` of `q_t + A q_x + C q_y = 0` with quadratic initial data: the Taylor series in `t`, which
ends after the second term. -/
def Quadratic2.solution (A C : (Fin m → K) →ₗ[K] (Fin m → K)) (p : Quadratic2 K m) (t x y : K) : Fin m → K :=
  let qx := p.c10 + (2 * x) • p.c20 + y • p.c11
  let qy := p.c01 + (2 * y) • p.c02 + x • p.c11
  let qxx := (2 : K) • p.c20
  let qyy := (2 : K) • p.c02
  let qxy := p.c11
  p.at x y - t • (A qx + C qy) + (t ^ 2 / 2) • (A (A qxx) + A (C qxy) + C (A qxy) + C (C qyy))

end PyClaw.Spec

namespace PyClaw.Spec
variable {K : Type*} [Field K] [LinearOrder K]

/-- The upwind difference of cell `i`, times `lam = dt/dx`. -/
def upPart (lam u : K) (v : Int → K) (i : Int) : K :=
  lam * (max u 0 * (v i - v (i - 1)) + min u 0 * (v (i + 1) - v i))

/-- The difference of the second-order correction fluxes of cell `i`, times `lam = dt/dx`. -/
def corrPart (lam u : K) (v : Int → K) (i : Int) : K :=
  lam * (1 / 2 * |u| * (1 - |u| * lam)) * (v (i + 1) - 2 * v i + v (i - 1))

/-- A polynomial in `x`, `y`, `z`, given as a list of coefficients and exponents. -/
def polyAt (l : List (K × Nat × Nat × Nat)) (x y z : K) : K :=
  (l.map fun t => t.1 * (x ^ t.2.1 * y ^ t.2.2.1 * z ^ t.2.2.2)).sum

/-- At most one of the exponents is 2, none is larger. -/
def OneSquare (a b e : Nat) : Prop := (a ≤ 2 ∧ b ≤ 2 ∧ e ≤ 2) ∧ (a < 2 ∨ b < 2) ∧ (a < 2 ∨ e < 2) ∧ (b < 2 ∨ e < 2)

/-- The monomials `x^a y^b` for which the unsplit two-dimensional second-order method is exact: those in one variable
without transverse waves, those of degree 2 with transverse increment waves, and `x² y`, `x y²` in addition if the
correction waves are split as well. -/
def ExactFor2 (trans : Int) (a b : Nat) : Prop :=
  if trans ≤ 0 then (a = 0 ∧ b ≤ 2) ∨ (b = 0 ∧ a ≤ 2)
  else if trans = 2 then (a ≤ 2 ∧ b ≤ 2) ∧ (a < 2 ∨ b < 2)
  else a + b ≤ 2

/-- The monomials for which the unsplit three-dimensional second-order method is exact, for the documented values of
`transverse_waves`. -/
def ExactFor3 (trans : Int) (a b e : Nat) : Prop :=
  if trans = 22 then OneSquare a b e
  else if trans = 21 then OneSquare a b e ∧ (a = 0 ∨ b = 0 ∨ e = 0 ∨ a + b + e = 3)
  else if trans = 20 then OneSquare a b e ∧ (a = 0 ∨ b = 0 ∨ e = 0)
  else if trans = 11 then a + b + e ≤ 2 ∨ (a = 1 ∧ b = 1 ∧ e = 1)
  else if trans = 10 then a + b + e ≤ 2
  else a + b + e ≤ 2 ∧ ((a = 0 ∧ b = 0) ∨ (a = 0 ∧ e = 0) ∨ (b = 0 ∧ e = 0))

end PyClaw.Spec
