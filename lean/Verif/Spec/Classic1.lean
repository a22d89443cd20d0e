import Verif.Model.Classic1

/-!
Specification of one step of the wave propagation method in one dimension (LeVeque, *Finite Volume
Methods for Hyperbolic Problems*, (6.50)–(6.61), with capacity (6.92)). Interface `i` lies between cells
`i-1` and `i`; `lam i` is `dt/dx` of cell `i`, divided by the capacity of the cell if there is one.
-/
namespace PyClaw.Spec

variable {K : Type*} [Field K] [LinearOrder K] {m w : Nat}

/-- The wave of family `p` at interface `i`, multiplied by the limiter `phi p` of the smoothness ratio
(projection of the upwind wave onto this one) and of the local Courant number. -/
def limitedWave (phi : Fin w → K → K → K) (lam : Int → K) (d : Int → Rp K m w) (i : Int) (p : Fin w) :
    Fin m → K :=
  let W := (d i).wave p
  let s := (d i).s p
  let up := if 0 < s then (d (i - 1)).wave p else (d (i + 1)).wave p
  if wdot W W = 0 then W
  else phi p (wdot up W / wdot W W) |s * (if 0 < s then lam (i - 1) else lam i)| • W

/-- The second-order correction flux at interface `i`: half the sum over the waves of
`a(s) (1 - |s| λ) W̃`, with `a(s) = |s|` for waves and the sign of `s` for f-waves. -/
def correctionFlux (a : K → K) (lam : Int → K) (d : Int → Rp K m w) (W : Int → Fin w → Fin m → K)
    (i : Int) : Fin m → K :=
  ∑ p, (1 / 2 * a ((d i).s p) * (1 - |(d i).s p| * (1 / 2 * (lam (i - 1) + lam i)))) • W i p

/-- The new value of cell `i` with correction fluxes `F`. -/
def waveProp (lam : Int → K) (d : Int → Rp K m w) (F : Int → Fin m → K) (q : Int → Fin m → K) (i : Int) :
    Fin m → K :=
  q i - lam i • ((d i).apdq + (d (i + 1)).amdq) - lam i • (F (i + 1) - F i)

/-- The Courant number with which a wave of speed `s` at interface `i` moves into the cell it enters. -/
def courant (lam : Int → K) (i : Int) (s : K) : K := if 0 < s then lam i * s else lam (i - 1) * |s|

end PyClaw.Spec

namespace PyClaw.Spec
variable {K : Type*} [Field K] [LinearOrder K] {m w : Nat}

/-- The Riemann solutions at the interfaces of a ghosted array. -/
def interfaces {A : Type*} (rp : Riemann K A m w) (aux : Int → A) (q : Int → Fin m → K) : Int → Rp K m w :=
  fun i => rp (q (i - 1)) (q i) (aux (i - 1)) (aux i)

/-- `dt/dx` of cell `i`, divided by its capacity if there is one. -/
def localRatio {A : Type*} (dt dx : K) (capa : Option (A → K)) (aux : Int → A) (i : Int) : K :=
  match capa with
  | some κ => dt / (dx * κ (aux i))
  | none => dt / dx

/-- The volume `dx` (times the capacity) of cell `i`. -/
def cellVolume {A : Type*} (dx : K) (capa : Option (A → K)) (aux : Int → A) (i : Int) : K :=
  match capa with
  | some κ => dx * κ (aux i)
  | none => dx

/-- The numerical flux through interface `i`: flux of the left state plus left-going fluctuation plus
correction flux. `fl i` is the physical flux in cell `i`. -/
def numericalFlux (fl : Int → Fin m → K) (d : Int → Rp K m w) (F : Int → Fin m → K) (i : Int) :
    Fin m → K :=
  fl (i - 1) + (d i).amdq + F i

/-- The total of the cells `lo, …, lo+n-1`, each weighted with its volume `vol i`. -/
def total (lo : Int) (n : Nat) (vol : Int → K) (q : Int → Fin m → K) : Fin m → K :=
  ∑ k ∈ Finset.range n, vol (lo + k) • q (lo + k)

/-- Cells `lo, …, lo+n-1` with `g` ghost cells on both sides: the data are periodic with period `n`. -/
def PeriodicGhost {α : Type*} (lo : Int) (g n : Nat) (v : Int → α) : Prop :=
  ∀ i : Int, lo - g ≤ i → i < lo + g → v (i + n) = v i

/-- The fluctuations at the interface of two cells add up to the flux difference (the condition for a
conservative method, LeVeque (4.56)). -/
def FluxDifference {A : Type*} (rp : Riemann K A m w) (fl : (Fin m → K) → A → Fin m → K) : Prop :=
  ∀ ql qr al ar, (rp ql qr al ar).amdq + (rp ql qr al ar).apdq = fl qr ar - fl ql al

/-- A limiter function lies in Sweby's second-order TVD region for Courant number `nu` (LeVeque (6.39) in
the form that depends on the Courant number): zero at extrema, and `(1-nu) phi <= 2`, `nu phi <= 2 r`
otherwise. -/
structure TvdRegion (phi : K → K → K) (nu : K) : Prop where
  zero : ∀ r, r ≤ 0 → phi r nu = 0
  nonneg : ∀ r, 0 < r → 0 ≤ phi r nu
  left : ∀ r, 0 < r → (1 - nu) * phi r nu ≤ 2
  right : ∀ r, 0 < r → nu * phi r nu ≤ 2 * r

/-- Total variation of `n` periodic values. -/
def totalVariation {n : Nat} [NeZero n] (v : Fin n → K) : K := ∑ k, |v (k + 1) - v k|

/-- The Riemann solver for constant-coefficient scalar advection with velocity `u`. -/
def advectionRp (u : K) : Riemann K Unit 1 1 := fun ql qr _ _ =>
  { wave := fun _ => qr - ql, s := fun _ => u, amdq := min u 0 • (qr - ql), apdq := max u 0 • (qr - ql) }

/-- What users expect of a limiter function of the ratio `r`: Sweby's region, second order, symmetry. -/
structure SwebyLimiter (phi : K → K) : Prop where
  zero : ∀ r, r ≤ 0 → phi r = 0
  nonneg : ∀ r, 0 < r → 0 ≤ phi r
  le_two : ∀ r, 0 < r → phi r ≤ 2
  le_two_r : ∀ r, 0 < r → phi r ≤ 2 * r
  one : phi 1 = 1

/-- Symmetry between forward and backward differences. -/
def SymmetricLimiter (phi : K → K) : Prop := ∀ r, 0 < r → phi r / r = phi (1 / r)

/-- `x` is the largest Courant number of the waves at the interfaces `lo, …, hi-1`, or 0. -/
def IsMaxCourant (lam : Int → K) (d : Int → Rp K m w) (lo hi : Int) (x : K) : Prop :=
  0 ≤ x ∧ (∀ i p, lo ≤ i → i < hi → courant lam i ((d i).s p) ≤ x) ∧
    (x = 0 ∨ ∃ i p, lo ≤ i ∧ i < hi ∧ x = courant lam i ((d i).s p))

/-- The Riemann solver gives no waves between equal states, next to any aux values. -/
def Quiet {A : Type*} (rp : Riemann K A m w) : Prop :=
  ∀ v al ar, (∀ p, (rp v v al ar).wave p = 0) ∧ (rp v v al ar).amdq = 0 ∧ (rp v v al ar).apdq = 0

end PyClaw.Spec
