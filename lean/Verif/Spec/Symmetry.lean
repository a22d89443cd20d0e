import Verif.Spec.Runs
import Mathlib.Logic.Equiv.Defs
import Mathlib.Algebra.BigOperators.Pi

/-! Vocabulary for properties that compare two runs. -/
namespace PyClaw.Spec

variable {ι K : Type*}

/-- Two runs are in step: same settings (step size, Courant number, …), same status, same time, same record of attempted
steps; their data are related by `R`. -/
structure InStep {Q W : Type*} (R : Q × W → Q × W → Prop) (s s' : StepState K Q W) : Prop where
  set : s'.set = s.set
  status : s'.status = s.status
  t : s'.sol.t = s.sol.t
  log : s'.log = s.log
  data : R (s.sol.q, s.sol.rest) (s'.sol.q, s'.sol.rest)

/-- The values of `q` and `aux` in the cells of two grids correspond: the cell `x` of the second grid (which has `n a` cells along
axis `a`) holds what the cell `cell x` of the first holds, transformed by `onQ` and `onAux`. -/
def Corresponds (m naux : Nat) (n : ι → Nat) (cell : (ι → Nat) → ι → Nat) (onQ : (Fin m → K) → Fin m → K)
    (onAux : (Fin naux → K) → Fin naux → K) (d d' : GArr ι K × GArr ι K × BCArrays ι K) : Prop :=
  ∀ x : ι → Nat, (∀ a, x a < n a) →
    (fun k : Fin m => d'.1 k.val x) = onQ (fun k => d.1 k.val (cell x)) ∧
      auxAt naux d'.2.1 x = onAux (auxAt naux d.2.1 (cell x))

/-! ### Mirror images along one axis -/

/-- The cell at the same distance from the other end of axis `a`. -/
def mirrorCell [DecidableEq ι] (n : ι → Nat) (a : ι) (x : ι → Nat) : ι → Nat := Function.update x a (n a - 1 - x a)

/-- The boundary conditions of both ends of axis `a` exchanged. -/
def mirrorBC [DecidableEq ι] (a : ι) (bc : BCConfig ι K) : BCConfig ι K :=
  { bc with
    bcLower := Function.update bc.bcLower a (bc.bcUpper a)
    bcUpper := Function.update bc.bcUpper a (bc.bcLower a)
    auxLower := Function.update bc.auxLower a (bc.auxUpper a)
    auxUpper := Function.update bc.auxUpper a (bc.auxLower a) }

/-- The components multiplied by signs: normal velocities change sign in a mirror. -/
def signed {m : Nat} [Mul K] (σ z : Fin m → K) : Fin m → K := fun k => σ k * z k

/-- `σ` consists of signs. -/
def IsSign {m : Nat} [One K] [Neg K] (σ : Fin m → K) : Prop := ∀ k, σ k = 1 ∨ σ k = -1

/-- `rp'` is the mirror image of the Riemann solver `rp`: with the states and aux values in the mirror, left and right exchanged, every
speed changes its sign, left- and right-going fluctuations are exchanged, and waves are jumps from the other side (f-waves: jumps of
the flux, which itself changes its sign). `π` says which family is the image of which. -/
def MirrorImage {A : Type*} [Mul K] [Neg K] {m w : Nat} (σ : Fin m → K) (onAux : A → A) (π : Equiv.Perm (Fin w)) (fwave : Bool)
    (rp rp' : Riemann K A m w) : Prop :=
  ∀ ql qr al ar,
    (∀ p, (rp' (signed σ qr) (signed σ ql) (onAux ar) (onAux al)).s (π p) = -(rp ql qr al ar).s p) ∧
    (∀ p, (rp' (signed σ qr) (signed σ ql) (onAux ar) (onAux al)).wave (π p) =
      if fwave then signed σ ((rp ql qr al ar).wave p) else -signed σ ((rp ql qr al ar).wave p)) ∧
    (rp' (signed σ qr) (signed σ ql) (onAux ar) (onAux al)).amdq = signed σ (rp ql qr al ar).apdq ∧
    (rp' (signed σ qr) (signed σ ql) (onAux ar) (onAux al)).apdq = signed σ (rp ql qr al ar).amdq

/-! ### Two dimensions -/

/-- A linear map of the components that keeps the scalar product: signs, permutations, rotations of the velocity. -/
structure Rigid {m : Nat} [Field K] (T : (Fin m → K) → Fin m → K) : Prop where
  add : ∀ u v, T (u + v) = T u + T v
  smul : ∀ (x : K) u, T (x • u) = x • T u
  dot : ∀ u v, ∑ k, T u k * T v k = ∑ k, u k * v k

/-- `rp'` is the Riemann solver `rp` in other components: it gives for the transformed states the transformed waves and fluctuations and
the same speeds. -/
def TurnedImage {A : Type*} {m w : Nat} (T : (Fin m → K) → Fin m → K) (onAux : A → A) (π : Equiv.Perm (Fin w))
    (rp rp' : Riemann K A m w) : Prop :=
  ∀ ql qr al ar,
    (∀ p, (rp' (T ql) (T qr) (onAux al) (onAux ar)).s (π p) = (rp ql qr al ar).s p) ∧
    (∀ p, (rp' (T ql) (T qr) (onAux al) (onAux ar)).wave (π p) = T ((rp ql qr al ar).wave p)) ∧
    (rp' (T ql) (T qr) (onAux al) (onAux ar)).amdq = T (rp ql qr al ar).amdq ∧
    (rp' (T ql) (T qr) (onAux al) (onAux ar)).apdq = T (rp ql qr al ar).apdq

/-- A map of the aux values of a cell applied to the cells below, at and above an interface. -/
def onThree {A : Type*} (f : A → A) (z : A × A × A) : A × A × A := (f z.1, f z.2.1, f z.2.2)

/-- Below and above exchanged. -/
def upsideDown {A : Type*} (z : A × A × A) : A × A × A := (z.2.2, z.2.1, z.1)

/-- The transverse solver in other components. -/
def TurnedTransverse {A : Type*} {m : Nat} (T : (Fin m → K) → Fin m → K) (onAux : A → A) (rt rt' : Transverse K A m) : Prop :=
  ∀ imp ql qr al ar a, rt' imp (T ql) (T qr) (onThree onAux al) (onThree onAux ar) (T a) =
    (T (rt imp ql qr al ar a).1, T (rt imp ql qr al ar a).2)

/-- The transverse solver in a mirror that exchanges left and right: `imp` 1 (left-going fluctuation) and 2 are exchanged. -/
def MirrorTransverse {A : Type*} [Mul K] {m : Nat} (σ : Fin m → K) (onAux : A → A) (rt rt' : Transverse K A m) : Prop :=
  ∀ ql qr al ar a,
    rt' 2 (signed σ qr) (signed σ ql) (onThree onAux ar) (onThree onAux al) (signed σ a) =
      (signed σ (rt 1 ql qr al ar a).1, signed σ (rt 1 ql qr al ar a).2) ∧
    rt' 1 (signed σ qr) (signed σ ql) (onThree onAux ar) (onThree onAux al) (signed σ a) =
      (signed σ (rt 2 ql qr al ar a).1, signed σ (rt 2 ql qr al ar a).2)

/-- The transverse solver in a mirror that exchanges down and up: what went down goes up, and transverse speeds change their signs. -/
def SidewaysTransverse {A : Type*} [Mul K] [Neg K] {m : Nat} (σ : Fin m → K) (onAux : A → A) (rt rt' : Transverse K A m) : Prop :=
  ∀ imp ql qr al ar a,
    rt' imp (signed σ ql) (signed σ qr) (upsideDown (onThree onAux al)) (upsideDown (onThree onAux ar)) (signed σ a) =
      (-signed σ (rt imp ql qr al ar a).2, -signed σ (rt imp ql qr al ar a).1)

/-- The two axes exchanged. -/
def otherAxis (a : Fin 2) : Fin 2 := if a = 0 then 1 else 0

/-- The boundary conditions with the axes exchanged; component `k` of the new state is component `τ k` of the old one. -/
def transposeBC {m : Nat} (τ : Equiv.Perm (Fin m)) (bc : BCConfig (Fin 2) K) : BCConfig (Fin 2) K :=
  { bc with
    n := fun a => bc.n (otherAxis a)
    bcLower := fun a => bc.bcLower (otherAxis a)
    bcUpper := fun a => bc.bcUpper (otherAxis a)
    auxLower := fun a => bc.auxLower (otherAxis a)
    auxUpper := fun a => bc.auxUpper (otherAxis a)
    reflect := fun a => if h : bc.reflect (otherAxis a) < m then (τ.symm ⟨bc.reflect (otherAxis a), h⟩).val else bc.reflect (otherAxis a)
    onLower := fun a => bc.onLower (otherAxis a)
    onUpper := fun a => bc.onUpper (otherAxis a) }

/-! ### Three dimensions -/

/-- A map of the aux values of a cell applied to the nine cells around an interface, numbered in the two directions across the sweep. -/
def onNine {A : Type*} (f : A → A) (z : Fin 3 → Fin 3 → A) : Fin 3 → Fin 3 → A := fun a b => f (z a b)

/-- The first of these directions reversed. -/
def turnedOver {A : Type*} (z : Fin 3 → Fin 3 → A) : Fin 3 → Fin 3 → A := fun a b => z a.rev b

/-- The two directions across a sweep exchanged, for a transverse solver and for a double transverse solver. -/
def exchanged {A : Type*} {m : Nat} (rt : Transverse3 K A m) : Transverse3 K A m := fun icoor imp ql qr al ar a =>
  rt (if icoor = 2 then 3 else 2) imp ql qr (fun a b => al b a) (fun a b => ar b a) a

@[inherit_doc exchanged]
def exchanged₂ {A : Type*} {m : Nat} (rtt : Transverse33 K A m) : Transverse33 K A m := fun icoor imp impt ql qr al ar a =>
  rtt (if icoor = 2 then 3 else 2) imp impt ql qr (fun a b => al b a) (fun a b => ar b a) a

/-- The transverse solvers in other components. -/
def TurnedTransverse3 {A : Type*} {m : Nat} (T : (Fin m → K) → Fin m → K) (onAux : A → A) (rt rt' : Transverse3 K A m)
    (rtt rtt' : Transverse33 K A m) : Prop :=
  ∀ icoor, icoor = 2 ∨ icoor = 3 → ∀ imp ql qr al ar a,
    rt' icoor imp (T ql) (T qr) (onNine onAux al) (onNine onAux ar) (T a) =
      (T (rt icoor imp ql qr al ar a).1, T (rt icoor imp ql qr al ar a).2) ∧
    ∀ impt, impt = 1 ∨ impt = 2 → rtt' icoor imp impt (T ql) (T qr) (onNine onAux al) (onNine onAux ar) (T a) =
      (T (rtt icoor imp impt ql qr al ar a).1, T (rtt icoor imp impt ql qr al ar a).2)

/-- The transverse solvers in a mirror that exchanges left and right: `imp` 1 (left-going fluctuation) and 2 are exchanged. (`imp` 0: the
solver is not told.) Fluctuations keep their sign, second-order corrections change it, as they belong to fluxes. -/
def MirrorTransverse3 {A : Type*} [Mul K] [Neg K] {m : Nat} (σ : Fin m → K) (onAux : A → A) (rt rt' : Transverse3 K A m)
    (rtt rtt' : Transverse33 K A m) : Prop :=
  ∀ imp imp' : Nat, (imp = 1 ∧ imp' = 2) ∨ (imp = 2 ∧ imp' = 1) ∨ (imp = 0 ∧ imp' = 0) → ∀ icoor, icoor = 2 ∨ icoor = 3 → ∀ ql qr al ar a,
    rt' icoor imp' (signed σ qr) (signed σ ql) (onNine onAux ar) (onNine onAux al) (signed σ a) =
      (signed σ (rt icoor imp ql qr al ar a).1, signed σ (rt icoor imp ql qr al ar a).2) ∧
    rt' icoor imp' (signed σ qr) (signed σ ql) (onNine onAux ar) (onNine onAux al) (-signed σ a) =
      (-signed σ (rt icoor imp ql qr al ar a).1, -signed σ (rt icoor imp ql qr al ar a).2) ∧
    ∀ impt, impt = 1 ∨ impt = 2 → rtt' icoor imp' impt (signed σ qr) (signed σ ql) (onNine onAux ar) (onNine onAux al) (signed σ a) =
      (signed σ (rtt icoor imp impt ql qr al ar a).1, signed σ (rtt icoor imp impt ql qr al ar a).2)

/-- The transverse solvers in a mirror that reverses the first direction across the sweep (`icoor` 2): what went down goes up, and the
speeds in this direction change their signs. A part that went down (`impt` 1) arrives at the double transverse solver as a part that goes
up (`impt` 2), with the opposite sign. -/
def SidewaysTransverse3 {A : Type*} [Mul K] [Neg K] {m : Nat} (σ : Fin m → K) (onAux : A → A) (rt rt' : Transverse3 K A m)
    (rtt rtt' : Transverse33 K A m) : Prop :=
  ∀ imp ql qr al ar a,
    rt' 2 imp (signed σ ql) (signed σ qr) (turnedOver (onNine onAux al)) (turnedOver (onNine onAux ar)) (signed σ a) =
      (-signed σ (rt 2 imp ql qr al ar a).2, -signed σ (rt 2 imp ql qr al ar a).1) ∧
    rt' 3 imp (signed σ ql) (signed σ qr) (turnedOver (onNine onAux al)) (turnedOver (onNine onAux ar)) (signed σ a) =
      (signed σ (rt 3 imp ql qr al ar a).1, signed σ (rt 3 imp ql qr al ar a).2) ∧
    (∀ impt, impt = 1 ∨ impt = 2 → rtt' 2 imp impt (signed σ ql) (signed σ qr) (turnedOver (onNine onAux al)) (turnedOver (onNine onAux ar)) (signed σ a) =
      (-signed σ (rtt 2 imp impt ql qr al ar a).2, -signed σ (rtt 2 imp impt ql qr al ar a).1)) ∧
    ∀ impt impt' : Nat, (impt = 1 ∧ impt' = 2) ∨ (impt = 2 ∧ impt' = 1) →
      rtt' 3 imp impt' (signed σ ql) (signed σ qr) (turnedOver (onNine onAux al)) (turnedOver (onNine onAux ar)) (-signed σ a) =
        (-signed σ (rtt 3 imp impt ql qr al ar a).1, -signed σ (rtt 3 imp impt ql qr al ar a).2)

/-- The solvers for three axes in a mirror across axis `a`: `rp b`, `rt b` and `rtt b` are those for the sweeps along axis `b`, for which
`b + 1` and `b + 2` are the directions across. -/
structure MirrorImage3 {A : Type*} [Mul K] [Neg K] {m w : Nat} (a : Fin 3) (σ : Fin m → K) (onAux : A → A) (π : Fin 3 → Equiv.Perm (Fin w))
    (fwave : Bool) (rp rp' : Fin 3 → Riemann K A m w) (rt rt' : Fin 3 → Transverse3 K A m) (rtt rtt' : Fin 3 → Transverse33 K A m) : Prop where
  across : MirrorImage σ onAux (π a) fwave (rp a) (rp' a)
  along : ∀ b, b ≠ a → TurnedImage (signed σ) onAux (π b) (rp b) (rp' b)
  transverse : MirrorTransverse3 σ onAux (rt a) (rt' a) (rtt a) (rtt' a)
  before : SidewaysTransverse3 σ onAux (rt (a + 2)) (rt' (a + 2)) (rtt (a + 2)) (rtt' (a + 2))
  after : SidewaysTransverse3 σ onAux (exchanged (rt (a + 1))) (exchanged (rt' (a + 1))) (exchanged₂ (rtt (a + 1)))
    (exchanged₂ (rtt' (a + 1)))

/-- The boundary conditions with the axes in another order: axis `a` is what was axis `ρ a`; component `k` of the new state is component
`τ k` of the old one. -/
def permuteBC {m : Nat} (ρ : Equiv.Perm ι) (τ : Equiv.Perm (Fin m)) (bc : BCConfig ι K) : BCConfig ι K :=
  { bc with
    n := fun a => bc.n (ρ a)
    bcLower := fun a => bc.bcLower (ρ a)
    bcUpper := fun a => bc.bcUpper (ρ a)
    auxLower := fun a => bc.auxLower (ρ a)
    auxUpper := fun a => bc.auxUpper (ρ a)
    reflect := fun a => if h : bc.reflect (ρ a) < m then (τ.symm ⟨bc.reflect (ρ a), h⟩).val else bc.reflect (ρ a)
    onLower := fun a => bc.onLower (ρ a)
    onUpper := fun a => bc.onUpper (ρ a) }

/-! ### Images behind a wall -/

/-- The grid of `n` cells continued by its image behind its right end: twice as many cells, and on the right the condition of the left
end. -/
def unfoldBC (bc : BCConfig (Fin 1) K) : BCConfig (Fin 1) K :=
  { bc with
    n := fun _ => 2 * bc.n 0
    bcUpper := bc.bcLower
    auxUpper := bc.auxLower }

/-- The second data are the first, followed by their image: read from right to left, with the signs `ρ`. -/
def Unfolded [Mul K] (m naux n : Nat) (ρ : Fin m → K) (d d' : GArr (Fin 1) K × GArr (Fin 1) K × BCArrays (Fin 1) K) : Prop :=
  ∀ i : Nat, i < n →
    (∀ k : Fin m, d'.1 k.val (fun _ => i) = d.1 k.val (fun _ => i) ∧ d'.1 k.val (fun _ => 2 * n - 1 - i) = ρ k * d.1 k.val (fun _ => i)) ∧
    auxAt naux d'.2.1 (fun _ => i) = auxAt naux d.2.1 (fun _ => i) ∧ auxAt naux d'.2.1 (fun _ => 2 * n - 1 - i) = auxAt naux d.2.1 (fun _ => i)

end PyClaw.Spec
