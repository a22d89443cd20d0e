import Verif.Spec.Symmetry

/-! Specification of C101: the units in which a problem is stated. -/
namespace PyClaw.Spec

variable {K : Type*}

/-- Settings in another unit of time: one old unit is `c` new ones. Courant numbers and counts have no unit. -/
def setIn [Mul K] (c : K) (s : StepSettings K) : StepSettings K :=
  { s with dt := c * s.dt, dtOld := s.dtOld.map (c * ·), dtMax := c * s.dtMax }

/-- The status in another unit of time. -/
def statusIn [Mul K] (c : K) (s : StepStatus K) : StepStatus K :=
  { s with dtmin := s.dtmin.map (c * ·), dtmax := s.dtmax.map (c * ·) }

/-- An attempted step in another unit of time. -/
def attemptIn [Mul K] (c : K) (a : Attempt K) : Attempt K :=
  { a with tBefore := c * a.tBefore, dt := c * a.dt, tAfter := c * a.tAfter }

/-- Two runs do the same in different units of time: all times, step sizes, and the record of all attempted steps are the same up to
the factor `c`, and their data are related by `R`. -/
structure SameRun {Q W : Type*} [Mul K] (c : K) (R : Q × W → Q × W → Prop) (s s' : StepState K Q W) : Prop where
  set : s'.set = setIn c s.set
  status : s'.status = statusIn c s.status
  t : s'.sol.t = c * s.sol.t
  log : s'.log = s.log.map (attemptIn c)
  data : R (s.sol.q, s.sol.rest) (s'.sol.q, s'.sol.rest)

/-- Calls of `evolve_to_time` (`none`: a single step) one after the other. -/
def callsTo {Q W : Type*} (ts : List (Option K)) : List (StepOp K Q W) := ts.map .evolve

/-- `rp'` is the Riemann solver `rp` in other units: component `k` of the solution has the unit with factor `σ k`, speeds have the factor
`v`, aux values are converted by `onAux`. Fluctuations and f-waves have the unit of solution times speed. -/
def InUnits {A : Type*} [Mul K] {m w : Nat} (σ : Fin m → K) (v : K) (onAux : A → A) (fwave : Bool) (rp rp' : Riemann K A m w) : Prop :=
  ∀ ql qr al ar,
    (∀ p, (rp' (signed σ ql) (signed σ qr) (onAux al) (onAux ar)).s p = v * (rp ql qr al ar).s p) ∧
    (∀ p k, (rp' (signed σ ql) (signed σ qr) (onAux al) (onAux ar)).wave p k =
      if fwave then v * (σ k * (rp ql qr al ar).wave p k) else σ k * (rp ql qr al ar).wave p k) ∧
    (∀ k, (rp' (signed σ ql) (signed σ qr) (onAux al) (onAux ar)).amdq k = v * (σ k * (rp ql qr al ar).amdq k)) ∧
    (∀ k, (rp' (signed σ ql) (signed σ qr) (onAux al) (onAux ar)).apdq k = v * (σ k * (rp ql qr al ar).apdq k))

/-- All components have the same unit (up to the sign). -/
def OneUnit [Mul K] [Zero K] {m : Nat} (σ : Fin m → K) : Prop := ∃ μ, μ ≠ 0 ∧ ∀ k, σ k * σ k = μ

/-- The transverse solver in other units: `v` is the factor of speeds along the sweep, `v'` of speeds across it. -/
def TransverseInUnits {A : Type*} [Mul K] {m : Nat} (σ : Fin m → K) (v v' : K) (onAux : A → A) (rt rt' : Transverse K A m) : Prop :=
  ∀ imp ql qr al ar a,
    rt' imp (signed σ ql) (signed σ qr) (onThree onAux al) (onThree onAux ar) (fun k => v * (σ k * a k)) =
      (fun k => v * (v' * (σ k * (rt imp ql qr al ar a).1 k)), fun k => v * (v' * (σ k * (rt imp ql qr al ar a).2 k)))

/-- The transverse solvers in three dimensions in other units: `v₁` is the factor of speeds along the sweep, `v₂` and `v₃` those of speeds
in the two directions across it. The double transverse solver splits once more what was split in the other direction. -/
def Transverse3InUnits {A : Type*} [Mul K] {m : Nat} (σ : Fin m → K) (v₁ v₂ v₃ : K) (onAux : A → A) (rt rt' : Transverse3 K A m)
    (rtt rtt' : Transverse33 K A m) : Prop :=
  ∀ icoor : Nat, icoor = 2 ∨ icoor = 3 → ∀ imp ql qr al ar a,
    let here := if icoor = 2 then v₂ else v₃
    let other := if icoor = 2 then v₃ else v₂
    rt' icoor imp (signed σ ql) (signed σ qr) (fun i j => onAux (al i j)) (fun i j => onAux (ar i j)) (fun k => v₁ * (σ k * a k)) =
      (fun k => v₁ * (here * (σ k * (rt icoor imp ql qr al ar a).1 k)), fun k => v₁ * (here * (σ k * (rt icoor imp ql qr al ar a).2 k))) ∧
    ∀ impt, rtt' icoor imp impt (signed σ ql) (signed σ qr) (fun i j => onAux (al i j)) (fun i j => onAux (ar i j))
        (fun k => v₁ * (other * (σ k * a k))) =
      (fun k => v₁ * (other * (here * (σ k * (rtt icoor imp impt ql qr al ar a).1 k))),
       fun k => v₁ * (other * (here * (σ k * (rtt icoor imp impt ql qr al ar a).2 k))))

end PyClaw.Spec
