import Verif.Model.ParallelKernels
import Verif.Spec.SharpFlux
import Verif.Spec.GaugeRecord
import Verif.Spec.BC

/-! Vocabulary for properties of whole runs of the classic solvers (boundary conditions, kernel and time loop together). -/
namespace PyClaw.Spec

variable {ι K : Type*}

/-- A serial run on a grid with at least as many cells as ghost cells along every axis and periodic boundary conditions on
all sides, for `q` and for `aux`. -/
structure PeriodicGrid (bc : BCConfig ι K) : Prop where
  cells : ∀ a, 0 < bc.n a ∧ bc.g ≤ bc.n a
  serial : ∀ a, bc.onLower a = true ∧ bc.onUpper a = true
  q : ∀ a, bc.bcLower a = .periodic ∧ bc.bcUpper a = .periodic
  aux : ∀ a, bc.auxLower a = .periodic ∧ bc.auxUpper a = .periodic

/-- No source term, and `before_step` changes nothing. -/
structure Homogeneous (c : ParCfg ι K) : Prop where
  source : c.source = none
  beforeQ : ∀ t x q aux, c.beforeQ t x q aux = q
  beforeAux : ∀ t x q aux, c.beforeAux t x q aux = aux

/-- The aux values of the cell with index `x` (counted from 0 along every axis). -/
def auxAt (naux : Nat) (aux : GArr ι K) (x : ι → Nat) : Fin naux → K := fun k => aux k x

/-- The total of component `k` over all cells of a grid with `n a` cells along axis `a`; the volume of a cell is the
product `dV` of the cell widths, times the capacity of the cell if there is a capacity function. -/
def gridTotal [Field K] [Fintype ι] [DecidableEq ι] {naux : Nat} (n : ι → Nat) (dV : K) (capa : Option ((Fin naux → K) → K))
    (aux q : GArr ι K) (k : Nat) : K :=
  ∑ x ∈ Fintype.piFinset fun a => Finset.range (n a), dV * capacity capa (auxAt naux aux x) * q k x

/-- The capacity of every cell of the grid is positive. -/
def PositiveCapacity [Field K] [LinearOrder K] {naux : Nat} (n : ι → Nat) (capa : Option ((Fin naux → K) → K)) (aux : GArr ι K) : Prop :=
  ∀ κ, capa = some κ → ∀ x : ι → Nat, (∀ a, x a < n a) → 0 < κ (auxAt naux aux x)

/-- A run of a classic solver in `d` dimensions with at least two ghost cells (what classic solvers use), without source term
and with a `before_step` that changes nothing, on a state with `m` components and `naux` aux components; every step calls the
kernel `step`. -/
structure ClassicRun {d : Nat} (c : ParCfg (Fin d) K) (m naux : Nat) (step : IntKern (Fin d) K m naux) : Prop where
  homogeneous : Homogeneous c
  ghost : 2 ≤ c.bc.g
  numAux : c.bc.numAux = naux
  axes : c.axes = List.finRange d
  kern : c.kern = onArrays m naux c.bc.g step

/-- Axis `a` has a reflecting wall. -/
def HasWall (bc : BCConfig ι K) (a : ι) : Prop := bc.bcLower a = .wall ∨ bc.bcUpper a = .wall

/-- A Riemann solver that reads no aux values, used on a state that may have some. -/
def ignoreAux {m w : Nat} (naux : Nat) (rp : Riemann K Unit m w) : Riemann K (Fin naux → K) m w := fun ql qr _ _ => rp ql qr () ()

/-- The same for transverse solvers in two dimensions. -/
def ignoreAux2 {m : Nat} (naux : Nat) (rt : Transverse K Unit m) : Transverse K (Fin naux → K) m := fun imp ql qr _ _ a =>
  rt imp ql qr ((), (), ()) ((), (), ()) a

/-- The same for transverse solvers in three dimensions. -/
def ignoreAux3 {m : Nat} (naux : Nat) (rt : Transverse3 K Unit m) : Transverse3 K (Fin naux → K) m := fun icoor imp ql qr _ _ a =>
  rt icoor imp ql qr (fun _ _ => ()) (fun _ _ => ()) a

/-- The same for double transverse solvers. -/
def ignoreAux33 {m : Nat} (naux : Nat) (rtt : Transverse33 K Unit m) : Transverse33 K (Fin naux → K) m :=
  fun icoor imp impt ql qr _ _ a => rtt icoor imp impt ql qr (fun _ _ => ()) (fun _ _ => ()) a

/-- Variable time steps, no negative step size or target, and a limit of at most 1 for the Courant number. -/
structure StableSettings [Field K] [LinearOrder K] (set : StepSettings K) : Prop where
  variable_dt : set.dtVariable = true
  dt : 0 ≤ set.dt
  dtMax : 0 ≤ set.dtMax
  cflDesired : 0 ≤ set.cflDesired
  cflMax : set.cflMax ≤ 1

/-- All values of the grid lie between `lo` and `hi`. -/
def WithinBounds [LE K] (n : ι → Nat) (lo hi : K) (q : GArr ι K) : Prop :=
  ∀ x : ι → Nat, (∀ a, x a < n a) → lo ≤ q 0 x ∧ q 0 x ≤ hi

/-- The values of component 0 of a one-dimensional grid. -/
def lineValues (n : Nat) (q : GArr (Fin 1) K) : Fin n → K := fun i => q 0 fun _ => i.val

/-- The direction in which velocity `u` carries: 1, -1 or 0. -/
def heading [Field K] [LinearOrder K] (u : K) : Int := if 0 < u then 1 else if u < 0 then -1 else 0

/-- In a step of size `dt` the velocity `u` carries exactly one cell width, or it is 0. -/
def UnitCourant [Field K] [LinearOrder K] (u dt dx : K) : Prop := |u| * dt = dx ∨ u = 0

/-- The cell that lies `k a` cells before the cell `x` along every axis `a` of a periodic grid. -/
def cellBefore (n : ι → Nat) (k : ι → Int) (x : ι → Nat) : ι → Nat := fun a => (((x a : Int) - k a) % (n a : Int)).toNat

/-- Fixed steps that divide the way from the time of `s` to `T` into `N` steps, longer than the two tolerances `1e-10` and
`1e-14*tend` of the code, with a Courant limit of at least 1. -/
structure FixedSteps [Field K] [LinearOrder K] {Q W : Type*} (s : StepState K Q W) (T : K) (N : Nat) : Prop where
  fixed : s.set.dtVariable = false
  some_step : 0 < N
  dt : 1 / 10 ^ 10 < s.set.dt
  divides : T - s.sol.t = N * s.set.dt
  eps : T / 10 ^ 14 ≤ s.set.dt
  limit : 1 ≤ s.set.cflMax

end PyClaw.Spec
