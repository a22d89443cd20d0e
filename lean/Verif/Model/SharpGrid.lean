import Verif.Model.SharpStages
import Verif.Model.SharpFlux
import Verif.Model.ParallelKernels
import Mathlib.Algebra.Module.Pi

/-!
SharpClaw on a grid: `dq` and `dq_hyperbolic` of the SharpClaw solvers (/repo/src/pyclaw/sharpclaw/solver.py:532-542, 710-760, 877-898,
958-983) around the Fortran kernels `flux1`, `flux2`, `flux3`, on one process and on several.

Simplifications. As in `Model/Parallel.lean` for the exchange of ghost cells and the reduction of Courant numbers. `aux` does not change
during a run. `dq_src` and `before_step` treat each cell separately and do not raise. The processes of a parallel run compute their step
sizes and decisions from the same reduced Courant numbers; the model keeps these numbers once. `solver.qbc` is filled anew in each call: the
entries before the call are taken as 0. An exception or a Fortran `stop` inside `dq` ends the program; here `dq` then returns 0.
-/
namespace PyClaw

variable {K : Type*} [Field K] [LinearOrder K] {m w : Nat}

/-! ### Kernels -/

/-- The options of the reconstruction (`clawparams`, /repo/src/pyclaw/sharpclaw/ClawParams.f90) and what the work arrays hold from
earlier calls (`first`, `old`). -/
structure ReconCfg (K : Type*) (m w : Nat) where
  eps : K
  tol : K
  undef : K
  first : Fin m → K
  limType : Int
  charDecomp : Int
  order : Int
  fwave : Bool
  limEqn : Fin m → Int
  limWave : Fin w → Int
  old : Edges K m

/-- The reconstruction in `flux1`, flux1.f90:65-121, for a row of `mx` cells: `weno_comp` and `weno5` run to `maxnx`, the other routines to
the end of the row. `none` is `stop`, or one of the routines that are not modelled. -/
def reconRow {A : Type*} (R : ReconCfg K m w) (rp : Riemann K A m w) (mx maxnx g : Nat) (aux : Int → A) (q : Int → Fin m → K) :
    Option (Edges K m) :=
  fRecon R.eps R.tol R.undef R.first rp
    ⟨if (R.limType = 2 ∧ R.charDecomp = 0) ∨ R.limType = 3 then maxnx else mx, g, 0, 0⟩
    R.limType R.charDecomp R.order R.fwave R.limEqn R.limWave R.old none aux q

/-- A total fluctuation solver, if there is one. -/
abbrev TotalFluct (K A : Type*) (m : Nat) := Option ((Fin m → K) → (Fin m → K) → A → A → Fin m → K)

/-- `flux1` called by `dq_hyperbolic` in one dimension, solver.py:745-757. -/
def intFlux1 {naux : Nat} (f2003 : Bool) (R : ReconCfg K m w) (rp : Riemann K (Fin naux → K) m w) (tf : TotalFluct K (Fin naux → K) m)
    (g : Nat) (dx : K) (capa : Option ((Fin naux → K) → K)) : IntKern (Fin 1) K m naux := fun dt n aux q =>
  (reconRow R rp (n 0) (n 0) g (fun i => aux fun _ => i) (fun i => q fun _ => i)).map fun e =>
    let r := flux1 f2003 rp tf ⟨n 0, g, dt, dx⟩ capa (fun i => aux fun _ => i) e
    (fun v => r.1 (v 0), r.2)

/-- `cfl` in `flux2`, flux2.f90:38-76. -/
def flux2Cfl {A : Type*} (f2003 : Bool) (rpx rpy : Riemann K A m w) (tfx tfy : TotalFluct K A m) (mx my g : Nat) (dt dx dy : K)
    (capa : Option (A → K)) (rx ry : (Int → A) → (Int → Fin m → K) → Edges K m) (aux : Int → Int → A) (q : Int → Int → Fin m → K) : K :=
  let cfl := (List.range (my + 2)).foldl (fun cfl (j : Nat) => max cfl
    (flux1 f2003 rpx tfx ⟨mx, g, dt, dx⟩ capa (fun i => aux i j) (rx (fun i => aux i j) (fun i => q i j))).2) 0
  (List.range (mx + 2)).foldl (fun cfl (i : Nat) => max cfl
    (flux1 f2003 rpy tfy ⟨my, g, dt, dy⟩ capa (fun j => aux i j) (ry (fun j => aux i j) (fun j => q i j))).2) cfl

/-- `flux2` called by `dq_hyperbolic` in two dimensions, solver.py:877-898; the first row swept is row 0. -/
def intFlux2 {naux : Nat} (f2003 : Bool) (R : ReconCfg K m w) (rpx rpy : Riemann K (Fin naux → K) m w)
    (tfx tfy : TotalFluct K (Fin naux → K) m) (g : Nat) (dx dy : K) (capa : Option ((Fin naux → K) → K)) : IntKern (Fin 2) K m naux :=
  fun dt n aux q =>
    let maxnx := max (n 0) (n 1)
    (reconRow R rpx (n 0) maxnx g (fun i => aux ![i, 0]) (fun i => q ![i, 0])).map fun _ =>
      let rx := fun a q => (reconRow R rpx (n 0) maxnx g a q).getD R.old
      let ry := fun a q => (reconRow R rpy (n 1) maxnx g a q).getD R.old
      (fun v => flux2 f2003 rpx rpy tfx tfy (n 0) (n 1) g dt dx dy capa rx ry (fun i j => aux ![i, j]) (fun i j => q ![i, j]) (v 0) (v 1),
        flux2Cfl f2003 rpx rpy tfx tfy (n 0) (n 1) g dt dx dy capa rx ry (fun i j => aux ![i, j]) (fun i j => q ![i, j]))

/-- `cfl` in `flux3`, flux3.f90:38-112. -/
def flux3Cfl {A : Type*} (f2003 : Bool) (rpx rpy rpz : Riemann K A m w) (tfx tfy tfz : TotalFluct K A m) (mx my mz g : Nat)
    (dt dx dy dz : K) (capa : Option (A → K)) (rx ry rz : (Int → A) → (Int → Fin m → K) → Edges K m) (aux : Int → Int → Int → A)
    (q : Int → Int → Int → Fin m → K) : K :=
  let cfl := (List.range (my + 2)).foldl (fun cfl (j : Nat) => (List.range (mz + 2)).foldl (fun cfl (k : Nat) => max cfl
    (flux1 f2003 rpx tfx ⟨mx, g, dt, dx⟩ capa (fun i => aux i j k) (rx (fun i => aux i j k) (fun i => q i j k))).2) cfl) 0
  let cfl := (List.range (mx + 2)).foldl (fun cfl (i : Nat) => (List.range (mz + 2)).foldl (fun cfl (k : Nat) => max cfl
    (flux1 f2003 rpy tfy ⟨my, g, dt, dy⟩ capa (fun j => aux i j k) (ry (fun j => aux i j k) (fun j => q i j k))).2) cfl) cfl
  (List.range (mx + 2)).foldl (fun cfl (i : Nat) => (List.range (my + 2)).foldl (fun cfl (j : Nat) => max cfl
    (flux1 f2003 rpz tfz ⟨mz, g, dt, dz⟩ capa (fun k => aux i j k) (rz (fun k => aux i j k) (fun k => q i j k))).2) cfl) cfl

/-- `flux3` called by `dq_hyperbolic` in three dimensions, solver.py:958-983; the first row swept is `(0, 0)`. -/
def intFlux3 {naux : Nat} (f2003 : Bool) (R : ReconCfg K m w) (rpx rpy rpz : Riemann K (Fin naux → K) m w)
    (tfx tfy tfz : TotalFluct K (Fin naux → K) m) (g : Nat) (dx dy dz : K) (capa : Option ((Fin naux → K) → K)) :
    IntKern (Fin 3) K m naux :=
  fun dt n aux q =>
    let maxnx := max (max (n 0) (n 1)) (n 2)
    (reconRow R rpx (n 0) maxnx g (fun i => aux ![i, 0, 0]) (fun i => q ![i, 0, 0])).map fun _ =>
      let rx := fun a q => (reconRow R rpx (n 0) maxnx g a q).getD R.old
      let ry := fun a q => (reconRow R rpy (n 1) maxnx g a q).getD R.old
      let rz := fun a q => (reconRow R rpz (n 2) maxnx g a q).getD R.old
      (fun v => flux3 f2003 rpx rpy rpz tfx tfy tfz (n 0) (n 1) (n 2) g dt dx dy dz capa rx ry rz (fun i j k => aux ![i, j, k])
          (fun i j k => q ![i, j, k]) (v 0) (v 1) (v 2),
        flux3Cfl f2003 rpx rpy rpz tfx tfy tfz (n 0) (n 1) (n 2) g dt dx dy dz capa rx ry rz (fun i j k => aux ![i, j, k])
          (fun i j k => q ![i, j, k]))

/-- The array `dq` of a kernel: zero where the kernel computes nothing. -/
def dqArrays {ι : Type*} (m naux g : Nat) (step : IntKern ι K m naux) : Kern ι K := fun dt n A =>
  (onArrays m naux g step dt n A).map fun r => (fun c idx => if c < m then r.1 c idx else 0, r.2)

/-! ### `dq` -/

variable {ι : Type*} [DecidableEq ι]

/-- What the user chooses. -/
structure SharpGrid (ι K : Type*) where
  bc : BCConfig ι K
  axes : List ι
  kern : Kern ι K
  /-- `dq_src`, given the step size and the time -/
  source : Option (K → K → CellMap ι K)
  /-- `before_step` at the beginning of a step -/
  before : K → CellMap ι K
  /-- `before_step` on the stages -/
  stage : K → CellMap ι K

/-- The part that `dq_hyperbolic` needs, for `hypSerial` and `hypLocal`. -/
def SharpGrid.par (c : SharpGrid ι K) : ParCfg ι K where
  bc := c.bc
  axes := c.axes
  kern := c.kern
  sourceSplit := 0
  source := none
  beforeQ := fun _ _ q _ => q
  beforeAux := fun _ _ _ a => a

/-- The arrays with which `dq_hyperbolic` starts. -/
def gridData (q aux : GArr ι K) : HypData ι K := ⟨q, aux, ⟨fun _ _ => 0, fun _ _ => 0⟩⟩

/-- `deltaq += self.dq_src(...)`, solver.py:539-540, on the part of the grid that begins at `lo`. -/
def withSource (c : SharpGrid ι K) (lo : ι → Nat) (dt t : K) (q aux d : GArr ι K) : GArr ι K :=
  match c.source with
  | none => d
  | some f => d + cellwise (f dt t) lo q aux

/-- `dq(state)`, solver.py:532-542, on one process. -/
def dqSerial (c : SharpGrid ι K) (aux : GArr ι K) (dt t : K) (q : GArr ι K) : GArr ι K × K :=
  match hypSerial c.par dt (gridData q aux) with
  | (d, .ok cfl) => (withSource c (fun _ => 0) dt t q aux d.q, cfl)
  | (_, .error _) => (0, 0)

/-- `dq(state)` on all processes. -/
def dqParallel (c : SharpGrid ι K) (D : Decomp ι) (aux : Proc ι → GArr ι K) (dt t : K) (q : Proc ι → GArr ι K) : (Proc ι → GArr ι K) × K :=
  let r := fun P => hypLocal c.par D dt (fun P => gridData (q P) (aux P)) P
  match reduceCfl r (D.procs c.axes) with
  | .ok cfl => (fun P => withSource c (D.lo P) dt t (q P) (aux P) (r P).1.q, cfl)
  | .error _ => (0, 0)

/-- A SharpClaw problem on one process. -/
def serialSharp (c : SharpGrid ι K) (aux : GArr ι K) : SharpEnv K (GArr ι K) where
  dq := dqSerial c aux
  stage := fun t q => cellwise (c.stage t) (fun _ => 0) q aux
  before := fun t q => cellwise (c.before t) (fun _ => 0) q aux

/-- The same problem on several processes. -/
def parallelSharp (c : SharpGrid ι K) (D : Decomp ι) (aux : Proc ι → GArr ι K) : SharpEnv K (Proc ι → GArr ι K) where
  dq := dqParallel c D aux
  stage := fun t q P => cellwise (c.stage t) (D.lo P) (q P) (aux P)
  before := fun t q P => cellwise (c.before t) (D.lo P) (q P) (aux P)

end PyClaw
