import Verif.Model.BC
import Verif.Model.ClassicStep

/-!
Model of parallel runs: `petclaw.State.get_qbc_from_q`, `get_auxbc_from_aux` (/repo/src/petclaw/state.py:216-236), the parallel
`CFL` object (/repo/src/petclaw/cfl.py) and the time loop of /repo/src/pyclaw/solver.py:554-666, which every process runs on
its own solver and its own part of the solution; and the serial `step_hyperbolic` around a kernel
(/repo/src/pyclaw/classic/solver.py:284-386, 498-546, 648-706).

PETSc and MPI are not modelled. Their trusted behaviour is in two definitions: `exchange` (`globalToLocal` of a distributed array
that is periodic in all directions with a box stencil) and `reduceCfl` (the maximum over all processes). Collective calls need all
processes: when some processes end the loop or raise while others go on, the run hangs (`none`).

Simplifications. `step_source` and `before_step` are functions that treat each cell separately (given the time, the step, the
index of the cell in the global grid, its `q` and `aux`); they do not raise. Fortran `stop` ends all processes and is modelled
as an exception raised by all; what the arrays hold then does not matter, they are left as they were before the step. No gauges.
-/
namespace PyClaw

/-- How the cells are distributed: along axis `a` there are `p a` processes, the one with coordinate `k` owns the cells
`cut a k, …, cut a (k+1) - 1` of the `n a` cells. -/
structure Decomp (ι : Type*) where
  n : ι → Nat
  p : ι → Nat
  cut : ι → Nat → Nat

/-- A process is named by its coordinates. -/
abbrev Proc (ι : Type*) := ι → Nat

variable {ι K : Type*}

/-- The first cell of a process. -/
def Decomp.lo (D : Decomp ι) (P : Proc ι) (a : ι) : Nat := D.cut a (P a)

/-- The number of its cells. -/
def Decomp.size (D : Decomp ι) (P : Proc ι) (a : ι) : Nat := D.cut a (P a + 1) - D.cut a (P a)

/-- The coordinate of the process that owns cell `x` along axis `a`: the number of processes that end before it. -/
def Decomp.owner (D : Decomp ι) (a : ι) (x : Nat) : Nat := ((List.range (D.p a)).filter fun k => D.cut a (k + 1) ≤ x).length

/-- `globalToLocal`, state.py:222, 233: entry `idx` of the local array with `g` ghost cells is the entry of the distributed array
at the global cell `lo + idx - g`, counted modulo the number of cells; it comes from the process that owns that cell. -/
def exchange (D : Decomp ι) (g : Nat) (pieces : Proc ι → GArr ι K) (P : Proc ι) : GArr ι K := fun c idx =>
  let x : ι → Nat := fun a => (D.lo P a + idx a + D.n a - g) % D.n a
  let O : Proc ι := fun a => D.owner a (x a)
  pieces O c fun a => x a - D.lo O a

variable [DecidableEq ι]

/-- All processes. -/
def Decomp.procs (D : Decomp ι) : List ι → List (Proc ι)
  | [] => [fun _ => 0]
  | a :: as => (Decomp.procs D as).flatMap fun P => (List.range (D.p a)).map fun k => Function.update P a k

/-- What `_apply_bcs` sees on one process: the local number of cells and the boundary flags of the local grid
(`Model/Petclaw.lean`). -/
def localCfg (bc : BCConfig ι K) (D : Decomp ι) (P : Proc ι) : BCConfig ι K :=
  { bc with
    n := D.size P
    onLower := fun a => decide (D.lo P a = 0)
    onUpper := fun a => decide (D.lo P a + D.size P a = D.n a) }

/-- A kernel: the step size, the number of cells and the ghosted arrays give the updated ghosted array and the Courant number;
`none` stands for Fortran `stop`. -/
abbrev Kern (ι K : Type*) := K → (ι → Nat) → BCArrays ι K → Option (GArr ι K × K)

/-- A function applied to every cell: the cell's global index, its `q` and its `aux`. -/
abbrev CellMap (ι K : Type*) := (ι → Nat) → (Nat → K) → (Nat → K) → Nat → K

/-- The arrays of one process: `state.q`, `state.aux`, `solver.qbc` and `solver.auxbc`. -/
structure HypData (ι K : Type*) where
  q : GArr ι K
  aux : GArr ι K
  work : BCArrays ι K

/-- `f` applied to the cells of a grid whose first cell has the global index `lo`. -/
def cellwise (f : CellMap ι K) (lo : ι → Nat) (q aux : GArr ι K) : GArr ι K := fun c idx =>
  f (fun a => lo a + idx a) (fun k => q k idx) (fun k => aux k idx) c

/-- What the user chooses: boundary conditions, order of the axes, kernel, source term and its splitting, `before_step` for `q`
and for `aux`. -/
structure ParCfg (ι K : Type*) where
  bc : BCConfig ι K
  axes : List ι
  kern : Kern ι K
  sourceSplit : Int
  source : Option (K → K → CellMap ι K)
  beforeQ : K → CellMap ι K
  beforeAux : K → CellMap ι K

/-- The exception that stands for Fortran `stop`. -/
def stopErr : PyErr := .exception "stop"

section serial
variable [Field K] [LinearOrder K]

/-- `step_hyperbolic` of a serial solver: fill the ghost cells, call the kernel, copy the interior back. -/
def hypSerial (c : ParCfg ι K) (dt : K) (d : HypData ι K) : Ret (HypData ι K) K :=
  match applyBcs c.bc c.axes d.q d.aux d.work with
  | (w, .error e) => ({ d with work := w }, .error e)
  | (w, .ok _) =>
    match c.kern dt c.bc.n w with
    | none => (d, .error stopErr)
    | some (r, cfl) => ({ d with q := fun k idx => r k fun a => idx a + c.bc.g, work := { w with q := r } }, .ok cfl)

/-- What the serial run plugs into `ClawSolver.step`. -/
def serialPlug (c : ParCfg ι K) : ClassicPlug K (HypData ι K) where
  sourceSplit := c.sourceSplit
  source := c.source.map fun f t h d => ({ d with q := cellwise (f t h) (fun _ => 0) d.q d.aux }, .ok ())
  hyperbolic := fun _ dt d => hypSerial c dt d

/-- The environment of the time loop for the part of the grid that begins at `lo`, around a numerical step. -/
def partEnv (c : ParCfg ι K) (rnd : K → K) (lo : ι → Nat) (numeric : K → K → HypData ι K → Ret (HypData ι K) K) :
    StepEnv K (GArr ι K) (GArr ι K × BCArrays ι K) where
  rnd := rnd
  before := fun t d => (cellwise (c.beforeQ t) lo d.1 d.2.1, cellwise (c.beforeAux t) lo d.1 d.2.1, d.2.2)
  numeric := fun t dt d =>
    let r := numeric t dt ⟨d.1, d.2.1, d.2.2⟩
    ((r.1.q, r.1.aux, r.1.work), r.2)
  gauges := fun _ d => (d.2, none)

/-- The environment of a serial run. -/
def serialEnv (c : ParCfg ι K) (rnd : K → K) (cflMax : K) : StepEnv K (GArr ι K) (GArr ι K × BCArrays ι K) :=
  partEnv c rnd (fun _ => 0) (classicNumeric (serialPlug c) cflMax)

/-! ### Parallel runs -/

/-- `step_hyperbolic` on process `P`, where the other processes hold `d`: exchange, boundary conditions of the local grid, kernel. -/
def hypLocal (c : ParCfg ι K) (D : Decomp ι) (dt : K) (d : Proc ι → HypData ι K) (P : Proc ι) : Ret (HypData ι K) K :=
  let w0 : BCArrays ι K :=
    { q := exchange D c.bc.g (fun P => (d P).q) P
      aux := if 0 < c.bc.numAux then exchange D c.bc.g (fun P => (d P).aux) P else (d P).work.aux }
  match applyDims (localCfg c.bc D P) c.axes w0 with
  | (w, .error e) => ({ d P with work := w }, .error e)
  | (w, .ok _) =>
    match c.kern dt (D.size P) w with
    | none => (d P, .error stopErr)
    | some (r, cfl) => ({ d P with q := fun k idx => r k fun a => idx a + c.bc.g, work := { w with q := r } }, .ok cfl)

/-- `set_global_max(0.)`, then `update_global_max` on all processes, cfl.py: the same maximum everywhere. -/
def reduceCfl (r : Proc ι → Ret (HypData ι K) K) : List (Proc ι) → Except PyErr K
  | [] => .ok 0
  | P :: Ps =>
    match (r P).2, reduceCfl r Ps with
    | .error e, _ => .error e
    | .ok _, .error e => .error e
    | .ok x, .ok y => .ok (max x y)

/-- A source step on every process. -/
def parSource (c : ParCfg ι K) (D : Decomp ι) (cond : Bool) (t h : Proc ι → K) (d : Proc ι → HypData ι K) : Proc ι → HypData ι K :=
  fun P =>
    match c.source with
    | none => d P
    | some f => if cond then { d P with q := cellwise (f (t P) (h P)) (D.lo P) (d P).q (d P).aux } else d P

/-- `ClawSolver.step` on all processes together (classic/solver.py:121-146). Each process uses its own time, step size and limit. -/
def parNumeric (c : ParCfg ι K) (D : Decomp ι) (cflMax t dt : Proc ι → K) (d : Proc ι → HypData ι K) :
    (Proc ι → HypData ι K) × Except PyErr K :=
  let d1 := parSource c D (c.sourceSplit == 2) t (fun P => dt P / 2) d
  let r := fun P => hypLocal c D (dt P) d1 P
  match reduceCfl r (D.procs c.axes) with
  | .error e => (d1, .error e)
  | .ok cfl =>
    let d2 := fun P => (r P).1
    let d3 := parSource c D (c.sourceSplit == 2) t (fun P => dt P / 2) d2
    let d4 := parSource c D (c.sourceSplit == 1) t dt d3
    (fun P => if cflMax P ≤ cfl then d2 P else d4 P, .ok cfl)

/-- Solver and part of the solution on each process. -/
abbrev ParState (ι K : Type*) := Proc ι → StepState K (GArr ι K) (GArr ι K × BCArrays ι K)

/-- One iteration of the main loop on all processes, solver.py:605-652. -/
def parAttempt (c : ParCfg ι K) (rnd : K → K) (D : Decomp ι) (tstart : Proc ι → K) (tend : Option K) (n : Nat) (s : ParState ι K)
    (P : Proc ι) : Ret (StepState K (GArr ι K) (GArr ι K × BCArrays ι K)) Bool :=
  let dt := fun P => (getDt rnd (s P).sol.t (tstart P) tend (s P).set (s P).status).1.dt
  let d := fun P =>
    let x := (partEnv c rnd (D.lo P) fun _ _ d => (d, .ok 0)).before (s P).sol.t ((s P).sol.q, (s P).sol.rest)
    (⟨x.1, x.2.1, x.2.2⟩ : HypData ι K)
  let r := parNumeric c D (fun P => (s P).set.cflMax) (fun P => (s P).sol.t) dt d
  attempt (partEnv c rnd (D.lo P) fun _ _ _ => (r.1 P, r.2)) (tstart P) tend n (s P)

/-- What a process does after an iteration: leave the loop with a result, or go on; solver.py:653-657. -/
def afterAttempt (tend : Option K) (k : Nat) (r : Ret (StepState K (GArr ι K) (GArr ι K × BCArrays ι K)) Bool) :
    Ret (StepState K (GArr ι K) (GArr ι K × BCArrays ι K)) Nat ⊕ (StepState K (GArr ι K) (GArr ι K × BCArrays ι K) × Nat) :=
  match r with
  | (s', .error e) => .inl (s', .error e)
  | (s', .ok acc) =>
    let k' := if acc then k + 1 else k
    match tend with
    | none => .inl (s', .ok k')
    | some te => if te ≤ s'.sol.t then .inl (s', .ok k') else .inr (s', k')

/-- The main loop on all processes; `none` if some leave it while others go on. -/
def parLoop (c : ParCfg ι K) (rnd : K → K) (D : Decomp ι) (tstart : Proc ι → K) (tend : Option K) :
    Nat → Nat → (Proc ι → Nat) → ParState ι K → Option (Proc ι → Ret (StepState K (GArr ι K) (GArr ι K × BCArrays ι K)) Nat)
  | 0, _, k, s => some fun P => (s P, .ok (k P))
  | fuel + 1, n, k, s =>
    let r := fun P => afterAttempt tend (k P) (parAttempt c rnd D tstart tend n s P)
    if (D.procs c.axes).all (fun P => (r P).isLeft) = true then
      some fun P => match r P with
        | .inl x => x
        | .inr (s', k') => (s', .ok k')
    else if (D.procs c.axes).all (fun P => (r P).isRight) = true then
      parLoop c rnd D tstart tend fuel (n + 1)
        (fun P => match r P with
          | .inl _ => 0
          | .inr (_, k') => k')
        (fun P => match r P with
          | .inl (s', _) => s'
          | .inr (s', _) => s')
    else none

/-- The part of `evolve_to_time` before the loop, solver.py:580-603: a result, or the state with which the loop starts. -/
def evolvePrelude [FloorRing K] {Q W : Type*} (rnd : K → K) (tend : Option K) (s : StepState K Q W) :
    Ret (StepState K Q W) Unit ⊕ StepState K Q W :=
  let tstart := s.sol.t
  let f := if s.set.dtVariable then (.ok s.set, s.set) else fixedSetup rnd tstart tend s.set
  match f.1 with
  | .error e => .inl ({ s with set := f.2 }, .error e)
  | .ok set1 =>
    if set1.dtVariable = true ∧ set1.cflMax < set1.cflDesired then
      .inl ({ s with set := set1 }, .error (.exception "Variable time-stepping and desired CFL > maximum CFL"))
    else
      .inr { s with set := match tend with
        | none => set1
        | some te => if te ≤ tstart then { set1 with maxSteps := 0 } else set1 }

/-- The part after the loop, solver.py:659-666. -/
def evolvePostlude {Q W : Type*} (tend : Option K) (r : Ret (StepState K Q W) Nat) : Ret (StepState K Q W) Unit :=
  match r with
  | (s', .error e) => (s', .error e)
  | (s', .ok k) =>
    match tend with
    | none => (s', .ok ())
    | some te =>
      if s'.set.dtVariable = true ∧ s'.sol.t < te ∧ (k : Int) = s'.set.maxSteps then
        (s', .error (.exception "Maximum number of timesteps have been taken"))
      else (s', .ok ())

/-- `evolve_to_time(solution, tend)` called on all processes; `none` if the run hangs. (Processes with different `max_steps` are
taken to hang.) -/
def parEvolve [FloorRing K] (c : ParCfg ι K) (rnd : K → K) (D : Decomp ι) (tend : Option K) (s : ParState ι K) :
    Option (Proc ι → Ret (StepState K (GArr ι K) (GArr ι K × BCArrays ι K)) Unit) :=
  let r := fun P => evolvePrelude rnd tend (s P)
  if (D.procs c.axes).all (fun P => (r P).isLeft) = true then
    some fun P => match r P with
      | .inl x => x
      | .inr s' => (s', .ok ())
  else if (D.procs c.axes).all (fun P => (r P).isRight) = true then
    let s2 : ParState ι K := fun P => match r P with
      | .inl x => x.1
      | .inr s' => s'
    match D.procs c.axes with
    | [] => none
    | P0 :: _ =>
      if (D.procs c.axes).all (fun P => decide ((s2 P).set.maxSteps = (s2 P0).set.maxSteps)) = true then
        (parLoop c rnd D (fun P => (s P).sol.t) tend (s2 P0).set.maxSteps.toNat 0 (fun _ => 0) s2).map fun x =>
          fun P => evolvePostlude tend (x P)
      else none
  else none

end serial

end PyClaw
