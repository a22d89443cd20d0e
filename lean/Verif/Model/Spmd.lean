import Verif.Model.Parallel

/-!
The order in which the processes of a parallel run act. Every process runs `evolve_to_time` (/repo/src/pyclaw/solver.py:554-666,
with `ClawSolver.step`, /repo/src/pyclaw/classic/solver.py:96-146) on its own, as fast as it can. It meets the others only in the
collective calls: `globalToLocal` for `q` and for `aux` (/repo/src/petclaw/state.py:222, 233) and `_reduce_vec.max()`
(/repo/src/petclaw/cfl.py:36). A process gets the answer of its m-th call once every process has made its m-th call; before that it
waits. (MPI needs no more than that; where a call needs fewer processes the answer is the same.)

Model/Parallel.lean has the same run in lockstep. Between two calls a process touches only its own memory, so that what it does
there is one action here.
-/
namespace PyClaw

/-! ### Processes with collective calls -/

/-- A program: what process `i` does in the local state `s` up to its next collective call (`inr`: which call, what it contributes,
and how it goes on with the answer) or its end (`inl`); and what a call answers to process `i` when the processes contribute `x`. -/
structure Spmd (I S C X R : Type*) where
  act : I → S → R ⊕ (C × X × (X → S))
  resp : C → (I → X) → I → X

/-- Where a process is. -/
inductive ProcPhase (S X R : Type*) where
  | ready (s : S)
  | waiting (k : X → S)
  | finished (r : R)

/-- All processes, and the calls each has made. -/
structure SpmdWorld (I S C X R : Type*) where
  phase : I → ProcPhase S X R
  sent : I → List (C × X)

variable {I S C X R : Type*} [DecidableEq I]

/-- One action of one process. `V` are the processes that take part. -/
inductive SpmdStep (p : Spmd I S C X R) (V : I → Prop) : SpmdWorld I S C X R → SpmdWorld I S C X R → Prop
  /-- The process ends. -/
  | finish (w : SpmdWorld I S C X R) (i : I) (s : S) (r : R) (hi : V i) (h : w.phase i = .ready s) (ha : p.act i s = .inl r) :
      SpmdStep p V w { w with phase := Function.update w.phase i (.finished r) }
  /-- The process makes a call. -/
  | post (w : SpmdWorld I S C X R) (i : I) (s : S) (c : C) (x : X) (k : X → S) (hi : V i) (h : w.phase i = .ready s)
      (ha : p.act i s = .inr (c, x, k)) :
      SpmdStep p V w ⟨Function.update w.phase i (.waiting k), Function.update w.sent i (w.sent i ++ [(c, x)])⟩
  /-- The process gets the answer to its last call: all have made the call with this number. -/
  | answer (w : SpmdWorld I S C X R) (i : I) (k : X → S) (m : Nat) (c : C) (x : I → X) (hi : V i) (h : w.phase i = .waiting k)
      (hm : (w.sent i).length = m + 1) (hx : ∀ j, V j → (w.sent j)[m]? = some (c, x j)) :
      SpmdStep p V w { w with phase := Function.update w.phase i (.ready (k (p.resp c x i))) }

/-- The beginning. -/
def spmdStart (s : I → S) : SpmdWorld I S C X R := ⟨fun i => .ready (s i), fun _ => []⟩

/-- What can have happened after `n` actions. -/
inductive SpmdRuns (p : Spmd I S C X R) (V : I → Prop) (w0 : SpmdWorld I S C X R) : Nat → SpmdWorld I S C X R → Prop
  | start : SpmdRuns p V w0 0 w0
  | step {n : Nat} {w w' : SpmdWorld I S C X R} : SpmdRuns p V w0 n w → SpmdStep p V w w' → SpmdRuns p V w0 (n + 1) w'

/-- Nothing more can happen. -/
def SpmdStuck (p : Spmd I S C X R) (V : I → Prop) (w : SpmdWorld I S C X R) : Prop := ¬ ∃ w', SpmdStep p V w w'

/-! ### `evolve_to_time` on every process -/

/-- The collective calls. -/
inductive ParCall where
  | exchangeQ
  | exchangeAux
  | reduceMax
  deriving DecidableEq

/-- What is sent: an array or a number. -/
inductive ParMsg (ι K : Type*) where
  | arr (a : GArr ι K)
  | num (x : K)

variable {ι K : Type*}

/-- The array in a message. -/
def ParMsg.getArr [Zero K] : ParMsg ι K → GArr ι K
  | .arr a => a
  | .num _ => fun _ _ => 0

/-- The number in a message. -/
def ParMsg.getNum [Zero K] : ParMsg ι K → K
  | .arr _ => 0
  | .num x => x

/-- The local variables of `evolve_to_time` and `step` during an iteration: `tstart`, the iterations that are left, `n`, `num_steps`,
solver and solution as they were at the head of the iteration, the chosen `dt`, and the data with which the step began. -/
structure IterVars (ι K : Type*) where
  tstart : K
  left : Nat
  n : Nat
  k : Nat
  s : StepState K (GArr ι K) (GArr ι K × BCArrays ι K)
  dt : K
  d : HypData ι K

/-- Where a process is between its calls. -/
inductive ProcPt (ι K : Type*) where
  /-- `evolve_to_time` is called. -/
  | start (s : StepState K (GArr ι K) (GArr ι K × BCArrays ι K))
  /-- `qbc` has been filled by the exchange. -/
  | gotQ (v : IterVars ι K) (qbc : GArr ι K)
  /-- `auxbc` has been filled as well. -/
  | gotAux (v : IterVars ι K) (qbc auxbc : GArr ι K)
  /-- The largest Courant number is known. -/
  | reduced (v : IterVars ι K) (d : HypData ι K) (cfl : K)

/-- What `evolve_to_time` leaves on a process: solver and solution, and the exception. -/
abbrev ProcEnd (ι K : Type*) := Ret (StepState K (GArr ι K) (GArr ι K × BCArrays ι K)) Unit

variable [DecidableEq ι] [Field K] [LinearOrder K]

/-- A source step on one process, classic/solver.py:126, 139, 143. -/
def sourceLocal (c : ParCfg ι K) (D : Decomp ι) (P : Proc ι) (cond : Bool) (t h : K) (d : HypData ι K) : HypData ι K :=
  match c.source with
  | none => d
  | some f => if cond then { d with q := cellwise (f t h) (D.lo P) d.q d.aux } else d

/-- The head of the loop, solver.py:605-617, classic/solver.py:123-126, up to the exchange of `q`; the end of `evolve_to_time` if
there is no iteration left, solver.py:659-666. -/
def loopHead (c : ParCfg ι K) (rnd : K → K) (D : Decomp ι) (tend : Option K) (P : Proc ι) (tstart : K) (left n k : Nat)
    (s : StepState K (GArr ι K) (GArr ι K × BCArrays ι K)) : ProcEnd ι K ⊕ (ParCall × ParMsg ι K × (ParMsg ι K → ProcPt ι K)) :=
  match left with
  | 0 => .inl (evolvePostlude tend (s, .ok k))
  | left + 1 =>
    let dt := (getDt rnd s.sol.t tstart tend s.set s.status).1.dt
    let b := (partEnv c rnd (D.lo P) fun _ _ d => (d, .ok 0)).before s.sol.t (s.sol.q, s.sol.rest)
    let d := sourceLocal c D P (c.sourceSplit == 2) s.sol.t (dt / 2) ⟨b.1, b.2.1, b.2.2⟩
    .inr (.exchangeQ, .arr d.q, fun m => .gotQ ⟨tstart, left, n, k, s, dt, d⟩ m.getArr)

/-- One iteration with the given result of the numerical step, solver.py:605-657; then the next one, or the end. -/
def iterEnd (c : ParCfg ι K) (rnd : K → K) (D : Decomp ι) (tend : Option K) (P : Proc ι) (v : IterVars ι K)
    (r : Ret (HypData ι K) K) : ProcEnd ι K ⊕ (ParCall × ParMsg ι K × (ParMsg ι K → ProcPt ι K)) :=
  match afterAttempt tend v.k (attempt (partEnv c rnd (D.lo P) fun _ _ _ => r) v.tstart tend v.n v.s) with
  | .inl x => .inl (evolvePostlude tend x)
  | .inr (s', k') => loopHead c rnd D tend P v.tstart v.left (v.n + 1) k' s'

/-- `step_hyperbolic` after the exchange, classic/solver.py:284-384: boundary conditions, kernel, and the call in
`update_global_max`. If something raises the process ends. -/
def hypEnd (c : ParCfg ι K) (rnd : K → K) (D : Decomp ι) (tend : Option K) (P : Proc ι) (v : IterVars ι K) (w0 : BCArrays ι K) :
    ProcEnd ι K ⊕ (ParCall × ParMsg ι K × (ParMsg ι K → ProcPt ι K)) :=
  match applyDims (localCfg c.bc D P) c.axes w0 with
  | (w, .error e) => iterEnd c rnd D tend P v ({ v.d with work := w }, .error e)
  | (w, .ok _) =>
    match c.kern v.dt (D.size P) w with
    | none => iterEnd c rnd D tend P v (v.d, .error stopErr)
    | some (r, cfl) =>
      .inr (.reduceMax, .num cfl, fun m =>
        .reduced v { v.d with q := fun k idx => r k fun a => idx a + c.bc.g, work := { w with q := r } } (max 0 m.getNum))

/-- The program of a process. -/
def procAct [FloorRing K] (c : ParCfg ι K) (rnd : K → K) (D : Decomp ι) (tend : Option K) (P : Proc ι) :
    ProcPt ι K → ProcEnd ι K ⊕ (ParCall × ParMsg ι K × (ParMsg ι K → ProcPt ι K))
  | .start s =>
    match evolvePrelude rnd tend s with
    | .inl x => .inl x
    | .inr s' => loopHead c rnd D tend P s.sol.t s'.set.maxSteps.toNat 0 0 s'
  | .gotQ v q =>
    if 0 < c.bc.numAux then .inr (.exchangeAux, .arr v.d.aux, fun m => .gotAux v q m.getArr)
    else hypEnd c rnd D tend P v ⟨q, v.d.work.aux⟩
  | .gotAux v q a => hypEnd c rnd D tend P v ⟨q, a⟩
  | .reduced v d cfl =>
    -- classic/solver.py:131-144
    iterEnd c rnd D tend P v (if v.s.set.cflMax ≤ cfl then d else
      sourceLocal c D P (c.sourceSplit == 1) v.s.sol.t v.dt (sourceLocal c D P (c.sourceSplit == 2) v.s.sol.t (v.dt / 2) d), .ok cfl)

/-- `Vec.max()`: the largest of the numbers. -/
def vecMax : List K → K
  | [] => 0
  | [x] => x
  | x :: l => max x (vecMax l)

/-- What the calls answer. -/
def parAnswer (c : ParCfg ι K) (D : Decomp ι) : ParCall → (Proc ι → ParMsg ι K) → Proc ι → ParMsg ι K
  | .exchangeQ, x, P => .arr (exchange D c.bc.g (fun Q => (x Q).getArr) P)
  | .exchangeAux, x, P => .arr (exchange D c.bc.g (fun Q => (x Q).getArr) P)
  | .reduceMax, x, _ => .num (vecMax ((D.procs c.axes).map fun Q => (x Q).getNum))

/-- `evolve_to_time` on all processes. -/
def parProgram [FloorRing K] (c : ParCfg ι K) (rnd : K → K) (D : Decomp ι) (tend : Option K) :
    Spmd (Proc ι) (ProcPt ι K) ParCall (ParMsg ι K) (ProcEnd ι K) where
  act := procAct c rnd D tend
  resp := parAnswer c D

end PyClaw
