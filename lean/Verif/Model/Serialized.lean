import Mathlib.Logic.Function.Basic
import Mathlib.Data.Fintype.Defs

/-!
Model of the decorator `run_serialized` of /repo/src/pyclaw/util.py (lines 33-62), which `inplace_build` (lines 64-81) carries: what several
processes do that call the decorated function. What the function itself does is a parameter; it may raise an exception, as
`subprocess.check_call` in `inplace_build` does if the build fails. The arguments are left out: the calls are numbered.
-/
namespace PyClaw

/-- What a process does. `start k`, `done k`, `raised k`: the function begins, ends, ends with an exception in the call number `k`.
`enter`, `leave`: `PETSc.COMM_WORLD.Barrier()` is called, and returns. `ret k`: the decorated function returns to its caller. -/
inductive SAct
  | start (k : Nat)
  | done (k : Nat)
  | raised (k : Nat)
  | enter
  | leave
  | ret (k : Nat)
  deriving DecidableEq

/-- `serial_fun`, util.py:49-60: the three versions. `isParallel`: petsc4py can be imported (util.py:43-47). -/
def serialFun (isParallel : Bool) (rank k : Nat) : List SAct :=
  if isParallel then
    if rank = 0 then [.start k, .done k, .enter, .leave, .ret k]
    else [.enter, .leave, .ret k]
  else [.start k, .done k, .ret k]

/-- A process that calls the decorated function `n` times. -/
def serialProg (isParallel : Bool) (rank n : Nat) : List SAct := (List.range n).flatMap (serialFun isParallel rank)

/-- The processes during a run: what each of them still has to do, how many barriers each has entered, and what has happened so far. -/
structure SWorld (P : Nat) where
  todo : Fin P → List SAct
  entered : Fin P → Nat
  log : List (Fin P × SAct)

/-- The beginning of a run in which the process `p` calls the decorated function `calls p` times. -/
def SWorld.init {P : Nat} (isParallel : Bool) (calls : Fin P → Nat) : SWorld P :=
  ⟨fun p => serialProg isParallel p (calls p), fun _ => 0, []⟩

/-- The process `p` does `a`, and has `rest` left. -/
def SWorld.perform {P : Nat} (w : SWorld P) (p : Fin P) (a : SAct) (rest : List SAct) : SWorld P :=
  ⟨Function.update w.todo p rest, fun p' => if p' = p ∧ a = .enter then w.entered p' + 1 else w.entered p', w.log ++ [(p, a)]⟩

/-- One step of one process. A barrier is left when all processes have entered it. `raises k`: the function raises an exception in the call
number `k`; nobody catches it (util.py:53 has no handler), so the process ends. -/
inductive SStep {P : Nat} (raises : Nat → Prop) (w : SWorld P) : SWorld P → Prop
  | act (p : Fin P) (a : SAct) (rest : List SAct) (h : w.todo p = a :: rest) (h1 : a ≠ .leave) (h2 : ∀ k, a = .done k → ¬ raises k) :
      SStep raises w (w.perform p a rest)
  | leave (p : Fin P) (rest : List SAct) (h : w.todo p = .leave :: rest) (hb : ∀ p', w.entered p ≤ w.entered p') :
      SStep raises w (w.perform p .leave rest)
  | fail (p : Fin P) (k : Nat) (rest : List SAct) (h : w.todo p = .done k :: rest) (hr : raises k) :
      SStep raises w (w.perform p (.raised k) [])

end PyClaw
