import Mathlib.Order.Lattice
import Mathlib.Data.Finset.Lattice.Fold
import Mathlib.Data.Fintype.Basic

/-!
Model of the objects that hold the Courant number: `CFL` of /repo/src/pyclaw/cfl.py and of /repo/src/petclaw/cfl.py. In a parallel run
`get_global_max` and `update_global_max` are collective: all processes call them. `P` is the set of processes.
-/
namespace PyClaw

variable {K : Type*} [LinearOrder K] {P : Type*} [Fintype P] [Nonempty P]

/-- What is done with the objects, with the arguments that each process passes. -/
inductive CflOp (P K : Type*)
  /-- `set_global_max(x)` -/
  | setGlobal (x : P → K)
  /-- `set_local_max(x)` -/
  | setLocal (x : P → K)
  /-- `update_global_max(x)` -/
  | update (x : P → K)
  /-- `get_global_max()` -/
  | getGlobal

/-- `PETSc.Vec.max()[1]` of a vector with one entry for each process: the largest entry, on all processes. -/
def reduceMax (x : P → K) : K := Finset.univ.sup' Finset.univ_nonempty x

/-- `CFL` of pyclaw, cfl.py:7-29: the new `_global_max`. -/
def serialCfl (global : K) : CflOp Unit K → K
  | .setGlobal x => x ()
  | .setLocal x => x ()
  | .update x => max global (x ())
  | .getGlobal => global

/-- `CFL` of petclaw, one object for each process. -/
structure ParCfl (P K : Type*) where
  loc : P → K
  glob : P → K

/-- `__init__`, petclaw/cfl.py:9-13. -/
def ParCfl.new (x : K) : ParCfl P K := ⟨fun _ => x, fun _ => x⟩

/-- petclaw/cfl.py:15-36. -/
def ParCfl.step (c : ParCfl P K) : CflOp P K → ParCfl P K
  | .setGlobal x => { c with glob := x }
  | .setLocal x => { c with loc := x }
  | .update x => { c with glob := fun p => max (c.glob p) (reduceMax x) }
  | .getGlobal => { c with glob := fun _ => reduceMax c.loc }

/-- A sequence of calls on the serial object. -/
def serialCflRun (global : K) (ops : List (CflOp Unit K)) : K := ops.foldl serialCfl global

/-- A sequence of calls on the parallel objects. -/
def ParCfl.run (c : ParCfl P K) (ops : List (CflOp P K)) : ParCfl P K := ops.foldl ParCfl.step c

end PyClaw
