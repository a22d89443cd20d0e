import Verif.Model.Heap

/-!
Which memory a classic solver and the solutions it evolves share.

`ClawSolver.setup` allocates `solver.qbc` once (classic/solver.py:195-221, solver.py:321-349;
`evolve_to_time` calls it only if `_is_set_up` is false, solver.py:576-577). Each step copies `state.q`
into the interior of `qbc` (`get_qbc_from_q`, state.py:271-286, called by `_apply_bcs`), fills the ghost
cells and runs the kernel on `qbc` in place, and finally makes `state.q` a *view* of the interior of
`qbc` (`set_q_from_qbc`, state.py:239-253, called in classic/solver.py:377, 546, 703).

Simplifications. Boundary conditions and kernel together are one function on the content of `qbc`. All
solutions have the same number of cells and components (otherwise the copy into `qbc` raises). `aux` is
left out; it behaves the same way.
-/
namespace PyClaw

/-- A classic solver after setup: its work array `qbc` (address and size), the flat positions of the
interior cells in it, and what one step does to the content of `qbc`. -/
structure WorkSolver (K : Type*) where
  addr : Nat
  size : Nat
  interior : List Nat
  kernel : List K → List K

/-- The array object `solver.qbc`. -/
def WorkSolver.qbc {K : Type*} (s : WorkSolver K) : Ref := { addr := s.addr, idx := List.range s.size }

/-- The view `qbc[:,g:-g]`. -/
def WorkSolver.view {K : Type*} (s : WorkSolver K) : Ref := { addr := s.addr, idx := s.interior }

/-- Memory and the `state.q` attribute of each solution (`S` is the set of solutions, `W` the set of
solvers). -/
structure ASys (K S : Type*) where
  heap : Heap K
  q : S → Ref

/-- What happens: solver `i` takes a step on solution `j`; the user writes into `state.q` in place
(`state.q[...] = vs`); `state.q` is rebound to a new array (`state.q = q_backup` on rejection,
solver.py:643, or `state.q = array` by the user). -/
inductive AOp (K W S : Type*) where
  | step (i : W) (j : S)
  | write (j : S) (vs : List K)
  | rebind (j : S) (vs : List K)

variable {K W S : Type*} [DecidableEq S]

/-- One operation on the shared memory. -/
def ASys.step (junk : K) (solver : W → WorkSolver K) (s : ASys K S) : AOp K W S → ASys K S
  | .step i j =>
    let w := solver i
    let h1 := s.heap.write w.view (s.heap.read (s.q j))
    let h2 := h1.write w.qbc (w.kernel (h1.read w.qbc))
    { heap := h2, q := Function.update s.q j w.view }
  | .write j vs => { s with heap := s.heap.write (s.q j) vs }
  | .rebind j vs =>
    let r := s.heap.alloc vs junk
    { heap := r.1, q := Function.update s.q j r.2 }

def ASys.run (junk : K) (solver : W → WorkSolver K) (s : ASys K S) (ops : List (AOp K W S)) : ASys K S :=
  ops.foldl (ASys.step junk solver) s

/-- What the user sees as `solution.q`. -/
def ASys.value (s : ASys K S) (j : S) : List K := s.heap.read (s.q j)

end PyClaw
