import Mathlib.Data.List.Basic
import Mathlib.Logic.Function.Basic

/-!
Model of the set-up of the classic solvers: `ClawSolver.setup`, `_set_mthlim`, `_set_method`, `_set_fortran_parameters`
(/repo/src/pyclaw/classic/solver.py:163-234), `State.set_cparam` (state.py:205-231), the test of `_is_set_up` in `evolve_to_time`
(solver.py:572-573) and in `Controller.run` (controller.py:302-303), and the arguments with which `step_hyperbolic` calls the kernels
(classic/solver.py:296-342, 508-540, 659-700). What the kernels do with their arguments is in `Classic1`, `Classic2` and `Classic3`.

Simplified: the shapes of the work arrays and of `qbc` (see `Aliasing` and `Validity`), warnings, `num_ghost` and `num_waves = None`.
The Fortran modules `classic1`, `classic2`, `classic3` have no block `cparam` of their own.
-/
namespace PyClaw

variable {R V : Type*}

/-- The attribute `limiters`: a number, or a list. -/
inductive WaveLimiters where
  | one (n : Int)
  | list (l : List Int)
deriving DecidableEq

/-- The attributes of a classic solver, classic/solver.py:77-94, 445-446, 613-614. `fortran`: `kernel_language` is `'Fortran'`, else
`'Python'`. `rp` is the module of the Riemann solver. -/
structure ClassicSettings (R : Type*) where
  numDim : Nat
  fortran : Bool
  rp : R
  numWaves : Nat
  order : Int
  limiters : WaveLimiters
  dimensionalSplit : Bool
  transverseWaves : Int
  fwave : Bool

/-- What the solver takes from the state: `index_capa`, `num_aux`, `problem_data`. -/
structure RunState (V : Type*) where
  indexCapa : Int
  numAux : Nat
  data : String → Option V

/-- `solver._method`, the entries that the kernels read: `method(2)`, `method(3)`, `method(6)`, `method(7)`. -/
structure MethodArray where
  order : Int
  trans : Int
  capa : Int
  numAux : Nat
deriving DecidableEq

/-- A solver object. `shared`: `_mthlim` is the same list object as `limiters`. -/
structure ClassicObj (R : Type*) where
  set : ClassicSettings R
  mthlim : List Int
  shared : Bool
  method : Option MethodArray
  isSetUp : Bool

/-- A step: which routine runs and what it is given. `split`: `step2ds` or `step3ds`. `trans` is `method(3)`. `transverseSolver`: the transverse
Riemann solvers are passed; otherwise the normal solver is passed in their place ("dummy value"). `capa` is the row of `aux` that is used as
capacity function. `params` is what the Riemann solver finds in `cparam` or in `problem_data`. -/
structure KernelCall (R V : Type*) where
  rp : R
  split : Bool
  order : Int
  trans : Int
  transverseSolver : Bool
  capa : Option Nat
  numAux : Nat
  limiters : List Int
  fwave : Bool
  params : String → Option V

/-- A Python process with its solvers; `common r` is the memory of the block `cparam` of module `r`. `log`: the steps. -/
structure SolverProcess (R V : Type*) where
  solver : Nat → ClassicObj R
  common : R → String → Option V
  log : List (Nat × KernelCall R V)

/-- `_set_mthlim`, classic/solver.py:163-172: the new `_mthlim`, whether it is the list `limiters` itself, and whether the routine returns. -/
def classicMthlim (s : ClassicSettings R) : List Int × Bool × Bool :=
  let first : List Int × Bool := match s.limiters with
    | .one n => ([n], false)
    | .list l => (l, true)
  let second : List Int × Bool := if first.1.length = 1 then ((List.replicate s.numWaves first.1).flatten, false) else first
  (second.1, second.2, second.1.length = s.numWaves)

/-- `_set_method`, classic/solver.py:174-193. -/
def classicMethod (s : ClassicSettings R) (st : RunState V) : MethodArray where
  order := s.order
  trans := if s.numDim = 1 then 0 else if s.dimensionalSplit then -1 else s.transverseWaves
  capa := st.indexCapa + 1
  numAux := st.numAux

/-- `set_cparam`, state.py:219-231: `block r` are the names in the block `cparam` of module `r`, if it has one. `none`: it raises. -/
def setCparam [DecidableEq R] (block : R → Option (List String)) (r : R) (st : RunState V) (common : R → String → Option V) :
    Option (R → String → Option V) :=
  match block r with
  | none => some common
  | some names =>
    if names.all fun x => (st.data x).isSome then
      some (Function.update common r fun x => match st.data x with
        | some v => some v
        | none => common r x)
    else none

/-- `setup`, classic/solver.py:195-219, and whether it returns. -/
def classicSetup [DecidableEq R] (block : R → Option (List String)) (p : SolverProcess R V) (i : Nat) (st : RunState V) :
    SolverProcess R V × Bool :=
  let o := p.solver i
  let lim := classicMthlim o.set
  let o1 := { o with mthlim := lim.1, shared := lim.2.1 }
  if lim.2.2 then
    if o.set.fortran then
      let o2 := { o1 with method := some (classicMethod o.set st) }
      match setCparam block o.set.rp st p.common with
      | none => ({ p with solver := Function.update p.solver i o2 }, false)
      | some common => ({ p with solver := Function.update p.solver i { o2 with isSetUp := true }, common := common }, true)
    else if 1 < o.set.numDim then ({ p with solver := Function.update p.solver i o1 }, false)
    else ({ p with solver := Function.update p.solver i { o1 with isSetUp := true } }, true)
  else ({ p with solver := Function.update p.solver i o1 }, false)

/-- `index_capa = method(6)`, used if positive, counted from 1 (step1.f90:59-71, step2.f90:74, step3.f90:103). -/
def capaOf (n : Int) : Option Nat := if 0 < n then some (n - 1).toNat else none

/-- The call of the kernel in `step_hyperbolic`. `none`: it raises (no array `_method`; no Python kernel in several dimensions). -/
def kernelCall (o : ClassicObj R) (st : RunState V) (common : R → String → Option V) : Option (KernelCall R V) :=
  if o.set.fortran then
    o.method.map fun M => {
      rp := o.set.rp
      split := o.set.numDim ≠ 1 ∧ o.set.dimensionalSplit
      order := M.order
      trans := M.trans
      transverseSolver := o.set.numDim ≠ 1 ∧ ¬ (o.set.dimensionalSplit ∨ o.set.transverseWaves = 0)
      capa := capaOf M.capa
      numAux := M.numAux
      limiters := o.mthlim
      fwave := o.set.fwave
      params := common o.set.rp }
  else if o.set.numDim = 1 then
    some {
      rp := o.set.rp
      split := false
      order := o.set.order
      trans := 0
      transverseSolver := false
      capa := if 0 ≤ st.indexCapa then some st.indexCapa.toNat else none
      numAux := st.numAux
      limiters := o.mthlim
      fwave := o.set.fwave
      params := st.data }
  else none

/-- Assignments to attributes. -/
inductive ClassicAssign (R : Type*) where
  | order (n : Int)
  | limiters (l : WaveLimiters)
  | dimensionalSplit (b : Bool)
  | transverseWaves (n : Int)
  | fwave (b : Bool)
  | numWaves (n : Nat)
  | kernel (fortran : Bool)
  | rp (r : R)

/-- What a program does with its solvers: assignments, `solver.limiters[k] = v`, `solver.setup(solution)`, and `evolve_to_time` or
`Controller.run`. -/
inductive SolverOp (R V : Type*) where
  | assign (i : Nat) (a : ClassicAssign R)
  | setItem (i k : Nat) (v : Int)
  | setup (i : Nat) (st : RunState V)
  | evolve (i : Nat) (st : RunState V)

/-- `solver.attribute = value`: `Solver.__setattr__` stores the value (solver.py:139-147). -/
def ClassicObj.assign (o : ClassicObj R) : ClassicAssign R → ClassicObj R
  | .order n => { o with set := { o.set with order := n } }
  | .limiters l => { o with set := { o.set with limiters := l }, shared := false }
  | .dimensionalSplit b => { o with set := { o.set with dimensionalSplit := b } }
  | .transverseWaves n => { o with set := { o.set with transverseWaves := n } }
  | .fwave b => { o with set := { o.set with fwave := b } }
  | .numWaves n => { o with set := { o.set with numWaves := n } }
  | .kernel b => { o with set := { o.set with fortran := b } }
  | .rp r => { o with set := { o.set with rp := r } }

/-- `solver.limiters[k] = v`; raises for a number and for an index out of range. -/
def ClassicObj.setItem (o : ClassicObj R) (k : Nat) (v : Int) : ClassicObj R :=
  match o.set.limiters with
  | .one _ => o
  | .list l =>
    if k < l.length then
      { o with set := { o.set with limiters := .list (l.set k v) }, mthlim := if o.shared then o.mthlim.set k v else o.mthlim }
    else o

/-- One action. A run takes one or more steps, all with the same arguments; one is logged. -/
def SolverProcess.act [DecidableEq R] (block : R → Option (List String)) (p : SolverProcess R V) : SolverOp R V → SolverProcess R V
  | .assign i a => { p with solver := Function.update p.solver i ((p.solver i).assign a) }
  | .setItem i k v => { p with solver := Function.update p.solver i ((p.solver i).setItem k v) }
  | .setup i st => (classicSetup block p i st).1
  | .evolve i st =>
    let r := if (p.solver i).isSetUp then (p, true) else classicSetup block p i st
    if r.2 then
      match kernelCall (r.1.solver i) st r.1.common with
      | none => r.1
      | some c => { r.1 with log := r.1.log ++ [(i, c)] }
    else r.1

/-- A program. -/
def SolverProcess.acts [DecidableEq R] (block : R → Option (List String)) : SolverProcess R V → List (SolverOp R V) → SolverProcess R V
  | p, [] => p
  | p, op :: ops => (p.act block op).acts block ops

end PyClaw
