import Verif.Model.Basic

/-!
Model of the validity checks: `State.is_valid` (/repo/src/pyclaw/state.py:165-207), `Solution.is_valid`
(/repo/src/pyclaw/solution.py:189-200), `Controller.check_validity` (/repo/src/pyclaw/controller.py:216-234), and of what
the time stepping of the classic solvers does to the memory layout of `q` and `aux`.

Simplifications. Of an array only the shape and the strides (in elements) are kept, its contents are elsewhere
(Model/State.lean, Model/Aliasing.lean). The compiled routines return the array they were given (f2py `intent(in,out)`).
The callbacks `before_step` and `step_source` do not rebind `state.q` or `state.aux`.
-/
namespace PyClaw

/-- Shape and strides of a numpy array. -/
structure Layout where
  shape : List Nat
  strides : List Int
  deriving DecidableEq

/-- The strides of a new array in Fortran order. -/
def fStrides (sd : Int) : List Nat → List Int
  | [] => []
  | n :: ns => sd :: fStrides (sd * n) ns

/-- `np.empty(shape, order='F')`, `np.zeros(shape, order='F')` and `a.copy('F')` of an array of that shape. -/
def Layout.fresh (shape : List Nat) : Layout := ⟨shape, fStrides 1 shape⟩

/-- The loop over the axes that computes the flag `F_CONTIGUOUS` in numpy: axes of extent 1 are skipped. -/
def fChain (sd : Int) : List Nat → List Int → Bool
  | n :: ns, s :: ss => (decide (n = 1) || decide (s = sd)) && fChain (sd * n) ns ss
  | _, _ => true

/-- `a.flags['F_CONTIGUOUS']`: arrays without elements are contiguous. -/
def Layout.fContiguous (a : Layout) : Bool := a.shape.any (fun n => decide (n = 0)) || fChain 1 a.shape a.strides

/-- The extent of an axis of extent `n` after the slice `[g:-g]`; for `g = 0` this is `[0:0]`. -/
def sliceExtent (g n : Nat) : Nat := (if g = 0 then 0 else n - g) - min g n

/-- `a[:,g:-g,…,g:-g]`: a view, with the strides of `a`. -/
def Layout.interior (g : Nat) (a : Layout) : Layout := match a.shape with
  | [] => a
  | m :: ns => ⟨m :: ns.map (sliceExtent g), a.strides⟩

/-- What the checks look at in a state: the extents of the patch, the layouts of `q` and `aux`, whether the mapping of the
grid is one of the identity maps, and `index_capa`, state.py:119-152. -/
structure VState where
  cells : List Nat
  q : Option Layout
  aux : Option Layout
  mapped : Bool
  indexCapa : Int
  deriving DecidableEq

/-- `new_array`, state.py:330-335, for `dof ≥ 0`. -/
def vNewArray (cells : List Nat) (dof : Nat) : Option Layout :=
  if dof = 0 then none else some (Layout.fresh (dof :: cells))

/-- `State.__init__`, state.py:119-152, on a patch with that many cells in each dimension. -/
def VState.new (cells : List Nat) (numEqn numAux : Nat) (mapped : Bool) : VState :=
  { cells, q := vNewArray cells numEqn, aux := vNewArray cells numAux, mapped, indexCapa := -1 }

/-- `num_aux`, state.py:82-86. -/
def VState.numAux (s : VState) : Nat := match s.aux with
  | none => 0
  | some a => a.shape.headD 0

/-- The check of `aux`, state.py:188-191: `None` passes. -/
def auxContiguous : Option Layout → Bool
  | none => true
  | some a => a.fContiguous

/-- `State.is_valid`, state.py:165-207. -/
def VState.isValid (s : VState) : Except PyErr Bool :=
  match s.q with
  | none => .error .attributeError
  | some q =>
    let valid := q.fContiguous && auxContiguous s.aux
    if s.mapped then
      match s.aux with
      | none => .error .valueError
      | some _ =>
        if s.indexCapa = -1 then .error .valueError
        else if s.indexCapa < 0 ∨ s.indexCapa > (s.numAux : Int) - 1 then .error .valueError
        else .ok valid
    else .ok valid

/-- The list `[state.is_valid() for state in self.states]`, solution.py:200: the first exception ends it. -/
def allValid : List VState → Except PyErr (List Bool)
  | [] => .ok []
  | s :: l => match s.isValid with
    | .error e => .error e
    | .ok b => match allValid l with
      | .error e => .error e
      | .ok bs => .ok (b :: bs)

/-- `Solution.is_valid`, solution.py:189-200. -/
def solutionValid (states : List VState) : Except PyErr Bool :=
  match allValid states with
  | .error e => .error e
  | .ok bs => .ok (bs.all id)

/-- `Controller.check_validity`, controller.py:216-234, for a solver of the right type; `solver` is the pair
`valid, reason` of `solver.is_valid()` (`none` = valid). -/
def checkValidity (solver : Option String) (states : List VState) : Except PyErr Unit :=
  match solver with
  | some reason => .error (.exception ("The solver failed to initialize properly because " ++ reason))
  | none => match solutionValid states with
    | .error e => .error e
    | .ok b =>
      if b = false then .error (.exception "Initial solution is not valid.")
      else match allValid states with
        | .error e => .error e
        | .ok bs => if bs.all id = false then .error (.exception "Initial states are not valid.") else .ok ()

/-- The arrays `qbc` and `auxbc` of the solver for that state, solver.py:334-347. -/
def bcLayout (g : Nat) (cells : List Nat) (m : Nat) : Layout := Layout.fresh (m :: cells.map (· + 2 * g))

/-- `set_q_from_qbc` and `set_aux_from_auxbc`, state.py:239-268, for one to three dimensions. -/
def viewLayout (g : Nat) (s : VState) (m : Nat) : Except PyErr Layout :=
  if 1 ≤ s.cells.length ∧ s.cells.length ≤ 3 then .ok ((bcLayout g s.cells m).interior g)
  else .error (.exception "Assumption (1 <= num_dim <= 3) violated.")

/-- The end of `step_hyperbolic`, classic/solver.py:385-387, 544-546, 701-703: `q` and, if there is one, `aux` become
views of the arrays with ghost cells. -/
def stepViews (g : Nat) (s : VState) : Ret VState Unit :=
  match s.q with
  | none => (s, .error .attributeError)
  | some q => match viewLayout g s (q.shape.headD 0) with
    | .error e => (s, .error e)
    | .ok v =>
      let s' := { s with q := some v }
      if 0 < s.numAux then
        match viewLayout g s s.numAux with
        | .error e => (s', .error e)
        | .ok w => ({ s' with aux := some w }, .ok ())
      else (s', .ok ())

/-- One pass of the time-stepping loop, solver.py:604-655: the backup `state.q.copy('F')`, the step, and, if the step is
rejected (with variable time steps), `state.q = q_backup`. -/
def passViews (g : Nat) (s : VState) (accepted : Bool) : Ret VState Unit :=
  let backup := s.q.map fun q => Layout.fresh q.shape
  match stepViews g s with
  | (s', .error e) => (s', .error e)
  | (s', .ok _) => (if accepted then s' else { s' with q := backup }, .ok ())

/-- Any number of passes, with their decisions. -/
def passesViews (g : Nat) (s : VState) : List Bool → Ret VState Unit
  | [] => (s, .ok ())
  | a :: l => match passViews g s a with
    | (s', .error e) => (s', .error e)
    | (s', .ok _) => passesViews g s' l

/-- `Controller.run`, controller.py:291-306 and after: the check, then the passes of all calls of `evolve_to_time`. -/
def runViews (g : Nat) (solver : Option String) (s : VState) (decisions : List Bool) : Ret VState Unit :=
  match checkValidity solver [s] with
  | .error e => (s, .error e)
  | .ok _ => passesViews g s decisions

end PyClaw
