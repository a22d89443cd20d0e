import Verif.Model.Basic
import Mathlib.Logic.Function.Basic

/-!
Model of `Solution` objects: reading and assigning attributes, copying, and construction,
/repo/src/pyclaw/solution.py:67-233. Reading and writing files is in Model/Ascii.lean, Model/Binary.lean, Model/Hdf5.lean;
`is_valid` in Model/Validity.lean.

Simplifications. States, values and geometry objects are abstract: `ops` says what reading and assigning an attribute of a
state does. The attributes `states` and `domain` are fields here and are not assigned from outside. Names of methods are
not used as names of attributes. `claw_package` is found.
-/
namespace PyClaw

/-- Reading and assigning an attribute of a state (state.py). -/
structure StateOps (S V : Type) where
  get : S → String → Except PyErr V
  set : S → String → V → Ret S Unit

/-- A `Solution`: its states, the other entries of `__dict__`, and `_start_frame`, solution.py:92-97, 125-126. -/
structure SolObj (S V : Type) where
  states : List S
  dict : String → Option V
  startFrame : V

variable {S V : Type}

/-- The attributes that `__getattr__` takes from the first state, solution.py:68-72. -/
def forwarded : List String :=
  ["t", "num_eqn", "mp", "mF", "q", "p", "F", "aux", "capa", "problem_data", "num_aux", "num_dim", "p_centers", "p_edges",
    "c_centers", "c_edges", "num_cells", "lower", "upper", "delta", "centers", "edges", "gauges", "grid"]

/-- The attributes that are set on all states, solution.py:78. -/
def setOnAll : List String := ["t", "mp", "mF"]

/-- `_get_base_state_attribute`, solution.py:226-233. -/
def SolObj.base (ops : StateOps S V) (o : SolObj S V) (key : String) : Except PyErr V :=
  match o.states with
  | [] => .error .indexError
  | s :: _ => ops.get s key

/-- `solution.key`: the property `start_frame` first, then `__dict__`, then `__getattr__`, solution.py:67-75, 92-97. -/
def SolObj.get (ops : StateOps S V) (o : SolObj S V) (key : String) : Except PyErr V :=
  if key = "start_frame" then .ok o.startFrame
  else match o.dict key with
    | some v => .ok v
    | none => if key ∈ forwarded then o.base ops key else .error .attributeError

/-- The loop of `set_all_states` with `overwrite=True`, solution.py:220-222: the attribute is read, then assigned. -/
def setAll (ops : StateOps S V) (key : String) (v : V) : List S → Ret (List S) Unit
  | [] => ([], .ok ())
  | s :: l => match ops.get s key with
    | .error e => (s :: l, .error e)
    | .ok _ => match ops.set s key v with
      | (s', .error e) => (s' :: l, .error e)
      | (s', .ok _) => let r := setAll ops key v l; (s' :: r.1, r.2)

/-- `solution.key = v`, solution.py:77-81. -/
def SolObj.set (ops : StateOps S V) (o : SolObj S V) (key : String) (v : V) : Ret (SolObj S V) Unit :=
  if key ∈ setOnAll then
    let r := setAll ops key v o.states
    ({ o with states := r.1 }, r.2)
  else ({ o with dict := Function.update o.dict key (some v) }, .ok ())

/-- `__deepcopy__`, solution.py:240-251: a new solution with copies of the states (and of the domain); nothing else. -/
def SolObj.deepcopy (copyState : S → Except PyErr S) (zero : V) (o : SolObj S V) : Except PyErr (SolObj S V) :=
  match o.states.mapM copyState with
  | .error e => .error e
  | .ok l => .ok ⟨l, fun _ => none, zero⟩

/-- `__copy__`, solution.py:236-237: `self.__class__(self)`, and the constructor calls `int` on its only argument. -/
def SolObj.copy (_ : SolObj S V) : Except PyErr (SolObj S V) := .error .typeError

/-- What can happen to a solution: an assignment through the solution, or an assignment to one of its states. -/
inductive SolOp (V : Type) where
  | set (key : String) (v : V)
  | setState (i : Nat) (key : String) (v : V)

/-- One event; exceptions are caught by the caller. -/
def SolObj.step (ops : StateOps S V) (o : SolObj S V) : SolOp V → SolObj S V
  | .set key v => (o.set ops key v).1
  | .setState i key v => { o with states := o.states.modify i fun s => (ops.set s key v).1 }

/-- A history. -/
def SolObj.run (ops : StateOps S V) (o : SolObj S V) (l : List (SolOp V)) : SolObj S V := l.foldl (SolObj.step ops) o

/-! ### Construction with two arguments -/

/-- The second argument: a `Domain`, a list or tuple of dimensions, of patches or of something else (what decides is the
first element), or something that is no list: a single `Patch` or `Dimension`, for instance. -/
inductive GeoArg (Dom Dim' Pat : Type) where
  | domain (d : Dom)
  | dims (d : Dim') (l : List Dim')
  | patches (p : Pat) (l : List Pat)
  | otherList
  | emptyList
  | single

/-- The first argument: a state, a list of states, a list of integers, another list, an integer, or something else. -/
inductive StateArg (S : Type) where
  | state (s : S)
  | states (s : S) (l : List S)
  | ints (l : List Int)
  | otherList
  | int (n : Int)
  | other

/-- The attribute `states` afterwards: a list, or one state that is not in a list. -/
inductive StatesAttr (S : Type) where
  | list (l : List S)
  | bare (s : S)

/-- The constructors of `Domain`, `Patch` and `State` that are used. -/
structure Makers (S Dom Dim' Pat : Type) where
  ofDims : List Dim' → Except PyErr Dom
  ofPatches : List Pat → Except PyErr Dom
  state : Dom → Int → Int → Except PyErr S

/-- The domain, solution.py:140-152. `arg` is a tuple, so that `arg[1] = list(arg[1])` raises. -/
def solDomain {Dom Dim' Pat : Type} (mk : Makers S Dom Dim' Pat) : GeoArg Dom Dim' Pat → Except PyErr Dom
  | .domain d => .ok d
  | .dims d l => mk.ofDims (d :: l)
  | .patches p l => mk.ofPatches (p :: l)
  | .otherList => .error (.exception "Invalid arguments for Solution initialization.")
  | .emptyList => .error .indexError
  | .single => .error .typeError

/-- The states, solution.py:154-170. -/
def solStates {Dom Dim' Pat : Type} (mk : Makers S Dom Dim' Pat) (dom : Dom) : StateArg S → Except PyErr (StatesAttr S)
  | .state s => .ok (.list [s])
  | .states s l => .ok (.list (s :: l))
  | .ints (n :: m :: _) => match mk.state dom n m with
    | .error e => .error e
    | .ok s => .ok (.bare s)
  | .ints _ => .error .indexError
  | .otherList => .error (.exception "Invalid arguments for Solution initialization.")
  | .int n => match mk.state dom n 0 with
    | .error e => .error e
    | .ok s => .ok (.list [s])
  | .other => .error (.exception "Invalid arguments for Solution initialization.")

/-- `Solution(a, b)`, solution.py:138-171. -/
def solNew {Dom Dim' Pat : Type} (mk : Makers S Dom Dim' Pat) (a : StateArg S) (b : GeoArg Dom Dim' Pat) :
    Except PyErr (StatesAttr S × Dom) :=
  match solDomain mk b with
  | .error e => .error e
  | .ok dom => match solStates mk dom a with
    | .error e => .error e
    | .ok st => .ok (st, dom)

/-- `solution.state`, solution.py:85-88: `self.states[0]`. A `State` cannot be indexed. -/
def StatesAttr.base : StatesAttr S → Except PyErr S
  | .list [] => .error .indexError
  | .list (s :: _) => .ok s
  | .bare _ => .error .typeError

end PyClaw
