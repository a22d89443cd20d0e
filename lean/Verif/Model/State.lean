import Verif.Model.Basic
import Verif.Model.Heap

/-!
Model of `State`, /repo/src/pyclaw/state.py.

Simplifications. The patch is an immutable value here (its copying is `Patch.__deepcopy__`,
geometry.py:725-734). `F_CONTIGUOUS` flags are not modelled. Array contents live in a `Heap`.
-/
namespace PyClaw

/-- A `State` object, attributes of `__init__`, state.py:119-152. `cells` is the number of cells of
the patch (the product of `grid.num_cells`). -/
structure State (P K : Type*) where
  patch : P
  cells : Nat
  t : K
  q : Option Ref
  aux : Option Ref
  p : Option Ref := none
  F : Option Ref := none
  problemData : Nat
  indexCapa : Int := -1
  keepGauges : Bool := false
  gaugeData : List Ref := []

namespace State
variable {P K : Type*}

/-- `new_array(dof)`, state.py:330-335: `None` for 0, uninitialised memory (`junk`) of `dof * cells`
elements otherwise; `np.empty` raises for a negative extent. -/
def newArray (junk : K) (cells : Nat) (dof : Int) (h : Heap K) : Ret (Heap K) (Option Ref) :=
  if dof = 0 then (h, .ok none)
  else if dof < 0 then (h, .error .valueError)
  else
    let r := h.alloc (List.replicate (dof.toNat * cells) junk) junk
    (r.1, .ok (some r.2))

/-- The setter of `mp`, state.py:99-104. -/
def setMp (junk : K) (s : State P K) (n : Int) (h : Heap K) : Ret (State P K × Heap K) Unit :=
  match s.p with
  | some _ => ((s, h), .error (.exception "Cannot change state.mp after aux is initialized."))
  | none =>
    match newArray junk s.cells n h with
    | (h', .error e) => ((s, h'), .error e)
    | (h', .ok r) => (({ s with p := r }, h'), .ok ())

/-- The setter of `mF`, state.py:111-116. -/
def setMF (junk : K) (s : State P K) (n : Int) (h : Heap K) : Ret (State P K × Heap K) Unit :=
  match s.F with
  | some _ => ((s, h), .error (.exception "Cannot change state.mF after aux is initialized."))
  | none =>
    match newArray junk s.cells n h with
    | (h', .error e) => ((s, h'), .error e)
    | (h', .ok r) => (({ s with F := r }, h'), .ok ())

/-- The getters of `mp`, `mF`, state.py:95-98, 107-110: `shape[0]` of the array, that is the number of
its elements divided by the number of cells. -/
def extentOf (cells : Nat) : Option Ref → Nat
  | none => 0
  | some r => r.idx.length / cells

def mp (s : State P K) : Nat := extentOf s.cells s.p
def mF (s : State P K) : Nat := extentOf s.cells s.F

/-- `copy.deepcopy` of an optional array: a new buffer with the same elements. A view is copied as an
array of its own. -/
def copyArr (junk : K) (h : Heap K) : Option Ref → Heap K × Option Ref
  | none => (h, none)
  | some r => let a := h.alloc (h.read r) junk; (a.1, some a.2)

/-- `State.__deepcopy__`, state.py:310-324. `__init__` leaves the default values of `index_capa`, `p`,
`F`, `keep_gauges` and `gauge_data`; only `t`, `q`, `aux`, `problem_data` are copied. (The arrays
allocated by `__init__` itself are garbage and are left out. `self.num_eqn` raises if `q is None`.) -/
def deepcopy (junk : K) (s : State P K) (h : Heap K) : Ret (Heap K) (State P K) :=
  match s.q with
  | none => (h, .error (.exception "state.num_eqn has not been set."))
  | some _ =>
    let (h1, q) := copyArr junk h s.q
    let (h2, aux) := copyArr junk h1 s.aux
    let (h3, d) := h2.allocDict (h2.dict s.problemData)
    (h3, .ok { patch := s.patch, cells := s.cells, t := s.t, q := q, aux := aux, problemData := d })

end State
end PyClaw
