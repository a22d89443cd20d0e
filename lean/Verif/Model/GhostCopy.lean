import Verif.Model.Basic
import Mathlib.Data.List.Forall2

/-!
Model of `set_q_from_qbc`, `set_aux_from_auxbc`, `get_qbc_from_q`, `get_auxbc_from_aux`,
/repo/src/pyclaw/state.py:239-303 (value level; the aliasing of the view is in `Model/Aliasing.lean`).

The four functions have the same body for `q` and `aux`.
-/
namespace PyClaw

/-- An ndarray: extents and elements. Only `at idx` with `idx` inside the extents is meaningful. The
first extent is the number of components. -/
structure Arr (K : Type*) where
  shape : List Nat
  val : List Nat → K

namespace Arr
variable {K : Type*}

/-- The index lies inside the array. -/
def Inside (a : Arr K) (idx : List Nat) : Prop := List.Forall₂ (· < ·) idx a.shape

/-- Same extents and same elements. -/
def Same (a b : Arr K) : Prop := a.shape = b.shape ∧ ∀ idx, a.Inside idx → a.val idx = b.val idx

end Arr

/-- Start and length of the Python slice `g:-g` of an axis of length `N`. For `g = 0` this is `0:0`,
which is empty. -/
def sliceStart (g N : Nat) : Nat := if g = 0 then 0 else min g N
def sliceLen (g N : Nat) : Nat := if g = 0 then 0 else N - 2 * g

variable {K : Type*}

/-- Add the start of the slice to every index but the first. -/
def shiftIdx (g : Nat) (shape : List Nat) (idx : List Nat) : List Nat :=
  match shape, idx with
  | _ :: ns, m :: is => m :: List.zipWith (fun i N => i + sliceStart g N) is ns
  | _, _ => idx

/-- `qbc[:,g:-g,...]`, for any number of dimensions. -/
def interiorView (g : Nat) (qbc : Arr K) : Arr K :=
  { shape := match qbc.shape with
      | m :: ns => m :: ns.map (sliceLen g)
      | [] => [],
    val := fun idx => qbc.val (shiftIdx g qbc.shape idx) }

/-- `set_q_from_qbc` / `set_aux_from_auxbc`, state.py:239-268: the new `q`. `numDim` is
`patch.num_dim`; the arrays have `numDim + 1` axes. -/
def setQFromQbc (numDim g : Nat) (qbc : Arr K) : Except PyErr (Arr K) :=
  if numDim = 1 ∨ numDim = 2 ∨ numDim = 3 then .ok (interiorView g qbc)
  else .error (.exception "Assumption (1 <= num_dim <= 3) violated.")

/-- NumPy broadcasting of an axis of extent `a` to extent `b`. -/
def axisFits (a b : Nat) : Bool := a == b || a == 1

/-- Is `idx` (without the component index) inside the slice `g:-g` of every axis? -/
def insideSlice (g : Nat) : List Nat → List Nat → Bool
  | i :: is, N :: ns =>
    decide (sliceStart g N ≤ i ∧ i < sliceStart g N + sliceLen g N) && insideSlice g is ns
  | [], [] => true
  | _, _ => false

/-- The index of the source element for a target index, with broadcasting of axes of extent 1. -/
def sourceIdx (g : Nat) : List Nat → List Nat → List Nat → List Nat
  | n :: qs, N :: ns, i :: is => (if n = 1 then 0 else i - sliceStart g N) :: sourceIdx g qs ns is
  | _, _, _ => []

/-- The content of `qbc` after `qbc[:,g:-g,...] = q`. -/
def assignedArr (g : Nat) (q qbc : Arr K) (mq : Nat) (qs ns : List Nat) : Arr K where
  shape := qbc.shape
  val idx :=
    match idx with
    | c :: is =>
      if insideSlice g is ns then q.val ((if mq = 1 then 0 else c) :: sourceIdx g qs ns is)
      else qbc.val idx
    | [] => qbc.val idx

/-- The assignment `qbc[:,g:-g,...] = q`; raises `ValueError` if the shapes do not broadcast. -/
def assignInterior (g : Nat) (q qbc : Arr K) : Except PyErr (Arr K) :=
  match q.shape, qbc.shape with
  | mq :: qs, m :: ns =>
    if q.shape.length = qbc.shape.length ∧ axisFits mq m ∧
        (List.zipWith (fun n N => axisFits n (sliceLen g N)) qs ns).all id then
      .ok (assignedArr g q qbc mq qs ns)
    else .error .valueError
  | _, _ => .error .valueError

/-- `get_qbc_from_q` / `get_auxbc_from_aux`, state.py:271-303: the array that is returned (and that
`qbc` has become). -/
def getQbcFromQ (numDim g : Nat) (q qbc : Arr K) : Except PyErr (Arr K) :=
  if numDim = 1 ∨ numDim = 2 ∨ numDim = 3 then assignInterior g q qbc
  else .error (.exception "Assumption (1 <= num_dim <= 3) violated.")

end PyClaw
