import Verif.Model.Basic
import Mathlib.Algebra.Order.Field.Basic
import Mathlib.Data.Int.Cast.Basic

/-!
Model of `Dimension`, /repo/src/pyclaw/geometry.py:476-641.

Simplifications. Floats are elements of an arbitrary linearly ordered field `K`. `float(x)` and
`int(n)` are the identity on inputs of the right type. The type assertions of `_check_validity`
(geometry.py:626-628) therefore always succeed. Arrays are lists. `units` is not modelled.
-/
namespace PyClaw

variable {K : Type*} [Field K] [LinearOrder K]

/-- A `Dimension` object: the attributes set in `__init__`, geometry.py:599-623. `nodesC`, `centersC`
are the cached arrays `_nodes`, `_centers` (`none` = Python `None`). -/
structure Dim (K : Type*) where
  lower : K
  upper : K
  numCells : Int
  name : String := "x"
  onLower : Option Bool := none
  onUpper : Option Bool := none
  nodesC : Option (List K) := none
  centersC : Option (List K) := none

namespace Dim

/-- The two value assertions of `_check_validity`, geometry.py:629-630. -/
def valid (d : Dim K) : Bool := decide (0 < d.numCells) && decide (d.lower < d.upper)

/-- `_check_validity`, geometry.py:625-630. -/
def checkValidity (d : Dim K) : Except PyErr Unit :=
  if d.valid then .ok () else .error .assertion

/-- `Dimension.__init__`, geometry.py:599-623. When the check fails no object is returned. -/
def new (lower upper : K) (numCells : Int) (name : String := "x") : Except PyErr (Dim K) :=
  let d : Dim K := { lower, upper, numCells, name }
  match d.checkValidity with
  | .ok _ => .ok d
  | .error e => .error e

/-- `Dimension.delta`, geometry.py:521-523; dividing by `float(0)` raises. -/
def delta (d : Dim K) : Except PyErr K :=
  if d.numCells = 0 then .error .zeroDivision else .ok ((d.upper - d.lower) / (d.numCells : K))

/-- The loop of the `nodes` property, geometry.py:542-544: entry `i` of an array of
`num_cells+1` entries is `lower + i*delta`. `np.empty` raises for a negative size. -/
def computeNodes (d : Dim K) : Except PyErr (List K) :=
  if d.numCells + 1 < 0 then .error .valueError
  else if d.numCells + 1 = 0 then .ok []
  else match d.delta with
    | .error e => .error e
    | .ok h => .ok ((List.range (d.numCells + 1).toNat).map fun (i : Nat) => d.lower + (i : K) * h)

/-- The loop of the `centers` property, geometry.py:551-553. With `num_cells = 0` the loop body never
runs, so `delta` is not evaluated. -/
def computeCenters (d : Dim K) : Except PyErr (List K) :=
  if d.numCells < 0 then .error .valueError
  else if d.numCells = 0 then .ok []
  else match d.delta with
    | .error e => .error e
    | .ok h => .ok ((List.range d.numCells.toNat).map fun (i : Nat) => d.lower + ((i : K) + 1 / 2) * h)

/-- The `nodes` property, geometry.py:538-545. The cache is assigned before the loop fills it: if the
loop raises (only possible for `num_cells = 0`) the cache keeps the uninitialised one-element array
`np.empty(1)`, whose content is the parameter `junk`. -/
def readNodes (junk : K) (d : Dim K) : Ret (Dim K) (List K) :=
  match d.nodesC with
  | some a => (d, .ok a)
  | none =>
    match d.computeNodes with
    | .ok a => ({ d with nodesC := some a }, .ok a)
    | .error e =>
      if d.numCells + 1 < 0 then (d, .error e)
      else ({ d with nodesC := some (List.replicate (d.numCells + 1).toNat junk) }, .error e)

/-- The `centers` property, geometry.py:547-554. (The loop cannot raise once the array exists.) -/
def readCenters (d : Dim K) : Ret (Dim K) (List K) :=
  match d.centersC with
  | some a => (d, .ok a)
  | none =>
    match d.computeCenters with
    | .ok a => ({ d with centersC := some a }, .ok a)
    | .error e => (d, .error e)

/-- Reset of the cached arrays in the setters, geometry.py:562-563, 571-572, 579-580. -/
def clear (d : Dim K) : Dim K := { d with nodesC := none, centersC := none }

/-- The setter of `lower`, geometry.py:558-564: store, clear caches, then check. -/
def setLower (d : Dim K) (x : K) : Ret (Dim K) Unit :=
  let d' := { d with lower := x }.clear
  (d', d'.checkValidity)

/-- The setter of `upper`, geometry.py:567-573. -/
def setUpper (d : Dim K) (x : K) : Ret (Dim K) Unit :=
  let d' := { d with upper := x }.clear
  (d', d'.checkValidity)

/-- The setter of `num_cells`, geometry.py:576-582. -/
def setNumCells (d : Dim K) (n : Int) : Ret (Dim K) Unit :=
  let d' := { d with numCells := n }.clear
  (d', d'.checkValidity)

/-- `np.linspace(start, stop, num)`: `num` equally spaced values, both ends included. -/
def linspace (start stop : K) (num : Nat) : List K :=
  if num = 1 then [start]
  else (List.range num).map fun (i : Nat) => start + (i : K) * ((stop - start) / ((num : K) - 1))

/-- `centers_with_ghost`, geometry.py:583-589. -/
def centersWithGhost (d : Dim K) (g : Nat) : Ret (Dim K) (List K) :=
  match d.readCenters with
  | (d', .error e) => (d', .error e)
  | (d', .ok c) =>
    match d'.delta with
    | .error e => (d', .error e)
    | .ok h =>
      let pre := (List.range g).map fun (i : Nat) => d'.lower + ((-(g : K) + (i : K)) + 1 / 2) * h
      let post := (List.range g).map fun (i : Nat) => d'.upper + h * ((i : K) + 1 / 2)
      (d', .ok (pre ++ c ++ post))

/-- `nodes_with_ghost`, geometry.py:591-597. -/
def nodesWithGhost (junk : K) (d : Dim K) (g : Nat) : Ret (Dim K) (List K) :=
  match d.readNodes junk with
  | (d', .error e) => (d', .error e)
  | (d', .ok c) =>
    match d'.delta with
    | .error e => (d', .error e)
    | .ok h =>
      let pre := linspace (d'.lower - (g : K) * h) (d'.lower - h) g
      let post := linspace (d'.upper + h) (d'.upper + (g : K) * h) g
      (d', .ok (pre ++ c ++ post))

end Dim

/-- The operations a user can perform on a `Dimension`. -/
inductive DimOp (K : Type*) where
  | setLower (x : K)
  | setUpper (x : K)
  | setNumCells (n : Int)
  | readNodes
  | readCenters
  | readCentersWithGhost (g : Nat)
  | readNodesWithGhost (g : Nat)

/-- One operation on a `Dimension`; setters return the empty list on success. -/
def Dim.step (junk : K) (d : Dim K) : DimOp K → Ret (Dim K) (List K)
  | .setLower x => let r := d.setLower x; (r.1, r.2.map fun _ => [])
  | .setUpper x => let r := d.setUpper x; (r.1, r.2.map fun _ => [])
  | .setNumCells n => let r := d.setNumCells n; (r.1, r.2.map fun _ => [])
  | .readNodes => d.readNodes junk
  | .readCenters => d.readCenters
  | .readCentersWithGhost g => d.centersWithGhost g
  | .readNodesWithGhost g => d.nodesWithGhost junk g

/-- The object after a history of operations; exceptions are caught by the caller and the history
goes on. -/
def Dim.run (junk : K) (d : Dim K) (ops : List (DimOp K)) : Dim K :=
  ops.foldl (fun d op => (d.step junk op).1) d

end PyClaw
