import Verif.Model.Dimension

/-!
Model of the parallel `Patch`, /repo/src/petclaw/geometry.py:17-41.

PETSc is not modelled: `getRanges()` of the distributed array is a parameter, for each axis the half-open range of cells this
process owns.
-/
namespace PyClaw

variable {K : Type*} [Field K] [LinearOrder K]

/-- One iteration of the loop of `Patch.__init__`, geometry.py:24-39. -/
def localDim (d : Dim K) (r : Int × Int) : Except PyErr (Dim K) :=
  match d.delta with
  | .error e => .error e
  | .ok h =>
    match Dim.new (d.lower + r.1 * h) (d.lower + r.2 * h) (r.2 - r.1) d.name with
    | .error e => .error e
    | .ok g => .ok { g with onLower := some (decide (r.1 = 0)), onUpper := some (decide (r.2 = d.numCells)) }

/-- The dimensions of the local grid, geometry.py:22-41. -/
def localGrid : List (Dim K) → List (Int × Int) → Except PyErr (List (Dim K))
  | _, [] => .ok []
  | [], _ :: _ => .error .indexError
  | d :: ds, r :: rs =>
    match localDim d r with
    | .error e => .error e
    | .ok g =>
      match localGrid ds rs with
      | .error e => .error e
      | .ok gs => .ok (g :: gs)

end PyClaw
