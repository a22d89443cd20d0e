import Verif.Model.Basic
import Mathlib.Algebra.Order.Field.Basic
import Mathlib.Algebra.Order.Floor.Ring
import Mathlib.Data.List.Sort

/-!
Model of /repo/src/pyclaw/fileio/claw_vtk.py: `_set_overlapped_status` (lines 235-326) and `write` (lines 33-232).

Two-dimensional patches only; exact arithmetic. The VTK library is not modelled: a frame is the list of blocks handed to it
(`SetAMRBox`, `SetDataSet`) with the spacing set for their level (`SetSpacing`). A block is described by the patch it was made
from, the cell arrays `q_0, q_1, …` and the array `vtkGhostType`. The transposition of the arrays for VTK is not modelled: arrays
are functions of the two cell indices. The type assertions and the file names are not modelled.
-/
namespace PyClaw

variable {K : Type*}

/-- What `write` reads of a two-dimensional patch. -/
structure VtkPatch (K : Type*) where
  /-- Clawpack's level: 1 is the coarsest -/
  level : Int
  xlower : K
  xupper : K
  ylower : K
  yupper : K
  nx : Nat
  ny : Nat

/-- A state: its patch and the components of `q`, functions of the cell. -/
structure VtkState (K : Type*) where
  patch : VtkPatch K
  q : List (Nat → Nat → K)

variable [Field K] [LinearOrder K] [FloorRing K]

/-- `patch.delta`. -/
def VtkPatch.dx (p : VtkPatch K) : K := (p.xupper - p.xlower) / p.nx
def VtkPatch.dy (p : VtkPatch K) : K := (p.yupper - p.ylower) / p.ny

/-- Python's `round(x)` for a float: to the nearest integer, ties to even. -/
def pyRound (x : K) : Int :=
  let f := ⌊x⌋
  if x - f < 1 / 2 then f else if 1 / 2 < x - f then f + 1 else if f % 2 = 0 then f else f + 1

/-- `x_idx_lower` (and `y_idx_lower`), claw_vtk.py:303-305, 309-311. -/
def idxLower (lowerFine lowerCoarse dx : K) : Int := max (pyRound ((lowerFine - lowerCoarse) / dx)) 0

/-- `x_idx_upper` (and `y_idx_upper`), claw_vtk.py:306-308, 312-314. -/
def idxUpper (lowerFine upperFine dx : K) (lo : Int) (n : Nat) : Int :=
  min (pyRound ((upperFine - lowerFine) / dx) + lo) n

/-- Filling the slice for one fine patch, claw_vtk.py:299-317. (The indices are not negative.) -/
def fillOverlap (p f : VtkPatch K) (status : Nat → Nat → K) : Nat → Nat → K :=
  let xlo := idxLower f.xlower p.xlower p.dx
  let xhi := idxUpper f.xlower f.xupper p.dx xlo p.nx
  let ylo := idxLower f.ylower p.ylower p.dy
  let yhi := idxUpper f.ylower f.yupper p.dy ylo p.ny
  fun i j => if (xlo ≤ i ∧ (i : Int) < xhi) ∧ (ylo ≤ j ∧ (j : Int) < yhi) then 8 else status i j

/-- `overlapped_status` of one patch, claw_vtk.py:282-320. -/
def overlapStatus (patches : List (VtkPatch K)) (p : VtkPatch K) : Nat → Nat → K :=
  patches.foldl (fun status f => if f.level - 1 = p.level - 1 + 1 then fillOverlap p f status else status) (fun _ _ => 0)

/-- `_set_overlapped_status(sol)`: `state.q = np.vstack((state.q, overlapped_status))` for every state, claw_vtk.py:271-325. -/
def setOverlapped (states : List (VtkState K)) : List (VtkState K) :=
  states.map fun s => { s with q := s.q ++ [overlapStatus (states.map (·.patch)) s.patch] }

/-- One block of a frame. -/
structure VtkBlock (K : Type*) where
  level : Int
  index : Nat
  spacing : K × K
  patch : VtkPatch K
  fields : List (Nat → Nat → K)
  ghost : Option (Nat → Nat → K)

/-- `level_count[level] = level_count[level] + 1`, or a new entry at the end, claw_vtk.py:120-124. -/
def bumpLevel (d : List (Int × Nat)) (l : Int) : List (Int × Nat) :=
  if (d.any fun e => decide (e.1 = l)) = true then d.map fun e => if e.1 = l then (e.1, e.2 + 1) else e else d ++ [(l, 1)]

/-- The dictionary `level_count`, in insertion order, claw_vtk.py:117-128. -/
def levelCount (levels : List Int) : List (Int × Nat) := levels.foldl bumpLevel []

/-- The spacing of the first state of a level, claw_vtk.py:125-128. -/
def levelSpacing (states : List (VtkState K)) (level : Int) : Option (K × K) :=
  (states.find? fun s => s.patch.level - 1 = level).map fun s => (s.patch.dx, s.patch.dy)

/-- `list[i]` for a Python index. -/
def pyIndex {α : Type*} (l : List α) (i : Int) : Option α :=
  if 0 ≤ i then l[i.toNat]? else if 0 ≤ i + l.length then l[(i + l.length).toNat]? else none

/-- The blocks of one level, claw_vtk.py:160-219. -/
def levelBlocks (sorted : List (VtkState K)) (level : Int) (spacing : K × K) (start n : Nat) : Except PyErr (List (VtkBlock K)) :=
  if start + n ≤ sorted.length then
    .ok (((sorted.drop start).take n).mapIdx fun i s => ⟨level, i, spacing, s.patch, s.q.dropLast, s.q.getLast?⟩)
  else .error .indexError

/-- The loop over the levels, claw_vtk.py:151-222. -/
def vtkLoop (states sorted : List (VtkState K)) (perLevel : List Nat) : List Int → Nat → Except PyErr (List (VtkBlock K))
  | [], _ => .ok []
  | level :: ls, start =>
    match pyIndex perLevel level, levelSpacing states level with
    | some n, some sp =>
      match levelBlocks sorted level sp start n with
      | .error e => .error e
      | .ok bs =>
        match vtkLoop states sorted perLevel ls (start + n) with
        | .error e => .error e
        | .ok rest => .ok (bs ++ rest)
    | _, _ => .error .indexError

/-- `write(solution, …)`: the states afterwards and the frame. -/
def vtkWrite (states : List (VtkState K)) : List (VtkState K) × Except PyErr (List (VtkBlock K)) :=
  let states' := setOverlapped states
  let count := levelCount (states'.map fun s => s.patch.level - 1)
  let perLevel := (count.insertionSort fun a b => a.1 ≤ b.1).map (·.2)
  let sorted := states'.insertionSort fun a b => a.patch.level ≤ b.patch.level
  (states', vtkLoop states' sorted perLevel (count.map (·.1)) 0)

end PyClaw
