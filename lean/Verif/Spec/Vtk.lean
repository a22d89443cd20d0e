import Verif.Model.Vtk

/-!
Specification for VTK frames (C65, C74).
-/
namespace PyClaw.Spec

variable {K : Type*} [Field K] [LinearOrder K]

/-- A patch with positive extent in both directions. -/
structure ProperPatch (p : VtkPatch K) : Prop where
  nx : 0 < p.nx
  ny : 0 < p.ny
  x : p.xlower < p.xupper
  y : p.ylower < p.yupper

/-- The edge `i` of a patch in each direction. -/
def xEdge (p : VtkPatch K) (i : Nat) : K := p.xlower + i * ((p.xupper - p.xlower) / p.nx)
def yEdge (p : VtkPatch K) (j : Nat) : K := p.ylower + j * ((p.yupper - p.ylower) / p.ny)

/-- The cell `(i, j)` of the patch `p` lies inside the rectangle of the patch `f`. -/
def Covers (f p : VtkPatch K) (i j : Nat) : Prop :=
  f.xlower ≤ xEdge p i ∧ xEdge p (i + 1) ≤ f.xupper ∧ f.ylower ≤ yEdge p j ∧ yEdge p (j + 1) ≤ f.yupper

/-- The bounds of `f` lie on the (extended) edges of the cells of `p`, as in aligned refinement. -/
structure Aligned (f p : VtkPatch K) : Prop where
  x : ∃ k w : Int, f.xlower = p.xlower + k * ((p.xupper - p.xlower) / p.nx) ∧
    f.xupper = p.xlower + (k + w) * ((p.xupper - p.xlower) / p.nx)
  y : ∃ k w : Int, f.ylower = p.ylower + k * ((p.yupper - p.ylower) / p.ny) ∧
    f.yupper = p.ylower + (k + w) * ((p.yupper - p.ylower) / p.ny)

/-- The levels appear for the first time in the order 1, 2, 3, …. -/
def LevelsInOrder (states : List (VtkState K)) (L : Nat) : Prop :=
  (∀ s ∈ states, 1 ≤ s.patch.level ∧ s.patch.level ≤ L) ∧
  ∀ l : Nat, 1 ≤ l → l ≤ L → ∃ pre, ∃ s : VtkState K, ∃ post,
    states = pre ++ s :: post ∧ s.patch.level = (l : Int) ∧ ∀ t ∈ pre, t.patch.level < (l : Int)

/-- What a frame must show of a state: its level (VTK counts from 0), its patch, its components, the mask of hidden cells, and the
spacing of its cells. -/
def shownState [FloorRing K] (states : List (VtkState K)) (s : VtkState K) :
    Int × VtkPatch K × List (Nat → Nat → K) × Option (Nat → Nat → K) × (K × K) :=
  (s.patch.level - 1, s.patch, s.q, some (overlapStatus (states.map (·.patch)) s.patch),
    ((s.patch.xupper - s.patch.xlower) / s.patch.nx, (s.patch.yupper - s.patch.ylower) / s.patch.ny))

/-- What a block shows. -/
def shownBlock (b : VtkBlock K) : Int × VtkPatch K × List (Nat → Nat → K) × Option (Nat → Nat → K) × (K × K) :=
  (b.level, b.patch, b.fields, b.ghost, b.spacing)

/-- Patches of one level have the same spacing. -/
def SameSpacing (states : List (VtkState K)) : Prop :=
  ∀ s ∈ states, ∀ t ∈ states, s.patch.level = t.patch.level →
    (s.patch.xupper - s.patch.xlower) / (s.patch.nx : K) = (t.patch.xupper - t.patch.xlower) / t.patch.nx ∧
    (s.patch.yupper - s.patch.ylower) / (s.patch.ny : K) = (t.patch.yupper - t.patch.ylower) / t.patch.ny

end PyClaw.Spec
