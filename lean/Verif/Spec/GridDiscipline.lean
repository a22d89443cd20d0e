import Verif.Model.Grid

/-! The order of operations under which grid coordinates are up to date (property C05). -/
namespace PyClaw

variable {K : Type*} [Field K] [LinearOrder K]

/-- What an operation on a dimension does, seen from outside: changes an extent, or evaluates one of
the two coordinate arrays. -/
inductive DimEffect where
  | change
  | reads (k : Kind)

def DimOp.effect : DimOp K → DimEffect
  | .setLower _ => .change
  | .setUpper _ => .change
  | .setNumCells _ => .change
  | .readNodes => .reads .nodes
  | .readCenters => .reads .centers
  | .readCentersWithGhost _ => .reads .centers
  | .readNodesWithGhost _ => .reads .nodes

/-- What has happened so far, as far as the arrays of one kind are concerned:
an extent was assigned since the last evaluation of a grid array (`dirty`); the computational
(`cUsed`) or physical (`pUsed`) array was evaluated since `mapc2p` was last assigned. -/
structure Usage where
  dirty : Bool := false
  cUsed : Bool := false
  pUsed : Bool := false

/-- The order of operations under which grid coordinates are up to date. After an extent has been
assigned, the next array of this kind that is evaluated must be the physical one, if it has been in use;
the computational one is also fine if the physical one is not in use; and evaluating the array of a
dimension object directly is fine only if neither is in use. All other operations are unrestricted. -/
def disciplined (k : Kind) : Usage → List (GridOp K) → Prop
  | _, [] => True
  | u, .dim _ op :: ops =>
    match op.effect with
    | .change => disciplined k { u with dirty := true } ops
    | .reads k' => (k' = k → ¬ (u.dirty = true ∧ u.cUsed = true)) ∧ disciplined k u ops
  | _, .setMap _ :: ops => disciplined k {} ops
  | u, .addDimension _ :: ops => disciplined k u ops
  | u, .readC k' :: ops =>
    if k' = k then ¬ (u.dirty = true ∧ u.pUsed = true) ∧
      disciplined k { dirty := false, cUsed := true, pUsed := u.pUsed } ops
    else disciplined k u ops
  | u, .readP k' :: ops =>
    if k' = k then disciplined k { dirty := false, cUsed := true, pUsed := true } ops
    else disciplined k u ops

/-- Assigned cell counts are positive, and added dimensions are results of the constructor. -/
def GridOp.sane : GridOp K → Prop
  | .dim _ (.setNumCells n) => 0 < n
  | .addDimension d => ∃ l u n s, Dim.new l u n s = .ok d
  | _ => True

end PyClaw
