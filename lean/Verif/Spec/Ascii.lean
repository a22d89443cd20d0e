import Verif.Model.Ascii

/-!
Specification of frame files (C53, C55). Nothing here refers to text: two solutions are compared.
-/
namespace PyClaw.Spec

/-- Equal to nine significant digits: the relative error is at most `5e-9`, and a decimal number of at most nine digits
is not changed. Infinities and NaN are themselves. -/
def Close : Num → Num → Prop
  | .fin x, .fin y => |y - x| ≤ 5 / 10 ^ 9 * |x| ∧ ∀ k n : Int, |k| < 10 ^ 9 → x = k * (10 : ℚ) ^ n → y = x
  | a, b => b = a

/-- `idx` is a cell of the patch. -/
def Cell (p : IOPatch) (idx : List Nat) : Prop := List.Forall₂ (fun (i : Nat) (d : Dim ℚ) => (i : Int) < d.numCells) idx p.dims

/-- A dimension and what is read back: the number of cells, the lower end and the size of the cells. -/
structure SameDim (d d' : Dim ℚ) : Prop where
  cells : d'.numCells = d.numCells
  lower : Close (.fin d.lower) (.fin d'.lower)
  delta : Close (.fin ((d.upper - d.lower) / d.numCells)) (.fin ((d'.upper - d'.lower) / d'.numCells))

/-- A state and what is read back. -/
structure SameState {D M : Type} (s s' : IOState D M) : Prop where
  index : s'.patch.patchIndex = s.patch.patchIndex
  level : s'.patch.level = s.patch.level
  dims : List.Forall₂ SameDim s.patch.dims s'.patch.dims
  t : Close s.t s'.t
  numEqn : s'.numEqn = s.numEqn
  numAux : s'.numAux = s.numAux
  q : ∀ m < s.numEqn, ∀ idx, Cell s.patch idx → Close (s.q m idx) (s'.q m idx)

/-- The auxiliary array. -/
def SameAux {D M : Type} (s s' : IOState D M) : Prop :=
  ∀ m < s.numAux, ∀ idx, Cell s.patch idx → Close (s.aux m idx) (s'.aux m idx)

/-- The range of double precision, with a margin. -/
def Double : Num → Prop
  | .fin x => x = 0 ∨ ((10 : ℚ) ^ (-400 : Int) ≤ |x| ∧ |x| ≤ (10 : ℚ) ^ (400 : Int))
  | _ => True

/-- A solution that the format supports (ascii.py:21-27): at least one state, one to three dimensions, the same time,
`num_eqn`, `num_aux` and number of dimensions in all states, valid dimensions with names on one line. -/
structure Writable {D M : Type} (sol : IOSol D M) : Prop where
  states : sol.states ≠ []
  domain : sol.domain = some (sol.states.map IOState.patch)
  same : ∀ s ∈ sol.states, ∀ s' ∈ sol.states, s.t = s'.t ∧ s.numEqn = s'.numEqn ∧ s.numAux = s'.numAux ∧
    s.patch.dims.length = s'.patch.dims.length
  eqns : ∀ s ∈ sol.states, 1 ≤ s.numEqn
  ndim : ∀ s ∈ sol.states, 1 ≤ s.patch.dims.length ∧ s.patch.dims.length ≤ 3
  cells : ∀ s ∈ sol.states, ∀ d ∈ s.patch.dims, 0 < d.numCells ∧ d.lower < d.upper ∧ '\n' ∉ d.name.toList
  q : ∀ s ∈ sol.states, ∀ m < s.numEqn, ∀ idx, Cell s.patch idx → Double (s.q m idx)
  aux : ∀ s ∈ sol.states, ∀ m < s.numAux, ∀ idx, Cell s.patch idx → Double (s.aux m idx)

end PyClaw.Spec
