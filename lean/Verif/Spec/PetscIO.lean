import Verif.Model.PetscIO

/-!
What a frame in PETSc files must keep, whatever the numbers of processes that write and read it.
-/
namespace PyClaw.Spec

variable {V X : Type}

/-- Along each axis the bounds begin with 0, end with the number of cells, and increase: every cell belongs to one process,
and every process has cells. -/
def GoodCut (L : CutGrid) (sizes : List Nat) : Prop :=
  List.Forall₂ (fun c n => c.head? = some 0 ∧ c.getLast? = some n ∧ c.Pairwise (· < ·)) L sizes

/-- Cell `i` of the box of process `r` is the cell `x` of the whole grid. -/
def IsCell (L : CutGrid) (r : Nat) (i x : List Nat) : Prop :=
  r < L.count ∧ List.Forall₂ (· < ·) i (L.size r) ∧ x = List.zipWith (fun a b => a + b) i (L.lo r)

/-- Two distributed arrays with `m` components hold the same values: wherever a cell of the whole grid is found on a process
of the first group and on a process of the second, the values are equal. -/
def SameValues (L : CutGrid) (a : Nat → List Nat → V) (L' : CutGrid) (a' : Nat → List Nat → V) (m : Nat) : Prop :=
  ∀ c < m, ∀ x r i r' i', IsCell L r i x → IsCell L' r' i' x → a' r' (c :: i') = a r (c :: i)

/-- A dimension comes back with its name, bounds and cells. The units are lost. -/
def SamePDim (d e : HDim) : Prop :=
  e.name = d.name ∧ e.lower = d.lower ∧ e.upper = d.upper ∧ e.numCells = d.numCells ∧ e.units = none

/-- A state comes back: level, dimensions, numbers of fields, and every value of `q`; time, `problem_data` and `mapc2p` are those
of the first state of the solution. The number of the patch is lost. -/
def SamePState (first s s' : PState V X) : Prop :=
  s'.patch.patchIndex = 1 ∧ s'.patch.level = s.patch.level ∧ List.Forall₂ SamePDim s.patch.dims s'.patch.dims ∧
    s'.t = first.t ∧ s'.problemData = first.problemData ∧ s'.mapc2p = first.mapc2p ∧ s'.numEqn = s.numEqn ∧ s'.numAux = s.numAux ∧
    SameValues s.layout s.q s'.layout s'.q s.numEqn

/-- So does every auxiliary value. -/
def SamePAux (s s' : PState V X) : Prop := SameValues s.layout s.aux s'.layout s'.aux s.numAux

/-- The states that `Dimension`, `Patch` and `State` allow, on a good layout. -/
def GoodPState (s : PState V X) : Prop :=
  s.patch.dims.length ≤ 3 ∧ (s.patch.dims.map fun d => d.name).Nodup ∧
    (∀ d ∈ s.patch.dims, 0 < d.numCells ∧ d.lower < d.upper) ∧ 0 < s.numEqn ∧ GoodCut s.layout s.patch.sizes

/-- There is at least one state, all are good and have the same numbers of fields and of dimensions, which is that of the
domain. -/
def GoodPSol (sol : PSol V X) : Prop :=
  (∃ s0 l p0 ps, sol.states = s0 :: l ∧ sol.domain = some (p0 :: ps) ∧
    ∀ s ∈ s0 :: l, s.numEqn = s0.numEqn ∧ s.numAux = s0.numAux ∧ s.patch.dims.length = p0.dims.length) ∧
  ∀ s ∈ sol.states, GoodPState s

/-- How PETSc cuts the grids among the processes that read: some good layout for each patch. -/
def GoodReader (lay : HPatch → CutGrid) : Prop := ∀ p : HPatch, (∀ d ∈ p.dims, 0 < d.numCells) → GoodCut (lay p) p.sizes

/-- Whether auxiliary values are written: `write_aux`, unless the first state has none. -/
def auxWritten (sol : PSol V X) (wa : Bool) : Bool :=
  match sol.states with
  | [] => false
  | s0 :: _ => if s0.numAux = 0 then false else wa

end PyClaw.Spec
