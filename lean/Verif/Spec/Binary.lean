import Verif.Model.Binary
import Verif.Spec.Ascii

/-!
Specification of binary frames (C54): how the Fortran programs write a patch, as nested loops.
-/
namespace PyClaw.Spec

/-- An array `v(1:meqn, 1:N₁, …, 1:N_d)` as it lies in memory; the extents are given last axis first. The loop over the
last axis is the outermost, the loop over the components the innermost. -/
def fortranOrder (meqn : Nat) : List Nat → (Nat → List Nat → Num) → List Num
  | [], v => (List.range meqn).map fun m => v m []
  | N :: dims, v => (List.range N).flatMap fun j => fortranOrder meqn dims fun m idx => v m (idx ++ [j])

/-- The extents of a patch with `g` ghost cells on each side, last axis first. -/
def extents (p : IOPatch) (g : Nat) : List Nat := (p.dims.map fun d => d.numCells.toNat + 2 * g).reverse

/-- A file: the arrays of the patches (with ghost cells) one after the other. -/
def fileOf (meqn g : Nat) (l : List (IOPatch × (Nat → List Nat → Num))) : List Num :=
  l.flatMap fun pv => fortranOrder meqn (extents pv.1 g) pv.2

/-- The array holds the values of the cells of the patch, without the ghost cells. -/
def Holds (num g : Nat) (p : IOPatch) (v : Nat → List Nat → Num) (a : BArr) : Prop :=
  a.shape = num :: p.dims.map (fun d => d.numCells.toNat) ∧
    ∀ m < num, ∀ idx, Cell p idx → a.get m idx = v m (idx.map (· + g))

end PyClaw.Spec
