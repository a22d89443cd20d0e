import Verif.Model.Hdf5

/-!
What a frame must keep: the specification of the HDF5 round trip.
-/
namespace PyClaw.Spec

variable {V : Type}

/-- A dimension comes back with its name, bounds and cells, and with its units unless these are the empty text. -/
def SameHDim (d e : HDim) : Prop :=
  e.name = d.name ∧ e.lower = d.lower ∧ e.upper = d.upper ∧ e.numCells = d.numCells ∧
    e.units = if d.units = some [] then none else d.units

/-- A state comes back: patch number, level, dimensions, time, numbers of fields, and every value of `q`, exactly. -/
def SameHState (s s' : HState V) : Prop :=
  s'.patch.patchIndex = s.patch.patchIndex ∧ s'.patch.level = s.patch.level ∧
    List.Forall₂ SameHDim s.patch.dims s'.patch.dims ∧ s'.t = s.t ∧ s'.numEqn = s.numEqn ∧ s'.numAux = s.numAux ∧
    ∀ m < s.numEqn, ∀ idx, List.Forall₂ (fun (i : Nat) (d : HDim) => (i : Int) < d.numCells) idx s.patch.dims →
      s'.q (m :: idx) = s.q (m :: idx)

/-- So does every auxiliary value. -/
def SameHAux (s s' : HState V) : Prop :=
  ∀ m < s.numAux, ∀ idx, List.Forall₂ (fun (i : Nat) (d : HDim) => (i : Int) < d.numCells) idx s.patch.dims →
      s'.aux (m :: idx) = s.aux (m :: idx)

/-- The states that `Dimension`, `Patch` and `State` allow: one to three dimensions with different names, cells and
increasing bounds; at least one equation. -/
def GoodHState (s : HState V) : Prop :=
  s.patch.dims.length ≤ 3 ∧ (s.patch.dims.map fun d => d.name).Nodup ∧
    (∀ d ∈ s.patch.dims, 0 < d.numCells ∧ d.lower < d.upper) ∧ 0 < s.numEqn

/-- There is at least one state, all are good, and no patch number occurs twice. -/
def GoodHSol (sol : HSol V) : Prop :=
  sol.states ≠ [] ∧ (∀ s ∈ sol.states, GoodHState s) ∧ (sol.states.map fun s => s.patch.patchIndex).Nodup

end PyClaw.Spec
