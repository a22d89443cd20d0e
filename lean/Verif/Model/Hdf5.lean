import Verif.Model.Text
import Mathlib.Data.List.Sort
import Mathlib.Data.List.Forall2

/-!
Model of the HDF5 frame files, /repo/src/pyclaw/fileio/hdf5.py, through `h5py`.

Simplifications. Files live in one directory and have one prefix, and are named by the frame number. HDF5 stores numbers,
strings and arrays as they are (compression and checksums do not change them). Bounds are exact and finite. `h5py` gives
the members of a group in the order of their names. An array is a shape and a function of the indices. A state with
`num_eqn = 0` is one whose `q` is `None`. `num_ghost` is not an attribute of a patch (it is written only if it is).
-/
namespace PyClaw

/-- A dimension: the attributes that are written, hdf5.py:132-138. -/
structure HDim where
  name : List Char
  lower : ℚ
  upper : ℚ
  numCells : Int
  units : Option (List Char)
  deriving DecidableEq

/-- A patch, geometry.py:647-700. -/
structure HPatch where
  patchIndex : Int
  level : Int
  dims : List HDim
  deriving DecidableEq

/-- A state, state.py:119-152. The arrays are functions of the component followed by the cell indices. -/
structure HState (V : Type) where
  patch : HPatch
  t : V
  numEqn : Nat
  numAux : Nat
  numP : Nat
  q : List Nat → V
  aux : List Nat → V
  p : List Nat → V

/-- A solution: states and the patches of its domain. -/
structure HSol (V : Type) where
  states : List (HState V)
  domain : Option (List HPatch)

/-- The extents of an array with `m` components on a patch, state.py:330-335. -/
def HPatch.shape (p : HPatch) (m : Nat) : List Nat := m :: p.dims.map fun d => d.numCells.toNat

/-- The value of an attribute of a group. -/
inductive HVal (V : Type) where
  | int (n : Int)
  | real (x : ℚ)
  | float (x : V)
  | text (s : List Char)
  | names (l : List (List Char))

/-- A dataset: shape and values. -/
structure HData (V : Type) where
  shape : List Nat
  val : List Nat → V

/-- A group: attributes (a later entry of the same name replaces an earlier one: it is put in front) and datasets. -/
structure HGroup (V : Type) where
  attrs : List (List Char × HVal V) := []
  q : Option (HData V) := none
  aux : Option (HData V) := none

/-- A file: its groups with their names, as created. -/
abbrev HFile (V : Type) := List (List Char × HGroup V)

variable {V : Type}

/-! ### Writing -/

/-- `subgroup.attrs[key] = v`. -/
def HGroup.setAttr (g : HGroup V) (key : List Char) (v : HVal V) : HGroup V := { g with attrs := (key, v) :: g.attrs }

/-- The name of the group of a patch, hdf5.py:113. -/
def groupName (p : HPatch) : List Char := "patch".toList ++ intText p.patchIndex

/-- `'%s.%s' % (dim.name, attr)`, hdf5.py:137. -/
def dimKey (name attr : List Char) : List Char := name ++ '.' :: attr

/-- The attributes of one dimension, hdf5.py:131-138. -/
def setDim (g : HGroup V) (d : HDim) : HGroup V :=
  let g := g.setAttr (dimKey d.name "num_cells".toList) (.int d.numCells)
  let g := g.setAttr (dimKey d.name "lower".toList) (.real d.lower)
  let g := g.setAttr (dimKey d.name "delta".toList) (.real ((d.upper - d.lower) / d.numCells))
  let g := g.setAttr (dimKey d.name "upper".toList) (.real d.upper)
  match d.units with
  | none => g
  | some u => g.setAttr (dimKey d.name "units".toList) (.text u)

/-- The attributes of the group, hdf5.py:116-138. -/
def setAttrs (g : HGroup V) (s : HState V) : HGroup V :=
  let g := g.setAttr "t".toList (.float s.t)
  let g := g.setAttr "num_eqn".toList (.int s.numEqn)
  let g := g.setAttr "num_aux".toList (.int s.numAux)
  let g := g.setAttr "patch_index".toList (.int s.patch.patchIndex)
  let g := g.setAttr "level".toList (.int s.patch.level)
  let g := g.setAttr "dimensions".toList (.names (s.patch.dims.map fun d => d.name))
  s.patch.dims.foldl setDim g

/-- One state, hdf5.py:110-147: the group that is written, and the exception if there is one. `state.num_eqn` raises if `q`
is `None`; `create_dataset` raises for `data=None`. -/
def writeGroup (s : HState V) (writeAux writeP : Bool) : HGroup V × Except PyErr Unit :=
  if s.numEqn = 0 then
    (HGroup.setAttr {} "t".toList (.float s.t), .error (.exception "state.num_eqn has not been set."))
  else
    let g := setAttrs {} s
    if writeP = true ∧ s.numP = 0 then (g, .error .typeError)
    else
      let g := { g with q := some (if writeP then ⟨s.patch.shape s.numP, s.p⟩ else ⟨s.patch.shape s.numEqn, s.q⟩) }
      if writeAux = true ∧ 0 < s.numAux then ({ g with aux := some ⟨s.patch.shape s.numAux, s.aux⟩ }, .ok ())
      else (g, .ok ())

/-- The loop over the states, hdf5.py:109-147. A group of that name must not exist. -/
def writeGroups (writeAux writeP : Bool) (f : HFile V) : List (HState V) → Ret (HFile V) Unit
  | [] => (f, .ok ())
  | s :: l =>
    if groupName s.patch ∈ f.map Prod.fst then (f, .error .valueError)
    else match writeGroup s writeAux writeP with
      | (g, .error e) => (f ++ [(groupName s.patch, g)], .error e)
      | (g, .ok _) => writeGroups writeAux writeP (f ++ [(groupName s.patch, g)]) l

/-- `write`, hdf5.py:35-156: the file of the frame is replaced. -/
def h5Write (sol : HSol V) (frame : Nat) (writeAux writeP : Bool) (fs : Nat → Option (HFile V)) :
    Ret (Nat → Option (HFile V)) Unit :=
  let r := writeGroups writeAux writeP [] sol.states
  (Function.update fs frame (some r.1), r.2)

/-! ### Reading -/

/-- The order of names, character by character. -/
def lexLe : List Char → List Char → Bool
  | [], _ => true
  | _ :: _, [] => false
  | a :: s, b :: t => decide (a.toNat < b.toNat) || (decide (a.toNat = b.toNat) && lexLe s t)

/-- `f.values()`: the groups in the order of their names. -/
def groupsByName (f : HFile V) : HFile V := f.insertionSort fun a b => lexLe a.1 b.1

/-- `patch.attrs[key]`. -/
def HGroup.attr (g : HGroup V) (key : List Char) : Except PyErr (HVal V) :=
  match g.attrs.lookup key with
  | none => .error .keyError
  | some v => .ok v

/-- An integer attribute. -/
def HGroup.int (g : HGroup V) (key : List Char) : Except PyErr Int :=
  match g.attr key with
  | .error e => .error e
  | .ok (.int n) => .ok n
  | .ok _ => .error .typeError

/-- A bound. -/
def HGroup.real (g : HGroup V) (key : List Char) : Except PyErr ℚ :=
  match g.attr key with
  | .error e => .error e
  | .ok (.real x) => .ok x
  | .ok _ => .error .typeError

/-- The time. -/
def HGroup.float (g : HGroup V) (key : List Char) : Except PyErr V :=
  match g.attr key with
  | .error e => .error e
  | .ok (.float x) => .ok x
  | .ok _ => .error .typeError

/-- The names of the dimensions, hdf5.py:184. -/
def HGroup.dimNames (g : HGroup V) : Except PyErr (List (List Char)) :=
  match g.attr "dimensions".toList with
  | .error e => .error e
  | .ok (.names l) => .ok l
  | .ok _ => .error .typeError

/-- One dimension, hdf5.py:186-196: `Dimension(lower, upper, num_cells, name)` with its checks (geometry.py:625-630), and
the units unless they are missing or empty. -/
def readDim (g : HGroup V) (name : List Char) : Except PyErr HDim :=
  match g.real (dimKey name "lower".toList) with
  | .error e => .error e
  | .ok lo => match g.real (dimKey name "upper".toList) with
    | .error e => .error e
    | .ok up => match g.int (dimKey name "num_cells".toList) with
      | .error e => .error e
      | .ok n =>
        if 0 < n ∧ lo < up then
          .ok ⟨name, lo, up, n, match g.attr (dimKey name "units".toList) with
            | .ok (.text u) => if u = [] then none else some u
            | _ => none⟩
        else .error .assertion

/-- All dimensions, hdf5.py:182-197. -/
def readDims (g : HGroup V) : List (List Char) → Except PyErr (List HDim)
  | [] => .ok []
  | n :: l => match readDim g n with
    | .error e => .error e
    | .ok d => match readDims g l with
      | .error e => .error e
      | .ok ds => .ok (d :: ds)

/-- The checks of `Patch(dimensions)`, geometry.py:684-718, 231-249: names are different, and there are at most three. -/
def checkDims (dims : List HDim) : Except PyErr Unit :=
  if ¬ (dims.map fun d => d.name).Nodup then .error (.exception "Unable to add dimension.")
  else if dims.length ≤ 3 then .ok () else .error .keyError

/-- The index of the element with number `k` in Fortran order, for an array of that shape. -/
def unrankF : List Nat → Nat → List Nat
  | [], _ => []
  | n :: ns, k => k % n :: unrankF ns (k / n)

/-- The number of an element in Fortran order. -/
def rankF : List Nat → List Nat → Nat
  | n :: ns, i :: is => i + n * rankF ns is
  | _, _ => 0

/-- `a.ravel(order='F')`. -/
def ravelF (a : HData V) : List V := (List.range a.shape.prod).map fun k => a.val (unrankF a.shape k)

/-- `l.reshape(shape, order='F')`: the sizes must agree. `junk` is never read inside the array. -/
def h5ReshapeF (junk : V) (shape : List Nat) (l : List V) : Except PyErr (List Nat → V) :=
  if l.length = shape.prod then .ok fun idx => l.getD (rankF shape idx) junk else .error .valueError

/-- One group, hdf5.py:180-214. `junk` is what `np.empty` contains. -/
def readGroup (junk : V) (readAux : Bool) (g : HGroup V) : Except PyErr (HState V) :=
  match g.dimNames with
  | .error e => .error e
  | .ok names => match readDims g names with
    | .error e => .error e
    | .ok dims => match checkDims dims with
      | .error e => .error e
      | .ok _ => match g.float "t".toList with
        | .error e => .error e
        | .ok t => match g.int "num_eqn".toList with
          | .error e => .error e
          | .ok ne => match g.int "patch_index".toList with
            | .error e => .error e
            | .ok pi => match g.int "level".toList with
              | .error e => .error e
              | .ok lv => match g.int "num_aux".toList with
                | .error e => .error e
                | .ok na =>
                  if ne < 0 ∨ na < 0 then .error .valueError
                  else if ne = 0 then .error .attributeError
                  else
                    let patch : HPatch := ⟨pi, lv, dims⟩
                    match g.q with
                    | none => .error .keyError
                    | some qd => match h5ReshapeF junk (patch.shape ne.toNat) (ravelF qd) with
                      | .error e => .error e
                      | .ok q =>
                        let st : HState V := ⟨patch, t, ne.toNat, na.toNat, 0, q, fun _ => junk, fun _ => junk⟩
                        if readAux then
                          match g.aux with
                          | none => .ok st
                          | some ad =>
                            if na = 0 then .error .attributeError
                            else match h5ReshapeF junk (patch.shape na.toNat) (ravelF ad) with
                              | .error e => .error e
                              | .ok a => .ok { st with aux := a }
                        else .ok st

/-- The loop over the groups, hdf5.py:180-217: the states appended, and the exception if there is one. -/
def readGroups (junk : V) (readAux : Bool) : HFile V → List (HState V) × Except PyErr Unit
  | [] => ([], .ok ())
  | g :: l => match readGroup junk readAux g.2 with
    | .error e => ([], .error e)
    | .ok s => let r := readGroups junk readAux l; (s :: r.1, r.2)

/-- `read`, hdf5.py:158-229: the states are appended to those of the solution; the domain becomes that of the patches
read (`Domain([])` raises). -/
def h5Read (junk : V) (fs : Nat → Option (HFile V)) (frame : Nat) (readAux : Bool) (sol : HSol V) : Ret (HSol V) Unit :=
  match fs frame with
  | none => (sol, .error .ioError)
  | some f =>
    let r := readGroups junk readAux (groupsByName f)
    let sol' := { sol with states := sol.states ++ r.1 }
    match r.2 with
    | .error e => (sol', .error e)
    | .ok _ =>
      if r.1 = [] then (sol', .error .indexError)
      else ({ sol' with domain := some (r.1.map HState.patch) }, .ok ())

end PyClaw
