import Verif.Model.Hdf5

/-!
Model of the PETSc frame files, /repo/src/petclaw/fileio/petsc.py, and of the distributed arrays of
/repo/src/petclaw/state.py.

Simplifications. The files are in one directory; names are the true ones. Bounds are exact and finite. Pickled objects are
read back as they were; `mapc2p` and `problem_data` are values of a type `X`. PETSc is a library, its contract is written
down here: a grid is cut into boxes by bounds along each axis (`CutGrid`), processes are numbered with the first axis
fastest, and the part of a global vector on a process is its box in Fortran order, components first. `view` writes a
vector of a `DMDA` in natural order (that of the whole array), `load` is the inverse, raises if the number of values is
different, and raises for text formats. New vectors are zero. The viewers for HDF5 and netCDF are not modelled. All
processes take part in each call; the order of their actions is in Model/PetscSchedule.lean.
-/
namespace PyClaw

variable {V X : Type}

/-! ### Distributed arrays -/

/-- How a grid is cut: for each axis the bounds 0, …, number of cells. `DA.getRanges`, petclaw/geometry.py:21, state.py:187-221. -/
abbrev CutGrid := List (List Nat)

/-- The numbers of processes along the axes. -/
def CutGrid.procs (L : CutGrid) : List Nat := L.map fun c => c.length - 1

/-- The number of processes. -/
def CutGrid.count (L : CutGrid) : Nat := L.procs.prod

/-- The first cells of the box of process `r`, petclaw/geometry.py:23-26. -/
def CutGrid.lo (L : CutGrid) (r : Nat) : List Nat := List.zipWith (fun c k => c.getD k 0) L (unrankF L.procs r)

/-- The numbers of cells of the box of process `r`, petclaw/geometry.py:26. -/
def CutGrid.size (L : CutGrid) (r : Nat) : List Nat :=
  List.zipWith (fun c k => c.getD (k + 1) 0 - c.getD k 0) L (unrankF L.procs r)

/-- The process that has a cell: along each axis, the number of bounds after the first that are not beyond the cell. -/
def CutGrid.owner (L : CutGrid) (cell : List Nat) : Nat :=
  rankF L.procs (List.zipWith (fun c x => c.tail.countP fun b => decide (b ≤ x)) L cell)

/-- The part of the global vector on process `r`, petclaw/state.py:56-58: `setArray(val.reshape([-1], order='F'))`. -/
def gvec (L : CutGrid) (m : Nat) (a : Nat → List Nat → V) (r : Nat) : List V := ravelF ⟨m :: L.size r, a r⟩

/-- The array of process `r`, petclaw/state.py:48-55: `getArray().reshape(shape, order='F')`. -/
def garray (zero : V) (L : CutGrid) (m : Nat) (vec : Nat → List V) (r : Nat) : List Nat → V := fun idx =>
  (vec r).getD (rankF (m :: L.size r) idx) zero

/-- The whole vector in natural order: `VecView`, `globalToNatural`. -/
def toNatural (zero : V) (L : CutGrid) (sizes : List Nat) (m : Nat) (vec : Nat → List V) : List V :=
  (List.range (m :: sizes).prod).map fun k =>
    match unrankF (m :: sizes) k with
    | [] => zero
    | c :: cell =>
      let r := L.owner cell
      (vec r).getD (rankF (m :: L.size r) (c :: List.zipWith (fun x l => x - l) cell (L.lo r))) zero

/-- The parts of a vector in natural order: `VecLoad`. -/
def fromNatural (zero : V) (L : CutGrid) (sizes : List Nat) (m : Nat) (l : List V) (r : Nat) : List V :=
  (List.range (m :: L.size r).prod).map fun k =>
    match unrankF (m :: L.size r) k with
    | [] => zero
    | c :: cell => l.getD (rankF (m :: sizes) (c :: List.zipWith (fun x y => x + y) cell (L.lo r))) zero

/-! ### Solutions -/

/-- A parallel state, petclaw/state.py:121-162: the patch is the whole grid, the arrays are those of each process. `numP = 0`
if `mp` has not been set. -/
structure PState (V X : Type) where
  patch : HPatch
  layout : CutGrid
  t : V
  problemData : X
  mapc2p : X
  numEqn : Nat
  numAux : Nat
  numP : Nat
  q : Nat → List Nat → V
  aux : Nat → List Nat → V
  p : Nat → List Nat → V

/-- A solution: states, and the patches of its domain. -/
structure PSol (V X : Type) where
  states : List (PState V X)
  domain : Option (List HPatch)

/-- The numbers of cells of the whole grid, `patch.num_cells_global`. -/
def HPatch.sizes (p : HPatch) : List Nat := p.dims.map fun d => d.numCells.toNat

/-- The number of processes that hold a state. -/
def PState.numProcs (s : PState V X) : Nat := s.layout.count

/-- `state.get_q_global()` on process 0, petclaw/state.py:254-275. -/
def PState.qGlobal (zero : V) (s : PState V X) : Except PyErr (List Nat → V) :=
  h5ReshapeF zero (s.numEqn :: s.patch.sizes) (toNatural zero s.layout s.patch.sizes s.numEqn (gvec s.layout s.numEqn s.q))

/-- `state.get_aux_global()` on process 0, petclaw/state.py:277-298. Without `aux`, `aux_da` is `None`. -/
def PState.auxGlobal (zero : V) (s : PState V X) : Except PyErr (List Nat → V) :=
  if s.numAux = 0 then .error .attributeError
  else h5ReshapeF zero (s.numAux :: s.patch.sizes)
    (toNatural zero s.layout s.patch.sizes s.numAux (gvec s.layout s.numAux s.aux))

/-! ### Files -/

/-- The first pickled dictionary, petsc.py:60-67. -/
structure PHead (V X : Type) where
  t : V
  numEqn : Nat
  nstates : Nat
  numAux : Nat
  numDim : Nat
  writeAux : Bool
  problemData : X
  mapc2p : X

/-- The dictionary of a patch, petsc.py:73-76. -/
structure PRec where
  level : Int
  names : List (List Char)
  lower : List ℚ
  numCells : List Int
  delta : List ℚ

/-- The contents of a file: pickled dictionaries (none if the writer raised before the first), vectors in natural order, or
text made by a PETSc viewer. -/
inductive PFile (V X : Type) where
  | pickles (head : Option (PHead V X)) (recs : List PRec)
  | vectors (l : List (List V))
  | text

/-- The directory. -/
abbrev PFS (V X : Type) := List Char → Option (PFile V X)

/-- The values of `options['format']` that are modelled; `unknown` is any other text. -/
inductive PFormat where
  | binary
  | ascii
  | vtk
  | unknown
  deriving DecidableEq

/-- `str(frame).zfill(4)`. -/
def frameText (frame : Nat) : List Char := zeroPad 4 (natDigits frame)

/-- `filenames['metadata']`, petsc.py:265. -/
def metaName (pre : List Char) (frame : Nat) : List Char := pre ++ ".pkl".toList ++ frameText frame

/-- `filenames['q']`, petsc.py:266-269. -/
def dataName (pre : List Char) (fmt : PFormat) (frame : Nat) : List Char :=
  if fmt = .vtk then pre ++ frameText frame ++ ".vtk".toList else pre ++ ".ptc".toList ++ frameText frame

/-- `filenames['aux']`, petsc.py:272. -/
def auxName (pre : List Char) (frame : Nat) : List Char := pre ++ "_aux.ptc".toList ++ frameText frame

/-- `set_filenames(...).values()`, petsc.py:263-274. -/
def ptcNames (pre : List Char) (fmt : PFormat) (frame : Nat) (doAux : Bool) : List (List Char) :=
  metaName pre frame :: dataName pre fmt frame :: if doAux then [auxName pre frame] else []

/-! ### Writing -/

/-- The dictionary of the solution, petsc.py:60-67. -/
def ptcHead (s0 : PState V X) (nstates numDim : Nat) (wa wp : Bool) : PHead V X :=
  ⟨s0.t, if wp then s0.numP else s0.numEqn, nstates, s0.numAux, numDim, wa, s0.problemData, s0.mapc2p⟩

/-- The dictionary of a patch, petsc.py:73-76. -/
def ptcRec (p : HPatch) : PRec where
  level := p.level
  names := p.dims.map fun d => d.name
  lower := p.dims.map fun d => d.lower
  numCells := p.dims.map fun d => d.numCells
  delta := p.dims.map fun d => (d.upper - d.lower) / d.numCells

/-- The loop over the states, petsc.py:84-94: the vectors in the two files, and the exception if there is one. Without `mp`,
`gpVec` is `None`; without `aux`, there is no `gauxVec`. -/
def viewStates (zero : V) (wa wp : Bool) : List (PState V X) → (List (List V) × List (List V)) × Except PyErr Unit
  | [] => (([], []), .ok ())
  | s :: l =>
    if wp = true ∧ s.numP = 0 then (([], []), .error .attributeError)
    else
      let v := if wp then toNatural zero s.layout s.patch.sizes s.numP (gvec s.layout s.numP s.p)
        else toNatural zero s.layout s.patch.sizes s.numEqn (gvec s.layout s.numEqn s.q)
      if wa = true ∧ s.numAux = 0 then (([v], []), .error .attributeError)
      else
        let r := viewStates zero wa wp l
        ((v :: r.1.1, (if wa then [toNatural zero s.layout s.patch.sizes s.numAux (gvec s.layout s.numAux s.aux)] else []) ++ r.1.2),
          r.2)

/-- What a viewer of that format leaves in its file, petsc.py:239-260. -/
def viewed (fmt : PFormat) (l : List (List V)) : PFile V X := if fmt = .binary then .vectors l else .text

/-- `write`, petsc.py:16-99. -/
def ptcWrite (zero : V) (sol : PSol V X) (pre : List Char) (frame : Nat) (writeAux : Bool) (fmt : PFormat) (clobber writeP : Bool)
    (fs : PFS V X) : Ret (PFS V X) Unit :=
  match sol.states with
  | [] => (fs, .error .indexError)
  | s0 :: l =>
    let wa := if s0.numAux = 0 then false else writeAux
    if clobber = false ∧ ∃ f ∈ ptcNames pre fmt frame wa, (fs f).isSome then (fs, .error .ioError)
    else
      let opened := Function.update fs (metaName pre frame) (some (.pickles none []))
      match sol.domain with
      | none => (opened, .error .attributeError)
      | some [] => (opened, .error .indexError)
      | some (p0 :: _) =>
        if writeP = true ∧ s0.numP = 0 then (opened, .error (.exception "state.mp has not been set."))
        else
          let fs1 := Function.update fs (metaName pre frame)
            (some (.pickles (some (ptcHead s0 (l.length + 1) p0.dims.length wa writeP)) ((s0 :: l).map fun s => ptcRec s.patch)))
          if fmt = .unknown then (fs1, .error .ioError)
          else
            let r := viewStates zero wa writeP (s0 :: l)
            let fs2 := Function.update fs1 (dataName pre fmt frame) (some (viewed fmt r.1.1))
            (if wa then Function.update fs2 (auxName pre frame) (some (viewed fmt r.1.2)) else fs2, r.2)

/-! ### Reading -/

/-- An error raised by PETSc. -/
def petscErr : PyErr := .exception "PETSc.Error"

/-- An error raised by `pickle.load`. -/
def pickleErr : PyErr := .exception "pickle"

/-- The dimensions, petsc.py:169-172, with the checks of `Dimension`; `i` runs over `range(num_dim)`. -/
def ptcDims (rec : PRec) : List Nat → Except PyErr (List HDim)
  | [] => .ok []
  | i :: is =>
    match rec.lower[i]?, rec.numCells[i]?, rec.delta[i]?, rec.names[i]? with
    | some lo, some n, some d, some name =>
      if 0 < n ∧ lo < lo + n * d then
        match ptcDims rec is with
        | .error e => .error e
        | .ok ds => .ok (⟨name, lo, lo + n * d, n, none⟩ :: ds)
      else .error .assertion
    | _, _, _, _ => .error .indexError

/-- `vec.load(viewer)`: the next vector of the file. -/
def ptcLoad (zero : V) (L : CutGrid) (sizes : List Nat) (m : Nat) : Option (List (List V)) →
    Except PyErr ((Nat → List Nat → V) × Option (List (List V)))
  | none => .error petscErr
  | some [] => .error petscErr
  | some (v :: rest) =>
    if v.length = (m :: sizes).prod then .ok (garray zero L m (fromNatural zero L sizes m v), some rest) else .error petscErr

/-- The states of the frame, petsc.py:159-190: those appended, and the exception if there is one. `lay` is how PETSc cuts the
grid of a patch among the processes that read. -/
def ptcStates (zero : V) (lay : HPatch → CutGrid) (h : PHead V X) (ra : Bool) :
    Nat → List PRec → Option (List (List V)) → Option (List (List V)) → List (PState V X) × Except PyErr Unit
  | 0, _, _, _ => ([], .ok ())
  | _ + 1, [], _, _ => ([], .error pickleErr)
  | n + 1, rec :: recs, qs, as =>
    match ptcDims rec (List.range h.numDim) with
    | .error e => ([], .error e)
    | .ok dims => match checkDims dims with
      | .error e => ([], .error e)
      | .ok _ =>
        let patch : HPatch := ⟨1, rec.level, dims⟩
        let L := lay patch
        match ptcLoad zero L patch.sizes h.numEqn qs with
        | .error e => ([], .error e)
        | .ok (q, qs') =>
          let st : PState V X := ⟨patch, L, h.t, h.problemData, h.mapc2p, h.numEqn, h.numAux, 0, q, fun _ _ => zero, fun _ _ => zero⟩
          if ra then
            if h.numAux = 0 then ([], .error .attributeError)
            else match ptcLoad zero L patch.sizes h.numAux as with
              | .error e => ([], .error e)
              | .ok (a, as') =>
                let r := ptcStates zero lay h ra n recs qs' as'
                ({ st with aux := a } :: r.1, r.2)
          else
            let r := ptcStates zero lay h ra n recs qs' as
            (st :: r.1, r.2)

/-- The vectors in a file opened for reading, or `none` if PETSc cannot load from it. -/
def vectorsIn (fmt : PFormat) : PFile V X → Option (List (List V))
  | .vectors l => if fmt = .binary then some l else none
  | _ => none

/-- `read`, petsc.py:102-194. -/
def ptcRead (zero : V) (lay : HPatch → CutGrid) (fs : PFS V X) (pre : List Char) (frame : Nat) (readAux : Bool) (fmt : PFormat)
    (sol : PSol V X) : Ret (PSol V X) Unit :=
  let aname := if (fs (auxName pre frame)).isSome then auxName pre frame else auxName pre 0
  match fs (metaName pre frame) with
  | none => (sol, .error .ioError)
  | some (.vectors _) => (sol, .error pickleErr)
  | some .text => (sol, .error pickleErr)
  | some (.pickles none _) => (sol, .error pickleErr)
  | some (.pickles (some h) recs) =>
    let ra := readAux && (fs aname).isSome
    if fmt = .unknown then (sol, .error .ioError)
    else match fs (dataName pre fmt frame) with
      | none => (sol, .error petscErr)
      | some qf =>
        let r := ptcStates zero lay h ra h.nstates recs (vectorsIn fmt qf) ((fs aname).bind (vectorsIn fmt))
        let sol' := { sol with states := sol.states ++ r.1 }
        match r.2 with
        | .error e => (sol', .error e)
        | .ok _ =>
          if r.1 = [] then (sol', .error .indexError)
          else ({ sol' with domain := some (r.1.map PState.patch) }, .ok ())

/-- `read_t`, petsc.py:197-236: time, equations, patches, auxiliary fields, dimensions. -/
def ptcReadT (fs : PFS V X) (pre : List Char) (frame : Nat) : Except PyErr (V × Nat × Nat × Nat × Nat) :=
  match fs (metaName pre frame) with
  | none => .error .ioError
  | some (.pickles (some h) _) => .ok (h.t, h.numEqn, h.nstates, h.numAux, h.numDim)
  | some _ => .error pickleErr

end PyClaw
