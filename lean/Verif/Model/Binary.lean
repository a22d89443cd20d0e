import Verif.Model.Ascii

/-!
Model of the binary frame files, /repo/src/pyclaw/fileio/binary.py, and of the choice of the format in `Solution.read`,
/repo/src/pyclaw/solution.py:305-392.

Simplifications. `np.fromfile` is a parameter (one decoding for 64 and one for 32 bits) from raw contents to the list of
numbers. `fort.t` and the headers in `fort.q` are those of Model/Ascii. A negative `num_ghost` is not supported and raises.
-/
namespace PyClaw

/-- A numpy array with its shape (first axis: components). -/
structure BArr where
  shape : List Nat
  get : Nat → List Nat → Num

/-- A state read from binary files. -/
structure BState where
  patch : IOPatch
  t : Num
  numEqn : Nat
  numAux : Nat
  q : BArr
  aux : BArr

structure BSol where
  states : List BState
  domain : Option (List IOPatch)

/-- The files: `fort.t`, `fort.q` are text, `fort.b`, `fort.a` raw. -/
structure BFiles (Raw : Type) where
  t : Nat → Option (List Char)
  q : Nat → Option (List Char)
  b : Nat → Option Raw
  a : Nat → Option Raw

/-- `np.fromfile` according to the format, binary.py:60-70, 168-177. -/
def fromFile {Raw : Type} (dec64 dec32 : Raw → List Num) (fmt : List Char) (raw : Raw) : Except PyErr (List Num) :=
  if fmt = "binary".toList ∨ fmt = "binary64".toList then .ok (dec64 raw)
  else if fmt = "binary32".toList then .ok (dec32 raw)
  else .error (.exception "Unrecognized file_format")

/-- Offset of an entry in an array of the given shape in Fortran order: the first index varies fastest. -/
def fOffset : List Nat → List Nat → Nat
  | n :: ns, i :: is => i + n * fOffset ns is
  | _, _ => 0

/-- `[m+2*mbc for m in patch.grid.num_cells]`, binary.py:113. -/
def ghosted (p : IOPatch) (mbc : Nat) : List Nat := p.dims.map fun d => d.numCells.toNat + 2 * mbc

/-- `np.reshape(data[start:start+size], shape, order='F')`, binary.py:115-118, 187-190: raises unless the file has
enough entries. -/
def reshapeF (data : List Num) (start : Nat) (shape : List Nat) : Except PyErr BArr :=
  if ((data.drop start).take shape.prod).length = shape.prod then
    .ok ⟨shape, fun m idx => nth .nan ((data.drop start).take shape.prod) (fOffset shape (m :: idx))⟩
  else .error .valueError

/-- `[:, mbc:-mbc, ...]` on an array. For `mbc = 0` this is `[:, 0:0, ...]`. -/
def cutGhost (mbc : Nat) (a : BArr) : BArr :=
  { shape := match a.shape with
      | [] => []
      | m :: ns => m :: ns.map fun n => if mbc = 0 then 0 else n - mbc - mbc
    get := fun m idx => a.get m (idx.map (· + mbc)) }

/-- The cells of `q`, binary.py:120-141: ghost cells are cut off; more than three dimensions raise. -/
def cutQ (numDim mbc : Nat) (a : BArr) : Except PyErr BArr :=
  if numDim = 1 ∨ numDim = 2 ∨ numDim = 3 then .ok (if mbc = 0 then a else cutGhost mbc a)
  else .error (.exception "Read only supported up to 3d.")

/-- The cells of `aux`, binary.py:192-205: no case for `mbc = 0`. -/
def cutAux (numDim mbc : Nat) (a : BArr) : Except PyErr BArr :=
  if numDim = 1 ∨ numDim = 2 ∨ numDim = 3 then .ok (cutGhost mbc a)
  else .error (.exception "Read only supported up to 3d.")

/-- One round of the loop over the patches, binary.py:84-147, for the entries from `start` on: the state, the start of the
next patch and the rest of `fort.q`. The auxiliary array is filled with NaN. -/
def readBinState (ti : TimeInfo) (data : List Num) (start : Nat) (s : List Char) :
    Except PyErr (BState × Nat × List Char) :=
  match readHeader ti.numDim.toNat s with
  | .error e => .error e
  | .ok (patch, r) =>
    if ti.numEqn < 0 ∨ ti.numAux < 0 ∨ ti.numGhost < 0 then .error .valueError
    else
      let shape := ti.numEqn.toNat :: ghosted patch ti.numGhost.toNat
      match reshapeF data start shape with
      | .error e => .error e
      | .ok a => match cutQ patch.dims.length ti.numGhost.toNat a with
        | .error e => .error e
        | .ok q =>
          let aux : BArr := ⟨ti.numAux.toNat :: patch.dims.map (fun d => d.numCells.toNat), fun _ _ => .nan⟩
          .ok (⟨patch, ti.t, ti.numEqn.toNat, ti.numAux.toNat, q, aux⟩, start + shape.prod, r)

/-- The loop, binary.py:82-151. -/
def readBinStates (ti : TimeInfo) (data : List Num) : Nat → Nat → List Char → List BState × Except PyErr Unit
  | 0, _, _ => ([], .ok ())
  | n + 1, start, s => match readBinState ti data start s with
    | .error e => ([], .error e)
    | .ok (st, start', r) => let x := readBinStates ti data n start' r; (st :: x.1, x.2)

/-- The loop over all states of the solution for the auxiliary arrays, binary.py:179-207. -/
def readBinAux (mbc : Nat) (data : List Num) : Nat → List BState → List BState × Except PyErr Unit
  | _, [] => ([], .ok ())
  | start, st :: l =>
    let shape := st.numAux :: ghosted st.patch mbc
    match reshapeF data start shape with
    | .error e => (st :: l, .error e)
    | .ok a => match cutAux st.patch.dims.length mbc a with
      | .error e => (st :: l, .error e)
      | .ok aux => let x := readBinAux mbc data (start + shape.prod) l; ({ st with aux := aux } :: x.1, x.2)

/-- `read`, binary.py:21-207, with `fmt = options['format']`. -/
def binaryRead {Raw : Type} (dec64 dec32 : Raw → List Num) (fs : BFiles Raw) (frame : Nat) (readAux : Bool)
    (fmt : List Char) (sol : BSol) : Ret BSol Unit :=
  match fs.t frame with
  | .none => (sol, .error .ioError)
  | some tt => match readT tt with
    | .error e => (sol, .error e)
    | .ok ti => match fs.b frame with
      | .none => (sol, .error .ioError)
      | some raw => match fromFile dec64 dec32 fmt raw with
        | .error e => (sol, .error e)
        | .ok data => match fs.q frame with
          | .none => (sol, .error .ioError)
          | some qt =>
            let r := readBinStates ti data ti.nstates.toNat 0 qt
            let sol := { sol with states := sol.states ++ r.1 }
            match r.2 with
            | .error e => (sol, .error e)
            | .ok _ =>
              if r.1 = [] then (sol, .error .indexError)
              else
                let sol := { sol with domain := some (r.1.map BState.patch) }
                match sol.states with
                | [] => (sol, .error .indexError)
                | s0 :: _ =>
                  if 0 < s0.numAux ∧ readAux then
                    match (match fs.a frame with
                      | some raw => some raw
                      | .none => fs.a 0) with
                    | .none => (sol, .ok ())
                    | some raw => match fromFile dec64 dec32 fmt raw with
                      | .error e => (sol, .error e)
                      | .ok adata =>
                        let x := readBinAux ti.numGhost.toNat adata 0 sol.states
                        ({ sol with states := x.1 }, x.2)
                  else (sol, .ok ())

/-! ### The choice of the format -/

/-- The module whose `read` is called. -/
inductive Reader where
  | binary
  | ascii
  | hdf5
  | petsc
  | forestclaw
  deriving DecidableEq, Repr

/-- `get_read_func`, solution.py:356-392; `none` is Python's `None`, which cannot be sliced. -/
def getReadFunc : Option (List Char) → Except PyErr Reader
  | .none => .error .typeError
  | some f =>
    if f.take 6 = "binary".toList then .ok .binary
    else if f = "ascii".toList then .ok .ascii
    else if f = "hdf".toList ∨ f = "hdf5".toList then .ok .hdf5
    else if f = "petsc".toList then .ok .petsc
    else if f = "forestclaw".toList then .ok .forestclaw
    else .error .valueError

/-- The format recorded in `fort.t`, solution.py:333-342: all errors are ignored. -/
def recordedFormat (tfile : Option (List Char)) : Option (List Char) :=
  match tfile with
  | .none => .none
  | some tt => match readT tt with
    | .error _ => .none
    | .ok ti => ti.format

/-- `Solution.read` up to the call of the reader, solution.py:330-352: the reader, and `options['format']`. -/
def chooseReader (tfile : Option (List Char)) (arg : Option (List Char)) : Except PyErr (Reader × Option (List Char)) :=
  let f := match recordedFormat tfile with
    | some f => some f
    | .none => arg
  match getReadFunc f with
  | .error e => .error e
  | .ok r => .ok (r, if f = some "petsc".toList then some "binary".toList else f)

end PyClaw
