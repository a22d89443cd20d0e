import Verif.Model.Ascii

/-!
Model of the ForestClaw format, /repo/src/forestclaw, and of how its use changes the plain ASCII format: importing
`clawpack.forestclaw.fileio` replaces two functions of the module `clawpack.pyclaw.fileio.ascii`
(/repo/src/forestclaw/fileio/__init__.py:11-12), so which headers are written and read depends on what the process did before.

Simplifications, besides those of `Verif.Model.Ascii`: no auxiliary files (`write_aux=False`, `read_aux=False`) and
`write_p=False`. `np.zeros((num_dim))` holds the numbers of cells as floats, which `Dimension` turns back into integers
(geometry.py:617).
-/
namespace PyClaw

/-- The attributes that the patches of ForestClaw have and those of PyClaw have not, forestclaw/geometry.py:23-26. -/
structure ForestIds where
  block : Int
  rank : Int
deriving DecidableEq

/-- A state on a patch of PyClaw (`ids = none`) or of ForestClaw. -/
structure FState (D M : Type) where
  st : IOState D M
  ids : Option ForestIds

/-- A solution of such states; the domain consists of their patches. -/
abbrev FSol (D M : Type) := List (FState D M)

/-- Which functions the names `read_patch_header` and `write_patch_header` of the module `pyclaw.fileio.ascii` are bound
to: those defined there, or those of ForestClaw. -/
inductive Headers
  | plain
  | forest
deriving DecidableEq

/-- What a process has: the bindings and the files. -/
structure Process (D M : Type) where
  headers : Headers
  files : Files D M

/-- A new process, with files found on the disk. -/
def Process.fresh {D M : Type} (fs : Files D M) : Process D M := ⟨.plain, fs⟩

/-- `write_patch_header` of ForestClaw, forestclaw/fileio/ascii.py:21-33, for a patch of ForestClaw. -/
def forestHeaderText (p : IOPatch) (i : ForestIds) : List Char :=
  intLine p.patchIndex "patch_number".toList ++ intLine p.level "AMR_level".toList ++
    intLine i.block "block_number".toList ++ intLine i.rank "mpi_rank".toList ++
    p.dims.flatMap (fun d => intLine d.numCells ('m' :: d.name.toList)) ++
    p.dims.flatMap (fun d => floatLine (.fin d.lower) (d.name.toList ++ "low".toList)) ++
    p.dims.flatMap (fun d => floatLine (.fin (cellSize d)) ('d' :: d.name.toList)) ++ ['\n']

/-- `write_patch_header(f, patch)` with the present binding: what is written, and the exception. A patch of PyClaw has no
`block_number`: the function of ForestClaw raises after two lines (forestclaw/fileio/ascii.py:22-24). -/
def headerFor (h : Headers) (p : IOPatch) (ids : Option ForestIds) : List Char × Except PyErr Unit :=
  match h, ids with
  | .plain, _ => (headerText p, .ok ())
  | .forest, some i => (forestHeaderText p i, .ok ())
  | .forest, .none => (intLine p.patchIndex "patch_number".toList ++ intLine p.level "AMR_level".toList,
      .error .attributeError)

/-- The loop over the states, ascii.py:53-60. -/
def statesTextF {D M : Type} (h : Headers) : FSol D M → List Char × Except PyErr Unit
  | [] => ([], .ok ())
  | s :: l =>
    match headerFor h s.st.patch s.ids with
    | (t, .error e) => (t, .error e)
    | (t, .ok _) => match arrayText s.st.patch s.st.numEqn s.st.q with
      | .error e => (t, .error e)
      | .ok txt => let r := statesTextF h l; (t ++ txt ++ r.1, r.2)

/-- `write`, ascii.py:17-81, with the present binding. The header always says `ascii` (ascii.py:50). -/
def writeF {D M : Type} (h : Headers) (sol : FSol D M) (frame : Nat) (fs : Files D M) : Ret (Files D M) Unit :=
  match sol with
  | [] => ({ fs with t := Function.update fs.t frame (some []) }, .error .indexError)
  | s0 :: _ =>
    let tt := timeText s0.st.t s0.st.numEqn sol.length s0.st.numAux s0.st.patch.dims.length
    let fs := { fs with t := Function.update fs.t frame (some tt) }
    let r := statesTextF h sol
    let fs := { fs with q := Function.update fs.q frame (some r.1) }
    match r.2 with
    | .error e => (fs, .error e)
    | .ok _ => ({ fs with pkl := Function.update fs.pkl frame (some ⟨s0.st.problemData, s0.st.mapc2p⟩) }, .ok ())

/-- `read_patch_header` of ForestClaw, forestclaw/fileio/ascii.py:36-81. -/
def readForestHeader (numDim : Nat) : Rd (IOPatch × Option ForestIds) :=
  Rd.andThen readIntLine fun patchIndex => Rd.andThen readIntLine fun level =>
    Rd.andThen readIntLine fun block => Rd.andThen readIntLine fun rank =>
    Rd.andThen (Rd.many readIntLine numDim) fun n => Rd.andThen (Rd.many readFloatLine numDim) fun lower =>
      Rd.andThen (Rd.many readFloatLine numDim) fun d => Rd.andThen skipLine fun _ => fun s =>
        match mkDims n lower d ["x", "y", "z"] with
        | .error e => .error e
        | .ok dims => .ok ((⟨patchIndex, level, dims⟩, some ⟨block, rank⟩), s)

/-- `read_patch_header(f, num_dim)` with the present binding. -/
def readHeaderF (h : Headers) (numDim : Nat) : Rd (IOPatch × Option ForestIds) :=
  match h with
  | .plain => Rd.andThen (readHeader numDim) fun p s => .ok ((p, .none), s)
  | .forest => readForestHeader numDim

/-- One patch of `fort.q`, ascii.py:178-198. -/
def readStateF {D M : Type} (h : Headers) (idMap : M) (ti : TimeInfo) (pk : Option (Pickle D M)) : Rd (FState D M) :=
  Rd.andThen (readHeaderF h ti.numDim.toNat) fun p s =>
    if ti.numEqn < 0 ∨ ti.numAux < 0 then .error .valueError
    else match readArray p.1 ti.numEqn.toNat s with
      | .error e => .error e
      | .ok (q, r) => .ok (⟨newState idMap ti pk p.1 q, p.2⟩, r)

/-- The loop over the patches of `fort.q`, ascii.py:176-202. -/
def readStatesF {D M : Type} (rd : Rd (FState D M)) : Nat → List Char → FSol D M × Except PyErr Unit
  | 0, _ => ([], .ok ())
  | n + 1, s => match rd s with
    | .error e => ([], .error e)
    | .ok (st, r) => let x := readStatesF rd n r; (st :: x.1, x.2)

/-- `read`, ascii.py:129-205, into a new solution. -/
def readF {D M : Type} (h : Headers) (idMap : M) (fs : Files D M) (frame : Nat) : Ret (FSol D M) Unit :=
  match fs.t frame with
  | .none => ([], .error .ioError)
  | some tt => match readT tt with
    | .error e => ([], .error e)
    | .ok ti => match fs.q frame with
      | .none => ([], .error .ioError)
      | some qt =>
        let r := readStatesF (readStateF h idMap ti (fs.pkl frame)) ti.nstates.toNat qt
        match r.2 with
        | .error e => (r.1, .error e)
        | .ok _ => if r.1 = [] then ([], .error .indexError) else (r.1, .ok ())

/-- The formats considered here. -/
inductive TextFormat
  | ascii
  | forestclaw
deriving DecidableEq

/-- What a format does to the bindings when its function is looked up, solution.py:387-399: importing the module of
ForestClaw also runs `forestclaw/fileio/__init__.py`. -/
def TextFormat.bind (f : TextFormat) (h : Headers) : Headers := if f = .forestclaw then .forest else h

/-- `Solution.write(frame, file_format=f)`, solution.py:253-303. -/
def Process.write {D M : Type} (p : Process D M) (f : TextFormat) (sol : FSol D M) (frame : Nat) :
    Ret (Process D M) Unit :=
  let h := f.bind p.headers
  let r := writeF h sol frame p.files
  (⟨h, r.1⟩, r.2)

/-- The format that is used for reading, solution.py:337-349: the one recorded in `fort.t` if there is one. A format
other than these two is taken to be absent. -/
def recordedText {D M : Type} (fs : Files D M) (frame : Nat) : Option TextFormat :=
  match fs.t frame with
  | .none => .none
  | some tt => match readT tt with
    | .error _ => .none
    | .ok ti => match ti.format with
      | .none => .none
      | some w => if w = "ascii".toList then some .ascii else if w = "forestclaw".toList then some .forestclaw else .none

/-- `Solution(frame, file_format=f)`, that is `Solution().read(frame, file_format=f)`, solution.py:306-365. -/
def Process.read {D M : Type} (p : Process D M) (idMap : M) (f : TextFormat) (frame : Nat) :
    Process D M × Ret (FSol D M) Unit :=
  let h := ((recordedText p.files frame).getD f).bind p.headers
  (⟨h, p.files⟩, readF h idMap p.files frame)

/-- A call. -/
inductive TextOp (D M : Type)
  | write (f : TextFormat) (sol : FSol D M) (frame : Nat)
  | read (f : TextFormat) (frame : Nat)

/-- The process after a call, whether it raised or not. -/
def Process.after {D M : Type} (idMap : M) (p : Process D M) : TextOp D M → Process D M
  | .write f sol frame => (p.write f sol frame).1
  | .read f frame => (p.read idMap f frame).1

end PyClaw
