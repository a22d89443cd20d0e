import Verif.Model.Text
import Verif.Model.Dimension

/-!
Model of the ASCII frame files, /repo/src/pyclaw/fileio/ascii.py, character by character.

Simplifications. Files live in one directory and have one prefix (`path`, `file_prefix` fixed), and a file is named by
its kind and its frame number: `str(frame).zfill(4)` is one-to-one on frame numbers. A pickled object is read back as it
was (pickle, ascii.py:69-81, 152-162). The number of cells, the bounds and the arithmetic on bounds are exact; bounds and
cell sizes are finite. A solution's `num_eqn`, `num_aux`, `t`, `mp`, `problem_data` are those of its first state
(solution.py:67-74, 226-233). An array is a function of the component and the list of cell indices. Logging is not
modelled.
-/
namespace PyClaw

/-- An array `q[m,i,j,k]`. -/
abbrev IOArr := Nat → List Nat → Num

/-- A patch: the attributes that are written, geometry.py:647-700. -/
structure IOPatch where
  patchIndex : Int
  level : Int
  dims : List (Dim ℚ)

/-- A state, state.py:9-164: `p` has `numP` components (`numP = 0`: `p` is `None`); `D` are problem data, `M` mappings. -/
structure IOState (D M : Type) where
  patch : IOPatch
  t : Num
  numEqn : Nat
  numAux : Nat
  numP : Nat
  q : IOArr
  aux : IOArr
  p : IOArr
  problemData : Option D
  mapc2p : M

/-- A solution: states, and the patches of its domain (`None` before anything is read), solution.py:125-126. -/
structure IOSol (D M : Type) where
  states : List (IOState D M)
  domain : Option (List IOPatch)

/-- `Solution()`, solution.py:125-126. -/
def IOSol.empty (D M : Type) : IOSol D M := ⟨[], none⟩

/-- The pickled dictionary, ascii.py:70-76 (the entries that are read back). -/
structure Pickle (D M : Type) where
  problemData : Option D
  mapc2p : M

/-- The files of one directory and prefix: `fort.t`, `fort.q`, `fort.a` and `fort.pkl` of each frame. -/
structure Files (D M : Type) where
  t : Nat → Option (List Char)
  q : Nat → Option (List Char)
  a : Nat → Option (List Char)
  pkl : Nat → Option (Pickle D M)

/-- Nothing written yet. -/
def Files.none (D M : Type) : Files D M := ⟨fun _ => .none, fun _ => .none, fun _ => .none, fun _ => .none⟩

/-! ### Writing -/

/-- A line `"%5i                  label\n"`. -/
def intLine (n : Int) (label : List Char) : List Char :=
  padLeft 5 (intText n) ++ List.replicate 18 ' ' ++ label ++ ['\n']

/-- A line `"%18.8e     label\n"`. -/
def floatLine (v : Num) (label : List Char) : List Char :=
  padLeft 18 (sciText false 8 v) ++ List.replicate 5 ' ' ++ label ++ ['\n']

/-- The size of the cells of a dimension, geometry.py:521-523. -/
def cellSize (d : Dim ℚ) : ℚ := (d.upper - d.lower) / d.numCells

/-- `write_patch_header`, ascii.py:84-94. -/
def headerText (p : IOPatch) : List Char :=
  intLine p.patchIndex "patch_number".toList ++ intLine p.level "AMR_level".toList ++
    p.dims.flatMap (fun d => intLine d.numCells ('m' :: d.name.toList)) ++
    p.dims.flatMap (fun d => floatLine (.fin d.lower) (d.name.toList ++ "low".toList)) ++
    p.dims.flatMap (fun d => floatLine (.fin (cellSize d)) ('d' :: d.name.toList)) ++ ['\n']

/-- The line of one cell, ascii.py:106-108, 112-114, 120-122. -/
def cellLine (num : Nat) (q : IOArr) (idx : List Nat) : List Char :=
  (List.range num).flatMap (fun m => padLeft 18 (sciText false 8 (q m idx))) ++ ['\n']

/-- The number of cells of dimension `i`. -/
def cellsOf (p : IOPatch) (i : Nat) : Nat := match p.dims[i]? with
  | some d => d.numCells.toNat
  | .none => 0

/-- `write_array`, ascii.py:97-126: the text, or the exception for more than three dimensions. -/
def arrayText (p : IOPatch) (num : Nat) (q : IOArr) : Except PyErr (List Char) :=
  if p.dims.length = 1 then .ok ((List.range (cellsOf p 0)).flatMap fun k => cellLine num q [k])
  else if p.dims.length = 2 then
    .ok ((List.range (cellsOf p 1)).flatMap fun j =>
      (List.range (cellsOf p 0)).flatMap (fun k => cellLine num q [k, j]) ++ ['\n'])
  else if p.dims.length = 3 then
    .ok ((List.range (cellsOf p 2)).flatMap fun l =>
      ((List.range (cellsOf p 1)).flatMap fun j =>
        (List.range (cellsOf p 0)).flatMap (fun k => cellLine num q [k, j, l]) ++ ['\n']) ++ ['\n'])
  else .error (.exception "Dimension Exception in writing fort file.")

/-- The loop over the states of `write`, ascii.py:53-60 and 65-68: the text written, and the exception if there is one. -/
def statesText {D M : Type} (num : IOState D M → Except PyErr Nat) (arr : IOState D M → IOArr) :
    List (IOState D M) → List Char × Except PyErr Unit
  | [] => ([], .ok ())
  | s :: l =>
    match num s with
    | .error e => (headerText s.patch, .error e)
    | .ok n => match arrayText s.patch n (arr s) with
      | .error e => (headerText s.patch, .error e)
      | .ok txt => let r := statesText num arr l; (headerText s.patch ++ txt ++ r.1, r.2)

/-- The file `fort.t`, ascii.py:44-50. -/
def timeText (t : Num) (numEqn nstates numAux numDim : Int) : List Char :=
  floatLine t "time".toList ++ intLine numEqn "num_eqn".toList ++ intLine nstates "nstates".toList ++
    intLine numAux "num_aux".toList ++ intLine numDim "num_dim".toList ++ intLine 0 "num_ghost".toList ++
    "ascii                  file_format\n".toList

/-- The components of the array in `fort.q`: `p.shape[0]` (`None` has no shape) or `q.shape[0]`, ascii.py:55-60. -/
def qShape {D M : Type} (writeP : Bool) (s : IOState D M) : Except PyErr Nat :=
  if writeP then (if s.numP = 0 then .error .attributeError else .ok s.numP) else .ok s.numEqn

/-- `write`, ascii.py:17-81. `sol.states[0]` and `sol.domain.patches[0]` must exist. -/
def asciiWrite {D M : Type} (sol : IOSol D M) (frame : Nat) (writeAux writeP : Bool) (fs : Files D M) :
    Ret (Files D M) Unit :=
  match sol.states, sol.domain with
  | [], _ => ({ fs with t := Function.update fs.t frame (some []) }, .error .indexError)
  | _, .none => (fs, .error .attributeError)
  | _, some [] => (fs, .error .indexError)
  | s0 :: _, some (p0 :: _) =>
    let tt := timeText s0.t s0.numEqn sol.states.length s0.numAux p0.dims.length
    let fs := { fs with t := Function.update fs.t frame (some tt) }
    let r := statesText (qShape writeP) (fun s => if writeP then s.p else s.q) sol.states
    let fs := { fs with q := Function.update fs.q frame (some r.1) }
    match r.2 with
    | .error e => (fs, .error e)
    | .ok _ =>
      let ra := statesText (fun s => .ok s.numAux) (fun s => s.aux) sol.states
      let fsa := if 0 < s0.numAux ∧ writeAux then { fs with a := Function.update fs.a frame (some ra.1) } else fs
      match (if 0 < s0.numAux ∧ writeAux then ra.2 else .ok ()) with
      | .error e => (fsa, .error e)
      | .ok _ =>
        ({ fsa with pkl := Function.update fs.pkl frame (some ⟨s0.problemData, s0.mapc2p⟩) }, .ok ())

/-! ### Reading -/

/-- What `fort.t` contains. -/
structure TimeInfo where
  t : Num
  numEqn : Int
  nstates : Int
  numAux : Int
  numDim : Int
  numGhost : Int
  format : Option (List Char)

/-- The two entries that may be missing, ascii.py:287-294. A reading that raises leaves the file at the end of the line
whose first word could not be converted; only the failure at the end of the file is modelled as leaving nothing. -/
def readOptional (s : List Char) : Int × Option (List Char) :=
  let g := match readIntLine s with
    | .ok (n, r) => (n, r)
    | .error _ => match nextWords s with
      | .ok (_, r) => (0, r)
      | .error _ => (0, [])
  (g.1, match readStrLine g.2 with
    | .ok (w, _) => some w
    | .error _ => .none)

/-- `read_t`, ascii.py:242-296, on the text of `fort.t`. -/
def readT (s : List Char) : Except PyErr TimeInfo :=
  match readFloatLine s with
  | .error e => .error e
  | .ok (t, s1) => match readIntLine s1 with
    | .error e => .error e
    | .ok (ne, s2) => match readIntLine s2 with
      | .error e => .error e
      | .ok (ns, s3) => match readIntLine s3 with
        | .error e => .error e
        | .ok (na, s4) => match readIntLine s4 with
          | .error e => .error e
          | .ok (nd, s5) =>
            .ok ⟨t, ne, ns, na, nd, (readOptional s5).1, (readOptional s5).2⟩

/-- `pyclaw.Dimension(lower, lower + n*d, n, name)`, ascii.py:327-330. -/
def mkDim (n : Int) (lo d : Num) (name : String) : Except PyErr (Dim ℚ) :=
  match lo, d with
  | .fin lo, .fin d => Dim.new lo (lo + n * d) n name
  | _, _ => .error .valueError

/-- The dimensions of a patch header, ascii.py:326-330: names `x`, `y`, `z`. -/
def mkDims : List Int → List Num → List Num → List String → Except PyErr (List (Dim ℚ))
  | n :: ns, lo :: los, d :: ds, name :: names =>
    match mkDim n lo d name with
    | .error e => .error e
    | .ok x => match mkDims ns los ds names with
      | .error e => .error e
      | .ok l => .ok (x :: l)
  | _ :: _, _, _, [] => .error .indexError
  | _, _, _, _ => .ok []

/-- `read_patch_header`, ascii.py:300-339. Simplification: a negative `num_dim` gives no dimension (in numpy it raises;
here `readArray` does). -/
def readHeader (numDim : Nat) : Rd IOPatch :=
  Rd.andThen readIntLine fun patchIndex => Rd.andThen readIntLine fun level =>
    Rd.andThen (Rd.many readIntLine numDim) fun n => Rd.andThen (Rd.many readFloatLine numDim) fun lower =>
      Rd.andThen (Rd.many readFloatLine numDim) fun d => Rd.andThen skipLine fun _ => fun s =>
        match mkDims n lower d ["x", "y", "z"] with
        | .error e => .error e
        | .ok dims => .ok (⟨patchIndex, level, dims⟩, s)

/-- `while len(l) < num_var: l = l + f.readline().split()`, ascii.py:363-367. -/
def readWords (num : Nat) (l : List (List Char)) (s : List Char) : Except PyErr (List (List Char) × List Char) :=
  if num ≤ l.length then .ok (l, s)
  else if _h : s = [] then .error .ioError
  else readWords num (l ++ splitWs (readline s).1) (readline s).2
termination_by s.length
decreasing_by exact readline_length s (by assumption)

/-- `float(l[m])` for `m` in `range(num_var)`, ascii.py:368-369. -/
def floats : List (List Char) → Except PyErr (List Num)
  | [] => .ok []
  | w :: l => match parseFloat w with
    | .error e => .error e
    | .ok v => match floats l with
      | .error e => .error e
      | .ok vs => .ok (v :: vs)

/-- The values of one cell, ascii.py:362-369. -/
def readCell (num : Nat) : Rd (List Num) := fun s =>
  match readWords num [] s with
  | .error e => .error e
  | .ok (l, r) => match floats (l.take num) with
    | .error e => .error e
    | .ok v => .ok (v, r)

/-- The entry of an array of which the values are known cell by cell; zero where nothing was stored. -/
def nth {α : Type} (d : α) (l : List α) (i : Nat) : α := l.getD i d

/-- The body of `read_array`, ascii.py:358-398: entry `m, i, j, k` is the `m`-th value read in round `k, j, i` of the loops. -/
def readArrayBody (p : IOPatch) (num : Nat) : Rd IOArr :=
  if p.dims.length = 1 then
    Rd.andThen (Rd.many (readCell num) (cellsOf p 0)) fun v s =>
      .ok (fun m idx => nth (.fin 0) (nth [] v (nth 0 idx 0)) m, s)
  else if p.dims.length = 2 then
    Rd.andThen (Rd.many (Rd.andThen (Rd.many (readCell num) (cellsOf p 0)) fun row =>
      Rd.andThen skipLine fun _ s => .ok (row, s)) (cellsOf p 1)) fun v s =>
      .ok (fun m idx => nth (.fin 0) (nth [] (nth [] v (nth 0 idx 1)) (nth 0 idx 0)) m, s)
  else if p.dims.length = 3 then
    Rd.andThen (Rd.many (Rd.andThen (Rd.many (Rd.andThen (Rd.many (readCell num) (cellsOf p 0)) fun row =>
      Rd.andThen skipLine fun _ s => .ok (row, s)) (cellsOf p 1)) fun slab =>
      Rd.andThen skipLine fun _ s => .ok (slab, s)) (cellsOf p 2)) fun v s =>
      .ok (fun m idx => nth (.fin 0) (nth [] (nth [] (nth [] v (nth 0 idx 2)) (nth 0 idx 1)) (nth 0 idx 0)) m, s)
  else fun _ => .error (.exception "Read only supported up to 3d.")

/-- `read_array`, ascii.py:342-406: every exception becomes an `IOError`. -/
def readArray (p : IOPatch) (num : Nat) : Rd IOArr := fun s =>
  match readArrayBody p num s with
  | .error _ => .error .ioError
  | .ok r => .ok r

/-- The state made from a patch and its values, ascii.py:183-198: problem data and mapping from the pickle file, if there
is one; the auxiliary array is filled with NaN for now. -/
def newState {D M : Type} (idMap : M) (ti : TimeInfo) (pk : Option (Pickle D M)) (patch : IOPatch) (q : IOArr) :
    IOState D M :=
  { patch := patch
    t := ti.t
    numEqn := ti.numEqn.toNat
    numAux := ti.numAux.toNat
    numP := 0
    q := q
    aux := fun _ _ => .nan
    p := fun _ _ => .nan
    problemData := pk.bind fun k => k.problemData
    mapc2p := (pk.map fun k => k.mapc2p).getD idMap }

/-- One patch of `fort.q`, ascii.py:178-198. `State(patch, num_eqn, num_aux)` raises for negative sizes. -/
def readState {D M : Type} (idMap : M) (ti : TimeInfo) (pk : Option (Pickle D M)) : Rd (IOState D M) :=
  Rd.andThen (readHeader ti.numDim.toNat) fun patch s =>
    if ti.numEqn < 0 ∨ ti.numAux < 0 then .error .valueError
    else match readArray patch ti.numEqn.toNat s with
      | .error e => .error e
      | .ok (q, r) =>
        .ok (newState idMap ti pk patch q, r)

/-- The loop over the patches of `fort.q`, ascii.py:176-202: the states appended, and the exception if there is one. -/
def readStates {D M : Type} (rd : Rd (IOState D M)) : Nat → List Char → List (IOState D M) × Except PyErr Unit
  | 0, _ => ([], .ok ())
  | n + 1, s => match rd s with
    | .error e => ([], .error e)
    | .ok (st, r) => let x := readStates rd n r; (st :: x.1, x.2)

/-- The tolerance of the header comparison, ascii.py:208-209, 233-236. -/
def withinTol (x y : ℚ) : Prop := |x - y| ≤ 1 / 10 ^ 8 + 1 / 10 ^ 15 * |x|

instance (x y : ℚ) : Decidable (withinTol x y) := by unfold withinTol; infer_instance

/-- The comparison of the dimensions, ascii.py:230-236. -/
def dimsMatch : List (Dim ℚ) → List (Dim ℚ) → Except PyErr Unit
  | [], _ => .ok ()
  | _ :: _, [] => .error .indexError
  | d :: ds, e :: es =>
    if d.numCells = e.numCells ∧ withinTol d.lower e.lower ∧ withinTol (cellSize d) (cellSize e) then dimsMatch ds es
    else .error .assertion

/-- One patch of the aux file, ascii.py:222-238, for a state of the solution. -/
def readAuxState {D M : Type} (numDim numAux : Int) (st : IOState D M) : Rd (IOState D M) :=
  Rd.andThen (readHeader numDim.toNat) fun patch s =>
    if st.patch.level ≠ patch.level then .error .assertion
    else match dimsMatch st.patch.dims patch.dims with
      | .error e => .error e
      | .ok _ => match readArray st.patch numAux.toNat s with
        | .error e => .error e
        | .ok (a, r) => .ok ({ st with aux := a }, r)

/-- The loop over the states of the solution, ascii.py:221-238. -/
def readAuxStates {D M : Type} (numDim numAux : Int) : List (IOState D M) → List Char →
    List (IOState D M) × Except PyErr Unit
  | [], _ => ([], .ok ())
  | st :: l, s => match readAuxState numDim numAux st s with
    | .error e => (st :: l, .error e)
    | .ok (st', r) => let x := readAuxStates numDim numAux l r; (st' :: x.1, x.2)

/-- The aux file that is used, ascii.py:211-220: of this frame, else of frame 0. -/
def auxFile {D M : Type} (fs : Files D M) (frame : Nat) : Option (List Char) :=
  match fs.a frame with
  | some s => some s
  | .none => fs.a 0

/-- `read`, ascii.py:129-239. -/
def asciiRead {D M : Type} (idMap : M) (fs : Files D M) (frame : Nat) (readAux : Bool) (sol : IOSol D M) :
    Ret (IOSol D M) Unit :=
  match fs.t frame with
  | .none => (sol, .error .ioError)
  | some tt => match readT tt with
    | .error e => (sol, .error e)
    | .ok ti => match fs.q frame with
      | .none => (sol, .error .ioError)
      | some qt =>
        let r := readStates (readState idMap ti (fs.pkl frame)) ti.nstates.toNat qt
        let sol := { sol with states := sol.states ++ r.1 }
        match r.2 with
        | .error e => (sol, .error e)
        | .ok _ =>
          if r.1 = [] then (sol, .error .indexError)
          else
            let sol := { sol with domain := some (r.1.map IOState.patch) }
            match sol.states with
            | [] => (sol, .error .indexError)
            | s0 :: _ =>
              if 0 < s0.numAux ∧ readAux then
                match auxFile fs frame with
                | .none => (sol, .ok ())
                | some at' =>
                  let x := readAuxStates ti.numDim ti.numAux sol.states at'
                  ({ sol with states := x.1 }, x.2)
              else (sol, .ok ())

end PyClaw
