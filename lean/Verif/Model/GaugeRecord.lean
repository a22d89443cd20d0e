import Verif.Model.Evolve

/-!
Model of the recording of gauges during a run: `Solver.write_gauge_values`, /repo/src/pyclaw/solver.py:680-715, `setup_gauge_files`,
/repo/src/pyclaw/geometry.py:407-423, and the closing of the files at the end of `Controller.run`,
/repo/src/pyclaw/controller.py:390.

A row of a file is the pair of the time and the recorded values; the text of the numbers (`str`) is not modelled. `q[:,ix]` and
`aux[:,ix]` are arbitrary functions of the data and the index; that the indices of the gauges are in range is C06.
-/
namespace PyClaw

variable {K : Type*}

/-- A time and the values recorded. -/
abbrev GRow (K : Type*) := K × List K

/-- An open or closed file object, with what has been written through it. -/
structure GaugeFile (K : Type*) where
  isOpen : Bool
  rows : List (GRow K)

/-- The part of the state that concerns gauges: `grid.gauges`, `grid.gauge_files`, `keep_gauges` and `gauge_data`. -/
structure GaugeState (K : Type*) where
  gauges : List (List Int)
  files : List (GaugeFile K) := []
  keep : Bool := false
  data : List (List (GRow K)) := []

/-- `setup_gauge_files`, geometry.py:419-423: one new file per gauge, behind the existing file objects. -/
def setupGaugeFiles (gs : GaugeState K) : GaugeState K :=
  { gs with files := gs.files ++ gs.gauges.map fun _ => ⟨true, []⟩ }

/-- controller.py:390. -/
def closeGaugeFiles (gs : GaugeState K) : GaugeState K :=
  { gs with files := gs.files.map fun f => { f with isOpen := false } }

/-- The cell of a gauge, solver.py:688-697: one index in one dimension, exactly two in two; in three dimensions `q` has no
value. -/
def gaugeCell (numDim : Nat) (g : List Int) : Except PyErr (List Int) :=
  if numDim = 1 then
    match g with
    | [] => .error .indexError
    | ix :: _ => .ok [ix]
  else if numDim = 2 then
    match g with
    | [ix, iy] => .ok [ix, iy]
    | _ => .error .valueError
  else .error .nameError

/-- `gauge_data` after a new row for gauge `i`, solver.py:702-707. `np.vstack` raises if the number of columns changes. -/
def keepRow (n i : Nat) (row : GRow K) (data : List (List (GRow K))) : Except PyErr (List (List (GRow K))) :=
  if data.length = n then
    match data[i]? with
    | none => .error .indexError
    | some rows =>
      if rows.all (fun r => r.2.length = row.2.length) then .ok (data.set i (rows ++ [row])) else .error .valueError
  else .ok (data ++ [[row]])

/-- Writing one row, solver.py:709-715. A closed file raises `ValueError`, which is not caught. -/
def writeRow (i : Nat) (row : GRow K) (files : List (GaugeFile K)) : Except PyErr (List (GaugeFile K)) :=
  match files[i]? with
  | none => .error .indexError
  | some f => if f.isOpen then .ok (files.set i { f with rows := f.rows ++ [row] }) else .error .valueError

/-- The loop of `write_gauge_values` from gauge `i` on, solver.py:687-715. `value` gives the recorded values of a cell
(`compute_gauge_values` of `q` and `aux` there). -/
def writeGaugesFrom (numDim : Nat) (value : List Int → List K) (t : K) :
    List (List Int) → Nat → GaugeState K → GaugeState K × Option PyErr
  | [], _, gs => (gs, none)
  | g :: l, i, gs =>
    match gaugeCell numDim g with
    | .error e => (gs, some e)
    | .ok c =>
      let row := (t, value c)
      match (if gs.keep then keepRow gs.gauges.length i row gs.data else .ok gs.data) with
      | .error e => (gs, some e)
      | .ok data =>
        let gs := { gs with data := data }
        match writeRow i row gs.files with
        | .error e => (gs, some e)
        | .ok files => writeGaugesFrom numDim value t l (i + 1) { gs with files := files }

/-- `write_gauge_values(solution)`. -/
def writeGauges (numDim : Nat) (value : List Int → List K) (t : K) (gs : GaugeState K) : GaugeState K × Option PyErr :=
  writeGaugesFrom numDim value t gs.gauges 0 gs

/-- The environment of the time loop with gauges: `before_step` and the numerical step change `q` and the other data `U` (aux,
user data) but not the gauges; `value q u cell` are the values recorded in a cell. -/
def gaugeEnv {Q U : Type*} (rnd : K → K) (before : K → Q × U → Q × U) (numeric : K → K → Q × U → (Q × U) × Except PyErr K)
    (numDim : Nat) (value : Q → U → List Int → List K) : StepEnv K Q (GaugeState K × U) where
  rnd := rnd
  before := fun t d => let r := before t (d.1, d.2.2); (r.1, (d.2.1, r.2))
  numeric := fun t dt d => let r := numeric t dt (d.1, d.2.2); ((r.1.1, (d.2.1, r.1.2)), r.2)
  gauges := fun t d => let r := writeGauges numDim (value d.1 d.2.2) t d.2.1; ((r.1, d.2.2), r.2)

end PyClaw
