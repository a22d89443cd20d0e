import Verif.Model.Gauges

/-!
Model of the functions for gauge files of older versions, /repo/src/pyclaw/gauges.py: `convert_gauges` (356-391), the beginning of
`compare_gauges` (302-349) and `compare_old_gauges` (395-449). An old file has one line for each record of any gauge: id, level, time,
values. The plots are not modelled.
-/
namespace PyClaw

/-- `np.loadtxt(path)` as it is used here, gauges.py:374-375, 426-427: the rows of a two-dimensional array. A file with a single row or a single
column gives a one-dimensional array, which cannot be indexed by `[:, 0]`. -/
def oldRows (txt : List Char) : Except PyErr (List (List Num)) :=
  match rowsOf (((textLines txt).map fun l => splitWs (l.takeWhile (· ≠ '#'))).filter (· ≠ [])) with
  | .error e => .error e
  | .ok [] => .error .indexError
  | .ok (r :: rows) =>
    if rows.all (fun r' => r'.length = r.length) then
      if rows = [] ∨ r.length = 1 then .error .indexError else .ok (r :: rows)
    else .error .valueError

/-- The rows of one gauge, gauges.py:380, 428. -/
def rowsOfGauge (id : Int) (rows : List (List Num)) : List (List Num) :=
  rows.filter fun r => toInt64 (nth .nan r 0) = id

/-- The new gauge, gauges.py:381-386. -/
def newGauge (id : Int) (rows : List (List Num)) : GaugeSol :=
  let mine := rowsOfGauge id rows
  { id := some id
    location := some [.nan, .nan]
    level := some (mine.map fun r => toInt64 (nth .nan r 1))
    t := some (mine.map fun r => nth .nan r 2)
    q := some ⟨(rows.headD []).length - 3, mine.length, fun m i => nth .nan (nth [] mine i) (3 + m)⟩ }

/-- `compare_gauges(path, output_path, gauge_id)` as called in gauges.py:389: the parameters are `(paths, gauge_id, fields)`, so `paths` is
the name of the old file, and the first test (321) asks for its length. What happens after the test is a parameter `cmp`. -/
def compareCall (path : List Char) (cmp : Except PyErr Unit) : Except PyErr Unit :=
  if path.length ≠ 2 then .error .valueError else cmp

/-- The loop over the gauges, gauges.py:379-391. -/
def convertLoop (repr : Num → List Char) (path : List Char) (cmp : Except PyErr Unit) (rows : List (List Num)) :
    List Int → (Int → Option (List Char)) → Ret (Int → Option (List Char)) Unit
  | [], fs => (fs, .ok ())
  | id :: ids, fs =>
    match gaugeWrite repr (sciText true 15) (newGauge id rows) fs with
    | (fs, .error e) => (fs, .error e)
    | (fs, .ok ()) =>
      match compareCall path cmp with
      | .error e => (fs, .error e)
      | .ok () => convertLoop repr path cmp rows ids fs

/-- `convert_gauges`, gauges.py:356-391. `order` is the order in which Python lists the set of the ids. -/
def convertGauges (repr : Num → List Char) (path : List Char) (cmp : Except PyErr Unit) (order : List Int) (txt : List Char)
    (fs : Int → Option (List Char)) : Ret (Int → Option (List Char)) Unit :=
  match oldRows txt with
  | .error e => (fs, .error e)
  | .ok rows =>
    if (rows.headD []).length < 3 then (fs, .error .indexError)
    else convertLoop repr path cmp rows order fs

/-- `numpy.isclose`, for the comparison with the value `b`. -/
def closeNum (atol rtol : ℚ) : Num → Num → Bool
  | .fin a, .fin b => |a - b| ≤ atol + rtol * |b|
  | .nan, _ => false
  | _, .nan => false
  | a, b => a = b

/-- `compare_old_gauges`, gauges.py:395-449, without plot and text. Simplification: arrays of different shapes raise (single rows or columns
would be broadcast). -/
def compareOld {Raw : Type} (dec64 dec32 : Raw → List Num) (bin : Int → Option Raw) (fs : Int → Option (List Char)) (txt : List Char)
    (id : Int) (atol rtol : ℚ) : Except PyErr Bool :=
  match oldRows txt with
  | .error e => .error e
  | .ok rows =>
    let mine := rowsOfGauge id rows
    match gaugeRead dec64 dec32 bin fs id false {} with
    | (_, .error e) => .error e
    | (g, .ok ()) => match g.q with
      | none => .error .attributeError
      | some q =>
        if q.n = mine.length ∧ q.m = (rows.headD []).length - 3 then
          .ok ((List.range q.n).all fun i => (List.range q.m).all fun m => closeNum atol rtol (nth .nan (nth [] mine i) (3 + m)) (q.get m i))
        else .error .valueError

end PyClaw
