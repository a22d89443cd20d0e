import Verif.Model.Ascii

/-!
Model of gauge files, /repo/src/pyclaw/gauges.py: `GaugeSolution.write` and `GaugeSolution.read`.

A directory maps the id of a gauge to the text of its file `gaugeNNNNN.txt` (different ids have different names: `str(id)`
padded with zeros). Not modelled: `aux`, which neither function touches.
-/
namespace PyClaw

/-- An array of shape `(m, n)`. -/
structure GaugeArr where
  m : Nat
  n : Nat
  get : Nat → Nat → Num

/-- The attributes of a `GaugeSolution`, gauges.py:51-71; `none` is Python's `None`. -/
structure GaugeSol where
  id : Option Int := none
  location : Option (List Num) := none
  level : Option (List Int) := none
  t : Option (List Num) := none
  q : Option GaugeArr := none
  lagrangian : Bool := false
  path : Option (List (Num × Num × Num)) := none

/-! ### write -/

/-- `"%02i"`. -/
def levelText (n : Int) : List Char := if n < 0 then '-' :: natDigits n.natAbs else zeroPad 2 (natDigits n.natAbs)

/-- `" ".join(l)`. -/
def joinSp : List (List Char) → List Char
  | [] => []
  | [w] => w
  | w :: l => w ++ ' ' :: joinSp l

/-- The first line, gauges.py:250-251. `repr x` is the text of `"%s" % x`. -/
def gaugeHeader (repr : Num → List Char) (id : Int) (x y : Num) (m : Nat) : List Char :=
  "# gauge_id= ".toList ++ (intText id ++ (" location=( ".toList ++ (repr x ++ (' ' :: (repr y ++
    (" ) num_eqn= ".toList ++ (natDigits m ++ ['\n'])))))))

/-- The second line, gauges.py:252. -/
def gaugeColumns : List Char := "# Columns: level time q(1 ... num_eqn)\n".toList

/-- One row, gauges.py:256-258, with the format `fmt` for the values. -/
def gaugeRow (fmt : Num → List Char) (l : Int) (t : Num) (vals : List Num) : List Char :=
  levelText l ++ ' ' :: (sciText true 15 t ++ ' ' :: (joinSp (vals.map fmt) ++ ['\n']))

/-- The loop over the rows from row `i` on, gauges.py:255-258: what is written, until an index is out of range. -/
def gaugeRows (fmt : Num → List Char) (level : List Int) (t : List Num) (q : GaugeArr) :
    Nat → Nat → List Char × Except PyErr Unit
  | 0, _ => ([], .ok ())
  | k + 1, i =>
    match level[i]?, t[i]? with
    | some l, some τ =>
      let r := gaugeRows fmt level t q k (i + 1)
      (gaugeRow fmt l τ ((List.range q.m).map fun m => q.get m i) ++ r.1, r.2)
    | _, _ => ([], .error .indexError)

/-- `write(path, format)`, gauges.py:230-259, with `is_valid` (262-278). -/
def gaugeWrite (repr fmt : Num → List Char) (g : GaugeSol) (fs : Int → Option (List Char)) :
    Ret (Int → Option (List Char)) Unit :=
  match g.id, g.location, g.level, g.t, g.q with
  | some id, some loc, some level, some t, some q =>
    match loc with
    | x :: y :: _ =>
      let r := gaugeRows fmt level t q q.n 0
      (Function.update fs id (some (gaugeHeader repr id x y q.m ++ (gaugeColumns ++ r.1))), r.2)
    | _ => (Function.update fs id (some []), .error .indexError)
  | _, _, _, _, _ => (fs, .error .valueError)

/-! ### read -/

/-- `pat in s`. -/
def occurs (pat : List Char) : List Char → Bool
  | [] => pat.isPrefixOf []
  | c :: s => pat.isPrefixOf (c :: s) || occurs pat s

/-- The lines of a text, without newlines. -/
def textLines : List Char → List (List Char)
  | [] => [[]]
  | c :: s =>
    if c = '\n' then [] :: textLines s
    else match textLines s with
      | l :: ls => (c :: l) :: ls
      | [] => [[c]]

def rowsOf : List (List (List Char)) → Except PyErr (List (List Num))
  | [] => .ok []
  | w :: l => match floats w with
    | .error e => .error e
    | .ok v => match rowsOf l with
      | .error e => .error e
      | .ok vs => .ok (v :: vs)

/-- `np.loadtxt(path, comments="#")` and the reshaping, gauges.py:180-184, as a two-dimensional array (its number of columns
and its rows). `loadtxt` drops comments and blank lines, wants the same number of columns in every line, and drops axes of
length one; a one-dimensional result is taken as a single row, and a result without axes cannot be indexed. -/
def loadData (s : List Char) : Except PyErr (Nat × List (List Num)) :=
  match rowsOf (((textLines s).map fun l => splitWs (l.takeWhile (· ≠ '#'))).filter (· ≠ [])) with
  | .error e => .error e
  | .ok [] => .error .indexError
  | .ok (r :: rows) =>
    if rows.all (fun r' => r'.length = r.length) then
      if r.length = 1 then
        (if rows = [] then .error .indexError else .ok (rows.length + 1, [(r :: rows).flatten]))
      else .ok (r.length, r :: rows)
    else .error .valueError

/-- The words of the first line as location and `num_eqn`, gauges.py:110-121; `none` for other numbers of words. -/
def gaugeWhere (data : List (List Char)) : Option (List (List Char) × List Char) :=
  if data.length = 8 then some ([nth [] data 4], nth [] data 7)
  else if data.length = 9 then some ([nth [] data 4, nth [] data 5], nth [] data 8)
  else if data.length = 10 then some ([nth [] data 4, nth [] data 5, nth [] data 6], nth [] data 9)
  else none

inductive GFormat where
  | ascii
  | binary64
  | binary32
  deriving DecidableEq

/-- The format from the third or fourth line, gauges.py:145-158. -/
def gaugeFormat (line : List Char) : GFormat :=
  if line = [] then .binary64
  else if occurs "binary32".toList line then .binary32
  else if occurs "binary".toList line then .binary64
  else .ascii

/-- Lower-case letters (ASCII). -/
def lowerText (s : List Char) : List Char := s.map Char.toLower

/-- `astype(np.int64)`: towards zero; for infinities and NaN the smallest integer. -/
def toInt64 : Num → Int
  | .fin x => if x < 0 then ⌈x⌉ else ⌊x⌋
  | _ => -(2 ^ 63)

/-- Consecutive pieces of length `w`. -/
def chunks (w : Nat) (l : List Num) : Nat → List (List Num)
  | 0 => []
  | k + 1 => l.take w :: chunks w (l.drop w) k

/-- The assignments of `level`, `t`, `q` and `particle_path`, gauges.py:206-226, from an array with `w` columns. `numEqn = none`:
the variable has no value. -/
def gaugeFinish (numEqn : Option Int) (w : Nat) (rows : List (List Num)) (g : GaugeSol) : Ret GaugeSol Unit :=
  if w = 0 then (g, .error .indexError)
  else
    let g := { g with level := some (rows.map fun r => toInt64 (nth .nan r 0)) }
    if w = 1 then (g, .error .indexError)
    else
      let q : GaugeArr := ⟨w - 2, rows.length, fun m i => nth .nan (nth [] rows i) (2 + m)⟩
      let t := rows.map fun r => nth .nan r 1
      let g := { g with t := some t, q := some q }
      match numEqn with
      | none => (g, .error .nameError)
      | some ne =>
        if ne ≠ (q.m : Int) then (g, .error .valueError)
        else match g.location with
          | none => (g, .error .typeError)
          | some loc =>
            if loc.length = 2 then
              if g.lagrangian then
                (if q.m < 3 then (g, .error .indexError)
                 else ({ g with path := some ((List.range q.n).map fun i => (nth .nan t i, q.get 1 i, q.get 2 i)) }, .ok ()))
              else match t with
                | [] => (g, .error .indexError)
                | t0 :: _ => ({ g with path := some [(t0, nth .nan loc 0, nth .nan loc 1)] }, .ok ())
            else (g, .ok ())

/-- The part of `read` after the header, gauges.py:160-226. -/
def gaugeBody {Raw : Type} (dec64 dec32 : Raw → List Num) (bin : Int → Option Raw) (txt : List Char) (fmt : GFormat)
    (numEqn : Option Int) (gid : Int) (pandas : Bool) (g : GaugeSol) : Ret GaugeSol Unit :=
  if g.id ≠ some gid then (g, .error .valueError)
  else if pandas then (g, .error .notImplemented)
  else match fmt with
    | .ascii => match loadData txt with
      | .error e => (g, .error e)
      | .ok (w, rows) => gaugeFinish numEqn w rows g
    | fmt => match bin gid with
      | none => (g, .ok ())
      | some raw =>
        match numEqn with
        | none => (g, .error .nameError)
        | some ne =>
          let data := if fmt = .binary32 then dec32 raw else dec64 raw
          let w := (2 + ne).toNat
          if data.length % w ≠ 0 then (g, .error .assertion)
          else gaugeFinish numEqn w (chunks w data (data.length / w)) g

/-- `read(gauge_id, path, use_pandas)`, gauges.py:79-226, on the text file and the binary file of the gauge. Simplification: the
header must have `num_eqn ≥ 0`. -/
def gaugeRead {Raw : Type} (dec64 dec32 : Raw → List Num) (bin : Int → Option Raw) (fs : Int → Option (List Char)) (gid : Int)
    (pandas : Bool) (g : GaugeSol) : Ret GaugeSol Unit :=
  match fs gid with
  | none => (g, .error .ioError)
  | some txt =>
    let l1 := readline txt
    let data := splitWs l1.1
    match data[2]? with
    | none => (g, .error .indexError)
    | some w => match parseInt w with
      | .error e => (g, .error e)
      | .ok id =>
        let g := { g with id := some id }
        let l2 := readline l1.2
        let lag := occurs "lagrangian".toList (lowerText l2.1)
        let rest := if lag ∨ occurs "stationary".toList (lowerText l2.1) then (readline l2.2).2 else l2.2
        let fmt := gaugeFormat (readline rest).1
        match gaugeWhere data with
        | none => gaugeBody dec64 dec32 bin txt fmt none gid pandas { g with lagrangian := lag }
        | some (loc, ne) => match floats loc with
          | .error e => (g, .error e)
          | .ok loc =>
            let g := { g with location := some loc }
            match parseInt ne with
            | .error e => (g, .error e)
            | .ok ne => gaugeBody dec64 dec32 bin txt fmt (some ne) gid pandas { g with lagrangian := lag }

end PyClaw
