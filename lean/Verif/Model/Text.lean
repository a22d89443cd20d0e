import Verif.Model.Basic
import Mathlib.Data.Int.Log
import Mathlib.Data.Nat.Digits.Defs
import Mathlib.Data.Rat.Floor

/-!
Text files and number formats, as used by /repo/src/pyclaw/fileio/ascii.py and /repo/src/pyclaw/gauges.py: Python's
`%i` and `%e` conversions, `int()`, `float()`, `str.split()`, `file.readline()` and `util.read_data_line`
(/repo/src/pyclaw/util.py:552-580).

A text is a list of characters. A float is a finite rational number, an infinity or NaN; the sign of zero is not
modelled, and `float()` returns the value of the decimal text itself (in Python: the nearest double).
-/
namespace PyClaw

/-- A Python float. -/
inductive Num where
  | fin (x : ℚ)
  | inf (neg : Bool)
  | nan
  deriving DecidableEq

/-! ### Formatting -/

/-- The character of a digit. -/
def digitChar (d : Nat) : Char := Char.ofNat (48 + d)

/-- Decimal digits of a natural number, most significant first. -/
def natDigits (n : Nat) : List Char := if n = 0 then ['0'] else (Nat.digits 10 n).reverse.map digitChar

/-- `%i` for an integer. -/
def intText (n : Int) : List Char := if n < 0 then '-' :: natDigits n.natAbs else natDigits n.natAbs

/-- A minimal field width: blanks on the left (`%5i`, `%18.8e`). -/
def padLeft (w : Nat) (s : List Char) : List Char := List.replicate (w - s.length) ' ' ++ s

/-- Zeros on the left. -/
def zeroPad (w : Nat) (s : List Char) : List Char := List.replicate (w - s.length) '0' ++ s

/-- Rounding to the nearest integer, ties to even. -/
def roundHalfEven (y : ℚ) : Int :=
  let f := ⌊y⌋
  if y - f < 1 / 2 then f else if 1 / 2 < y - f then f + 1 else if f % 2 = 0 then f else f + 1

/-- The digits (as one number of `P+1` digits) and the exponent of `|x|` in `%.Pe`. -/
def sciOf (P : Nat) (x : ℚ) : Nat × Int :=
  if x = 0 then (0, 0)
  else
    let e := Int.log 10 |x|
    let k := (roundHalfEven (|x| / (10 : ℚ) ^ (e - P))).toNat
    if k = 10 ^ (P + 1) then (10 ^ P, e + 1) else (k, e)

/-- `e+05`, `e-12`: the exponent has a sign and at least two digits. -/
def expText (e : Int) : List Char := 'e' :: (if e < 0 then '-' else '+') :: zeroPad 2 (natDigits e.natAbs)

/-- `%.Pe` (`plus = false`) and `%+.Pe` (`plus = true`), for `P ≥ 1`. -/
def sciText (plus : Bool) (P : Nat) : Num → List Char
  | .nan => if plus then ['+', 'n', 'a', 'n'] else ['n', 'a', 'n']
  | .inf neg => (if neg then ['-'] else if plus then ['+'] else []) ++ ['i', 'n', 'f']
  | .fin x =>
    let r := sciOf P x
    (if x < 0 then ['-'] else if plus then ['+'] else []) ++ natDigits (r.1 / 10 ^ P) ++
      '.' :: zeroPad P (natDigits (r.1 % 10 ^ P)) ++ expText r.2

/-! ### Parsing -/

def isDigit (c : Char) : Bool := decide (48 ≤ c.toNat) && decide (c.toNat ≤ 57)

/-- The number a list of digits denotes. -/
def digitsValue (s : List Char) : Nat := s.foldl (fun a c => 10 * a + (c.toNat - 48)) 0

/-- An optional sign: negative or not, and the rest. -/
def takeSign : List Char → Bool × List Char
  | '-' :: s => (true, s)
  | '+' :: s => (false, s)
  | s => (false, s)

/-- `int(s)`. Simplification: blanks around the number and underscores are not accepted. -/
def parseInt (s : List Char) : Except PyErr Int :=
  let r := takeSign s
  if r.2 ≠ [] ∧ r.2.all isDigit = true then
    .ok (if r.1 then -(digitsValue r.2 : Int) else digitsValue r.2)
  else .error .valueError

/-- The exponent part of a float: empty, or `e`, an optional sign and digits. -/
def parseExp : List Char → Except PyErr Int
  | [] => .ok 0
  | _ :: s => parseInt s

/-- `float(s)`. Simplification: of the spellings Python accepts, only `inf`, `nan` and decimal numbers with an optional
fraction and an optional exponent introduced by `e` are accepted here. -/
def parseFloat (s : List Char) : Except PyErr Num :=
  let r := takeSign s
  if r.2 = ['n', 'a', 'n'] then .ok .nan
  else if r.2 = ['i', 'n', 'f'] then .ok (.inf r.1)
  else
    let mant := r.2.takeWhile (· ≠ 'e')
    let whole := mant.takeWhile (· ≠ '.')
    let frac := (mant.dropWhile (· ≠ '.')).drop 1
    if whole ++ frac ≠ [] ∧ (whole ++ frac).all isDigit = true then
      match parseExp (r.2.dropWhile (· ≠ 'e')) with
      | .error e => .error e
      | .ok e =>
        let v : ℚ := digitsValue (whole ++ frac) * (10 : ℚ) ^ (e - frac.length)
        .ok (.fin (if r.1 then -v else v))
    else .error .valueError

/-! ### Lines -/

/-- White space for `str.split()` (the ASCII characters). -/
def isWs (c : Char) : Bool := c = ' ' ∨ c = '\n' ∨ c = '\t' ∨ c = '\r' ∨ c = '\x0b' ∨ c = '\x0c'

/-- `split()` with the current word `cur` (reversed). -/
def splitAux (cur : List Char) : List Char → List (List Char)
  | [] => if cur = [] then [] else [cur.reverse]
  | c :: s =>
    if isWs c then (if cur = [] then splitAux [] s else cur.reverse :: splitAux [] s) else splitAux (c :: cur) s

/-- `s.split()`. -/
def splitWs (s : List Char) : List (List Char) := splitAux [] s

/-- `f.readline()`: the next line with its newline, and what remains. At the end of the file the line is empty. -/
def readline : List Char → List Char × List Char
  | [] => ([], [])
  | c :: s => if c = '\n' then (['\n'], s) else let r := readline s; (c :: r.1, r.2)

theorem readline_length (s : List Char) (h : s ≠ []) : (readline s).2.length < s.length := by
  induction s with
  | nil => exact absurd rfl h
  | cons c s ih =>
    unfold readline
    split
    · simp
    · by_cases hs : s = []
      · subst hs; simp [readline]
      · have := ih hs; simp only [List.length_cons]; omega

/-- A reading operation on an open text file: a value and the rest of the file, or an exception. -/
abbrev Rd (α : Type*) := List Char → Except PyErr (α × List Char)

/-- The loop of `read_data_line`, util.py:567-572: the words of the next line that is not blank. -/
def nextWords (s : List Char) : Except PyErr (List (List Char) × List Char) :=
  if _h : s = [] then .error .ioError
  else if splitWs (readline s).1 ≠ [] then .ok (splitWs (readline s).1, (readline s).2) else nextWords (readline s).2
termination_by s.length
decreasing_by exact readline_length s (by assumption)

/-- `read_data_line(f, data_type=int)`, util.py:552-580. -/
def readIntLine : Rd Int := fun s =>
  match nextWords s with
  | .error e => .error e
  | .ok (l, r) => match parseInt (l.headD []) with
    | .error e => .error e
    | .ok v => .ok (v, r)

/-- `read_data_line(f)`. -/
def readFloatLine : Rd Num := fun s =>
  match nextWords s with
  | .error e => .error e
  | .ok (l, r) => match parseFloat (l.headD []) with
    | .error e => .error e
    | .ok v => .ok (v, r)

/-- `read_data_line(f, data_type=str)`. -/
def readStrLine : Rd (List Char) := fun s =>
  match nextWords s with
  | .error e => .error e
  | .ok (l, r) => .ok (l.headD [], r)

/-- One after the other. -/
def Rd.andThen {α β : Type*} (p : Rd α) (f : α → Rd β) : Rd β := fun s =>
  match p s with
  | .error e => .error e
  | .ok (a, r) => f a r

/-- `n` times. -/
def Rd.many {α : Type*} (p : Rd α) : Nat → Rd (List α)
  | 0 => fun s => .ok ([], s)
  | n + 1 => fun s =>
    match p s with
    | .error e => .error e
    | .ok (a, r) => match Rd.many p n r with
      | .error e => .error e
      | .ok (l, r') => .ok (a :: l, r')

/-- A line is read and thrown away. -/
def skipLine : Rd Unit := fun s => .ok ((), (readline s).2)

end PyClaw
