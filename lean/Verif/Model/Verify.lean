import Verif.Model.Basic
import Mathlib.Analysis.SpecialFunctions.Pow.NNReal
import Mathlib.Analysis.SpecialFunctions.Sqrt

/-!
Model of the functions that check results, /repo/src/pyclaw/util.py:203-320: `test_app`, `check_diff` and
`check_solutions_are_same`.

A value is a real number, or `none` for NaN and the infinities: none of them is below a finite tolerance, and the norm of an array
that contains one is NaN or infinite. Arrays are listed entry by entry. Simplification: of the broadcasting rules only equal shapes
and single numbers are modelled; other shapes raise.
-/
namespace PyClaw

/-- An array of floating-point numbers. -/
abbrev FArr := List (Option ℝ)

/-- `x - y` for floats. -/
noncomputable def fSub : Option ℝ → Option ℝ → Option ℝ
  | some x, some y => some (x - y)
  | _, _ => none

/-- `expected - test`. -/
noncomputable def arrSub (a b : FArr) : Except PyErr FArr :=
  if a.length = b.length then .ok (a.zipWith fSub b)
  else match a, b with
    | [x], b => .ok (b.map fun y => fSub x y)
    | a, [y] => .ok (a.map fun x => fSub x y)
    | _, _ => .error .valueError

/-- The sum of the squares. -/
noncomputable def sumSq : FArr → Option ℝ
  | [] => some 0
  | none :: _ => none
  | some x :: l => (sumSq l).map fun s => x ^ 2 + s

/-- `np.linalg.norm` of an array of any number of dimensions. -/
noncomputable def arrNorm (a : FArr) : Option ℝ := (sumSq a).map Real.sqrt

/-- `x < tol` for a finite tolerance. -/
def fLt (x : Option ℝ) (tol : ℝ) : Prop := ∃ y, x = some y ∧ y < tol

/-- `x / y` for floats: NaN or infinite when `y` is 0. -/
noncomputable def fDiv : Option ℝ → Option ℝ → Option ℝ
  | some x, some y => if y = 0 then none else some (x / y)
  | _, _ => none

/-- What `check_diff` reports: the norms of `expected`, `test` and the difference (and a text). -/
structure DiffReport where
  expected : Option ℝ
  test : Option ℝ
  err : Option ℝ

/-- The factor `d`, util.py:268-271. -/
noncomputable def deltaProd : Option (List ℝ) → ℝ
  | some l => l.prod
  | none => 1

open Classical in
/-- `check_diff`, util.py:262-284; `none` is Python's `None`. -/
noncomputable def checkDiff (expected test : FArr) (delta : Option (List ℝ)) (abstol reltol : Option ℝ) :
    Except PyErr (Option DiffReport) :=
  let d := deltaProd delta
  match arrSub expected test with
  | .error e => .error e
  | .ok diff =>
    let err := (arrNorm diff).map (d * ·)
    let en := (arrNorm expected).map (d * ·)
    let tn := (arrNorm test).map (d * ·)
    match abstol, reltol with
    | some tol, _ => if fLt err tol then .ok none else .ok (some ⟨en, tn, err⟩)
    | none, some tol => if fLt (fDiv err en) tol then .ok none else .ok (some ⟨en, tn, err⟩)
    | none, none => .error (.exception "Incorrect use of check_diff verifier, specify tol!")

/-- `test_app`, util.py:203-260. `skip`: the run is serial and this is not process 0 (224-231). `app` is the outcome of setting up
and running the application, `verifier` returns `None` or a tuple, here the list of its entries. `VerifyError` is raised with the
first four entries (236-258). -/
def testApp {C α : Type*} (skip : Bool) (app : Except PyErr C) (verifier : C → Except PyErr (Option (List α))) : Except PyErr Unit :=
  if skip then .ok ()
  else match app with
    | .error e => .error e
    | .ok c => match verifier c with
      | .error e => .error e
      | .ok none => .ok ()
      | .ok (some vals) => if vals.length < 4 then .error .indexError else .error (.exception "VerifyError")

/-- The attributes of a dimension that are compared; `units` and the flags may be missing. -/
structure CmpDim where
  numCells : Nat
  lower : ℝ
  delta : ℝ
  units : Option (Option String)
  onLower : Option Bool
  onUpper : Option Bool

/-- The attributes of a state and its patch that are compared. A `State` has no attributes `patch_index` and `level` of its own. -/
structure CmpState where
  q : FArr
  aux : Option FArr
  t : ℝ
  numEqn : Nat
  numAux : Nat
  index : Int
  level : Int
  dims : List CmpDim

/-- Missing attributes of the reference are not compared, util.py:305-307, 318-320. -/
def optSame {α : Type*} (a ref : Option α) : Prop := ref.isSome → a = ref

/-- util.py:312-320 for one pair of dimensions. -/
def dimsAgree (d ref : CmpDim) : Prop :=
  d.numCells = ref.numCells ∧ d.lower = ref.lower ∧ d.delta = ref.delta ∧ optSame d.units ref.units ∧
    optSame d.onLower ref.onLower ∧ optSame d.onUpper ref.onUpper

/-- `np.linalg.norm(a - b) < tol`; a difference that raises ends the comparison as well. -/
def normBelow (a b : FArr) (tol : ℝ) : Prop := ∃ d, arrSub a b = .ok d ∧ fLt (arrNorm d) tol

/-- The reference for a state: the loop of util.py:290-292 stops at the first state with the same patch index, and otherwise leaves the
last one in the variable. -/
def refFor (s : CmpState) (b : List CmpState) : Option CmpState :=
  match b.find? (fun r => r.index = s.index) with
  | some r => some r
  | none => b.getLast?

/-- The assertions for one state, util.py:295-320. -/
def statesAgree (s r : CmpState) : Prop :=
  normBelow s.q r.q (1 / 10 ^ 6) ∧
  (∀ ra, r.aux = some ra → ∃ sa, s.aux = some sa ∧ normBelow sa ra (1 / 10 ^ 16)) ∧
  s.t = r.t ∧ s.numEqn = r.numEqn ∧ s.numAux = r.numAux ∧ s.index = r.index ∧ s.level = r.level ∧
  ∀ p ∈ s.dims.zip r.dims, dimsAgree p.1 p.2

/-- `check_solutions_are_same`, util.py:286-320, does not raise. `ta` and `tb` are the times of the solutions. -/
def sameSolutions (ta tb : ℝ) (a b : List CmpState) : Prop :=
  a.length = b.length ∧ ta = tb ∧ ∀ s ∈ a, ∃ r, refFor s b = some r ∧ statesAgree s r

end PyClaw
