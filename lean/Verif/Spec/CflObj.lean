import Verif.Model.CflObj
import Mathlib.Order.Bounds.Basic
import Mathlib.Data.Set.Insert

/-!
Specification of the Courant-number objects (C106).
-/
namespace PyClaw.Spec

variable {K : Type*} [LinearOrder K] {P : Type*}

/-- Everything that was reported since the last reset to `c`, by any process. -/
def Reported (c : K) (xs : List (P → K)) : Set K := insert c {y | ∃ x ∈ xs, ∃ p, y = x p}

/-- The calls of the parallel run and those of the serial run, which passes the largest number of the whole domain: resets, reports, and
`set_local_max` followed by `get_global_max`, in any order. -/
inductive SerialOf : List (CflOp P K) → List (CflOp Unit K) → Prop
  | nil : SerialOf [] []
  | reset (c : K) {par ser} (t : SerialOf par ser) : SerialOf (.setGlobal (fun _ => c) :: par) (.setGlobal (fun _ => c) :: ser)
  | report (x : P → K) (y : K) (h : IsGreatest (Set.range x) y) {par ser} (t : SerialOf par ser) :
      SerialOf (.update x :: par) (.update (fun _ => y) :: ser)
  | localThenGlobal (x : P → K) (y : K) (h : IsGreatest (Set.range x) y) {par ser} (t : SerialOf par ser) :
      SerialOf (.setLocal x :: .getGlobal :: par) (.setLocal (fun _ => y) :: .getGlobal :: ser)

end PyClaw.Spec
