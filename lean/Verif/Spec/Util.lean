import Verif.Model.Util

/-!
Specifications for the utilities.
-/
namespace PyClaw.Spec

/-- `s` is the keyword argument `k=v`: exactly one `=`, and a nonempty key. -/
def IsKeyword (s k v : List Char) : Prop := s = k ++ '=' :: v ∧ '=' ∉ k ∧ '=' ∉ v ∧ k ≠ []

/-- The value that a text stands for: JSON if it parses, with the strings `True` and `False` read as
booleans, the text itself otherwise. -/
def Denotes {J : Type} (json : List Char → Option (ArgVal J)) (v : List Char) (x : ArgVal J) : Prop :=
  (json v = some (.str "True".toList) ∨ json v = none ∧ v = "True".toList) ∧ x = .bool true ∨
  (json v = some (.str "False".toList) ∨ json v = none ∧ v = "False".toList) ∧ x = .bool false ∨
  (∃ y, (json v = some y ∨ json v = none ∧ y = .str v) ∧ y ≠ .str "True".toList ∧ y ≠ .str "False".toList ∧ x = y)

/-- What `is_valid` is meant to check. -/
structure WellFormed (c : ValidCfg) : Prop where
  lowerSet : none ∉ c.bcLower
  upperSet : none ∉ c.bcUpper
  lowerCustom : bcCustom ∈ c.bcLower → c.userBcLower = true
  upperCustom : bcCustom ∈ c.bcUpper → c.userBcUpper = true
  numWaves : c.numWaves ≠ none
  numEqn : c.numEqn ≠ none
  fwave : c.fwave ≠ none

/-- The item named by a reason is missing. -/
def Missing (c : ValidCfg) : Reason → Prop
  | .lowerCustom => bcCustom ∈ c.bcLower ∧ c.userBcLower = false
  | .upperCustom => bcCustom ∈ c.bcUpper ∧ c.userBcUpper = false
  | .numWaves => c.numWaves = none
  | .numEqn => c.numEqn = none
  | .fwave => c.fwave = none
  | .boundary => none ∈ c.bcLower ∨ none ∈ c.bcUpper

/-- Every test is called only while it is the last one obtained. -/
def CalledInTime : Nat → List GenOp → Prop
  | _, [] => True
  | n, .next :: ops => CalledInTime (n + 1) ops
  | n, .call i :: ops => i + 1 = n ∧ CalledInTime n ops

end PyClaw.Spec
