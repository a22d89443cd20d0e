import Verif.Model.Serialized
import Mathlib.Logic.Relation

/-!
Specification of a function that only the first process executes (C112).
-/
namespace PyClaw.Spec

/-- The states that some schedule of the processes leads to. -/
def Scheduled {P : Nat} (raises : Nat → Prop) (w w' : SWorld P) : Prop := Relation.ReflTransGen (SStep raises) w w'

/-- Each time that `f` happened, `e` had happened before. -/
def Precedes {E : Type*} (log : List E) (e f : E) : Prop := ∀ l1 l2, log = l1 ++ f :: l2 → e ∈ l1

/-- Does the function itself begin or end here? -/
def isBody {P : Nat} : Fin P × SAct → Bool
  | (_, .start _) => true
  | (_, .done _) => true
  | _ => false

/-- The function executed by the first process alone, `n` times, one call after the other. -/
def onFirst (P n : Nat) : List (Fin (P + 1) × SAct) := (List.range n).flatMap fun k => [(0, .start k), (0, .done k)]

/-- All processes have returned from all calls. -/
def Over {P : Nat} (w : SWorld P) : Prop := ∀ p, w.todo p = []

/-- No process can do anything. -/
def Blocked {P : Nat} (raises : Nat → Prop) (w : SWorld P) : Prop := ∀ w', ¬ SStep raises w w'

/-- The number of actions left. -/
def left {P : Nat} (w : SWorld P) : Nat := (List.finRange P).foldr (fun p s => (w.todo p).length + s) 0

end PyClaw.Spec
