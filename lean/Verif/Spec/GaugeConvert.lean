import Verif.Spec.Gauges

/-!
Specification of the conversion of old gauge files (C105). A row of an old file is: id, level, time, values.
-/
namespace PyClaw.Spec

/-- A table with at least two rows, all with the same number `w ≥ 3` of entries, and levels that a double represents exactly. -/
structure OldTable (rows : List (List Num)) (w : Nat) : Prop where
  two : 2 ≤ rows.length
  wide : 3 ≤ w
  width : ∀ r ∈ rows, r.length = w
  levels : ∀ r ∈ rows, |toInt64 (r.getD 1 .nan)| ≤ 2 ^ 53

/-- The rows of the gauge `id`, in the order of the file. -/
def recordsOf (id : Int) (rows : List (List Num)) : List (List Num) :=
  rows.filter fun r => toInt64 (r.getD 0 .nan) = id

/-- The gauge holds exactly the given rows of width `w`: the levels, and times and values to 16 digits. -/
structure Converted (rows : List (List Num)) (w : Nat) (id : Int) (g : GaugeSol) : Prop where
  id : g.id = some id
  level : g.level = some (rows.map fun r => toInt64 (r.getD 1 .nan))
  t : ∃ t, g.t = some t ∧ List.Forall₂ (CloseTo 15) (rows.map fun r => r.getD 2 .nan) t
  q : ∃ q, g.q = some q ∧ q.m = w - 3 ∧ q.n = rows.length ∧
    ∀ m < w - 3, ∀ i < rows.length, CloseTo 15 ((rows.getD i []).getD (3 + m) .nan) (q.get m i)

/-- A number that a text with 16 significant digits can hold. -/
def Short (x : Num) : Prop := ∃ k n : Int, |k| < 10 ^ 16 ∧ x = .fin (k * (10 : ℚ) ^ n)

/-- Finite numbers that differ by at most `atol + rtol |b|`, or the same infinity. -/
def Near (atol rtol : ℚ) : Num → Num → Prop
  | .fin a, .fin b => |a - b| ≤ atol + rtol * |b|
  | .nan, _ => False
  | _, .nan => False
  | a, b => a = b

end PyClaw.Spec
