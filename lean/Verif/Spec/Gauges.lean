import Verif.Model.Gauges

/-!
Specification of gauge files (C56): two gauges are compared.
-/
namespace PyClaw.Spec

/-- Equal to `P + 1` significant digits: the relative error is at most half a unit of the last digit, and a decimal number of at
most `P + 1` digits is not changed. Infinities and NaN are themselves. -/
def CloseTo (P : Nat) : Num → Num → Prop
  | .fin x, .fin y =>
    |y - x| ≤ 1 / (2 * 10 ^ P) * |x| ∧ ∀ k n : Int, |k| < 10 ^ (P + 1) → x = k * (10 : ℚ) ^ n → y = x
  | a, b => b = a

/-- A gauge in two dimensions with `n` records of `m` values; levels that a double represents exactly. -/
structure Recorded (g : GaugeSol) (id : Int) (x y : Num) (level : List Int) (t : List Num) (q : GaugeArr) : Prop where
  hid : g.id = some id
  hlocation : g.location = some [x, y]
  hlevel : g.level = some level
  ht : g.t = some t
  hq : g.q = some q
  levels : level.length = q.n
  times : t.length = q.n
  small : ∀ l ∈ level, |l| ≤ 2 ^ 53

/-- A gauge and what is read back: times to 16 digits, values to `P + 1` digits. -/
structure SameGauge (P : Nat) (g g' : GaugeSol) : Prop where
  id : g'.id = g.id
  location : g'.location = g.location
  level : g'.level = g.level
  t : ∃ t t', g.t = some t ∧ g'.t = some t' ∧ List.Forall₂ (CloseTo 15) t t'
  q : ∃ q q', g.q = some q ∧ g'.q = some q' ∧ q'.m = q.m ∧ q'.n = q.n ∧
    ∀ m < q.m, ∀ i < q.n, CloseTo P (q.get m i) (q'.get m i)

/-- What Python guarantees for `"%s" % x`: one word, and `float` of it is `x`. -/
structure GoodRepr (repr : Num → List Char) (x : Num) : Prop where
  back : parseFloat (repr x) = .ok x
  word : ∀ c ∈ repr x, isWs c = false
  nonempty : repr x ≠ []

end PyClaw.Spec
