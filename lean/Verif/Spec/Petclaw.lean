import Verif.Model.Petclaw

/-!
Specification of partitions (C63, C64).
-/
namespace PyClaw.Spec

/-- A partition of `n` cells among `p` processes in a row: process `k` owns the cells `cut k, …, cut (k+1) - 1`, at least one. -/
structure IsPartition (n p : Nat) (cut : Nat → Nat) : Prop where
  first : cut 0 = 0
  last : cut p = n
  nonempty : ∀ k, k < p → cut k < cut (k + 1)

/-- The range of process `k`, as `getRanges()` gives it. -/
def ownRange (cut : Nat → Nat) (k : Nat) : Int × Int := (cut k, cut (k + 1))

/-- What the local grid of process `k` looks like in one direction. -/
structure IsLocalPart {K : Type*} [Field K] [LinearOrder K] (d : Dim K) (p : Nat) (cut : Nat → Nat) (k : Nat) (g : Dim K) :
    Prop where
  cells : g.numCells = cut (k + 1) - cut k
  name : g.name = d.name
  /-- cell widths are those of the global patch -/
  width : g.delta = d.delta
  /-- its bounds lie on the global cell edges -/
  lower : ∀ h, d.delta = .ok h → g.lower = d.lower + (cut k : K) * h
  upper : ∀ h, d.delta = .ok h → g.upper = d.lower + (cut (k + 1) : K) * h
  /-- the first process starts at the global lower bound, the last one ends at the global upper bound -/
  start : k = 0 → g.lower = d.lower
  stop : k + 1 = p → g.upper = d.upper
  /-- exactly the outermost processes are on the boundary -/
  onLower : g.onLower = some (decide (k = 0))
  onUpper : g.onUpper = some (decide (k + 1 = p))

end PyClaw.Spec
