import Verif.Model.ClassicStep

/-!
Operator splitting, independently of the code: a step is a sequence of operations.
-/
namespace PyClaw.Spec

variable {K D : Type*} [Field K]

/-- One sub-step. -/
inductive SplitOp (K : Type*) where
  | source (h : K)
  | hyperbolic (h : K)

/-- The sequence of sub-steps of one time step: Strang splitting for `source_split = 2`, Godunov splitting
for `source_split = 1`, no source otherwise. -/
def splitting (sourceSplit : Int) (hasSource : Bool) (dt : K) : List (SplitOp K) :=
  if hasSource = true ∧ sourceSplit = 2 then [.source (dt / 2), .hyperbolic dt, .source (dt / 2)]
  else if hasSource = true ∧ sourceSplit = 1 then [.hyperbolic dt, .source dt]
  else [.hyperbolic dt]

/-- Performing the operations one after the other at time `t` leads from `d` to `d'` without exception. -/
def Performs (p : ClassicPlug K D) (t : K) : D → List (SplitOp K) → D → Prop
  | d, [], d' => d = d'
  | d, .source h :: ops, d' => ∃ f d1, p.source = some f ∧ f t h d = (d1, .ok ()) ∧ Performs p t d1 ops d'
  | d, .hyperbolic h :: ops, d' => ∃ c d1, p.hyperbolic t h d = (d1, .ok c) ∧ Performs p t d1 ops d'

/-- The data after the given steps, each a full splitting sequence. -/
def Trajectory (p : ClassicPlug K D) : D → List (Attempt K) → D → Prop
  | d, [], d' => d = d'
  | d, a :: as, d' =>
    ∃ d1, Performs p a.tBefore d (splitting p.sourceSplit p.source.isSome a.dt) d1 ∧ Trajectory p d1 as d'

end PyClaw.Spec
