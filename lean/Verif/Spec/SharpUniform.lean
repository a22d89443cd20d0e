import Verif.Model.SharpGrid
import Verif.Spec.Runs
import Verif.Props.BC

/-!
Specification of uniform SharpClaw problems (C113).
-/
namespace PyClaw.Spec

variable {ι K : Type*} [Field K] [LinearOrder K] [DecidableEq ι]

/-- All cells of a grid of `n` cells hold the values `u`. -/
def UniformIn (n : ι → Nat) (q : GArr ι K) (u : Nat → K) : Prop := ∀ k (x : ι → Nat), (∀ a, x a < n a) → q k x = u k

/-- The increment `dq_src` of one cell; zero without a source. -/
def cellSource (c : SharpGrid ι K) (a : Nat → K) (dt t : K) (u : Nat → K) : Nat → K :=
  match c.source with
  | none => 0
  | some f => f dt t (fun _ => 0) u a

/-- The ordinary differential equation of one cell: its right-hand side is `dq_src`, its aux values are `a`. The Courant numbers, which only
decide about the step sizes, are given by `nu`. -/
def cellODE (c : SharpGrid ι K) (a : Nat → K) (nu : K → K → (Nat → K) → K) : SharpEnv K (Nat → K) where
  dq := fun dt t u => (cellSource c a dt t u, nu dt t u)
  stage := fun t u => c.stage t (fun _ => 0) u a
  before := fun t u => c.before t (fun _ => 0) u a

/-- The Courant number of the state in which all cells hold `u`. -/
def uniformCourant (c : SharpGrid ι K) (aux : GArr ι K) (dt t : K) (u : Nat → K) : K := (dqSerial c aux dt t fun k _ => u k).2

/-- What is mirrored at walls is zero: the velocities normal to the walls. -/
def AtRest (bc : BCConfig ι K) (u : Nat → K) : Prop := ∀ a, HasWall bc a → u (bc.reflect a) = 0

/-- A uniform state, without a velocity towards a wall if there are walls. -/
def UniformState (bc : BCConfig ι K) (q : GArr ι K) (u : Nat → K) : Prop := UniformIn bc.n q u ∧ AtRest bc u

/-- A SharpClaw problem on one process with built-in boundary conditions, in any combination, whose `dq_src` and `before_step` do not depend on
the position and do not accelerate the solution towards a wall. -/
structure SharpUniform (d : Nat) (c : SharpGrid (Fin d) K) (naux : Nat) : Prop where
  admissible : Admissible c.bc
  serial : Serial c.bc
  axes : c.axes = List.finRange d
  numAux : c.bc.numAux = naux
  source : ∀ f, c.source = some f → ∀ dt t, (∀ x y, f dt t x = f dt t y) ∧ ∀ x u a, AtRest c.bc u → AtRest c.bc (f dt t x u a)
  before : ∀ t, (∀ x y, c.before t x = c.before t y) ∧ ∀ x u a, AtRest c.bc u → AtRest c.bc (c.before t x u a)
  stage : ∀ t, (∀ x y, c.stage t x = c.stage t y) ∧ ∀ x u a, AtRest c.bc u → AtRest c.bc (c.stage t x u a)

end PyClaw.Spec
