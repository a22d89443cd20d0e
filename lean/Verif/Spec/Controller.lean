import Verif.Model.Controller

/-!
Specification vocabulary for runs of a controller (C30-C33).
-/
namespace PyClaw.Spec

/-- The successive solutions of a run: from `y`, advance to the next output time, apply the user's hooks,
advance again, … The list holds the solutions right after each advance. -/
def visited {K σ : Type*} (adv : K → σ → σ) (hook : σ → σ) : σ → List K → List σ
  | _, [] => []
  | y, t :: ts => adv t y :: visited adv hook (hook (adv t y)) ts

/-- Files numbered `start, start+1, …` holding the given solutions. -/
def numbered {σ : Type*} (start : Nat) (aux : Bool) (l : List σ) : List (FrameFile σ) :=
  (l.zipIdx start).map fun x => ⟨x.2, aux, x.1⟩

/-- `a = x 0 < … < x N = b`, equally spaced. -/
def Equispaced {K : Type*} [Field K] (a b : K) (N : Nat) (x : Nat → K) : Prop :=
  x 0 = a ∧ x N = b ∧ ∀ i < N, x (i + 1) - x i = (b - a) / N

end PyClaw.Spec
