import Verif.Model.SharpGrid
import Verif.Spec.Runs

/-!
Specification of SharpClaw problems on grids (C95, C96).
-/
namespace PyClaw
open Spec

variable {K : Type*} [Field K] [LinearOrder K] {m w d : Nat}

/-- The reconstructions that read at most `g - 1` cells on either side. -/
def ReconOk (g : Nat) (limType charDecomp order : Int) : Prop :=
  (limType = 1 → charDecomp = 0 ∧ 2 ≤ g) ∧ (limType = 2 → 3 ≤ g ∧ order < 2 * g) ∧ (limType = 3 → 3 ≤ g)

/-- Reconstructions that are modelled, and that read at most `g - 1` cells on either side. -/
def ReconCfg.Fits (R : ReconCfg K m w) (g : Nat) : Prop := 1 ≤ g ∧ ReconOk g R.limType R.charDecomp R.order

/-- The options are supported: the reconstruction does not stop. -/
def ReconCfg.Supported (R : ReconCfg K m w) (g : Nat) : Prop :=
  reconRow R (fun _ _ (_ _ : Unit) => ⟨fun _ => 0, fun _ => 0, 0, 0⟩) 1 1 g (fun _ => ()) (fun _ => 0) ≠ none


/-- A SharpClaw problem on a periodic grid whose `dq_src` and `before_step` do not depend on the position. -/
structure SharpPeriodic (c : SharpGrid (Fin d) K) (naux : Nat) : Prop where
  grid : PeriodicGrid c.bc
  axes : c.axes = List.finRange d
  numAux : c.bc.numAux = naux
  source : ∀ f, c.source = some f → ∀ dt t x y, f dt t x = f dt t y
  before : ∀ t x y, c.before t x = c.before t y
  stage : ∀ t x y, c.stage t x = c.stage t y

/-- The second array is the first one translated by `k` cells, with wrap around. -/
def Translated (n : Fin d → Nat) (k : Fin d → Int) (q q' : GArr (Fin d) K) : Prop :=
  ∀ c (x : Fin d → Nat), (∀ a, x a < n a) → q' c x = q c (cellBefore n k x)

end PyClaw
