import Verif.Spec.SharpGrid
import Verif.Spec.Symmetry
import Verif.Props.BC

/-!
Specification: SharpClaw problems that are images of each other (C108).
-/
namespace PyClaw
open Spec

variable {K A : Type*} [Field K] [LinearOrder K] {d m w : Nat}

/-- The reconstructions that do not prefer a side: with the componentwise TVD reconstruction, minmod, superbee, van Leer and MC. -/
def EvenRecon (R : ReconCfg K m w) : Prop := R.limType = 1 → ∀ k, R.limEqn k = 1 ∨ R.limEqn k = 2 ∨ R.limEqn k = 3 ∨ R.limEqn k = 4

/-- The total fluctuation solver in other components. -/
def TurnedTotal (T : (Fin m → K) → Fin m → K) (RA : A → A) : TotalFluct K A m → TotalFluct K A m → Prop
  | none, none => True
  | some f, some f' => ∀ ql qr al ar, f' (T ql) (T qr) (RA al) (RA ar) = T (f ql qr al ar)
  | _, _ => False

/-- The total fluctuation solver in a mirror: left and right are exchanged. -/
def MirrorTotal (σ : Fin m → K) (RA : A → A) : TotalFluct K A m → TotalFluct K A m → Prop
  | none, none => True
  | some f, some f' => ∀ ql qr al ar, f' (signed σ qr) (signed σ ql) (RA ar) (RA al) = signed σ (f ql qr al ar)
  | _, _ => False

/-- The second array holds in each cell `x` the image of what the first holds in the cell `cell x`. -/
def ImageOf (m : Nat) (n : Fin d → Nat) (cell : (Fin d → Nat) → Fin d → Nat) (T : (Fin m → K) → Fin m → K) (q q' : GArr (Fin d) K) : Prop :=
  ∀ x : Fin d → Nat, (∀ a, x a < n a) → (fun k : Fin m => q' k.val x) = T fun k => q k.val (cell x)

/-- `f'` does to the image of a cell what `f` does to the cell. -/
def CellImage (m naux : Nat) (n : Fin d → Nat) (cell : (Fin d → Nat) → Fin d → Nat) (T : (Fin m → K) → Fin m → K)
    (RA : (Fin naux → K) → Fin naux → K) (f f' : CellMap (Fin d) K) : Prop :=
  ∀ x : Fin d → Nat, (∀ a, x a < n a) → ∀ u u' a a' : Nat → K, (fun k : Fin m => u' k.val) = T (fun k => u k.val) →
    (fun k : Fin naux => a' k.val) = RA (fun k => a k.val) → (fun k : Fin m => f' x u' a' k.val) = T fun k => f (cell x) u a k.val

/-- A SharpClaw problem on one process with built-in boundary conditions. -/
structure SharpProblem (c : SharpGrid (Fin d) K) (naux : Nat) : Prop where
  admissible : Admissible c.bc
  serial : Serial c.bc
  axes : c.axes = List.finRange d
  numAux : c.bc.numAux = naux

/-- `dq_src` and `before_step` of the second problem do to the image what those of the first problem do. -/
structure SameActions (m naux : Nat) (cell : (Fin d → Nat) → Fin d → Nat) (T : (Fin m → K) → Fin m → K)
    (RA : (Fin naux → K) → Fin naux → K) (c c' : SharpGrid (Fin d) K) : Prop where
  source : (c.source = none ∧ c'.source = none) ∨ ∃ f f', c.source = some f ∧ c'.source = some f' ∧
    ∀ dt t, CellImage m naux c'.bc.n cell T RA (f dt t) (f' dt t)
  before : ∀ t, CellImage m naux c'.bc.n cell T RA (c.before t) (c'.before t)
  stage : ∀ t, CellImage m naux c'.bc.n cell T RA (c.stage t) (c'.stage t)

end PyClaw
