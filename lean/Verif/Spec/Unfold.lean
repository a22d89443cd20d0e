import Verif.Spec.Symmetry
import Verif.Spec.Walls
import Verif.Spec.SharpWalls

/-!
Images behind a wall, on grids of any number of dimensions.
-/
namespace PyClaw.Spec

variable {K : Type*} {ι : Type*} [DecidableEq ι]

/-- The grid continued by its image behind its upper end along axis `a`: twice as many cells along that axis, and at its upper end the
condition of its lower end. -/
def unfoldAxis (a : ι) (bc : BCConfig ι K) : BCConfig ι K :=
  { bc with
    n := Function.update bc.n a (2 * bc.n a)
    bcUpper := Function.update bc.bcUpper a (bc.bcLower a)
    auxUpper := Function.update bc.auxUpper a (bc.auxLower a) }

/-- The second array is the first one on its cells, and behind them along axis `a` its image: read backwards, with the signs `ρ`. -/
def UnfoldedArray [Mul K] (m : Nat) (n : ι → Nat) (a : ι) (ρ : Fin m → K) (q q' : GArr ι K) : Prop :=
  ∀ x : ι → Nat, (∀ b, x b < n b) → ∀ k : Fin m,
    q' k.val x = q k.val x ∧ q' k.val (Function.update x a (2 * n a - 1 - x a)) = ρ k * q k.val x

/-- The same for the solution and for the aux values, of which none changes sign. -/
def UnfoldedAlong [Mul K] [One K] (m naux : Nat) (n : ι → Nat) (a : ι) (ρ : Fin m → K) (d d' : GArr ι K × GArr ι K × BCArrays ι K) : Prop :=
  UnfoldedArray m n a ρ d.1 d'.1 ∧ UnfoldedArray naux n a (fun _ => 1) d.2.1 d'.2.1

/-- `f'` does in the cells of the first grid what `f` does, and in their images the image of it. -/
def UnfoldedMap [Mul K] (m naux : Nat) (n : ι → Nat) (a : ι) (ρ : Fin m → K) (f f' : CellMap ι K) : Prop :=
  ∀ x : ι → Nat, (∀ b, x b < n b) → ∀ u u' e e' : Nat → K, (∀ k : Fin naux, e' k.val = e k.val) →
    ((∀ k : Fin m, u' k.val = u k.val) → ∀ k : Fin m, f' x u' e' k.val = f x u e k.val) ∧
    ((∀ k : Fin m, u' k.val = ρ k * u k.val) → ∀ k : Fin m, f' (Function.update x a (2 * n a - 1 - x a)) u' e' k.val = ρ k * f x u e k.val)

/-- `dq_src`, `before_step` and the function called before each stage do in the cells of the first grid the same for both problems, and in
their images the image of it. -/
structure UnfoldedActions [Mul K] (m naux : Nat) (a : ι) (ρ : Fin m → K) (c c' : SharpGrid ι K) : Prop where
  source : (c.source = none ∧ c'.source = none) ∨ ∃ f f', c.source = some f ∧ c'.source = some f' ∧
    ∀ dt t, UnfoldedMap m naux c.bc.n a ρ (f dt t) (f' dt t)
  before : ∀ t, UnfoldedMap m naux c.bc.n a ρ (c.before t) (c'.before t)
  stage : ∀ t, UnfoldedMap m naux c.bc.n a ρ (c.stage t) (c'.stage t)

end PyClaw.Spec
