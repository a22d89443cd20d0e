import Verif.Spec.SharpMirror
import Verif.Spec.Walls

/-!
Specification: SharpClaw between walls (C102).
-/
namespace PyClaw.Spec

variable {K : Type*} [Field K] [LinearOrder K] {d m w naux : Nat}

/-- Nothing tells a problem from its image in a wall across axis `a`: not the reconstruction, not the Riemann solver and total fluctuation
solver across the wall, and not those along it. -/
structure OwnImageSharp (bc : BCConfig (Fin d) K) (R : ReconCfg K m w) (rp : Fin d → Riemann K (Fin naux → K) m w)
    (tf : Fin d → TotalFluct K (Fin naux → K) m) (a : Fin d) : Prop where
  recon : EvenRecon R
  mirror : ∃ π, MirrorImage (axisSign bc a m) id π R.fwave (rp a) (rp a)
  total : MirrorTotal (axisSign bc a m) id (tf a) (tf a)
  turned : ∀ b, b ≠ a → ∃ π, TurnedImage (signed (axisSign bc a m)) id π (rp b) (rp b)
  turnedTotal : ∀ b, b ≠ a → TurnedTotal (signed (axisSign bc a m)) id (tf b) (tf b)

end PyClaw.Spec
