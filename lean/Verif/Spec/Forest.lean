import Verif.Spec.Ascii
import Verif.Model.Forest

/-! Specification of the ForestClaw format and of the ASCII format beside it (C100). -/
namespace PyClaw.Spec

/-- A solution that the formats support, and whose patches are all of PyClaw (`kind = false`) or all of ForestClaw. -/
structure FWritable {D M : Type} (forest : Bool) (sol : FSol D M) : Prop where
  writable : Writable ⟨sol.map FState.st, some (sol.map fun s => s.st.patch)⟩
  kind : ∀ s ∈ sol, s.ids.isSome = forest

/-- A state and what is read back: as for the ASCII format, and the block number and the MPI rank. -/
def SameFState {D M : Type} (s s' : FState D M) : Prop := SameState s.st s'.st ∧ s'.ids = s.ids

/-- The call writes frame `frame`. -/
def Writes {D M : Type} (frame : Nat) : TextOp D M → Prop
  | .write _ _ f => f = frame
  | .read _ _ => False

/-- The call asks for the format of ForestClaw. -/
def AsksForest {D M : Type} : TextOp D M → Prop
  | .write f _ _ => f = .forestclaw
  | .read f _ => f = .forestclaw

end PyClaw.Spec
