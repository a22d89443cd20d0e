import Verif.Model.Validity
import Mathlib.Data.List.Forall2

/-!
What it means that an array can be handed to Fortran: its elements lie in memory one after the other in Fortran order.
-/
namespace PyClaw.Spec

/-- The position of element `idx` in memory, counted from the first element of the array. -/
def position (strides : List Int) (idx : List Nat) : Int := (List.zipWith (fun (s : Int) (i : Nat) => s * i) strides idx).sum

/-- The number of elements before `idx` in Fortran order (the first index runs fastest). -/
def fortranRank : List Nat → List Nat → Nat
  | n :: shape, i :: idx => i + n * fortranRank shape idx
  | _, _ => 0

/-- The elements lie one after the other in Fortran order. -/
def FortranOrder (a : Layout) : Prop :=
  ∀ idx, List.Forall₂ (· < ·) idx a.shape → position a.strides idx = fortranRank a.shape idx

end PyClaw.Spec
