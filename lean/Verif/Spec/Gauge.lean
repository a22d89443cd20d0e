import Mathlib.Algebra.Order.Field.Basic
import Mathlib.Data.Int.Cast.Basic
import Mathlib.Data.List.Forall2

/-! Specification of gauge placement (C06). `ext` lists `(lower, upper, number of cells)` per
dimension. -/
namespace PyClaw.Spec

variable {K : Type*} [Field K] [LinearOrder K]

/-- The point lies in the half-open box. -/
def InBox (ext : List (K × K × Int)) (x : List K) : Prop :=
  List.Forall₂ (fun (e : K × K × Int) c => e.1 ≤ c ∧ c < e.2.1) ext x

instance (ext : List (K × K × Int)) (x : List K) : Decidable (InBox ext x) := by
  unfold InBox; infer_instance

/-- Cell number `i` of a dimension is `[lower + i*delta, lower + (i+1)*delta)`, `0 ≤ i < n`. -/
def InCell (e : K × K × Int) (i : Int) (c : K) : Prop :=
  0 ≤ i ∧ i < e.2.2 ∧
    e.1 + (i : K) * ((e.2.1 - e.1) / (e.2.2 : K)) ≤ c ∧
    c < e.1 + ((i : K) + 1) * ((e.2.1 - e.1) / (e.2.2 : K))

/-- In every dimension the cell with the given index contains the coordinate. -/
def InCells : List (K × K × Int) → List Int → List K → Prop
  | [], [], [] => True
  | e :: es, i :: is, c :: cs => InCell e i c ∧ InCells es is cs
  | _, _, _ => False

end PyClaw.Spec
