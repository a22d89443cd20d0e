import Mathlib.Algebra.Order.Field.Basic
import Mathlib.Data.Int.Cast.Basic

/-! Independent specification of grid coordinates. -/
namespace PyClaw.Spec

variable {K : Type*} [Field K]

/-- `l` is the arithmetic progression `start, start+h, …` of length `len`. -/
def Progression (l : List K) (len : Nat) (start h : K) : Prop :=
  l.length = len ∧ ∀ (k : Nat) (hk : k < l.length), l[k] = start + (k : K) * h

/-- Coordinates of a tensor product grid. `ext` lists `(lower, upper, number of cells)` of each
dimension. The `i`-th array has at index `(j₀, j₁, …)` the value `lower_i + (j_i + off) * delta_i`,
for all indices with `j_m < n_m + extra`, and no value elsewhere.
Cell centres: `off = 1/2`, `extra = 0`. Nodes: `off = 0`, `extra = 1`. -/
def gridCoords (off : K) (extra : Nat) (ext : List (K × K × Int)) : List (List Nat → Option K) :=
  (List.range ext.length).map fun (i : Nat) => fun idx =>
    if List.Forall₂ (fun j (e : K × K × Int) => j < e.2.2.toNat + extra) idx ext then
      match ext[i]?, idx[i]? with
      | some (l, u, n), some j => some (l + ((j : K) + off) * ((u - l) / (n : K)))
      | _, _ => none
    else none

end PyClaw.Spec
