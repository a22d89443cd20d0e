import Verif.Spec.Classic1
import Verif.Model.SharpFlux

/-! Vocabulary for the conservation properties of the method of lines. -/
namespace PyClaw.Spec

variable {K A : Type*} [Field K] [LinearOrder K] {m w : Nat}

/-- The numerical flux through the interface of cells `i-1` and `i`: the physical flux of the reconstructed state on the
left plus the left-going fluctuation of the Riemann problem between the reconstructed states. -/
def edgeFlux (fl : (Fin m → K) → A → Fin m → K) (rp : Riemann K A m w) (aux : Int → A) (e : Edges K m) (i : Int) :
    Fin m → K :=
  fl (e.qr (i - 1)) (aux (i - 1)) + (rp (e.qr (i - 1)) (e.ql i) (aux (i - 1)) (aux i)).amdq

/-- The total fluctuation in a cell is the difference of the physical flux between its two edges. -/
def TotalFluctuation (tf : (Fin m → K) → (Fin m → K) → A → A → Fin m → K)
    (fl : (Fin m → K) → A → Fin m → K) : Prop := ∀ ql qr a, tf ql qr a a = fl qr a - fl ql a

/-- The reconstructed states on both sides of the first interface equal those of the last interface, as periodicity
requires; the cells are `lo, …, lo+n-1`. -/
def EdgesMatch (lo : Int) (n : Nat) (e : Edges K m) : Prop :=
  e.qr (lo - 1 + n) = e.qr (lo - 1) ∧ e.ql (lo + n) = e.ql lo

/-- The capacity of a cell with aux values `a`: 1 without a capacity function. -/
def capacity (capa : Option (A → K)) (a : A) : K :=
  match capa with
  | some κ => κ a
  | none => 1

/-- The total over a rectangle of cells `1 … mx`, `1 … my`. -/
def total2 (mx my : Nat) (vol : Int → Int → K) (q : Int → Int → Fin m → K) : Fin m → K :=
  ∑ i ∈ Finset.range mx, ∑ j ∈ Finset.range my, vol (1 + i) (1 + j) • q (1 + i) (1 + j)

/-- The total over a box of cells. -/
def total3 (mx my mz : Nat) (vol : Int → Int → Int → K) (q : Int → Int → Int → Fin m → K) : Fin m → K :=
  ∑ i ∈ Finset.range mx, ∑ j ∈ Finset.range my, ∑ k ∈ Finset.range mz,
    vol (1 + i) (1 + j) (1 + k) • q (1 + i) (1 + j) (1 + k)

end PyClaw.Spec
