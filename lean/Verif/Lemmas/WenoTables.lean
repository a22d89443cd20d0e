import Verif.Model.WenoTables
import Mathlib.Data.Rat.Floor
import Mathlib.Tactic.Ring
import Mathlib.Tactic.Linarith
import Mathlib.Tactic.NormNum

/-!
The conditions on the tables of weno.f90 from which C85 follows, checked by the kernel of Lean in rational arithmetic.
-/
namespace PyClaw

/-- `(m+1) 2^(m+1)` times the mean value of `x^m` over cell `a`. -/
def mono2 (a : Int) (m : Nat) : Int := (2 * a + 1) ^ (m + 1) - (2 * a - 1) ^ (m + 1)

/-- The coefficient of `u_m u_n` in the smoothness indicator of `∑ u_m x^m`. -/
def roughCoeff (k m n : Nat) : ℚ :=
  ((List.range k).map fun l => if l = 0 ∨ m < l ∨ n < l then 0 else
    (m.descFactorial l : ℚ) * n.descFactorial l * (mono2 0 (m - l + (n - l)) / ((m - l + (n - l) + 1 : Nat) * 2 ^ (m - l + (n - l) + 1)))).sum

/-- All offsets of a piece lie in its stencil. -/
def stencilOk (k r : Nat) (a : Int) : Prop := -(r : Int) ≤ a ∧ a < k - r

instance (k r : Nat) (a : Int) : Decidable (stencilOk k r a) := by unfold stencilOk; infer_instance

/-- The value that a list of terms gives for the mean values of `x^m`, times `(m+1) 2^(m+1)`. -/
def onMono (l : List (Int × Coef)) (m : Nat) : ℚ := (l.map fun e => e.2.val ℚ * ((mono2 e.1 m : Int) : ℚ)).sum

/-- The terms of `fr` have the right offsets and reproduce `x^m` for `m < k` at `∓1/2`. -/
def WenoTable.FrOk (T : WenoTable) : Prop :=
  ∀ r, r < T.k →
    ((∀ e ∈ T.fr.getD r [], stencilOk T.k r e.1) ∧ ∀ m, m < T.k → onMono (T.fr.getD r []) m = (m + 1 : Nat) * 2 * (-1) ^ m) ∧
    ((∀ e ∈ T.fr.getD (T.k + r) [], stencilOk T.k r e.1) ∧ ∀ m, m < T.k → onMono (T.fr.getD (T.k + r) []) m = (m + 1 : Nat) * 2)

/-- The numerators of `omega` are positive, add up to 1, belong to the right indicator, and the combination reproduces `x^m` for
`m ≤ 2k-2`. -/
def WenoTable.OmegaOk (T : WenoTable) : Prop :=
  (∀ r, r < T.k → (0 < (T.omega.getD r (⟨0, 0, 0, 0⟩, 0)).1.val ℚ ∧ (T.omega.getD r (⟨0, 0, 0, 0⟩, 0)).2 = r) ∧
    0 < (T.omega.getD (T.k + r) (⟨0, 0, 0, 0⟩, 0)).1.val ℚ ∧ (T.omega.getD (T.k + r) (⟨0, 0, 0, 0⟩, 0)).2 = r) ∧
  (((List.range T.k).map fun r => (T.omega.getD r (⟨0, 0, 0, 0⟩, 0)).1.val ℚ).sum = 1 ∧
    ((List.range T.k).map fun r => (T.omega.getD (T.k + r) (⟨0, 0, 0, 0⟩, 0)).1.val ℚ).sum = 1) ∧
  ∀ m, m < 2 * T.k - 1 →
    ((List.range T.k).map fun r => (T.omega.getD r (⟨0, 0, 0, 0⟩, 0)).1.val ℚ * onMono (T.fr.getD r []) m).sum = (m + 1 : Nat) * 2 * (-1) ^ m ∧
    ((List.range T.k).map fun r => (T.omega.getD (T.k + r) (⟨0, 0, 0, 0⟩, 0)).1.val ℚ * onMono (T.fr.getD (T.k + r) []) m).sum = (m + 1 : Nat) * 2

/-- The terms of `sigma` have the right offsets and give the smoothness indicator for all polynomials of degree less than `k`. -/
def WenoTable.SigmaOk (T : WenoTable) : Prop :=
  ∀ r, r < T.k → (∀ e ∈ T.sigma.getD r [], stencilOk T.k r e.1 ∧ stencilOk T.k r e.2.1) ∧
    ∀ n, n < T.k → ∀ m, m < n + 1 →
      ((T.sigma.getD r []).map fun e => e.2.2.val ℚ * (((mono2 e.1 m * mono2 e.2.1 n + mono2 e.1 n * mono2 e.2.1 m : Int)) : ℚ)).sum =
        2 * roughCoeff T.k m n * ((m + 1) * (n + 1) * 2 ^ (m + n + 2) : Nat)

instance (T : WenoTable) : Decidable T.FrOk := by unfold WenoTable.FrOk; infer_instance
instance (T : WenoTable) : Decidable T.OmegaOk := by unfold WenoTable.OmegaOk; infer_instance
instance (T : WenoTable) : Decidable T.SigmaOk := by unfold WenoTable.SigmaOk; infer_instance

theorem weno5_fr : weno5Table.FrOk := by decide +kernel
theorem weno5_omega : weno5Table.OmegaOk := by decide +kernel
theorem weno5_sigma : weno5Table.SigmaOk := by decide +kernel
theorem weno7_fr : weno7Table.FrOk := by decide +kernel
theorem weno7_omega : weno7Table.OmegaOk := by decide +kernel
theorem weno7_sigma : weno7Table.SigmaOk := by decide +kernel
theorem weno9_fr : weno9Table.FrOk := by decide +kernel
theorem weno9_omega : weno9Table.OmegaOk := by decide +kernel
theorem weno9_sigma : weno9Table.SigmaOk := by decide +kernel
theorem weno11_fr : weno11Table.FrOk := by decide +kernel
theorem weno11_omega : weno11Table.OmegaOk := by decide +kernel
theorem weno11_sigma : weno11Table.SigmaOk := by decide +kernel
theorem weno13_fr : weno13Table.FrOk := by decide +kernel
theorem weno13_omega : weno13Table.OmegaOk := by decide +kernel
theorem weno13_sigma : weno13Table.SigmaOk := by decide +kernel
theorem weno15_fr : weno15Table.FrOk := by decide +kernel
theorem weno15_omega : weno15Table.OmegaOk := by decide +kernel
theorem weno15_sigma : weno15Table.SigmaOk := by decide +kernel
theorem weno17_fr : weno17Table.FrOk := by decide +kernel
theorem weno17_omega : weno17Table.OmegaOk := by decide +kernel
theorem weno17_sigma : weno17Table.SigmaOk := by decide +kernel

end PyClaw
