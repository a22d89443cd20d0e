import Verif.Props.Classic1
import Verif.Model.SharpFlux

/-!
C80: the first-order method of SharpClaw with forward Euler is the first-order method of the classic solver.
-/
set_option linter.unusedSectionVars false

namespace PyClaw
open Spec

variable {K A : Type*} [Field K] [LinearOrder K] [IsStrictOrderedRing K] {m w : Nat}

/-- C80. With `lim_type = -1` and forward Euler a SharpClaw step of the Python kernel gives the values and the Courant
number of the classic Python step of order 1, for every Riemann solver that sends no waves between equal states, with or
without capacity function, whatever `char_decomp` is and whatever limiters and f-wave flag the classic solver has. -/
theorem C80_first_order (eps tol : K) (tab : Int → Option (LimFun K)) (rp : Riemann K A m w) (hrp : Quiet rp)
    (c : Cfg1 K w) (ho : c.order = 1) (charDecomp : Int) (capa : Option (A → K)) (aux : Int → A) (q : Int → Fin m → K) :
    ∃ dq cfl, pyDqHyperbolic eps tol rp ⟨c.n, c.g, c.dt, c.dx⟩ (-1) charDecomp capa aux q = .ok (dq, cfl) ∧
      cfl = (pyStep1 tab rp c capa aux q).2 ∧
      ∀ i : Int, c.g ≤ i → i < c.g + c.n → q i + dq i = (pyStep1 tab rp c capa aux q).1 i := by
  have ho2 : ¬ c.order = 2 := by omega
  have hd : dtdxOf c (capa.map fun κ i => κ (aux i)) = fun i => match capa with
      | some κ => c.dt / (c.dx * κ (aux i))
      | none => c.dt / c.dx := by
    funext i
    cases capa <;> rfl
  have eu : (c.g : Int) + c.n + 1 = c.n + c.g + 1 := by ring
  refine ⟨_, _, rfl, ?_, fun i h1 h2 => ?_⟩
  · simp only [pyStep1, pyKernel]
    rw [if_neg ho2, hd, eu]
    rfl
  · simp only [pyStep1, pyKernel]
    rw [if_neg ho2, hd, if_pos (by omega)]
    simp only [pyGodunov]
    rw [if_pos (by omega), if_pos (by omega), (hrp (q i) (aux i) (aux i)).2.1, (hrp (q i) (aux i) (aux i)).2.2]
    cases capa <;> module

/-- A case in which something moves: advection to the right, four cells of size 1, `dt = 1/2`. -/
example : ∃ dq cfl, pyDqHyperbolic (1 / 10 ^ 36) (1 / 10 ^ 14) (advectionRp (1 : ℚ)) ⟨4, 2, 1 / 2, 1⟩ (-1) 0 none
      (fun _ => ()) (fun i _ => if i ≤ 3 then 1 else 0) = .ok (dq, cfl) ∧ cfl = 1 / 2 ∧ dq 3 0 = 0 ∧ dq 4 0 = 1 / 2 := by
  refine ⟨_, _, rfl, ?_, ?_, ?_⟩ <;> decide +kernel

example : Quiet (advectionRp (1 : ℚ)) := advectionRp_quiet 1

end PyClaw
