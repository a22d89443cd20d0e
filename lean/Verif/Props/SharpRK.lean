import Verif.Model.SharpRK
import Verif.Spec.SharpRK
import Mathlib.Tactic.Ring
import Mathlib.Tactic.Linarith
import Mathlib.Tactic.FieldSimp
import Mathlib.Tactic.Positivity
import Mathlib.Tactic.Module
import Mathlib.Tactic.FinCases
import Mathlib.Tactic.NormNum
import Mathlib.Algebra.Module.LinearMap.Basic
import Mathlib.Algebra.Module.BigOperators
import Mathlib.Algebra.Order.Module.Defs
set_option linter.unusedSectionVars false
set_option linter.unusedSimpArgs false

/-!
# SharpClaw Runge-Kutta integrators (C47, C48)
-/
namespace PyClaw
open Spec

variable {K E : Type*} [Field K] [AddCommGroup E] [Module K E]

/-- The problem `q' = f(t, q)` without a stage callback. -/
def odeRhs (f : K → E → E) : SharpRhs K E := ⟨fun dt t q => dt • f t q, fun _ q => q⟩

/-- The tableaux the solver implements. -/
def tabEuler : Tableau K 1 := ⟨fun _ _ => 0, fun _ => 1⟩
def tab22 : Tableau K 2 := ⟨fun i j => if j.val < i.val then 1 else 0, fun _ => 1 / 2⟩
def tab33 : Tableau K 3 :=
  ⟨fun i j => if j.val < i.val then (if i.val = 1 then 1 else 1 / 4) else 0, fun i => if i.val = 2 then 2 / 3 else 1 / 6⟩
def tab104 : Tableau K 10 :=
  ⟨fun i j => if j.val < i.val then (if i.val < 5 then 1 / 6 else if j.val < 5 then 1 / 15 else 1 / 6) else 0,
    fun _ => 1 / 10⟩

variable [CharZero K]

theorem euler_step (f : K → E → E) (dt t : K) (q : E) : tabEuler.Step f dt t q (eulerStep dt (f t q) q) := by
  refine ⟨fun _ => f t q, fun i => ?_, ?_⟩
  · simp [tabEuler, Tableau.c]
  · simp [tabEuler, eulerStep]

theorem ssp22_step (f : K → E → E) (dt t : K) (q : E) :
    tab22.Step f dt t q (ssp22Step (odeRhs f) dt t (f t q) q) := by
  refine ⟨![f t q, f (t + dt) (q + dt • f t q)], fun i => ?_, ?_⟩
  · fin_cases i
    · simp [tab22, Tableau.c]
    · simp [tab22, Tableau.c]
  · simp [tab22, ssp22Step, odeRhs]
    module

theorem ssp33_step (f : K → E → E) (dt t : K) (q : E) :
    tab33.Step f dt t q (ssp33Step (odeRhs f) dt t (f t q) q) := by
  unfold ssp33Step
  simp only [odeRhs]
  set k0 := f t q with hk0
  set k1 := f (t + dt) (q + dt • k0) with hk1
  set k2 := f (t + 1 / 2 * dt) ((3 / 4 : K) • q + (1 / 4 : K) • (q + dt • k0 + dt • k1)) with hk2
  refine ⟨![k0, k1, k2], fun i => ?_, ?_⟩
  · fin_cases i
    · show k0 = _
      rw [hk0]
      refine congrArg₂ f ?_ ?_ <;> simp [tab33, Tableau.c]
    · show k1 = _
      rw [hk1]
      refine congrArg₂ f ?_ ?_ <;> simp [tab33, Tableau.c]
    · show k2 = _
      rw [hk2]
      refine congrArg₂ f ?_ ?_
      · have h : (tab33 (K := K)).c 2 = 1 / 2 := by
          unfold Tableau.c; rw [Fin.sum_univ_three]; simp [tab33]; norm_num
        show _ = t + tab33.c 2 * dt
        rw [h]
      · simp [tab33, Fin.sum_univ_succ]; module
  · simp [tab33, Fin.sum_univ_succ]; module

theorem sum10 {M : Type*} [AddCommMonoid M] (g : Fin 10 → M) :
    ∑ j, g j = g 0 + g 1 + g 2 + g 3 + g 4 + g 5 + g 6 + g 7 + g 8 + g 9 := by
  simp only [Fin.sum_univ_succ, Finset.univ_eq_empty, Finset.sum_empty]
  simp only [Fin.reduceSucc, add_zero]
  abel

/-- The coefficients of the tableau, evaluated. -/
theorem tab104_a (i j : Nat) (hi : i < 10) (hj : j < 10) :
    (tab104 (K := K)).a ⟨i, hi⟩ ⟨j, hj⟩ =
      if j < i then (if i < 5 then 1 / 6 else if j < 5 then 1 / 15 else 1 / 6) else 0 := rfl

theorem row104_0 (g : Fin 10 → E) : ∑ j, (tab104 (K := K)).a 0 j • g j = 0 := by
  rw [sum10]; simp [tab104]

theorem abs104_0 : (tab104 (K := K)).c 0 = 0 := by
  unfold Tableau.c; rw [sum10]; simp [tab104]

theorem row104_1 (g : Fin 10 → E) : ∑ j, (tab104 (K := K)).a 1 j • g j = (1/6 : K) • g 0 := by
  rw [sum10]; simp [tab104]

theorem abs104_1 : (tab104 (K := K)).c 1 = (1/6 : K) := by
  unfold Tableau.c; rw [sum10]; simp [tab104]

theorem row104_2 (g : Fin 10 → E) : ∑ j, (tab104 (K := K)).a 2 j • g j = (1/6 : K) • g 0 + (1/6 : K) • g 1 := by
  rw [sum10]; simp [tab104]

theorem abs104_2 : (tab104 (K := K)).c 2 = (1/6 : K) + (1/6 : K) := by
  unfold Tableau.c; rw [sum10]; simp [tab104]

theorem row104_3 (g : Fin 10 → E) : ∑ j, (tab104 (K := K)).a 3 j • g j = (1/6 : K) • g 0 + (1/6 : K) • g 1 + (1/6 : K) • g 2 := by
  rw [sum10]; simp [tab104]

theorem abs104_3 : (tab104 (K := K)).c 3 = (1/6 : K) + (1/6 : K) + (1/6 : K) := by
  unfold Tableau.c; rw [sum10]; simp [tab104]

theorem row104_4 (g : Fin 10 → E) : ∑ j, (tab104 (K := K)).a 4 j • g j = (1/6 : K) • g 0 + (1/6 : K) • g 1 + (1/6 : K) • g 2 + (1/6 : K) • g 3 := by
  rw [sum10]; simp [tab104]

theorem abs104_4 : (tab104 (K := K)).c 4 = (1/6 : K) + (1/6 : K) + (1/6 : K) + (1/6 : K) := by
  unfold Tableau.c; rw [sum10]; simp [tab104]

theorem row104_5 (g : Fin 10 → E) : ∑ j, (tab104 (K := K)).a 5 j • g j = (1/15 : K) • g 0 + (1/15 : K) • g 1 + (1/15 : K) • g 2 + (1/15 : K) • g 3 + (1/15 : K) • g 4 := by
  rw [sum10]; simp [tab104]

theorem abs104_5 : (tab104 (K := K)).c 5 = (1/15 : K) + (1/15 : K) + (1/15 : K) + (1/15 : K) + (1/15 : K) := by
  unfold Tableau.c; rw [sum10]; simp [tab104]

theorem row104_6 (g : Fin 10 → E) : ∑ j, (tab104 (K := K)).a 6 j • g j = (1/15 : K) • g 0 + (1/15 : K) • g 1 + (1/15 : K) • g 2 + (1/15 : K) • g 3 + (1/15 : K) • g 4 + (1/6 : K) • g 5 := by
  rw [sum10]; simp [tab104]

theorem abs104_6 : (tab104 (K := K)).c 6 = (1/15 : K) + (1/15 : K) + (1/15 : K) + (1/15 : K) + (1/15 : K) + (1/6 : K) := by
  unfold Tableau.c; rw [sum10]; simp [tab104]

theorem row104_7 (g : Fin 10 → E) : ∑ j, (tab104 (K := K)).a 7 j • g j = (1/15 : K) • g 0 + (1/15 : K) • g 1 + (1/15 : K) • g 2 + (1/15 : K) • g 3 + (1/15 : K) • g 4 + (1/6 : K) • g 5 + (1/6 : K) • g 6 := by
  rw [sum10]; simp [tab104]

theorem abs104_7 : (tab104 (K := K)).c 7 = (1/15 : K) + (1/15 : K) + (1/15 : K) + (1/15 : K) + (1/15 : K) + (1/6 : K) + (1/6 : K) := by
  unfold Tableau.c; rw [sum10]; simp [tab104]

theorem row104_8 (g : Fin 10 → E) : ∑ j, (tab104 (K := K)).a 8 j • g j = (1/15 : K) • g 0 + (1/15 : K) • g 1 + (1/15 : K) • g 2 + (1/15 : K) • g 3 + (1/15 : K) • g 4 + (1/6 : K) • g 5 + (1/6 : K) • g 6 + (1/6 : K) • g 7 := by
  rw [sum10]; simp [tab104]

theorem abs104_8 : (tab104 (K := K)).c 8 = (1/15 : K) + (1/15 : K) + (1/15 : K) + (1/15 : K) + (1/15 : K) + (1/6 : K) + (1/6 : K) + (1/6 : K) := by
  unfold Tableau.c; rw [sum10]; simp [tab104]

theorem row104_9 (g : Fin 10 → E) : ∑ j, (tab104 (K := K)).a 9 j • g j = (1/15 : K) • g 0 + (1/15 : K) • g 1 + (1/15 : K) • g 2 + (1/15 : K) • g 3 + (1/15 : K) • g 4 + (1/6 : K) • g 5 + (1/6 : K) • g 6 + (1/6 : K) • g 7 + (1/6 : K) • g 8 := by
  rw [sum10]; simp [tab104]

theorem abs104_9 : (tab104 (K := K)).c 9 = (1/15 : K) + (1/15 : K) + (1/15 : K) + (1/15 : K) + (1/15 : K) + (1/6 : K) + (1/6 : K) + (1/6 : K) + (1/6 : K) := by
  unfold Tableau.c; rw [sum10]; simp [tab104]

theorem mrow104_0 (g : Fin 10 → K) : ∑ j, (tab104 (K := K)).a 0 j * g j = 0 := by
  have := row104_0 (K := K) (E := K) g
  simpa only [smul_eq_mul] using this

theorem mrow104_1 (g : Fin 10 → K) : ∑ j, (tab104 (K := K)).a 1 j * g j = (1/6 : K) * g 0 := by
  have := row104_1 (K := K) (E := K) g
  simpa only [smul_eq_mul] using this

theorem mrow104_2 (g : Fin 10 → K) : ∑ j, (tab104 (K := K)).a 2 j * g j = (1/6 : K) * g 0 + (1/6 : K) * g 1 := by
  have := row104_2 (K := K) (E := K) g
  simpa only [smul_eq_mul] using this

theorem mrow104_3 (g : Fin 10 → K) : ∑ j, (tab104 (K := K)).a 3 j * g j = (1/6 : K) * g 0 + (1/6 : K) * g 1 + (1/6 : K) * g 2 := by
  have := row104_3 (K := K) (E := K) g
  simpa only [smul_eq_mul] using this

theorem mrow104_4 (g : Fin 10 → K) : ∑ j, (tab104 (K := K)).a 4 j * g j = (1/6 : K) * g 0 + (1/6 : K) * g 1 + (1/6 : K) * g 2 + (1/6 : K) * g 3 := by
  have := row104_4 (K := K) (E := K) g
  simpa only [smul_eq_mul] using this

theorem mrow104_5 (g : Fin 10 → K) : ∑ j, (tab104 (K := K)).a 5 j * g j = (1/15 : K) * g 0 + (1/15 : K) * g 1 + (1/15 : K) * g 2 + (1/15 : K) * g 3 + (1/15 : K) * g 4 := by
  have := row104_5 (K := K) (E := K) g
  simpa only [smul_eq_mul] using this

theorem mrow104_6 (g : Fin 10 → K) : ∑ j, (tab104 (K := K)).a 6 j * g j = (1/15 : K) * g 0 + (1/15 : K) * g 1 + (1/15 : K) * g 2 + (1/15 : K) * g 3 + (1/15 : K) * g 4 + (1/6 : K) * g 5 := by
  have := row104_6 (K := K) (E := K) g
  simpa only [smul_eq_mul] using this

theorem mrow104_7 (g : Fin 10 → K) : ∑ j, (tab104 (K := K)).a 7 j * g j = (1/15 : K) * g 0 + (1/15 : K) * g 1 + (1/15 : K) * g 2 + (1/15 : K) * g 3 + (1/15 : K) * g 4 + (1/6 : K) * g 5 + (1/6 : K) * g 6 := by
  have := row104_7 (K := K) (E := K) g
  simpa only [smul_eq_mul] using this

theorem mrow104_8 (g : Fin 10 → K) : ∑ j, (tab104 (K := K)).a 8 j * g j = (1/15 : K) * g 0 + (1/15 : K) * g 1 + (1/15 : K) * g 2 + (1/15 : K) * g 3 + (1/15 : K) * g 4 + (1/6 : K) * g 5 + (1/6 : K) * g 6 + (1/6 : K) * g 7 := by
  have := row104_8 (K := K) (E := K) g
  simpa only [smul_eq_mul] using this

theorem mrow104_9 (g : Fin 10 → K) : ∑ j, (tab104 (K := K)).a 9 j * g j = (1/15 : K) * g 0 + (1/15 : K) * g 1 + (1/15 : K) * g 2 + (1/15 : K) * g 3 + (1/15 : K) * g 4 + (1/6 : K) * g 5 + (1/6 : K) * g 6 + (1/6 : K) * g 7 + (1/6 : K) * g 8 := by
  have := row104_9 (K := K) (E := K) g
  simpa only [smul_eq_mul] using this

theorem ssp104_step (f : K → E → E) (dt t : K) (q : E) :
    tab104.Step f dt t q (ssp104Step (odeRhs f) dt t (f t q) q) := by
  unfold ssp104Step ssp104Loop ssp104Stage
  simp only [odeRhs]
  set k0 := f t q with hk0
  set y1 := q + (1 / 6 : K) • dt • k0 with hy1
  set k1 := f (t + dt / 6) y1 with hk1
  set y2 := y1 + (1 / 6 : K) • dt • k1 with hy2
  set k2 := f (t + dt / 6 + dt / 6) y2 with hk2
  set y3 := y2 + (1 / 6 : K) • dt • k2 with hy3
  set k3 := f (t + dt / 6 + dt / 6 + dt / 6) y3 with hk3
  set y4 := y3 + (1 / 6 : K) • dt • k3 with hy4
  set k4 := f (t + dt / 6 + dt / 6 + dt / 6 + dt / 6) y4 with hk4
  set y5 := y4 + (1 / 6 : K) • dt • k4 with hy5
  set y6 := (15 : K) • ((1 / 25 : K) • q + (36 / 100 : K) • y5) - (5 : K) • y5 with hy6
  set k5 := f (t + dt / 3) y6 with hk5
  set y7 := y6 + (1 / 6 : K) • dt • k5 with hy7
  set k6 := f (t + dt / 3 + dt / 6) y7 with hk6
  set y8 := y7 + (1 / 6 : K) • dt • k6 with hy8
  set k7 := f (t + dt / 3 + dt / 6 + dt / 6) y8 with hk7
  set y9 := y8 + (1 / 6 : K) • dt • k7 with hy9
  set k8 := f (t + dt / 3 + dt / 6 + dt / 6 + dt / 6) y9 with hk8
  set y10 := y9 + (1 / 6 : K) • dt • k8 with hy10
  set k9 := f (t + dt / 3 + dt / 6 + dt / 6 + dt / 6 + dt / 6) y10 with hk9
  refine ⟨![k0, k1, k2, k3, k4, k5, k6, k7, k8, k9], fun i => ?_, ?_⟩
  · fin_cases i
    · refine congrArg₂ f ?_ ?_
      · show _ = t + (tab104 (K := K)).c 0 * dt
        rw [abs104_0]; ring
      · show _ = q + dt • ∑ j, (tab104 (K := K)).a 0 j • _
        rw [row104_0]
        show _ = q + dt • (0)
        simp
    · refine congrArg₂ f ?_ ?_
      · show _ = t + (tab104 (K := K)).c 1 * dt
        rw [abs104_1]; ring
      · show _ = q + dt • ∑ j, (tab104 (K := K)).a 1 j • _
        rw [row104_1]
        show _ = q + dt • ((1/6 : K) • k0)
        rw [hy1]; module
    · refine congrArg₂ f ?_ ?_
      · show _ = t + (tab104 (K := K)).c 2 * dt
        rw [abs104_2]; ring
      · show _ = q + dt • ∑ j, (tab104 (K := K)).a 2 j • _
        rw [row104_2]
        show _ = q + dt • ((1/6 : K) • k0 + (1/6 : K) • k1)
        rw [hy2, hy1]; module
    · refine congrArg₂ f ?_ ?_
      · show _ = t + (tab104 (K := K)).c 3 * dt
        rw [abs104_3]; ring
      · show _ = q + dt • ∑ j, (tab104 (K := K)).a 3 j • _
        rw [row104_3]
        show _ = q + dt • ((1/6 : K) • k0 + (1/6 : K) • k1 + (1/6 : K) • k2)
        rw [hy3, hy2, hy1]; module
    · refine congrArg₂ f ?_ ?_
      · show _ = t + (tab104 (K := K)).c 4 * dt
        rw [abs104_4]; ring
      · show _ = q + dt • ∑ j, (tab104 (K := K)).a 4 j • _
        rw [row104_4]
        show _ = q + dt • ((1/6 : K) • k0 + (1/6 : K) • k1 + (1/6 : K) • k2 + (1/6 : K) • k3)
        rw [hy4, hy3, hy2, hy1]; module
    · refine congrArg₂ f ?_ ?_
      · show _ = t + (tab104 (K := K)).c 5 * dt
        rw [abs104_5]; ring
      · show _ = q + dt • ∑ j, (tab104 (K := K)).a 5 j • _
        rw [row104_5]
        show _ = q + dt • ((1/15 : K) • k0 + (1/15 : K) • k1 + (1/15 : K) • k2 + (1/15 : K) • k3 + (1/15 : K) • k4)
        rw [hy6, hy5, hy4, hy3, hy2, hy1]; module
    · refine congrArg₂ f ?_ ?_
      · show _ = t + (tab104 (K := K)).c 6 * dt
        rw [abs104_6]; ring
      · show _ = q + dt • ∑ j, (tab104 (K := K)).a 6 j • _
        rw [row104_6]
        show _ = q + dt • ((1/15 : K) • k0 + (1/15 : K) • k1 + (1/15 : K) • k2 + (1/15 : K) • k3 + (1/15 : K) • k4 + (1/6 : K) • k5)
        rw [hy7, hy6, hy5, hy4, hy3, hy2, hy1]; module
    · refine congrArg₂ f ?_ ?_
      · show _ = t + (tab104 (K := K)).c 7 * dt
        rw [abs104_7]; ring
      · show _ = q + dt • ∑ j, (tab104 (K := K)).a 7 j • _
        rw [row104_7]
        show _ = q + dt • ((1/15 : K) • k0 + (1/15 : K) • k1 + (1/15 : K) • k2 + (1/15 : K) • k3 + (1/15 : K) • k4 + (1/6 : K) • k5 + (1/6 : K) • k6)
        rw [hy8, hy7, hy6, hy5, hy4, hy3, hy2, hy1]; module
    · refine congrArg₂ f ?_ ?_
      · show _ = t + (tab104 (K := K)).c 8 * dt
        rw [abs104_8]; ring
      · show _ = q + dt • ∑ j, (tab104 (K := K)).a 8 j • _
        rw [row104_8]
        show _ = q + dt • ((1/15 : K) • k0 + (1/15 : K) • k1 + (1/15 : K) • k2 + (1/15 : K) • k3 + (1/15 : K) • k4 + (1/6 : K) • k5 + (1/6 : K) • k6 + (1/6 : K) • k7)
        rw [hy9, hy8, hy7, hy6, hy5, hy4, hy3, hy2, hy1]; module
    · refine congrArg₂ f ?_ ?_
      · show _ = t + (tab104 (K := K)).c 9 * dt
        rw [abs104_9]; ring
      · show _ = q + dt • ∑ j, (tab104 (K := K)).a 9 j • _
        rw [row104_9]
        show _ = q + dt • ((1/15 : K) • k0 + (1/15 : K) • k1 + (1/15 : K) • k2 + (1/15 : K) • k3 + (1/15 : K) • k4 + (1/6 : K) • k5 + (1/6 : K) • k6 + (1/6 : K) • k7 + (1/6 : K) • k8)
        rw [hy10, hy9, hy8, hy7, hy6, hy5, hy4, hy3, hy2, hy1]; module
  · have hb : ∑ i, (tab104 (K := K)).b i • (![k0, k1, k2, k3, k4, k5, k6, k7, k8, k9] : Fin 10 → E) i =
        (1 / 10 : K) • (k0 + k1 + k2 + k3 + k4 + k5 + k6 + k7 + k8 + k9) := by
      rw [sum10]
      show (1 / 10 : K) • k0 + (1 / 10 : K) • k1 + (1 / 10 : K) • k2 + (1 / 10 : K) • k3 + (1 / 10 : K) • k4
        + (1 / 10 : K) • k5 + (1 / 10 : K) • k6 + (1 / 10 : K) • k7 + (1 / 10 : K) • k8 + (1 / 10 : K) • k9 = _
      module
    rw [hb, hy10, hy9, hy8, hy7, hy6, hy5, hy4, hy3, hy2, hy1]
    module

/-! ### The general method -/

theorem foldl_zipIdx_add (w : Nat → K) (acc : E) (regs : List E) (o : Nat) :
    (regs.zipIdx o).foldl (fun s r => s + w r.2 • r.1) acc = acc + ∑ j : Fin regs.length, w (o + j) • regs[j] := by
  induction regs generalizing acc o with
  | nil => simp
  | cons x xs ih =>
    rw [List.zipIdx_cons, List.foldl_cons, ih]
    show acc + w o • x + _ = acc + ∑ j : Fin (xs.length + 1), w (o + j) • (x :: xs)[j]
    rw [Fin.sum_univ_succ, ← add_assoc]
    congr 1
    refine Finset.sum_congr rfl fun j _ => ?_
    simp only [Fin.val_succ]
    rw [show o + 1 + (j : Nat) = o + (j + 1) by omega]
    rfl

theorem addRegisters_eq (w : Nat → K) (acc : E) (regs : List E) :
    addRegisters w acc regs = acc + ∑ j : Fin regs.length, w j • regs[j] := by
  unfold addRegisters
  rw [foldl_zipIdx_add]; simp

theorem rkStages_spec (p : SharpRhs K E) (a : Nat → Nat → K) (c : Nat → K) (dt t : K) (q : E) (n : Nat)
    (regs : List E) :
    (rkStages p a c dt t q n regs).length = regs.length + n ∧
    (rkStages p a c dt t q n regs).take regs.length = regs ∧
    ∀ i, regs.length ≤ i → i < (rkStages p a c dt t q n regs).length →
      (rkStages p a c dt t q n regs)[i]? =
        some (p.dq dt (t + dt * c i) (addRegisters (a i) (p.stage (t + dt * c i) q) ((rkStages p a c dt t q n regs).take i))) := by
  induction n generalizing regs with
  | zero => exact ⟨rfl, by simp [rkStages], fun i h1 h2 => by simp only [rkStages] at h2; omega⟩
  | succ n ih =>
    obtain ⟨h1, h2, h3⟩ := ih (regs ++ [p.dq dt (t + dt * c regs.length)
      (addRegisters (a regs.length) (p.stage (t + dt * c regs.length) q) regs)])
    rw [List.length_append, List.length_singleton] at h1 h2 h3
    simp only [rkStages]
    generalize rkStages p a c dt t q n _ = R at *
    have hpre : R.take regs.length = regs := by
      have := congrArg (List.take regs.length) h2
      rw [List.take_take, min_eq_left (by omega), List.take_append_of_le_length (le_refl _), List.take_length] at this
      exact this
    refine ⟨by rw [h1]; omega, hpre, fun i hi hlt => ?_⟩
    rcases Nat.lt_or_ge regs.length i with hgt | hle
    · exact h3 i (by omega) hlt
    · obtain rfl : i = regs.length := by omega
      rw [hpre]
      have : R[regs.length]? = (R.take (regs.length + 1))[regs.length]? := by simp
      rw [this, h2]
      simp

/-- The general method of the code is the Runge-Kutta method with the given coefficients, if these are
explicit and `c` are the row sums. -/
theorem rk_step {n : Nat} (T : Tableau K (n + 1)) (hT : T.Explicit) (a : Nat → Nat → K) (b c : Nat → K)
    (ha : ∀ i j : Fin (n + 1), a i j = T.a i j) (hb : ∀ i : Fin (n + 1), b i = T.b i)
    (hc : ∀ i : Fin (n + 1), c i = T.c i) (f : K → E → E) (dt t : K) (q : E) :
    T.Step f dt t q (rkStep (odeRhs f) a b c (n + 1) dt t (f t q) q) := by
  unfold rkStep
  simp only [Nat.add_sub_cancel]
  obtain ⟨h1, h2, h3⟩ := rkStages_spec (odeRhs f) a c dt t q n [dt • f t q]
  generalize rkStages (odeRhs f) a c dt t q n [dt • f t q] = R at *
  simp only [List.length_singleton] at h1 h2 h3
  have hlen : R.length = n + 1 := by omega
  let k : Fin (n + 1) → E := fun i => f (t + dt * c i) (addRegisters (a i) q (R.take i))
  have hc0 : c 0 = 0 := by
    have := hc 0
    simp only [Fin.val_zero] at this
    rw [this]
    unfold Tableau.c
    exact Finset.sum_eq_zero fun j _ => hT 0 j (Fin.zero_le j)
  have hk : ∀ i : Fin (n + 1), R[i.val]'(by rw [hlen]; exact i.isLt) = dt • k i := by
    intro i
    rcases Nat.eq_zero_or_pos i.val with h0 | hpos
    · have hi : i = 0 := Fin.ext h0
      subst hi
      have e : R[0]'(by omega) = (R.take 1)[0]'(by rw [h2]; simp) := by simp
      show R[0] = dt • f (t + dt * c 0) (addRegisters (a 0) q (R.take 0))
      rw [e, hc0]
      simp only [h2]
      simp [addRegisters]
    · have := h3 i.val hpos (by rw [hlen]; exact i.isLt)
      rw [List.getElem?_eq_getElem (by rw [hlen]; exact i.isLt), Option.some.injEq] at this
      rw [this]
      rfl
  have hadd : ∀ (w : Nat → K) (i : Nat) (hi : i ≤ n + 1), addRegisters w q (R.take i) =
      q + dt • ∑ j : Fin (n + 1), (if j.val < i then w j else 0) • k j := by
    intro w i hi
    rw [addRegisters_eq]
    congr 1
    rw [Finset.smul_sum]
    have hl : (R.take i).length = i := by rw [List.length_take, hlen]; omega
    have e1 : ∑ j : Fin (R.take i).length, w j • (R.take i)[j] =
        ∑ j : Fin i, w j • (dt • k ⟨j.val, by omega⟩) := by
      refine Fintype.sum_equiv (finCongr hl) _ _ fun j => ?_
      simp only [finCongr_apply, Fin.val_cast]
      congr 1
      have : (R.take i)[j] = R[j.val]'(by have := j.isLt; simp only [hl] at this; omega) := by
        simp [List.getElem_take]
      rw [this, hk ⟨j.val, by have := j.isLt; simp only [hl] at this; omega⟩]
    rw [e1]
    have e2 : ∀ m (hm : i + m = n + 1), ∑ j : Fin i, w j • (dt • k ⟨j.val, by omega⟩) =
        ∑ j : Fin (n + 1), dt • ((if j.val < i then w j else 0) • k j) := by
      intro m hm
      have := Fin.sum_univ_add (fun j : Fin (i + m) =>
        dt • ((if j.val < i then w j else (0 : K)) • k ⟨j.val, by omega⟩))
      have e3 : ∑ j : Fin (n + 1), dt • ((if j.val < i then w j else (0 : K)) • k j) =
          ∑ j : Fin (i + m), dt • ((if j.val < i then w j else (0 : K)) • k ⟨j.val, by omega⟩) :=
        (Fintype.sum_equiv (finCongr hm) _ _ fun j => rfl).symm
      rw [e3, this]
      simp [smul_comm dt]
    exact e2 (n + 1 - i) (by omega)
  refine ⟨k, fun i => ?_, ?_⟩
  · show f (t + dt * c i) (addRegisters (a i) q (R.take i)) = _
    rw [hc, mul_comm dt, hadd _ _ i.isLt.le]
    congr 3
    refine Finset.sum_congr rfl fun j _ => ?_
    by_cases hj : j.val < i.val
    · rw [if_pos hj, ha]
    · rw [if_neg hj, hT i j (Fin.le_def.mpr (by omega))]
  · have := hadd b (n + 1) (le_refl _)
    rw [List.take_of_length_le (by omega)] at this
    rw [this]
    congr 2
    refine Finset.sum_congr rfl fun j _ => ?_
    rw [if_pos j.isLt, hb]

/-! ### C47 -/

/-- The procedure `step`, which gets the right-hand side, the step size, the time, the right-hand side at that time (the
solver evaluates it beforehand) and the solution, performs the Runge-Kutta method `T`, for every differential equation. -/
def Spec.PerformsRK {s : Nat} (T : Tableau K s) (step : (K → E → E) → K → K → E → E → E) : Prop :=
  ∀ (f : K → E → E) (dt t : K) (q : E), T.Step f dt t q (step f dt t (f t q) q)

open Spec in
variable (K E) in
/-- C47. Each integrator is a Runge-Kutta method of its nominal order, the same for every right-hand side, step size, time
and solution. -/
theorem C47_order :
    (∃ T : Tableau K 1, T.Explicit ∧ T.Order1 ∧ PerformsRK (E := E) T fun _ dt _ k q => eulerStep dt k q) ∧
    (∃ T : Tableau K 2, T.Explicit ∧ T.Order2 ∧ PerformsRK (E := E) T fun f dt t k q => ssp22Step (odeRhs f) dt t k q) ∧
    (∃ T : Tableau K 3, T.Explicit ∧ T.Order3 ∧ PerformsRK (E := E) T fun f dt t k q => ssp33Step (odeRhs f) dt t k q) ∧
    (∃ T : Tableau K 10, T.Explicit ∧ T.Order4 ∧ PerformsRK (E := E) T fun f dt t k q => ssp104Step (odeRhs f) dt t k q) := by
  refine ⟨⟨tabEuler, ?_, ?_, euler_step⟩, ⟨tab22, ?_, ?_, ssp22_step⟩,
    ⟨tab33, ?_, ?_, ssp33_step⟩, ⟨tab104, ?_, ?_, ssp104_step⟩⟩
  · intro i j _; rfl
  · simp [Tableau.Order1, tabEuler]
  · intro i j h; exact if_neg (by have := Fin.le_def.mp h; omega)
  · have h0 : (tab22 (K := K)).c 0 = 0 := by unfold Tableau.c; rw [Fin.sum_univ_two]; simp [tab22]
    have h1 : (tab22 (K := K)).c 1 = 1 := by unfold Tableau.c; rw [Fin.sum_univ_two]; simp [tab22]
    unfold Tableau.Order2 Tableau.Order1
    rw [Fin.sum_univ_two, Fin.sum_univ_two, h0, h1]
    simp only [tab22]
    norm_num
  · intro i j h; exact if_neg (by have := Fin.le_def.mp h; omega)
  · simp [Tableau.Order3, Tableau.Order2, Tableau.Order1, tab33, Tableau.c, Fin.sum_univ_three]
    norm_num
  · intro i j h; exact if_neg (by have := Fin.le_def.mp h; omega)
  · have hb : ∀ g : Fin 10 → K, ∑ i, (tab104 (K := K)).b i * g i =
        1 / 10 * (g 0 + g 1 + g 2 + g 3 + g 4 + g 5 + g 6 + g 7 + g 8 + g 9) := by
      intro g
      rw [sum10]
      show 1 / 10 * g 0 + 1 / 10 * g 1 + 1 / 10 * g 2 + 1 / 10 * g 3 + 1 / 10 * g 4 + 1 / 10 * g 5 + 1 / 10 * g 6
        + 1 / 10 * g 7 + 1 / 10 * g 8 + 1 / 10 * g 9 = _
      ring
    have e1 : ∑ i, (tab104 (K := K)).b i = 1 := by
      have := hb fun _ => 1
      simp only [mul_one] at this
      rw [this]; norm_num
    have hb' : ∀ g h : Fin 10 → K, ∑ i, (tab104 (K := K)).b i * g i * h i = ∑ i, (tab104 (K := K)).b i * (g i * h i) :=
      fun g h => Finset.sum_congr rfl fun i _ => by ring
    refine ⟨⟨⟨e1, ?_⟩, ?_, ?_⟩, ?_, ?_, ?_, ?_⟩
    · rw [hb]
      simp only [abs104_0, abs104_1, abs104_2, abs104_3, abs104_4, abs104_5, abs104_6, abs104_7, abs104_8, abs104_9]
      norm_num
    · rw [hb]
      simp only [abs104_0, abs104_1, abs104_2, abs104_3, abs104_4, abs104_5, abs104_6, abs104_7, abs104_8, abs104_9]
      norm_num
    · rw [hb]
      simp only [mrow104_0, mrow104_1, mrow104_2, mrow104_3, mrow104_4, mrow104_5, mrow104_6, mrow104_7, mrow104_8,
        mrow104_9,
        abs104_0, abs104_1, abs104_2, abs104_3, abs104_4, abs104_5, abs104_6, abs104_7, abs104_8, abs104_9]
      norm_num
    · rw [hb]
      simp only [abs104_0, abs104_1, abs104_2, abs104_3, abs104_4, abs104_5, abs104_6, abs104_7, abs104_8, abs104_9]
      norm_num
    · rw [hb', hb]
      simp only [mrow104_0, mrow104_1, mrow104_2, mrow104_3, mrow104_4, mrow104_5, mrow104_6, mrow104_7, mrow104_8,
        mrow104_9,
        abs104_0, abs104_1, abs104_2, abs104_3, abs104_4, abs104_5, abs104_6, abs104_7, abs104_8, abs104_9]
      norm_num
    · rw [hb]
      simp only [mrow104_0, mrow104_1, mrow104_2, mrow104_3, mrow104_4, mrow104_5, mrow104_6, mrow104_7, mrow104_8,
        mrow104_9,
        abs104_0, abs104_1, abs104_2, abs104_3, abs104_4, abs104_5, abs104_6, abs104_7, abs104_8, abs104_9]
      norm_num
    · rw [hb]
      simp only [mrow104_0, mrow104_1, mrow104_2, mrow104_3, mrow104_4, mrow104_5, mrow104_6, mrow104_7, mrow104_8,
        mrow104_9,
        abs104_0, abs104_1, abs104_2, abs104_3, abs104_4, abs104_5, abs104_6, abs104_7, abs104_8, abs104_9]
      norm_num

/-- C47, user-supplied coefficients: the code performs the Runge-Kutta method they describe. -/
theorem C47_general_rk {n : Nat} (T : Tableau K (n + 1)) (hT : T.Explicit) (f : K → E → E) (dt t : K) (q : E) :
    T.Step f dt t q (rkStep (odeRhs f) (fun i j => if h : i < n + 1 ∧ j < n + 1 then T.a ⟨i, h.1⟩ ⟨j, h.2⟩ else 0)
      (fun i => if h : i < n + 1 then T.b ⟨i, h⟩ else 0) (fun i => if h : i < n + 1 then T.c ⟨i, h⟩ else 0)
      (n + 1) dt t (f t q) q) :=
  rk_step T hT _ _ _ (fun i j => by simp) (fun i => by simp) (fun i => by simp) f dt t q

/-- C47: a consistent method advances `q' = v` exactly. -/
theorem C47_constant_rhs {n : Nat} (T : Tableau K n) (h1 : T.Order1) (v : E) (dt t : K) (q q' : E)
    (h : T.Step (fun _ _ => v) dt t q q') : q' = q + dt • v := by
  obtain ⟨k, hk, rfl⟩ := h
  have : ∑ i, T.b i • k i = v := by
    rw [Finset.sum_congr rfl (fun i _ => by rw [hk i])]
    rw [← Finset.sum_smul, h1, one_smul]
  rw [this]

/-- C47: every linear functional annihilated by the right-hand side (and unchanged by the stage callback)
is preserved by each integrator, e.g. the totals of conservation laws. -/
theorem C47_invariants {F : Type*} [AddCommGroup F] [Module K F] (L : E →ₗ[K] F) (p : SharpRhs K E)
    (hdq : ∀ dt t x, L (p.dq dt t x) = 0) (hst : ∀ t x, L (p.stage t x) = L x) (dqDt q : E) (h0 : L dqDt = 0)
    (dt t : K) :
    L (eulerStep dt dqDt q) = L q ∧ L (ssp22Step p dt t dqDt q) = L q ∧ L (ssp33Step p dt t dqDt q) = L q ∧
    L (ssp104Step p dt t dqDt q) = L q ∧
    ∀ (a : Nat → Nat → K) (b c : Nat → K) (n : Nat), L (rkStep p a b c n dt t dqDt q) = L q := by
  have hstage : ∀ s : E × K, L (ssp104Stage p dt s).1 = L s.1 := by
    intro s; simp [ssp104Stage, hdq, hst]
  have hloop : ∀ s : E × K, L (ssp104Loop p dt s).1 = L s.1 := by
    intro s; simp [ssp104Loop, hstage]
  refine ⟨?_, ?_, ?_, ?_, ?_⟩
  · simp [eulerStep, h0]
  · simp only [ssp22Step, map_smul, map_add, hst, hdq, h0]
    module
  · simp only [ssp33Step, map_smul, map_add, hst, hdq, h0]
    module
  · simp only [ssp104Step, map_smul, map_add, map_sub, hst, hdq, h0, hloop]
    module
  · intro a b c n
    have hadd : ∀ (w : Nat → K) (acc : E) (regs : List E), (∀ r ∈ regs, L r = 0) →
        L (addRegisters w acc regs) = L acc := by
      intro w acc regs hr
      rw [addRegisters_eq, map_add, map_sum]
      rw [Finset.sum_eq_zero, add_zero]
      intro j _
      rw [map_smul, hr regs[j] (List.getElem_mem _), smul_zero]
    have hst : ∀ n regs, (∀ r ∈ regs, L r = 0) → ∀ r ∈ rkStages p a c dt t q n regs, L r = 0 := by
      intro n
      induction n with
      | zero => intro regs h; exact h
      | succ n ih =>
        intro regs h
        refine ih _ fun r hr => ?_
        rcases List.mem_append.mp hr with h' | h'
        · exact h r h'
        · rw [List.mem_singleton.mp h']; exact hdq _ _ _
    unfold rkStep
    refine hadd _ _ _ (hst _ _ fun r hr => ?_)
    rw [List.mem_singleton.mp hr, map_smul, h0, smul_zero]

/-! ### C48 -/

section ssp
variable [LinearOrder K] [IsStrictOrderedRing K]

theorem convex_two {φ : E → K} (hφ : ConvexOn K Set.univ φ) {a b : K} (ha : 0 ≤ a) (hb : 0 ≤ b) (hab : a + b = 1)
    {x y : E} {m : K} (hx : φ x ≤ m) (hy : φ y ≤ m) : φ (a • x + b • y) ≤ m := by
  have := hφ.2 (Set.mem_univ x) (Set.mem_univ y) ha hb hab
  refine this.trans ?_
  simp only [smul_eq_mul]
  calc a * φ x + b * φ y ≤ a * m + b * m := by gcongr
    _ = m := by rw [← add_mul, hab, one_mul]

/-- Smaller Euler steps do not increase a convex functional either. -/
theorem euler_le {f : K → E → E} {φ : E → K} (hφ : ConvexOn K Set.univ φ) {h : K} (hh : 0 < h)
    (hE : EulerBounded f φ h) {τ : K} (h0 : 0 ≤ τ) (h1 : τ ≤ h) (t : K) (x : E) :
    φ (x + τ • f t x) ≤ φ x := by
  have e : x + τ • f t x = (1 - τ / h) • x + (τ / h) • (x + h • f t x) := by
    rw [smul_add, smul_smul, div_mul_cancel₀ _ hh.ne']
    module
  rw [e]
  exact convex_two hφ (by rw [sub_nonneg, div_le_one hh]; exact h1) (by positivity) (by ring) (le_refl _) (hE t x)

/-- C48. If forward Euler steps of size `h` do not increase the convex functional `φ` (and the stage
callback, if any, does not), then Euler, SSP22 and SSP33 steps of size at most `h`, and SSP104 steps of size
at most `6h`, do not increase it. -/
theorem C48_ssp (f : K → E → E) (stage : K → E → E) (φ : E → K) (hφ : ConvexOn K Set.univ φ) (h : K) (hh : 0 < h)
    (hE : EulerBounded f φ h) (hst : ∀ t x, φ (stage t x) ≤ φ x) (dt t : K) (hdt : 0 ≤ dt) (q : E) :
    let p : SharpRhs K E := ⟨fun dt t q => dt • f t q, stage⟩
    (dt ≤ h → φ (eulerStep dt (f t q) q) ≤ φ q) ∧
    (dt ≤ h → φ (ssp22Step p dt t (f t q) q) ≤ φ q) ∧
    (dt ≤ h → φ (ssp33Step p dt t (f t q) q) ≤ φ q) ∧
    (dt ≤ 6 * h → φ (ssp104Step p dt t (f t q) q) ≤ φ q) := by
  intro p
  have fe : ∀ τ, 0 ≤ τ → τ ≤ h → ∀ t x m, φ x ≤ m → φ (x + τ • f t x) ≤ m := fun τ h0 h1 t x m hm =>
    (euler_le hφ hh hE h0 h1 t x).trans hm
  have st : ∀ t x m, φ x ≤ m → φ (stage t x) ≤ m := fun t x m hm => (hst t x).trans hm
  refine ⟨fun h1 => fe dt hdt h1 t q _ le_rfl, fun h1 => ?_, fun h1 => ?_, fun h1 => ?_⟩
  · have a0 := fe dt hdt h1 t q _ le_rfl
    have a1 := st (t + dt) _ _ a0
    have a2 := fe dt hdt h1 (t + dt) _ _ a1
    have := convex_two hφ (a := 1 / 2) (b := 1 / 2) (by norm_num) (by norm_num) (by norm_num) (le_refl (φ q)) a2
    refine le_of_eq_of_le ?_ this
    simp only [ssp22Step, p]
    congr 1
    module
  · have a0 := fe dt hdt h1 t q _ le_rfl
    have a1 := st (t + dt) _ _ a0
    have a2 := fe dt hdt h1 (t + dt) _ _ a1
    have a3 := convex_two hφ (a := 3 / 4) (b := 1 / 4) (by norm_num) (by norm_num) (by norm_num) (le_refl (φ q)) a2
    have a4 := st (t + 1 / 2 * dt) _ _ a3
    have a5 := fe dt hdt h1 (t + 1 / 2 * dt) _ _ a4
    exact convex_two hφ (a := 1 / 3) (b := 2 / 3) (by norm_num) (by norm_num) (by norm_num) (le_refl (φ q)) a5
  · have h6 : dt / 6 ≤ h := by linarith
    have h60 : 0 ≤ dt / 6 := by positivity
    have stg : ∀ s : E × K, φ s.1 ≤ φ q → φ (ssp104Stage p dt s).1 ≤ φ q := by
      intro s hs
      have := fe (dt / 6) h60 h6 s.2 _ _ (st s.2 s.1 _ hs)
      refine le_of_eq_of_le ?_ this
      simp only [ssp104Stage, p]
      congr 1
      module
    have loop : ∀ s : E × K, φ s.1 ≤ φ q → φ (ssp104Loop p dt s).1 ≤ φ q := fun s hs =>
      stg _ (stg _ (stg _ (stg _ hs)))
    have b0 : φ (q + (1 / 6 : K) • (dt • f t q)) ≤ φ q := by
      refine le_of_eq_of_le ?_ (fe (dt / 6) h60 h6 t q _ le_rfl)
      congr 1
      module
    have b1 := loop (q + (1 / 6 : K) • (dt • f t q), t + dt / 6) b0
    simp only [ssp104Step]
    generalize (ssp104Loop p dt (q + (1 / 6 : K) • (dt • f t q), t + dt / 6)).1 = s at *
    have b2 : φ ((15 : K) • ((1 / 25 : K) • q + (36 / 100 : K) • s) - (5 : K) • s) ≤ φ q := by
      have := convex_two hφ (a := 3 / 5) (b := 2 / 5) (by norm_num) (by norm_num) (by norm_num) (le_refl (φ q)) b1
      refine le_of_eq_of_le ?_ this
      congr 1
      module
    have b3 := loop ((15 : K) • ((1 / 25 : K) • q + (36 / 100 : K) • s) - (5 : K) • s, t + dt / 3) b2
    generalize ssp104Loop p dt ((15 : K) • ((1 / 25 : K) • q + (36 / 100 : K) • s) - (5 : K) • s, t + dt / 3) = z at *
    have b4 := fe (dt / 6) h60 h6 z.2 _ _ (st z.2 z.1 _ b3)
    have b5 := convex_two hφ (a := 1 / 10) (b := 9 / 10) (by norm_num) (by norm_num) (by norm_num) (le_refl (φ q)) b1
    have b6 := convex_two hφ (a := 2 / 5) (b := 3 / 5) (by norm_num) (by norm_num) (by norm_num) b5 b4
    refine le_of_eq_of_le ?_ b6
    congr 1
    simp only [p]
    module

end ssp

/-- Non-vacuity of C48: `f(q) = -q`, `φ = |·|`, `h = 1` on the rationals. -/
example : EulerBounded (K := ℚ) (E := ℚ) (fun _ q => -q) (fun q => |q|) 1 := by
  intro t x
  simp

/-- Non-vacuity of C47: the classical Runge-Kutta method is a tableau. -/
example : (⟨![![0, 0, 0, 0], ![1 / 2, 0, 0, 0], ![0, 1 / 2, 0, 0], ![0, 0, 1, 0]], ![1 / 6, 1 / 3, 1 / 3, 1 / 6]⟩ :
    Tableau ℚ 4).Order4 := by
  unfold Tableau.Order4 Tableau.Order3 Tableau.Order2 Tableau.Order1
  decide +kernel

end PyClaw
