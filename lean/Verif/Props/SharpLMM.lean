import Verif.Model.SharpEvolve
import Verif.Spec.SharpLMM
import Verif.Props.SharpRK
import Mathlib.Algebra.Polynomial.Eval.Degree
import Mathlib.Algebra.Polynomial.Eval.SMul
import Mathlib.Tactic.FieldSimp
import Mathlib.Tactic.Ring
import Mathlib.Tactic.Linarith
import Mathlib.Tactic.Module
import Mathlib.Tactic.Positivity
import Mathlib.Algebra.Order.Field.Basic

/-!
C50: the variable-step multistep formulas.
-/
set_option linter.unusedSectionVars false

namespace PyClaw
open Spec

section
variable {K E : Type*} [Field K] [LinearOrder K] [IsStrictOrderedRing K] [AddCommGroup E] [Module K E]

/-- The coefficients of the second-order method with an old point `w` steps back. -/
def k2Coeffs (w : K) : TwoPoint K := ⟨(w + 1) * (w - 1) / w ^ 2, 1 / w ^ 2, (w + 1) / w, 0⟩

/-- The coefficients of the third-order method with an old point `w` steps back. -/
def k3Coeffs (w : K) : TwoPoint K :=
  ⟨(w + 1) ^ 2 * (w - 2) / w ^ 3, (3 * w + 2) / w ^ 3, (w + 1) ^ 2 / w ^ 2, (w + 1) / w ^ 2⟩

/-- What the code computes is the two-point formula with these coefficients, `w` being the sum of the previous
step sizes over the current one. -/
theorem k2_update (dt : K) (prevDt : List K) (f q qk fk : E) (h : lmmSpan prevDt / dt ≠ 0) :
    ssplmmk2Update dt prevDt f q qk = (k2Coeffs (lmmSpan prevDt / dt)).apply dt q f qk fk := by
  simp only [ssplmmk2Update, k2Coeffs, TwoPoint.apply]
  generalize lmmSpan prevDt / dt = w at h ⊢
  have e1 : (w + 1) * (w - 1) / w ^ 2 = (w + 1) / w * ((w - 1) / w) := by field_simp
  rw [e1]
  module

theorem k3_update (dt : K) (prevDt : List K) (f q qk fk : E) (h : lmmSpan prevDt / dt ≠ 0) :
    ssplmmk3Update dt prevDt q f qk fk = (k3Coeffs (lmmSpan prevDt / dt)).apply dt q f qk fk := by
  simp only [ssplmmk3Update, k3Coeffs, TwoPoint.apply]
  generalize lmmSpan prevDt / dt = w at h ⊢
  have e1 : (w + 1) ^ 2 * (w - 2) / w ^ 3 = (w + 1) ^ 2 / w ^ 2 * ((w - 2) / w) := by field_simp
  have e2 : (3 * w + 2) / w ^ 3 = (w - 2) / w * ((w + 1) / w ^ 2) + (4 * (w + 1) - w ^ 2) / w ^ 3 := by
    field_simp
    ring
  rw [e1, e2]
  module

open Polynomial in
theorem eval_deg2 (y : K[X]) (h : y.natDegree ≤ 2) :
    ∃ a b c : K, ∀ x, y.eval x = a + b * x + c * x ^ 2 ∧ y.derivative.eval x = b + 2 * c * x := by
  refine ⟨y.coeff 0, y.coeff 1, y.coeff 2, fun x => ⟨?_, ?_⟩⟩
  · rw [eval_eq_sum_range' (n := 3) (by omega)]
    simp [Finset.sum_range_succ]
  · rw [eval_eq_sum_range' (n := 2) (lt_of_le_of_lt (natDegree_derivative_le y) (by omega))]
    simp only [Finset.sum_range_succ, Finset.sum_range_zero, coeff_derivative]
    push_cast
    ring

open Polynomial in
theorem eval_deg3 (y : K[X]) (h : y.natDegree ≤ 3) :
    ∃ a b c d : K, ∀ x, y.eval x = a + b * x + c * x ^ 2 + d * x ^ 3 ∧
      y.derivative.eval x = b + 2 * c * x + 3 * d * x ^ 2 := by
  refine ⟨y.coeff 0, y.coeff 1, y.coeff 2, y.coeff 3, fun x => ⟨?_, ?_⟩⟩
  · rw [eval_eq_sum_range' (n := 4) (by omega)]
    simp [Finset.sum_range_succ]
  · rw [eval_eq_sum_range' (n := 3) (lt_of_le_of_lt (natDegree_derivative_le y) (by omega))]
    simp only [Finset.sum_range_succ, Finset.sum_range_zero, coeff_derivative]
    push_cast
    ring

/-- C50, order: for every position of the old point the second-order method is exact for polynomials of degree
two in time, the third-order method for degree three. -/
theorem C50_order (w : K) (hw : w ≠ 0) : (k2Coeffs w).ExactTo w 2 ∧ (k3Coeffs w).ExactTo w 3 := by
  constructor
  · intro y t dt hy
    obtain ⟨a, b, c, h⟩ := eval_deg2 y hy
    simp only [TwoPoint.apply, k2Coeffs, (h _).1, (h _).2, smul_eq_mul]
    field_simp
    ring
  · intro y t dt hy
    obtain ⟨a, b, c, d, h⟩ := eval_deg3 y hy
    simp only [TwoPoint.apply, k3Coeffs, (h _).1, (h _).2, smul_eq_mul]
    field_simp
    ring

/-- C50, weights: the solution weights sum to one; they are nonnegative as soon as the old point lies more than
one (two) steps back. -/
theorem C50_weights (w : K) (hw : w ≠ 0) :
    (k2Coeffs w).a1 + (k2Coeffs w).a0 = 1 ∧ (k3Coeffs w).a1 + (k3Coeffs w).a0 = 1 ∧
    (1 ≤ w → 0 ≤ (k2Coeffs w).a1 ∧ 0 < (k2Coeffs w).a0 ∧ 0 < (k2Coeffs w).b1) ∧
    (2 ≤ w → 0 ≤ (k3Coeffs w).a1 ∧ 0 < (k3Coeffs w).a0 ∧ 0 < (k3Coeffs w).b1 ∧ 0 < (k3Coeffs w).b0) := by
  refine ⟨?_, ?_, fun h => ?_, fun h => ?_⟩
  · simp only [k2Coeffs]; field_simp; ring
  · simp only [k3Coeffs]; field_simp; ring
  · have h0 : 0 < w := by linarith
    have h1 : 0 ≤ w - 1 := by linarith
    simp only [k2Coeffs]
    refine ⟨by positivity, by positivity, by positivity⟩
  · have h0 : 0 < w := by linarith
    have h1 : 0 ≤ w - 2 := by linarith
    simp only [k3Coeffs]
    refine ⟨by positivity, by positivity, by positivity, by positivity⟩

/-- A step no longer than the one chosen by `get_dt_new` reaches back more than `p - 1` steps, and the implied
forward Euler step `dt / r` is at most `mu`. -/
theorem step_restriction {dt H mu p : K} (hH : 0 < H) (hmu : 0 < mu) (hp : 1 ≤ p) (hdt : 0 < dt)
    (hle : dt ≤ H * mu / (H + (p - 1) * mu)) :
    p - 1 < H / dt ∧ H / mu + (p - 1) ≤ H / dt ∧ H / (H / dt - (p - 1)) ≤ mu := by
  have hden : 0 < H + (p - 1) * mu := by
    have : 0 ≤ (p - 1) * mu := mul_nonneg (by linarith) hmu.le
    linarith
  have h1 : H / mu + (p - 1) ≤ H / dt := by
    rw [le_div_iff₀ hdt]
    rw [le_div_iff₀ hden] at hle
    have : (H / mu + (p - 1)) * dt = dt * (H + (p - 1) * mu) / mu := by field_simp
    rw [this, div_le_iff₀ hmu]
    exact hle
  have h2 : 0 < H / mu := by positivity
  refine ⟨by linarith, h1, ?_⟩
  have h3 : H / mu ≤ H / dt - (p - 1) := by linarith
  rw [div_le_iff₀ (by linarith)]
  rw [div_le_iff₀ hmu] at h3
  linarith [mul_comm mu (H / dt - (p - 1))]

/-- The order of the method, as read off its name. -/
def Integrator.order (i : Integrator K) : K := match i with | .ssplmmk3 => 3 | _ => 2

theorem listMin_mem : ∀ {l : List K}, l ≠ [] → listMin l ∈ l
  | [], h => absurd rfl h
  | [x], _ => by simp [listMin]
  | x :: y :: l, _ => by
    have ih := listMin_mem (l := y :: l) (by simp)
    simp only [listMin]
    rcases min_choice x (listMin (y :: l)) with h | h
    · rw [h]; exact List.mem_cons_self
    · rw [h]; exact List.mem_cons_of_mem _ ih

theorem listMin_le : ∀ {l : List K} {x : K}, x ∈ l → listMin l ≤ x
  | [], x, h => by simp at h
  | [y], x, h => by simp at h; simp [listMin, h]
  | y :: z :: l, x, h => by
    simp only [listMin]
    rcases List.mem_cons.1 h with rfl | h
    · exact min_le_left _ _
    · exact (min_le_right _ _).trans (listMin_le h)

theorem lmm_step_size (c : SharpCfg K) (s : SharpState K E) (hssp : c.integ.isSspLmm = true)
    (hst : (s.regs.length : Int) ≤ s.numsteps + 1) (hacc : s.accept = true) :
    sharpDtNew c s = lmmSpan s.prevDt * listMin (s.prevFE.take s.regs.length) /
      (lmmSpan s.prevDt + (c.integ.order - 1) * listMin (s.prevFE.take s.regs.length)) := by
  have hn : ¬ (s.numsteps + 1 < (s.regs.length : Int)) := by omega
  unfold sharpDtNew
  cases hi : c.integ <;> simp_all [Integrator.isSspLmm, Integrator.order]

/-- C50, step size: after the starting steps the step size chosen by the solver (before it may be shortened to
hit `tend`) is `H mu / (H + (p - 1) mu)`, where `H` is the span of the previous steps and `mu` the smallest
forward Euler step size: one of them, and none is smaller. -/
theorem C50_step_size (c : SharpCfg K) (s : SharpState K E) (hssp : c.integ.isSspLmm = true)
    (hst : (s.regs.length : Int) ≤ s.numsteps + 1) (hacc : s.accept = true) (mu : K)
    (hmu : mu ∈ s.prevFE.take s.regs.length) (hle : ∀ x ∈ s.prevFE.take s.regs.length, mu ≤ x) :
    let H := (s.prevDt.drop 1).sum
    sharpDtNew c s = H * mu / (H + (c.integ.order - 1) * mu) := by
  have e : listMin (s.prevFE.take s.regs.length) = mu :=
    le_antisymm (listMin_le hmu) (hle _ (listMin_mem (List.ne_nil_of_mem hmu)))
  rw [lmm_step_size c s hssp hst hacc, e]
  rfl

/-- C50, strong stability of the second-order method: if forward Euler steps up to `mu` from the current
solution do not increase a convex functional, then its value after the step is at most that at the two points used. -/
theorem C50_ssp_k2 {φ : E → K} (hφ : ConvexOn K Set.univ φ) {H mu dt : K} (hH : 0 < H) (hmu : 0 < mu) (hdt : 0 < dt)
    (hle : dt ≤ H * mu / (H + (2 - 1) * mu)) (q1 f1 q0 f0 : E)
    (hE : ∀ h, 0 ≤ h → h ≤ mu → φ (q1 + h • f1) ≤ φ q1) :
    φ ((k2Coeffs (H / dt)).apply dt q1 f1 q0 f0) ≤ max (φ q1) (φ q0) := by
  obtain ⟨hw, -, hfe⟩ := step_restriction hH hmu (by norm_num) hdt hle
  have hHw : H = H / dt * dt := by field_simp
  generalize H / dt = w at hw hfe hHw ⊢
  have hw0 : 0 < w := by linarith
  have hw1 : 0 < w - 1 := by linarith
  have e : (k2Coeffs w).apply dt q1 f1 q0 f0 =
      ((w + 1) * (w - 1) / w ^ 2) • (q1 + (H / (w - (2 - 1))) • f1) + (1 / w ^ 2) • q0 := by
    simp only [TwoPoint.apply, k2Coeffs]
    have : (w + 1) * (w - 1) / w ^ 2 * (H / (w - (2 - 1))) = dt * ((w + 1) / w) := by
      have : w - (2 - 1) ≠ 0 := by intro h; linarith
      rw [hHw]; field_simp; ring
    rw [smul_add (_ : K) q1, smul_smul _ (H / _), this]
    module
  rw [e]
  have h1 := hE (H / (w - (2 - 1))) (div_nonneg hH.le (by linarith)) hfe
  exact convex_two hφ (by positivity) (by positivity) (by field_simp; ring) (h1.trans (le_max_left _ _))
    (le_max_right _ _)

/-- C50, strong stability of the third-order method. Beyond the step size restriction it needs the previous steps
to be short enough, `H ^ 2 ≤ 8 mu ^ 2`, which is what `check_lmm_cond` is for (`C50_run_k3`). -/
theorem C50_ssp_k3 {φ : E → K} (hφ : ConvexOn K Set.univ φ) {H mu dt : K} (hH : 0 < H) (hmu : 0 < mu) (hdt : 0 < dt)
    (hle : dt ≤ H * mu / (H + (3 - 1) * mu)) (h8 : H ^ 2 ≤ 8 * mu ^ 2) (q1 f1 q0 f0 : E)
    (hE : ∀ h, 0 ≤ h → h ≤ mu → φ (q1 + h • f1) ≤ φ q1) (hE0 : ∀ h, 0 ≤ h → h ≤ mu → φ (q0 + h • f0) ≤ φ q0) :
    φ ((k3Coeffs (H / dt)).apply dt q1 f1 q0 f0) ≤ max (φ q1) (φ q0) := by
  obtain ⟨hw, hwmu, hfe⟩ := step_restriction hH hmu (by norm_num) hdt hle
  have hHw : H = H / dt * dt := by field_simp
  generalize H / dt = w at hw hwmu hfe hHw ⊢
  have hw0 : 0 < w := by linarith
  have hw1 : 0 < w - 2 := by linarith
  -- the forward Euler step at the old point
  have hfe0 : H * (w + 1) / (3 * w + 2) ≤ mu := by
    rw [div_le_iff₀ (by linarith)]
    have hH3 : H ≤ 3 * mu := by
      by_contra hc
      push Not at hc
      have : (3 * mu) ^ 2 < H ^ 2 := by gcongr
      nlinarith [mul_pos hmu hmu]
    have hwm : H + 2 * mu ≤ w * mu := by
      have : H / mu ≤ w - 2 := by linarith
      rw [div_le_iff₀ hmu] at this
      linarith
    -- (3 mu - H) w ≥ (3 mu - H) (H + 2 mu) / mu
    have h4 : (3 * mu - H) * (H + 2 * mu) ≤ (3 * mu - H) * (w * mu) :=
      mul_le_mul_of_nonneg_left hwm (by linarith)
    have h5 : 0 ≤ mu * ((3 * w + 2) * mu - H * (w + 1)) := by nlinarith
    have := nonneg_of_mul_nonneg_right h5 hmu
    linarith
  have e : (k3Coeffs w).apply dt q1 f1 q0 f0 =
      ((w + 1) ^ 2 * (w - 2) / w ^ 3) • (q1 + (H / (w - (3 - 1))) • f1) +
      ((3 * w + 2) / w ^ 3) • (q0 + (H * (w + 1) / (3 * w + 2)) • f0) := by
    simp only [TwoPoint.apply, k3Coeffs]
    have e1 : (w + 1) ^ 2 * (w - 2) / w ^ 3 * (H / (w - (3 - 1))) = dt * ((w + 1) ^ 2 / w ^ 2) := by
      have h3 : w - (3 - 1) = w - 2 := by ring
      rw [h3, hHw]; field_simp
    have e2 : (3 * w + 2) / w ^ 3 * (H * (w + 1) / (3 * w + 2)) = dt * ((w + 1) / w ^ 2) := by
      have : 3 * w + 2 ≠ 0 := by intro h; linarith
      rw [hHw]; field_simp
    rw [smul_add (_ : K) q1, smul_add (_ : K) q0, smul_smul _ (H / _), smul_smul _ (H * _ / _), e1, e2]
    module
  rw [e]
  have h1 := hE (H / (w - (3 - 1))) (div_nonneg hH.le (by linarith)) hfe
  have h0 := hE0 (H * (w + 1) / (3 * w + 2)) (by positivity) hfe0
  have ha : 0 ≤ (w + 1) ^ 2 * (w - 2) / w ^ 3 := by positivity
  have hb : 0 ≤ (3 * w + 2) / w ^ 3 := by positivity
  have hab : (w + 1) ^ 2 * (w - 2) / w ^ 3 + (3 * w + 2) / w ^ 3 = 1 := by field_simp; ring
  exact convex_two hφ ha hb hab (h1.trans (le_max_left _ _)) (h0.trans (le_max_right _ _))

end
end PyClaw
