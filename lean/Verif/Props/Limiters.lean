import Verif.Spec.Classic1
import Mathlib.Algebra.Order.Field.Basic
import Mathlib.Algebra.Order.Group.Unbundled.Abs
import Mathlib.Tactic.Linarith
import Mathlib.Tactic.Ring
import Mathlib.Tactic.Positivity
import Mathlib.Tactic.FieldSimp
import Mathlib.Tactic.NormNum
import Mathlib.Data.Rat.Defs
import Mathlib.Algebra.Order.Ring.Rat
import Mathlib.Algebra.Field.Rat
set_option linter.unusedSectionVars false

/-!
# Limiter functions (C38)
-/
namespace PyClaw
open Spec

variable {K : Type*} [Field K] [LinearOrder K] [IsStrictOrderedRing K]

theorem minmod_sweby : SwebyLimiter (fun r : K => max 0 (min 1 r)) where
  zero r hr := max_eq_left ((min_le_right _ _).trans hr)
  nonneg r _ := le_max_left _ _
  le_two r hr := max_le (by norm_num) ((min_le_left _ _).trans (by norm_num))
  le_two_r r hr := max_le (by linarith) ((min_le_right _ _).trans (by linarith))
  one := by norm_num

theorem minmod_symm : SymmetricLimiter (fun r : K => max 0 (min 1 r)) := by
  intro r hr
  simp only
  have h1 : 0 < 1 / r := by positivity
  rw [max_eq_right (le_min zero_le_one hr.le), max_eq_right (le_min zero_le_one h1.le)]
  rcases le_total 1 r with h | h
  · rw [min_eq_left h, min_eq_right (by rw [div_le_one hr]; exact h)]
  · rw [min_eq_right h, min_eq_left (by rw [le_div_iff₀ hr]; linarith), div_self hr.ne']

theorem superbee_sweby : SwebyLimiter (fun r : K => max (max 0 (min 1 (2 * r))) (min 2 r)) where
  zero r hr := by
    rw [max_eq_left (a := (0 : K)) ((min_le_right _ _).trans (by linarith)),
      max_eq_left ((min_le_right _ _).trans hr)]
  nonneg r _ := (le_max_left _ _).trans (le_max_left _ _)
  le_two r hr := max_le (max_le (by norm_num) ((min_le_left _ _).trans (by norm_num))) (min_le_left _ _)
  le_two_r r hr := max_le (max_le (by linarith) (min_le_right _ _)) ((min_le_right _ _).trans (by linarith))
  one := by norm_num

theorem superbee_symm : SymmetricLimiter (fun r : K => max (max 0 (min 1 (2 * r))) (min 2 r)) := by
  intro r hr
  simp only
  have h1 : 0 < 1 / r := by positivity
  rw [max_eq_right (a := (0 : K)) (le_min zero_le_one (by linarith)),
    max_eq_right (a := (0 : K)) (le_min zero_le_one (by linarith))]
  rw [← max_div_div_right hr.le, ← min_div_div_right hr.le, ← min_div_div_right hr.le,
    mul_div_assoc, div_self hr.ne', mul_one, max_comm, min_comm (2 / r), min_comm (1 / r)]
  congr 2
  ring

theorem vanLeer_sweby : SwebyLimiter (fun r : K => (r + |r|) / (1 + |r|)) where
  zero r hr := by rw [abs_of_nonpos hr]; simp
  nonneg r hr := by rw [abs_of_pos hr]; positivity
  le_two r hr := by rw [abs_of_pos hr, div_le_iff₀ (by linarith)]; linarith
  le_two_r r hr := by
    rw [abs_of_pos hr, div_le_iff₀ (by linarith)]; nlinarith
  one := by norm_num

theorem vanLeer_symm : SymmetricLimiter (fun r : K => (r + |r|) / (1 + |r|)) := by
  intro r hr
  simp only
  have h1 : 0 < 1 / r := by positivity
  rw [abs_of_pos hr, abs_of_pos h1]
  field_simp
  ring

theorem mc_sweby : SwebyLimiter (fun r : K => max 0 (min (min ((1 + r) / 2) 2) (2 * r))) where
  zero r hr := max_eq_left ((min_le_right _ _).trans (by linarith))
  nonneg r _ := le_max_left _ _
  le_two r hr := max_le (by norm_num) ((min_le_left _ _).trans (min_le_right _ _))
  le_two_r r hr := max_le (by linarith) (min_le_right _ _)
  one := by norm_num

theorem mc_symm : SymmetricLimiter (fun r : K => max 0 (min (min ((1 + r) / 2) 2) (2 * r))) := by
  intro r hr
  simp only
  have h1 : 0 < 1 / r := by positivity
  have hp : 0 ≤ min (min ((1 + r) / 2) 2) (2 * r) :=
    le_min (le_min (by linarith) (by norm_num)) (by linarith)
  have hp' : 0 ≤ min (min ((1 + 1 / r) / 2) 2) (2 * (1 / r)) :=
    le_min (le_min (by linarith) (by norm_num)) (by linarith)
  rw [max_eq_right hp, max_eq_right hp', ← min_div_div_right hr.le, ← min_div_div_right hr.le,
    mul_div_assoc, div_self hr.ne', mul_one, min_right_comm]
  have e1 : (1 + r) / 2 / r = (1 + 1 / r) / 2 := by field_simp; ring
  have e2 : 2 / r = 2 * (1 / r) := by ring
  rw [e1, e2]

/-- C38, Fortran limiters: minmod, superbee, van Leer and MC as applied to the ratio `b/a` of `philim`. -/
theorem C38_fortran_limiters (undef a : K) (k : Int) (hk : k = 1 ∨ k = 2 ∨ k = 3 ∨ k = 4) :
    ∃ phi : K → K, (∀ b, philim undef a b k = phi (b / a)) ∧ SwebyLimiter phi ∧ SymmetricLimiter phi := by
  rcases hk with rfl | rfl | rfl | rfl
  · exact ⟨_, fun b => rfl, minmod_sweby, minmod_symm⟩
  · exact ⟨_, fun b => rfl, superbee_sweby, superbee_symm⟩
  · exact ⟨_, fun b => rfl, vanLeer_sweby, vanLeer_symm⟩
  · exact ⟨_, fun b => rfl, mc_sweby, mc_symm⟩

/-- C38, Python limiters: minmod, van Leer and MC, whatever the Courant number and the other interfaces.
(`_partial`: superbee is treated below; it lies in the region but is not symmetric.) -/
theorem C38_python_limiters_partial (opq : Int → LimFun K) (k : Int) (hk : k = 1 ∨ k = 3 ∨ k = 4)
    (all : List (K × K)) (cfl : K) :
    ∃ f, pyLimiterFun opq k = some f ∧ SwebyLimiter (fun r => f all r cfl) ∧
      SymmetricLimiter (fun r => f all r cfl) := by
  rcases hk with rfl | rfl | rfl
  · exact ⟨_, rfl, minmod_sweby, minmod_symm⟩
  · exact ⟨_, rfl, vanLeer_sweby, vanLeer_symm⟩
  · exact ⟨_, rfl, mc_sweby, mc_symm⟩

/-- The Python superbee limiter is `max(0, min(1, 2r))`. -/
theorem pySuperbee_eq (r cfl : K) : pySuperbee r cfl = max 0 (min 1 (2 * r)) := by
  unfold pySuperbee
  exact max_eq_left ((min_le_left _ _).trans (le_max_left _ _))

/-- It still lies in the TVD region. -/
theorem C38_python_superbee_region (cfl : K) : SwebyLimiter (fun r : K => pySuperbee r cfl) := by
  simp only [pySuperbee_eq]
  exact {
    zero := fun r hr => max_eq_left ((min_le_right _ _).trans (by linarith))
    nonneg := fun r _ => le_max_left _ _
    le_two := fun r hr => max_le (by norm_num) ((min_le_left _ _).trans (by norm_num))
    le_two_r := fun r hr => max_le (by linarith) (min_le_right _ _)
    one := by norm_num }

/-- C38 fails for the Python superbee limiter: at `r = 2` superbee is 2 (as in the Fortran code), the
Python code gives 1; and it is not symmetric. -/
theorem C38_python_superbee_violated :
    pySuperbee (2 : ℚ) 1 = 1 ∧ philim (0 : ℚ) 1 2 2 = 2 ∧
    ¬ SymmetricLimiter (fun r : ℚ => pySuperbee r 1) := by
  refine ⟨by norm_num [pySuperbee], by norm_num [philim], fun h => ?_⟩
  have := h 2 (by norm_num)
  norm_num [pySuperbee] at this

example : SwebyLimiter (fun r : ℚ => max 0 (min 1 r)) := minmod_sweby

/-! ## C66: the other limiters -/

/-- A limiter in Sweby's region is in the region of every Courant number between 0 and 1. -/
theorem SwebyLimiter.tvd {phi : K → K → K} {nu : K} (h0 : 0 ≤ nu) (h1 : nu ≤ 1)
    (h : SwebyLimiter (fun r => phi r nu)) : TvdRegion phi nu where
  zero := h.zero
  nonneg := h.nonneg
  left r hr := by
    have a := h.nonneg r hr
    have b := h.le_two r hr
    nlinarith
  right r hr := by
    have a := h.nonneg r hr
    have b := h.le_two_r r hr
    nlinarith

theorem tvd_of_bounds {phi : K → K → K} {nu : K}
    (hz : ∀ r, r ≤ 0 → phi r nu = 0) (hn : ∀ r, 0 < r → 0 ≤ phi r nu)
    (hl : ∀ r, 0 < r → (1 - nu) * phi r nu ≤ 2) (hr : ∀ r, 0 < r → nu * phi r nu ≤ 2 * r) :
    TvdRegion phi nu := ⟨hz, hn, hl, hr⟩

theorem klein_sweby : SwebyLimiter (fun r : K => pyKlein r 0) := by
  have hpos : ∀ r : K, 0 < r → ∃ s, 0 < s ∧ s ≤ 1 ∧ (s = r ∨ s * r = 1) ∧
      pyKlein r 0 = 2 * r / (1 + r) * (1 + s * (1 - s) * (1 - s ^ 2)) := by
    intro r hr
    have hsum : r + |r| = 2 * r := by rw [abs_of_pos hr]; ring
    have hden : 1 + |r| = 1 + r := by rw [abs_of_pos hr]
    rcases le_total r 1 with h | h
    · refine ⟨r, hr, h, Or.inl rfl, ?_⟩
      have : min r (1 / max r (1 / 10 ^ 5)) = r := by
        apply min_eq_left
        rw [le_div_iff₀ (lt_max_of_lt_left hr)]
        rcases max_cases r (1 / 10 ^ 5 : K) with ⟨e, _⟩ | ⟨e, _⟩ <;> rw [e]
        · nlinarith
        · have : (1 / 10 ^ 5 : K) ≤ 1 := by norm_num
          nlinarith [show (0 : K) < 1 / 10 ^ 5 by norm_num]
      simp only [pyKlein, this, hsum, hden]
    · have hmax : max r (1 / 10 ^ 5) = r := max_eq_left (le_trans (by norm_num) h)
      have hinv : (1 : K) / r ≤ 1 := by rw [div_le_one hr]; exact h
      refine ⟨1 / r, by positivity, hinv, Or.inr (by field_simp), ?_⟩
      have : min r (1 / max r (1 / 10 ^ 5)) = 1 / r := by
        rw [hmax]; exact min_eq_right (hinv.trans h)
      simp only [pyKlein, this, hsum, hden]
  have hsharp : ∀ s : K, 0 < s → s ≤ 1 → 0 ≤ s * (1 - s) * (1 - s ^ 2) ∧
      s * (1 - s) * (1 - s ^ 2) ≤ s * (1 - s) := by
    intro s h0 h1
    have a : 0 ≤ s * (1 - s) := mul_nonneg h0.le (by linarith)
    have b : 0 ≤ 1 - s ^ 2 := by nlinarith
    exact ⟨mul_nonneg a b, by nlinarith⟩
  refine ⟨fun r hr => ?_, fun r hr => ?_, fun r hr => ?_, fun r hr => ?_, ?_⟩
  · simp [pyKlein, abs_of_nonpos hr]
  · obtain ⟨s, h0, h1, _, e⟩ := hpos r hr
    simp only [e]
    have := (hsharp s h0 h1).1
    positivity
  · obtain ⟨s, h0, h1, hs, e⟩ := hpos r hr
    obtain ⟨a, b⟩ := hsharp s h0 h1
    simp only [e]
    rw [div_mul_eq_mul_div, div_le_iff₀ (by linarith)]
    rcases hs with rfl | hs
    · nlinarith
    · -- s = 1/r
      have e1 : r * (1 + s * (1 - s) * (1 - s ^ 2)) = r + (1 - s) * (1 - s ^ 2) * (s * r) := by ring
      have e2 : 2 * r * (1 + s * (1 - s) * (1 - s ^ 2)) = 2 * (r + (1 - s) * (1 - s ^ 2)) := by
        rw [mul_assoc, e1, hs, mul_one]
      rw [e2]
      have : (1 - s) * (1 - s ^ 2) ≤ 1 := by nlinarith
      linarith
  · obtain ⟨s, h0, h1, hs, e⟩ := hpos r hr
    obtain ⟨a, b⟩ := hsharp s h0 h1
    simp only [e]
    rw [div_mul_eq_mul_div, div_le_iff₀ (by linarith)]
    rcases hs with rfl | hs
    · have : 1 + s * (1 - s) * (1 - s ^ 2) ≤ 1 + s := by nlinarith
      nlinarith
    · have h1r : 1 ≤ r := by nlinarith
      have : s * (1 - s) * (1 - s ^ 2) ≤ 1 := by nlinarith
      nlinarith
  · norm_num [pyKlein]

/-- C66. The limiters van Leer–Klein (9), Arora–Roe (11), CFL-superbee (15) and CFL-superbee with theta
(16) lie in the TVD region of their Courant number. -/
theorem C66_tvd_limiters_partial (opq : Int → LimFun K) (all : List (K × K)) (nu : K) (h0 : 0 < nu) (h1 : nu < 1)
    (k : Int) (hk : k = 9 ∨ k = 11 ∨ k = 15 ∨ k = 16) :
    ∃ f, pyLimiterFun opq k = some f ∧ TvdRegion (f all) nu := by
  have h1' : 0 < 1 - nu := by linarith
  have hc1 : 0 < cfmod1 nu := lt_max_of_lt_right h0
  have hc1' : nu ≤ cfmod1 nu := le_max_right _ _
  have hc2' : cfmod2 nu ≤ nu := min_le_right _ _
  have hc2 : 0 < 1 - cfmod2 nu := by linarith
  rcases hk with rfl | rfl | rfl | rfl
  · refine ⟨_, rfl, SwebyLimiter.tvd h0.le h1.le ?_⟩
    have : (fun r : K => pyKlein r nu) = fun r => pyKlein r 0 := rfl
    rw [this]; exact klein_sweby
  · refine ⟨_, rfl, tvd_of_bounds ?_ ?_ ?_ ?_⟩
    · intro r hr
      apply max_eq_left
      refine (min_le_left _ _).trans ((min_le_left _ _).trans ?_)
      exact mul_nonpos_of_nonneg_of_nonpos (by positivity) hr
    · intro r _; exact le_max_left _ _
    · intro r hr
      have : pyAroraRoe r nu ≤ 99 / 100 * 2 / (1 - nu) :=
        max_le (by positivity) (min_le_right _ _)
      rw [le_div_iff₀ h1'] at this
      linarith
    · intro r hr
      have : pyAroraRoe r nu ≤ 99 / 100 * 2 / nu * r :=
        max_le (by positivity) ((min_le_left _ _).trans (min_le_left _ _))
      rw [div_mul_eq_mul_div, le_div_iff₀ h0] at this
      linarith
  · refine ⟨_, rfl, tvd_of_bounds ?_ ?_ ?_ ?_⟩
    · intro r hr
      unfold pyCflSuperbee
      rw [max_eq_left (a := (0 : K)), max_eq_left ((min_le_right _ _).trans hr)]
      refine (min_le_right _ _).trans ?_
      exact div_nonpos_of_nonpos_of_nonneg (by linarith) hc1.le
    · intro r _; exact (le_max_left _ _).trans (le_max_left _ _)
    · intro r hr
      have hge : (2 : K) ≤ 2 / (1 - cfmod2 nu) * 1 := by
        have : 0 ≤ cfmod2 nu := le_min (by norm_num) h0.le
        rw [mul_one, le_div_iff₀ hc2]; linarith
      have : pyCflSuperbee r nu ≤ 2 / (1 - cfmod2 nu) :=
        max_le (max_le (by positivity) ((min_le_left _ _).trans (by linarith))) (min_le_left _ _)
      rw [le_div_iff₀ hc2] at this
      have h' : 0 ≤ pyCflSuperbee r nu := (le_max_left _ _).trans (le_max_left _ _)
      nlinarith
    · intro r hr
      have h3 : nu * (2 * r / cfmod1 nu) ≤ 2 * r := by
        rw [mul_div_assoc', div_le_iff₀ hc1]; nlinarith
      unfold pyCflSuperbee
      rw [mul_max_of_nonneg _ _ h0.le, mul_max_of_nonneg _ _ h0.le]
      refine max_le (max_le (by linarith) ?_) ?_
      · exact (mul_le_mul_of_nonneg_left (min_le_right _ _) h0.le).trans h3
      · refine (mul_le_mul_of_nonneg_left (min_le_right _ _) h0.le).trans ?_
        nlinarith
  · refine ⟨_, rfl, tvd_of_bounds ?_ ?_ ?_ ?_⟩
    · intro r hr
      unfold pyCflSuperbeeTheta
      simp only
      rw [max_eq_left (a := (0 : K))]
      · exact min_eq_left (le_trans zero_le_one (le_max_left _ _))
      · refine (min_le_left _ _).trans ?_
        exact mul_nonpos_of_nonneg_of_nonpos (by positivity) hr
    · intro r _
      exact le_min (le_max_left _ _) (le_trans zero_le_one (le_max_left _ _))
    · intro r hr
      have : pyCflSuperbeeTheta (95 / 100) r nu ≤ 95 / 100 * 2 / (1 - cfmod2 nu) :=
        (min_le_left _ _).trans (max_le (by positivity) (min_le_right _ _))
      rw [le_div_iff₀ hc2] at this
      have h' : 0 ≤ pyCflSuperbeeTheta (95 / 100) r nu :=
        le_min (le_max_left _ _) (le_trans zero_le_one (le_max_left _ _))
      nlinarith
    · intro r hr
      have : pyCflSuperbeeTheta (95 / 100) r nu ≤ 95 / 100 * 2 / cfmod1 nu * r :=
        (min_le_left _ _).trans (max_le (by positivity) (min_le_left _ _))
      rw [div_mul_eq_mul_div, le_div_iff₀ hc1] at this
      have h' : 0 ≤ pyCflSuperbeeTheta (95 / 100) r nu :=
        le_min (le_max_left _ _) (le_trans zero_le_one (le_max_left _ _))
      nlinarith

/-- C66 fails for the theta limiters (12–14), Albada 2 and 3 (7, 8): they do not vanish at an extremum. -/
theorem C66_not_tvd_violated :
    pyTheta (95 / 100) (-1 : ℚ) (1 / 2) < 0 ∧ pyTheta (75 / 100) (-1 : ℚ) (1 / 2) < 0 ∧
    pyTheta (5 / 10) (-1 : ℚ) (1 / 2) < 0 ∧ pyAlbada2 (-2 : ℚ) (1 / 2) > 0 ∧
    pyAlbada3 (-1 / 2 : ℚ) (1 / 2) < 0 := by
  refine ⟨?_, ?_, ?_, ?_, ?_⟩ <;> norm_num [pyTheta, pyAlbada2, pyAlbada3, cfmod1, cfmod2, abs_of_pos]

theorem minOver_const_zero {α : Type*} (f : α → K) (hf : ∀ x, f x ≤ 0) (l : List α) : minOver f l ≤ 0 := by
  cases l with
  | nil => exact le_rfl
  | cons a l =>
    unfold minOver
    have : ∀ (l : List α) (z : K), z ≤ 0 → l.foldl (fun m x => min m (f x)) z ≤ 0 := by
      intro l
      induction l with
      | nil => intro z hz; exact hz
      | cons b l ih => intro z hz; exact ih _ ((min_le_left _ _).trans hz)
    exact this l _ (hf a)

/-- C66 fails for limiter 17 ("beta = 2/3"): it returns 0 for all data, so that the method is first
order everywhere. -/
theorem C66_beta_always_zero_violated (opq : Int → LimFun K) :
    ∃ f, pyLimiterFun opq 17 = some f ∧ ∀ all r cfl, f all r cfl = 0 := by
  refine ⟨_, rfl, fun all r cfl => ?_⟩
  unfold pyBeta
  simp only
  apply max_eq_left
  refine (min_le_left _ _).trans ?_
  rw [max_eq_left]
  refine minOver_const_zero _ (fun x => ?_) all
  simp

end PyClaw
