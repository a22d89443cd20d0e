import Verif.Props.Advection
import Verif.Model.LimitersRest
import Mathlib.Analysis.Convex.SpecificFunctions.Basic
import Mathlib.Analysis.SpecialFunctions.Pow.Deriv
import Mathlib.Analysis.Calculus.Deriv.MeanValue

/-!
C66, C39: the entries 19–22 of the dictionary of limiters. 19 and 20 use real powers.
-/
set_option linter.unusedSectionVars false
namespace PyClaw
open Spec

/-- Three forms of Bernoulli's inequality, at `r ≥ 0` and an exponent between 0 and 1. -/
theorem bernoulli_three (r c : ℝ) (hr : 0 ≤ r) (h0 : 0 < c) (h1 : c < 1) :
    0 ≤ c * (r - 1) + 1 - r ^ c ∧ r * (c * (r - 1) + 1 - r ^ c) ≤ c * (r - 1) ^ 2 ∧
      c * (r - 1) + 1 - r ^ c ≤ (1 - c) * (r - 1) ^ 2 := by
  have b1 := rpow_one_add_le_one_add_mul_self (s := r - 1) (by linarith) h0.le h1.le
  have b2 := one_add_mul_self_le_rpow_one_add (s := r - 1) (by linarith) (p := 1 + c) (by linarith)
  have b3 := rpow_one_add_le_one_add_mul_self (s := r - 1) (by linarith) (p := 1 - c) (by linarith) (by linarith)
  rw [add_sub_cancel] at b1 b2 b3
  refine ⟨by linarith, ?_, ?_⟩
  · have e : r ^ (1 + c) = r * r ^ c := by
      rcases hr.eq_or_lt with h | h
      · rw [← h, Real.zero_rpow (by linarith), zero_mul]
      · rw [Real.rpow_add h, Real.rpow_one]
    rw [e] at b2
    nlinarith
  · rcases hr.eq_or_lt with h | h
    · rw [← h, Real.zero_rpow h0.ne']
      linarith
    · have e : r = r ^ c * r ^ (1 - c) := by rw [← Real.rpow_add h, add_sub_cancel, Real.rpow_one]
      have hp : 0 < r ^ c := Real.rpow_pos_of_pos h c
      have hb : 0 < 1 + (1 - c) * (r - 1) := by nlinarith
      have h4 : r ≤ r ^ c * (1 + (1 - c) * (r - 1)) := by
        calc r = r ^ c * r ^ (1 - c) := e
          _ ≤ _ := mul_le_mul_of_nonneg_left b3 hp.le
      have h5 : (c * (r - 1) + 1 - (1 - c) * (r - 1) ^ 2) * (1 + (1 - c) * (r - 1)) ≤ r := by
        have : r - (c * (r - 1) + 1 - (1 - c) * (r - 1) ^ 2) * (1 + (1 - c) * (r - 1)) = ((1 - c) * (r - 1)) ^ 2 * r := by ring
        have : 0 ≤ ((1 - c) * (r - 1)) ^ 2 * r := by positivity
        linarith
      have h6 := le_of_mul_le_mul_right (h5.trans h4) hb
      linarith

/-- The third case of Hyperbee. -/
theorem hyperbee_bounds (r nu : ℝ) (hr : 0 < r) (h0 : 0 < nu) (h1 : nu < 1) (hn : ¬ |r - 1| < 1 / 1000000) :
    0 ≤ pyHyperbee (fun r x : ℝ => r ^ x) r nu ∧ (1 - nu) * pyHyperbee (fun r x : ℝ => r ^ x) r nu ≤ 2 ∧
      nu * pyHyperbee (fun r x : ℝ => r ^ x) r nu ≤ 2 * r := by
  obtain ⟨p1, p2, p3⟩ := bernoulli_three r nu hr.le h0 h1
  have hne : r - 1 ≠ 0 := by
    intro h
    rw [h] at hn
    norm_num at hn
  have hsq : 0 < (r - 1) ^ 2 := by positivity
  have hc1 : nu ≤ cfmod1 nu := le_max_right _ _
  have hc2 : 1 - nu ≤ 1 - cfmod2 nu := sub_le_sub_left (min_le_right _ _) _
  have e : pyHyperbee (fun r x : ℝ => r ^ x) r nu =
      2 * (r * (nu * (r - 1) + 1 - r ^ nu)) / (cfmod1 nu * (1 - cfmod2 nu) * (r - 1) ^ 2) := by
    have q1 : cfmod1 nu ≠ 0 := by linarith
    have q2 : 1 - cfmod2 nu ≠ 0 := by linarith
    unfold pyHyperbee
    rw [if_neg (not_lt.mpr hr.le), if_neg hn]
    dsimp only
    field_simp
  have hA : 0 < cfmod1 nu := by linarith
  have hB : 0 < 1 - cfmod2 nu := by linarith
  rw [e]
  refine ⟨by positivity, ?_, ?_⟩
  · rw [mul_div_assoc', div_le_iff₀ (by positivity)]
    have a1 : (1 - nu) * (r * (nu * (r - 1) + 1 - r ^ nu)) ≤ (1 - cfmod2 nu) * (cfmod1 nu * (r - 1) ^ 2) := by
      apply mul_le_mul hc2 (p2.trans (mul_le_mul_of_nonneg_right hc1 hsq.le)) (by positivity) hB.le
    linarith
  · rw [mul_div_assoc', div_le_iff₀ (by positivity)]
    have a1 : nu * (nu * (r - 1) + 1 - r ^ nu) ≤ cfmod1 nu * ((1 - cfmod2 nu) * (r - 1) ^ 2) := by
      apply mul_le_mul hc1 (p3.trans (mul_le_mul_of_nonneg_right hc2 hsq.le)) p1 hA.le
    have := mul_le_mul_of_nonneg_left a1 hr.le
    linarith

/-- Bernoulli's inequality to second order. -/
theorem bernoulli_second (c r : ℝ) (h0 : 0 < c) (h1 : c < 1) (hr : 0 < r) :
    (r ≤ 1 → c * (1 - c) * (r - 1) ^ 2 ≤ 2 * (c * (r - 1) + 1 - r ^ c)) ∧
      (1 ≤ r → 2 * (c * (r - 1) + 1 - r ^ c) ≤ c * (1 - c) * (r - 1) ^ 2) := by
  have hd : ∀ x ∈ Set.Ioi (0 : ℝ), HasDerivAt (fun x : ℝ => 2 * (c * (x - 1) + 1 - x ^ c) - c * (1 - c) * (x - 1) ^ 2)
      (2 * (c * 1 - c * x ^ (c - 1)) - c * (1 - c) * (2 * (x - 1))) x := by
    intro x hx
    have e1 : HasDerivAt (fun x : ℝ => x - 1) 1 x := (hasDerivAt_id x).sub_const 1
    have e2 := (((e1.const_mul c).add_const 1).sub (Real.hasDerivAt_rpow_const (p := c) (Or.inl (ne_of_gt hx)))).const_mul 2
    have e3 := (e1.pow 2).const_mul (c * (1 - c))
    exact (e2.sub e3).congr_deriv (by norm_num)
  have hanti : AntitoneOn (fun x : ℝ => 2 * (c * (x - 1) + 1 - x ^ c) - c * (1 - c) * (x - 1) ^ 2) (Set.Ioi 0) := by
    refine antitoneOn_of_deriv_nonpos (convex_Ioi 0) (fun x hx => (hd x hx).continuousAt.continuousWithinAt) ?_ ?_
    · intro x hx
      rw [interior_Ioi] at hx
      exact (hd x hx).differentiableAt.differentiableWithinAt
    · intro x hx
      rw [interior_Ioi] at hx
      rw [(hd x hx).deriv]
      have hx' : (0 : ℝ) < x := hx
      obtain ⟨-, -, b3⟩ := bernoulli_three x c hx'.le h0 h1
      have e : x ^ c = x * x ^ (c - 1) := by
        rw [Real.rpow_sub_one hx'.ne']
        field_simp
      rw [e] at b3
      have : 0 ≤ x * (x ^ (c - 1) - (1 + (c - 1) * (x - 1))) := by nlinarith
      have := nonneg_of_mul_nonneg_right this hx'
      nlinarith
  constructor
  · intro h
    have := hanti (show r ∈ Set.Ioi (0 : ℝ) from hr) (Set.mem_Ioi.mpr (zero_lt_one' ℝ)) h
    simp at this
    linarith
  · intro h
    have := hanti (Set.mem_Ioi.mpr (zero_lt_one' ℝ)) (show r ∈ Set.Ioi (0 : ℝ) from hr) h
    simp at this
    linarith

/-- C66: between the Courant numbers 1/1000 and 999/1000 the limiter Hyperbee (19) compresses: the limited wave is at least the
one of Beam and Warming's method where that one is the smaller one, and at most that one where it is the larger one. -/
theorem C66_hyperbee_beam_warming (nu : ℝ) (h0 : 1 / 1000 ≤ nu) (h1 : nu ≤ 999 / 1000) :
    ∃ f, pyLimiterTable (fun r x : ℝ => r ^ x) 19 = some f ∧ ∀ all r, 0 < r → 1 / 1000000 ≤ |r - 1| →
      (r ≤ 1 → r ≤ f all r nu) ∧ (1 ≤ r → f all r nu ≤ r) := by
  refine ⟨_, rfl, fun all r hr hn => ?_⟩
  have n0 : 0 < nu := by linarith
  have n1 : nu < 1 := by linarith
  have hne : r - 1 ≠ 0 := by
    intro h
    rw [h] at hn
    norm_num at hn
  have c1 : cfmod1 nu = nu := max_eq_right (by linarith)
  have c2 : cfmod2 nu = nu := min_eq_right (by linarith)
  have q2 : 1 - nu ≠ 0 := by linarith
  have hsq : 0 < (r - 1) ^ 2 := by positivity
  have hden : 0 < nu * (1 - nu) * (r - 1) ^ 2 := mul_pos (mul_pos n0 (by linarith)) hsq
  have e : pyHyperbee (fun r x : ℝ => r ^ x) r nu = r * (2 * (nu * (r - 1) + 1 - r ^ nu)) / (nu * (1 - nu) * (r - 1) ^ 2) := by
    unfold pyHyperbee
    rw [if_neg (not_lt.mpr hr.le), if_neg (not_lt.mpr hn), c1, c2]
    dsimp only
    field_simp
  obtain ⟨b1, b2⟩ := bernoulli_second nu r n0 n1 hr
  show (r ≤ 1 → r ≤ pyHyperbee _ r nu) ∧ (1 ≤ r → pyHyperbee _ r nu ≤ r)
  rw [e]
  constructor
  · intro h
    rw [le_div_iff₀ hden]
    exact mul_le_mul_of_nonneg_left (b1 h) hr.le
  · intro h
    rw [div_le_iff₀ hden]
    exact mul_le_mul_of_nonneg_left (b2 h) hr.le

/-- C66: Hyperbee (19) lies in the TVD region of every Courant number between 0 and 1. -/
theorem C66_hyperbee (nu : ℝ) (h0 : 0 < nu) (h1 : nu < 1) :
    ∃ f, pyLimiterTable (fun r x : ℝ => r ^ x) 19 = some f ∧ ∀ all, TvdRegion (f all) nu := by
  refine ⟨_, rfl, fun all => ?_⟩
  have near : ∀ r : ℝ, 0 < r → |r - 1| < 1 / 1000000 → pyHyperbee (fun r x : ℝ => r ^ x) r nu = 1 := by
    intro r hr h
    unfold pyHyperbee
    rw [if_neg (not_lt.mpr hr.le), if_pos h]
  change TvdRegion (fun r cfl => pyHyperbee (fun r x : ℝ => r ^ x) r cfl) nu
  refine ⟨fun r hr => ?_, fun r hr => ?_, fun r hr => ?_, fun r hr => ?_⟩
  · rcases hr.eq_or_lt with h | h
    · simp [pyHyperbee, h]
      norm_num
    · exact if_pos h
  all_goals by_cases hn : |r - 1| < 1 / 1000000
  · simp only [near r hr hn]; norm_num
  · exact (hyperbee_bounds r nu hr h0 h1 hn).1
  · simp only [near r hr hn]; linarith
  · exact (hyperbee_bounds r nu hr h0 h1 hn).2.1
  · simp only [near r hr hn]
    have := (abs_lt.mp hn).1
    linarith
  · exact (hyperbee_bounds r nu hr h0 h1 hn).2.2

/-- C39 with Hyperbee: for scalar advection with Courant number between 0 and 1 new values lie between the old value and the upwind
neighbour, and the total variation of periodic data does not grow. -/
theorem C39_hyperbee (u : ℝ) (c : Cfg1 ℝ 1) (hg : 2 ≤ c.g) (hdt : 0 < c.dt) (hdx : 0 < c.dx) (hu : u ≠ 0)
    (hcfl : |u| * (c.dt / c.dx) < 1) (hfw : c.fwave = false) (hl : c.limiter 0 = 19) (aux : Int → Unit) (q : Int → Fin 1 → ℝ) :
    let q' := (pyStep1 (pyLimiterTable fun r x : ℝ => r ^ x) (advectionRp u) c none aux q).1
    (∀ i : Int, c.g ≤ i → i < c.g + c.n →
      Between (q' i 0) (q i 0) (if 0 ≤ u then q (i - 1) 0 else q (i + 1) 0)) ∧
    (∀ [NeZero c.n], PeriodicGhost c.g c.g c.n q →
      totalVariation (interiorValues c.g c.n q') ≤ totalVariation (interiorValues c.g c.n q)) := by
  refine C39_python _ u c hg hdt.le hdx hcfl.le hfw (fun _ => ⟨by rw [hl]; norm_num, ?_⟩) aux q
  rw [hl]
  exact C66_hyperbee _ (by positivity) hcfl

/-- C66 fails for SuperPower (20): with Courant number 1/5 and the ratio 1/100 the limiter is larger than `2 r / nu`. -/
theorem C66_superpower_violated :
    ∃ f, pyLimiterTable (fun r x : ℝ => r ^ x) 20 = some f ∧ ∀ all, ¬ TvdRegion (f all) (1 / 5) := by
  refine ⟨_, rfl, fun all h => ?_⟩
  have h4 := h.right (1 / 100) (by norm_num)
  have e : restLimiters (fun r x : ℝ => r ^ x) 20 all (1 / 100) (1 / 5) = (3 / 5 + 2 / 5 * (1 / 100)) * (1 - (99 / 101 : ℝ) ^ (12 : ℝ)) := by
    change pySuperpower (fun r x : ℝ => r ^ x) (1 / 100) (1 / 5) = _
    unfold pySuperpower
    norm_num [abs_of_pos]
  rw [e] at h4
  norm_num at h4

/-- C66 fails for the limiters of Cada and Torrilhon (21, 22): one number is returned for all interfaces, here for a smooth profile
(ratio 1 everywhere) with an extremum at one interface, and it is negative at every interface. -/
theorem C66_cada_violated (pow : ℚ → ℚ → ℚ) :
    (∃ f, pyLimiterTable pow 21 = some f ∧ (∀ r, f [(1, 1 / 2), (1, 1 / 2)] r (1 / 2) = 1) ∧
      ∀ r, f [(1, 1 / 2), (-2, 1 / 2)] r (1 / 2) < 0) ∧
    ∃ f, pyLimiterTable pow 22 = some f ∧ (∀ r, f [(1, 1 / 2), (1, 1 / 2)] r (1 / 2) = 1) ∧
      ∀ r, f [(1, 1 / 2), (-2, 1 / 2)] r (1 / 2) < 0 := by
  refine ⟨⟨_, rfl, fun r => ?_, fun r => ?_⟩, _, rfl, fun r => ?_, fun r => ?_⟩
  · change pyCada _ = _
    decide +kernel
  · change pyCada _ < _
    decide +kernel
  · change pyCadaNonlinear _ = _
    decide +kernel
  · change pyCadaNonlinear _ < _
    decide +kernel

end PyClaw
