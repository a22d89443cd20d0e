import Verif.Props.Classic1
import Mathlib.Algebra.Group.Fin.Basic
import Mathlib.Algebra.Order.BigOperators.Group.Finset
set_option linter.unusedSectionVars false

/-!
# Scalar advection: no new extrema, total variation diminishing (C39)
-/
namespace PyClaw
open Spec

variable {K : Type*} [Field K] [LinearOrder K] [IsStrictOrderedRing K]

/-- A limited jump is a bounded nonnegative multiple of the jump and of the upwind jump. -/
theorem limited_jump (phi : K → K → K) (nu : K) (hphi : TvdRegion phi nu) (D U W : K)
    (hW : W = if D * D = 0 then D else phi (U * D / (D * D)) nu * D) :
    ∃ a b, 0 ≤ a ∧ (1 - nu) * a ≤ 2 ∧ W = a * D ∧ 0 ≤ b ∧ nu * b ≤ 2 ∧ W = b * U := by
  by_cases hD : D = 0
  · subst hD
    exact ⟨0, 0, le_rfl, by norm_num, by simp [hW], le_rfl, by norm_num, by simp [hW]⟩
  · rw [if_neg (by simpa using hD)] at hW
    have hr : U * D / (D * D) = U / D := by field_simp
    rw [hr] at hW
    rcases le_or_gt (U / D) 0 with h | h
    · rw [hphi.zero _ h] at hW
      exact ⟨0, 0, le_rfl, by norm_num, by simp [hW], le_rfl, by norm_num, by simp [hW]⟩
    · have hU : U ≠ 0 := by rintro rfl; simp at h
      refine ⟨phi (U / D) nu, phi (U / D) nu / (U / D), hphi.nonneg _ h, hphi.left _ h, hW,
        div_nonneg (hphi.nonneg _ h) h.le, ?_, ?_⟩
      · rw [mul_div_assoc', div_le_iff₀ h]; exact hphi.right _ h
      · rw [hW]; field_simp

theorem wdot_one (u v : Fin 1 → K) : wdot u v = u 0 * v 0 := by simp [wdot]

theorem limitedWave_advection (u lam : K) (hlam : 0 ≤ lam) (phi : Fin 1 → K → K → K) (lamf : Int → K)
    (hl : ∀ j, lamf j = lam) (aux : Int → Unit) (q : Int → Fin 1 → K) (j : Int) :
    limitedWave phi lamf (interfaces (advectionRp u) aux q) j 0 0 =
      if (q j 0 - q (j - 1) 0) * (q j 0 - q (j - 1) 0) = 0 then q j 0 - q (j - 1) 0
      else phi 0 ((if 0 < u then q (j - 1) 0 - q (j - 2) 0 else q (j + 1) 0 - q j 0) *
        (q j 0 - q (j - 1) 0) / ((q j 0 - q (j - 1) 0) * (q j 0 - q (j - 1) 0))) (|u| * lam) *
          (q j 0 - q (j - 1) 0) := by
  have e : limitedWave phi lamf (interfaces (advectionRp u) aux q) j 0 =
      if wdot (q j - q (j - 1)) (q j - q (j - 1)) = 0 then q j - q (j - 1)
      else phi 0 (wdot (if 0 < u then q (j - 1) - q (j - 1 - 1) else q (j + 1) - q (j + 1 - 1))
        (q j - q (j - 1)) / wdot (q j - q (j - 1)) (q j - q (j - 1)))
          |u * (if 0 < u then lamf (j - 1) else lamf j)| • (q j - q (j - 1)) := rfl
  rw [e, wdot_one, wdot_one, hl, hl, ite_self, abs_mul, abs_of_nonneg hlam, add_sub_cancel_right,
    show j - 1 - 1 = j - 2 by ring, Pi.sub_apply]
  by_cases hz : (q j 0 - q (j - 1) 0) * (q j 0 - q (j - 1) 0) = 0
  · rw [if_pos hz, if_pos hz]; rfl
  · rw [if_neg hz, if_neg hz]
    by_cases hu : 0 < u
    · simp [hu]
    · simp [hu]

/-- What the method needs to know about the correction: none, or that of a TVD limiter. -/
def TvdCorrection (u lam : K) (phi : Fin 1 → K → K → K) (o : Prop) : Prop :=
  o → TvdRegion (phi 0) (|u| * lam)

/-- One step of advection is an incremental (Harten) form with coefficient in `[0,1]`. -/
theorem advection_harten (u dt dx : K) (hlam : 0 ≤ dt / dx) (hcfl : |u| * (dt / dx) ≤ 1)
    (phi : Fin 1 → K → K → K) (o : Prop) [Decidable o] (ho : TvdCorrection u (dt / dx) phi o)
    (aux : Int → Unit) (q : Int → Fin 1 → K) (i : Int) :
    ∃ C, 0 ≤ C ∧ C ≤ 1 ∧
      waveProp (localRatio dt dx none aux) (interfaces (advectionRp u) aux q)
        (if o then correctionFlux abs (localRatio dt dx none aux) (interfaces (advectionRp u) aux q)
          (limitedWave phi (localRatio dt dx none aux) (interfaces (advectionRp u) aux q))
          else fun _ => 0) q i 0 =
      if 0 ≤ u then q i 0 - C * (q i 0 - q (i - 1) 0) else q i 0 - C * (q i 0 - q (i + 1) 0) := by
  set lam := dt / dx with hl
  have hloc : ∀ j, localRatio dt dx none aux j = lam := fun _ => rfl
  set nu := |u| * lam with hnu
  have hnu0 : 0 ≤ nu := mul_nonneg (abs_nonneg _) hlam
  -- the limited waves
  have hW : o → ∀ j, ∃ a b, 0 ≤ a ∧ (1 - nu) * a ≤ 2 ∧ 0 ≤ b ∧ nu * b ≤ 2 ∧
      limitedWave phi (localRatio dt dx none aux) (interfaces (advectionRp u) aux q) j 0 0 =
        a * (q j 0 - q (j - 1) 0) ∧
      limitedWave phi (localRatio dt dx none aux) (interfaces (advectionRp u) aux q) j 0 0 =
        b * (if 0 < u then q (j - 1) 0 - q (j - 2) 0 else q (j + 1) 0 - q j 0) := by
    intro h j
    obtain ⟨a, b, a1, a2, a3, b1, b2, b3⟩ := limited_jump (phi 0) nu (ho h) (q j 0 - q (j - 1) 0)
      (if 0 < u then q (j - 1) 0 - q (j - 2) 0 else q (j + 1) 0 - q j 0)
      (limitedWave phi (localRatio dt dx none aux) (interfaces (advectionRp u) aux q) j 0 0) (by
        rw [limitedWave_advection u lam hlam phi _ hloc])
    exact ⟨a, b, a1, a2, b1, b2, a3, b3⟩
  have hF : ∀ j, (if o then correctionFlux abs (localRatio dt dx none aux)
      (interfaces (advectionRp u) aux q)
      (limitedWave phi (localRatio dt dx none aux) (interfaces (advectionRp u) aux q))
      else fun _ => 0) j 0 = if o then 1 / 2 * |u| * (1 - nu) *
        limitedWave phi (localRatio dt dx none aux) (interfaces (advectionRp u) aux q) j 0 0 else 0 := by
    intro j
    split
    · unfold correctionFlux
      simp only [Finset.univ_unique, Fin.default_eq_zero, Finset.sum_singleton, Pi.smul_apply, smul_eq_mul,
        hloc]
      simp only [interfaces, advectionRp, hnu]
      ring
    · rfl
  unfold waveProp
  simp only [Pi.sub_apply, Pi.smul_apply, Pi.add_apply, smul_eq_mul, hF, hloc]
  simp only [interfaces, advectionRp, Pi.smul_apply, Pi.sub_apply, smul_eq_mul, add_sub_cancel_right]
  by_cases hu : 0 ≤ u
  · simp only [if_pos hu, max_eq_left hu, min_eq_right hu]
    have hnu' : nu = lam * u := by rw [hnu, abs_of_nonneg hu]; ring
    by_cases h : o
    · simp only [h, if_true]
      rcases hu.eq_or_lt with h0 | h0
      · refine ⟨0, le_rfl, zero_le_one, ?_⟩
        simp [← h0]
      · obtain ⟨a, _, a1, a2, _, _, ha, _⟩ := hW h i
        obtain ⟨_, b, _, _, b1, b2, _, hb⟩ := hW h (i + 1)
        rw [if_pos h0, add_sub_cancel_right, show i + 1 - 2 = i - 1 by ring] at hb
        rw [ha, hb]
        refine ⟨nu + 1 / 2 * nu * (1 - nu) * (b - a), ?_, ?_, ?_⟩
        · nlinarith [mul_nonneg (mul_nonneg hnu0 (sub_nonneg.mpr hcfl)) b1]
        · nlinarith [mul_nonneg (mul_nonneg hnu0 (sub_nonneg.mpr hcfl)) a1]
        · rw [abs_of_pos h0, hnu']; ring
    · simp only [h, if_false]
      refine ⟨nu, hnu0, hcfl, ?_⟩
      rw [hnu']; ring
  · have hu' : u < 0 := not_le.mp hu
    simp only [if_neg hu, max_eq_right hu'.le, min_eq_left hu'.le]
    have hnu' : nu = -(lam * u) := by rw [hnu, abs_of_neg hu']; ring
    by_cases h : o
    · simp only [h, if_true]
      obtain ⟨_, b, _, _, b1, b2, _, hb⟩ := hW h i
      obtain ⟨a, _, a1, a2, _, _, ha, _⟩ := hW h (i + 1)
      rw [if_neg (not_lt.mpr hu'.le)] at hb
      rw [add_sub_cancel_right] at ha
      rw [ha, hb]
      refine ⟨nu + 1 / 2 * nu * (1 - nu) * (b - a), ?_, ?_, ?_⟩
      · nlinarith [mul_nonneg (mul_nonneg hnu0 (sub_nonneg.mpr hcfl)) b1]
      · nlinarith [mul_nonneg (mul_nonneg hnu0 (sub_nonneg.mpr hcfl)) a1]
      · rw [abs_of_neg hu', hnu']; ring
    · simp only [h, if_false]
      refine ⟨nu, hnu0, hcfl, ?_⟩
      rw [hnu']; ring

/-- `x` lies between `a` and `b`. -/
def Between (x a b : K) : Prop := min a b ≤ x ∧ x ≤ max a b

theorem between_of_convex (x a b C : K) (h0 : 0 ≤ C) (h1 : C ≤ 1) (hx : x = a - C * (a - b)) :
    Between x a b := by
  subst hx
  constructor
  · rcases le_total a b with h | h
    · rw [min_eq_left h]; nlinarith
    · rw [min_eq_right h]; nlinarith
  · rcases le_total a b with h | h
    · rw [max_eq_right h]; nlinarith
    · rw [max_eq_left h]; nlinarith

/-- Harten's lemma, upwind neighbour on the left. -/
theorem harten_left {n : Nat} [NeZero n] (v v' : Fin n → K)
    (h : ∀ k, ∃ C, 0 ≤ C ∧ C ≤ 1 ∧ v' k = v k - C * (v k - v (k - 1))) :
    totalVariation v' ≤ totalVariation v := by
  choose C h0 h1 he using h
  unfold totalVariation
  calc ∑ k, |v' (k + 1) - v' k|
      ≤ ∑ k, ((1 - C (k + 1)) * |v (k + 1) - v k| + C k * |v k - v (k - 1)|) := by
        refine Finset.sum_le_sum fun k _ => ?_
        rw [he, he, add_sub_cancel_right]
        have e : v (k + 1) - C (k + 1) * (v (k + 1) - v k) - (v k - C k * (v k - v (k - 1))) =
            (1 - C (k + 1)) * (v (k + 1) - v k) + C k * (v k - v (k - 1)) := by ring
        rw [e]
        refine (abs_add_le _ _).trans ?_
        rw [abs_mul, abs_mul, abs_of_nonneg (sub_nonneg.mpr (h1 _)), abs_of_nonneg (h0 _)]
    _ = ∑ k, (1 - C (k + 1)) * |v (k + 1) - v k| + ∑ k, C k * |v k - v (k - 1)| :=
        Finset.sum_add_distrib
    _ = ∑ k, (1 - C (k + 1)) * |v (k + 1) - v k| + ∑ k, C (k + 1) * |v (k + 1) - v k| := by
        congr 1
        rw [← Equiv.sum_comp (Equiv.addRight (1 : Fin n)) (fun k => C k * |v k - v (k - 1)|)]
        simp
    _ = ∑ k, |v (k + 1) - v k| := by
        rw [← Finset.sum_add_distrib]
        exact Finset.sum_congr rfl fun k _ => by ring

/-- Harten's lemma, upwind neighbour on the right. -/
theorem harten_right {n : Nat} [NeZero n] (v v' : Fin n → K)
    (h : ∀ k, ∃ C, 0 ≤ C ∧ C ≤ 1 ∧ v' k = v k - C * (v k - v (k + 1))) :
    totalVariation v' ≤ totalVariation v := by
  choose C h0 h1 he using h
  unfold totalVariation
  calc ∑ k, |v' (k + 1) - v' k|
      ≤ ∑ k, (C (k + 1) * |v (k + 1 + 1) - v (k + 1)| + (1 - C k) * |v (k + 1) - v k|) := by
        refine Finset.sum_le_sum fun k _ => ?_
        rw [he, he]
        have e : v (k + 1) - C (k + 1) * (v (k + 1) - v (k + 1 + 1)) - (v k - C k * (v k - v (k + 1))) =
            C (k + 1) * (v (k + 1 + 1) - v (k + 1)) + (1 - C k) * (v (k + 1) - v k) := by ring
        rw [e]
        refine (abs_add_le _ _).trans ?_
        rw [abs_mul, abs_mul, abs_of_nonneg (sub_nonneg.mpr (h1 _)), abs_of_nonneg (h0 _)]
    _ = ∑ k, C (k + 1) * |v (k + 1 + 1) - v (k + 1)| + ∑ k, (1 - C k) * |v (k + 1) - v k| :=
        Finset.sum_add_distrib
    _ = ∑ k, C k * |v (k + 1) - v k| + ∑ k, (1 - C k) * |v (k + 1) - v k| := by
        congr 1
        rw [← Equiv.sum_comp (Equiv.addRight (1 : Fin n)) (fun k => C k * |v (k + 1) - v k|)]
        simp
    _ = ∑ k, |v (k + 1) - v k| := by
        rw [← Finset.sum_add_distrib]
        exact Finset.sum_congr rfl fun k _ => by ring

/-- The interior cells of a ghosted scalar array. -/
def interiorValues (lo : Int) (n : Nat) (q : Int → Fin 1 → K) : Fin n → K := fun k => q (lo + (k : Nat)) 0

theorem interior_prev (lo : Int) (g n : Nat) (hg : 1 ≤ g) [NeZero n] (q : Int → Fin 1 → K)
    (hq : PeriodicGhost lo g n q) (k : Fin n) :
    q (lo + (k : Nat) - 1) 0 = interiorValues lo n q (k - 1) := by
  obtain ⟨n, rfl⟩ : ∃ n', n = n' + 1 := ⟨n - 1, (Nat.succ_pred_eq_of_ne_zero (NeZero.ne n)).symm⟩
  unfold interiorValues
  by_cases hk : k = 0
  · subst hk
    have : ((0 - 1 : Fin (n + 1)) : Nat) = n := by rw [Fin.coe_sub_one]; simp
    rw [this]
    have := hq (lo - 1) (by omega) (by omega)
    rw [Fin.val_zero, Nat.cast_zero, add_zero, ← this]
    congr 1
    push_cast; ring
  · have : ((k - 1 : Fin (n + 1)) : Nat) = k - 1 := by rw [Fin.coe_sub_one, if_neg hk]
    have hk' : (k : Nat) ≠ 0 := fun h => hk (Fin.ext h)
    rw [this]
    congr 1
    omega

theorem interior_next (lo : Int) (g n : Nat) (hg : 1 ≤ g) [NeZero n] (q : Int → Fin 1 → K)
    (hq : PeriodicGhost lo g n q) (k : Fin n) :
    q (lo + (k : Nat) + 1) 0 = interiorValues lo n q (k + 1) := by
  obtain ⟨n, rfl⟩ : ∃ n', n = n' + 1 := ⟨n - 1, (Nat.succ_pred_eq_of_ne_zero (NeZero.ne n)).symm⟩
  unfold interiorValues
  by_cases hk : k = Fin.last n
  · subst hk
    have h1 : ((Fin.last n + 1 : Fin (n + 1)) : Nat) = 0 := by simp
    rw [h1]
    have := hq lo (by omega) (by omega)
    rw [Nat.cast_zero, add_zero, ← this]
    congr 1
    simp; ring
  · have h1 : ((k + 1 : Fin (n + 1)) : Nat) = k + 1 := Fin.val_add_one_of_lt (Fin.lt_last_iff_ne_last.mpr hk)
    rw [h1]
    congr 1
    push_cast; ring

/-- From the incremental form on every interior cell to the two conclusions. -/
theorem advection_conclusions (u : K) (lo : Int) (g n : Nat) (hg : 1 ≤ g) (q q' : Int → Fin 1 → K)
    (h : ∀ i : Int, lo ≤ i → i < lo + n → ∃ C, 0 ≤ C ∧ C ≤ 1 ∧
      q' i 0 = if 0 ≤ u then q i 0 - C * (q i 0 - q (i - 1) 0) else q i 0 - C * (q i 0 - q (i + 1) 0)) :
    (∀ i : Int, lo ≤ i → i < lo + n →
      Between (q' i 0) (q i 0) (if 0 ≤ u then q (i - 1) 0 else q (i + 1) 0)) ∧
    (∀ [NeZero n], PeriodicGhost lo g n q →
      totalVariation (interiorValues lo n q') ≤ totalVariation (interiorValues lo n q)) := by
  constructor
  · intro i h1 h2
    obtain ⟨C, c0, c1, hC⟩ := h i h1 h2
    refine between_of_convex _ _ _ C c0 c1 ?_
    rw [hC]; split <;> rfl
  · intro _ hq
    by_cases hu : 0 ≤ u
    · apply harten_left
      intro k
      obtain ⟨C, c0, c1, hC⟩ := h (lo + (k : Nat)) (by omega) (by omega)
      refine ⟨C, c0, c1, ?_⟩
      rw [if_pos hu, interior_prev lo g n hg q hq] at hC
      exact hC
    · apply harten_right
      intro k
      obtain ⟨C, c0, c1, hC⟩ := h (lo + (k : Nat)) (by omega) (by omega)
      refine ⟨C, c0, c1, ?_⟩
      rw [if_neg hu, interior_next lo g n hg q hq] at hC
      exact hC

/-- C39, Python kernel: constant-coefficient advection under the CFL condition, first order, or second
order with any limiter function in the TVD region of the Courant number. New values lie between the old
value and the upwind neighbour; the total variation of periodic data does not grow. -/
theorem C39_python (tab : Int → Option (LimFun K)) (u : K) (c : Cfg1 K 1) (hg : 2 ≤ c.g)
    (hdt : 0 ≤ c.dt) (hdx : 0 < c.dx) (hcfl : |u| * (c.dt / c.dx) ≤ 1) (hfw : c.fwave = false)
    (hlim : c.order = 2 → 0 < c.limiter 0 ∧
      ∃ f, tab (c.limiter 0) = some f ∧ ∀ all, TvdRegion (f all) (|u| * (c.dt / c.dx)))
    (aux : Int → Unit) (q : Int → Fin 1 → K) :
    let q' := (pyStep1 tab (advectionRp u) c none aux q).1
    (∀ i : Int, c.g ≤ i → i < c.g + c.n →
      Between (q' i 0) (q i 0) (if 0 ≤ u then q (i - 1) 0 else q (i + 1) 0)) ∧
    (∀ [NeZero c.n], PeriodicGhost c.g c.g c.n q →
      totalVariation (interiorValues c.g c.n q') ≤ totalVariation (interiorValues c.g c.n q)) := by
  obtain ⟨phi, _, p2, p3⟩ := pyStep1_interior tab (advectionRp u) c none aux q hg
  refine advection_conclusions u c.g c.g c.n (by omega) q _ fun i h1 h2 => ?_
  rw [p3 i h1 h2]
  simp only [hfw]
  refine advection_harten u c.dt c.dx (div_nonneg hdt hdx.le) hcfl phi (c.order = 2) (fun ho => ?_) aux q i
  obtain ⟨hl, f, hf, ht⟩ := hlim ho
  obtain ⟨all, ha⟩ := (p2 ⟨0, hl⟩ 0).2 f hf
  rw [ha]; exact ht all

/-- C39, Fortran kernel. -/
theorem C39_fortran (undef : K) (u : K) (c : Cfg1 K 1) (hg : 1 ≤ c.g)
    (hdt : 0 ≤ c.dt) (hdx : 0 < c.dx) (hcfl : |u| * (c.dt / c.dx) ≤ 1) (hfw : c.fwave = false)
    (hlim : c.order ≠ 1 → c.limiter 0 = 1 ∨ c.limiter 0 = 2 ∨ c.limiter 0 = 3 ∨ c.limiter 0 = 4)
    (aux : Int → Unit) (q : Int → Fin 1 → K) :
    ∃ q' cfl, fStep1 undef (advectionRp u) c none aux q = some (q', cfl) ∧
    (∀ i : Int, 1 ≤ i → i < 1 + c.n →
      Between (q' i 0) (q i 0) (if 0 ≤ u then q (i - 1) 0 else q (i + 1) 0)) ∧
    (∀ [NeZero c.n], PeriodicGhost 1 c.g c.n q →
      totalVariation (interiorValues 1 c.n q') ≤ totalVariation (interiorValues 1 c.n q)) := by
  obtain ⟨q', cfl, h1, _, h3⟩ := fStep1_interior undef (advectionRp u) c none aux q (by simp)
  refine ⟨q', cfl, h1, advection_conclusions u 1 c.g c.n hg q _ fun i hi1 hi2 => ?_⟩
  rw [h3 i hi1 hi2]
  have hnu : 0 ≤ |u| * (c.dt / c.dx) := mul_nonneg (abs_nonneg _) (div_nonneg hdt hdx.le)
  have := advection_harten u c.dt c.dx (div_nonneg hdt hdx.le) hcfl (fPhi undef c.limiter) (¬ c.order = 1)
    (fun ho => ?_) aux q i
  · simpa only [ite_not, hfw, Bool.false_eq_true, if_false] using this
  · obtain ⟨phi, hp, hs, _⟩ := C38_fortran_limiters undef 1 (c.limiter 0) (hlim ho)
    have e : fPhi undef c.limiter 0 = fun r _ => phi r := by
      funext r nu
      have hl : 0 < c.limiter 0 := by rcases hlim ho with h | h | h | h <;> rw [h] <;> decide
      unfold fPhi
      simp [hl, hl.ne', hp]
    rw [e]
    exact SwebyLimiter.tvd (phi := fun r _ => phi r) hnu hcfl hs

/-- C39 for the Python limiters that are in Sweby's region (minmod, superbee, van Leer, MC, Klein's) at any
Courant number up to 1, and for the Courant-number dependent limiters 11, 15 and 16 below 1. -/
theorem C39_python_limiters (opq : Int → LimFun K) (nu : K) (h0 : 0 ≤ nu) (h1 : nu ≤ 1) (k : Int)
    (hk : k = 1 ∨ k = 2 ∨ k = 3 ∨ k = 4 ∨ k = 9 ∨ (0 < nu ∧ nu < 1 ∧ (k = 11 ∨ k = 15 ∨ k = 16))) :
    0 < k ∧ ∃ f, pyLimiterFun opq k = some f ∧ ∀ all, TvdRegion (f all) nu := by
  rcases hk with rfl | rfl | rfl | rfl | rfl | ⟨a, b, hk⟩
  · exact ⟨by decide, _, rfl, fun all => SwebyLimiter.tvd h0 h1 minmod_sweby⟩
  · exact ⟨by decide, _, rfl, fun all => SwebyLimiter.tvd h0 h1 (C38_python_superbee_region nu)⟩
  · exact ⟨by decide, _, rfl, fun all => SwebyLimiter.tvd h0 h1 vanLeer_sweby⟩
  · exact ⟨by decide, _, rfl, fun all => SwebyLimiter.tvd h0 h1 mc_sweby⟩
  · exact ⟨by decide, _, rfl, fun all => SwebyLimiter.tvd h0 h1 klein_sweby⟩
  · have key := fun all => C66_tvd_limiters_partial opq all nu a b k (Or.inr hk)
    rcases hk with rfl | rfl | rfl <;>
      refine ⟨by decide, _, rfl, fun all => ?_⟩ <;>
      · obtain ⟨f, hf, ht⟩ := key all
        cases hf
        exact ht

/-- A scalar advection set-up for the examples: 4 cells, 2 ghost cells, Courant number 1/2. -/
def exAdv (k : Int) : Cfg1 ℚ 1 :=
  { n := 4, g := 2, dt := 1 / 2, dx := 1, order := 2, fwave := false, limiter := fun _ => k }

/-- Non-vacuity: a square pulse advected with the MC limiter meets all hypotheses, and the step moves it. -/
example (opq : Int → LimFun ℚ) :
    let q : Int → Fin 1 → ℚ := fun i _ => if i % 4 = 0 ∨ i % 4 = 1 then 1 else 0
    let c := exAdv 4
    (∀ i : Int, c.g ≤ i → i < c.g + c.n →
      Between ((pyStep1 (pyLimiterFun opq) (advectionRp 1) c none (fun _ => ()) q).1 i 0) (q i 0)
        (q (i - 1) 0)) ∧ PeriodicGhost c.g c.g c.n q := by
  refine ⟨fun i h1 h2 => ?_, fun i _ _ => ?_⟩
  · have := (C39_python (pyLimiterFun opq) 1 (exAdv 4) (by decide) (by norm_num [exAdv]) (by norm_num [exAdv])
      (by norm_num [exAdv]) rfl (fun _ => C39_python_limiters opq _ (by norm_num [exAdv]) (by norm_num [exAdv])
        4 (by simp)) (fun _ => ()) (fun i _ => if i % 4 = 0 ∨ i % 4 = 1 then 1 else 0)).1 i h1 h2
    simpa only [zero_le_one, if_true] using this
  · have : (i + ((exAdv 4).n : Int)) % 4 = i % 4 := Int.add_emod_right _ _
    simp only [this]

example : (pyStep1 (pyLimiterFun fun _ _ _ _ => 0) (advectionRp 1) (exAdv 4) none (fun _ => ())
    (fun i _ => if i % 4 = 0 ∨ i % 4 = 1 then 1 else 0)).1 4 0 = (1 / 2 : ℚ) := by decide +kernel

/-- Without a limiter (Lax–Wendroff) the same step creates a new extremum: the claim needs the limiter. -/
theorem C39_unlimited_overshoots :
    (pyStep1 (pyLimiterFun fun _ _ _ _ => 0) (advectionRp 1) (exAdv 0) none (fun _ => ())
      (fun i _ => if i % 4 = 0 ∨ i % 4 = 1 then 1 else 0)).1 5 0 = (9 / 8 : ℚ) := by decide +kernel

end PyClaw
