import Verif.Model.Weno
import Verif.Spec.Weno
import Mathlib.Tactic.Ring
import Mathlib.Tactic.Linarith
import Mathlib.Tactic.FieldSimp
import Mathlib.Tactic.Positivity
import Mathlib.Tactic.LinearCombination
import Mathlib.Tactic.ComputeDegree
import Mathlib.Algebra.Polynomial.Degree.Lemmas
set_option linter.unusedSectionVars false

/-!
# WENO reconstruction (C45, C46)
-/
namespace PyClaw
open Spec Polynomial

variable {K : Type*} [Field K]

/-- Evaluation of a primitive of degree at most 5 and of its derivative. -/
theorem eval_deg5 (P : K[X]) (hP : P.natDegree ≤ 5) (x : K) :
    P.eval x = P.coeff 0 + P.coeff 1 * x + P.coeff 2 * x ^ 2 + P.coeff 3 * x ^ 3 + P.coeff 4 * x ^ 4
      + P.coeff 5 * x ^ 5 ∧
    P.derivative.eval x = P.coeff 1 + 2 * P.coeff 2 * x + 3 * P.coeff 3 * x ^ 2 + 4 * P.coeff 4 * x ^ 3
      + 5 * P.coeff 5 * x ^ 4 := by
  constructor
  · rw [eval_eq_sum_range' (show P.natDegree < 6 by omega)]
    simp [Finset.sum_range_succ]
  · have hd : P.derivative.natDegree < 5 := by
      by_cases h0 : P.natDegree = 0
      · rw [natDegree_eq_zero] at h0
        obtain ⟨c, rfl⟩ := h0
        simp
      · have := natDegree_derivative_lt h0
        omega
    rw [eval_eq_sum_range' hd]
    simp [Finset.sum_range_succ, coeff_derivative]
    ring

section exact
variable [CharZero K]

/-- Ideal combination: exact for averages of quartics. -/
theorem quartic_edges (h : K) (hh : h ≠ 0) (P : K[X]) (hP : P.natDegree ≤ 5) (c : Int) (q : Int → K)
    (hq : ∀ j, c - 2 ≤ j → j ≤ c + 2 → cellAverage h P j = q j) :
    (2 * q (c - 2) - 13 * q (c - 1) + 47 * q c + 27 * q (c + 1) - 3 * q (c + 2)) / 60 = rightEdge h P c ∧
    (-3 * q (c - 2) + 27 * q (c - 1) + 47 * q c - 13 * q (c + 1) + 2 * q (c + 2)) / 60 = leftEdge h P c := by
  rw [← hq (c - 2) (by omega) (by omega), ← hq (c - 1) (by omega) (by omega), ← hq c (by omega) (by omega),
    ← hq (c + 1) (by omega) (by omega), ← hq (c + 2) (by omega) (by omega)]
  unfold cellAverage rightEdge leftEdge
  simp only [(eval_deg5 P hP _).1, (eval_deg5 P hP _).2]
  push_cast
  constructor <;> field_simp <;> ring

/-- Edge values of a quadratic from three averages, for the three positions of the cell. -/
theorem quadratic_edges (h : K) (hh : h ≠ 0) (P : K[X]) (hP : P.natDegree ≤ 3) (c : Int) (x y z : K)
    (hx : cellAverage h P (c - 1) = x) (hy : cellAverage h P c = y) (hz : cellAverage h P (c + 1) = z) :
    rightEdge h P (c - 1) = 1 / 3 * x + 5 / 6 * y - 1 / 6 * z ∧
    rightEdge h P c = -(1 / 6) * x + 5 / 6 * y + 1 / 3 * z ∧
    rightEdge h P (c + 1) = 1 / 3 * x - 7 / 6 * y + 11 / 6 * z ∧
    leftEdge h P (c - 1) = 11 / 6 * x - 7 / 6 * y + 1 / 3 * z := by
  have h4 : P.coeff 4 = 0 := coeff_eq_zero_of_natDegree_lt (by omega)
  have h5 : P.coeff 5 = 0 := coeff_eq_zero_of_natDegree_lt (by omega)
  subst hx hy hz
  unfold cellAverage rightEdge leftEdge
  simp only [(eval_deg5 P (by omega) _).1, (eval_deg5 P (by omega) _).2, h4, h5]
  push_cast
  refine ⟨?_, ?_, ?_, ?_⟩ <;> field_simp <;> ring

theorem edge_shift (h : K) (P : K[X]) (c : Int) : rightEdge h P (c - 1) = leftEdge h P c := by
  unfold rightEdge leftEdge
  congr 1
  push_cast
  ring

end exact

section ordered
variable [LinearOrder K] [IsStrictOrderedRing K]

theorem wSigma_nonneg (q : Int → K) (i : Int) : 0 ≤ wSigma0 q i ∧ 0 ≤ wSigma1 q i ∧ 0 ≤ wSigma2 q i := by
  unfold wSigma0 wSigma1 wSigma2
  refine ⟨?_, ?_, ?_⟩
  · nlinarith [sq_nonneg (q i - 2 * q (i + 1) + q (i + 2)), sq_nonneg (3 * q i - 4 * q (i + 1) + q (i + 2))]
  · nlinarith [sq_nonneg (q (i - 1) - 2 * q i + q (i + 1)), sq_nonneg (q (i - 1) - q (i + 1))]
  · nlinarith [sq_nonneg (q i - 2 * q (i - 1) + q (i - 2)), sq_nonneg (3 * q i - 4 * q (i - 1) + q (i - 2))]

/-- Normalising three positive weights. -/
theorem convex_of_weights {a b c p r s : K} (hp : 0 < p) (hr : 0 < r) (hs : 0 < s) :
    ConvexOf ((a * p + b * r + c * s) / (p + r + s)) a b c := by
  have ht : 0 < p + r + s := by positivity
  refine ⟨p / (p + r + s), r / (p + r + s), s / (p + r + s), by positivity, by positivity, by positivity, ?_, ?_⟩
  · field_simp
  · field_simp

/-- The Shu form (recon.py, reconstruct.f90) equals the PyWENO form (weno.f90) with all indicators divided
by 12. -/
theorem shu_eq_right (eps : K) (q : Int → K) (c : Int) (x1 x2 x3 : K) (h1 : 0 < eps + x1) (h2 : 0 < eps + x2)
    (h3 : 0 < eps + x3) :
    shuCombine eps q 1 (c + 1) x1 x2 x3 = wCombineR (eps / 12) q c (x3 / 12) (x2 / 12) (x1 / 12) := by
  unfold shuCombine wCombineR shuDiff
  have e1 : eps / 12 + x1 / 12 = (eps + x1) / 12 := by ring
  have e2 : eps / 12 + x2 / 12 = (eps + x2) / 12 := by ring
  have e3 : eps / 12 + x3 / 12 = (eps + x3) / 12 := by ring
  rw [e1, e2, e3]
  generalize eps + x1 = A at *
  generalize eps + x2 = B at *
  generalize eps + x3 = C at *
  have i1 : c + 1 - 2 * 1 = c - 1 := by ring
  have i3 : c + 1 - 1 = c := by ring
  have i4 : c + 1 + 1 = c + 2 := by ring
  have i5 : c + 2 - 1 = c + 1 := by ring
  have i6 : c + 1 - 2 = c - 1 := by ring
  have i7 : c - 1 - 1 = c - 2 := by ring
  simp only [i1, i3, i4, i5, i6, i7, Int.cast_one]
  have hs : B ^ 2 * C ^ 2 + 6 * A ^ 2 * C ^ 2 + 3 * A ^ 2 * B ^ 2 ≠ 0 := by positivity
  have hd : 3 / 10 / (C / 12) ^ 2 + 6 / 10 / (B / 12) ^ 2 + 1 / 10 / (A / 12) ^ 2 =
      (B ^ 2 * C ^ 2 + 6 * A ^ 2 * C ^ 2 + 3 * A ^ 2 * B ^ 2) * (144 / 10 / (A ^ 2 * B ^ 2 * C ^ 2)) := by
    field_simp
    ring
  rw [hd, eq_div_iff (by positivity)]
  generalize hS : B ^ 2 * C ^ 2 + 6 * A ^ 2 * C ^ 2 + 3 * A ^ 2 * B ^ 2 = S at *
  have hS' : 6 * A ^ 2 * C ^ 2 = S - B ^ 2 * C ^ 2 - 3 * A ^ 2 * B ^ 2 := by rw [← hS]; ring
  have hB : 6 / 10 / (B / 12) ^ 2 = (S - B ^ 2 * C ^ 2 - 3 * A ^ 2 * B ^ 2) * (144 / 10 / (A ^ 2 * B ^ 2 * C ^ 2)) := by
    rw [← hS']; field_simp; norm_num
  rw [hB]
  field_simp
  ring

theorem shu_eq_left (eps : K) (q : Int → K) (c : Int) (x1 x2 x3 : K) (h1 : 0 < eps + x1) (h2 : 0 < eps + x2)
    (h3 : 0 < eps + x3) :
    shuCombine eps q (-1) c x1 x2 x3 = wCombineL (eps / 12) q c (x1 / 12) (x2 / 12) (x3 / 12) := by
  unfold shuCombine wCombineL shuDiff
  have e1 : eps / 12 + x1 / 12 = (eps + x1) / 12 := by ring
  have e2 : eps / 12 + x2 / 12 = (eps + x2) / 12 := by ring
  have e3 : eps / 12 + x3 / 12 = (eps + x3) / 12 := by ring
  rw [e1, e2, e3]
  generalize eps + x1 = A at *
  generalize eps + x2 = B at *
  generalize eps + x3 = C at *
  have i1 : c - 2 * -1 = c + 2 := by ring
  have i2 : c + 2 - 1 = c + 1 := by ring
  have i3 : c - -1 = c + 1 := by ring
  have i4 : c + 1 - 1 = c := by ring
  have i5 : c + -1 = c - 1 := by ring
  have i7 : c - 1 - 1 = c - 2 := by ring
  simp only [i1, i2, i3, i4, i5, i7, Int.cast_one, Int.cast_neg]
  have hs : B ^ 2 * C ^ 2 + 6 * A ^ 2 * C ^ 2 + 3 * A ^ 2 * B ^ 2 ≠ 0 := by positivity
  have hd : 1 / 10 / (A / 12) ^ 2 + 6 / 10 / (B / 12) ^ 2 + 3 / 10 / (C / 12) ^ 2 =
      (B ^ 2 * C ^ 2 + 6 * A ^ 2 * C ^ 2 + 3 * A ^ 2 * B ^ 2) * (144 / 10 / (A ^ 2 * B ^ 2 * C ^ 2)) := by
    field_simp
    ring
  rw [hd, eq_div_iff (by positivity)]
  generalize hS : B ^ 2 * C ^ 2 + 6 * A ^ 2 * C ^ 2 + 3 * A ^ 2 * B ^ 2 = S at *
  have hS' : 6 * A ^ 2 * C ^ 2 = S - B ^ 2 * C ^ 2 - 3 * A ^ 2 * B ^ 2 := by rw [← hS]; ring
  have hB : 6 / 10 / (B / 12) ^ 2 = (S - B ^ 2 * C ^ 2 - 3 * A ^ 2 * B ^ 2) * (144 / 10 / (A ^ 2 * B ^ 2 * C ^ 2)) := by
    rw [← hS']; field_simp; norm_num
  rw [hB]
  field_simp
  ring

theorem shuTT_right (q : Int → K) (c : Int) :
    shuTT1 q 1 (c + 1) = 12 * wSigma2 q c ∧ shuTT2 q 1 (c + 1) = 12 * wSigma1 q c ∧
    shuTT3 q 1 (c + 1) = 12 * wSigma0 q c := by
  have i1 : c + 1 - 2 * 1 = c - 1 := by ring
  have i3 : c + 1 - 1 = c := by ring
  have i4 : c + 1 + 1 = c + 2 := by ring
  have i5 : c + 2 - 1 = c + 1 := by ring
  have i7 : c - 1 - 1 = c - 2 := by ring
  unfold shuTT1 shuTT2 shuTT3 shuDiff wSigma0 wSigma1 wSigma2
  simp only [i1, i3, i4, i5, i7, Int.cast_one]
  refine ⟨?_, ?_, ?_⟩ <;> ring

theorem shuTT_left (q : Int → K) (c : Int) :
    shuTT1 q (-1) c = 12 * wSigma0 q c ∧ shuTT2 q (-1) c = 12 * wSigma1 q c ∧
    shuTT3 q (-1) c = 12 * wSigma2 q c := by
  have i1 : c - 2 * -1 = c + 2 := by ring
  have i2 : c + 2 - 1 = c + 1 := by ring
  have i3 : c - -1 = c + 1 := by ring
  have i4 : c + 1 - 1 = c := by ring
  have i5 : c + -1 = c - 1 := by ring
  have i7 : c - 1 - 1 = c - 2 := by ring
  unfold shuTT1 shuTT2 shuTT3 shuDiff wSigma0 wSigma1 wSigma2
  simp only [i1, i2, i3, i4, i5, i7, Int.cast_one, Int.cast_neg]
  refine ⟨?_, ?_, ?_⟩ <;> ring

theorem shuValue_right (eps : K) (he : 0 < eps) (q : Int → K) (c : Int) :
    shuValue eps q 1 (c + 1) = wCombineR (eps / 12) q c (wSigma0 q c) (wSigma1 q c) (wSigma2 q c) := by
  obtain ⟨n0, n1, n2⟩ := wSigma_nonneg q c
  obtain ⟨e1, e2, e3⟩ := shuTT_right q c
  unfold shuValue
  rw [shu_eq_right _ _ _ _ _ _ (by rw [e1]; positivity) (by rw [e2]; positivity) (by rw [e3]; positivity),
    e1, e2, e3]
  congr 1 <;> ring

theorem shuValue_left (eps : K) (he : 0 < eps) (q : Int → K) (c : Int) :
    shuValue eps q (-1) c = wCombineL (eps / 12) q c (wSigma0 q c) (wSigma1 q c) (wSigma2 q c) := by
  obtain ⟨n0, n1, n2⟩ := wSigma_nonneg q c
  obtain ⟨e1, e2, e3⟩ := shuTT_left q c
  unfold shuValue
  rw [shu_eq_left _ _ _ _ _ _ (by rw [e1]; positivity) (by rw [e2]; positivity) (by rw [e3]; positivity),
    e1, e2, e3]
  congr 1 <;> ring

/-! ### C45 -/

/-- Three averages are those of a quadratic. -/
theorem exists_quadratic (h : K) (hh : h ≠ 0) (q : Int → K) (a : Int) :
    ∃ P, Interpolates h q 2 (a - 1) (a + 1) P := by
  set x := q (a - 1)
  set y := q a
  set z := q (a + 1)
  let c3 : K := (x - 2 * y + z) / 6 / h ^ 2
  let c2 : K := (z - x) / 4 / h
  let c1 : K := y - (x - 2 * y + z) / 24
  let R : K[X] := C c1 * X + C c2 * X ^ 2 + C c3 * X ^ 3
  refine ⟨R.comp (X - C (a * h)), ?_, ?_⟩
  · refine natDegree_comp_le.trans ?_
    have h1 : R.natDegree ≤ 3 := by
      simp only [R]
      compute_degree
    have h2 : (X - C ((a : K) * h)).natDegree ≤ 1 := natDegree_X_sub_C_le _
    calc R.natDegree * (X - C ((a : K) * h)).natDegree ≤ 3 * 1 := Nat.mul_le_mul h1 h2
      _ = 2 + 1 := rfl
  · intro j hj1 hj2
    have : j = a - 1 ∨ j = a ∨ j = a + 1 := by omega
    unfold cellAverage
    rcases this with rfl | rfl | rfl <;> simp only [R, eval_comp, eval_add, eval_mul, eval_C, eval_X, eval_pow, eval_sub, c1, c2, c3] <;> push_cast <;> field_simp <;> ring

/-- What C45 says of a value reconstructed at an edge (`edge` is `leftEdge` or `rightEdge`) of cell `c`. -/
def WenoGood (edge : K → K[X] → Int → K) (q : Int → K) (c : Int) (z : K) : Prop :=
  ∀ h : K, h ≠ 0 → ∀ P0 P1 P2, Interpolates h q 2 (c - 2) c P0 → Interpolates h q 2 (c - 1) (c + 1) P1 →
    Interpolates h q 2 c (c + 2) P2 → ConvexOf z (edge h P0 c) (edge h P1 c) (edge h P2 c)

theorem wCombineL_good (eps : K) (q : Int → K) (c : Int) (s0 s1 s2 : K) (h0 : 0 < eps + s0)
    (h1 : 0 < eps + s1) (h2 : 0 < eps + s2) : WenoGood leftEdge q c (wCombineL eps q c s0 s1 s2) := by
  rintro h hh P0 P1 P2 ⟨d0, a0⟩ ⟨d1, a1⟩ ⟨d2, a2⟩
  have k0 := quadratic_edges h hh P0 d0 (c - 1) (q (c - 2)) (q (c - 1)) (q c)
    (by rw [← a0 (c - 2) (by omega) (by omega)]; congr 1; ring) (a0 _ (by omega) (by omega))
    (by rw [← a0 c (by omega) (by omega)]; congr 1; ring)
  have k1 := quadratic_edges h hh P1 d1 c (q (c - 1)) (q c) (q (c + 1))
    (a1 _ (by omega) (by omega)) (a1 _ (by omega) (by omega)) (a1 _ (by omega) (by omega))
  have k2 := quadratic_edges h hh P2 d2 (c + 1) (q c) (q (c + 1)) (q (c + 2))
    (by rw [← a2 c (by omega) (by omega)]; congr 1; ring) (a2 _ (by omega) (by omega))
    (by rw [← a2 (c + 2) (by omega) (by omega)]; congr 1; ring)
  have e0 : leftEdge h P0 c = 1 / 3 * q c + 5 / 6 * q (c - 1) - 1 / 6 * q (c - 2) := by
    rw [← edge_shift, k0.2.1]; ring
  have e1 : leftEdge h P1 c = 5 / 6 * q c - 1 / 6 * q (c + 1) + 1 / 3 * q (c - 1) := by
    rw [← edge_shift, k1.1]; ring
  have e2 : leftEdge h P2 c = 11 / 6 * q c - 7 / 6 * q (c + 1) + 1 / 3 * q (c + 2) := by
    have := k2.2.2.2
    rw [show c + 1 - 1 = c by ring] at this
    rw [this]
  rw [e0, e1, e2]
  obtain ⟨u, v, w, hu, hv, hw, hs, hz⟩ := convex_of_weights (a := 11 / 6 * q c - 7 / 6 * q (c + 1) + 1 / 3 * q (c + 2))
    (b := 5 / 6 * q c - 1 / 6 * q (c + 1) + 1 / 3 * q (c - 1))
    (c := 1 / 3 * q c + 5 / 6 * q (c - 1) - 1 / 6 * q (c - 2))
    (show (0 : K) < 1 / 10 / (eps + s0) ^ 2 by positivity) (show (0 : K) < 6 / 10 / (eps + s1) ^ 2 by positivity)
    (show (0 : K) < 3 / 10 / (eps + s2) ^ 2 by positivity)
  refine ⟨w, v, u, hw, hv, hu, by rw [← hs]; ring, ?_⟩
  unfold wCombineL
  simp only
  rw [hz]; ring

theorem wCombineR_good (eps : K) (q : Int → K) (c : Int) (s0 s1 s2 : K) (h0 : 0 < eps + s0)
    (h1 : 0 < eps + s1) (h2 : 0 < eps + s2) : WenoGood rightEdge q c (wCombineR eps q c s0 s1 s2) := by
  rintro h hh P0 P1 P2 ⟨d0, a0⟩ ⟨d1, a1⟩ ⟨d2, a2⟩
  have k0 := quadratic_edges h hh P0 d0 (c - 1) (q (c - 2)) (q (c - 1)) (q c)
    (by rw [← a0 (c - 2) (by omega) (by omega)]; congr 1; ring) (a0 _ (by omega) (by omega))
    (by rw [← a0 c (by omega) (by omega)]; congr 1; ring)
  have k1 := quadratic_edges h hh P1 d1 c (q (c - 1)) (q c) (q (c + 1))
    (a1 _ (by omega) (by omega)) (a1 _ (by omega) (by omega)) (a1 _ (by omega) (by omega))
  have k2 := quadratic_edges h hh P2 d2 (c + 1) (q c) (q (c + 1)) (q (c + 2))
    (by rw [← a2 c (by omega) (by omega)]; congr 1; ring) (a2 _ (by omega) (by omega))
    (by rw [← a2 (c + 2) (by omega) (by omega)]; congr 1; ring)
  have e0 : rightEdge h P0 c = 11 / 6 * q c - 7 / 6 * q (c - 1) + 1 / 3 * q (c - 2) := by
    have := k0.2.2.1
    rw [show c - 1 + 1 = c by ring] at this
    rw [this]; ring
  have e1 : rightEdge h P1 c = 5 / 6 * q c + 1 / 3 * q (c + 1) - 1 / 6 * q (c - 1) := by
    rw [k1.2.1]; ring
  have e2 : rightEdge h P2 c = 1 / 3 * q c + 5 / 6 * q (c + 1) - 1 / 6 * q (c + 2) := by
    have := k2.1
    rw [show c + 1 - 1 = c by ring] at this
    rw [this]
  rw [e0, e1, e2]
  obtain ⟨u, v, w, hu, hv, hw, hs, hz⟩ := convex_of_weights (a := 1 / 3 * q c + 5 / 6 * q (c + 1) - 1 / 6 * q (c + 2))
    (b := 5 / 6 * q c + 1 / 3 * q (c + 1) - 1 / 6 * q (c - 1))
    (c := 11 / 6 * q c - 7 / 6 * q (c - 1) + 1 / 3 * q (c - 2))
    (show (0 : K) < 3 / 10 / (eps + s0) ^ 2 by positivity) (show (0 : K) < 6 / 10 / (eps + s1) ^ 2 by positivity)
    (show (0 : K) < 1 / 10 / (eps + s2) ^ 2 by positivity)
  refine ⟨w, v, u, hw, hv, hu, by rw [← hs]; ring, ?_⟩
  unfold wCombineR
  simp only
  rw [hz]; ring

/-- C45, Fortran (`weno.f90`). In every cell where the kernel computes them, both edge values are convex
combinations, with positive weights, of the edge values of the three quadratics that have the given
averages in three consecutive cells containing the cell. -/
theorem C45_fortran (eps : K) (he : 0 < eps) (g maxnx : Int) (q oldl oldr : Int → K) (c : Int)
    (h1 : g ≤ c) (h2 : c ≤ maxnx + g + 1) :
    WenoGood leftEdge q c (fWenoQl eps g maxnx q oldl c) ∧ WenoGood rightEdge q c (fWenoQr eps g maxnx q oldr c) := by
  obtain ⟨n0, n1, n2⟩ := wSigma_nonneg q c
  unfold fWenoQl fWenoQr
  rw [if_pos ⟨h1, h2⟩, if_pos ⟨h1, h2⟩]
  exact ⟨wCombineL_good _ _ _ _ _ _ (by positivity) (by positivity) (by positivity),
    wCombineR_good _ _ _ _ _ _ (by positivity) (by positivity) (by positivity)⟩

/-- C45, Python (`recon.py`): the same for the cells used by the solver: with `n = mx + 6` cells, the right
values of cells `2 … mx+2` and the left values of cells `3 … mx+3`. -/
theorem C45_python (eps : K) (he : 0 < eps) (mx : Int) (q : Int → K) (c : Int) :
    (2 ≤ c → c ≤ mx + 2 → WenoGood rightEdge q c (pyWenoQr eps (mx + 6) q c)) ∧
    (3 ≤ c → c ≤ mx + 3 → WenoGood leftEdge q c (pyWenoQl eps (mx + 6) q c)) := by
  obtain ⟨n0, n1, n2⟩ := wSigma_nonneg q c
  unfold pyWenoQl pyWenoQr
  refine ⟨fun h1 h2 => ?_, fun h1 h2 => ?_⟩
  · rw [if_pos ⟨h1, by omega⟩, shuValue_right _ he]
    exact wCombineR_good _ _ _ _ _ _ (by positivity) (by positivity) (by positivity)
  · rw [if_pos ⟨h1, by omega⟩, shuValue_left _ he]
    exact wCombineL_good _ _ _ _ _ _ (by positivity) (by positivity) (by positivity)

/-- C45 for `lim_type = 3` (reconstruct.f90). -/
theorem C45_fortran_shu (eps : K) (he : 0 < eps) (g mx : Int) (q oldl oldr : Int → K) (c : Int) :
    (g - 1 ≤ c → c ≤ mx + g → WenoGood rightEdge q c (fShuQr eps g (mx + 2 * g) q oldr c)) ∧
    (g ≤ c → c ≤ mx + g + 1 → WenoGood leftEdge q c (fShuQl eps g (mx + 2 * g) q oldl c)) := by
  obtain ⟨n0, n1, n2⟩ := wSigma_nonneg q c
  unfold fShuQl fShuQr
  refine ⟨fun h1 h2 => ?_, fun h1 h2 => ?_⟩
  · rw [if_pos ⟨h1, by omega⟩, shuValue_right _ he]
    exact wCombineR_good _ _ _ _ _ _ (by positivity) (by positivity) (by positivity)
  · rw [if_pos ⟨h1, by omega⟩, shuValue_left _ he]
    exact wCombineL_good _ _ _ _ _ _ (by positivity) (by positivity) (by positivity)

/-- The candidates exist and are unique, so `WenoGood` is not vacuous. -/
theorem C45_candidates (q : Int → K) (c : Int) (h : K) (hh : h ≠ 0) :
    (∃ P, Interpolates h q 2 (c - 1) (c + 1) P) ∧
    ∀ P P', Interpolates h q 2 (c - 1) (c + 1) P → Interpolates h q 2 (c - 1) (c + 1) P' →
      ∀ j, c - 1 ≤ j → j ≤ c + 1 → rightEdge h P j = rightEdge h P' j ∧ leftEdge h P j = leftEdge h P' j := by
  refine ⟨exists_quadratic h hh q c, ?_⟩
  rintro P P' ⟨d, a⟩ ⟨d', a'⟩ j hj1 hj2
  have k := quadratic_edges h hh P d c _ _ _ (a _ (by omega) (by omega)) (a _ (by omega) (by omega)) (a _ (by omega) (by omega))
  have k' := quadratic_edges h hh P' d' c _ _ _ (a' _ (by omega) (by omega)) (a' _ (by omega) (by omega)) (a' _ (by omega) (by omega))
  obtain ⟨r1, r2, r3, l1⟩ := k
  obtain ⟨r1', r2', r3', l1'⟩ := k'
  have l2 : leftEdge h P c = leftEdge h P' c := by rw [← edge_shift, ← edge_shift, r1, r1']
  have l3 : leftEdge h P (c + 1) = leftEdge h P' (c + 1) := by
    rw [← edge_shift, ← edge_shift, show c + 1 - 1 = c by ring, r2, r2']
  have : j = c - 1 ∨ j = c ∨ j = c + 1 := by omega
  rcases this with rfl | rfl | rfl
  · exact ⟨by rw [r1, r1'], by rw [l1, l1']⟩
  · exact ⟨by rw [r2, r2'], l2⟩
  · exact ⟨by rw [r3, r3'], l3⟩

/-- A good value is exact on quadratics and lies between the candidates; in particular constants are
reproduced. -/
theorem C45_exact_on_quadratics (edge : K → K[X] → Int → K) (q : Int → K) (c : Int) (z : K)
    (hz : WenoGood edge q c z) (h : K) (hh : h ≠ 0) (P : K[X]) (hP : Interpolates h q 2 (c - 2) (c + 2) P) :
    z = edge h P c := by
  have sub : ∀ a b, c - 2 ≤ a → b ≤ c + 2 → Interpolates h q 2 a b P := fun a b ha hb =>
    ⟨hP.1, fun j h1 h2 => hP.2 j (by omega) (by omega)⟩
  obtain ⟨u, v, w, -, -, -, hs, e⟩ := hz h hh P P P (sub _ _ (by omega) (by omega)) (sub _ _ (by omega) (by omega))
    (sub _ _ (by omega) (by omega))
  rw [e, ← add_mul, ← add_mul, hs, one_mul]

theorem convexOf_between {z a b c : K} (h : ConvexOf z a b c) :
    min a (min b c) ≤ z ∧ z ≤ max a (max b c) := by
  obtain ⟨u, v, w, hu, hv, hw, hs, rfl⟩ := h
  have e : w = 1 - u - v := by linarith
  constructor
  · have h1 : min a (min b c) ≤ a := min_le_left _ _
    have h2 : min a (min b c) ≤ b := (min_le_right _ _).trans (min_le_left _ _)
    have h3 : min a (min b c) ≤ c := (min_le_right _ _).trans (min_le_right _ _)
    generalize min a (min b c) = m at *
    have : m = u * m + v * m + w * m := by rw [← add_mul, ← add_mul, hs, one_mul]
    rw [this]
    gcongr
  · have h1 : a ≤ max a (max b c) := le_max_left _ _
    have h2 : b ≤ max a (max b c) := (le_max_left _ _).trans (le_max_right _ _)
    have h3 : c ≤ max a (max b c) := (le_max_right _ _).trans (le_max_right _ _)
    generalize max a (max b c) = m at *
    have : m = u * m + v * m + w * m := by rw [← add_mul, ← add_mul, hs, one_mul]
    rw [this]
    gcongr

/-- Constants are reproduced by both kernels. -/
theorem C45_constants (eps : K) (he : 0 < eps) (q : Int → K) (c : Int) (k : K)
    (hk : ∀ j, c - 2 ≤ j → j ≤ c + 2 → q j = k) (g maxnx n : Int) (oldl oldr : Int → K) :
    (g ≤ c → c ≤ maxnx + g + 1 → fWenoQl eps g maxnx q oldl c = k ∧ fWenoQr eps g maxnx q oldr c = k) ∧
    pyWenoQl eps n q c = k ∧ pyWenoQr eps n q c = k := by
  obtain ⟨n0, n1, n2⟩ := wSigma_nonneg q c
  have hP : Interpolates (1 : K) q 2 (c - 2) (c + 2) (C k * X) := by
    refine ⟨(natDegree_C_mul_le k X).trans (natDegree_X_le.trans (by omega)), fun j h1 h2 => ?_⟩
    rw [hk j h1 h2]; unfold cellAverage; simp; ring
  have el : leftEdge (1 : K) (C k * X) c = k := by unfold leftEdge; simp
  have er : rightEdge (1 : K) (C k * X) c = k := by unfold rightEdge; simp
  refine ⟨fun h1 h2 => ?_, ?_, ?_⟩
  · obtain ⟨a, b⟩ := C45_fortran eps he g maxnx q oldl oldr c h1 h2
    exact ⟨(C45_exact_on_quadratics _ _ _ _ a 1 one_ne_zero _ hP).trans el,
      (C45_exact_on_quadratics _ _ _ _ b 1 one_ne_zero _ hP).trans er⟩
  · unfold pyWenoQl
    split_ifs with hc
    · rw [shuValue_left _ he]
      exact (C45_exact_on_quadratics _ _ _ _ (wCombineL_good _ _ _ _ _ _ (by positivity) (by positivity) (by positivity))
        1 one_ne_zero _ hP).trans el
    · exact hk c (by omega) (by omega)
  · unfold pyWenoQr
    split_ifs with hc
    · rw [shuValue_right _ he]
      exact (C45_exact_on_quadratics _ _ _ _ (wCombineR_good _ _ _ _ _ _ (by positivity) (by positivity) (by positivity))
        1 one_ne_zero _ hP).trans er
    · exact hk c (by omega) (by omega)

/-! ### C46 -/

/-- C46, Fortran. With the ideal weights (those given by equal smoothness indicators) both edge values are
exact for averages of polynomials of degree at most 4. -/
theorem C46_fortran (eps σ : K) (hs : 0 < eps + σ) (h : K) (hh : h ≠ 0) (q : Int → K) (c : Int) (P : K[X])
    (hP : Interpolates h q 4 (c - 2) (c + 2) P) :
    wCombineL eps q c σ σ σ = leftEdge h P c ∧ wCombineR eps q c σ σ σ = rightEdge h P c := by
  obtain ⟨r, l⟩ := quartic_edges h hh P hP.1 c q hP.2
  rw [← r, ← l]
  unfold wCombineL wCombineR
  generalize eps + σ = A at *
  simp only
  constructor <;> rw [div_eq_iff (by positivity)] <;> field_simp <;> ring

/-- C46, Python and reconstruct.f90. -/
theorem C46_python (eps σ : K) (hs : 0 < eps + σ) (h : K) (hh : h ≠ 0) (q : Int → K) (c : Int) (P : K[X])
    (hP : Interpolates h q 4 (c - 2) (c + 2) P) :
    shuCombine eps q (-1) c σ σ σ = leftEdge h P c ∧ shuCombine eps q 1 (c + 1) σ σ σ = rightEdge h P c := by
  rw [shu_eq_left _ _ _ _ _ _ hs hs hs, shu_eq_right _ _ _ _ _ _ hs hs hs]
  exact C46_fortran (eps / 12) (σ / 12) (by rw [← add_div]; positivity) h hh q c P hP

/-- C46 for the full nonlinear kernel: data whose three indicators agree is reconstructed exactly. -/
theorem C46_equal_indicators (eps : K) (he : 0 < eps) (h : K) (hh : h ≠ 0) (q : Int → K) (c : Int) (P : K[X])
    (hP : Interpolates h q 4 (c - 2) (c + 2) P) (h01 : wSigma0 q c = wSigma1 q c)
    (h12 : wSigma1 q c = wSigma2 q c) (g maxnx : Int) (oldl oldr : Int → K) (h1 : g ≤ c) (h2 : c ≤ maxnx + g + 1) :
    fWenoQl eps g maxnx q oldl c = leftEdge h P c ∧ fWenoQr eps g maxnx q oldr c = rightEdge h P c := by
  obtain ⟨n0, n1, n2⟩ := wSigma_nonneg q c
  unfold fWenoQl fWenoQr
  rw [if_pos ⟨h1, h2⟩, if_pos ⟨h1, h2⟩, h01, h12]
  exact C46_fortran eps _ (by positivity) h hh q c P hP

/-- Non-vacuity: linear data have equal indicators, and are averages of a polynomial. -/
example : let q : Int → ℚ := fun j => j
    wSigma0 q 7 = wSigma1 q 7 ∧ wSigma1 q 7 = wSigma2 q 7 ∧
      Interpolates (1 : ℚ) q 4 (7 - 2) (7 + 2) (C (1 / 2) * X ^ 2) := by
  refine ⟨by norm_num [wSigma0, wSigma1], by norm_num [wSigma1, wSigma2], ?_, ?_⟩
  · exact (natDegree_C_mul_le _ _).trans (by simp)
  · intro j _ _
    simp [cellAverage]; ring

/-- Non-vacuity: averages of a quartic that is not a quadratic. -/
example : Interpolates (1 : ℚ) (cellAverage 1 (X ^ 5)) 4 (0 - 2) (0 + 2) (X ^ 5) :=
  ⟨by simp, fun _ _ _ => rfl⟩

end ordered
end PyClaw
