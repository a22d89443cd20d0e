import Verif.Props.SharpChar

/-!
C45, C79: the fifth-order values are those of Jiang and Shu: the weights of the three candidates are the ideal weights divided by the
square of the smoothness indicator plus the small number. (Convexity alone, `WenoGood`, holds for any positive weights.)
-/
set_option linter.unusedSectionVars false
namespace PyClaw
open Spec Polynomial

section
variable {K : Type*} [Field K] [CharZero K]

/-- The derivatives of a quadratic from its averages in the cells `c-1`, `c`, `c+1`. -/
theorem quadratic_derivatives (h : K) (hh : h ≠ 0) (P : K[X]) (hP : P.natDegree ≤ 3) (c : Int) (x y z : K)
    (hx : cellAverage h P (c - 1) = x) (hy : cellAverage h P c = y) (hz : cellAverage h P (c + 1) = z) (t : Int) :
    h * P.derivative.derivative.eval ((t : K) * h) = (z - x) / 2 + (t - c) * (z - 2 * y + x) ∧
    h ^ 2 * P.derivative.derivative.derivative.eval ((t : K) * h) = z - 2 * y + x := by
  have h4 : P.coeff 4 = 0 := coeff_eq_zero_of_natDegree_lt (by omega)
  have h5 : P.coeff 5 = 0 := coeff_eq_zero_of_natDegree_lt (by omega)
  have n1 := (natDegree_derivative_le P).trans (Nat.sub_le_sub_right hP 1)
  have n2 := (natDegree_derivative_le P.derivative).trans (Nat.sub_le_sub_right n1 1)
  have n3 := (natDegree_derivative_le P.derivative.derivative).trans (Nat.sub_le_sub_right n2 1)
  have d2 : P.derivative.derivative.eval ((t : K) * h) = 2 * P.coeff 2 + 6 * P.coeff 3 * (t * h) := by
    rw [eval_eq_sum_range' (show P.derivative.derivative.natDegree < 2 by omega)]
    simp [Finset.sum_range_succ, coeff_derivative]
    ring
  have d3 : P.derivative.derivative.derivative.eval ((t : K) * h) = 6 * P.coeff 3 := by
    rw [eval_eq_sum_range' (show P.derivative.derivative.derivative.natDegree < 1 by omega)]
    simp [coeff_derivative]
    ring
  subst hx hy hz
  rw [d2, d3]
  unfold cellAverage
  simp only [(eval_deg5 P (by omega) _).1, h4, h5]
  push_cast
  constructor <;> field_simp <;> ring
end

variable {K : Type*} [Field K] [LinearOrder K] [IsStrictOrderedRing K] {m w : Nat}

theorem candidates_smooth (h : K) (hh : h ≠ 0) (q : Int → K) (c : Int) (P : Fin 3 → K[X])
    (hP : ∀ k : Fin 3, Interpolates h q 2 (c - 2 + (k : Nat)) (c + (k : Nat)) (P k)) :
    smoothness h (P 0) c = wSigma2 q c ∧ smoothness h (P 1) c = wSigma1 q c ∧ smoothness h (P 2) c = wSigma0 q c := by
  obtain ⟨d0, a0⟩ := hP 0
  obtain ⟨d1, a1⟩ := hP 1
  obtain ⟨d2, a2⟩ := hP 2
  simp only [Fin.val_zero, Fin.val_one, Fin.val_two, Nat.cast_zero, Nat.cast_one, Nat.cast_ofNat, add_zero] at a0 a1 a2
  have k0 := quadratic_derivatives h hh (P 0) d0 (c - 1) (q (c - 2)) (q (c - 1)) (q c)
    (by rw [← a0 (c - 2) (by omega) (by omega)]; congr 1; ring) (a0 _ (by omega) (by omega))
    (by rw [← a0 c (by omega) (by omega)]; congr 1; ring) c
  have k1 := quadratic_derivatives h hh (P 1) d1 c (q (c - 1)) (q c) (q (c + 1))
    (a1 _ (by omega) (by omega)) (a1 _ (by omega) (by omega)) (a1 _ (by omega) (by omega)) c
  have k2 := quadratic_derivatives h hh (P 2) d2 (c + 1) (q c) (q (c + 1)) (q (c + 2))
    (by rw [← a2 c (by omega) (by omega)]; congr 1; ring) (a2 _ (by omega) (by omega))
    (by rw [← a2 (c + 2) (by omega) (by omega)]; congr 1; ring) c
  unfold smoothness wSigma0 wSigma1 wSigma2
  rw [k0.1, k0.2, k1.1, k1.2, k2.1, k2.2]
  push_cast
  refine ⟨?_, ?_, ?_⟩ <;> ring

/-- The edge values of the three candidates. -/
theorem candidates_edges (h : K) (hh : h ≠ 0) (q : Int → K) (c : Int) (P : Fin 3 → K[X])
    (hP : ∀ k : Fin 3, Interpolates h q 2 (c - 2 + (k : Nat)) (c + (k : Nat)) (P k)) :
    (rightEdge h (P 0) c = 11 / 6 * q c - 7 / 6 * q (c - 1) + 1 / 3 * q (c - 2) ∧
      rightEdge h (P 1) c = 5 / 6 * q c + 1 / 3 * q (c + 1) - 1 / 6 * q (c - 1) ∧
      rightEdge h (P 2) c = 1 / 3 * q c + 5 / 6 * q (c + 1) - 1 / 6 * q (c + 2)) ∧
    leftEdge h (P 0) c = 1 / 3 * q c + 5 / 6 * q (c - 1) - 1 / 6 * q (c - 2) ∧
      leftEdge h (P 1) c = 5 / 6 * q c - 1 / 6 * q (c + 1) + 1 / 3 * q (c - 1) ∧
      leftEdge h (P 2) c = 11 / 6 * q c - 7 / 6 * q (c + 1) + 1 / 3 * q (c + 2) := by
  obtain ⟨d0, a0⟩ := hP 0
  obtain ⟨d1, a1⟩ := hP 1
  obtain ⟨d2, a2⟩ := hP 2
  simp only [Fin.val_zero, Fin.val_one, Fin.val_two, Nat.cast_zero, Nat.cast_one, Nat.cast_ofNat, add_zero] at a0 a1 a2
  have k0 := quadratic_edges h hh (P 0) d0 (c - 1) (q (c - 2)) (q (c - 1)) (q c)
    (by rw [← a0 (c - 2) (by omega) (by omega)]; congr 1; ring) (a0 _ (by omega) (by omega))
    (by rw [← a0 c (by omega) (by omega)]; congr 1; ring)
  have k1 := quadratic_edges h hh (P 1) d1 c (q (c - 1)) (q c) (q (c + 1))
    (a1 _ (by omega) (by omega)) (a1 _ (by omega) (by omega)) (a1 _ (by omega) (by omega))
  have k2 := quadratic_edges h hh (P 2) d2 (c + 1) (q c) (q (c + 1)) (q (c + 2))
    (by rw [← a2 c (by omega) (by omega)]; congr 1; ring) (a2 _ (by omega) (by omega))
    (by rw [← a2 (c + 2) (by omega) (by omega)]; congr 1; ring)
  refine ⟨⟨?_, ?_, ?_⟩, ?_, ?_, ?_⟩
  · have := k0.2.2.1
    rw [show c - 1 + 1 = c by ring] at this
    rw [this]; ring
  · rw [k1.2.1]; ring
  · have := k2.1
    rw [show c + 1 - 1 = c by ring] at this
    rw [this]
  · rw [← edge_shift, k0.2.1]; ring
  · rw [← edge_shift, k1.1]; ring
  · have := k2.2.2.2
    rw [show c + 1 - 1 = c by ring] at this
    rw [this]

theorem wCombineR_weno (eps : K) (q : Int → K) (c : Int) :
    IsWeno5 rightEdge idealRight eps q c (wCombineR eps q c (wSigma0 q c) (wSigma1 q c) (wSigma2 q c)) := by
  intro h hh P hP
  obtain ⟨s0, s1, s2⟩ := candidates_smooth h hh q c P hP
  obtain ⟨⟨e0, e1, e2⟩, -⟩ := candidates_edges h hh q c P hP
  simp only [wenoMean, Fin.sum_univ_three, idealRight, Matrix.cons_val_zero, Matrix.cons_val_one, Matrix.cons_val, s0, s1, s2, e0, e1, e2, wCombineR]
  congr 1 <;> ring

theorem wCombineL_weno (eps : K) (q : Int → K) (c : Int) :
    IsWeno5 leftEdge idealLeft eps q c (wCombineL eps q c (wSigma0 q c) (wSigma1 q c) (wSigma2 q c)) := by
  intro h hh P hP
  obtain ⟨s0, s1, s2⟩ := candidates_smooth h hh q c P hP
  obtain ⟨-, e0, e1, e2⟩ := candidates_edges h hh q c P hP
  simp only [wenoMean, Fin.sum_univ_three, idealLeft, Matrix.cons_val_zero, Matrix.cons_val_one, Matrix.cons_val, s0, s1, s2, e0, e1, e2, wCombineL]
  congr 1 <;> ring

theorem shuValue_weno_right (eps : K) (he : 0 < eps) (v : Int → K) (i : Int) :
    IsWeno5 rightEdge idealRight (eps / 12) v (i - 1) (shuValue eps v 1 i) := by
  have := shuValue_right eps he v (i - 1)
  rw [sub_add_cancel] at this
  rw [this]
  exact wCombineR_weno _ _ _

theorem shuValue_weno_left (eps : K) (he : 0 < eps) (v : Int → K) (i : Int) :
    IsWeno5 leftEdge idealLeft (eps / 12) v i (shuValue eps v (-1) i) := by
  rw [shuValue_left eps he v i]
  exact wCombineL_weno _ _ _

/-- C45, weights, Fortran (`weno.f90`). -/
theorem C45_weights_fortran (eps : K) (g maxnx : Int) (q oldl oldr : Int → K) (c : Int) (h1 : g ≤ c) (h2 : c ≤ maxnx + g + 1) :
    IsWeno5 leftEdge idealLeft eps q c (fWenoQl eps g maxnx q oldl c) ∧
      IsWeno5 rightEdge idealRight eps q c (fWenoQr eps g maxnx q oldr c) := by
  unfold fWenoQl fWenoQr
  rw [if_pos ⟨h1, h2⟩, if_pos ⟨h1, h2⟩]
  exact ⟨wCombineL_weno _ _ _, wCombineR_weno _ _ _⟩

/-- C45, weights, Python (`recon.py`): the same method with a twelfth of the small number, in the cells used by the solver. -/
theorem C45_weights_python (eps : K) (he : 0 < eps) (mx : Int) (q : Int → K) (c : Int) :
    (2 ≤ c → c ≤ mx + 2 → IsWeno5 rightEdge idealRight (eps / 12) q c (pyWenoQr eps (mx + 6) q c)) ∧
    (3 ≤ c → c ≤ mx + 3 → IsWeno5 leftEdge idealLeft (eps / 12) q c (pyWenoQl eps (mx + 6) q c)) := by
  unfold pyWenoQl pyWenoQr
  refine ⟨fun h1 h2 => ?_, fun h1 h2 => ?_⟩
  · rw [if_pos ⟨h1, by omega⟩, shuValue_right _ he]
    exact wCombineR_weno _ _ _
  · rw [if_pos ⟨h1, by omega⟩]
    exact shuValue_weno_left eps he q c

/-- C45, weights, for `lim_type = 3` (reconstruct.f90). -/
theorem C45_weights_shu (eps : K) (he : 0 < eps) (g mx : Int) (q oldl oldr : Int → K) (c : Int) :
    (g - 1 ≤ c → c ≤ mx + g → IsWeno5 rightEdge idealRight (eps / 12) q c (fShuQr eps g (mx + 2 * g) q oldr c)) ∧
    (g ≤ c → c ≤ mx + g + 1 → IsWeno5 leftEdge idealLeft (eps / 12) q c (fShuQl eps g (mx + 2 * g) q oldl c)) := by
  unfold fShuQl fShuQr
  refine ⟨fun h1 h2 => ?_, fun h1 h2 => ?_⟩
  · rw [if_pos ⟨h1, by omega⟩, shuValue_right _ he]
    exact wCombineR_weno _ _ _
  · rw [if_pos ⟨h1, by omega⟩]
    exact shuValue_weno_left eps he q c

/-- C79, weights, `weno5_char`: in every characteristic field of the interface, both values are those of the method. -/
theorem C79_weights_char (eps : K) (he : 0 < eps) (stale : Fin m → Int → Int → K) (g n : Int) (hg : 3 ≤ g)
    (old : Edges K m) (evl evr : Int → Fin m → Fin m → K) (q : Int → Fin m → K) (i : Int) (h1 : g + 1 ≤ i)
    (h2 : i ≤ n + g + 1) (hd : Dual (evl i) (evr i)) (p : Fin m) :
    let e := fWenoChar eps stale g n old evl evr q
    let v : Int → K := fun j => pair (evl i p) (q j)
    IsWeno5 rightEdge idealRight (eps / 12) v (i - 1) (pair (evl i p) (e.qr (i - 1))) ∧
      IsWeno5 leftEdge idealLeft (eps / 12) v i (pair (evl i p) (e.ql i)) := by
  intro e v
  obtain ⟨a, b⟩ := weno_char_value eps stale g n hg old evl evr q i h1 h2 hd p
  exact ⟨a ▸ shuValue_weno_right eps he v i, b ▸ shuValue_weno_left eps he v i⟩

/-- C79, weights, `weno5_wave`: the method with a small number that depends on the size of the wave. -/
theorem C79_weights_wave (eps tol : K) (he : 0 < eps) (ht : 0 ≤ tol) (g n : Int) (hg : 3 ≤ g) (old : Edges K m)
    (L : Fin w → Fin m → K) (R : Fin m → Fin w → K) (hd : Dual L R) (q : Int → Fin m → K) (wave : Waves K m w)
    (hw : EigenWaves L R q wave) (i : Int) (h1 : g + 1 ≤ i) (h2 : i ≤ n + g + 1) (p : Fin w)
    (hp : tol < pair (wave i p) (wave i p)) :
    let e := fWenoWave eps tol g n old wave q
    let v : Int → K := fun j => pair (L p) (q j)
    ∃ eps', 0 < eps' ∧ IsWeno5 rightEdge idealRight eps' v (i - 1) (pair (L p) (e.qr (i - 1))) ∧
      IsWeno5 leftEdge idealLeft eps' v i (pair (L p) (e.ql i)) := by
  intro e v
  obtain ⟨hek, a, b⟩ := weno_wave_value eps tol he ht g n hg old L R hd q wave hw i h1 h2 p hp
  exact ⟨_, div_pos hek (by norm_num), a ▸ shuValue_weno_right _ hek v i, b ▸ shuValue_weno_left _ hek v i⟩

/-- C79, weights, `weno5_fwave`. -/
theorem C79_weights_fwave (eps tol : K) (he : 0 < eps) (ht : 0 ≤ tol) (g n : Int) (hg : 3 ≤ g) (old : Edges K m)
    (L : Fin w → Fin m → K) (R : Fin m → Fin w → K) (hd : Dual L R) (q : Int → Fin m → K) (wave fwave : Waves K m w)
    (s : Int → Fin w → K) (hs : ∀ j p, s j p ≠ 0) (hf : ∀ j p c, fwave j p c = s j p * wave j p c)
    (hw : EigenWaves L R q wave) (i : Int) (h1 : g + 1 ≤ i) (h2 : i ≤ n + g + 1) (p : Fin w)
    (hp : tol < pair (wave i p) (wave i p)) :
    let e := fWenoFwave eps tol g n old fwave s q
    let v : Int → K := fun j => pair (L p) (q j)
    ∃ eps', 0 < eps' ∧ IsWeno5 rightEdge idealRight eps' v (i - 1) (pair (L p) (e.qr (i - 1))) ∧
      IsWeno5 leftEdge idealLeft eps' v i (pair (L p) (e.ql i)) := by
  intro e v
  obtain ⟨hek, a, b⟩ := weno_fwave_value eps tol he ht g n hg old L R hd q wave fwave s hs hf hw i h1 h2 p hp
  exact ⟨_, div_pos hek (by norm_num), a ▸ shuValue_weno_right _ hek v i, b ▸ shuValue_weno_left _ hek v i⟩

/-- The candidates exist for all data, so `IsWeno5` determines the value: two values with the property are equal. -/
theorem C45_weights_determine (edge : K → K[X] → Int → K) (d : Fin 3 → K) (eps : K) (q : Int → K) (c : Int) (z z' : K)
    (hz : IsWeno5 edge d eps q c z) (hz' : IsWeno5 edge d eps q c z') : z = z' := by
  have ex : ∀ k : Fin 3, ∃ P, Interpolates (1 : K) q 2 (c - 2 + (k : Nat)) (c + (k : Nat)) P := by
    intro k
    obtain ⟨P, hP⟩ := exists_quadratic (1 : K) one_ne_zero q (c - 1 + (k : Nat))
    refine ⟨P, ?_⟩
    rw [show c - 1 + ((k : Nat) : Int) - 1 = c - 2 + (k : Nat) by ring, show c - 1 + ((k : Nat) : Int) + 1 = c + (k : Nat) by ring] at hP
    exact hP
  choose P hP using ex
  rw [hz 1 one_ne_zero P hP, hz' 1 one_ne_zero P hP]

/-- A case where the weights matter, data with a kink: the three candidates have the indicators 0, 4/3 and 1. -/
example : fWenoQr (1 / 10 : ℚ) 3 6 (fun j => if j ≤ 5 then 0 else j - 5) (fun _ => 0) 5 =
    wenoMean (1 / 10) idealRight ![0, 4 / 3, 1] ![0, 1 / 3, 1 / 2] := by
  simp only [wenoMean, Fin.sum_univ_three, idealRight, Matrix.cons_val_zero, Matrix.cons_val_one, Matrix.cons_val]
  norm_num [fWenoQr, wCombineR, wSigma0, wSigma1, wSigma2]

end PyClaw
