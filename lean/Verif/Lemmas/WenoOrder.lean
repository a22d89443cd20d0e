import Verif.Spec.WenoOrder
import Verif.Lemmas.WenoTables
import Mathlib.LinearAlgebra.Lagrange
import Mathlib.Data.Rat.Cast.CharZero
import Mathlib.Algebra.Order.Field.Basic
import Mathlib.Tactic.FieldSimp

/-!
Lemmas for C85: mean values of polynomials, and what the conditions on the tables mean.
-/
set_option linter.unusedSectionVars false

namespace PyClaw
open Spec Polynomial

section mean
variable {K : Type*} [Field K]

/-- The mean value of `x^m` over the cell with centre `j`. -/
def monoMean (j : K) (m : Nat) : K := ((j + 1 / 2) ^ (m + 1) - (j - 1 / 2) ^ (m + 1)) / (m + 1)

theorem cellMean_eq_sum (p : K[X]) (j : K) (n : Nat) (h : p.natDegree < n) :
    cellMean p j = ∑ m ∈ Finset.range n, p.coeff m * monoMean j m := by
  unfold cellMean monoMean
  exact Polynomial.sum_over_range' p (f := fun m c => c * (((j + 1 / 2) ^ (m + 1) - (j - 1 / 2) ^ (m + 1)) / (m + 1))) (fun m => zero_mul _) n h

theorem cellMean_add (p r : K[X]) (j : K) : cellMean (p + r) j = cellMean p j + cellMean r j := by
  unfold cellMean
  rw [Polynomial.sum_add_index]
  · intro; simp
  · intros; ring

theorem cellMean_zero (j : K) : cellMean (0 : K[X]) j = 0 := by simp [cellMean]

theorem cellMean_sum {ι : Type*} (s : Finset ι) (f : ι → K[X]) (j : K) : cellMean (∑ x ∈ s, f x) j = ∑ x ∈ s, cellMean (f x) j := by
  classical
  induction s using Finset.induction_on with
  | empty => simp [cellMean_zero]
  | insert a s ha ih => rw [Finset.sum_insert ha, Finset.sum_insert ha, cellMean_add, ih]

theorem cellMean_monomial (m : Nat) (c j : K) : cellMean (monomial m c) j = c * monoMean j m := by
  unfold cellMean monoMean
  rw [Polynomial.sum_monomial_index]
  simp

variable [CharZero K]

/-- The fundamental theorem: the mean value is the difference of any antiderivative at the two edges. -/
theorem cellMean_derivative (P : K[X]) (j : K) : cellMean (derivative P) j = P.eval (j + 1 / 2) - P.eval (j - 1 / 2) := by
  induction P using Polynomial.induction_on' with
  | add p r hp hr => rw [derivative_add, cellMean_add, hp, hr, eval_add, eval_add]; ring
  | monomial n a =>
    rw [derivative_monomial, cellMean_monomial, eval_monomial, eval_monomial]
    cases n with
    | zero => simp
    | succ n =>
      have : ((n : K) + 1) ≠ 0 := by exact_mod_cast Nat.succ_ne_zero n
      unfold monoMean
      simp only [Nat.add_sub_cancel]
      push_cast
      field_simp

theorem exists_antiderivative (p : K[X]) : ∃ P : K[X], derivative P = p := by
  induction p using Polynomial.induction_on' with
  | add p r hp hr =>
    obtain ⟨P, hP⟩ := hp
    obtain ⟨R, hR⟩ := hr
    exact ⟨P + R, by rw [derivative_add, hP, hR]⟩
  | monomial n a =>
    refine ⟨monomial (n + 1) (a / (n + 1)), ?_⟩
    have : ((n : K) + 1) ≠ 0 := by exact_mod_cast Nat.succ_ne_zero n
    rw [derivative_monomial, Nat.add_sub_cancel]
    congr 1
    push_cast
    field_simp

theorem cellMean_shift (p : K[X]) (i j : K) : cellMean (p.comp (X + C i)) j = cellMean p (i + j) := by
  obtain ⟨P, rfl⟩ := exists_antiderivative p
  have : (derivative P).comp (X + C i) = derivative (P.comp (X + C i)) := by
    rw [derivative_comp]; simp
  rw [this, cellMean_derivative, cellMean_derivative]
  simp only [eval_comp, eval_add, eval_X, eval_C]
  rw [show j + 1 / 2 + i = i + j + 1 / 2 by ring, show j - 1 / 2 + i = i + j - 1 / 2 by ring]

theorem derivative_shift (p : K[X]) (i : K) (l : Nat) : derivative^[l] (p.comp (X + C i)) = (derivative^[l] p).comp (X + C i) := by
  induction l with
  | zero => rfl
  | succ l ih =>
    rw [Function.iterate_succ_apply', Function.iterate_succ_apply', ih, derivative_comp]
    simp

theorem roughness_shift (k : Nat) (p : K[X]) (i : K) : roughness k p i = roughness k (p.comp (X + C i)) 0 := by
  unfold roughness
  refine Finset.sum_congr rfl fun l _ => ?_
  rw [derivative_shift, ← pow_comp, cellMean_shift, add_zero]

/-! ### Casting the conditions on the tables -/

theorem monoMean_int (a : Int) (m : Nat) : monoMean (a : K) m = ((mono2 a m : Int) : K) / (((m + 1 : Nat) : K) * 2 ^ (m + 1)) := by
  have h : ((m + 1 : Nat) : K) ≠ 0 := by exact_mod_cast Nat.succ_ne_zero m
  have h' : (m : K) + 1 ≠ 0 := by exact_mod_cast Nat.succ_ne_zero m
  unfold monoMean mono2
  rw [show (a : K) + 1 / 2 = (2 * a + 1) / 2 by ring, show (a : K) - 1 / 2 = (2 * a - 1) / 2 by ring, div_pow, div_pow]
  push_cast
  field_simp

theorem coef_cast (c : Coef) : ((c.val ℚ : ℚ) : K) = c.val K := by
  unfold Coef.val
  push_cast
  rfl

theorem mean_lin (l : List (Int × Coef)) (n : Nat) (u : Nat → K) (g : Nat → Int → K) :
    (l.map fun e => e.2.val K * ∑ m ∈ Finset.range n, u m * g m e.1).sum =
      ∑ m ∈ Finset.range n, u m * (l.map fun e => e.2.val K * g m e.1).sum := by
  induction l with
  | nil => simp
  | cons e l ih =>
    simp only [List.map_cons, List.sum_cons, ih, mul_add, Finset.sum_add_distrib]
    congr 1
    rw [Finset.mul_sum]
    exact Finset.sum_congr rfl fun m _ => by ring

theorem mean_onMono (l : List (Int × Coef)) (m : Nat) :
    (l.map fun e => e.2.val K * monoMean (e.1 : K) m).sum = ((onMono l m : ℚ) : K) / (((m + 1 : Nat) : K) * 2 ^ (m + 1)) := by
  induction l with
  | nil => simp [onMono]
  | cons e l ih =>
    rw [List.map_cons, List.sum_cons, ih, monoMean_int]
    unfold onMono
    rw [List.map_cons, List.sum_cons]
    push_cast
    rw [coef_cast]
    ring

/-- A list of terms applied to the mean values of a polynomial. -/
theorem terms_eval (l : List (Int × Coef)) (q : Int → K) (i : Int) (p : K[X]) (n : Nat) (hd : p.natDegree < n)
    (hq : ∀ e ∈ l, q (i + e.1) = cellMean p ((i + e.1 : Int) : K)) :
    (l.map fun e => e.2.val K * q (i + e.1)).sum =
      ∑ m ∈ Finset.range n, (p.comp (X + C (i : K))).coeff m * (((onMono l m : ℚ) : K) / (((m + 1 : Nat) : K) * 2 ^ (m + 1))) := by
  have hd' : (p.comp (X + C (i : K))).natDegree < n := by
    rw [natDegree_comp, natDegree_X_add_C, mul_one]; exact hd
  have e1 : (l.map fun e => e.2.val K * q (i + e.1)) =
      l.map fun e => e.2.val K * ∑ m ∈ Finset.range n, (p.comp (X + C (i : K))).coeff m * monoMean (e.1 : K) m := by
    refine List.map_congr_left fun e he => ?_
    rw [hq e he, Int.cast_add, ← cellMean_shift, cellMean_eq_sum _ _ n hd']
  rw [e1, mean_lin l n _ fun m a => monoMean (a : K) m]
  refine Finset.sum_congr rfl fun m _ => ?_
  rw [← mean_onMono]

theorem eval_shift (p : K[X]) (i x : K) (n : Nat) (hd : p.natDegree < n) :
    p.eval (i + x) = ∑ m ∈ Finset.range n, (p.comp (X + C i)).coeff m * x ^ m := by
  have hd' : (p.comp (X + C i)).natDegree < n := by
    rw [natDegree_comp, natDegree_X_add_C, mul_one]; exact hd
  rw [← eval_eq_sum_range' hd', eval_comp, eval_add, eval_X, eval_C, add_comm]

theorem pow_half (s : K) (m : Nat) : ((m + 1 : Nat) : K) * 2 * s ^ m / (((m + 1 : Nat) : K) * 2 ^ (m + 1)) = (s / 2) ^ m := by
  have h : ((m + 1 : Nat) : K) ≠ 0 := by exact_mod_cast Nat.succ_ne_zero m
  rw [div_pow, pow_succ]
  field_simp

/-- A list of terms that reproduces the powers below `n` at `s/2` gives the value of every polynomial of degree less than `n` there. -/
theorem terms_exact (l : List (Int × Coef)) (s : Int) (n : Nat) (hl : ∀ m, m < n → onMono l m = ((m + 1 : Nat) : ℚ) * 2 * (s : ℚ) ^ m)
    (q : Int → K) (i : Int) (p : K[X]) (hd : p.natDegree < n) (hq : ∀ e ∈ l, q (i + e.1) = cellMean p ((i + e.1 : Int) : K)) :
    (l.map fun e => e.2.val K * q (i + e.1)).sum = p.eval (i + (s : K) / 2) := by
  rw [terms_eval l q i p n hd hq, eval_shift p i _ n hd]
  refine Finset.sum_congr rfl fun m hm => ?_
  rw [hl m (Finset.mem_range.mp hm)]
  congr 1
  rw [← pow_half]
  push_cast
  rfl

/-! ### Smoothness indicators -/

theorem list_range_sum {M : Type*} [AddCommMonoid M] (n : Nat) (f : Nat → M) : ((List.range n).map f).sum = ∑ m ∈ Finset.range n, f m := by
  induction n with
  | zero => simp
  | succ n ih => rw [List.range_succ, List.map_append, List.sum_append, ih, Finset.sum_range_succ]; simp

theorem iterate_derivative_expand (p : K[X]) (n l : Nat) (hd : p.natDegree < n) :
    derivative^[l] p = ∑ m ∈ Finset.range n, monomial (m - l) (p.coeff m * (m.descFactorial l : K)) := by
  conv_lhs => rw [p.as_sum_range' n hd]
  rw [iterate_derivative_sum]
  refine Finset.sum_congr rfl fun m _ => ?_
  rw [← C_mul_X_pow_eq_monomial, iterate_derivative_C_mul, iterate_derivative_X_pow_eq_C_mul, ← mul_assoc, ← C_mul, C_mul_X_pow_eq_monomial]

theorem roughCoeff_cast (k m n : Nat) :
    ((roughCoeff k m n : ℚ) : K) =
      ∑ l ∈ Finset.Ico 1 k, (m.descFactorial l : K) * n.descFactorial l * monoMean 0 (m - l + (n - l)) := by
  unfold roughCoeff
  rw [list_range_sum, Rat.cast_sum]
  have h1 : ∀ l ∈ Finset.Ico 1 k, l ∈ Finset.range k := fun l hl => Finset.mem_range.mpr (Finset.mem_Ico.mp hl).2
  rw [← Finset.sum_subset (s₁ := Finset.Ico 1 k) h1]
  · refine Finset.sum_congr rfl fun l hl => ?_
    have hl1 := (Finset.mem_Ico.mp hl).1
    have h0 := monoMean_int (K := K) 0 (m - l + (n - l))
    rw [Int.cast_zero] at h0
    rw [h0]
    by_cases hm : m < l
    · rw [if_pos (by omega), Nat.descFactorial_of_lt hm]; simp
    · by_cases hn : n < l
      · rw [if_pos (by omega), Nat.descFactorial_of_lt hn]; simp
      · rw [if_neg (by omega)]
        push_cast
        rfl
  · intro l hl hl'
    rw [if_pos, Rat.cast_zero]
    left
    by_contra h
    exact hl' (Finset.mem_Ico.mpr ⟨by omega, Finset.mem_range.mp hl⟩)

theorem roughness_expand (k : Nat) (p : K[X]) (hd : p.natDegree < k) :
    roughness k p 0 = ∑ m ∈ Finset.range k, ∑ n ∈ Finset.range k, p.coeff m * p.coeff n * ((roughCoeff k m n : ℚ) : K) := by
  unfold roughness
  have h : ∀ l ∈ Finset.Ico 1 k, cellMean ((derivative^[l] p) ^ 2) 0 =
      ∑ m ∈ Finset.range k, ∑ n ∈ Finset.range k,
        p.coeff m * p.coeff n * ((m.descFactorial l : K) * n.descFactorial l * monoMean 0 (m - l + (n - l))) := by
    intro l _
    rw [iterate_derivative_expand p k l hd, pow_two, Finset.sum_mul_sum, cellMean_sum]
    refine Finset.sum_congr rfl fun m _ => ?_
    rw [cellMean_sum]
    refine Finset.sum_congr rfl fun n _ => ?_
    rw [monomial_mul_monomial, cellMean_monomial]
    ring
  rw [Finset.sum_congr rfl h, Finset.sum_comm]
  refine Finset.sum_congr rfl fun m _ => ?_
  rw [Finset.sum_comm]
  refine Finset.sum_congr rfl fun n _ => ?_
  rw [roughCoeff_cast, Finset.mul_sum]

theorem roughCoeff_symm (k m n : Nat) : roughCoeff k m n = roughCoeff k n m := by
  unfold roughCoeff
  congr 1
  refine List.map_congr_left fun l _ => ?_
  rw [add_comm (m - l) (n - l), mul_comm (m.descFactorial l : ℚ)]
  exact if_congr (by tauto) rfl rfl

theorem quad_lin (l : List (Int × Int × Coef)) (n : Nat) (u : Nat → K) (g : Nat → Int → K) :
    (l.map fun e => e.2.2.val K * (∑ m ∈ Finset.range n, u m * g m e.1) * (∑ m ∈ Finset.range n, u m * g m e.2.1)).sum =
      ∑ a ∈ Finset.range n, ∑ b ∈ Finset.range n, u a * u b * (l.map fun e => e.2.2.val K * g a e.1 * g b e.2.1).sum := by
  induction l with
  | nil => simp
  | cons e l ih =>
    simp only [List.map_cons, List.sum_cons, ih, mul_add, Finset.sum_add_distrib]
    congr 1
    rw [mul_assoc, Finset.sum_mul_sum, Finset.mul_sum]
    refine Finset.sum_congr rfl fun a _ => ?_
    rw [Finset.mul_sum]
    exact Finset.sum_congr rfl fun b _ => by ring

theorem quad_mono (l : List (Int × Int × Coef)) (m n : Nat) :
    (l.map fun e => e.2.2.val K * monoMean (e.1 : K) m * monoMean (e.2.1 : K) n).sum +
      (l.map fun e => e.2.2.val K * monoMean (e.1 : K) n * monoMean (e.2.1 : K) m).sum =
    (((l.map fun e => e.2.2.val ℚ * (((mono2 e.1 m * mono2 e.2.1 n + mono2 e.1 n * mono2 e.2.1 m : Int)) : ℚ)).sum : ℚ) : K) /
      (((m + 1) * (n + 1) * 2 ^ (m + n + 2) : Nat) : K) := by
  induction l with
  | nil => simp
  | cons e l ih =>
    simp only [List.map_cons, List.sum_cons]
    rw [add_add_add_comm, ih]
    simp only [monoMean_int]
    have h1 : ((m : K) + 1) ≠ 0 := by exact_mod_cast Nat.succ_ne_zero m
    have h2 : ((n : K) + 1) ≠ 0 := by exact_mod_cast Nat.succ_ne_zero n
    push_cast
    rw [coef_cast, add_div]
    congr 1
    field_simp
    ring

/-- A list of quadratic terms that satisfies the condition of the tables gives the smoothness indicator. -/
theorem terms_roughness (l : List (Int × Int × Coef)) (k : Nat)
    (hl : ∀ n, n < k → ∀ m, m < n + 1 →
      (l.map fun e => e.2.2.val ℚ * (((mono2 e.1 m * mono2 e.2.1 n + mono2 e.1 n * mono2 e.2.1 m : Int)) : ℚ)).sum =
        2 * roughCoeff k m n * ((m + 1) * (n + 1) * 2 ^ (m + n + 2) : Nat))
    (q : Int → K) (i : Int) (p : K[X]) (hd : p.natDegree < k)
    (hq : ∀ e ∈ l, q (i + e.1) = cellMean p ((i + e.1 : Int) : K) ∧ q (i + e.2.1) = cellMean p ((i + e.2.1 : Int) : K)) :
    (l.map fun e => e.2.2.val K * q (i + e.1) * q (i + e.2.1)).sum = roughness k p i := by
  have hd' : (p.comp (X + C (i : K))).natDegree < k := by
    rw [natDegree_comp, natDegree_X_add_C, mul_one]; exact hd
  have e1 : (l.map fun e => e.2.2.val K * q (i + e.1) * q (i + e.2.1)) =
      l.map fun e => e.2.2.val K * (∑ m ∈ Finset.range k, (p.comp (X + C (i : K))).coeff m * monoMean (e.1 : K) m) *
        ∑ m ∈ Finset.range k, (p.comp (X + C (i : K))).coeff m * monoMean (e.2.1 : K) m := by
    refine List.map_congr_left fun e he => ?_
    rw [(hq e he).1, (hq e he).2, Int.cast_add, Int.cast_add, ← cellMean_shift, ← cellMean_shift, cellMean_eq_sum _ _ k hd',
      cellMean_eq_sum _ _ k hd']
  rw [e1, quad_lin l k _ fun m a => monoMean (a : K) m, roughness_shift, roughness_expand k _ hd']
  generalize (p.comp (X + C (i : K))).coeff = u
  have hsym : ∀ m, m < k → ∀ n, n < k →
      (l.map fun e => e.2.2.val K * monoMean (e.1 : K) m * monoMean (e.2.1 : K) n).sum +
        (l.map fun e => e.2.2.val K * monoMean (e.1 : K) n * monoMean (e.2.1 : K) m).sum = 2 * ((roughCoeff k m n : ℚ) : K) := by
    have key : ∀ m n, n < k → m < n + 1 →
        (l.map fun e => e.2.2.val K * monoMean (e.1 : K) m * monoMean (e.2.1 : K) n).sum +
          (l.map fun e => e.2.2.val K * monoMean (e.1 : K) n * monoMean (e.2.1 : K) m).sum = 2 * ((roughCoeff k m n : ℚ) : K) := by
      intro m n hn hm
      rw [quad_mono, hl n hn m hm]
      have h1 : ((m : K) + 1) ≠ 0 := by exact_mod_cast Nat.succ_ne_zero m
      have h2 : ((n : K) + 1) ≠ 0 := by exact_mod_cast Nat.succ_ne_zero n
      push_cast
      field_simp
    intro m hm n hn
    by_cases h : m < n + 1
    · exact key m n hn h
    · rw [add_comm, roughCoeff_symm]
      exact key n m hm (by omega)
  have h2 : (2 : K) ≠ 0 := two_ne_zero
  apply mul_left_cancel₀ h2
  rw [two_mul, Finset.mul_sum]
  conv_lhs => rhs; rw [Finset.sum_comm]
  rw [← Finset.sum_add_distrib]
  refine Finset.sum_congr rfl fun m hm => ?_
  rw [← Finset.sum_add_distrib, Finset.mul_sum]
  refine Finset.sum_congr rfl fun n hn => ?_
  have := hsym m (Finset.mem_range.mp hm) n (Finset.mem_range.mp hn)
  rw [mul_comm (u n) (u m), ← mul_add]
  rw [this]
  ring

/-! ### Existence of the pieces -/

/-- There is a polynomial of degree less than `k` with given mean values on `k` neighbouring cells. -/
theorem exists_piece (k : Nat) (q : Int → K) (a : Int) (hk : 0 < k) :
    ∃ p : K[X], p.natDegree < k ∧ ∀ j : Int, a ≤ j → j < a + k → cellMean p j = q j := by
  let v : Nat → K := fun n => (a : K) + n - 1 / 2
  let S : Nat → K := fun n => ∑ m ∈ Finset.range n, q (a + m)
  have hinj : Set.InjOn v (Finset.range (k + 1)) := by
    intro x _ y _ h
    have : (x : K) = y := by simpa [v] using h
    exact_mod_cast this
  have hev := fun n (hn : n < k + 1) => Lagrange.eval_interpolate_at_node S hinj (Finset.mem_range.mpr hn)
  have hdeg := Lagrange.degree_interpolate_lt S hinj
  rw [Finset.card_range] at hdeg
  refine ⟨derivative (Lagrange.interpolate (Finset.range (k + 1)) v S), ?_, ?_⟩
  · have h1 := natDegree_derivative_le (Lagrange.interpolate (Finset.range (k + 1)) v S)
    by_cases h0 : Lagrange.interpolate (Finset.range (k + 1)) v S = 0
    · rw [h0]; simpa using hk
    · have := (natDegree_lt_iff_degree_lt h0).mpr hdeg
      omega
  · intro j h1 h2
    obtain ⟨n, rfl⟩ : ∃ n : Nat, j = a + n := ⟨(j - a).toNat, by omega⟩
    have e1 := hev (n + 1) (by omega)
    have e0 := hev n (by omega)
    have v1 : v (n + 1) = ((a + n : Int) : K) + 1 / 2 := by simp only [v]; push_cast; ring
    have v0 : v n = ((a + n : Int) : K) - 1 / 2 := by simp only [v]; push_cast; ring
    rw [v1] at e1
    rw [v0] at e0
    rw [cellMean_derivative, e1, e0]
    simp only [S]
    rw [Finset.sum_range_succ]
    ring

theorem exists_pieces (k : Nat) (q : Int → K) (i : Int) : ∃ p, Pieces k q i p := by
  have h : ∀ r : Nat, ∃ p : K[X], r < k → p.natDegree < k ∧ ∀ j : Int, i - r ≤ j → j < i - r + k → cellMean p j = q j := by
    intro r
    by_cases hr : r < k
    · obtain ⟨p, hp⟩ := exists_piece k q (i - r) (by omega)
      exact ⟨p, fun _ => hp⟩
    · exact ⟨0, fun h => absurd h hr⟩
  exact ⟨fun r => (h r).choose, fun r hr => (h r).choose_spec hr⟩

end mean

section ordered
variable {K : Type*} [Field K] [LinearOrder K] [IsStrictOrderedRing K]

theorem square_mean_nonneg (p : K[X]) (hd : p.natDegree < 8) : 0 ≤ cellMean (p ^ 2) 0 := by
  have h : cellMean (p ^ 2) 0 = ∑ m ∈ Finset.range 8, ∑ n ∈ Finset.range 8, p.coeff m * p.coeff n * monoMean 0 (m + n) := by
    conv_lhs => rw [p.as_sum_range' 8 hd]
    rw [pow_two, Finset.sum_mul_sum, cellMean_sum]
    refine Finset.sum_congr rfl fun m _ => ?_
    rw [cellMean_sum]
    refine Finset.sum_congr rfl fun n _ => ?_
    rw [monomial_mul_monomial, cellMean_monomial]
  rw [h]
  generalize p.coeff = a
  have e : (∑ m ∈ Finset.range 8, ∑ n ∈ Finset.range 8, a m * a n * monoMean 0 (m + n)) =
        1 / 1 * (1 / 1 * a 0 + 1 / 12 * a 2 + 1 / 80 * a 4 + 1 / 448 * a 6) ^ 2
        + 1 / 3 * (1 / 2 * a 1 + 3 / 40 * a 3 + 3 / 224 * a 5 + 1 / 384 * a 7) ^ 2
        + 1 / 5 * (1 / 6 * a 2 + 1 / 28 * a 4 + 5 / 672 * a 6) ^ 2
        + 1 / 7 * (1 / 20 * a 3 + 1 / 72 * a 5 + 7 / 2112 * a 7) ^ 2
        + 1 / 9 * (1 / 70 * a 4 + 3 / 616 * a 6) ^ 2
        + 1 / 11 * (1 / 252 * a 5 + 1 / 624 * a 7) ^ 2
        + 1 / 13 * (1 / 924 * a 6) ^ 2
        + 1 / 15 * (1 / 3432 * a 7) ^ 2 := by
    simp only [Finset.sum_range_succ, Finset.sum_range_zero, monoMean]
    norm_num
    ring
  rw [e]
  positivity

theorem roughness_nonneg (k : Nat) (p : K[X]) (i : K) (hd : p.natDegree < k) (hk : k ≤ 9) : 0 ≤ roughness k p i := by
  rw [roughness_shift]
  unfold roughness
  refine Finset.sum_nonneg fun l hl => square_mean_nonneg _ ?_
  have hd' : (p.comp (X + C i)).natDegree < k := by
    rw [natDegree_comp, natDegree_X_add_C, mul_one]; exact hd
  have := natDegree_iterate_derivative (p.comp (X + C i)) l
  have := (Finset.mem_Ico.mp hl).1
  omega

end ordered
end PyClaw
