import Verif.Model.Weno
import Verif.Lemmas.WenoOrder
import Verif.Lemmas.WenoStencil
import Mathlib.Algebra.BigOperators.Field
import Mathlib.Tactic.Positivity

/-!
C85: for every order from 5 to 17 the reconstruction of weno.f90 is WENO reconstruction of that order.

The specification is in `Spec/WenoOrder.lean`: mean values of polynomials, the polynomial pieces of a stencil, the smoothness indicator of
Jiang and Shu, and the linear weights. Nothing in it refers to the tables of the model.
-/
set_option linter.unusedSectionVars false

namespace PyClaw
open Spec Polynomial

section field
variable {K : Type*} [Field K] [LinearOrder K] [IsStrictOrderedRing K]

/-- The linear weights of a table. -/
def WenoTable.gamma (T : WenoTable) (K : Type*) [Field K] (r : Nat) : K := (T.omega.getD r (⟨0, 0, 0, 0⟩, 0)).1.val K

theorem frAt_left {T : WenoTable} (hT : T.FrOk) {q : Int → K} {i : Int} {p : Nat → K[X]} (hp : Pieces T.k q i p) {r : Nat} (hr : r < T.k) :
    T.frAt q i r = (p r).eval ((i : K) + -1 / 2) := by
  obtain ⟨⟨h1, h2⟩, _⟩ := hT r hr
  have := terms_exact (K := K) (T.fr.getD r []) (-1) T.k (fun m hm => by rw [h2 m hm]; push_cast; rfl) q i (p r) (hp r hr).1
    (fun e he => ((hp r hr).2 _ (by have := h1 e he; unfold stencilOk at this; omega) (by have := h1 e he; unfold stencilOk at this; omega)).symm)
  unfold WenoTable.frAt
  rw [this]
  push_cast
  rfl

theorem frAt_right {T : WenoTable} (hT : T.FrOk) {q : Int → K} {i : Int} {p : Nat → K[X]} (hp : Pieces T.k q i p) {r : Nat} (hr : r < T.k) :
    T.frAt q i (T.k + r) = (p r).eval ((i : K) + 1 / 2) := by
  obtain ⟨_, h1, h2⟩ := hT r hr
  have := terms_exact (K := K) (T.fr.getD (T.k + r) []) 1 T.k (fun m hm => by rw [h2 m hm]; simp) q i (p r) (hp r hr).1
    (fun e he => ((hp r hr).2 _ (by have := h1 e he; unfold stencilOk at this; omega) (by have := h1 e he; unfold stencilOk at this; omega)).symm)
  unfold WenoTable.frAt
  rw [this]
  push_cast
  rfl

theorem sigmaAt_eq {T : WenoTable} (hT : T.SigmaOk) {q : Int → K} {i : Int} {p : Nat → K[X]} (hp : Pieces T.k q i p) {r : Nat} (hr : r < T.k) :
    T.sigmaAt q i r = roughness T.k (p r) i := by
  obtain ⟨h1, h2⟩ := hT r hr
  refine terms_roughness (K := K) (T.sigma.getD r []) T.k h2 q i (p r) (hp r hr).1 fun e he => ?_
  obtain ⟨a, b⟩ := h1 e he
  unfold stencilOk at a b
  exact ⟨((hp r hr).2 _ (by omega) (by omega)).symm, ((hp r hr).2 _ (by omega) (by omega)).symm⟩

theorem left_value {T : WenoTable} (hF : T.FrOk) (hO : T.OmegaOk) (hS : T.SigmaOk) (eps : K) (q : Int → K) (i : Int) :
    IsWenoValue T.k (T.gamma K) eps q i (-1 / 2) (T.left eps q i) := by
  refine ⟨exists_pieces _ _ _, fun p hp => ?_⟩
  have hw : ∀ r ∈ Finset.range T.k, T.omegaAt eps q i r = T.gamma K r / (eps + roughness T.k (p r) i) ^ 2 := by
    intro r hr
    have hr := Finset.mem_range.mp hr
    unfold WenoTable.omegaAt WenoTable.gamma
    simp only
    rw [((hO.1 r hr).1).2, sigmaAt_eq hS hp hr]
  unfold WenoTable.left
  rw [Finset.sum_congr rfl hw]
  congr 1
  refine Finset.sum_congr rfl fun r hr => ?_
  rw [hw r hr, frAt_left hF hp (Finset.mem_range.mp hr), mul_comm]

theorem right_value {T : WenoTable} (hF : T.FrOk) (hO : T.OmegaOk) (hS : T.SigmaOk) (eps : K) (q : Int → K) (i : Int) :
    IsWenoValue T.k (fun r => T.gamma K (T.k + r)) eps q i (1 / 2) (T.right eps q i) := by
  refine ⟨exists_pieces _ _ _, fun p hp => ?_⟩
  have hw : ∀ r ∈ Finset.range T.k, T.omegaAt eps q i (T.k + r) = T.gamma K (T.k + r) / (eps + roughness T.k (p r) i) ^ 2 := by
    intro r hr
    have hr := Finset.mem_range.mp hr
    unfold WenoTable.omegaAt WenoTable.gamma
    simp only
    rw [((hO.1 r hr).2).2, sigmaAt_eq hS hp hr]
  unfold WenoTable.right
  rw [Finset.sum_congr rfl hw]
  congr 1
  refine Finset.sum_congr rfl fun r hr => ?_
  rw [hw r hr, frAt_right hF hp (Finset.mem_range.mp hr), mul_comm]

theorem gamma_cast (T : WenoTable) (r : Nat) : ((T.gamma ℚ r : ℚ) : K) = T.gamma K r := coef_cast _

/-- The combination of several lists of terms with weights. -/
theorem combined_exact (n N : Nat) (γ : Nat → ℚ) (L : Nat → List (Int × Coef)) (s : Int)
    (hl : ∀ m, m < N → ((List.range n).map fun r => γ r * onMono (L r) m).sum = ((m + 1 : Nat) : ℚ) * 2 * (s : ℚ) ^ m)
    (q : Int → K) (i : Int) (P : K[X]) (hd : P.natDegree < N)
    (hq : ∀ r, r < n → ∀ e ∈ L r, q (i + e.1) = cellMean P ((i + e.1 : Int) : K)) :
    ∑ r ∈ Finset.range n, (γ r : K) * ((L r).map fun e => e.2.val K * q (i + e.1)).sum = P.eval (i + (s : K) / 2) := by
  rw [Finset.sum_congr rfl fun r hr => by rw [terms_eval (L r) q i P N hd (hq r (Finset.mem_range.mp hr))], eval_shift P i _ N hd]
  simp only [Finset.mul_sum]
  rw [Finset.sum_comm]
  refine Finset.sum_congr rfl fun m hm => ?_
  have h := hl m (Finset.mem_range.mp hm)
  rw [list_range_sum] at h
  have h' : (∑ r ∈ Finset.range n, (γ r : K) * ((onMono (L r) m : ℚ) : K)) = ((m + 1 : Nat) : K) * 2 * (s : K) ^ m := by
    have := congrArg (fun x : ℚ => (x : K)) h
    push_cast at this
    push_cast
    exact this
  rw [← pow_half, ← h', Finset.sum_div, Finset.mul_sum]
  refine Finset.sum_congr rfl fun r _ => ?_
  ring

theorem left_weights {T : WenoTable} (hk : 0 < T.k) (hF : T.FrOk) (hO : T.OmegaOk) : LinearWeights T.k (T.gamma K) (-1 / 2) := by
  refine ⟨fun r hr => ?_, ?_, fun P i p hP hp => ?_⟩
  · rw [← gamma_cast]; exact_mod_cast ((hO.1 r hr).1).1
  · have h := hO.2.1.1
    rw [list_range_sum] at h
    have := congrArg (fun x : ℚ => (x : K)) h
    push_cast at this
    rw [← this]
    exact Finset.sum_congr rfl fun r _ => (gamma_cast T r).symm
  · have h := combined_exact (K := K) T.k (2 * T.k - 1) (T.gamma ℚ) (fun r => T.fr.getD r []) (-1)
      (fun m hm => by have := (hO.2.2 m hm).1; push_cast at this ⊢; exact this) (fun j => cellMean P j) i P (by omega) (fun r hr e he => rfl)
    rw [show (-1 / 2 : K) = ((-1 : Int) : K) / 2 by push_cast; rfl, ← h]
    refine Finset.sum_congr rfl fun r hr => ?_
    rw [gamma_cast]
    congr 1
    rw [show ((-1 : Int) : K) / 2 = -1 / 2 by push_cast; rfl, ← frAt_left hF hp (Finset.mem_range.mp hr)]
    rfl

theorem right_weights {T : WenoTable} (hk : 0 < T.k) (hF : T.FrOk) (hO : T.OmegaOk) :
    LinearWeights T.k (fun r => T.gamma K (T.k + r)) (1 / 2) := by
  refine ⟨fun r hr => ?_, ?_, fun P i p hP hp => ?_⟩
  · beta_reduce; rw [← gamma_cast]; exact_mod_cast ((hO.1 r hr).2).1
  · have h := hO.2.1.2
    rw [list_range_sum] at h
    have := congrArg (fun x : ℚ => (x : K)) h
    push_cast at this
    rw [← this]
    exact Finset.sum_congr rfl fun r _ => (gamma_cast T (T.k + r)).symm
  · have h := combined_exact (K := K) T.k (2 * T.k - 1) (fun r => T.gamma ℚ (T.k + r)) (fun r => T.fr.getD (T.k + r) []) 1
      (fun m hm => by have := (hO.2.2 m hm).2; rw [Int.cast_one, one_pow, mul_one]; exact this) (fun j => cellMean P j) i P (by omega) (fun r hr e he => rfl)
    rw [show (1 / 2 : K) = ((1 : Int) : K) / 2 by push_cast; rfl, ← h]
    refine Finset.sum_congr rfl fun r hr => ?_
    rw [gamma_cast]
    congr 1
    rw [show ((1 : Int) : K) / 2 = 1 / 2 by push_cast; rfl, ← frAt_right hF hp (Finset.mem_range.mp hr)]
    rfl

/-! ### C85 -/

/-- C85: the orders that are provided are 5, 7, ..., 17; with any other one the code stops. -/
theorem C85_orders (order : Int) : wenoComp order = none ↔ ¬ (5 ≤ order ∧ order ≤ 17 ∧ order % 2 = 1) := by
  unfold wenoComp
  constructor
  · intro h
    rintro ⟨a, b, c⟩
    have : order = 5 ∨ order = 7 ∨ order = 9 ∨ order = 11 ∨ order = 13 ∨ order = 15 ∨ order = 17 := by omega
    rcases this with rfl | rfl | rfl | rfl | rfl | rfl | rfl <;> simp at h
  · intro h
    rw [if_neg, if_neg, if_neg, if_neg, if_neg, if_neg, if_neg] <;> (rintro rfl; exact h (by decide))

/-- C85: the reconstruction of order `2k-1` is Jiang and Shu's: at both edges of a cell the value is the average of the values of the `k`
polynomials of degree less than `k` which have the given mean values on `k` neighbouring cells, weighted with `γ r / (eps + β r)^2`, where
`β r` is the smoothness indicator and the `γ` are the linear weights with which the combination is exact up to degree `2k-2`. -/
theorem C85_weno {order : Int} {T : WenoTable} (h : wenoComp order = some T) :
    ∃ k : Nat, order = 2 * (k : Int) - 1 ∧ ∃ γl γr : Nat → K, LinearWeights k γl (-1 / 2) ∧ LinearWeights k γr (1 / 2) ∧
      ∀ (eps : K) (q : Int → K) (i : Int), IsWenoValue k γl eps q i (-1 / 2) (T.left eps q i) ∧
        IsWenoValue k γr eps q i (1 / 2) (T.right eps q i) := by
  obtain ⟨ho, hk, _, hF, hO, hS⟩ := wenoComp_cases h
  exact ⟨T.k, ho, _, _, left_weights (by omega) hF hO, right_weights (by omega) hF hO,
    fun eps q i => ⟨left_value hF hO hS eps q i, right_value hF hO hS eps q i⟩⟩

/-- A WENO value lies among the values of the pieces: it is their average with positive weights. -/
theorem value_convex {k : Nat} (hk : k ≤ 9) (hk0 : 0 < k) {γ : Nat → K} {x : K} (hγ : LinearWeights k γ x) {eps : K} (he : 0 < eps) {q : Int → K} {i : Int} {v : K}
    (hv : IsWenoValue k γ eps q i x v) {p : Nat → K[X]} (hp : Pieces k q i p) :
    ∃ w : Nat → K, (∀ r, r < k → 0 < w r) ∧ ∑ r ∈ Finset.range k, w r = 1 ∧ v = ∑ r ∈ Finset.range k, w r * (p r).eval (i + x) := by
  have hpos : ∀ r, r < k → 0 < γ r / (eps + roughness k (p r) i) ^ 2 := by
    intro r hr
    have h1 := hγ.1 r hr
    have h2 := roughness_nonneg k (p r) i (hp r hr).1 hk
    positivity
  have hsum : 0 < ∑ r ∈ Finset.range k, γ r / (eps + roughness k (p r) i) ^ 2 :=
    Finset.sum_pos (fun r hr => hpos r (Finset.mem_range.mp hr)) ⟨0, Finset.mem_range.mpr hk0⟩
  refine ⟨fun r => γ r / (eps + roughness k (p r) i) ^ 2 / ∑ r ∈ Finset.range k, γ r / (eps + roughness k (p r) i) ^ 2,
    fun r hr => div_pos (hpos r hr) hsum, ?_, ?_⟩
  · rw [← Finset.sum_div, div_self hsum.ne']
  · rw [hv.2 p hp, Finset.sum_div]
    exact Finset.sum_congr rfl fun r _ => by ring

/-- C85: with `eps > 0` both values are averages of the values of the pieces, with positive weights. -/
theorem C85_convex {order : Int} {T : WenoTable} (h : wenoComp order = some T) {eps : K} (he : 0 < eps) (q : Int → K) (i : Int)
    {p : Nat → K[X]} (hp : Pieces T.k q i p) :
    (∃ w : Nat → K, (∀ r, r < T.k → 0 < w r) ∧ ∑ r ∈ Finset.range T.k, w r = 1 ∧
      T.left eps q i = ∑ r ∈ Finset.range T.k, w r * (p r).eval ((i : K) - 1 / 2)) ∧
    ∃ w : Nat → K, (∀ r, r < T.k → 0 < w r) ∧ ∑ r ∈ Finset.range T.k, w r = 1 ∧
      T.right eps q i = ∑ r ∈ Finset.range T.k, w r * (p r).eval ((i : K) + 1 / 2) := by
  obtain ⟨_, hk, hk9, hF, hO, hS⟩ := wenoComp_cases h
  have a := value_convex hk9 (by omega) (left_weights (by omega) hF hO) he (left_value hF hO hS eps q i) hp
  rw [show (i : K) + -1 / 2 = i - 1 / 2 by ring] at a
  exact ⟨a, value_convex hk9 (by omega) (right_weights (by omega) hF hO) he (right_value hF hO hS eps q i) hp⟩

/-- C85: reconstruction of order `2k-1` is exact, whatever the nonlinear weights, if the data on its stencil are the mean values of a
polynomial of degree less than `k`. -/
theorem C85_exact {order : Int} {T : WenoTable} (h : wenoComp order = some T) {eps : K} (he : 0 < eps) (q : Int → K) (i : Int) (P : K[X])
    (hP : 2 * (P.natDegree : Int) < order + 1) (hq : ∀ j : Int, 2 * |j - i| < order → q j = cellMean P j) :
    T.left eps q i = P.eval ((i : K) - 1 / 2) ∧ T.right eps q i = P.eval ((i : K) + 1 / 2) := by
  obtain ⟨ho, hk, hk9, -⟩ := wenoComp_cases h
  have hp : Pieces T.k q i fun _ => P := by
    refine fun r hr => ⟨by beta_reduce; omega, fun j h1 h2 => (hq j ?_).symm⟩
    have : |j - i| ≤ T.k - 1 := abs_le.mpr ⟨by omega, by omega⟩
    omega
  obtain ⟨⟨w, _, hw, hl⟩, w', _, hw', hr⟩ := C85_convex h he q i hp
  rw [hl, hr, ← Finset.sum_mul, ← Finset.sum_mul, hw, hw', one_mul, one_mul]
  exact ⟨rfl, rfl⟩

theorem value_smooth {k : Nat} {γ : Nat → K} {x : K} (hγ : LinearWeights k γ x) {eps : K} {i : Int} {v : K} {P : K[X]}
    (hP : P.natDegree ≤ 2 * k - 2) (hv : IsWenoValue k γ eps (fun j => cellMean P j) i x v) {p : Nat → K[X]}
    (hp : Pieces k (fun j => cellMean P j) i p) {β : K} (hβ : ∀ r, r < k → roughness k (p r) i = β) (hn : eps + β ≠ 0) :
    v = P.eval (i + x) := by
  rw [hv.2 p hp, ← hγ.2.2 P i p hP hp]
  have e1 : ∀ r ∈ Finset.range k, γ r / (eps + roughness k (p r) i) ^ 2 = γ r / (eps + β) ^ 2 := fun r hr => by
    rw [hβ r (Finset.mem_range.mp hr)]
  rw [Finset.sum_congr rfl e1, ← Finset.sum_div, hγ.2.1, Finset.sum_congr rfl fun r hr => by rw [e1 r hr], ]
  rw [div_eq_iff (by positivity), Finset.sum_mul]
  exact Finset.sum_congr rfl fun r _ => by ring

/-- C85: where the smoothness indicators of all pieces agree, reconstruction of order `2k-1` is exact for all polynomials of degree at
most `2k-2`, which is what gives it its order. -/
theorem C85_smooth {order : Int} {T : WenoTable} (h : wenoComp order = some T) {eps : K} (he : 0 < eps) (i : Int) (P : K[X])
    (hP : (P.natDegree : Int) < order) {p : Nat → K[X]} (hp : Pieces T.k (fun j => cellMean P j) i p) {β : K}
    (hβ : ∀ r, r < T.k → roughness T.k (p r) i = β) :
    T.left eps (fun j => cellMean P j) i = P.eval ((i : K) - 1 / 2) ∧ T.right eps (fun j => cellMean P j) i = P.eval ((i : K) + 1 / 2) := by
  obtain ⟨ho, hk, hk9, hF, hO, hS⟩ := wenoComp_cases h
  have hb : 0 ≤ β := by
    rw [← hβ 0 (by omega)]
    exact roughness_nonneg _ _ _ (hp 0 (by omega)).1 hk9
  have hn : eps + β ≠ 0 := by positivity
  have a := value_smooth (left_weights (by omega) hF hO) (by omega) (left_value hF hO hS eps _ i) hp hβ hn
  have b := value_smooth (right_weights (by omega) hF hO) (by omega) (right_value hF hO hS eps _ i) hp hβ hn
  rw [show (i : K) + -1 / 2 = i - 1 / 2 by ring] at a
  exact ⟨a, b⟩

theorem wenoComp_mem {order : Int} {T : WenoTable} (h : wenoComp order = some T) :
    T ∈ [weno5Table, weno7Table, weno9Table, weno11Table, weno13Table, weno15Table, weno17Table] := by
  have : ∃ n ∈ ([5, 7, 9, 11, 13, 15, 17] : List Int), order = n := by
    by_contra hn
    have := (C85_orders order).mpr fun ⟨a, b, c⟩ => hn ⟨order, by simp; omega, rfl⟩
    rw [this] at h
    cases h
  obtain ⟨n, hn, rfl⟩ := this
  simp only [List.mem_cons, List.not_mem_nil, or_false] at hn
  rcases hn with rfl | rfl | rfl | rfl | rfl | rfl | rfl <;> (simp [wenoComp] at h; subst h; simp)

/-! ### Reflection -/

theorem cellMean_mirror (p : K[X]) (j : K) : cellMean (p.comp (-X)) j = cellMean p (-j) := by
  obtain ⟨P, rfl⟩ := exists_antiderivative p
  have : (derivative P).comp (-X) = derivative (-(P.comp (-X))) := by
    rw [derivative_neg, derivative_comp]; simp
  rw [this, cellMean_derivative, cellMean_derivative]
  simp only [eval_neg, eval_comp, eval_X]
  rw [show -(j + 1 / 2) = -j - 1 / 2 by ring, show -(j - 1 / 2) = -j + 1 / 2 by ring]
  ring

theorem derivative_mirror (p : K[X]) (l : Nat) : derivative^[l] (p.comp (-X)) = C ((-1) ^ l) * (derivative^[l] p).comp (-X) := by
  induction l with
  | zero => simp
  | succ l ih =>
    rw [Function.iterate_succ_apply', Function.iterate_succ_apply', ih, derivative_C_mul, derivative_comp, pow_succ]
    simp

theorem roughness_mirror (k : Nat) (p : K[X]) (i : K) : roughness k (p.comp (-X)) i = roughness k p (-i) := by
  unfold roughness
  refine Finset.sum_congr rfl fun l _ => ?_
  rw [derivative_mirror, mul_pow, ← C_pow, ← pow_mul, mul_comm l 2, pow_mul, neg_one_sq, one_pow, C_1, one_mul, ← pow_comp, cellMean_mirror]

theorem pieces_mirror {k : Nat} {q : Int → K} {i : Int} {p : Nat → K[X]} (hp : Pieces k q i p) :
    Pieces k (fun j => q (-j)) (-i) fun r => (p (k - 1 - r)).comp (-X) := by
  intro r hr
  obtain ⟨h1, h2⟩ := hp (k - 1 - r) (by omega)
  refine ⟨?_, fun j h3 h4 => ?_⟩
  · rw [natDegree_comp, natDegree_neg, natDegree_X, mul_one]; exact h1
  · beta_reduce
    rw [cellMean_mirror]
    have := h2 (-j) (by omega) (by omega)
    push_cast at this
    exact this

/-- The linear weights of the two edges are mirror images. -/
def WenoTable.Mirror (T : WenoTable) : Prop := ∀ r, r < T.k → T.gamma ℚ r = T.gamma ℚ (T.k + (T.k - 1 - r))

instance (T : WenoTable) : Decidable T.Mirror := by unfold WenoTable.Mirror; infer_instance

theorem tables_mirror : ∀ T ∈ [weno5Table, weno7Table, weno9Table, weno11Table, weno13Table, weno15Table, weno17Table],
    T.Mirror := by decide +kernel

/-- C85: the reconstruction has no preferred direction: for reflected data the two edges change their roles. -/
theorem C85_mirror {order : Int} {T : WenoTable} (h : wenoComp order = some T) (eps : K) (q : Int → K) (i : Int) :
    T.left eps (fun j => q (-j)) (-i) = T.right eps q i ∧ T.right eps (fun j => q (-j)) (-i) = T.left eps q i := by
  have key : ∀ (q : Int → K) (i : Int), T.left eps (fun j => q (-j)) (-i) = T.right eps q i := by
    intro q i
    obtain ⟨ho, hk, hk9, hF, hO, hS⟩ := wenoComp_cases h
    obtain ⟨p, hp⟩ := exists_pieces T.k q i
    rw [(left_value hF hO hS eps (fun j => q (-j)) (-i)).2 _ (pieces_mirror hp), (right_value hF hO hS eps q i).2 _ hp,
      ← Finset.sum_range_reflect (fun r => T.gamma K (T.k + r) / (eps + roughness T.k (p r) i) ^ 2),
      ← Finset.sum_range_reflect (fun r => T.gamma K (T.k + r) / (eps + roughness T.k (p r) i) ^ 2 * (p r).eval ((i : K) + 1 / 2))]
    have hw : ∀ r ∈ Finset.range T.k, T.gamma K r / (eps + roughness T.k ((p (T.k - 1 - r)).comp (-X)) ((-i : Int) : K)) ^ 2 =
        T.gamma K (T.k + (T.k - 1 - r)) / (eps + roughness T.k (p (T.k - 1 - r)) i) ^ 2 := by
      intro r hr
      rw [roughness_mirror, ← gamma_cast, tables_mirror T (wenoComp_mem h) r (Finset.mem_range.mp hr), gamma_cast]
      push_cast
      rw [neg_neg]
    rw [Finset.sum_congr rfl hw]
    congr 1
    refine Finset.sum_congr rfl fun r hr => ?_
    rw [hw r hr, eval_comp, eval_neg, eval_X]
    congr 2
    push_cast
    ring
  refine ⟨key q i, ?_⟩
  have := key (fun j => q (-j)) (-i)
  simp only [neg_neg] at this
  exact this.symm

end field

/-! ### Stencils -/

section reads
variable {K : Type*} [Field K]

/-- C85: with the `(order+1)/2` ghost cells that SharpClaw sets up (C52), or more, a kernel reads entries of its array only, which has
the indices `1 .. maxnx + 2 num_ghost`. -/
theorem C85_reads {order : Int} {T : WenoTable} (h : wenoComp order = some T) (eps : K) {g maxnx : Int} (hg : (order + 1) / 2 ≤ g)
    {q q' : Int → K} (hq : ∀ j, 1 ≤ j → j ≤ maxnx + 2 * g → q j = q' j) (old : Int → K) :
    T.ql eps g maxnx q old = T.ql eps g maxnx q' old ∧ T.qr eps g maxnx q old = T.qr eps g maxnx q' old := by
  obtain ⟨ho, _, _, hF, hO, hS⟩ := wenoComp_cases h
  constructor
  · funext i
    unfold WenoTable.ql
    by_cases hi : g ≤ i ∧ i ≤ maxnx + g + 1
    · rw [if_pos hi, if_pos hi]
      exact (stencil_congr hF hO hS eps fun j h1 h2 => hq j (by omega) (by omega)).1
    · rw [if_neg hi, if_neg hi]
  · funext i
    unfold WenoTable.qr
    by_cases hi : g ≤ i ∧ i ≤ maxnx + g + 1
    · rw [if_pos hi, if_pos hi]
      exact (stencil_congr hF hO hS eps fun j h1 h2 => hq j (by omega) (by omega)).2
    · rw [if_neg hi, if_neg hi]

theorem weno5_sigmaAt [CharZero K] (q : Int → K) (i : Int) :
    weno5Table.sigmaAt q i 0 = wSigma0 q i ∧ weno5Table.sigmaAt q i 1 = wSigma1 q i ∧ weno5Table.sigmaAt q i 2 = wSigma2 q i := by
  refine ⟨?_, ?_, ?_⟩
  · simp [WenoTable.sigmaAt, weno5Table, wSigma0, Coef.val]; ring
  · simp [WenoTable.sigmaAt, weno5Table, wSigma1, Coef.val, ← sub_eq_add_neg]; ring
  · simp [WenoTable.sigmaAt, weno5Table, wSigma2, Coef.val, ← sub_eq_add_neg]; ring

theorem weno5_frAt [CharZero K] (q : Int → K) (i : Int) :
    weno5Table.frAt q i 0 = 11 / 6 * q i - 7 / 6 * q (i + 1) + 1 / 3 * q (i + 2) ∧
    weno5Table.frAt q i 1 = 5 / 6 * q i - 1 / 6 * q (i + 1) + 1 / 3 * q (i - 1) ∧
    weno5Table.frAt q i 2 = 1 / 3 * q i + 5 / 6 * q (i - 1) - 1 / 6 * q (i - 2) ∧
    weno5Table.frAt q i 3 = 1 / 3 * q i + 5 / 6 * q (i + 1) - 1 / 6 * q (i + 2) ∧
    weno5Table.frAt q i 4 = 5 / 6 * q i + 1 / 3 * q (i + 1) - 1 / 6 * q (i - 1) ∧
    weno5Table.frAt q i 5 = 11 / 6 * q i - 7 / 6 * q (i - 1) + 1 / 3 * q (i - 2) := by
  refine ⟨?_, ?_, ?_, ?_, ?_, ?_⟩ <;> (simp [WenoTable.frAt, weno5Table, Coef.val, ← sub_eq_add_neg]; ring)

theorem weno5_omegaAt [CharZero K] (eps : K) (q : Int → K) (i : Int) :
    weno5Table.omegaAt eps q i 0 = 1 / 10 / (eps + wSigma0 q i) ^ 2 ∧
    weno5Table.omegaAt eps q i 1 = 6 / 10 / (eps + wSigma1 q i) ^ 2 ∧
    weno5Table.omegaAt eps q i 2 = 3 / 10 / (eps + wSigma2 q i) ^ 2 ∧
    weno5Table.omegaAt eps q i 3 = 3 / 10 / (eps + wSigma0 q i) ^ 2 ∧
    weno5Table.omegaAt eps q i 4 = 6 / 10 / (eps + wSigma1 q i) ^ 2 ∧
    weno5Table.omegaAt eps q i 5 = 1 / 10 / (eps + wSigma2 q i) ^ 2 := by
  obtain ⟨e0, e1, e2⟩ := weno5_sigmaAt q i
  have h : (3 : K) / 5 = 6 / 10 := by norm_num
  have o : ∀ r, weno5Table.omegaAt eps q i r =
    (weno5Table.omega.getD r (⟨0, 0, 0, 0⟩, 0)).1.val K / (eps + weno5Table.sigmaAt q i (weno5Table.omega.getD r (⟨0, 0, 0, 0⟩, 0)).2) ^ 2 := fun _ => rfl
  have c : ∀ r, (weno5Table.omega.getD r (⟨0, 0, 0, 0⟩, 0)) = ([(⟨1, 10, 1, 1⟩, 0), (⟨3, 5, 6, 1⟩, 1), (⟨3, 10, 3, 1⟩, 2), (⟨3, 10, 3, 1⟩, 0), (⟨3, 5, 6, 1⟩, 1),
    (⟨1, 10, 1, 1⟩, 2)] : List (Coef × Nat)).getD r (⟨0, 0, 0, 0⟩, 0) := fun _ => rfl
  refine ⟨?_, ?_, ?_, ?_, ?_, ?_⟩ <;> rw [o, c] <;> simp [e0, e1, e2, Coef.val, h]

/-- C85: the kernel of order 5 is the one that the theorems of C44, C53, C61 and C68 are about. -/
theorem C85_order5 [CharZero K] (eps : K) (g maxnx : Int) (q old : Int → K) :
    weno5Table.ql eps g maxnx q old = fWenoQl eps g maxnx q old ∧ weno5Table.qr eps g maxnx q old = fWenoQr eps g maxnx q old := by
  have hk : weno5Table.k = 3 := rfl
  constructor
  · funext i
    obtain ⟨f0, f1, f2, -⟩ := weno5_frAt q i
    obtain ⟨o0, o1, o2, -⟩ := weno5_omegaAt eps q i
    unfold WenoTable.ql fWenoQl
    refine if_congr Iff.rfl ?_ rfl
    unfold WenoTable.left wCombineL
    rw [hk]
    simp only [Finset.sum_range_succ, Finset.sum_range_zero, zero_add, f0, f1, f2, o0, o1, o2]
  · funext i
    obtain ⟨-, -, -, f0, f1, f2⟩ := weno5_frAt q i
    obtain ⟨-, -, -, o0, o1, o2⟩ := weno5_omegaAt eps q i
    unfold WenoTable.qr fWenoQr
    refine if_congr Iff.rfl ?_ rfl
    unfold WenoTable.right wCombineR
    rw [hk]
    simp only [Finset.sum_range_succ, Finset.sum_range_zero, zero_add, Nat.reduceAdd, Nat.add_zero, f0, f1, f2, o0, o1, o2]

end reads

/-! ### The literals -/

/-- All literals of a kernel. -/
def WenoTable.coefs (T : WenoTable) : List Coef :=
  T.sigma.flatMap (fun l => l.map fun e => e.2.2) ++ T.omega.map Prod.fst ++ T.fr.flatMap fun l => l.map Prod.snd

/-- The printed literal agrees with the fraction within one unit of its last digit. -/
def Coef.Rounded (c : Coef) : Prop := 0 < c.den ∧ (c.mant * c.den - c.num * 10 ^ c.dec).natAbs < c.den

instance (c : Coef) : Decidable c.Rounded := by unfold Coef.Rounded; infer_instance

theorem tables_rounded : ∀ T ∈ [weno5Table, weno7Table, weno9Table, weno11Table, weno13Table, weno15Table, weno17Table],
    ∀ c ∈ T.coefs, c.Rounded := by decide +kernel

/-- C85: every literal in weno.f90 agrees with the fraction that belongs there up to less than one unit of the last printed digit. (Eight
literals of orders 13 to 17 are not the nearest decimal number: their error is between 0.50 and 0.55 units.) -/
theorem C85_literals {order : Int} {T : WenoTable} (h : wenoComp order = some T) (c : Coef) (hc : c ∈ T.coefs) :
    |(c.mant : ℚ) / 10 ^ c.dec - c.val ℚ| < 1 / 10 ^ c.dec := by
  obtain ⟨h0, h1⟩ := tables_rounded T (wenoComp_mem h) c hc
  have hd : (0 : ℚ) < c.den := by exact_mod_cast h0
  have h2 : |(c.mant : ℚ) * c.den - c.num * 10 ^ c.dec| < c.den := by
    have : ((c.mant * c.den - c.num * 10 ^ c.dec).natAbs : Int) < c.den := by exact_mod_cast h1
    rw [Int.natCast_natAbs] at this
    exact_mod_cast this
  unfold Coef.val
  have hp : (0 : ℚ) < 10 ^ c.dec := by positivity
  rw [div_sub_div _ _ hp.ne' hd.ne', abs_div, abs_of_pos (mul_pos hp hd), div_lt_iff₀ (mul_pos hp hd)]
  rw [show (1 : ℚ) / 10 ^ c.dec * (10 ^ c.dec * c.den) = c.den by field_simp, mul_comm (10 ^ c.dec : ℚ)]
  exact h2

/-! ### Concrete cases -/

/-- The kernel of order 7 on the cubic `x^3`, whose mean values are `j^3 + j/4`: exact. -/
example : wenoComp 7 = some weno7Table ∧ (X ^ 3 : ℚ[X]).natDegree = 3 ∧
    weno7Table.left (1 / 10 ^ 6) (fun j : Int => (j : ℚ) ^ 3 + j / 4) 2 = 27 / 8 := by
  refine ⟨rfl, natDegree_X_pow 3, by decide +kernel⟩

/-- Data with a jump: the value differs from the linear combination, and stays near the smooth side. -/
example : weno9Table.right (1 / 10 ^ 6 : ℚ) (fun j : Int => if j ≤ 0 then 1 else 0) (-1) ≠ 1 ∧
    |weno9Table.right (1 / 10 ^ 6 : ℚ) (fun j : Int => if j ≤ 0 then 1 else 0) (-1) - 1| < 1 / 10 ^ 9 := by decide +kernel

/-- The hypotheses of `C85_smooth` can be met by a quartic, to which `C85_exact` does not apply: `x^4 - 135/26 x^2` at cell 0. -/
example : ∃ (P : ℚ[X]) (p : Nat → ℚ[X]), P.natDegree = 4 ∧ Pieces 3 (fun j => cellMean P j) 0 p ∧
    ∀ r, r < 3 → roughness 3 (p r) 0 = 13 / 12 * (3 - 135 / 13) ^ 2 := by
  let P : ℚ[X] := monomial 4 1 + monomial 2 (-135 / 26)
  have hP : (fun j : Int => cellMean P j) = fun j : Int => (j : ℚ) ^ 4 + j ^ 2 / 2 + 1 / 80 - 135 / 26 * (j ^ 2 + 1 / 12) := by
    funext j
    simp only [P]
    rw [cellMean_add, cellMean_monomial, cellMean_monomial]
    unfold monoMean
    push_cast
    ring
  obtain ⟨p, hp⟩ := exists_pieces 3 (fun j : Int => cellMean P j) 0
  refine ⟨P, p, ?_, hp, fun r hr => ?_⟩
  · simp only [P]
    rw [natDegree_add_eq_left_of_natDegree_lt, natDegree_monomial_eq 4 one_ne_zero]
    rw [natDegree_monomial_eq 4 one_ne_zero]
    exact (natDegree_monomial_le _).trans_lt (by norm_num)
  · have h := sigmaAt_eq weno5_sigma hp hr
    rw [Int.cast_zero] at h
    refine h.symm.trans ?_
    rw [hP]
    have : r = 0 ∨ r = 1 ∨ r = 2 := by omega
    rcases this with rfl | rfl | rfl <;> decide +kernel

end PyClaw
