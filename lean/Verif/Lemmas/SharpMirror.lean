import Verif.Lemmas.SharpKernels
import Verif.Spec.SharpMirror
import Verif.Lemmas.Mirror
import Mathlib.Data.List.Perm.Basic
import Mathlib.Algebra.BigOperators.Intervals

set_option linter.unusedSectionVars false

/-!
The reconstructions of SharpClaw and `flux1` in a mirror, and with the components multiplied by signs and renumbered.
-/
namespace PyClaw
open Spec

variable {K A : Type*} [Field K] [LinearOrder K] [IsStrictOrderedRing K] {m w : Nat}

/-! ### The generated kernels -/

def termKey (e : Int × Int × Coef) : Int × Int × Int × Nat := (min e.1 e.2.1, max e.1 e.2.1, e.2.2.num, e.2.2.den)

def mirrorKey (e : Int × Int × Coef) : Int × Int × Int × Nat := (min (-e.1) (-e.2.1), max (-e.1) (-e.2.1), e.2.2.num, e.2.2.den)

/-- The literals of a kernel are the same from left to right and from right to left. -/
def symmetricTable (T : WenoTable) : Bool :=
  (List.range T.k).all fun r =>
    ((T.sigma.getD r []).map mirrorKey).isPerm ((T.sigma.getD (T.k - 1 - r) []).map termKey) &&
    ((T.fr.getD (T.k + r) []).map fun e => (-e.1, e.2.num, e.2.den)).isPerm
      ((T.fr.getD (T.k - 1 - r) []).map fun e => (e.1, e.2.num, e.2.den)) &&
    decide ((T.omega.getD (T.k + r) (⟨0, 0, 0, 0⟩, 0)).1.num = (T.omega.getD (T.k - 1 - r) (⟨0, 0, 0, 0⟩, 0)).1.num ∧
      (T.omega.getD (T.k + r) (⟨0, 0, 0, 0⟩, 0)).1.den = (T.omega.getD (T.k - 1 - r) (⟨0, 0, 0, 0⟩, 0)).1.den ∧
      (T.omega.getD (T.k + r) (⟨0, 0, 0, 0⟩, 0)).2 < T.k ∧
      (T.omega.getD (T.k - 1 - r) (⟨0, 0, 0, 0⟩, 0)).2 = T.k - 1 - (T.omega.getD (T.k + r) (⟨0, 0, 0, 0⟩, 0)).2)

theorem wenoComp_symmetric {order : Int} {T : WenoTable} (h : wenoComp order = some T) : symmetricTable T = true := by
  unfold wenoComp at h
  split_ifs at h <;> cases h <;> decide +kernel

theorem table_mirror {order : Int} {T : WenoTable} (h : wenoComp order = some T) (eps : K) (q : Int → K) (M i : Int) :
    T.right eps (fun j => q (M - j)) i = T.left eps q (M - i) ∧ T.left eps (fun j => q (M - j)) i = T.right eps q (M - i) := by
  have hS := wenoComp_symmetric h
  unfold symmetricTable at hS
  rw [List.all_eq_true] at hS
  simp only [Bool.and_eq_true, decide_eq_true_eq, List.isPerm_iff, List.mem_range] at hS
  have sig : ∀ (p : Int → K) (M i : Int) r, r < T.k → T.sigmaAt (fun j => p (M - j)) i r = T.sigmaAt p (M - i) (T.k - 1 - r) := by
    intro p M i r hr
    have hp := (hS r hr).1.1
    unfold WenoTable.sigmaAt
    let v : Int × Int × Int × Nat → K := fun e => ((e.2.2.1 : Int) : K) / (e.2.2.2 : K) * p (M - i + e.1) * p (M - i + e.2.1)
    have e1 : ((T.sigma.getD r []).map fun e => e.2.2.val K * p (M - (i + e.1)) * p (M - (i + e.2.1))) =
        ((T.sigma.getD r []).map mirrorKey).map v := by
      rw [List.map_map]
      refine List.map_congr_left fun e _ => ?_
      obtain ⟨a, b, c⟩ := e
      simp only [v, mirrorKey, Function.comp, Coef.val]
      rw [show M - (i + a) = M - i + -a by ring, show M - (i + b) = M - i + -b by ring]
      rcases le_total (-a) (-b) with hab | hab
      · rw [min_eq_left hab, max_eq_right hab]
      · rw [min_eq_right hab, max_eq_left hab]; ring
    have e2 : ((T.sigma.getD (T.k - 1 - r) []).map fun e => e.2.2.val K * p (M - i + e.1) * p (M - i + e.2.1)) =
        ((T.sigma.getD (T.k - 1 - r) []).map termKey).map v := by
      rw [List.map_map]
      refine List.map_congr_left fun e _ => ?_
      obtain ⟨a, b, c⟩ := e
      simp only [v, termKey, Function.comp, Coef.val]
      rcases le_total a b with hab | hab
      · rw [min_eq_left hab, max_eq_right hab]
      · rw [min_eq_right hab, max_eq_left hab]; ring
    rw [e1, e2]
    exact (hp.map v).sum_eq
  have fr : ∀ (p : Int → K) (M i : Int) r, r < T.k → T.frAt (fun j => p (M - j)) i (T.k + r) = T.frAt p (M - i) (T.k - 1 - r) := by
    intro p M i r hr
    have hp := (hS r hr).1.2
    unfold WenoTable.frAt
    let v : Int × Int × Nat → K := fun e => ((e.2.1 : Int) : K) / (e.2.2 : K) * p (M - i + e.1)
    have e1 : ((T.fr.getD (T.k + r) []).map fun e => e.2.val K * p (M - (i + e.1))) =
        ((T.fr.getD (T.k + r) []).map fun e => (-e.1, e.2.num, e.2.den)).map v := by
      rw [List.map_map]
      refine List.map_congr_left fun e _ => ?_
      simp only [v, Function.comp, Coef.val]
      rw [show M - (i + e.1) = M - i + -e.1 by ring]
    have e2 : ((T.fr.getD (T.k - 1 - r) []).map fun e => e.2.val K * p (M - i + e.1)) =
        ((T.fr.getD (T.k - 1 - r) []).map fun e => (e.1, e.2.num, e.2.den)).map v := by
      rw [List.map_map]
      refine List.map_congr_left fun e _ => ?_
      simp only [v, Function.comp, Coef.val]
    rw [e1, e2]
    exact (hp.map v).sum_eq
  have om : ∀ (p : Int → K) (M i : Int) r, r < T.k →
      T.omegaAt eps (fun j => p (M - j)) i (T.k + r) = T.omegaAt eps p (M - i) (T.k - 1 - r) := by
    intro p M i r hr
    obtain ⟨o1, o2, o3, o4⟩ := (hS r hr).2
    unfold WenoTable.omegaAt
    dsimp only
    rw [sig p M i _ o3, o4]
    unfold Coef.val
    rw [o1, o2]
  have key : ∀ (p : Int → K) (M i : Int), T.right eps (fun j => p (M - j)) i = T.left eps p (M - i) := by
    intro p M i
    unfold WenoTable.right WenoTable.left
    rw [← Finset.sum_range_reflect (fun r => T.frAt p (M - i) r * T.omegaAt eps p (M - i) r),
      ← Finset.sum_range_reflect (fun r => T.omegaAt eps p (M - i) r)]
    refine congrArg₂ (· / ·) (Finset.sum_congr rfl fun r hr => ?_) (Finset.sum_congr rfl fun r hr => ?_)
    · rw [fr p M i r (Finset.mem_range.mp hr), om p M i r (Finset.mem_range.mp hr)]
    · exact om p M i r (Finset.mem_range.mp hr)
  refine ⟨key q M i, ?_⟩
  have := key (fun j => q (M - j)) M (M - i)
  simp only [sub_sub_cancel] at this
  exact this.symm

theorem table_sign (T : WenoTable) (eps σ : K) (hσ : σ = 1 ∨ σ = -1) (q : Int → K) (i : Int) :
    T.right eps (fun j => σ * q j) i = σ * T.right eps q i ∧ T.left eps (fun j => σ * q j) i = σ * T.left eps q i := by
  have h2 : σ * σ = 1 := by rcases hσ with rfl | rfl <;> ring
  have sig : ∀ r, T.sigmaAt (fun j => σ * q j) i r = T.sigmaAt q i r := by
    intro r
    unfold WenoTable.sigmaAt
    congr 1
    refine List.map_congr_left fun e _ => ?_
    linear_combination e.2.2.val K * q (i + e.1) * q (i + e.2.1) * h2
  have fr : ∀ r, T.frAt (fun j => σ * q j) i r = σ * T.frAt q i r := by
    intro r
    unfold WenoTable.frAt
    rw [← List.sum_map_mul_left]
    congr 1
    refine List.map_congr_left fun e _ => ?_
    ring
  have om : ∀ r, T.omegaAt eps (fun j => σ * q j) i r = T.omegaAt eps q i r := by
    intro r
    unfold WenoTable.omegaAt
    dsimp only
    rw [sig]
  unfold WenoTable.right WenoTable.left
  simp only [fr, om, mul_assoc]
  rw [← Finset.mul_sum, ← Finset.mul_sum, mul_div_assoc, mul_div_assoc]
  exact ⟨rfl, rfl⟩

/-! ### The other reconstructions -/

theorem comb_neg (s1 s3 t0 t1 t2 t3 : K) : (s1 * t0 * (-t2 - -t1) + (1 / 2 * (s3 * t0) - 1 / 4) * (-t3 - -t2)) / 3 =
    -((s1 * t0 * (t2 - t1) + (1 / 2 * (s3 * t0) - 1 / 4) * (t3 - t2)) / 3) := by ring

theorem shuCore_neg (eps im a b c d : K) : shuCore eps (-im) a b c d = -shuCore eps im a b c d := by
  unfold shuCore
  dsimp only
  simp only [neg_mul, neg_sq]
  exact comb_neg _ _ _ _ _ _

theorem shuCore_args (eps im a b c d : K) : shuCore eps im (-a) (-b) (-c) (-d) = -shuCore eps im a b c d := by
  unfold shuCore
  dsimp only
  rw [show im * (-a - -b) = -(im * (a - b)) by ring, show im * (-b - -c) = -(im * (b - c)) by ring,
    show im * (-c - -d) = -(im * (c - d)) by ring, show -a - 3 * -b = -(a - 3 * b) by ring, show -b + -c = -(b + c) by ring,
    show 3 * -c - -d = -(3 * c - d) by ring]
  simp only [neg_sq]
  exact comb_neg _ _ _ _ _ _

theorem shuValue_parts (eps : K) (q : Int → K) (im i : Int) : shuValue eps q im i =
    shuCore eps im (shuDiff q (i - 2 * im)) (shuDiff q (i - im)) (shuDiff q i) (shuDiff q (i + im)) +
      (-q (i - 2) + 7 * (q (i - 1) + q i) - q (i + 1)) / 12 := rfl

theorem shuValue_mirror (eps : K) (q p : Int → K) (M : Int) (hp : ∀ j, p j = q (M - j)) (im i : Int) :
    shuValue eps p im i = shuValue eps q (-im) (M + 1 - i) := by
  have d : ∀ j, shuDiff p j = -shuDiff q (M + 1 - j) := by
    intro j
    unfold shuDiff
    rw [hp, hp, show M - (j - 1) = M + 1 - j by ring, show M + 1 - j - 1 = M - j by ring]
    ring
  rw [shuValue_parts, shuValue_parts, d, d, d, d, hp, hp, hp, hp, shuCore_args, Int.cast_neg, shuCore_neg]
  rw [show M + 1 - (i - 2 * im) = M + 1 - i - 2 * -im by ring, show M + 1 - (i - im) = M + 1 - i - -im by ring,
    show M + 1 - (i + im) = M + 1 - i + -im by ring, show M - (i - 2) = M + 1 - i + 1 by ring,
    show M - (i - 1) = M + 1 - i by ring, show M - i = M + 1 - i - 1 by ring, show M - (i + 1) = M + 1 - i - 2 by ring]
  ring

theorem shuValue_sign (eps σ : K) (hσ : σ = 1 ∨ σ = -1) (q p : Int → K) (hp : ∀ j, p j = σ * q j) (im i : Int) :
    shuValue eps p im i = σ * shuValue eps q im i := by
  have d : ∀ j, shuDiff p j = σ * shuDiff q j := fun j => by unfold shuDiff; rw [hp, hp]; ring
  rw [shuValue_parts, shuValue_parts, d, d, d, d, hp, hp, hp, hp]
  rcases hσ with rfl | rfl
  · simp only [one_mul]
  · simp only [neg_mul, one_mul, shuCore_args]
    ring

/-- The four classical limiters do not prefer a side. -/
theorem tvdPhi_even (undef : K) (l : Int) (hl : l = 1 ∨ l = 2 ∨ l = 3 ∨ l = 4) (a b : K) :
    tvdPhi undef l (a / b) * b = tvdPhi undef l (b / a) * a := by
  have h0 : ∀ r : K, r ≤ 0 → tvdPhi undef l r = 0 := by
    intro r hr
    rcases hl with rfl | rfl | rfl | rfl
    · show max 0 (min 1 r) = 0
      exact max_eq_left (min_le_of_right_le hr)
    · show max (max 0 (min 1 (2 * r))) (min 2 r) = 0
      have h2 : min 1 (2 * r) ≤ 0 := min_le_of_right_le (by linarith)
      have h3 : min 2 r ≤ 0 := min_le_of_right_le hr
      rw [max_eq_left h2, max_eq_left h3]
    · show (r + |r|) / (1 + |r|) = 0
      rw [abs_of_nonpos hr, add_neg_cancel, zero_div]
    · show max 0 (min (min ((1 + r) / 2) 2) (2 * r)) = 0
      exact max_eq_left (min_le_of_right_le (by linarith))
  have h1 : ∀ r : K, 0 < r → tvdPhi undef l r = r * tvdPhi undef l (1 / r) := by
    intro r hr
    have hi : 0 < 1 / r := by positivity
    have hri : r * (1 / r) = 1 := by field_simp
    rcases hl with rfl | rfl | rfl | rfl
    · show max 0 (min 1 r) = r * max 0 (min 1 (1 / r))
      rw [mul_max_of_nonneg _ _ hr.le, mul_min_of_nonneg _ _ hr.le, hri, mul_zero, mul_one, min_comm]
    · show max (max 0 (min 1 (2 * r))) (min 2 r) = r * max (max 0 (min 1 (2 * (1 / r)))) (min 2 (1 / r))
      rw [mul_max_of_nonneg _ _ hr.le, mul_max_of_nonneg _ _ hr.le, mul_min_of_nonneg _ _ hr.le, mul_min_of_nonneg _ _ hr.le, hri,
        mul_zero, mul_one, show r * (2 * (1 / r)) = 2 * (r * (1 / r)) by ring, hri, mul_one, max_assoc, max_assoc, max_comm (min 1 _),
        min_comm 2 r, min_comm 1 (2 * r), mul_comm 2 r]
    · show (r + |r|) / (1 + |r|) = r * ((1 / r + |1 / r|) / (1 + |1 / r|))
      rw [abs_of_pos hr, abs_of_pos hi]
      field_simp
      ring
    · show max 0 (min (min ((1 + r) / 2) 2) (2 * r)) = r * max 0 (min (min ((1 + 1 / r) / 2) 2) (2 * (1 / r)))
      rw [mul_max_of_nonneg _ _ hr.le, mul_min_of_nonneg _ _ hr.le, mul_min_of_nonneg _ _ hr.le, mul_zero,
        show r * (2 * (1 / r)) = 2 * (r * (1 / r)) by ring, show r * ((1 + 1 / r) / 2) = (r + r * (1 / r)) / 2 by ring, hri, mul_one,
        min_assoc, min_assoc, min_comm 2, add_comm r 1, mul_comm r 2]
  rcases eq_or_ne a 0 with rfl | ha
  · rw [zero_div, div_zero, h0 0 le_rfl, zero_mul, zero_mul]
  rcases eq_or_ne b 0 with rfl | hb
  · rw [zero_div, div_zero, h0 0 le_rfl, zero_mul, zero_mul]
  rcases lt_or_gt_of_ne (div_ne_zero ha hb) with hr | hr
  · have hr' : b / a ≤ 0 := by
      rw [← inv_div]
      exact inv_nonpos.mpr hr.le
    rw [h0 _ hr.le, h0 _ hr', zero_mul, zero_mul]
  · rw [h1 _ hr, one_div_div]
    field_simp

/-! ### The mirror -/

/-- The Riemann solver seen in a mirror. -/
def reversedRp (fwave : Bool) (rp : Riemann K A m w) : Riemann K A m w := fun ql qr al ar =>
  { wave := fun p => if fwave then (rp qr ql ar al).wave p else -(rp qr ql ar al).wave p
    s := fun p => -(rp qr ql ar al).s p
    amdq := (rp qr ql ar al).apdq
    apdq := (rp qr ql ar al).amdq }

theorem fWaveTerm_mirror (eps tol : K) (wave wave' : Waves K m w) (M : Int) (hw : ∀ j p, wave' j p = -wave (M + 1 - j) p) (im i : Int)
    (p : Fin w) : fWaveTerm eps tol wave' im i p = fWaveTerm eps tol wave (-im) (M + 1 - i) p := by
  have hp : ∀ j, waveProj wave' i j p = waveProj wave (M + 1 - i) (M + 1 - j) p := by
    intro j
    unfold waveProj
    rw [hw, hw, wdot_neg_neg]
  unfold fWaveTerm
  simp only [hp]
  rw [show M + 1 - (i - 2 * im) = M + 1 - i - 2 * -im by ring, show M + 1 - (i - im) = M + 1 - i - -im by ring,
    show M + 1 - (i + im) = M + 1 - i + -im by ring]
  funext k
  rw [hw, Int.cast_neg, shuCore_neg]
  simp only [Pi.neg_apply]
  split_ifs <;> ring

theorem central4_mirror (q : Int → Fin m → K) (M i : Int) : central4 (fun j => q (M - j)) i = central4 q (M + 1 - i) := by
  funext k
  unfold central4
  dsimp only
  rw [show M - (i - 2) = M + 1 - i + 1 by ring, show M - (i - 1) = M + 1 - i by ring, show M - i = M + 1 - i - 1 by ring,
    show M - (i + 1) = M + 1 - i - 2 by ring]
  ring

theorem fRecon_mirror (R : ReconCfg K m w) (hE : EvenRecon R) (rp : Riemann K A m w) (c : FluxCfg K)
    (hopt : ReconOk c.g R.limType R.charDecomp R.order)
    (aux : Int → A) (q : Int → Fin m → K) {e e' : Edges K m}
    (he : fRecon R.eps R.tol R.undef R.first rp c R.limType R.charDecomp R.order R.fwave R.limEqn R.limWave R.old none aux q = some e)
    (he' : fRecon R.eps R.tol R.undef R.first (reversedRp R.fwave rp) c R.limType R.charDecomp R.order R.fwave R.limEqn R.limWave R.old none
      (fun i => aux (c.n + 1 - i)) (fun i => q (c.n + 1 - i)) = some e') :
    (∀ i : Int, 0 ≤ i → i ≤ c.n → e'.qr i = e.ql (c.n + 1 - i)) ∧ (∀ i : Int, 1 ≤ i → i ≤ c.n + 1 → e'.ql i = e.qr (c.n + 1 - i)) := by
  obtain ⟨o1, o2, o3⟩ := hopt
  unfold fRecon at he he'
  dsimp only at he he'
  have o1' : R.limType = 1 → R.charDecomp = 0 ∧ (2 : Int) ≤ c.g := fun h => ⟨(o1 h).1, by exact_mod_cast (o1 h).2⟩
  have o2' : R.limType = 2 → (3 : Int) ≤ c.g ∧ R.order < 2 * c.g := fun h => ⟨by exact_mod_cast (o2 h).1, (o2 h).2⟩
  have o3' : R.limType = 3 → (3 : Int) ≤ c.g := fun h => by exact_mod_cast o3 h
  have hn : (0 : Int) ≤ c.n := Int.natCast_nonneg _
  clear o1 o2 o3
  generalize (c.g : Int) = g at *
  generalize (c.n : Int) = n at *
  have ep : ∀ p : Int, n + 1 - (p - g) = (n + 1 + 2 * g - p) - g := fun p => by ring
  have ep1 : ∀ p : Int, n + 1 - (p - g - 1) = (n + 1 + 2 * g + 1 - p) - g := fun p => by ring
  simp only [ep, ep1] at he'
  split at he
  · rename_i hc
    rw [if_pos hc] at he'
    have hg2 := (o1' hc.1).2
    cases he; cases he'
    have hs : ∀ (i : Int) (k : Fin m) (u v : K), 1 / 2 * tvdPhi R.undef (R.limEqn k) (u / v) * v = 1 / 2 * tvdPhi R.undef (R.limEqn k) (v / u) * u := by
      intro i k u v
      rw [mul_assoc, mul_assoc, tvdPhi_even R.undef _ (hE hc.1 k)]
    constructor
    · intro i i1 i2
      funext k
      simp only [fTvd2]
      rw [if_pos (by omega), if_neg (by omega), if_pos (by omega), if_neg (by omega)]
      rw [show n + 1 + 2 * g - (i + g + 1) - g = n + 1 - i + g - 1 - g by ring, show n + 1 + 2 * g - (i + g - 1) - g = n + 1 - i + g + 1 - g by ring,
        show n + 1 + 2 * g - (i + g) - g = n + 1 - i + g - g by ring]
      generalize q (n + 1 - i + g - 1 - g) k = x
      generalize q (n + 1 - i + g + 1 - g) k = y
      generalize q (n + 1 - i + g - g) k = z
      rw [hs i k (y - z) (z - x), show x - z = -(z - x) by ring, show z - y = -(y - z) by ring, neg_div_neg_eq]
      ring
    · intro i i1 i2
      funext k
      simp only [fTvd2]
      rw [if_pos (by omega), if_neg (by omega), if_pos (by omega), if_neg (by omega)]
      rw [show n + 1 + 2 * g - (i + g + 1) - g = n + 1 - i + g - 1 - g by ring, show n + 1 + 2 * g - (i + g - 1) - g = n + 1 - i + g + 1 - g by ring,
        show n + 1 + 2 * g - (i + g) - g = n + 1 - i + g - g by ring]
      generalize q (n + 1 - i + g - 1 - g) k = x
      generalize q (n + 1 - i + g + 1 - g) k = y
      generalize q (n + 1 - i + g - g) k = z
      rw [hs i k (y - z) (z - x), show x - z = -(z - x) by ring, show z - y = -(y - z) by ring, neg_div_neg_eq]
      ring
  · rename_i hc
    rw [if_neg hc] at he'
    split at he
    · rename_i hc2
      exact absurd ⟨hc2.1, (o1' hc2.1).1⟩ hc
    · rename_i hc2
      rw [if_neg hc2] at he'
      split at he
      · rename_i hc3
        rw [if_pos hc3] at he'
        obtain ⟨hg3, hor⟩ := o2' hc3.1
        rw [Option.map_eq_some_iff] at he he'
        obtain ⟨T, hT, rfl⟩ := he
        obtain ⟨T', hT', rfl⟩ := he'
        obtain rfl : T = T' := by rw [hT] at hT'; exact Option.some.inj hT'
        have key := fun i k => table_mirror hT R.eps (fun j => q (j - g) k) (n + 1 + 2 * g) (i + g)
        have ei : ∀ i, n + 1 + 2 * g - (i + g) = n + 1 - i + g := fun i => by ring
        constructor
        · intro i i1 i2
          funext k
          simp only [fWenoComp, WenoTable.ql, WenoTable.qr]
          rw [if_pos (by omega), if_pos (by omega)]
          exact ((key i k).1).trans (by rw [ei])
        · intro i i1 i2
          funext k
          simp only [fWenoComp, WenoTable.ql, WenoTable.qr]
          rw [if_pos (by omega), if_pos (by omega)]
          exact ((key i k).2).trans (by rw [ei])
      · rename_i hc3
        rw [if_neg hc3] at he'
        split at he
        · rename_i hc4
          rw [if_pos hc4] at he'
          obtain ⟨hg3, hor⟩ := o2' hc4.1
          have hfw : R.fwave = false := by simpa using hc4.2.2
          cases he; cases he'
          have hw : ∀ (j : Int) (p : Fin w), (reversedRp R.fwave rp (q (n + 1 + 2 * g + 1 - j - g)) (q (n + 1 + 2 * g - j - g))
              (aux (n + 1 + 2 * g + 1 - j - g)) (aux (n + 1 + 2 * g - j - g))).wave p =
              -(rp (q (n + 1 + 2 * g + 1 - j - g - 1)) (q (n + 1 + 2 * g + 1 - j - g)) (aux (n + 1 + 2 * g + 1 - j - g - 1))
                (aux (n + 1 + 2 * g + 1 - j - g))).wave p := by
            intro j p
            rw [show n + 1 + 2 * g - j - g = n + 1 + 2 * g + 1 - j - g - 1 by ring]
            simp only [reversedRp, hfw, Bool.false_eq_true, if_false]
          constructor
          · intro i i1 i2
            simp only [fWenoWave]
            rw [if_pos (by omega), if_pos (by omega), central4_mirror (fun p => q (p - g)) (n + 1 + 2 * g) (i + g + 1),
              show n + 1 + 2 * g + 1 - (i + g + 1) = n + 1 - i + g by ring]
            congr 1
            funext x p
            rw [fWaveTerm_mirror R.eps R.tol (fun p => (rp (q (p - g - 1)) (q (p - g)) (aux (p - g - 1)) (aux (p - g))).wave) _ (n + 1 + 2 * g) hw
              1 (i + g + 1) p, show n + 1 + 2 * g + 1 - (i + g + 1) = n + 1 - i + g by ring]
          · intro i i1 i2
            simp only [fWenoWave]
            rw [if_pos (by omega), if_pos (by omega), central4_mirror (fun p => q (p - g)) (n + 1 + 2 * g) (i + g),
              show n + 1 + 2 * g + 1 - (i + g) = n + 1 - i + g + 1 by ring]
            congr 1
            funext x p
            rw [fWaveTerm_mirror R.eps R.tol (fun p => (rp (q (p - g - 1)) (q (p - g)) (aux (p - g - 1)) (aux (p - g))).wave) _ (n + 1 + 2 * g) hw
              (-1) (i + g) p, show n + 1 + 2 * g + 1 - (i + g) = n + 1 - i + g + 1 by ring, neg_neg]
        · rename_i hc4
          rw [if_neg hc4] at he'
          split at he
          · rename_i hc5
            rw [if_pos hc5] at he'
            have hg3 := o3' hc5
            cases he; cases he'
            have key := fun im i k => shuValue_mirror R.eps (fun j => q (j - g) k) (fun j => q (n + 1 + 2 * g - j - g) k) (n + 1 + 2 * g)
              (fun _ => rfl) im i
            constructor
            · intro i i1 i2
              funext k
              simp only [fShu5, fShuQl, fShuQr]
              rw [if_pos (by omega), if_pos (by omega)]
              refine (key 1 (i + g + 1) k).trans ?_
              rw [show n + 1 + 2 * g + 1 - (i + g + 1) = n + 1 - i + g by ring]
            · intro i i1 i2
              funext k
              simp only [fShu5, fShuQl, fShuQr]
              rw [if_pos (by omega), if_pos (by omega)]
              refine (key (-1) (i + g) k).trans ?_
              rw [show n + 1 + 2 * g + 1 - (i + g) = n + 1 - i + g + 1 by ring, neg_neg]
          · cases he

/-! ### Other components -/

/-- Component `k` of the new state is component `τ k` of the old one, with the sign `σ k`. -/
def relabel (σ : Fin m → K) (τ : Equiv.Perm (Fin m)) (u : Fin m → K) : Fin m → K := fun k => σ k * u (τ k)

theorem relabel_add (σ : Fin m → K) (τ : Equiv.Perm (Fin m)) (u v : Fin m → K) : relabel σ τ (u + v) = relabel σ τ u + relabel σ τ v := by
  funext k; simp only [relabel, Pi.add_apply]; ring

theorem relabel_smul (σ : Fin m → K) (τ : Equiv.Perm (Fin m)) (x : K) (u : Fin m → K) : relabel σ τ (x • u) = x • relabel σ τ u := by
  funext k; simp only [relabel, Pi.smul_apply, smul_eq_mul]; ring

theorem relabel_dot {σ : Fin m → K} (hσ : IsSign σ) (τ : Equiv.Perm (Fin m)) (u v : Fin m → K) :
    wdot (relabel σ τ u) (relabel σ τ v) = wdot u v := by
  unfold wdot relabel
  rw [← Equiv.sum_comp τ fun j => u j * v j]
  refine Finset.sum_congr rfl fun k _ => ?_
  have h2 : σ k * σ k = 1 := by rcases hσ k with h | h <;> rw [h] <;> ring
  linear_combination u (τ k) * v (τ k) * h2

theorem fWaveTerm_turn {σ : Fin m → K} (hσ : IsSign σ) (τ : Equiv.Perm (Fin m)) (π : Equiv.Perm (Fin w)) (eps tol : K) (wave wave' : Waves K m w)
    (hw : ∀ j p, wave' j (π p) = relabel σ τ (wave j p)) (im i : Int) (p : Fin w) :
    fWaveTerm eps tol wave' im i (π p) = relabel σ τ (fWaveTerm eps tol wave im i p) := by
  have hp : ∀ j, waveProj wave' i j (π p) = waveProj wave i j p := by
    intro j
    unfold waveProj
    rw [hw, hw, relabel_dot hσ]
  unfold fWaveTerm
  simp only [hp]
  funext k
  rw [hw]
  simp only [relabel]
  ring

theorem foldl_vec_sum {α : Type*} (f : α → Fin m → K) (l : List α) (x : Fin m → K) :
    l.foldl (fun x p => x + f p) x = x + (l.map f).sum := by
  induction l generalizing x with
  | nil => simp
  | cons a l ih => rw [List.foldl_cons, ih, List.map_cons, List.sum_cons, add_assoc]

theorem relabel_sum (σ : Fin m → K) (τ : Equiv.Perm (Fin m)) {ι : Type*} (s : Finset ι) (f : ι → Fin m → K) :
    relabel σ τ (∑ i ∈ s, f i) = ∑ i ∈ s, relabel σ τ (f i) := by
  classical
  induction s using Finset.induction_on with
  | empty => funext k; simp [relabel]
  | insert a s ha ih => rw [Finset.sum_insert ha, Finset.sum_insert ha, relabel_add, ih]

theorem foldl_turn (σ : Fin m → K) (τ : Equiv.Perm (Fin m)) (π : Equiv.Perm (Fin w)) (f f' : Fin w → Fin m → K)
    (h : ∀ p, f' (π p) = relabel σ τ (f p)) (x x' : Fin m → K) (hx : x' = relabel σ τ x) :
    (List.finRange w).foldl (fun x p => x + f' p) x' = relabel σ τ ((List.finRange w).foldl (fun x p => x + f p) x) := by
  rw [foldl_vec_sum, foldl_vec_sum, ← Fin.sum_univ_def, ← Fin.sum_univ_def, relabel_add, hx, relabel_sum, ← Equiv.sum_comp π f']
  simp only [h]

theorem central4_turn (σ : Fin m → K) (τ : Equiv.Perm (Fin m)) (q : Int → Fin m → K) (i : Int) :
    central4 (fun j => relabel σ τ (q j)) i = relabel σ τ (central4 q i) := by
  funext k
  simp only [central4, relabel]
  ring

theorem fRecon_turn {σ : Fin m → K} (hσ : IsSign σ) (τ : Equiv.Perm (Fin m)) {RA : A → A} {π : Equiv.Perm (Fin w)} (R : ReconCfg K m w)
    {rp rp' : Riemann K A m w} (hM : TurnedImage (relabel σ τ) RA π rp rp') (c : FluxCfg K)
    (hopt : ReconOk c.g R.limType R.charDecomp R.order)
    (aux : Int → A) (q : Int → Fin m → K) {e e' : Edges K m}
    (he : fRecon R.eps R.tol R.undef R.first rp c R.limType R.charDecomp R.order R.fwave R.limEqn R.limWave R.old none aux q = some e)
    (he' : fRecon R.eps R.tol R.undef R.first rp' c R.limType R.charDecomp R.order R.fwave (fun k => R.limEqn (τ k)) R.limWave R.old none
      (fun i => RA (aux i)) (fun i => relabel σ τ (q i)) = some e') :
    (∀ i : Int, 0 ≤ i → i ≤ c.n → e'.qr i = relabel σ τ (e.qr i)) ∧ (∀ i : Int, 1 ≤ i → i ≤ c.n + 1 → e'.ql i = relabel σ τ (e.ql i)) := by
  obtain ⟨o1, o2, o3⟩ := hopt
  unfold fRecon at he he'
  dsimp only at he he'
  have o1' : R.limType = 1 → R.charDecomp = 0 ∧ (2 : Int) ≤ c.g := fun h => ⟨(o1 h).1, by exact_mod_cast (o1 h).2⟩
  have o2' : R.limType = 2 → (3 : Int) ≤ c.g ∧ R.order < 2 * c.g := fun h => ⟨by exact_mod_cast (o2 h).1, (o2 h).2⟩
  have o3' : R.limType = 3 → (3 : Int) ≤ c.g := fun h => by exact_mod_cast o3 h
  have hn : (0 : Int) ≤ c.n := Int.natCast_nonneg _
  clear o1 o2 o3
  generalize (c.g : Int) = g at *
  generalize (c.n : Int) = n at *
  split at he
  · rename_i hc
    rw [if_pos hc] at he'
    have hg2 := (o1' hc.1).2
    cases he; cases he'
    have hr : ∀ (k : Fin m) (x y z : K), (σ k * x - σ k * y) / (σ k * y - σ k * z) = (x - y) / (y - z) := by
      intro k x y z
      have h0 : σ k ≠ 0 := by rcases hσ k with h | h <;> rw [h] <;> norm_num
      rw [← mul_sub, ← mul_sub, mul_div_mul_left _ _ h0]
    constructor <;> intro i i1 i2 <;> funext k <;> simp only [fTvd2, relabel] <;>
      rw [if_pos (by omega), if_neg (by omega), if_pos (by omega), if_neg (by omega), hr] <;> ring
  · rename_i hc
    rw [if_neg hc] at he'
    split at he
    · rename_i hc2
      exact absurd ⟨hc2.1, (o1' hc2.1).1⟩ hc
    · rename_i hc2
      rw [if_neg hc2] at he'
      split at he
      · rename_i hc3
        rw [if_pos hc3] at he'
        obtain ⟨hg3, hor⟩ := o2' hc3.1
        rw [Option.map_eq_some_iff] at he he'
        obtain ⟨T, hT, rfl⟩ := he
        obtain ⟨T', hT', rfl⟩ := he'
        obtain rfl : T = T' := by rw [hT] at hT'; exact Option.some.inj hT'
        have key := fun i k => table_sign T R.eps (σ k) (hσ k) (fun j => q (j - g) (τ k)) i
        constructor <;> intro i i1 i2 <;> funext k <;> simp only [fWenoComp, WenoTable.ql, WenoTable.qr, relabel] <;>
          rw [if_pos (by omega), if_pos (by omega)]
        · exact (key _ k).1
        · exact (key _ k).2
      · rename_i hc3
        rw [if_neg hc3] at he'
        split at he
        · rename_i hc4
          rw [if_pos hc4] at he'
          obtain ⟨hg3, hor⟩ := o2' hc4.1
          cases he; cases he'
          have hw := fun (im i : Int) p => fWaveTerm_turn hσ τ π R.eps R.tol (fun p => (rp (q (p - g - 1)) (q (p - g)) (aux (p - g - 1)) (aux (p - g))).wave)
            (fun p => (rp' (relabel σ τ (q (p - g - 1))) (relabel σ τ (q (p - g))) (RA (aux (p - g - 1))) (RA (aux (p - g)))).wave)
            (fun j p => (hM _ _ _ _).2.1 p) im i p
          constructor <;> intro i i1 i2 <;> simp only [fWenoWave] <;> rw [if_pos (by omega), if_pos (by omega)]
          · exact foldl_turn σ τ π _ _ (fun p => hw 1 (i + g + 1) p) _ _ (central4_turn σ τ (fun p => q (p - g)) (i + g + 1))
          · exact foldl_turn σ τ π _ _ (fun p => hw (-1) (i + g) p) _ _ (central4_turn σ τ (fun p => q (p - g)) (i + g))
        · rename_i hc4
          rw [if_neg hc4] at he'
          split at he
          · rename_i hc5
            rw [if_pos hc5] at he'
            have hg3 := o3' hc5
            cases he; cases he'
            have key := fun (im i : Int) k => shuValue_sign R.eps (σ k) (hσ k) (fun j => q (j - g) (τ k)) (fun j => relabel σ τ (q (j - g)) k)
              (fun _ => rfl) im i
            constructor <;> intro i i1 i2 <;> funext k <;> simp only [fShu5, fShuQl, fShuQr] <;> rw [if_pos (by omega)]
            · refine (key 1 _ k).trans ?_
              simp only [relabel]
              rw [if_pos (by omega)]
            · refine (key (-1) _ k).trans ?_
              simp only [relabel]
              rw [if_pos (by omega)]
          · cases he

/-! ### Rows -/

variable (f2003 : Bool) (R : ReconCfg K m w) (g : Nat) (dx : K) (capa : Option (A → K))

theorem row_options (l : Fin m → Int) (rp rp' : Riemann K A m w) (aux aux' : Int → A) (q q' : Int → Fin m → K) :
    reconRow R rp 1 1 g aux q = none ↔ reconRow { R with limEqn := l } rp' 1 1 g aux' q' = none := by
  unfold reconRow fRecon
  dsimp only
  split_ifs <;> simp

/-- The total fluctuation seen in a mirror. -/
def reversedTf (tf : TotalFluct K A m) : TotalFluct K A m := tf.map fun f ql qr al ar => f qr ql ar al

theorem rowNew_reversed (hcap : capa = none ∨ f2003 = false) (hR : R.Fits g) (hE : EvenRecon R) (rp : Riemann K A m w) (tf : TotalFluct K A m)
    (dt : K) (aux : Int → A) (q : Int → Fin m → K) (M i : Int) :
    rowNew f2003 R (reversedRp R.fwave rp) (reversedTf tf) g dx capa dt (fun u => aux (M - u)) (fun u => q (M - u)) i =
      rowNew f2003 R rp tf g dx capa dt aux q (M - i) := by
  have e0 : ∀ u, M - (u + (i - 1)) = (1 : Nat) + 1 - u + (M - i - 1) := fun u => by push_cast; ring
  unfold rowNew
  simp only [e0]
  cases he : reconRow R rp 1 1 g (fun u => aux (u + (M - i - 1))) (fun u => q (u + (M - i - 1))) with
  | none =>
    rw [reconRow_none_iff R rp (reversedRp R.fwave rp) 1 1 1 1 g _ (fun u => aux ((1 : Nat) + 1 - u + (M - i - 1))) _
      (fun u => q ((1 : Nat) + 1 - u + (M - i - 1)))] at he
    rw [he]
  | some e =>
    cases he' : reconRow R (reversedRp R.fwave rp) 1 1 g (fun u => aux ((1 : Nat) + 1 - u + (M - i - 1)))
        (fun u => q ((1 : Nat) + 1 - u + (M - i - 1))) with
    | none =>
      rw [reconRow_none_iff R (reversedRp R.fwave rp) rp 1 1 1 1 g _ (fun u => aux (u + (M - i - 1))) _ (fun u => q (u + (M - i - 1))), he] at he'
      cases he'
    | some e' =>
      have key : (∀ i : Int, 0 ≤ i → i ≤ (1 : Nat) → e'.qr i = e.ql ((1 : Nat) + 1 - i)) ∧
          (∀ i : Int, 1 ≤ i → i ≤ (1 : Nat) + 1 → e'.ql i = e.qr ((1 : Nat) + 1 - i)) := by
        unfold reconRow at he he'
        rw [ite_self] at he he'
        exact fRecon_mirror R hE rp ⟨1, g, 0, 0⟩ hR.2 (fun u => aux (u + (M - i - 1))) (fun u => q (u + (M - i - 1))) he he'
      have r0 := key.1 0 le_rfl (by norm_num)
      have r1 := key.1 1 (by norm_num) (by norm_num)
      have l1 := key.2 1 le_rfl (by norm_num)
      have l2 := key.2 2 (by norm_num) (by norm_num)
      norm_num at r0 r1 l1 l2
      dsimp only
      unfold flux1
      have hd : fluxDtdx f2003 ⟨1, g, dt, dx⟩ capa (fun u => aux ((1 : Nat) + 1 - u + (M - i - 1))) 1 =
          fluxDtdx f2003 ⟨1, g, dt, dx⟩ capa (fun u => aux (u + (M - i - 1))) 1 :=
        fluxDtdx_near hcap 1 1 g dt dx _ _ 1 1 (by norm_num)
      cases tf with
      | none =>
        simp only [reversedTf, Option.map_none, reversedRp]
        rw [if_pos (by norm_num), if_pos (by norm_num), hd]
        generalize fluxDtdx f2003 ⟨1, g, dt, dx⟩ capa (fun u => aux (u + (M - i - 1))) 1 = x
        norm_num
        rw [r0, r1, l1, l2]
        module
      | some f =>
        simp only [reversedTf, Option.map_some, reversedRp]
        rw [if_pos (by norm_num), if_pos (by norm_num), hd]
        generalize fluxDtdx f2003 ⟨1, g, dt, dx⟩ capa (fun u => aux (u + (M - i - 1))) 1 = x
        norm_num
        rw [r0, r1, l1, l2]
        module

theorem rowNum_reversed (hcap : capa = none ∨ f2003 = false) (hR : R.Fits g) (hE : EvenRecon R) (rp : Riemann K A m w)
    (dt : K) (aux : Int → A) (q : Int → Fin m → K) (M i : Int) (x : K) :
    rowNum f2003 R (reversedRp R.fwave rp) g dx capa dt (fun u => aux (M - u)) (fun u => q (M - u)) i x ↔
      rowNum f2003 R rp g dx capa dt aux q (M + 1 - i) x := by
  have e0 : ∀ u, M - (u + (i - 1)) = (0 : Nat) + 1 - u + (M + 1 - i - 1) := fun u => by push_cast; ring
  have key : ∀ e e', reconRow R rp 1 1 g (fun u => aux (u + (M + 1 - i - 1))) (fun u => q (u + (M + 1 - i - 1))) = some e →
      reconRow R (reversedRp R.fwave rp) 1 1 g (fun u => aux ((0 : Nat) + 1 - u + (M + 1 - i - 1)))
        (fun u => q ((0 : Nat) + 1 - u + (M + 1 - i - 1))) = some e' →
      (WaveNumber (fluxDtdx f2003 ⟨1, g, dt, dx⟩ capa (fun u => aux ((0 : Nat) + 1 - u + (M + 1 - i - 1))))
        (rowRp (reversedRp R.fwave rp) (fun u => aux ((0 : Nat) + 1 - u + (M + 1 - i - 1))) e') 1 x ↔
      WaveNumber (fluxDtdx f2003 ⟨1, g, dt, dx⟩ capa (fun u => aux (u + (M + 1 - i - 1))))
        (rowRp rp (fun u => aux (u + (M + 1 - i - 1))) e) 1 x) := by
    intro e e' he he'
    -- the row of no cells has the same interface
    obtain ⟨e1, he1⟩ : ∃ e1, reconRow R rp 0 0 g (fun u => aux (u + (M + 1 - i - 1))) (fun u => q (u + (M + 1 - i - 1))) = some e1 := by
      cases h : reconRow R rp 0 0 g (fun u => aux (u + (M + 1 - i - 1))) (fun u => q (u + (M + 1 - i - 1))) with
      | some e1 => exact ⟨e1, rfl⟩
      | none => rw [reconRow_none_iff R rp rp 0 0 1 1 g _ (fun u => aux (u + (M + 1 - i - 1))) _ (fun u => q (u + (M + 1 - i - 1))), he] at h; cases h
    obtain ⟨e2, he2⟩ : ∃ e2, reconRow R (reversedRp R.fwave rp) 0 0 g (fun u => aux ((0 : Nat) + 1 - u + (M + 1 - i - 1)))
        (fun u => q ((0 : Nat) + 1 - u + (M + 1 - i - 1))) = some e2 := by
      cases h : reconRow R (reversedRp R.fwave rp) 0 0 g (fun u => aux ((0 : Nat) + 1 - u + (M + 1 - i - 1)))
        (fun u => q ((0 : Nat) + 1 - u + (M + 1 - i - 1))) with
      | some e1 => exact ⟨e1, rfl⟩
      | none => rw [reconRow_none_iff R (reversedRp R.fwave rp) rp 0 0 1 1 g _ (fun u => aux (u + (M + 1 - i - 1))) _ (fun u => q (u + (M + 1 - i - 1))), he] at h; cases h
    have n1 := number_near f2003 R rp g dx capa hcap hR (le_refl 0) (le_refl 1) dt (fun u => aux (u + (M + 1 - i - 1)))
      (fun u => aux (u + (M + 1 - i - 1))) (fun u => q (u + (M + 1 - i - 1))) (fun u => q (u + (M + 1 - i - 1))) 1 0
      (fun u _ _ => by simp) he1 he le_rfl (by norm_num) (by norm_num) (by norm_num) x
    have n2 := number_near f2003 R (reversedRp R.fwave rp) g dx capa hcap hR (le_refl 0) (le_refl 1) dt
      (fun u => aux ((0 : Nat) + 1 - u + (M + 1 - i - 1))) (fun u => aux ((0 : Nat) + 1 - u + (M + 1 - i - 1)))
      (fun u => q ((0 : Nat) + 1 - u + (M + 1 - i - 1))) (fun u => q ((0 : Nat) + 1 - u + (M + 1 - i - 1))) 1 0
      (fun u _ _ => by simp) he2 he' le_rfl (by norm_num) (by norm_num) (by norm_num) x
    rw [n1, n2]
    have k : (∀ i : Int, 0 ≤ i → i ≤ (0 : Nat) → e2.qr i = e1.ql ((0 : Nat) + 1 - i)) ∧
        (∀ i : Int, 1 ≤ i → i ≤ (0 : Nat) + 1 → e2.ql i = e1.qr ((0 : Nat) + 1 - i)) := by
      unfold reconRow at he1 he2
      rw [ite_self] at he1 he2
      exact fRecon_mirror R hE rp ⟨0, g, 0, 0⟩ hR.2 (fun u => aux (u + (M + 1 - i - 1))) (fun u => q (u + (M + 1 - i - 1))) he1 he2
    have r0 := k.1 0 le_rfl (by norm_num)
    have l1 := k.2 1 le_rfl (by norm_num)
    norm_num at r0 l1
    have d0 : fluxDtdx f2003 ⟨0, g, dt, dx⟩ capa (fun u => aux ((0 : Nat) + 1 - u + (M + 1 - i - 1))) 1 =
        fluxDtdx f2003 ⟨0, g, dt, dx⟩ capa (fun u => aux (u + (M + 1 - i - 1))) 0 := fluxDtdx_near hcap 0 0 g dt dx _ _ 1 0 (by norm_num)
    have d1 : fluxDtdx f2003 ⟨0, g, dt, dx⟩ capa (fun u => aux ((0 : Nat) + 1 - u + (M + 1 - i - 1))) 0 =
        fluxDtdx f2003 ⟨0, g, dt, dx⟩ capa (fun u => aux (u + (M + 1 - i - 1))) 1 := fluxDtdx_near hcap 0 0 g dt dx _ _ 0 1 (by norm_num)
    have hs : ∀ p, (rowRp (reversedRp R.fwave rp) (fun u => aux ((0 : Nat) + 1 - u + (M + 1 - i - 1))) e2 1).s p =
        -(rowRp rp (fun u => aux (u + (M + 1 - i - 1))) e1 1).s p := by
      intro p
      simp only [rowRp, reversedRp]
      norm_num
      rw [r0, l1]
    unfold WaveNumber
    rw [add_zero, sub_self, d0, d1]
    refine exists_congr fun p => ?_
    rw [hs]
    simp only [mul_neg, neg_mul, neg_neg]
    exact or_comm
  unfold rowNum
  simp only [e0]
  cases he : reconRow R rp 1 1 g (fun u => aux (u + (M + 1 - i - 1))) (fun u => q (u + (M + 1 - i - 1))) with
  | none =>
    rw [reconRow_none_iff R rp (reversedRp R.fwave rp) 1 1 1 1 g _ (fun u => aux ((0 : Nat) + 1 - u + (M + 1 - i - 1))) _
      (fun u => q ((0 : Nat) + 1 - u + (M + 1 - i - 1)))] at he
    rw [he]
    simp
  | some e =>
    cases he' : reconRow R (reversedRp R.fwave rp) 1 1 g (fun u => aux ((0 : Nat) + 1 - u + (M + 1 - i - 1)))
        (fun u => q ((0 : Nat) + 1 - u + (M + 1 - i - 1))) with
    | none =>
      rw [reconRow_none_iff R (reversedRp R.fwave rp) rp 1 1 1 1 g _ (fun u => aux (u + (M + 1 - i - 1))) _ (fun u => q (u + (M + 1 - i - 1))), he] at he'
      cases he'
    | some e' =>
      simp only [Option.some.injEq, exists_eq_left']
      exact key e e' he he'

theorem dtdx_turn {RA : A → A} (hc : ∀ κ, capa = some κ → ∀ z, κ (RA z) = κ z) (c : FluxCfg K) (aux : Int → A) :
    fluxDtdx f2003 c capa (fun i => RA (aux i)) = fluxDtdx f2003 c capa aux := by
  funext i
  unfold fluxDtdx
  cases capa with
  | none => rfl
  | some κ => simp only [hc κ rfl]

theorem row_turn {σ : Fin m → K} (hσ : IsSign σ) (τ : Equiv.Perm (Fin m)) {RA : A → A} {π : Equiv.Perm (Fin w)} (hR : R.Fits g)
    {rp rp' : Riemann K A m w} (hM : TurnedImage (relabel σ τ) RA π rp rp')
    {tf tf' : TotalFluct K A m} (hT : TurnedTotal (relabel σ τ) RA tf tf') (hc : ∀ κ, capa = some κ → ∀ z, κ (RA z) = κ z)
    (dt : K) (aux : Int → A) (q : Int → Fin m → K) (i : Int) :
    rowNew f2003 { R with limEqn := fun k => R.limEqn (τ k) } rp' tf' g dx capa dt (fun u => RA (aux u)) (fun u => relabel σ τ (q u)) i =
      relabel σ τ (rowNew f2003 R rp tf g dx capa dt aux q i) ∧
    ∀ x, rowNum f2003 { R with limEqn := fun k => R.limEqn (τ k) } rp' g dx capa dt (fun u => RA (aux u)) (fun u => relabel σ τ (q u)) i x ↔
      rowNum f2003 R rp g dx capa dt aux q i x := by
  unfold rowNew rowNum
  cases he : reconRow R rp 1 1 g (fun u => aux (u + (i - 1))) (fun u => q (u + (i - 1))) with
  | none =>
    rw [row_options R g (fun k => R.limEqn (τ k)) rp rp' _ (fun u => RA (aux (u + (i - 1)))) _ (fun u => relabel σ τ (q (u + (i - 1))))] at he
    rw [he]
    refine ⟨?_, by simp⟩
    funext k
    simp [relabel]
  | some e =>
    cases he' : reconRow { R with limEqn := fun k => R.limEqn (τ k) } rp' 1 1 g (fun u => RA (aux (u + (i - 1))))
        (fun u => relabel σ τ (q (u + (i - 1)))) with
    | none =>
      rw [← row_options R g (fun k => R.limEqn (τ k)) rp rp' (fun u => aux (u + (i - 1))) _ (fun u => q (u + (i - 1))) _, he] at he'
      cases he'
    | some e' =>
      have key : (∀ i : Int, 0 ≤ i → i ≤ (1 : Nat) → e'.qr i = relabel σ τ (e.qr i)) ∧
          (∀ i : Int, 1 ≤ i → i ≤ (1 : Nat) + 1 → e'.ql i = relabel σ τ (e.ql i)) := by
        unfold reconRow at he he'
        rw [ite_self] at he he'
        exact fRecon_turn hσ τ R hM ⟨1, g, 0, 0⟩ hR.2 (fun u => aux (u + (i - 1))) (fun u => q (u + (i - 1))) he he'
      have r0 := key.1 0 le_rfl (by norm_num)
      have r1 := key.1 1 (by norm_num) (by norm_num)
      have l1 := key.2 1 le_rfl (by norm_num)
      have l2 := key.2 2 (by norm_num) (by norm_num)
      have hd := dtdx_turn f2003 capa hc ⟨1, g, dt, dx⟩ fun u => aux (u + (i - 1))
      constructor
      · dsimp only
        unfold flux1
        rw [hd]
        match tf, tf', hT with
        | none, none, _ =>
          dsimp only
          rw [if_pos (by norm_num), if_pos (by norm_num), relabel_smul, relabel_add, relabel_add, relabel_add]
          norm_num only
          rw [r0, r1, l1, l2, (hM _ _ _ _).2.2.1, (hM _ _ _ _).2.2.1, (hM _ _ _ _).2.2.2, (hM _ _ _ _).2.2.2]
        | some f, some f', hT =>
          dsimp only
          rw [if_pos (by norm_num), if_pos (by norm_num), relabel_smul, relabel_add, relabel_add]
          norm_num only
          rw [r0, r1, l1, l2, (hM _ _ _ _).2.2.1, (hM _ _ _ _).2.2.2, hT]
      · intro x
        simp only [Option.some.injEq, exists_eq_left']
        rw [hd]
        unfold WaveNumber rowRp
        norm_num only
        rw [r0, l1]
        constructor
        · rintro ⟨p, h⟩
          refine ⟨π.symm p, ?_⟩
          rw [← (hM _ _ _ _).1, Equiv.apply_symm_apply]
          exact h
        · rintro ⟨p, h⟩
          refine ⟨π p, ?_⟩
          rw [(hM _ _ _ _).1]
          exact h

end PyClaw
