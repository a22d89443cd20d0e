import Verif.Props.SecondOrder
import Verif.Props.Unsplit2
import Mathlib.Data.Rat.Floor

/-!
C76 in two dimensions: accuracy of the unsplit and the dimensionally split second-order method.
-/
set_option linter.unusedSectionVars false

namespace PyClaw
open Spec

variable {K B : Type*} [Field K] [LinearOrder K] [IsStrictOrderedRing K] {m w : Nat}

/-- Without limiter the correction fluxes use the waves as they are. -/
theorem sliceFlux_unlimited (undef : K) (order : Int) (ho : order ≠ 1) (fwave : Bool) (lim : Fin w → Int)
    (hl : ∀ p, ¬ 0 < lim p) (lam : Int → K) (d : Int → Rp K m w) :
    sliceFlux undef order fwave lim lam d =
      correctionFlux (if fwave then dsign1 else abs) lam d fun i => (d i).wave := by
  unfold sliceFlux
  rw [if_neg ho]
  congr 1
  funext i p
  have hp : fPhi undef lim p = fun _ _ => 1 := by
    unfold fPhi
    rw [if_neg (fun h => by obtain ⟨⟨p, hp⟩, _⟩ := h; exact hl p hp)]
  unfold limitedWave
  rw [hp]
  simp only [one_smul, ite_self]

theorem rowStep_linear (undef : K) (A : (Fin m → K) →ₗ[K] (Fin m → K)) (rp : Riemann K B m w) (c : Cfg1 K w)
    (hr : LinearSolverFor A c.fwave rp) (ho : c.order ≠ 1) (hl : ∀ p, ¬ 0 < c.limiter p) (aux : Int → B)
    (q : Int → Fin m → K) (i : Int) :
    rowStep undef rp c none aux q i = laxWendroff A (c.dt / c.dx) q i := by
  unfold rowStep
  rw [sliceFlux_unlimited undef c.order ho c.fwave c.limiter hl]
  exact waveProp_linear A c.fwave rp hr _ (dsign1_dir c.fwave) (c.dt / c.dx) aux q _ i fun _ _ _ => rfl

/-- The correction flux of a linear solver is linear in the jump. -/
theorem correction_linear (A Am Ap : (Fin m → K) →ₗ[K] (Fin m → K)) (f : Bool) (rp : Riemann K B m w)
    (hr : LinearSolverFor A f rp) (hp : LinearParts Am Ap rp) (lam : K) (aux : Int → B) (q : Int → Fin m → K) (i : Int) :
    correctionFlux (if f then dsign1 else abs) (fun _ => lam) (interfaces rp aux q)
      (fun i => (interfaces rp aux q i).wave) i =
      ((1 / 2 : K) • A - (lam / 2) • (A ∘ₗ A) - Am) (q i - q (i - 1)) ∧
    (Am + Ap) (q i - q (i - 1)) = A (q i - q (i - 1)) := by
  have h := linear_halves A lam f _ (dsign1_dir f) (interfaces rp aux q i) (q i - q (i - 1)) (by
    unfold LinearSolverFor at hr
    cases f with
    | false =>
      simp only [Bool.false_eq_true, if_false] at hr ⊢
      exact ⟨hr.jump _ _ _ _, hr.eigen _ _ _ _, hr.left _ _ _ _, hr.right _ _ _ _⟩
    | true =>
      simp only [if_true] at hr ⊢
      exact ⟨hr.jump _ _ _ _, hr.eigen _ _ _ _, hr.left _ _ _ _, hr.right _ _ _ _, hr.moving _ _ _ _⟩)
  have e1 : (interfaces rp aux q i).amdq = Am (q i - q (i - 1)) := (hp _ _ _ _).1
  have e2 : (interfaces rp aux q i).apdq = Ap (q i - q (i - 1)) := (hp _ _ _ _).2
  rw [e1, e2] at h
  have e3 : correctionFlux (if f then dsign1 else abs) (fun _ => lam) (interfaces rp aux q)
      (fun i => (interfaces rp aux q i).wave) i = ∑ p, (1 / 2 * (if f then dsign1 else abs) ((interfaces rp aux q i).s p) *
        (1 - |(interfaces rp aux q i).s p| * lam)) • (interfaces rp aux q i).wave p := by
    unfold correctionFlux
    refine Finset.sum_congr rfl fun p _ => ?_
    congr 4
    ring
  rw [e3]
  obtain ⟨h1, h2⟩ := h
  constructor
  · rw [← sub_eq_of_eq_add' h1.symm]
    simp only [LinearMap.sub_apply, LinearMap.smul_apply, LinearMap.comp_apply]
  · have := congrArg₂ (· + ·) h1 h2
    rw [LinearMap.add_apply]
    have h3 : Am (q i - q (i - 1)) + Ap (q i - q (i - 1)) =
        (1 / 2 : K) • A (q i - q (i - 1)) - (lam / 2) • A (A (q i - q (i - 1))) +
        ((1 / 2 : K) • A (q i - q (i - 1)) + (lam / 2) • A (A (q i - q (i - 1)))) := by
      rw [← this]; abel
    rw [h3]
    module

/-- The sweep in the first direction on quadratic data. -/
theorem xIncrement_quadratic (undef : K) (A Am Ap C : (Fin m → K) →ₗ[K] (Fin m → K)) (rp : Riemann K B m w)
    (rt : Transverse K B m) (c : Cfg2 K w) (hr : LinearSolverFor A c.fwave rp) (hp : LinearParts Am Ap rp)
    (ht : LinearTransverse C rt) (ho : c.order ≠ 1) (htr : 0 < c.trans) (hl : ∀ p, ¬ 0 < c.limiter p)
    (hdx : c.dx ≠ 0) (hdy : c.dy ≠ 0) (aux : Int → Int → B) (p : Quadratic2 K m) (i j : Int) :
    xIncrement undef rp rt c none aux (fun i j => p.at (i * c.dx) (j * c.dy)) i j =
      -(c.dt • A (p.c10 + (2 * (i * c.dx)) • p.c20 + (j * c.dy) • p.c11)) + c.dt ^ 2 • A (A p.c20)
        + (c.dt ^ 2 / 2) • C (A p.c11) := by
  obtain ⟨Cm, Cp, hC, ht⟩ := ht
  have hA : ∀ D, A D = Am D + Ap D := fun D => by
    have h := (correction_linear A Am Ap c.fwave rp hr hp 0 (fun i => aux i j) (fun n => if n = 0 then D else 0) 0).2
    simpa using h.symm
  set q : Int → Int → Fin m → K := fun i j => p.at (i * c.dx) (j * c.dy) with hq
  set lam := c.dt / c.dx with hlam
  set Fm : (Fin m → K) →ₗ[K] (Fin m → K) := (1 / 2 : K) • A - (lam / 2) • (A ∘ₗ A) - Am with hF
  obtain ⟨S, hS⟩ : ∃ S : Int → Fin m → K, (∀ l, rowTransverse undef rp rt c none aux q l i =
      (-(1 / 2 * lam)) • (Cm (S l), Cp (S l))) ∧ ∀ l, S (l + 1) - S l = (c.dx * c.dy) • A p.c11 := by
    have e0 : ∀ (l k : Int), sliceFlux undef c.order c.fwave c.limiter (localRatio c.dt c.dx none fun i => aux i l)
        (interfaces rp (fun i => aux i l) (fun i => q i l)) k = Fm (q k l - q (k - 1) l) := by
      intro l k
      rw [sliceFlux_unlimited undef c.order ho c.fwave c.limiter hl]
      exact (correction_linear A Am Ap c.fwave rp hr hp lam (fun i => aux i l) (fun i => q i l) k).1
    refine ⟨fun l => Am (q (i + 1) l - q i l) + Ap (q i l - q (i - 1) l) + (if 1 < c.order ∧ c.trans = 2 then 2 else 0 : K) •
      Fm (q (i + 1) l - q i l - (q i l - q (i - 1) l)), fun l => ?_, fun l => ?_⟩
    · have a1 : (interfaces rp (fun i => aux i l) (fun i => q i l) (i + 1)).amdq = Am (q (i + 1) l - q i l) := by
        unfold interfaces; rw [(hp _ _ _ _).1, add_sub_cancel_right]
      have a2 : (interfaces rp (fun i => aux i l) (fun i => q i l) i).apdq = Ap (q i l - q (i - 1) l) :=
        (hp _ _ _ _).2
      unfold rowTransverse
      rw [if_neg (by omega)]
      simp only [transversePair, ht, leftPart, rightPart, e0, a1, a2, add_sub_cancel_right, localRatio]
      by_cases hc : 1 < c.order ∧ c.trans = 2
      · simp only [if_pos hc]
        ext k <;>
        · simp only [map_add, map_sub, map_smul, Prod.smul_fst, Prod.smul_snd, Prod.fst_add, Prod.snd_add, Pi.smul_apply,
            Pi.add_apply, Pi.sub_apply, smul_eq_mul]
          ring
      · simp only [if_neg hc]
        ext k <;>
        · simp only [map_add, map_sub, map_smul, Prod.smul_fst, Prod.smul_snd, Prod.fst_add, Prod.snd_add, Pi.smul_apply,
            Pi.add_apply, Pi.sub_apply, smul_eq_mul, zero_mul, add_zero]
          rw [hlam]
    · have z : ∀ l : Int, q (i + 1) l - q i l - (q i l - q (i - 1) l) = (2 * c.dx ^ 2) • p.c20 := by
        intro l
        simp only [hq, Quadratic2.at]
        push_cast
        module
      beta_reduce
      rw [z, z, hA]
      simp only [hq, Quadratic2.at]
      push_cast
      simp only [map_add, map_sub, map_smul]
      module
  obtain ⟨hS1, hS2⟩ := hS
  have s1 : S (j + 1) = S j + (c.dx * c.dy) • A p.c11 := by rw [← hS2 j]; abel
  have s2 : S (j - 1) = S j - (c.dx * c.dy) • A p.c11 := by
    have := hS2 (j - 1)
    rw [sub_add_cancel] at this
    rw [← this]; abel
  unfold xIncrement rowFlux
  rw [rowStep_linear undef A rp c.row hr ho hl]
  simp only [hS1, add_sub_cancel_right, localRatio, s1, s2]
  have hlw := laxWendroff_quadratic A c.dt c.dx hdx (p.c00 + (j * c.dy) • p.c01 + (j * c.dy) ^ 2 • p.c02)
    (p.c10 + (j * c.dy) • p.c11) p.c20 i
  have hrow : (fun i : Int => q i j) = fun i : Int => (p.c00 + (j * c.dy : K) • p.c01 + (j * c.dy : K) ^ 2 • p.c02) +
      (i * c.dx : K) • (p.c10 + (j * c.dy : K) • p.c11) + (i * c.dx : K) ^ 2 • p.c20 := by
    funext n
    simp only [hq, Quadratic2.at]
    module
  have hc : c.row.dt = c.dt ∧ c.row.dx = c.dx := ⟨rfl, rfl⟩
  rw [hrow, hc.1, hc.2, hlw, ← hC]
  simp only [hq, Quadratic2.at, quadraticSolution, Prod.smul_mk, map_add, map_sub, map_smul, LinearMap.add_apply, hlam]
  have e1 : c.dt / c.dx * c.dx = c.dt := div_mul_cancel₀ _ hdx
  have e2 : c.dt / c.dy * c.dy = c.dt := div_mul_cancel₀ _ hdy
  have e3 : c.dt / c.dy * (1 / 2 * (c.dt / c.dx) * (c.dx * c.dy)) = c.dt ^ 2 / 2 := by
    rw [show c.dt / c.dy * (1 / 2 * (c.dt / c.dx) * (c.dx * c.dy)) =
      1 / 2 * (c.dt / c.dx * c.dx) * (c.dt / c.dy * c.dy) by ring, e1, e2]
    ring
  linear_combination (norm := module) e3 • (Cm (A p.c11) + Cp (A p.c11))

/-- C76 in two dimensions. For every linear system `q_t + A q_x + C q_y = 0` (`A` and `C` need not commute) the unsplit
second-order method without limiter, with `transverse_waves > 0`, advances quadratic data exactly, at every cell. -/
theorem C76_unsplit2_quadratic (undef : K) (A Am Ap C Cm Cp : (Fin m → K) →ₗ[K] (Fin m → K))
    (rpx rpy : Riemann K B m w) (rtx rty : Transverse K B m) (c : Cfg2 K w) (hrx : LinearSolverFor A c.fwave rpx)
    (hry : LinearSolverFor C c.fwave rpy) (hpx : LinearParts Am Ap rpx) (hpy : LinearParts Cm Cp rpy)
    (htx : LinearTransverse C rtx) (hty : LinearTransverse A rty) (hg : 1 ≤ c.g) (ho : c.order ≠ 1) (htr : 0 < c.trans)
    (hl : ∀ p, ¬ 0 < c.limiter p) (hdx : c.dx ≠ 0) (hdy : c.dy ≠ 0) (aux : Int → Int → B) (p : Quadratic2 K m)
    (i j : Int) (h1 : 1 ≤ i) (h2 : i ≤ c.mx) (h3 : 1 ≤ j) (h4 : j ≤ c.my) :
    (unsplitStep2 undef rpx rpy rtx rty c none aux fun i j => p.at (i * c.dx) (j * c.dy)).1 i j =
      p.solution A C c.dt (i * c.dx) (j * c.dy) := by
  rw [unsplitStep2_cell undef rpx rpy rtx rty c hg none aux _ i j h1 h2 h3 h4,
    xIncrement_quadratic undef A Am Ap C rpx rtx c hrx hpx htx ho htr hl hdx hdy aux p i j]
  have hswap : (fun (j i : Int) => p.at (i * c.dx) (j * c.dy)) = fun (j i : Int) =>
      (Quadratic2.mk p.c00 p.c01 p.c10 p.c02 p.c11 p.c20).at (j * c.swap.dx) (i * c.swap.dy) := by
    funext j i
    simp only [Quadratic2.at, Cfg2.swap]
    module
  rw [hswap, xIncrement_quadratic undef C Cm Cp A rpy rty c.swap hry hpy hty ho htr hl hdy hdx _ _ j i]
  simp only [Quadratic2.at, Quadratic2.solution, Cfg2.swap, map_add, map_smul]
  module

/-! ### Acoustics in two dimensions meets the hypotheses -/

/-- Acoustics `(p, u, v)` with unit sound speed and impedance: the matrix in direction `x` (`d = 1`) or `y` (`d = 2`). -/
def acoustics2 (d : Fin 3) : (Fin 3 → K) →ₗ[K] (Fin 3 → K) where
  toFun q := fun j => if j = 0 then q d else if j = d then q 0 else 0
  map_add' a b := by funext j; simp only [Pi.add_apply]; split_ifs <;> simp
  map_smul' a b := by funext j; simp only [Pi.smul_apply, RingHom.id_apply]; split_ifs <;> simp

/-- Half of the matrix minus (`σ = -1`) or plus (`σ = 1`) half of its absolute value. -/
def acoustics2Part (d : Fin 3) (σ : K) : (Fin 3 → K) →ₗ[K] (Fin 3 → K) where
  toFun q := fun j => if j = 0 then (q d + σ * q 0) / 2 else if j = d then (q 0 + σ * q d) / 2 else 0
  map_add' a b := by funext j; simp only [Pi.add_apply]; split_ifs <;> ring
  map_smul' a b := by
    funext j; simp only [Pi.smul_apply, RingHom.id_apply, smul_eq_mul]; split_ifs <;> ring

/-- Its Riemann solver with two waves (the shear wave stands still and is left out). -/
def acoustics2Rp (d : Fin 3) : Riemann K Unit 3 2 := fun ql qr _ _ =>
  let a := qr - ql
  { wave := fun p j => if p = 0 then (if j = 0 then (a 0 - a d) / 2 else if j = d then -(a 0 - a d) / 2 else 0)
      else (if j = 0 then (a 0 + a d) / 2 else if j = d then (a 0 + a d) / 2 else 0)
    s := fun p => if p = 0 then -1 else 1
    amdq := acoustics2Part d (-1) a, apdq := acoustics2Part d 1 a }

theorem acoustics2_linear (d : Fin 3) (hd : d ≠ 0) : LinearSolver (acoustics2 d) (acoustics2Rp (K := K) d) where
  jump ql qr _ _ := by
    funext j
    simp only [acoustics2, acoustics2Rp, LinearMap.coe_mk, AddHom.coe_mk, Fin.sum_univ_two, Pi.add_apply, Pi.sub_apply,
      if_true, if_neg hd, if_neg (by decide : ¬((1 : Fin 2) = 0))]
    split_ifs <;> ring
  eigen ql qr _ _ p := by
    funext j
    simp only [acoustics2, acoustics2Rp, LinearMap.coe_mk, AddHom.coe_mk, Pi.smul_apply, smul_eq_mul, if_true, if_neg hd]
    split_ifs <;> ring
  left ql qr _ _ := by
    funext j
    simp only [acoustics2Part, acoustics2Rp, LinearMap.coe_mk, AddHom.coe_mk, Fin.sum_univ_two, Pi.add_apply,
      Pi.smul_apply, Pi.sub_apply, smul_eq_mul, if_true, if_neg (by decide : ¬((1 : Fin 2) = 0))]
    rw [min_eq_left (by norm_num : (-1 : K) ≤ 0), min_eq_right (by norm_num : (0 : K) ≤ 1)]
    split_ifs <;> ring
  right ql qr _ _ := by
    funext j
    simp only [acoustics2Part, acoustics2Rp, LinearMap.coe_mk, AddHom.coe_mk, Fin.sum_univ_two, Pi.add_apply,
      Pi.smul_apply, Pi.sub_apply, smul_eq_mul, if_true, if_neg (by decide : ¬((1 : Fin 2) = 0))]
    rw [max_eq_right (by norm_num : (-1 : K) ≤ 0), max_eq_left (by norm_num : (0 : K) ≤ 1)]
    split_ifs <;> ring

/-- The transverse solver of acoustics. -/
def acoustics2Rt (d : Fin 3) : Transverse K Unit 3 := fun _ _ _ _ _ a => (acoustics2Part d (-1) a, acoustics2Part d 1 a)

theorem acoustics2_transverse (d : Fin 3) : LinearTransverse (acoustics2 d) (acoustics2Rt (K := K) d) := by
  refine ⟨acoustics2Part d (-1), acoustics2Part d 1, ?_, fun _ _ _ _ _ _ => rfl⟩
  ext a j
  simp only [acoustics2, acoustics2Part, LinearMap.add_apply, LinearMap.coe_mk, AddHom.coe_mk, LinearMap.comp_apply,
    Pi.add_apply]
  split_ifs <;> ring

/-- The hypotheses are met by acoustics, whose matrices do not commute, and the exact solution is not trivial: for
pressure 0, `u = x y`, `v = 0` the pressure and both velocities change. -/
example (c : Cfg2 ℚ 2) (hf : c.fwave = false) :
    (LinearSolverFor (acoustics2 1) c.fwave (acoustics2Rp (K := ℚ) 1) ∧
      LinearSolverFor (acoustics2 2) c.fwave (acoustics2Rp (K := ℚ) 2) ∧
      LinearParts (acoustics2Part 1 (-1)) (acoustics2Part 1 1) (acoustics2Rp (K := ℚ) 1) ∧
      LinearTransverse (acoustics2 2) (acoustics2Rt (K := ℚ) 2)) ∧
    (acoustics2 (K := ℚ) 1) ((acoustics2 2) ![0, 0, 1]) ≠ (acoustics2 2) ((acoustics2 1) ![0, 0, 1]) ∧
    (Quadratic2.mk (0 : Fin 3 → ℚ) 0 0 0 ![0, 1, 0] 0).solution (acoustics2 1) (acoustics2 2) (1 / 2) 3 5 =
      ![-(5 / 2), 15, 1 / 8] := by
  refine ⟨⟨?_, ?_, fun _ _ _ _ => ⟨rfl, rfl⟩, acoustics2_transverse 2⟩, ?_, ?_⟩
  · rw [hf]; exact acoustics2_linear 1 (by decide)
  · rw [hf]; exact acoustics2_linear 2 (by decide)
  · decide +kernel
  · decide +kernel

end PyClaw
