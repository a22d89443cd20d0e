import Verif.Props.Classic1
import Verif.Props.Advection
import Verif.Spec.SecondOrder
import Mathlib.Tactic.Module

/-!
C76: the second-order methods are second order.
-/
set_option linter.unusedSectionVars false

namespace PyClaw
open Spec

variable {K B : Type*} [Field K] [LinearOrder K] [IsStrictOrderedRing K] {m w : Nat}

/-! ### One dimension -/

/-- The two halves of an interface: what goes left with the correction added, and what goes right with it removed. -/
theorem linear_halves (A : (Fin m → K) →ₗ[K] (Fin m → K)) (lam : K) (f : Bool) (a : K → K)
    (ha : ∀ s, if f then s ≠ 0 → a s = if s < 0 then -1 else 1 else a s = |s|) (d : Rp K m w) (D : Fin m → K)
    (h : if f then ∑ p, d.wave p = A D ∧ (∀ p, A (d.wave p) = d.s p • d.wave p) ∧
        d.amdq = (∑ p, if d.s p < 0 then d.wave p else 0) ∧ d.apdq = (∑ p, if 0 < d.s p then d.wave p else 0) ∧
        ∀ p, d.s p ≠ 0
      else A (∑ p, d.wave p) = A D ∧ (∀ p, A (d.wave p) = d.s p • d.wave p) ∧
        d.amdq = (∑ p, min (d.s p) 0 • d.wave p) ∧ d.apdq = (∑ p, max (d.s p) 0 • d.wave p)) :
    d.amdq + ∑ p, (1 / 2 * a (d.s p) * (1 - |d.s p| * lam)) • d.wave p =
        (1 / 2 : K) • A D - (lam / 2) • A (A D) ∧
      d.apdq - ∑ p, (1 / 2 * a (d.s p) * (1 - |d.s p| * lam)) • d.wave p =
        (1 / 2 : K) • A D + (lam / 2) • A (A D) := by
  cases f with
  | false =>
    simp only [Bool.false_eq_true, if_false] at h ha
    obtain ⟨h1, h2, h3, h4⟩ := h
    rw [← h1, h3, h4, map_sum, map_sum]
    simp only [h2, map_smul, smul_smul, Finset.smul_sum, ← Finset.sum_add_distrib, ← Finset.sum_sub_distrib]
    constructor <;> refine Finset.sum_congr rfl fun p _ => ?_
    all_goals
      rw [ha]
      rcases le_total 0 (d.s p) with hs | hs
      · rw [abs_of_nonneg hs]
        simp only [min_eq_right hs, max_eq_left hs]
        module
      · rw [abs_of_nonpos hs]
        simp only [min_eq_left hs, max_eq_right hs]
        module
  | true =>
    simp only [if_true] at h ha
    obtain ⟨h1, h2, h3, h4, h5⟩ := h
    rw [← h1, h3, h4, map_sum]
    simp only [h2, Finset.smul_sum, ← Finset.sum_add_distrib, ← Finset.sum_sub_distrib]
    constructor <;> refine Finset.sum_congr rfl fun p _ => ?_
    all_goals
      rw [ha _ (h5 p)]
      rcases lt_or_gt_of_ne (h5 p) with hs | hs
      · rw [abs_of_neg hs]
        simp only [if_pos hs, if_neg (not_lt.mpr hs.le)]
        module
      · rw [abs_of_pos hs]
        simp only [if_pos hs, if_neg (not_lt.mpr hs.le)]
        module

/-- The wave form or the f-wave form of a solver for `q_t + A q_x = 0`, according to the setting `fwave`. -/
def Spec.LinearSolverFor (A : (Fin m → K) →ₗ[K] (Fin m → K)) (fwave : Bool) (rp : Riemann K B m w) : Prop :=
  if fwave then LinearFwaveSolver A rp else LinearSolver A rp

/-- The wave propagation formula with the waves as they are is the Lax–Wendroff formula. -/
theorem waveProp_linear (A : (Fin m → K) →ₗ[K] (Fin m → K)) (f : Bool) (rp : Riemann K B m w)
    (hr : LinearSolverFor A f rp) (a : K → K) (ha : ∀ s, if f then s ≠ 0 → a s = if s < 0 then -1 else 1 else a s = |s|)
    (lam : K) (aux : Int → B) (q : Int → Fin m → K) (W : Int → Fin w → Fin m → K) (i : Int)
    (hW : ∀ j, i ≤ j → j ≤ i + 1 → W j = (interfaces rp aux q j).wave) :
    waveProp (fun _ => lam) (interfaces rp aux q) (correctionFlux a (fun _ => lam) (interfaces rp aux q) W) q i =
      laxWendroff A lam q i := by
  have hh : ∀ j, (interfaces rp aux q j).amdq + ∑ p, (1 / 2 * a ((interfaces rp aux q j).s p) *
        (1 - |(interfaces rp aux q j).s p| * lam)) • (interfaces rp aux q j).wave p =
        (1 / 2 : K) • A (q j - q (j - 1)) - (lam / 2) • A (A (q j - q (j - 1))) ∧
      (interfaces rp aux q j).apdq - ∑ p, (1 / 2 * a ((interfaces rp aux q j).s p) *
        (1 - |(interfaces rp aux q j).s p| * lam)) • (interfaces rp aux q j).wave p =
        (1 / 2 : K) • A (q j - q (j - 1)) + (lam / 2) • A (A (q j - q (j - 1))) := by
    intro j
    apply linear_halves A lam f a ha
    unfold LinearSolverFor at hr
    cases f with
    | false =>
      simp only [Bool.false_eq_true, if_false] at hr ⊢
      exact ⟨hr.jump _ _ _ _, hr.eigen _ _ _ _, hr.left _ _ _ _, hr.right _ _ _ _⟩
    | true =>
      simp only [if_true] at hr ⊢
      exact ⟨hr.jump _ _ _ _, hr.eigen _ _ _ _, hr.left _ _ _ _, hr.right _ _ _ _, hr.moving _ _ _ _⟩
  have h1 := (hh i).2
  have h2 := (hh (i + 1)).1
  rw [add_sub_cancel_right] at h2
  unfold waveProp correctionFlux laxWendroff
  have e : ∀ j, i ≤ j → j ≤ i + 1 → (∑ p, (1 / 2 * a ((interfaces rp aux q j).s p) *
      (1 - |(interfaces rp aux q j).s p| * (1 / 2 * (lam + lam)))) • W j p) =
      ∑ p, (1 / 2 * a ((interfaces rp aux q j).s p) *
        (1 - |(interfaces rp aux q j).s p| * lam)) • (interfaces rp aux q j).wave p := by
    intro j j1 j2
    rw [hW j j1 j2]
    refine Finset.sum_congr rfl fun p _ => ?_
    congr 4
    ring
  rw [e i (by omega) (by omega), e (i + 1) (by omega) (by omega)]
  set F0 := ∑ p, (1 / 2 * a ((interfaces rp aux q i).s p) *
        (1 - |(interfaces rp aux q i).s p| * lam)) • (interfaces rp aux q i).wave p
  set F1 := ∑ p, (1 / 2 * a ((interfaces rp aux q (i + 1)).s p) *
        (1 - |(interfaces rp aux q (i + 1)).s p| * lam)) • (interfaces rp aux q (i + 1)).wave p
  have e3 : q i - lam • ((interfaces rp aux q i).apdq + (interfaces rp aux q (i + 1)).amdq) - lam • (F1 - F0) =
      q i - lam • (((interfaces rp aux q i).apdq - F0) + ((interfaces rp aux q (i + 1)).amdq + F1)) := by module
  rw [e3, h1, h2]
  simp only [map_sub, map_add, map_smul]
  module

theorem npSign_dir (f : Bool) (s : K) :
    if f then s ≠ 0 → (if f then npSign else abs) s = if s < 0 then -1 else 1 else (if f then npSign else abs) s = |s| := by
  cases f with
  | false => simp
  | true =>
    simp only [if_true, npSign]
    intro h
    split_ifs <;> first | rfl | (exfalso; first | linarith | exact h (le_antisymm (by linarith) (by linarith)))

theorem dsign1_dir (f : Bool) (s : K) :
    if f then s ≠ 0 → (if f then dsign1 else abs) s = if s < 0 then -1 else 1 else (if f then dsign1 else abs) s = |s| := by
  cases f with
  | false => simp
  | true =>
    simp only [if_true, dsign1]
    intro h
    split_ifs <;> first | rfl | (exfalso; linarith)

/-- C76, Python kernel: for a linear system, second order without limiter (no positive entry in `limiters`), a step is
the Lax–Wendroff formula, in the wave and in the f-wave form. -/
theorem C76_python_lax_wendroff (tab : Int → Option (LimFun K)) (A : (Fin m → K) →ₗ[K] (Fin m → K))
    (rp : Riemann K B m w) (c : Cfg1 K w) (hr : LinearSolverFor A c.fwave rp) (hg : 2 ≤ c.g) (ho : c.order = 2)
    (hl : ∀ p, ¬ 0 < c.limiter p) (aux : Int → B) (q : Int → Fin m → K) (i : Int) (h1 : c.g ≤ i) (h2 : i < c.g + c.n) :
    (pyStep1 tab rp c none aux q).1 i = laxWendroff A (c.dt / c.dx) q i := by
  obtain ⟨phi, hp, _, he⟩ := pyStep1_interior tab rp c none aux q hg
  rw [he i h1 h2, if_pos ho]
  refine waveProp_linear A c.fwave rp hr _ (npSign_dir c.fwave) (c.dt / c.dx) aux q _ i fun j _ _ => ?_
  funext p
  rw [hp hl]
  unfold limitedWave
  simp only [one_smul, ite_self]

/-- C76, Fortran kernel. -/
theorem C76_fortran_lax_wendroff (undef : K) (A : (Fin m → K) →ₗ[K] (Fin m → K))
    (rp : Riemann K B m w) (c : Cfg1 K w) (hr : LinearSolverFor A c.fwave rp) (ho : c.order ≠ 1)
    (hl : ∀ p, ¬ 0 < c.limiter p) (aux : Int → B) (q : Int → Fin m → K) :
    ∃ q' cfl, fStep1 undef rp c none aux q = some (q', cfl) ∧
      ∀ i : Int, 1 ≤ i → i < 1 + c.n → q' i = laxWendroff A (c.dt / c.dx) q i := by
  obtain ⟨q', cfl, h1, _, h3⟩ := fStep1_interior undef rp c none aux q (by simp)
  refine ⟨q', cfl, h1, fun i hi1 hi2 => ?_⟩
  rw [h3 i hi1 hi2, if_neg ho]
  refine waveProp_linear A c.fwave rp hr _ (dsign1_dir c.fwave) (c.dt / c.dx) aux q _ i fun j _ _ => ?_
  funext p
  have hp : fPhi undef c.limiter p = fun _ _ => 1 := by
    unfold fPhi
    rw [if_neg (fun h => by obtain ⟨⟨p, hp⟩, _⟩ := h; exact hl p hp)]
  unfold limitedWave
  rw [hp]
  simp only [one_smul, ite_self]

/-- The Lax–Wendroff formula is exact for quadratic data. -/
theorem laxWendroff_quadratic (A : (Fin m → K) →ₗ[K] (Fin m → K)) (dt dx : K) (hdx : dx ≠ 0) (c0 c1 c2 : Fin m → K)
    (i : Int) :
    laxWendroff A (dt / dx) (fun i => c0 + (i * dx) • c1 + (i * dx) ^ 2 • c2) i =
      quadraticSolution A c0 c1 c2 dt (i * dx) := by
  unfold laxWendroff quadraticSolution
  push_cast
  simp only [map_add, map_sub, map_smul]
  have e : dt / dx * dx = dt := div_mul_cancel₀ dt hdx
  set l := dt / dx
  rw [← e]
  module

/-- C76: second order without limiter is exact for quadratic data of a linear system (Python kernel). -/
theorem C76_python_quadratic (tab : Int → Option (LimFun K)) (A : (Fin m → K) →ₗ[K] (Fin m → K))
    (rp : Riemann K B m w) (c : Cfg1 K w) (hr : LinearSolverFor A c.fwave rp) (hg : 2 ≤ c.g) (ho : c.order = 2)
    (hdx : c.dx ≠ 0) (hl : ∀ p, ¬ 0 < c.limiter p) (aux : Int → B) (c0 c1 c2 : Fin m → K) (i : Int) (h1 : c.g ≤ i)
    (h2 : i < c.g + c.n) :
    (pyStep1 tab rp c none aux fun i => c0 + (i * c.dx) • c1 + (i * c.dx) ^ 2 • c2).1 i =
      quadraticSolution A c0 c1 c2 c.dt (i * c.dx) := by
  rw [C76_python_lax_wendroff tab A rp c hr hg ho hl aux _ i h1 h2, laxWendroff_quadratic A _ _ hdx]

/-- C76: second order without limiter is exact for quadratic data of a linear system (Fortran kernel). -/
theorem C76_fortran_quadratic (undef : K) (A : (Fin m → K) →ₗ[K] (Fin m → K))
    (rp : Riemann K B m w) (c : Cfg1 K w) (hr : LinearSolverFor A c.fwave rp) (ho : c.order ≠ 1)
    (hdx : c.dx ≠ 0) (hl : ∀ p, ¬ 0 < c.limiter p) (aux : Int → B) (c0 c1 c2 : Fin m → K) :
    ∃ q' cfl, fStep1 undef rp c none aux (fun i => c0 + (i * c.dx) • c1 + (i * c.dx) ^ 2 • c2) = some (q', cfl) ∧
      ∀ i : Int, 1 ≤ i → i < 1 + c.n → q' i = quadraticSolution A c0 c1 c2 c.dt (i * c.dx) := by
  obtain ⟨q', cfl, h1, h2⟩ := C76_fortran_lax_wendroff undef A rp c hr ho hl aux
    (fun i => c0 + (i * c.dx) • c1 + (i * c.dx) ^ 2 • c2)
  exact ⟨q', cfl, h1, fun i a b => by rw [h2 i a b, laxWendroff_quadratic A _ _ hdx]⟩

/-! ### Limiters: linear data -/

/-- The waves depend on the jump only. -/
def Spec.JumpOnly (rp : Riemann K B m w) : Prop :=
  ∀ ql qr ql' qr' al ar al' ar', qr - ql = qr' - ql' → rp ql qr al ar = rp ql' qr' al' ar'

/-- For linear data every wave has the smoothness ratio 1, so a limiter with value 1 at 1 leaves it as it is. -/
theorem limitedWave_linear (rp : Riemann K B m w) (hj : JumpOnly rp) (phi : Fin w → K → K → K) (lam : K)
    (aux : Int → B) (dx : K) (c0 c1 : Fin m → K) (j : Int) (p : Fin w)
    (hphi : ∀ ql qr al ar, phi p 1 |(rp ql qr al ar).s p * lam| = 1) :
    limitedWave phi (fun _ => lam) (interfaces rp aux fun i : Int => c0 + (i * dx) • c1) j p =
      (interfaces rp aux (fun i : Int => c0 + (i * dx) • c1) j).wave p := by
  have e : ∀ k l : Int, interfaces rp aux (fun i : Int => c0 + (i * dx) • c1) k =
      interfaces rp aux (fun i : Int => c0 + (i * dx) • c1) l := by
    intro k l
    apply hj
    push_cast
    module
  unfold limitedWave
  simp only [e (j - 1) j, e (j + 1) j, ite_self]
  split
  · rfl
  · rename_i h
    rw [div_self h]
    unfold interfaces at *
    rw [hphi, one_smul]

/-- C76, Python kernel: with any limiter functions of value 1 at ratio 1, linear data of a linear system are advanced
exactly. -/
theorem C76_python_linear (tab : Int → Option (LimFun K)) (A : (Fin m → K) →ₗ[K] (Fin m → K))
    (rp : Riemann K B m w) (hj : JumpOnly rp) (c : Cfg1 K w) (hr : LinearSolverFor A c.fwave rp) (hg : 2 ≤ c.g)
    (ho : c.order = 2) (hdx : c.dx ≠ 0)
    (hphi : ∀ p f, tab (c.limiter p) = some f → ∀ all ql qr al ar, f all 1 |(rp ql qr al ar).s p * (c.dt / c.dx)| = 1)
    (aux : Int → B) (c0 c1 : Fin m → K) (i : Int) (h1 : c.g ≤ i) (h2 : i < c.g + c.n) :
    (pyStep1 tab rp c none aux fun i => c0 + (i * c.dx) • c1).1 i = c0 + (i * c.dx) • c1 - c.dt • A c1 := by
  obtain ⟨phi, hp, hp', he⟩ := pyStep1_interior tab rp c none aux (fun i => c0 + (i * c.dx) • c1) hg
  rw [he i h1 h2, if_pos ho]
  refine (waveProp_linear A c.fwave rp hr _ (npSign_dir c.fwave) (c.dt / c.dx) aux _ _ i fun j _ _ => ?_).trans ?_
  · funext p
    refine limitedWave_linear rp hj phi (c.dt / c.dx) aux c.dx c0 c1 j p fun ql qr al ar => ?_
    by_cases hl : ∃ p, 0 < c.limiter p
    · cases ht : tab (c.limiter p) with
      | none => rw [(hp' hl p).1 ht]
      | some f =>
        obtain ⟨all, ha⟩ := (hp' hl p).2 f ht
        rw [ha]
        exact hphi p f ht all ql qr al ar
    · rw [hp (by simpa using hl)]
  · have := laxWendroff_quadratic A c.dt c.dx hdx c0 c1 0 i
    simp only [smul_zero, add_zero, quadraticSolution, map_zero] at this
    exact this

/-- C76, Fortran kernel: with every limiter (none, minmod, superbee, van Leer, MC, Beam-Warming) linear data of a linear
system are advanced exactly. -/
theorem C76_fortran_linear (undef : K) (A : (Fin m → K) →ₗ[K] (Fin m → K))
    (rp : Riemann K B m w) (hj : JumpOnly rp) (c : Cfg1 K w) (hr : LinearSolverFor A c.fwave rp) (ho : c.order ≠ 1)
    (hdx : c.dx ≠ 0) (hl : ∀ p, 0 ≤ c.limiter p ∧ c.limiter p ≤ 5) (aux : Int → B) (c0 c1 : Fin m → K) :
    ∃ q' cfl, fStep1 undef rp c none aux (fun i => c0 + (i * c.dx) • c1) = some (q', cfl) ∧
      ∀ i : Int, 1 ≤ i → i < 1 + c.n → q' i = c0 + (i * c.dx) • c1 - c.dt • A c1 := by
  obtain ⟨q', cfl, h1, _, h3⟩ := fStep1_interior undef rp c none aux (fun i => c0 + (i * c.dx) • c1) (by simp)
  refine ⟨q', cfl, h1, fun i hi1 hi2 => ?_⟩
  rw [h3 i hi1 hi2, if_neg ho]
  refine (waveProp_linear A c.fwave rp hr _ (dsign1_dir c.fwave) (c.dt / c.dx) aux _ _ i fun j _ _ => ?_).trans ?_
  · funext p
    refine limitedWave_linear rp hj _ (c.dt / c.dx) aux c.dx c0 c1 j p fun ql qr al ar => ?_
    unfold fPhi
    split
    · rename_i hh
      have : c.limiter p = 1 ∨ c.limiter p = 2 ∨ c.limiter p = 3 ∨ c.limiter p = 4 ∨ c.limiter p = 5 := by
        have := hl p; have := hh.2; omega
      rcases this with h | h | h | h | h <;> rw [h] <;> norm_num [philim]
    · rfl
  · have := laxWendroff_quadratic A c.dt c.dx hdx c0 c1 0 i
    simp only [smul_zero, add_zero, quadraticSolution, map_zero] at this
    exact this

/-- C76: the Python limiters 1 to 10 have the value 1 at ratio 1, so do Arora–Roe (11) for Courant numbers strictly
between 0 and 1, and the Courant-number dependent superbee limiters (15, 16) for Courant numbers from 0 to 1. -/
theorem C76_limiters_at_one (opq : Int → LimFun K) (nu : K) (k : Int)
    (hk : (1 ≤ k ∧ k ≤ 10) ∨ (0 < nu ∧ nu < 1 ∧ k = 11) ∨ (0 ≤ nu ∧ nu ≤ 1 ∧ (k = 15 ∨ k = 16))) :
    ∃ f, pyLimiterFun opq k = some f ∧ ∀ all, f all 1 nu = 1 := by
  rcases hk with ⟨h1, h2⟩ | ⟨h0, h1, rfl⟩ | ⟨h0, h1, hk⟩
  · have : k = 1 ∨ k = 2 ∨ k = 3 ∨ k = 4 ∨ k = 5 ∨ k = 6 ∨ k = 7 ∨ k = 8 ∨ k = 9 ∨ k = 10 := by omega
    rcases this with rfl | rfl | rfl | rfl | rfl | rfl | rfl | rfl | rfl | rfl <;> refine ⟨_, rfl, fun _ => ?_⟩
    · norm_num [pyMinmod]
    · norm_num [pySuperbee]
    · norm_num [pyVanLeer]
    · norm_num [pyMC]
    · norm_num [pyBeamWarming]
    · norm_num [pyFromm]
    · norm_num [pyAlbada2]
    · norm_num [pyAlbada3]
    · have : max (1 : K) (1 / 10 ^ 5) = 1 := max_eq_left (by norm_num)
      norm_num [pyKlein, this]
    · norm_num [pyThirdOrder]
  · refine ⟨_, rfl, fun _ => ?_⟩
    unfold pyAroraRoe
    simp only [sub_self, mul_zero, add_zero, mul_one]
    have a1 : 1 ≤ 99 / 100 * 2 / nu := by rw [le_div_iff₀ h0]; linarith
    have a2 : 1 ≤ 99 / 100 * 2 / (1 - nu) := by rw [le_div_iff₀ (by linarith)]; linarith
    rw [min_eq_right a1, min_eq_left a2]
    norm_num
  · have m1 : (0 : K) < cfmod1 nu := lt_of_lt_of_le (by norm_num) (le_max_left _ _)
    have m2 : cfmod1 nu ≤ 1 := max_le (by norm_num) h1
    have m3 : (0 : K) < 1 - cfmod2 nu := by
      have : cfmod2 nu ≤ 999 / 1000 := min_le_left _ _
      linarith
    have m4 : 1 - cfmod2 nu ≤ 1 := by
      have : 0 ≤ cfmod2 nu := le_min (by norm_num) h0
      linarith
    rcases hk with rfl | rfl <;> refine ⟨_, rfl, fun _ => ?_⟩
    · unfold pyCflSuperbee
      have a1 : 1 ≤ 2 * 1 / cfmod1 nu := by rw [le_div_iff₀ m1]; linarith
      have a2 : 1 ≤ 2 / (1 - cfmod2 nu) := by rw [le_div_iff₀ m3]; linarith
      rw [min_eq_left a1, min_eq_right a2]
      norm_num
    · unfold pyCflSuperbeeTheta
      have a1 : 1 ≤ 95 / 100 * 2 / cfmod1 nu := by rw [le_div_iff₀ m1]; linarith
      have a2 : 1 ≤ 95 / 100 * 2 / (1 - cfmod2 nu) := by rw [le_div_iff₀ m3]; linarith
      simp only [mul_one, max_self]
      exact min_eq_right (le_max_of_le_right (le_min a1 a2))

/-- C76 fails for the theta limiters (12, 13, 14) and for the beta limiter with theta 0 (17): at ratio 1 and Courant
number 1/20 they give 2, 30/19, 20/19 and 0. -/
theorem C76_theta_limiters_violated (opq : Int → LimFun ℚ) :
    ∃ f12 f13 f14 f17, pyLimiterFun opq 12 = some f12 ∧ pyLimiterFun opq 13 = some f13 ∧
      pyLimiterFun opq 14 = some f14 ∧ pyLimiterFun opq 17 = some f17 ∧
      f12 [(1, 1 / 20)] 1 (1 / 20) = 2 ∧ f13 [(1, 1 / 20)] 1 (1 / 20) = 30 / 19 ∧
      f14 [(1, 1 / 20)] 1 (1 / 20) = 20 / 19 ∧ f17 [(1, 1 / 20)] 1 (1 / 20) = 0 :=
  ⟨_, _, _, _, rfl, rfl, rfl, rfl, by norm_num [pyTheta, cfmod1, cfmod2], by norm_num [pyTheta, cfmod1, cfmod2],
    by norm_num [pyTheta, cfmod1, cfmod2], by norm_num [pyBeta, cfmod1, cfmod2, minOver, maxOver]⟩

/-! ### The linear schemes among the limiters -/

/-- A limiter function `1 + κ (r - 1)` moves the jump towards the upwind one, provided that the jump is not zero. -/
theorem limitedWave_affine (u lam : K) (phi : Fin 1 → K → K → K) (κ : K) (hphi : ∀ r, phi 0 r |u * lam| = 1 + κ * (r - 1))
    (aux : Int → Unit) (q : Int → Fin 1 → K) (j : Int) (hj : q j 0 ≠ q (j - 1) 0) :
    limitedWave phi (fun _ => lam) (interfaces (advectionRp u) aux q) j 0 0 =
      (q j 0 - q (j - 1) 0) + κ * ((if 0 < u then q (j - 1) 0 - q (j - 2) 0 else q (j + 1) 0 - q j 0) -
        (q j 0 - q (j - 1) 0)) := by
  have hne : q j 0 - q (j - 1) 0 ≠ 0 := sub_ne_zero.mpr hj
  unfold limitedWave interfaces advectionRp wdot
  simp only [Fin.sum_univ_one, Pi.sub_apply, ite_self, add_sub_cancel_right]
  rw [if_neg (mul_ne_zero hne hne), Pi.smul_apply, Pi.sub_apply, smul_eq_mul, hphi, show j - 1 - 1 = j - 2 by ring]
  split <;> simp only [Pi.sub_apply] <;> field_simp

theorem step_affine (tab : Int → Option (LimFun K)) (u κ : K) (c : Cfg1 K 1) (hg : 2 ≤ c.g) (ho : c.order = 2)
    (hf : c.fwave = false) (hl : 0 < c.limiter 0) (f : LimFun K) (ht : tab (c.limiter 0) = some f)
    (hphi : ∀ all r, f all r |u * (c.dt / c.dx)| = 1 + κ * (r - 1)) (aux : Int → Unit) (q : Int → Fin 1 → K) (i : Int)
    (h1 : c.g ≤ i) (h2 : i < c.g + c.n) (n1 : q i 0 ≠ q (i - 1) 0) (n2 : q (i + 1) 0 ≠ q i 0) :
    (pyStep1 tab (advectionRp u) c none aux q).1 i 0 =
      q i 0 - c.dt / c.dx * (max u 0 * (q i 0 - q (i - 1) 0) + min u 0 * (q (i + 1) 0 - q i 0)) -
        c.dt / c.dx * (1 / 2 * |u| * (1 - |u| * (c.dt / c.dx))) *
          (if 0 < u then (q (i + 1) 0 - q i 0) + κ * ((q i 0 - q (i - 1) 0) - (q (i + 1) 0 - q i 0)) -
              ((q i 0 - q (i - 1) 0) + κ * ((q (i - 1) 0 - q (i - 2) 0) - (q i 0 - q (i - 1) 0)))
            else (q (i + 1) 0 - q i 0) + κ * ((q (i + 2) 0 - q (i + 1) 0) - (q (i + 1) 0 - q i 0)) -
              ((q i 0 - q (i - 1) 0) + κ * ((q (i + 1) 0 - q i 0) - (q i 0 - q (i - 1) 0)))) := by
  obtain ⟨phi, hp, hp', he⟩ := pyStep1_interior tab (advectionRp u) c none aux q hg
  obtain ⟨all, ha⟩ := (hp' ⟨0, hl⟩ 0).2 f ht
  have hphi' : ∀ r, phi 0 r |u * (c.dt / c.dx)| = 1 + κ * (r - 1) := fun r => by rw [ha]; exact hphi all r
  rw [he i h1 h2, if_pos ho, hf]
  have hlam : localRatio c.dt c.dx none aux = fun _ => c.dt / c.dx := rfl
  rw [hlam]
  have e1 := limitedWave_affine u (c.dt / c.dx) phi κ hphi' aux q i n1
  have e2 := limitedWave_affine u (c.dt / c.dx) phi κ hphi' aux q (i + 1) (by rwa [add_sub_cancel_right])
  rw [add_sub_cancel_right, show i + 1 + 1 = i + 2 by ring, show i + 1 - 2 = i - 1 by ring] at e2
  simp only [waveProp, correctionFlux, Fin.sum_univ_one, Pi.sub_apply, Pi.smul_apply, Pi.add_apply, smul_eq_mul, e1, e2,
    Bool.false_eq_true, if_false]
  simp only [interfaces, advectionRp, Pi.smul_apply, Pi.sub_apply, smul_eq_mul, add_sub_cancel_right]
  split <;> ring

/-- C76: the linear schemes among the Python limiters, Beam–Warming (5), Fromm (6) and third order (10), are exact for
quadratic data, wherever the jumps at the two interfaces of a cell are not zero. -/
theorem C76_python_linear_schemes_partial (opq : Int → LimFun K) (u : K) (c : Cfg1 K 1) (hg : 2 ≤ c.g) (ho : c.order = 2)
    (hf : c.fwave = false) (hdx : c.dx ≠ 0) (hl : c.limiter 0 = 5 ∨ c.limiter 0 = 6 ∨ c.limiter 0 = 10)
    (aux : Int → Unit) (a0 a1 a2 : K) (i : Int) (h1 : c.g ≤ i) (h2 : i < c.g + c.n) :
    let p : K → K := fun x => a0 + a1 * x + a2 * x ^ 2
    p (i * c.dx) ≠ p (i * c.dx - c.dx) → p (i * c.dx + c.dx) ≠ p (i * c.dx) →
    (pyStep1 (pyLimiterFun opq) (advectionRp u) c none aux fun i _ => p (i * c.dx)).1 i 0 = p (i * c.dx - u * c.dt) := by
  intro p n1 n2
  obtain ⟨f, κ, hpos, ht, hphi⟩ : ∃ (f : LimFun K) (κ : K), 0 < c.limiter 0 ∧ pyLimiterFun opq (c.limiter 0) = some f ∧
      ∀ all r, f all r |u * (c.dt / c.dx)| = 1 + κ * (r - 1) := by
    rcases hl with h | h | h <;> rw [h]
    · exact ⟨_, 1, by decide, rfl, fun _ r => by simp only [pyBeamWarming]; ring⟩
    · exact ⟨_, 1 / 2, by decide, rfl, fun _ r => by simp only [pyFromm]; ring⟩
    · exact ⟨_, (1 + |u * (c.dt / c.dx)|) / 3, by decide, rfl, fun _ r => by simp only [pyThirdOrder]⟩
  have e : c.dt / c.dx * c.dx = c.dt := div_mul_cancel₀ _ hdx
  rw [step_affine _ u κ c hg ho hf hpos f ht hphi aux _ i h1 h2
    (by push_cast; rwa [sub_mul, one_mul]) (by push_cast; rwa [add_mul, one_mul])]
  simp only [p]
  push_cast
  set l := c.dt / c.dx
  rw [← e]
  rcases le_or_gt u 0 with hu | hu
  · rw [abs_of_nonpos hu, max_eq_right hu, min_eq_left hu, if_neg (not_lt.mpr hu)]; ring
  · rw [abs_of_pos hu, max_eq_left hu.le, min_eq_right hu.le, if_pos hu]; ring

/-- C76: limiter 10 is third order: exact for cubic data, wherever the jumps at the two interfaces of a cell are not
zero. -/
theorem C76_python_third_order_partial (opq : Int → LimFun K) (u : K) (c : Cfg1 K 1) (hg : 2 ≤ c.g) (ho : c.order = 2)
    (hf : c.fwave = false) (hdx : c.dx ≠ 0) (hdt : 0 ≤ c.dt / c.dx) (hl : c.limiter 0 = 10) (aux : Int → Unit)
    (a0 a1 a2 a3 : K) (i : Int) (h1 : c.g ≤ i) (h2 : i < c.g + c.n) :
    let p : K → K := fun x => a0 + a1 * x + a2 * x ^ 2 + a3 * x ^ 3
    p (i * c.dx) ≠ p (i * c.dx - c.dx) → p (i * c.dx + c.dx) ≠ p (i * c.dx) →
    (pyStep1 (pyLimiterFun opq) (advectionRp u) c none aux fun i _ => p (i * c.dx)).1 i 0 = p (i * c.dx - u * c.dt) := by
  intro p n1 n2
  have e : c.dt / c.dx * c.dx = c.dt := div_mul_cancel₀ _ hdx
  rw [step_affine (pyLimiterFun opq) u ((1 + |u * (c.dt / c.dx)|) / 3) c hg ho hf (by rw [hl]; decide)
    (fun _ => pyThirdOrder) (by rw [hl]; rfl) (fun _ r => by simp only [pyThirdOrder]) aux _ i h1 h2
    (by push_cast; rwa [sub_mul, one_mul]) (by push_cast; rwa [add_mul, one_mul])]
  simp only [p]
  push_cast
  rw [abs_mul, abs_of_nonneg hdt]
  set l := c.dt / c.dx
  rw [← e]
  rcases le_or_gt u 0 with hu | hu
  · rw [abs_of_nonpos hu, max_eq_right hu, min_eq_left hu, if_neg (not_lt.mpr hu)]; ring
  · rw [abs_of_pos hu, max_eq_left hu.le, min_eq_right hu.le, if_pos hu]; ring

/-- Where a jump is exactly zero the limited schemes do not see the upwind jump: Beam–Warming is not exact for the
quadratic `(x - 2) (x - 3)` in cell 3. -/
theorem C76_zero_jump_violated :
    (pyStep1 (pyLimiterFun fun _ _ _ _ => 0) (advectionRp 1) (exAdv 5) none (fun _ => ())
      (fun i _ => ((i : ℚ) - 2) * (i - 3))).1 3 0 ≠ (3 - 1 * (1 / 2) - 2) * (3 - 1 * (1 / 2) - 3) := by
  decide +kernel

/-! ### A linear system that meets the hypotheses -/

/-- The matrix of acoustics with unit sound speed and impedance. -/
def acousticsMap : (Fin 2 → K) →ₗ[K] (Fin 2 → K) where
  toFun q := ![q 1, q 0]
  map_add' a b := by funext j; fin_cases j <;> simp
  map_smul' a b := by funext j; fin_cases j <;> simp

/-- Its Riemann solver: a wave `(a, -a)` to the left and a wave `(b, b)` to the right. -/
def acousticsRp : Riemann K Unit 2 2 := fun ql qr _ _ =>
  let d := qr - ql
  let l : Fin 2 → K := ![(d 0 - d 1) / 2, -(d 0 - d 1) / 2]
  let r : Fin 2 → K := ![(d 0 + d 1) / 2, (d 0 + d 1) / 2]
  { wave := ![l, r], s := ![-1, 1], amdq := -l, apdq := r }

theorem acoustics_linear : LinearSolver acousticsMap (acousticsRp (K := K)) where
  jump ql qr _ _ := by
    congr 1
    funext j
    fin_cases j <;> simp [acousticsRp, Fin.sum_univ_two] <;> ring
  eigen ql qr _ _ p := by
    funext j
    fin_cases p <;> fin_cases j <;> simp [acousticsRp, acousticsMap] <;> ring
  left ql qr _ _ := by
    funext j
    fin_cases j <;> simp [acousticsRp, Fin.sum_univ_two]
  right ql qr _ _ := by
    funext j
    fin_cases j <;> simp [acousticsRp, Fin.sum_univ_two]

theorem acoustics_jumpOnly : JumpOnly (acousticsRp (K := K)) := by
  intro ql qr ql' qr' _ _ _ _ h
  unfold acousticsRp
  rw [h]

/-- The hypotheses of the C76 theorems are met, and the solution is not trivial: pressure `x²`, no velocity. -/
example : LinearSolverFor acousticsMap false (acousticsRp (K := ℚ)) ∧ JumpOnly (acousticsRp (K := ℚ)) ∧
    quadraticSolution acousticsMap (0 : Fin 2 → ℚ) 0 ![1, 0] (1 / 2) 3 = ![9 + 1 / 4, -3] := by
  refine ⟨acoustics_linear, acoustics_jumpOnly, ?_⟩
  funext j
  fin_cases j <;> norm_num [quadraticSolution, acousticsMap]

end PyClaw
