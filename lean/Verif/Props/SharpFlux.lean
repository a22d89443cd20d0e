import Verif.Lemmas.SharpFlux
import Verif.Props.SharpRK

/-!
C44 (conservation of the SharpClaw right-hand side), C68 (uniform states), C69 (conservation of a SharpClaw step).
-/
set_option linter.unusedSectionVars false

namespace PyClaw
open Spec

variable {K A : Type*} [Field K] [LinearOrder K] [IsStrictOrderedRing K] {m w : Nat}

/-- If the change of each cell is `-dt` times a flux difference, the total changes by the flux through the ends. -/
theorem total_telescope (lo : Int) (n : Nat) (vol : Int → K) (dt : K) (D F : Int → Fin m → K)
    (h : ∀ i, lo ≤ i → i < lo + n → vol i • D i = -dt • (F (i + 1) - F i)) :
    total lo n vol D = -dt • (F (lo + n) - F lo) := by
  unfold total
  have h1 : ∀ k ∈ Finset.range n, vol (lo + k) • D (lo + k) =
      -dt • (F (lo + (k + 1 : Nat)) - F (lo + (k : Nat))) := by
    intro k hk
    have hk' := Finset.mem_range.mp hk
    rw [h (lo + k) (by omega) (by omega)]
    push_cast
    rw [add_assoc]
  rw [Finset.sum_congr rfl h1, ← Finset.smul_sum, Finset.sum_range_sub (fun k : Nat => F (lo + k))]
  simp

theorem edgeFlux_diff {fl : (Fin m → K) → A → Fin m → K} {rp : Riemann K A m w} (hf : FluxDifference rp fl)
    (aux : Int → A) (e : Edges K m) (i : Int) :
    edgeFlux fl rp aux e (i + 1) - edgeFlux fl rp aux e i =
      (rp (e.qr (i - 1)) (e.ql i) (aux (i - 1)) (aux i)).apdq + (fl (e.qr i) (aux i) - fl (e.ql i) (aux i)) +
        (rp (e.qr i) (e.ql (i + 1)) (aux i) (aux (i + 1))).amdq := by
  have h := hf (e.qr (i - 1)) (e.ql i) (aux (i - 1)) (aux i)
  have h' : (rp (e.qr (i - 1)) (e.ql i) (aux (i - 1)) (aux i)).apdq =
      fl (e.ql i) (aux i) - fl (e.qr (i - 1)) (aux (i - 1)) -
        (rp (e.qr (i - 1)) (e.ql i) (aux (i - 1)) (aux i)).amdq := by rw [← h]; abel
  unfold edgeFlux
  rw [h', add_sub_cancel_right]
  abel

theorem edgeFlux_periodic (fl : (Fin m → K) → A → Fin m → K) (rp : Riemann K A m w) {aux : Int → A} {e : Edges K m}
    {lo : Int} {g n : Nat} (hg : 1 ≤ g) (ha : PeriodicGhost lo g n aux) (he : EdgesMatch lo n e) :
    edgeFlux fl rp aux e (lo + n) = edgeFlux fl rp aux e lo := by
  unfold edgeFlux
  have e1 : lo + (n : Int) - 1 = lo - 1 + n := by ring
  rw [e1, he.1, he.2, ha (lo - 1) (by omega) (by omega), ha lo (by omega) (by omega)]

/-- C44, Python kernel: for any reconstructed states, the right-hand side changes the (capacity weighted) total only by
the numerical fluxes through the two ends. -/
theorem C44_python_balance (rp : Riemann K A m w) (fl : (Fin m → K) → A → Fin m → K) (hf : FluxDifference rp fl)
    (c : FluxCfg K) (hdx : c.dx ≠ 0) (capa : Option (A → K)) (aux : Int → A)
    (hk : ∀ κ i, capa = some κ → κ (aux i) ≠ 0) (e : Edges K m) :
    total c.g c.n (cellVolume c.dx capa aux) (pyFlux1 rp c capa aux e).1 =
      -c.dt • (edgeFlux fl rp aux e (c.g + c.n) - edgeFlux fl rp aux e c.g) := by
  refine total_telescope _ _ _ _ _ _ ?_
  intro i h1 h2
  rw [edgeFlux_diff hf]
  simp only [pyFlux1]
  rw [if_pos (by omega)]
  have hv := vol_mul_dtdx c.dt c.dx capa aux i hdx (fun κ h => hk κ i h)
  have e1 : i - 1 + 1 = i := by ring
  rw [smul_smul, mul_neg]
  change -(cellVolume c.dx capa aux i * localRatio c.dt c.dx capa aux i) • _ = _
  rw [hv, e1, ← hf (e.ql i) (e.qr i) (aux i) (aux i)]
  module

/-- C44, Fortran kernel, with or without a total fluctuation solver, without capacity function or with a compiler that
keeps the bounds of `dtdx` (see `fluxDtdx` and the `_violated` theorem below). -/
theorem C44_fortran_balance_partial (f2003 : Bool) (rp : Riemann K A m w) (fl : (Fin m → K) → A → Fin m → K)
    (hf : FluxDifference rp fl) (tf : Option ((Fin m → K) → (Fin m → K) → A → A → Fin m → K))
    (ht : ∀ t, tf = some t → TotalFluctuation t fl) (c : FluxCfg K) (hdx : c.dx ≠ 0) (capa : Option (A → K))
    (aux : Int → A) (hk : ∀ κ i, capa = some κ → κ (aux i) ≠ 0) (hcapa : f2003 = false ∨ capa = none) (e : Edges K m) :
    total 1 c.n (cellVolume c.dx capa aux) (flux1 f2003 rp tf c capa aux e).1 =
      -c.dt • (edgeFlux fl rp aux e (1 + c.n) - edgeFlux fl rp aux e 1) := by
  refine total_telescope _ _ _ _ _ _ ?_
  intro i h1 h2
  rw [edgeFlux_diff hf]
  have hd : fluxDtdx f2003 c capa aux i = localRatio c.dt c.dx capa aux i := by
    rcases hcapa with h | h
    · subst h; cases capa <;> rfl
    · subst h; rfl
  have hv := vol_mul_dtdx c.dt c.dx capa aux i hdx (fun κ h => hk κ i h)
  have e1 : i - 1 + 1 = i := by ring
  have e2 : i + 1 - 1 = i := by ring
  cases tf with
  | none =>
    simp only [flux1]
    rw [if_pos (by omega), smul_smul, mul_neg, hd, hv, e1, e2, ← hf (e.ql i) (e.qr i) (aux i) (aux i)]
    module
  | some t =>
    simp only [flux1]
    rw [if_pos (by omega), smul_smul, mul_neg, hd, hv, e2, ht t rfl]

/-- C44, Python kernel, periodic data: whenever `dq_hyperbolic` returns (Godunov, WENO5 by components and by waves),
the total of the right-hand side is zero. -/
theorem C44_python_conserves (eps tol : K) (rp : Riemann K A m w) (fl : (Fin m → K) → A → Fin m → K)
    (hf : FluxDifference rp fl) (c : FluxCfg K) (hdx : c.dx ≠ 0) (hg : 3 ≤ c.g) (limType charDecomp : Int)
    (capa : Option (A → K)) (aux : Int → A) (hk : ∀ κ i, capa = some κ → κ (aux i) ≠ 0) (q : Int → Fin m → K)
    (hq : PeriodicGhost c.g c.g c.n q) (ha : PeriodicGhost c.g c.g c.n aux) (r : (Int → Fin m → K) × K)
    (hr : pyDqHyperbolic eps tol rp c limType charDecomp capa aux q = .ok r) :
    total c.g c.n (cellVolume c.dx capa aux) r.1 = 0 := by
  unfold pyDqHyperbolic at hr
  split at hr
  · cases hr
  · rename_i e he
    cases hr
    rw [C44_python_balance rp fl hf c hdx capa aux hk e,
      edgeFlux_periodic fl rp (g := c.g) (by omega) ha (pyRecon_match eps tol rp c limType charDecomp aux q hg hq ha he)]
    simp

/-- C44, Fortran kernel, periodic data and any reconstruction whose states at the two ends of the grid match. -/
theorem C44_fortran_matching_partial (f2003 : Bool) (rp : Riemann K A m w) (fl : (Fin m → K) → A → Fin m → K)
    (hf : FluxDifference rp fl) (tf : Option ((Fin m → K) → (Fin m → K) → A → A → Fin m → K))
    (ht : ∀ t, tf = some t → TotalFluctuation t fl) (c : FluxCfg K) (hdx : c.dx ≠ 0) (hg : 1 ≤ c.g) (capa : Option (A → K))
    (aux : Int → A) (hk : ∀ κ i, capa = some κ → κ (aux i) ≠ 0) (hcapa : f2003 = false ∨ capa = none)
    (ha : PeriodicGhost 1 c.g c.n aux) (e : Edges K m) (he : EdgesMatch 1 c.n e) :
    total 1 c.n (cellVolume c.dx capa aux) (flux1 f2003 rp tf c capa aux e).1 = 0 := by
  rw [C44_fortran_balance_partial f2003 rp fl hf tf ht c hdx capa aux hk hcapa e, edgeFlux_periodic fl rp hg ha he]
  simp

/-- C44, Fortran kernel, periodic data: `tvd2`, the kernels of weno.f90 of all orders with enough
ghost cells, the `weno5` of reconstruct.f90 and `weno5_wave`. Missing from the full
property: `tvd2_wave` (refuted below), capacity functions with Fortran 2003 semantics (refuted below), and the
reconstructions that are not modelled. -/
theorem C44_fortran_conserves_partial (eps tol undef : K) (first : Fin m → K) (f2003 : Bool) (rp : Riemann K A m w)
    (fl : (Fin m → K) → A → Fin m → K) (hf : FluxDifference rp fl)
    (tf : Option ((Fin m → K) → (Fin m → K) → A → A → Fin m → K)) (ht : ∀ t, tf = some t → TotalFluctuation t fl)
    (c : FluxCfg K) (hdx : c.dx ≠ 0) (hg : 3 ≤ c.g) (limType charDecomp order : Int)
    (hgo : limType = 2 → order < 2 * c.g) (fwave : Bool)
    (limEqn : Fin m → Int) (limWave : Fin w → Int) (old : Edges K m) (hopt : ¬ (limType = 1 ∧ charDecomp = 1))
    (capa : Option (A → K)) (aux : Int → A) (hk : ∀ κ i, capa = some κ → κ (aux i) ≠ 0)
    (hcapa : f2003 = false ∨ capa = none) (q : Int → Fin m → K) (hq : PeriodicGhost 1 c.g c.n q)
    (ha : PeriodicGhost 1 c.g c.n aux) (e : Edges K m)
    (he : fRecon eps tol undef first rp c limType charDecomp order fwave limEqn limWave old none aux q = some e) :
    total 1 c.n (cellVolume c.dx capa aux) (flux1 f2003 rp tf c capa aux e).1 = 0 :=
  C44_fortran_matching_partial f2003 rp fl hf tf ht c hdx (by omega) capa aux hk hcapa ha e
    (fRecon_match eps tol undef first rp c limType charDecomp order fwave limEqn limWave old aux q hg hgo hq ha hopt he)

/-! ### Several dimensions -/

theorem line_zero {n : Nat} {vol : Int → K} {D : Int → Fin m → K} (h : total 1 n vol D = 0) (a : K)
    (v : Nat → K) (X : Nat → Fin m → K) (hv : ∀ i < n, v i = a * vol (1 + i)) (hX : ∀ i < n, X i = D (1 + i)) :
    ∑ i ∈ Finset.range n, v i • X i = 0 := by
  have : ∑ i ∈ Finset.range n, v i • X i = a • total 1 n vol D := by
    rw [total, Finset.smul_sum]
    refine Finset.sum_congr rfl fun i hi => ?_
    have := Finset.mem_range.mp hi
    rw [hv _ this, hX _ this, smul_smul]
  rw [this, h, smul_zero]

/-- C44 in two dimensions: `flux2` with reconstructions that match at the ends of every row and column. -/
theorem C44_flux2_matching_partial (f2003 : Bool) (rpx rpy : Riemann K A m w) (flx fly : (Fin m → K) → A → Fin m → K)
    (hfx : FluxDifference rpx flx) (hfy : FluxDifference rpy fly)
    (tfx tfy : Option ((Fin m → K) → (Fin m → K) → A → A → Fin m → K))
    (htx : ∀ t, tfx = some t → TotalFluctuation t flx) (hty : ∀ t, tfy = some t → TotalFluctuation t fly)
    (mx my g : Nat) (hg : 1 ≤ g) (dt dx dy : K) (hdx : dx ≠ 0) (hdy : dy ≠ 0) (capa : Option (A → K))
    (rx ry : (Int → A) → (Int → Fin m → K) → Edges K m) (aux : Int → Int → A) (q : Int → Int → Fin m → K)
    (hk : ∀ κ i j, capa = some κ → κ (aux i j) ≠ 0) (hcapa : f2003 = false ∨ capa = none)
    (hax : ∀ j, PeriodicGhost 1 g mx (fun i => aux i j)) (hay : ∀ i, PeriodicGhost 1 g my (fun j => aux i j))
    (hrx : ∀ j, EdgesMatch 1 mx (rx (fun i => aux i j) (fun i => q i j)))
    (hry : ∀ i, EdgesMatch 1 my (ry (fun j => aux i j) (fun j => q i j))) :
    total2 mx my (fun i j => dx * dy * capacity capa (aux i j))
      (flux2 f2003 rpx rpy tfx tfy mx my g dt dx dy capa rx ry aux q) = 0 := by
  unfold total2 flux2 flux2Dq
  have hx : ∀ j : Int, total 1 mx (cellVolume dx capa (fun i => aux i j)) (flux1 f2003 rpx tfx ⟨mx, g, dt, dx⟩ capa
      (fun i => aux i j) (rx (fun i => aux i j) (fun i => q i j))).1 = 0 := fun j =>
    C44_fortran_matching_partial f2003 rpx flx hfx tfx htx ⟨mx, g, dt, dx⟩ hdx hg capa _ (fun κ i h => hk κ i j h) hcapa
      (hax j) _ (hrx j)
  have hy : ∀ i : Int, total 1 my (cellVolume dy capa (fun j => aux i j)) (flux1 f2003 rpy tfy ⟨my, g, dt, dy⟩ capa
      (fun j => aux i j) (ry (fun j => aux i j) (fun j => q i j))).1 = 0 := fun i =>
    C44_fortran_matching_partial f2003 rpy fly hfy tfy hty ⟨my, g, dt, dy⟩ hdy hg capa _ (fun κ j h => hk κ i j h) hcapa
      (hay i) _ (hry i)
  simp only [smul_add, Finset.sum_add_distrib]
  have vx : ∀ i j : Int, dx * dy * capacity capa (aux i j) = dy * cellVolume dx capa (fun i => aux i j) i := by
    intro i j; unfold cellVolume capacity; cases capa <;> ring
  have vy : ∀ i j : Int, dx * dy * capacity capa (aux i j) = dx * cellVolume dy capa (fun j => aux i j) j := by
    intro i j; unfold cellVolume capacity; cases capa <;> ring
  rw [Finset.sum_comm, Finset.sum_eq_zero, Finset.sum_eq_zero, add_zero]
  · intro i hi
    have := Finset.mem_range.mp hi
    refine line_zero (hy (1 + i)) dx (fun j => dx * dy * capacity capa (aux (1 + i) (1 + j))) _ (fun j _ => vy _ _) ?_
    intro j h1
    exact if_pos (by omega)
  · intro j hj
    have := Finset.mem_range.mp hj
    refine line_zero (hx (1 + j)) dy (fun i => dx * dy * capacity capa (aux (1 + i) (1 + j))) _ (fun i _ => vx _ _) ?_
    intro i h1
    exact if_pos (by omega)

/-- C44 in three dimensions. -/
theorem C44_flux3_matching_partial (f2003 : Bool) (rpx rpy rpz : Riemann K A m w)
    (flx fly flz : (Fin m → K) → A → Fin m → K)
    (hfx : FluxDifference rpx flx) (hfy : FluxDifference rpy fly) (hfz : FluxDifference rpz flz)
    (tfx tfy tfz : Option ((Fin m → K) → (Fin m → K) → A → A → Fin m → K))
    (htx : ∀ t, tfx = some t → TotalFluctuation t flx) (hty : ∀ t, tfy = some t → TotalFluctuation t fly)
    (htz : ∀ t, tfz = some t → TotalFluctuation t flz)
    (mx my mz g : Nat) (hg : 1 ≤ g) (dt dx dy dz : K) (hdx : dx ≠ 0) (hdy : dy ≠ 0) (hdz : dz ≠ 0)
    (capa : Option (A → K)) (rx ry rz : (Int → A) → (Int → Fin m → K) → Edges K m) (aux : Int → Int → Int → A)
    (q : Int → Int → Int → Fin m → K)
    (hk : ∀ κ i j k, capa = some κ → κ (aux i j k) ≠ 0) (hcapa : f2003 = false ∨ capa = none)
    (hax : ∀ j k, PeriodicGhost 1 g mx (fun i => aux i j k)) (hay : ∀ i k, PeriodicGhost 1 g my (fun j => aux i j k))
    (haz : ∀ i j, PeriodicGhost 1 g mz (fun k => aux i j k))
    (hrx : ∀ j k, EdgesMatch 1 mx (rx (fun i => aux i j k) (fun i => q i j k)))
    (hry : ∀ i k, EdgesMatch 1 my (ry (fun j => aux i j k) (fun j => q i j k)))
    (hrz : ∀ i j, EdgesMatch 1 mz (rz (fun k => aux i j k) (fun k => q i j k))) :
    total3 mx my mz (fun i j k => dx * dy * dz * capacity capa (aux i j k))
      (flux3 f2003 rpx rpy rpz tfx tfy tfz mx my mz g dt dx dy dz capa rx ry rz aux q) = 0 := by
  unfold total3 flux3 flux3Dq
  have hx : ∀ j k : Int, total 1 mx (cellVolume dx capa (fun i => aux i j k)) (flux1 f2003 rpx tfx ⟨mx, g, dt, dx⟩ capa
      (fun i => aux i j k) (rx (fun i => aux i j k) (fun i => q i j k))).1 = 0 := fun j k =>
    C44_fortran_matching_partial f2003 rpx flx hfx tfx htx ⟨mx, g, dt, dx⟩ hdx hg capa _ (fun κ i h => hk κ i j k h) hcapa
      (hax j k) _ (hrx j k)
  have hy : ∀ i k : Int, total 1 my (cellVolume dy capa (fun j => aux i j k)) (flux1 f2003 rpy tfy ⟨my, g, dt, dy⟩ capa
      (fun j => aux i j k) (ry (fun j => aux i j k) (fun j => q i j k))).1 = 0 := fun i k =>
    C44_fortran_matching_partial f2003 rpy fly hfy tfy hty ⟨my, g, dt, dy⟩ hdy hg capa _ (fun κ j h => hk κ i j k h) hcapa
      (hay i k) _ (hry i k)
  have hz : ∀ i j : Int, total 1 mz (cellVolume dz capa (fun k => aux i j k)) (flux1 f2003 rpz tfz ⟨mz, g, dt, dz⟩ capa
      (fun k => aux i j k) (rz (fun k => aux i j k) (fun k => q i j k))).1 = 0 := fun i j =>
    C44_fortran_matching_partial f2003 rpz flz hfz tfz htz ⟨mz, g, dt, dz⟩ hdz hg capa _ (fun κ k h => hk κ i j k h) hcapa
      (haz i j) _ (hrz i j)
  simp only [smul_add, Finset.sum_add_distrib]
  have vx : ∀ i j k : Int, dx * dy * dz * capacity capa (aux i j k) =
      dy * dz * cellVolume dx capa (fun i => aux i j k) i := by
    intro i j k; unfold cellVolume capacity; cases capa <;> ring
  have vy : ∀ i j k : Int, dx * dy * dz * capacity capa (aux i j k) =
      dx * dz * cellVolume dy capa (fun j => aux i j k) j := by
    intro i j k; unfold cellVolume capacity; cases capa <;> ring
  have vz : ∀ i j k : Int, dx * dy * dz * capacity capa (aux i j k) =
      dx * dy * cellVolume dz capa (fun k => aux i j k) k := by
    intro i j k; unfold cellVolume capacity; cases capa <;> ring
  refine Eq.trans (congrArg₂ (· + ·) (congrArg₂ (· + ·) ?_ ?_) ?_) (by simp : (0 : Fin m → K) + 0 + 0 = 0)
  · rw [Finset.sum_comm]
    refine Finset.sum_eq_zero fun j hj => ?_
    rw [Finset.sum_comm]
    refine Finset.sum_eq_zero fun k hk => ?_
    have := Finset.mem_range.mp hj
    have := Finset.mem_range.mp hk
    refine line_zero (hx (1 + j) (1 + k)) (dy * dz) (fun i => dx * dy * dz * capacity capa (aux (1 + i) (1 + j) (1 + k))) _
      (fun i _ => vx _ _ _) ?_
    intro i h1
    exact if_pos (by omega)
  · refine Finset.sum_eq_zero fun i hi => ?_
    rw [Finset.sum_comm]
    refine Finset.sum_eq_zero fun k hk => ?_
    have := Finset.mem_range.mp hi
    have := Finset.mem_range.mp hk
    refine line_zero (hy (1 + i) (1 + k)) (dx * dz) (fun j => dx * dy * dz * capacity capa (aux (1 + i) (1 + j) (1 + k))) _
      (fun j _ => vy _ _ _) ?_
    intro j h1
    exact if_pos (by omega)
  · refine Finset.sum_eq_zero fun i hi => ?_
    refine Finset.sum_eq_zero fun j hj => ?_
    have := Finset.mem_range.mp hi
    have := Finset.mem_range.mp hj
    refine line_zero (hz (1 + i) (1 + j)) (dx * dy) (fun k => dx * dy * dz * capacity capa (aux (1 + i) (1 + j) (1 + k))) _
      (fun k _ => vz _ _ _) ?_
    intro k h1
    exact if_pos (by omega)

/-! ### Examples and refutations -/

/-- Periodic data on 4 cells. -/
def wavy (i : Int) : Fin 1 → ℚ := fun _ => if i % 4 = 0 then 2 else if i % 4 = 1 then 3 else if i % 4 = 2 then 4 else 1

theorem wavy_periodic (lo : Int) (g : Nat) : PeriodicGhost lo g 4 wavy := by
  intro i _ _
  have h : (i + ((4 : Nat) : Int)) % 4 = i % 4 := by omega
  funext x
  simp only [wavy, h]

/-- The hypotheses of `C44_fortran_conserves_partial` hold for advection with `weno5_wave`, and the right-hand side is
not zero. -/
example : ∃ e, fRecon (1 / 1000000) (1 / 100000000000000) 0 (fun _ => 0) (advectionRp (1 : ℚ)) ⟨4, 3, 1 / 2, 1⟩ 2 1 5
      false (fun _ => 0) (fun _ => 0) ⟨fun _ _ => 0, fun _ _ => 0⟩ none (fun _ => ()) wavy = some e ∧
    (flux1 true (advectionRp (1 : ℚ)) none ⟨4, 3, 1 / 2, 1⟩ none (fun _ => ()) e).1 1 0 ≠ 0 ∧
    total 1 4 (cellVolume 1 none (fun _ => ())) (flux1 true (advectionRp (1 : ℚ)) none ⟨4, 3, 1 / 2, 1⟩ none
      (fun _ => ()) e).1 = 0 :=
  ⟨_, rfl, by decide +kernel,
    C44_fortran_conserves_partial (1 / 1000000) (1 / 100000000000000) 0 (fun _ => 0) true (advectionRp (1 : ℚ)) _
      (advectionRp_flux 1) none (by intro t h; cases h) ⟨4, 3, 1 / 2, 1⟩ (by decide +kernel) (by decide) 2 1 5 (by decide) false
      (fun _ => 0) (fun _ => 0) ⟨fun _ _ => 0, fun _ _ => 0⟩ (by decide) none (fun _ => ()) (by intro κ i h; cases h)
      (Or.inr rfl) wavy (wavy_periodic _ _) (fun _ _ _ => rfl) _ rfl⟩

/-- The same for the Python kernel with component-wise WENO. -/
example : ∃ r, pyDqHyperbolic (1 / 1000000) (1 / 100000000000000) (advectionRp (1 : ℚ)) ⟨4, 3, 1 / 2, 1⟩ 2 0 none
      (fun _ => ()) wavy = .ok r ∧ r.1 3 0 ≠ 0 ∧ total 3 4 (cellVolume 1 none (fun _ => ())) r.1 = 0 :=
  ⟨_, rfl, by decide +kernel,
    C44_python_conserves (1 / 1000000) (1 / 100000000000000) (advectionRp (1 : ℚ)) _ (advectionRp_flux 1)
      ⟨4, 3, 1 / 2, 1⟩ (by decide +kernel) (by decide) 2 0 none (fun _ => ()) (by intro κ i h; cases h) wavy
      (wavy_periodic _ _) (fun _ _ _ => rfl) _ rfl⟩

/-- C44 fails for `lim_type = 1`, `char_decomp = 1`: the loop of `tvd2_wave` does not reach the last interface of the
grid, so that the numerical fluxes at the two ends of a periodic grid differ. Advection with the minmod limiter. -/
theorem C44_tvd_wave_violated :
    ∃ e, fRecon (1 / 1000000) (1 / 100000000000000) 0 (fun _ => 0) (advectionRp (1 : ℚ)) ⟨4, 3, 1 / 2, 1⟩ 1 1 5
      false (fun _ => 0) (fun _ => 1) ⟨fun _ _ => 0, fun _ _ => 0⟩ none (fun _ => ()) wavy = some e ∧
    PeriodicGhost 1 3 4 wavy ∧
    total 1 4 (cellVolume 1 none (fun _ => ())) (flux1 true (advectionRp (1 : ℚ)) none ⟨4, 3, 1 / 2, 1⟩ none
      (fun _ => ()) e).1 ≠ 0 :=
  ⟨_, rfl, wavy_periodic _ _, by decide +kernel⟩

/-- Advection with a capacity function that is stored in the aux values and ignored by the Riemann solver. -/
def capaRp : Riemann ℚ ℚ 1 1 := fun ql qr _ _ => advectionRp 1 ql qr () ()

/-- Capacities 1, 2, 1, 1 on the 4 cells. -/
def capas (i : Int) : ℚ := if i % 4 = 2 then 2 else 1

/-- C44 fails for the Fortran kernel with a capacity function when the compiler reallocates `dtdx` on assignment (Fortran
2003): the capacities are shifted by the number of ghost cells. -/
theorem C44_fortran_capacity_violated :
    ∃ e, fRecon (1 / 1000000) (1 / 100000000000000) 0 (fun _ => 0) capaRp ⟨4, 3, 1 / 2, 1⟩ 2 0 5
      false (fun _ => 0) (fun _ => 1) ⟨fun _ _ => 0, fun _ _ => 0⟩ none capas wavy = some e ∧
    FluxDifference capaRp (fun q _ => q) ∧ PeriodicGhost 1 3 4 wavy ∧ PeriodicGhost 1 3 4 capas ∧
    total 1 4 (cellVolume 1 (some id) capas) (flux1 true capaRp none ⟨4, 3, 1 / 2, 1⟩ (some id) capas e).1 ≠ 0 :=
  ⟨_, rfl, fun ql qr _ _ => by simpa [capaRp] using advectionRp_flux (1 : ℚ) ql qr () (), wavy_periodic _ _,
    fun i _ _ => by
      have h : (i + ((4 : Nat) : Int)) % 4 = i % 4 := by omega
      simp only [capas, h], by decide +kernel⟩

end PyClaw
