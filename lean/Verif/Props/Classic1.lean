import Verif.Lemmas.Classic1
import Verif.Props.Limiters
import Mathlib.Tactic.Module
set_option linter.unusedSectionVars false

/-!
# One-dimensional classic step (C34–C37, C40)

The theorems are about `pyStep1` (Python kernel) and `fStep1` (Fortran kernel) on ghosted arrays.
-/
namespace PyClaw
open Spec

variable {K A : Type*} [Field K] [LinearOrder K] [IsStrictOrderedRing K] {m w : Nat}

theorem dtdx_eq (c : Cfg1 K w) (capa : Option (A → K)) (aux : Int → A) :
    dtdxOf c (capa.map fun κ i => κ (aux i)) = localRatio c.dt c.dx capa aux := by
  funext i
  unfold dtdxOf localRatio
  cases capa <;> rfl

theorem vol_mul_dtdx (dt dx : K) (capa : Option (A → K)) (aux : Int → A) (i : Int) (hdx : dx ≠ 0)
    (hk : ∀ κ, capa = some κ → κ (aux i) ≠ 0) :
    cellVolume dx capa aux i * localRatio dt dx capa aux i = dt := by
  unfold cellVolume localRatio
  cases capa with
  | none => simp only; field_simp
  | some κ => have := hk κ rfl; simp only; field_simp

/-- The wave propagation formula balances the total with the fluxes through the two end interfaces. -/
theorem waveProp_balance (lo : Int) (n : Nat) (vol lam : Int → K) (dt : K) (d : Int → Rp K m w)
    (F q : Int → Fin m → K) (fl : Int → Fin m → K)
    (hv : ∀ k < n, vol (lo + k) * lam (lo + k) = dt)
    (hf : ∀ k < n, (d (lo + k)).amdq + (d (lo + k)).apdq = fl (lo + k) - fl (lo + k - 1)) :
    total lo n vol (waveProp lam d F q) =
      total lo n vol q - dt • (numericalFlux fl d F (lo + n) - numericalFlux fl d F lo) := by
  unfold total
  have h1 : ∀ k ∈ Finset.range n, vol (lo + k) • waveProp lam d F q (lo + k) =
      vol (lo + k) • q (lo + k) - dt • (numericalFlux fl d F (lo + (k + 1 : Nat)) -
        numericalFlux fl d F (lo + (k : Nat))) := by
    intro k hk
    have hk' := Finset.mem_range.mp hk
    unfold waveProp numericalFlux
    have e1 : lo + ((k + 1 : Nat) : Int) - 1 = lo + k := by push_cast; ring
    have e2 : lo + ((k + 1 : Nat) : Int) = lo + k + 1 := by push_cast; ring
    have ha : (d (lo + k)).apdq = fl (lo + k) - fl (lo + k - 1) - (d (lo + k)).amdq := by
      rw [← hf k hk']; abel
    rw [e1, e2, ha, smul_sub, smul_sub, smul_smul, smul_smul, hv k hk']
    module
  rw [Finset.sum_congr rfl h1, Finset.sum_sub_distrib, ← Finset.smul_sum,
    Finset.sum_range_sub (fun k : Nat => numericalFlux fl d F (lo + k))]
  simp

theorem total_congr (lo : Int) (n : Nat) (vol : Int → K) (q q' : Int → Fin m → K)
    (h : ∀ i, lo ≤ i → i < lo + n → q i = q' i) : total lo n vol q = total lo n vol q' := by
  unfold total
  refine Finset.sum_congr rfl fun k hk => ?_
  have := Finset.mem_range.mp hk
  rw [h _ (by omega) (by omega)]

/-- The Python step on the interior, in the specification's terms. -/
theorem pyStep1_interior (tab : Int → Option (LimFun K)) (rp : Riemann K A m w) (c : Cfg1 K w)
    (capa : Option (A → K)) (aux : Int → A) (q : Int → Fin m → K) (hg : 2 ≤ c.g) :
    ∃ phi : Fin w → K → K → K,
      ((∀ p, ¬ 0 < c.limiter p) → phi = fun _ _ _ => 1) ∧
      ((∃ p, 0 < c.limiter p) → ∀ p, (tab (c.limiter p) = none → phi p = fun _ _ => 1) ∧
        ∀ f, tab (c.limiter p) = some f → ∃ all, phi p = f all) ∧
      ∀ i : Int, c.g ≤ i → i < c.g + c.n →
        (pyStep1 tab rp c capa aux q).1 i = waveProp (localRatio c.dt c.dx capa aux) (interfaces rp aux q)
          (if c.order = 2 then correctionFlux (if c.fwave then npSign else abs)
              (localRatio c.dt c.dx capa aux) (interfaces rp aux q)
              (limitedWave phi (localRatio c.dt c.dx capa aux) (interfaces rp aux q))
            else fun _ => 0) q i := by
  have hshift : (fun i => (fun i => rp (q i) (q (i + 1)) (aux i) (aux (i + 1))) (i - 1)) =
      interfaces rp aux q := by
    funext i; simp [interfaces]
  refine ⟨pyPhi tab (c.n + 2 * c.g - 1) c.limiter (localRatio c.dt c.dx capa aux)
    (fun i => (rp (q i) (q (i + 1)) (aux i) (aux (i + 1))).s)
    (fun i => (rp (q i) (q (i + 1)) (aux i) (aux (i + 1))).wave), ?_, ?_, fun i h1 h2 => ?_⟩
  rotate_left 2
  · unfold pyStep1
    rw [pyKernel_interior tab c _ _ q hg i h1 h2, hshift, dtdx_eq]
    unfold pyFlux
    rw [hshift]
  · intro h
    funext p
    unfold pyPhi
    rw [if_neg (by simpa using h)]
  · intro h p
    unfold pyPhi
    rw [if_pos h]
    exact ⟨fun hn => by rw [hn], fun f hf => by rw [hf]; exact ⟨_, rfl⟩⟩

/-- The Fortran step on the interior, in the specification's terms. -/
theorem fStep1_interior (undef : K) (rp : Riemann K A m w) (c : Cfg1 K w)
    (capa : Option (A → K)) (aux : Int → A) (q : Int → Fin m → K)
    (hk : ∀ κ, capa = some κ → ∀ i : Int, 1 - (c.g : Int) ≤ i → i ≤ c.n + c.g → 0 < κ (aux i)) :
    ∃ q' cfl, fStep1 undef rp c capa aux q = some (q', cfl) ∧
      cfl = fCfl c.n (localRatio c.dt c.dx capa aux) (interfaces rp aux q) ∧
      ∀ i : Int, 1 ≤ i → i < 1 + c.n →
        q' i = waveProp (localRatio c.dt c.dx capa aux) (interfaces rp aux q)
          (if c.order = 1 then fun _ => 0 else correctionFlux (if c.fwave then dsign1 else abs)
              (localRatio c.dt c.dx capa aux) (interfaces rp aux q)
              (limitedWave (fPhi undef c.limiter) (localRatio c.dt c.dx capa aux) (interfaces rp aux q)))
          q i := by
  have hok : capaOk c (capa.map fun κ i => κ (aux i)) := by
    intro κ hκ i h1 h2
    cases capa with
    | none => simp at hκ
    | some κ0 => simp only [Option.map_some, Option.some.injEq] at hκ; subst hκ; exact hk κ0 rfl i h1 h2
  obtain ⟨q', cfl, h1, h2, h3⟩ := fKernel_interior undef c _ (interfaces rp aux q) q hok
  rw [dtdx_eq] at h2
  refine ⟨q', cfl, h1, h2, fun i hi1 hi2 => ?_⟩
  rw [h3 i hi1 (by omega), dtdx_eq]
  unfold fFlux
  rfl

/-- C34, Python kernel. The total of the interior cells, weighted with their volumes, changes by `dt` times
the difference of the numerical fluxes at the two boundaries; for order 1 the correction `F` is zero, for
order 2 it is the correction flux of the waves limited by some functions `phi`. -/
theorem C34_python_balance (tab : Int → Option (LimFun K)) (rp : Riemann K A m w) (c : Cfg1 K w)
    (capa : Option (A → K)) (aux : Int → A) (q : Int → Fin m → K) (fl : (Fin m → K) → A → Fin m → K)
    (hfl : FluxDifference rp fl) (hg : 2 ≤ c.g) (hdx : c.dx ≠ 0)
    (hk : ∀ κ, capa = some κ → ∀ i : Int, c.g ≤ i → i < c.g + c.n → κ (aux i) ≠ 0) :
    let vol := cellVolume c.dx capa aux
    let flux := fun F => numericalFlux (fun i => fl (q i) (aux i)) (interfaces rp aux q) F
    ∃ (phi : Fin w → K → K → K) (F : Int → Fin m → K),
      total c.g c.n vol (pyStep1 tab rp c capa aux q).1 =
        total c.g c.n vol q - c.dt • (flux F (c.g + c.n) - flux F c.g) ∧
      F = (if c.order = 2 then correctionFlux (if c.fwave then npSign else abs)
              (localRatio c.dt c.dx capa aux) (interfaces rp aux q)
              (limitedWave phi (localRatio c.dt c.dx capa aux) (interfaces rp aux q))
            else fun _ => 0) := by
  obtain ⟨phi, _, _, h⟩ := pyStep1_interior tab rp c capa aux q hg
  refine ⟨phi, _, ?_, rfl⟩
  simp only
  rw [total_congr _ _ _ _ _ h]
  refine waveProp_balance _ _ _ _ _ _ _ _ _ (fun k hk' => ?_) (fun k _ => ?_)
  · exact vol_mul_dtdx _ _ capa aux _ hdx (fun κ h => hk κ h _ (by omega) (by omega))
  · exact hfl _ _ _ _

/-- C34, Fortran kernel. -/
theorem C34_fortran_balance (undef : K) (rp : Riemann K A m w) (c : Cfg1 K w)
    (capa : Option (A → K)) (aux : Int → A) (q : Int → Fin m → K) (fl : (Fin m → K) → A → Fin m → K)
    (hfl : FluxDifference rp fl) (hdx : c.dx ≠ 0)
    (hk : ∀ κ, capa = some κ → ∀ i : Int, 1 - (c.g : Int) ≤ i → i ≤ c.n + c.g → 0 < κ (aux i)) :
    let vol := cellVolume c.dx capa aux
    let flux := fun F => numericalFlux (fun i => fl (q i) (aux i)) (interfaces rp aux q) F
    ∃ q' cfl, fStep1 undef rp c capa aux q = some (q', cfl) ∧
      ∃ (phi : Fin w → K → K → K) (F : Int → Fin m → K),
        total 1 c.n vol q' = total 1 c.n vol q - c.dt • (flux F (1 + c.n) - flux F 1) ∧
        F = (if c.order = 1 then fun _ => 0 else correctionFlux (if c.fwave then dsign1 else abs)
              (localRatio c.dt c.dx capa aux) (interfaces rp aux q)
              (limitedWave phi (localRatio c.dt c.dx capa aux) (interfaces rp aux q))) := by
  obtain ⟨q', cfl, h1, _, h3⟩ := fStep1_interior undef rp c capa aux q hk
  refine ⟨q', cfl, h1, fPhi undef c.limiter, _, ?_, rfl⟩
  simp only
  rw [total_congr _ _ _ _ _ h3]
  refine waveProp_balance _ _ _ _ _ _ _ _ _ (fun k hk' => ?_) (fun k _ => ?_)
  · exact vol_mul_dtdx _ _ capa aux _ hdx (fun κ h => (hk κ h _ (by omega) (by omega)).ne')
  · exact hfl _ _ _ _

/-! ### Periodic data -/

theorem numericalFlux_periodic (fl : (Fin m → K) → A → Fin m → K) (rp : Riemann K A m w) (lo : Int)
    (g n : Nat) (hg : 2 ≤ g) (dt dx : K) (capa : Option (A → K)) (aux : Int → A) (q : Int → Fin m → K)
    (hq : PeriodicGhost lo g n q) (ha : PeriodicGhost lo g n aux) (a : K → K) (phi : Fin w → K → K → K)
    (o : Prop) [Decidable o] :
    let flux := numericalFlux (fun i => fl (q i) (aux i)) (interfaces rp aux q)
      (if o then correctionFlux a (localRatio dt dx capa aux) (interfaces rp aux q)
        (limitedWave phi (localRatio dt dx capa aux) (interfaces rp aux q)) else fun _ => 0)
    flux (lo + n) = flux lo := by
  have e0 : q (lo + n) = q lo := hq lo (by omega) (by omega)
  have e1 : q (lo + n - 1) = q (lo - 1) := by
    have := hq (lo - 1) (by omega) (by omega); rw [← this]; congr 1; ring
  have e2 : q (lo + n - 1 - 1) = q (lo - 1 - 1) := by
    have := hq (lo - 1 - 1) (by omega) (by omega); rw [← this]; congr 1; ring
  have e3 : q (lo + n + 1) = q (lo + 1) := by
    have := hq (lo + 1) (by omega) (by omega); rw [← this]; congr 1; ring
  have a0 : aux (lo + n) = aux lo := ha lo (by omega) (by omega)
  have a1 : aux (lo + n - 1) = aux (lo - 1) := by
    have := ha (lo - 1) (by omega) (by omega); rw [← this]; congr 1; ring
  have a2 : aux (lo + n - 1 - 1) = aux (lo - 1 - 1) := by
    have := ha (lo - 1 - 1) (by omega) (by omega); rw [← this]; congr 1; ring
  have a3 : aux (lo + n + 1) = aux (lo + 1) := by
    have := ha (lo + 1) (by omega) (by omega); rw [← this]; congr 1; ring
  simp only [numericalFlux, e1, a1]
  have d0 : interfaces rp aux q (lo + n) = interfaces rp aux q lo := by
    simp only [interfaces, e0, e1, a0, a1]
  have d1 : interfaces rp aux q (lo + n - 1) = interfaces rp aux q (lo - 1) := by
    simp only [interfaces, e2, e1, a2, a1]
  have d2 : interfaces rp aux q (lo + n + 1) = interfaces rp aux q (lo + 1) := by
    simp only [interfaces, add_sub_cancel_right, e0, e3, a0, a3]
  have l0 : localRatio dt dx capa aux (lo + n) = localRatio dt dx capa aux lo := by
    simp only [localRatio, a0]
  have l1 : localRatio dt dx capa aux (lo + n - 1) = localRatio dt dx capa aux (lo - 1) := by
    simp only [localRatio, a1]
  rw [d0]
  congr 1
  split
  · simp only [correctionFlux, limitedWave, d0, d1, d2, l0, l1]
  · rfl

/-- C34, periodic data, Python kernel: nothing is gained or lost, whatever the limiter, order and
capacity. -/
theorem C34_python_conserves (tab : Int → Option (LimFun K)) (rp : Riemann K A m w) (c : Cfg1 K w)
    (capa : Option (A → K)) (aux : Int → A) (q : Int → Fin m → K) (fl : (Fin m → K) → A → Fin m → K)
    (hfl : FluxDifference rp fl) (hg : 2 ≤ c.g) (hdx : c.dx ≠ 0)
    (hk : ∀ κ, capa = some κ → ∀ i : Int, c.g ≤ i → i < c.g + c.n → κ (aux i) ≠ 0)
    (hq : PeriodicGhost c.g c.g c.n q) (ha : PeriodicGhost c.g c.g c.n aux) :
    total c.g c.n (cellVolume c.dx capa aux) (pyStep1 tab rp c capa aux q).1 =
      total c.g c.n (cellVolume c.dx capa aux) q := by
  obtain ⟨phi, F, h, rfl⟩ := C34_python_balance tab rp c capa aux q fl hfl hg hdx hk
  have := numericalFlux_periodic fl rp c.g c.g c.n hg c.dt c.dx capa aux q hq ha
    (if c.fwave then npSign else abs) phi (c.order = 2)
  simp only at this h
  rw [h, this, sub_self, smul_zero, sub_zero]

/-- C34, periodic data, Fortran kernel. -/
theorem C34_fortran_conserves (undef : K) (rp : Riemann K A m w) (c : Cfg1 K w)
    (capa : Option (A → K)) (aux : Int → A) (q : Int → Fin m → K) (fl : (Fin m → K) → A → Fin m → K)
    (hfl : FluxDifference rp fl) (hg : 2 ≤ c.g) (hdx : c.dx ≠ 0)
    (hk : ∀ κ, capa = some κ → ∀ i : Int, 1 - (c.g : Int) ≤ i → i ≤ c.n + c.g → 0 < κ (aux i))
    (hq : PeriodicGhost 1 c.g c.n q) (ha : PeriodicGhost 1 c.g c.n aux) :
    ∃ q' cfl, fStep1 undef rp c capa aux q = some (q', cfl) ∧
      total 1 c.n (cellVolume c.dx capa aux) q' = total 1 c.n (cellVolume c.dx capa aux) q := by
  obtain ⟨q', cfl, h0, phi, F, h, rfl⟩ := C34_fortran_balance undef rp c capa aux q fl hfl hdx hk
  refine ⟨q', cfl, h0, ?_⟩
  have := numericalFlux_periodic fl rp 1 c.g c.n hg c.dt c.dx capa aux q hq ha
    (if c.fwave then dsign1 else abs) phi (¬ c.order = 1)
  simp only [ite_not] at this h
  rw [h, this, sub_self, smul_zero, sub_zero]

/-! ### C35 -/

theorem waveProp_quiet (rp : Riemann K A m w) (hq : Quiet rp) (aux : Int → A) (v : Fin m → K)
    (a : K → K) (lam : Int → K) (phi : Fin w → K → K → K) (q : Int → Fin m → K) (o : Prop) [Decidable o]
    (i : Int) (h : ∀ j, i - 1 ≤ j → j ≤ i + 1 → q j = v) :
    waveProp lam (interfaces rp aux q) (if o then correctionFlux a lam (interfaces rp aux q)
      (limitedWave phi lam (interfaces rp aux q)) else fun _ => 0) q i = v := by
  have h0 := h i (by omega) (by omega)
  have h1 := h (i - 1) (by omega) (by omega)
  have h2 := h (i + 1) (by omega) (by omega)
  have hF : ∀ j, (j = i ∨ j = i + 1) → correctionFlux a lam (interfaces rp aux q)
      (limitedWave phi lam (interfaces rp aux q)) j = 0 := by
    intro j hj
    unfold correctionFlux
    refine Finset.sum_eq_zero fun p _ => ?_
    have hw : (interfaces rp aux q j).wave p = 0 := by
      unfold interfaces
      rcases hj with rfl | rfl
      · rw [h0, h1]; exact (hq _ _ _).1 p
      · rw [add_sub_cancel_right, h0, h2]; exact (hq _ _ _).1 p
    unfold limitedWave
    simp only [hw]
    rw [if_pos (by simp [wdot]), smul_zero]
  unfold waveProp
  have ha : (interfaces rp aux q i).apdq = 0 := by
    unfold interfaces; rw [h0, h1]; exact (hq _ _ _).2.2
  have hb : (interfaces rp aux q (i + 1)).amdq = 0 := by
    unfold interfaces; rw [add_sub_cancel_right, h0, h2]; exact (hq _ _ _).2.1
  rw [ha, hb, h0]
  split
  · rw [hF i (Or.inl rfl), hF (i + 1) (Or.inr rfl)]; simp
  · simp

/-- C35, Python kernel: a state that is uniform around a cell does not change there; in particular a
uniform state is preserved. -/
theorem C35_python_uniform (tab : Int → Option (LimFun K)) (rp : Riemann K A m w) (hq : Quiet rp)
    (c : Cfg1 K w) (capa : Option (A → K)) (aux : Int → A) (q : Int → Fin m → K) (hg : 2 ≤ c.g)
    (v : Fin m → K) (i : Int) (h1 : c.g ≤ i) (h2 : i < c.g + c.n)
    (h : ∀ j, i - 1 ≤ j → j ≤ i + 1 → q j = v) :
    (pyStep1 tab rp c capa aux q).1 i = v := by
  obtain ⟨phi, _, _, he⟩ := pyStep1_interior tab rp c capa aux q hg
  rw [he i h1 h2]
  exact waveProp_quiet rp hq aux v _ _ phi q (c.order = 2) i h

/-- C35, Fortran kernel. -/
theorem C35_fortran_uniform (undef : K) (rp : Riemann K A m w) (hq : Quiet rp)
    (c : Cfg1 K w) (capa : Option (A → K)) (aux : Int → A) (q : Int → Fin m → K)
    (hk : ∀ κ, capa = some κ → ∀ i : Int, 1 - (c.g : Int) ≤ i → i ≤ c.n + c.g → 0 < κ (aux i)) :
    ∃ q' cfl, fStep1 undef rp c capa aux q = some (q', cfl) ∧
      ∀ (v : Fin m → K) (i : Int), 1 ≤ i → i < 1 + c.n →
        (∀ j, i - 1 ≤ j → j ≤ i + 1 → q j = v) → q' i = v := by
  obtain ⟨q', cfl, h1, _, h3⟩ := fStep1_interior undef rp c capa aux q hk
  refine ⟨q', cfl, h1, fun v i hi1 hi2 h => ?_⟩
  have := waveProp_quiet rp hq aux v (if c.fwave then dsign1 else abs) (localRatio c.dt c.dx capa aux)
    (fPhi undef c.limiter) q (¬ c.order = 1) i h
  rw [ite_not] at this
  rw [h3 i hi1 hi2, this]

/-! ### C37 -/

theorem maxOver_spec {α : Type*} (f : α → K) (l : List α) (hl : l ≠ []) :
    (∀ x ∈ l, f x ≤ maxOver f l) ∧ ∃ x ∈ l, maxOver f l = f x := by
  cases l with
  | nil => exact absurd rfl hl
  | cons a l =>
    unfold maxOver
    have key : ∀ (l : List α) (z : K), (z ≤ l.foldl (fun m x => max m (f x)) z) ∧
        (∀ x ∈ l, f x ≤ l.foldl (fun m x => max m (f x)) z) ∧
        (l.foldl (fun m x => max m (f x)) z = z ∨ ∃ x ∈ l, l.foldl (fun m x => max m (f x)) z = f x) := by
      intro l
      induction l with
      | nil => intro z; simp
      | cons b l ih =>
        intro z
        obtain ⟨i1, i2, i3⟩ := ih (max z (f b))
        rw [List.foldl_cons]
        refine ⟨(le_max_left _ _).trans i1, ?_, ?_⟩
        · intro x hx
          rcases List.mem_cons.mp hx with rfl | hx
          · exact (le_max_right _ _).trans i1
          · exact i2 x hx
        · rcases i3 with h | ⟨x, hx, h⟩
          · rcases max_cases z (f b) with ⟨e, _⟩ | ⟨e, _⟩
            · left; rw [h, e]
            · right; exact ⟨b, List.mem_cons_self, by rw [h, e]⟩
          · right; exact ⟨x, List.mem_cons_of_mem _ hx, h⟩
    obtain ⟨k1, k2, k3⟩ := key l (f a)
    refine ⟨?_, ?_⟩
    · intro x hx
      rcases List.mem_cons.mp hx with rfl | hx
      · exact k1
      · exact k2 x hx
    · rcases k3 with h | ⟨x, hx, h⟩
      · exact ⟨a, List.mem_cons_self, h⟩
      · exact ⟨x, List.mem_cons_of_mem _ hx, h⟩

theorem mem_irange (lo hi i : Int) : i ∈ irange lo hi ↔ lo ≤ i ∧ i < hi := by
  unfold irange
  simp only [List.mem_map, List.mem_range]
  constructor
  · rintro ⟨k, hk, rfl⟩; omega
  · rintro ⟨h1, h2⟩; exact ⟨(i - lo).toNat, by omega, by omega⟩

/-- A fold of maxima over a list of values: an upper bound of all, attained or the start value. -/
theorem foldl_max_spec {α : Type*} (step : K → α → K) (vals : α → List K)
    (hstep : ∀ z a, (z ≤ step z a) ∧ (∀ v ∈ vals a, v ≤ step z a) ∧ (step z a = z ∨ step z a ∈ vals a)) :
    ∀ (l : List α) (z : K), (z ≤ l.foldl step z) ∧ (∀ a ∈ l, ∀ v ∈ vals a, v ≤ l.foldl step z) ∧
      (l.foldl step z = z ∨ ∃ a ∈ l, l.foldl step z ∈ vals a) := by
  intro l
  induction l with
  | nil => intro z; simp
  | cons b l ih =>
    intro z
    obtain ⟨i1, i2, i3⟩ := ih (step z b)
    obtain ⟨s1, s2, s3⟩ := hstep z b
    rw [List.foldl_cons]
    refine ⟨s1.trans i1, ?_, ?_⟩
    · intro a ha v hv
      rcases List.mem_cons.mp ha with rfl | ha
      · exact (s2 v hv).trans i1
      · exact i2 a ha v hv
    · rcases i3 with h | ⟨a, ha, h⟩
      · rcases s3 with e | e
        · left; rw [h, e]
        · right; exact ⟨b, List.mem_cons_self, by rw [h]; exact e⟩
      · right; exact ⟨a, List.mem_cons_of_mem _ ha, h⟩

/-- The Courant number of a wave, as the larger of the two numbers the code compares. -/
theorem courant_eq (lam : Int → K) (i : Int) (s : K) (h1 : 0 ≤ lam i) (h0 : 0 ≤ lam (i - 1)) :
    courant lam i s = max (lam i * s) (-lam (i - 1) * s) := by
  unfold courant
  by_cases hs : 0 < s
  · rw [if_pos hs, max_eq_left]
    have := mul_nonneg h1 hs.le; have := mul_nonneg h0 hs.le; linarith
  · rw [if_neg hs, abs_of_nonpos (not_lt.mp hs), max_eq_right]
    · ring
    · have := mul_nonneg h1 (neg_nonneg.mpr (not_lt.mp hs))
      have := mul_nonneg h0 (neg_nonneg.mpr (not_lt.mp hs)); linarith

theorem fCfl_spec (mx : Int) (lam : Int → K) (hl : ∀ i, 0 ≤ i → i < mx + 2 → 0 ≤ lam i)
    (d : Int → Rp K m w) : IsMaxCourant lam d 1 (mx + 2) (fCfl mx lam d) := by
  have hin : ∀ (mw : Fin w) (z : K),
      let r := (irange 1 (mx + 2)).foldl (fun cfl i =>
        max (max cfl (lam i * (d i).s mw)) (-lam (i - 1) * (d i).s mw)) z
      z ≤ r ∧ (∀ v ∈ (irange 1 (mx + 2)).map (fun i => courant lam i ((d i).s mw)), v ≤ r) ∧
        (r = z ∨ r ∈ (irange 1 (mx + 2)).map (fun i => courant lam i ((d i).s mw))) := by
    intro mw z
    obtain ⟨h1, h2, h3⟩ := foldl_max_spec
      (fun (cfl : K) (i : Int) => max (max cfl (lam i * (d i).s mw)) (-lam (i - 1) * (d i).s mw))
      (fun i => [lam i * (d i).s mw, -lam (i - 1) * (d i).s mw]) (by
        intro z a
        refine ⟨(le_max_left _ _).trans (le_max_left _ _), ?_, ?_⟩
        · intro v hv
          simp only [List.mem_cons, List.not_mem_nil, or_false] at hv
          rcases hv with rfl | rfl
          · exact (le_max_right _ _).trans (le_max_left _ _)
          · exact le_max_right _ _
        · rcases max_choice (max z (lam a * (d a).s mw)) (-lam (a - 1) * (d a).s mw) with e | e
          · rcases max_choice z (lam a * (d a).s mw) with e' | e'
            · left; rw [e, e']
            · right; rw [e, e']; simp
          · right; rw [e]; simp) (irange 1 (mx + 2)) z
    refine ⟨h1, ?_, ?_⟩
    · intro v hv
      obtain ⟨i, hi, rfl⟩ := List.mem_map.mp hv
      have hi' := (mem_irange _ _ _).mp hi
      rw [courant_eq lam i _ (hl i (by omega) (by omega)) (hl _ (by omega) (by omega))]
      exact max_le (h2 i hi _ (by simp)) (h2 i hi _ (by simp))
    · rcases h3 with h | ⟨i, hi, h⟩
      · exact Or.inl h
      · right
        refine List.mem_map.mpr ⟨i, hi, ?_⟩
        have hi' := (mem_irange _ _ _).mp hi
        rw [courant_eq lam i _ (hl i (by omega) (by omega)) (hl _ (by omega) (by omega))]
        refine le_antisymm (max_le (h2 i hi _ (by simp)) (h2 i hi _ (by simp))) ?_
        simp only [List.mem_cons, List.not_mem_nil, or_false] at h
        rcases h with h | h
        · exact h ▸ le_max_left _ _
        · exact h ▸ le_max_right _ _
  obtain ⟨h1, h2, h3⟩ := foldl_max_spec _
    (fun mw => (irange 1 (mx + 2)).map (fun i => courant lam i ((d i).s mw)))
    (fun z mw => hin mw z) (List.finRange w) 0
  refine ⟨h1, fun i p hi1 hi2 => ?_, ?_⟩
  · exact h2 p (List.mem_finRange p) _ (List.mem_map.mpr ⟨i, (mem_irange _ _ _).mpr ⟨hi1, hi2⟩, rfl⟩)
  · rcases h3 with h | ⟨p, _, h⟩
    · exact Or.inl h
    · obtain ⟨i, hi, he⟩ := List.mem_map.mp h
      have hi' := (mem_irange _ _ _).mp hi
      exact Or.inr ⟨i, p, hi'.1, hi'.2, he.symm⟩

theorem pyCfl_spec (LL UL : Int) (hlu : LL < UL) (lam : Int → K)
    (hl : ∀ i, LL - 1 ≤ i → i < UL → 0 ≤ lam i) (d : Int → Rp K m w) :
    IsMaxCourant lam (fun i => d (i - 1)) LL UL (pyCfl LL UL lam d) := by
  have hne : irange LL UL ≠ [] := List.ne_nil_of_mem ((mem_irange _ _ _).mpr ⟨le_rfl, hlu⟩)
  have hne' : irange (LL - 1) (UL - 1) ≠ [] :=
    List.ne_nil_of_mem ((mem_irange _ _ _).mpr ⟨le_rfl, by omega⟩)
  have hin : ∀ (mw : Fin w) (z : K),
      let smax1 := maxOver (fun i : Int => lam i * (d (i - 1)).s mw) (irange LL UL)
      let smax2 := maxOver (fun i : Int => -lam i * (d i).s mw) (irange (LL - 1) (UL - 1))
      let r := max (max z smax1) smax2
      z ≤ r ∧ (∀ v ∈ (irange LL UL).map (fun i => courant lam i ((d (i - 1)).s mw)), v ≤ r) ∧
        (r = z ∨ r ∈ (irange LL UL).map (fun i => courant lam i ((d (i - 1)).s mw))) := by
    intro mw z
    simp only
    obtain ⟨a1, i1, hi1, a2⟩ := maxOver_spec (fun i : Int => lam i * (d (i - 1)).s mw) _ hne
    obtain ⟨b1, i2, hi2, b2⟩ := maxOver_spec (fun i : Int => -lam i * (d i).s mw) _ hne'
    have hi1' := (mem_irange _ _ _).mp hi1
    have hi2' := (mem_irange _ _ _).mp hi2
    have hub : ∀ v ∈ (irange LL UL).map (fun i => courant lam i ((d (i - 1)).s mw)),
        v ≤ max (max z (maxOver (fun i : Int => lam i * (d (i - 1)).s mw) (irange LL UL)))
          (maxOver (fun i : Int => -lam i * (d i).s mw) (irange (LL - 1) (UL - 1))) := by
      intro v hv
      obtain ⟨i, hi, rfl⟩ := List.mem_map.mp hv
      have hi' := (mem_irange _ _ _).mp hi
      rw [courant_eq lam i _ (hl i (by omega) (by omega)) (hl _ (by omega) (by omega))]
      refine max_le ?_ ?_
      · exact (a1 i hi).trans ((le_max_right _ _).trans (le_max_left _ _))
      · exact (b1 (i - 1) ((mem_irange _ _ _).mpr ⟨by omega, by omega⟩)).trans (le_max_right _ _)
    refine ⟨(le_max_left _ _).trans (le_max_left _ _), hub, ?_⟩
    rcases max_choice (max z (maxOver (fun i : Int => lam i * (d (i - 1)).s mw) (irange LL UL)))
        (maxOver (fun i : Int => -lam i * (d i).s mw) (irange (LL - 1) (UL - 1))) with e | e
    · rcases max_choice z (maxOver (fun i : Int => lam i * (d (i - 1)).s mw) (irange LL UL)) with e' | e'
      · left; rw [e, e']
      · right
        refine List.mem_map.mpr ⟨i1, hi1, ?_⟩
        have hm := hub _ (List.mem_map.mpr ⟨i1, hi1, rfl⟩)
        refine le_antisymm hm ?_
        rw [e, e', a2, courant_eq lam i1 _ (hl _ (by omega) (by omega)) (hl _ (by omega) (by omega))]
        exact le_max_left _ _
    · right
      have hmem : i2 + 1 ∈ irange LL UL := (mem_irange _ _ _).mpr ⟨by omega, by omega⟩
      refine List.mem_map.mpr ⟨i2 + 1, hmem, ?_⟩
      have hm := hub _ (List.mem_map.mpr ⟨i2 + 1, hmem, rfl⟩)
      refine le_antisymm hm ?_
      rw [e, b2, courant_eq lam (i2 + 1) _ (hl _ (by omega) (by omega)) (hl _ (by omega) (by omega)),
        add_sub_cancel_right]
      exact le_max_right _ _
  obtain ⟨h1, h2, h3⟩ := foldl_max_spec _
    (fun mw => (irange LL UL).map (fun i => courant lam i ((d (i - 1)).s mw)))
    (fun z mw => hin mw z) (List.finRange w) 0
  refine ⟨h1, fun i p hi1 hi2 => ?_, ?_⟩
  · exact h2 p (List.mem_finRange p) _ (List.mem_map.mpr ⟨i, (mem_irange _ _ _).mpr ⟨hi1, hi2⟩, rfl⟩)
  · rcases h3 with h | ⟨p, _, h⟩
    · exact Or.inl h
    · obtain ⟨i, hi, he⟩ := List.mem_map.mp h
      have hi' := (mem_irange _ _ _).mp hi
      exact Or.inr ⟨i, p, hi'.1, hi'.2, he.symm⟩

theorem localRatio_nonneg (dt dx : K) (hdt : 0 ≤ dt) (hdx : 0 < dx) (capa : Option (A → K)) (aux : Int → A)
    (i : Int) (hk : ∀ κ, capa = some κ → 0 < κ (aux i)) : 0 ≤ localRatio dt dx capa aux i := by
  unfold localRatio
  cases capa with
  | none => simp only; positivity
  | some κ => have := hk κ rfl; simp only; positivity

/-- C37, Fortran kernel: the reported Courant number is the largest over the waves at all interfaces of
interior cells (or 0). -/
theorem C37_fortran_cfl (undef : K) (rp : Riemann K A m w) (c : Cfg1 K w) (hdt : 0 ≤ c.dt) (hdx : 0 < c.dx)
    (hg : 1 ≤ c.g) (capa : Option (A → K)) (aux : Int → A) (q : Int → Fin m → K)
    (hk : ∀ κ, capa = some κ → ∀ i : Int, 1 - (c.g : Int) ≤ i → i ≤ c.n + c.g → 0 < κ (aux i)) :
    ∃ q' cfl, fStep1 undef rp c capa aux q = some (q', cfl) ∧
      IsMaxCourant (localRatio c.dt c.dx capa aux) (interfaces rp aux q) 1 (c.n + 2) cfl := by
  obtain ⟨q', cfl, h1, h2, _⟩ := fStep1_interior undef rp c capa aux q hk
  refine ⟨q', cfl, h1, h2 ▸ fCfl_spec _ _ (fun i hi1 hi2 => ?_) _⟩
  exact localRatio_nonneg _ _ hdt hdx capa aux i fun κ h => hk κ h i (by omega) (by omega)

/-- C37, Python kernel: as for the Fortran kernel, with one more interface on the left (between the two
ghost cells next to the boundary). -/
theorem C37_python_cfl (tab : Int → Option (LimFun K)) (rp : Riemann K A m w) (c : Cfg1 K w)
    (hdt : 0 ≤ c.dt) (hdx : 0 < c.dx) (hg : 2 ≤ c.g) (capa : Option (A → K)) (aux : Int → A)
    (q : Int → Fin m → K)
    (hk : ∀ κ, capa = some κ → ∀ i : Int, 0 ≤ i → i < c.n + 2 * c.g → 0 < κ (aux i)) :
    IsMaxCourant (localRatio c.dt c.dx capa aux) (interfaces rp aux q) (c.g - 1) (c.g + c.n + 1)
      (pyStep1 tab rp c capa aux q).2 := by
  have h : (pyStep1 tab rp c capa aux q).2 = pyCfl (c.g - 1) (c.g + c.n + 1)
      (localRatio c.dt c.dx capa aux) (fun i => rp (q i) (q (i + 1)) (aux i) (aux (i + 1))) := by
    unfold pyStep1 pyKernel
    rw [dtdx_eq]
    simp only
    split <;> rfl
  have hs : interfaces rp aux q = fun i => (fun i => rp (q i) (q (i + 1)) (aux i) (aux (i + 1))) (i - 1) := by
    funext i; simp [interfaces]
  rw [h, hs]
  refine pyCfl_spec _ _ (by omega) _ (fun i hi1 hi2 => ?_) _
  exact localRatio_nonneg _ _ hdt hdx capa aux i fun κ h => hk κ h i (by omega) (by omega)

/-- Without capacity function the Courant number of a wave is `|s| dt/dx`. -/
theorem C37_plain (dt dx : K) (aux : Int → A) (i : Int) (s : K) :
    courant (localRatio dt dx none aux) i s = |s| * dt / dx := by
  unfold courant localRatio
  simp only
  split
  · rw [abs_of_pos (by assumption)]; ring
  · ring

/-! ### C36 -/

theorem npSign_eq_dsign1 (x : K) (h : x ≠ 0) : npSign x = dsign1 x := by
  unfold npSign dsign1
  rcases lt_or_gt_of_ne h with h | h
  · rw [if_neg (not_lt.mpr h.le), if_pos h, if_neg (not_le.mpr h)]
  · rw [if_pos h, if_pos h.le]

theorem waveProp_shift (rp : Riemann K A m w) (dt dx : K) (capa : Option (A → K)) (aux : Int → A)
    (q : Int → Fin m → K) (a a' : K → K) (phi phi' : Fin w → K → K → K) (o : Prop) [Decidable o] (sh i : Int)
    (hphi : phi = phi')
    (ha : ∀ j, j = i ∨ j = i + 1 → ∀ p, a ((interfaces rp aux q (j + sh)).s p) =
      a' ((interfaces rp aux q (j + sh)).s p)) :
    let aux' := fun i => aux (i + sh)
    let q' := fun i => q (i + sh)
    waveProp (localRatio dt dx capa aux') (interfaces rp aux' q')
      (if o then correctionFlux a (localRatio dt dx capa aux') (interfaces rp aux' q')
        (limitedWave phi (localRatio dt dx capa aux') (interfaces rp aux' q')) else fun _ => 0) q' i =
    waveProp (localRatio dt dx capa aux) (interfaces rp aux q)
      (if o then correctionFlux a' (localRatio dt dx capa aux) (interfaces rp aux q)
        (limitedWave phi' (localRatio dt dx capa aux) (interfaces rp aux q)) else fun _ => 0) q (i + sh) := by
  intro aux' q'
  subst hphi
  have hl : ∀ j, localRatio dt dx capa aux' j = localRatio dt dx capa aux (j + sh) := fun j => rfl
  have hd : ∀ j, interfaces rp aux' q' j = interfaces rp aux q (j + sh) := by
    intro j
    simp only [interfaces, aux', q']
    rw [show j - 1 + sh = j + sh - 1 by ring]
  have hW : ∀ j p, limitedWave phi (localRatio dt dx capa aux') (interfaces rp aux' q') j p =
      limitedWave phi (localRatio dt dx capa aux) (interfaces rp aux q) (j + sh) p := by
    intro j p
    simp only [limitedWave, hl, hd]
    rw [show j - 1 + sh = j + sh - 1 by ring, show j + 1 + sh = j + sh + 1 by ring]
  have hF : ∀ j, j = i ∨ j = i + 1 →
      correctionFlux a (localRatio dt dx capa aux') (interfaces rp aux' q')
        (limitedWave phi (localRatio dt dx capa aux') (interfaces rp aux' q')) j =
      correctionFlux a' (localRatio dt dx capa aux) (interfaces rp aux q)
        (limitedWave phi (localRatio dt dx capa aux) (interfaces rp aux q)) (j + sh) := by
    intro j hj
    unfold correctionFlux
    refine Finset.sum_congr rfl fun p _ => ?_
    rw [hW, hl, hl, hd, ha j hj, show j - 1 + sh = j + sh - 1 by ring]
  have e1 : i + 1 + sh = i + sh + 1 := by ring
  unfold waveProp
  by_cases ho : o
  · simp only [ho, if_true]
    rw [hF i (Or.inl rfl), hF (i + 1) (Or.inr rfl), hl, hd, hd, e1]
  · simp only [ho, if_false]
    rw [hl, hd, hd, e1]

/-- C36. The two kernels give the same interior values for order 1 and 2 with the limiters none, minmod,
van Leer, MC and Beam-Warming, with or without capacity function; and the Python Courant number is the
Fortran one or that of the additional interface. (`_partial`: not superbee; with f-waves only if no speed is
zero; see the `_violated` theorems.) The Python array has its first interior cell at index `g`, the Fortran
array at index 1. -/
theorem C36_kernels_agree_partial (opq : Int → LimFun K) (undef : K) (rp : Riemann K A m w) (c : Cfg1 K w)
    (capa : Option (A → K)) (aux : Int → A) (q : Int → Fin m → K) (hg : 2 ≤ c.g)
    (hdt : 0 ≤ c.dt) (hdx : 0 < c.dx)
    (ho : c.order = 1 ∨ c.order = 2)
    (hlim : ∀ p, c.limiter p = 0 ∨ c.limiter p = 1 ∨ c.limiter p = 3 ∨ c.limiter p = 4 ∨ c.limiter p = 5)
    (hfw : c.fwave = true → ∀ (i : Int) p, c.g ≤ i → i ≤ c.g + c.n → (interfaces rp aux q i).s p ≠ 0)
    (hk : ∀ κ, capa = some κ → ∀ i : Int, 0 ≤ i → i < c.n + 2 * c.g → 0 < κ (aux i)) :
    let sh : Int := c.g - 1
    let py := pyStep1 (pyLimiterFun opq) rp c capa aux q
    ∃ q' cfl, fStep1 undef rp c capa (fun i => aux (i + sh)) (fun i => q (i + sh)) = some (q', cfl) ∧
      (∀ i : Int, 1 ≤ i → i < 1 + c.n → q' i = py.1 (i + sh)) ∧
      cfl ≤ py.2 ∧ (py.2 = cfl ∨
        ∃ p, py.2 = courant (localRatio c.dt c.dx capa aux) sh ((interfaces rp aux q sh).s p)) := by
  intro sh py
  have hk' : ∀ κ, capa = some κ → ∀ i : Int, 1 - (c.g : Int) ≤ i → i ≤ c.n + c.g → 0 < κ (aux (i + sh)) :=
    fun κ h i h1 h2 => hk κ h _ (by omega) (by omega)
  obtain ⟨q', cfl, h1, h2, h3⟩ := fStep1_interior undef rp c capa (fun i => aux (i + sh))
    (fun i => q (i + sh)) hk'
  obtain ⟨phi, p1, p2, p3⟩ := pyStep1_interior (pyLimiterFun opq) rp c capa aux q hg
  obtain ⟨_, _, f1, f2⟩ := C37_fortran_cfl undef rp c hdt hdx (by omega) capa (fun i => aux (i + sh))
    (fun i => q (i + sh)) hk'
  rw [f1] at h1
  cases h1
  have hpy := C37_python_cfl (pyLimiterFun opq) rp c hdt hdx hg capa aux q hk
  have hcour : ∀ i p, courant (localRatio c.dt c.dx capa (fun i => aux (i + sh))) i
      ((interfaces rp (fun i => aux (i + sh)) (fun i => q (i + sh)) i).s p) =
      courant (localRatio c.dt c.dx capa aux) (i + sh) ((interfaces rp aux q (i + sh)).s p) := by
    intro i p
    have : i - 1 + sh = i + sh - 1 := by ring
    have hd : interfaces rp (fun i => aux (i + sh)) (fun i => q (i + sh)) i =
        interfaces rp aux q (i + sh) := by simp only [interfaces, this]
    have hl : localRatio c.dt c.dx capa (fun i => aux (i + sh)) (i - 1) =
        localRatio c.dt c.dx capa aux (i + sh - 1) := by simp only [localRatio, this]
    unfold courant
    rw [hd, hl]
    rfl
  refine ⟨q', cfl, f1, fun i hi1 hi2 => ?_, ?_, ?_⟩
  · rw [h3 i hi1 hi2, p3 (i + sh) (by omega) (by omega)]
    have hphi : fPhi undef c.limiter = phi := by
      funext p
      unfold fPhi
      by_cases hany : ∃ p, 0 < c.limiter p
      · obtain ⟨pn, ps⟩ := p2 hany p
        rcases hlim p with h | h | h | h | h
        · rw [if_neg (by simp [h]), pn (by rw [h]; rfl)]
        all_goals
          rw [if_pos ⟨hany, by omega⟩]
          obtain ⟨all, hp⟩ := ps _ (by rw [h]; rfl)
          rw [hp]
          funext r cfl
          simp [h, philim, pyMinmod, pyVanLeer, pyMC, pyBeamWarming]
      · rw [if_neg (by tauto), p1 (by simpa using hany)]
    have ha : ∀ j, j = i ∨ j = i + 1 → ∀ p,
        (if c.fwave then dsign1 else abs) ((interfaces rp aux q (j + sh)).s p) =
        (if c.fwave then npSign else abs) ((interfaces rp aux q (j + sh)).s p) := by
      intro j hj p
      cases hf : c.fwave
      · rfl
      · simp only [if_true]
        exact (npSign_eq_dsign1 _ (hfw hf _ p (by omega) (by omega))).symm
    have key := waveProp_shift rp c.dt c.dx capa aux q (if c.fwave then dsign1 else abs)
      (if c.fwave then npSign else abs) (fPhi undef c.limiter) phi (c.order = 2) sh i hphi ha
    simp only at key
    rw [← key]
    congr 1
    rcases ho with h | h <;> simp [h]
  · rcases f2.2.2 with h | ⟨i, p, hi1, hi2, h⟩
    · rw [h]; exact hpy.1
    · rw [h, hcour]; exact hpy.2.1 _ _ (by omega) (by omega)
  · rcases hpy.2.2 with h | ⟨i, p, hi1, hi2, h⟩
    · left
      refine le_antisymm (by rw [h]; exact f2.1) ?_
      rcases f2.2.2 with h' | ⟨i, p, hi1, hi2, h'⟩
      · rw [h']; exact hpy.1
      · rw [h', hcour]; exact hpy.2.1 _ _ (by omega) (by omega)
    · by_cases hi : i = sh
      · right; subst hi; exact ⟨p, h⟩
      · left
        refine le_antisymm ?_ ?_
        · have := f2.2.1 (i - sh) p (by omega) (by omega)
          rw [hcour, sub_add_cancel] at this
          exact h.trans_le this
        · rcases f2.2.2 with h' | ⟨i, p, hi1, hi2, h'⟩
          · rw [h']; exact hpy.1
          · rw [h', hcour]; exact hpy.2.1 _ _ (by omega) (by omega)

/-! ### C40 -/

theorem waveProp_local (rp : Riemann K A m w) (dt dx : K) (capa : Option (A → K)) (aux aux' : Int → A)
    (q q' : Int → Fin m → K) (a : K → K) (phi : Fin w → K → K → K) (o : Prop) [Decidable o] (i : Int)
    (hq : ∀ j, i - 2 ≤ j → j ≤ i + 2 → q j = q' j) (hx : ∀ j, i - 2 ≤ j → j ≤ i + 2 → aux j = aux' j) :
    waveProp (localRatio dt dx capa aux) (interfaces rp aux q)
      (if o then correctionFlux a (localRatio dt dx capa aux) (interfaces rp aux q)
        (limitedWave phi (localRatio dt dx capa aux) (interfaces rp aux q)) else fun _ => 0) q i =
    waveProp (localRatio dt dx capa aux') (interfaces rp aux' q')
      (if o then correctionFlux a (localRatio dt dx capa aux') (interfaces rp aux' q')
        (limitedWave phi (localRatio dt dx capa aux') (interfaces rp aux' q')) else fun _ => 0) q' i := by
  have hd : ∀ j, i - 1 ≤ j → j ≤ i + 2 → interfaces rp aux q j = interfaces rp aux' q' j := by
    intro j h1 h2
    unfold interfaces
    rw [hq _ (by omega) (by omega), hq _ (by omega) (by omega), hx _ (by omega) (by omega),
      hx _ (by omega) (by omega)]
  have hl : ∀ j, i - 1 ≤ j → j ≤ i + 1 → localRatio dt dx capa aux j = localRatio dt dx capa aux' j := by
    intro j h1 h2
    unfold localRatio
    rw [hx _ (by omega) (by omega)]
  have hF : ∀ j, i ≤ j → j ≤ i + 1 →
      correctionFlux a (localRatio dt dx capa aux) (interfaces rp aux q)
        (limitedWave phi (localRatio dt dx capa aux) (interfaces rp aux q)) j =
      correctionFlux a (localRatio dt dx capa aux') (interfaces rp aux' q')
        (limitedWave phi (localRatio dt dx capa aux') (interfaces rp aux' q')) j := by
    intro j h1 h2
    unfold correctionFlux limitedWave
    simp only [hd j (by omega) (by omega), hd (j - 1) (by omega) (by omega),
      hd (j + 1) (by omega) (by omega), hl j (by omega) (by omega), hl (j - 1) (by omega) (by omega)]
  unfold waveProp
  rw [hq i (by omega) (by omega), hl i (by omega) (by omega), hd i (by omega) (by omega),
    hd (i + 1) (by omega) (by omega)]
  split
  · rw [hF i (by omega) (by omega), hF (i + 1) (by omega) (by omega)]
  · rfl

/-- C40, Fortran kernel: the new value of an interior cell depends only on that cell and its two
neighbours on each side. -/
theorem C40_fortran_local (undef : K) (rp : Riemann K A m w) (c : Cfg1 K w) (capa : Option (A → K))
    (aux aux' : Int → A) (q q' : Int → Fin m → K)
    (hk : ∀ κ, capa = some κ → ∀ i : Int, 1 - (c.g : Int) ≤ i → i ≤ c.n + c.g → 0 < κ (aux i))
    (hk' : ∀ κ, capa = some κ → ∀ i : Int, 1 - (c.g : Int) ≤ i → i ≤ c.n + c.g → 0 < κ (aux' i)) :
    ∃ r r' cfl cfl', fStep1 undef rp c capa aux q = some (r, cfl) ∧
      fStep1 undef rp c capa aux' q' = some (r', cfl') ∧
      ∀ i : Int, 1 ≤ i → i < 1 + c.n → (∀ j, i - 2 ≤ j → j ≤ i + 2 → q j = q' j ∧ aux j = aux' j) →
        r i = r' i := by
  obtain ⟨r, cfl, h1, _, h3⟩ := fStep1_interior undef rp c capa aux q hk
  obtain ⟨r', cfl', h1', _, h3'⟩ := fStep1_interior undef rp c capa aux' q' hk'
  refine ⟨r, r', cfl, cfl', h1, h1', fun i hi1 hi2 h => ?_⟩
  have := waveProp_local rp c.dt c.dx capa aux aux' q q' (if c.fwave then dsign1 else abs)
    (fPhi undef c.limiter) (¬ c.order = 1) i (fun j a b => (h j a b).1) (fun j a b => (h j a b).2)
  simp only [ite_not] at this
  rw [h3 i hi1 hi2, h3' i hi1 hi2, this]

/-- C40, Python kernel, for limiters 0 to 16 (`_partial`: limiters 17, 18, 21, 22 and 23 combine all
interfaces; see the `_violated` theorem). -/
theorem C40_python_local_partial (opq : Int → LimFun K) (rp : Riemann K A m w) (c : Cfg1 K w)
    (hlim : ∀ p, 0 ≤ c.limiter p ∧ c.limiter p ≤ 16) (capa : Option (A → K))
    (aux aux' : Int → A) (q q' : Int → Fin m → K) (hg : 2 ≤ c.g) (i : Int) (h1 : c.g ≤ i)
    (h2 : i < c.g + c.n) (h : ∀ j, i - 2 ≤ j → j ≤ i + 2 → q j = q' j ∧ aux j = aux' j) :
    (pyStep1 (pyLimiterFun opq) rp c capa aux q).1 i = (pyStep1 (pyLimiterFun opq) rp c capa aux' q').1 i := by
  obtain ⟨phi, p1, p2, p3⟩ := pyStep1_interior (pyLimiterFun opq) rp c capa aux q hg
  obtain ⟨phi', p1', p2', p3'⟩ := pyStep1_interior (pyLimiterFun opq) rp c capa aux' q' hg
  have hphi : phi = phi' := by
    by_cases hany : ∃ p, 0 < c.limiter p
    · funext p
      obtain ⟨pn, ps⟩ := p2 hany p
      obtain ⟨pn', ps'⟩ := p2' hany p
      obtain ⟨h0, h16⟩ := hlim p
      generalize c.limiter p = k at *
      have hk : k = 0 ∨ k = 1 ∨ k = 2 ∨ k = 3 ∨ k = 4 ∨ k = 5 ∨ k = 6 ∨ k = 7 ∨ k = 8 ∨ k = 9 ∨ k = 10 ∨
          k = 11 ∨ k = 12 ∨ k = 13 ∨ k = 14 ∨ k = 15 ∨ k = 16 := by omega
      rcases hk with rfl | hk
      · rw [pn rfl, pn' rfl]
      · rcases hk with rfl | rfl | rfl | rfl | rfl | rfl | rfl | rfl | rfl | rfl | rfl | rfl | rfl | rfl |
          rfl | rfl <;>
        · obtain ⟨_, e⟩ := ps _ rfl
          obtain ⟨_, e'⟩ := ps' _ rfl
          rw [e, e']
    · rw [p1 (by simpa using hany), p1' (by simpa using hany)]
  rw [p3 i h1 h2, p3' i h1 h2, hphi]
  exact waveProp_local rp c.dt c.dx capa aux aux' q q' _ phi' (c.order = 2) i
    (fun j a b => (h j a b).1) (fun j a b => (h j a b).2)

/-! ### Witnesses -/

/-- A set-up for the examples: 3 cells, 2 ghost cells, `dt/dx = 1/2`. -/
def exCfg (k : Int) (fw : Bool) : Cfg1 ℚ 1 :=
  { n := 3, g := 2, dt := 1 / 2, dx := 1, order := 2, fwave := fw, limiter := fun _ => k }

/-- Constant-coefficient advection conserves `q` with flux `u q`, and is quiet. -/
theorem advectionRp_flux (u : K) : FluxDifference (advectionRp u) (fun q _ => u • q) := by
  intro ql qr _ _
  simp only [advectionRp]
  rw [← add_smul, min_add_max, add_zero, smul_sub]

theorem advectionRp_quiet (u : K) : Quiet (advectionRp u) := by
  intro v _ _
  simp [advectionRp]

/-- Non-vacuity of C34: periodic data `0, 1, 5` are conserved, and the step is not the identity. -/
example : let q : Int → Fin 1 → ℚ := fun i _ => if i % 3 = 0 then 0 else if i % 3 = 1 then 1 else 5
    total 2 3 (cellVolume 1 none fun _ => ())
      (pyStep1 (pyLimiterFun fun _ _ _ _ => 0) (advectionRp 1) (exCfg 4 false) none (fun _ => ()) q).1 =
    total 2 3 (cellVolume 1 none fun _ => ()) q :=
  C34_python_conserves (pyLimiterFun fun _ _ _ _ => 0) (advectionRp (1 : ℚ)) (exCfg 4 false) none
    (fun _ => ()) _ _ (advectionRp_flux 1) (by decide) (by norm_num [exCfg]) (by simp)
    (by
      intro i _ _
      have : (i + ((exCfg 4 false).n : Int)) % 3 = i % 3 := Int.add_emod_right _ _
      simp only [this])
    (fun _ _ _ => rfl)

example : (pyStep1 (pyLimiterFun fun _ _ _ _ => 0) (advectionRp (1 : ℚ)) (exCfg 4 false) none (fun _ => ())
    (fun i _ => if i % 3 = 0 then 0 else if i % 3 = 1 then 1 else 5)).1 2 0 = 13 / 4 := by decide +kernel

/-- C36 fails for the superbee limiter: on smooth data the two kernels give different values. -/
theorem C36_superbee_violated :
    let q : Int → Fin 1 → ℚ := fun i _ => -(6 - (i : ℚ)) ^ 3
    ∃ q' cfl, fStep1 0 (advectionRp 1) (exCfg 2 false) none (fun _ => ()) (fun i => q (i + 1)) = some (q', cfl) ∧
      q' 2 0 = -85 / 2 ∧
      (pyStep1 (pyLimiterFun fun _ _ _ _ => 0) (advectionRp 1) (exCfg 2 false) none (fun _ => ()) q).1 3 0 =
        -173 / 4 := by
  intro q
  obtain ⟨q', cfl, h1, _, h3⟩ := fStep1_interior 0 (advectionRp 1) (exCfg 2 false) none (fun _ => ())
    (fun i => q (i + 1)) (by simp)
  refine ⟨q', cfl, h1, ?_, by decide +kernel⟩
  rw [h3 2 (by decide) (by decide)]
  decide +kernel

/-- An f-wave solver with one stationary f-wave (a jump in the flux balanced at the interface). -/
def standingRp : Riemann ℚ Unit 1 1 := fun ql qr _ _ =>
  { wave := fun _ => qr - ql, s := fun _ => 0, amdq := 0, apdq := qr - ql }

/-- C36 fails for f-waves of speed exactly 0: `np.sign(0) = 0`, `dsign(1, 0) = 1`. -/
theorem C36_fwave_zero_speed_violated :
    let q : Int → Fin 1 → ℚ := fun i _ => (i : ℚ) ^ 2
    ∃ q' cfl, fStep1 0 standingRp (exCfg 0 true) none (fun _ => ()) (fun i => q (i + 1)) = some (q', cfl) ∧
      q' 2 0 = 6 ∧
      (pyStep1 (pyLimiterFun fun _ _ _ _ => 0) standingRp (exCfg 0 true) none (fun _ => ()) q).1 3 0 =
        13 / 2 := by
  intro q
  obtain ⟨q', cfl, h1, _, h3⟩ := fStep1_interior 0 standingRp (exCfg 0 true) none (fun _ => ())
    (fun i => q (i + 1)) (by simp)
  refine ⟨q', cfl, h1, ?_, by decide +kernel⟩
  rw [h3 2 (by decide) (by decide)]
  decide +kernel

/-- A Riemann solver whose wave speed is the left state. -/
def upwindSpeedRp : Riemann ℚ Unit 1 1 := fun ql qr _ _ =>
  { wave := fun _ => qr - ql, s := fun _ => ql 0, amdq := 0, apdq := qr - ql }

/-- C37 and C36: the Courant number of the Python kernel counts the interface between the two ghost cells at
the left boundary: there the fast state 8 (in ghost cell 0) raises it to 4, the Fortran kernel reports 1/2. -/
theorem C36_cfl_extra_interface_violated :
    let q : Int → Fin 1 → ℚ := fun i _ => if i = 0 then 8 else 1
    ∃ q', fStep1 0 upwindSpeedRp (exCfg 4 false) none (fun _ => ()) (fun i => q (i + 1)) = some (q', 1 / 2) ∧
      (pyStep1 (pyLimiterFun fun _ _ _ _ => 0) upwindSpeedRp (exCfg 4 false) none (fun _ => ()) q).2 = 4 := by
  intro q
  obtain ⟨q', cfl, h1, h2, h3⟩ := fStep1_interior 0 upwindSpeedRp (exCfg 4 false) none (fun _ => ())
    (fun i => q (i + 1)) (by simp)
  have : cfl = 1 / 2 := by rw [h2]; decide +kernel
  subst this
  exact ⟨q', h1, by decide +kernel⟩

/-- Non-vacuity of C36: the hypotheses of the agreement theorem hold for advection with the MC limiter. -/
example (opq : Int → LimFun ℚ) (q : Int → Fin 1 → ℚ) :
    ∃ q' cfl, fStep1 0 (advectionRp 1) (exCfg 4 true) none (fun _ => ()) (fun i => q (i + 1)) = some (q', cfl) ∧
      (∀ i : Int, 1 ≤ i → i < 1 + 3 → q' i =
        (pyStep1 (pyLimiterFun opq) (advectionRp 1) (exCfg 4 true) none (fun _ => ()) q).1 (i + 1)) := by
  obtain ⟨q', cfl, h1, h2, _⟩ := C36_kernels_agree_partial opq 0 (advectionRp 1) (exCfg 4 true) none
    (fun _ => ()) q (by decide) (by norm_num [exCfg]) (by norm_num [exCfg]) (Or.inr rfl)
    (fun _ => by simp [exCfg]) (fun _ _ _ _ _ => by simp [interfaces, advectionRp]) (by simp)
  exact ⟨q', cfl, h1, h2⟩

/-- C40 fails for the limiters that take a maximum or minimum over the whole array (here 18 and 23): two
data sets that differ only in cell 5 give different new values in cell 2. -/
theorem C40_python_global_limiter_violated :
    let q : Int → Fin 1 → ℚ := fun i _ => (i : ℚ) ^ 2
    let q' : Int → Fin 1 → ℚ := fun i _ => if i = 5 then 0 else (i : ℚ) ^ 2
    let step := fun k q => (pyStep1 (pyLimiterFun fun _ _ _ _ => 0) (advectionRp 1) (exCfg k false) none
      (fun _ => ()) q).1
    step 23 q 2 0 = 13 / 6 ∧ step 23 q' 2 0 = 5 / 2 ∧ step 18 q 2 0 = 61 / 27 ∧ step 18 q' 2 0 = 5 / 2 := by
  decide +kernel

end PyClaw
