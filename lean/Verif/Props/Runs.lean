import Verif.Lemmas.Runs
import Verif.Props.Classic1
import Verif.Props.Classic2
import Verif.Props.Unsplit2
import Verif.Props.Unsplit3
import Verif.Props.Split3
import Verif.Props.Advection

/-!
C81: whole runs of the classic solvers on periodic grids conserve the total of every component.
-/
set_option linter.unusedSectionVars false

namespace PyClaw
open Spec

variable {K : Type*} [Field K] [LinearOrder K] [IsStrictOrderedRing K] [FloorRing K] {m w naux : Nat}

/-- Data that come from a periodic grid. -/
theorem periodic_line {ι α : Type*} [DecidableEq ι] (n : ι → Nat) (g : Nat) (A : (ι → Int) → α) (B : (ι → Nat) → α)
    (h : ∀ v : ι → Int, (∀ a, 1 - (g : Int) ≤ v a ∧ v a ≤ n a + g) → A v = B (wrapCell n v)) (a : ι) (v : ι → Int)
    (hv : ∀ b, b ≠ a → 1 - (g : Int) ≤ v b ∧ v b ≤ n b + g) :
    PeriodicGhost 1 g (n a) fun i => A (Function.update v a i) := by
  intro i h1 h2
  simp only
  rw [h, h]
  · congr 1
    funext b
    unfold wrapCell
    by_cases hb : b = a
    · subst hb
      simp only [Function.update_self]
      rw [show i + (n b : Int) - 1 = i - 1 + n b by ring, Int.add_emod_right]
    · simp only [Function.update_of_ne hb]
  · intro b
    by_cases hb : b = a
    · subst hb; simp only [Function.update_self]; omega
    · simp only [Function.update_of_ne hb]; exact hv b hb
  · intro b
    by_cases hb : b = a
    · subst hb; simp only [Function.update_self]; omega
    · simp only [Function.update_of_ne hb]; exact hv b hb

theorem capacity_pos {d : Nat} (n : Fin d → Nat) (hn : ∀ a, 0 < n a) (capa : Option ((Fin naux → K) → K)) (a0 : GArr (Fin d) K)
    (hcap : PositiveCapacity n capa a0) (κ : (Fin naux → K) → K) (hκ : capa = some κ) (v : Fin d → Int) :
    0 < κ (auxAt naux a0 (wrapCell n v)) :=
  hcap κ hκ _ (wrapCell_lt n hn v)

/-! ### One dimension -/

theorem total1 (n : Fin 1 → Nat) (dx : K) (capa : Option ((Fin naux → K) → K)) (A : Int → Fin naux → K) (R : Int → Fin m → K)
    (k : Fin m) :
    total 1 (n 0) (cellVolume dx capa A) R k =
      ∑ x ∈ Fintype.piFinset fun a => Finset.range (n a), dx * capacity capa (A ((x 0 : Int) + 1)) * R ((x 0 : Int) + 1) k := by
  rw [sum_grid1]
  unfold total
  rw [Finset.sum_apply]
  refine Finset.sum_congr rfl fun i _ => ?_
  rw [add_comm (1 : Int)]
  simp only [Pi.smul_apply, smul_eq_mul]
  congr 1
  unfold cellVolume capacity
  cases capa <;> simp

theorem line1 (n : Fin 1 → Nat) (g : Nat) {α : Type*} (A : (Fin 1 → Int) → α) (B : (Fin 1 → Nat) → α)
    (h : ∀ v : Fin 1 → Int, (∀ a, 1 - (g : Int) ≤ v a ∧ v a ≤ n a + g) → A v = B (wrapCell n v)) :
    PeriodicGhost 1 g (n 0) fun i => A fun _ => i := by
  have := periodic_line n g A B h 0 (fun _ => 0) (fun b hb => absurd (Subsingleton.elim b 0) hb)
  have e : ∀ i : Int, Function.update (fun _ : Fin 1 => (0 : Int)) 0 i = fun _ => i := by
    intro i; funext b; rw [Subsingleton.elim b 0]; simp
  simpa only [e] using this

/-- C81, the one-dimensional Fortran kernel: over any session of `evolve_to_time` calls and changes of settings, with rejected
steps and exceptions, the aux array and the total of every component stay what they were. -/
theorem C81_fortran1 (undef : K) (rp : Riemann K (Fin naux → K) m w) (fl : (Fin m → K) → (Fin naux → K) → Fin m → K)
    (hfl : FluxDifference rp fl) (cfg : Cfg1 K w) (hdx : cfg.dx ≠ 0) (capa : Option ((Fin naux → K) → K))
    (c : ParCfg (Fin 1) K) (hr : ClassicRun c m naux (intStep1 undef rp cfg capa)) (hp : PeriodicGrid c.bc) (hg : cfg.g = c.bc.g) (rnd : K → K) (L : K)
    (ops : List (StepOp K (GArr (Fin 1) K) (GArr (Fin 1) K × BCArrays (Fin 1) K))) (hops : OnlyEvolves ops)
    (s : StepState K (GArr (Fin 1) K) (GArr (Fin 1) K × BCArrays (Fin 1) K))
    (hcap : PositiveCapacity c.bc.n capa s.sol.rest.1) :
    let s' := runSteps (serialEnv c rnd L) ops s
    s'.sol.rest.1 = s.sol.rest.1 ∧ ∀ k, k < m →
      gridTotal c.bc.n cfg.dx capa s'.sol.rest.1 s'.sol.q k = gridTotal c.bc.n cfg.dx capa s.sol.rest.1 s.sol.q k := by
  refine run_conserves c m naux _ hr hp cfg.dx capa s.sol.rest.1 ?_ rnd L ops hops s rfl
  intro dt A Q q r cfl hf hs k
  obtain ⟨q', cfl', h1, h2⟩ := C34_fortran_conserves undef rp { cfg with n := c.bc.n 0, dt := dt } capa
    (fun i => A fun _ => i) (fun i => Q fun _ => i) fl hfl (by simp only [hg]; exact hr.ghost) hdx
    (by
      intro κ hκ i a b
      simp only [hg] at a b
      rw [(hf _ fun c' => by rw [Subsingleton.elim c' 0]; exact ⟨a, b⟩).2]
      exact capacity_pos _ (fun a => (hp.cells a).1) capa _ hcap κ hκ _)
    (by simp only [hg]; exact line1 _ _ Q (fun x k => q k.val x) fun v hv => (hf v hv).1)
    (by simp only [hg]; exact line1 _ _ A _ fun v hv => (hf v hv).2)
  unfold intStep1 at hs
  rw [h1] at hs
  simp only [Option.map_some, Option.some.injEq, Prod.mk.injEq] at hs
  rw [← hs.1]
  have e : ∀ x : Fin 1 → Nat, (fun a => (x a : Int) + 1) = fun _ => (x 0 : Int) + 1 := by
    intro x; funext b; rw [Subsingleton.elim b 0]
  simp only [e]
  have := congrFun h2 k
  rw [total1 c.bc.n, total1 c.bc.n] at this
  exact this

/-- C81, the one-dimensional Python kernel. -/
theorem C81_python1 (tab : Int → Option (LimFun K)) (rp : Riemann K (Fin naux → K) m w)
    (fl : (Fin m → K) → (Fin naux → K) → Fin m → K)
    (hfl : FluxDifference rp fl) (cfg : Cfg1 K w) (hdx : cfg.dx ≠ 0) (capa : Option ((Fin naux → K) → K))
    (c : ParCfg (Fin 1) K) (hr : ClassicRun c m naux (intPyStep1 tab rp cfg capa)) (hp : PeriodicGrid c.bc) (hg : cfg.g = c.bc.g) (rnd : K → K) (L : K)
    (ops : List (StepOp K (GArr (Fin 1) K) (GArr (Fin 1) K × BCArrays (Fin 1) K))) (hops : OnlyEvolves ops)
    (s : StepState K (GArr (Fin 1) K) (GArr (Fin 1) K × BCArrays (Fin 1) K))
    (hcap : PositiveCapacity c.bc.n capa s.sol.rest.1) :
    let s' := runSteps (serialEnv c rnd L) ops s
    s'.sol.rest.1 = s.sol.rest.1 ∧ ∀ k, k < m →
      gridTotal c.bc.n cfg.dx capa s'.sol.rest.1 s'.sol.q k = gridTotal c.bc.n cfg.dx capa s.sol.rest.1 s.sol.q k := by
  refine run_conserves c m naux _ hr hp cfg.dx capa s.sol.rest.1 ?_ rnd L ops hops s rfl
  intro dt A Q q r cfl hf hs k
  have shift : ∀ {α : Type _} (v : Int → α) (n : Nat), PeriodicGhost 1 c.bc.g n v →
      PeriodicGhost c.bc.g c.bc.g n fun x => v (x + (1 - c.bc.g)) := by
    intro α v n h i a b
    simp only
    rw [show i + (n : Int) + (1 - c.bc.g) = i + (1 - c.bc.g) + n by ring]
    exact h _ (by omega) (by omega)
  have h2 := C34_python_conserves tab rp { cfg with n := c.bc.n 0, dt := dt } capa
    (fun x => A fun _ => x + (1 - cfg.g)) (fun x => Q fun _ => x + (1 - cfg.g)) fl hfl (by simp only [hg]; exact hr.ghost) hdx
    (by
      intro κ hκ i a b
      simp only [hg] at a b ⊢
      rw [(hf _ fun c' => by rw [Subsingleton.elim c' 0]; omega).2]
      exact (capacity_pos _ (fun a => (hp.cells a).1) capa _ hcap κ hκ _).ne')
    (by simp only [hg]; exact shift _ _ (line1 _ _ Q (fun x k => q k.val x) fun v hv => (hf v hv).1))
    (by simp only [hg]; exact shift _ _ (line1 _ _ A _ fun v hv => (hf v hv).2))
  unfold intPyStep1 at hs
  simp only [Option.some.injEq, Prod.mk.injEq] at hs
  rw [← hs.1]
  have e : ∀ x : Fin 1 → Nat, (fun a => (x a : Int) + 1) = fun _ => (x 0 : Int) + 1 := by
    intro x; funext b; rw [Subsingleton.elim b 0]
  simp only [e]
  have := congrFun h2 k
  have tt : ∀ (A : Int → Fin naux → K) (R : Int → Fin m → K), total cfg.g (c.bc.n 0) (cellVolume cfg.dx capa A) R k =
      total 1 (c.bc.n 0) (cellVolume cfg.dx capa fun i => A (i + cfg.g - 1)) (fun i => R (i + cfg.g - 1)) k := by
    intro A R
    unfold total
    refine congrFun (?_ : _ = _) k
    refine Finset.sum_congr rfl fun i _ => ?_
    have : (1 : Int) + i + cfg.g - 1 = cfg.g + i := by ring
    simp only [cellVolume, this]
  simp only at this
  rw [tt, tt, total1 c.bc.n, total1 c.bc.n] at this
  have e2 : ∀ x : Fin 1 → Nat, (x 0 : Int) + 1 + cfg.g - 1 + (1 - cfg.g) = (x 0 : Int) + 1 := fun x => by ring
  simp only [e2] at this
  exact this

/-! ### Two dimensions -/

theorem total2_grid (n : Fin 2 → Nat) (dV : K) (capa : Option ((Fin naux → K) → K)) (A : Int → Int → Fin naux → K)
    (R : Int → Int → Fin m → K) (k : Fin m) :
    total2 (n 0) (n 1) (fun i j => dV * capacity capa (A i j)) R k =
      ∑ x ∈ Fintype.piFinset fun a => Finset.range (n a),
        dV * capacity capa (A ((x 0 : Int) + 1) ((x 1 : Int) + 1)) * R ((x 0 : Int) + 1) ((x 1 : Int) + 1) k := by
  rw [sum_grid2]
  unfold total2
  rw [Finset.sum_apply]
  refine Finset.sum_congr rfl fun i _ => ?_
  rw [Finset.sum_apply]
  refine Finset.sum_congr rfl fun j _ => ?_
  rw [add_comm (1 : Int), add_comm (1 : Int)]
  simp only [Pi.smul_apply, smul_eq_mul, Matrix.cons_val_zero, Matrix.cons_val_one]

theorem vec2 (x : Fin 2 → Nat) : (fun a => (x a : Int) + 1) = ![(x 0 : Int) + 1, (x 1 : Int) + 1] := by
  funext a; fin_cases a <;> rfl

theorem line2 (n : Fin 2 → Nat) (g : Nat) {α : Type*} (A : (Fin 2 → Int) → α) (B : (Fin 2 → Nat) → α)
    (h : ∀ v : Fin 2 → Int, (∀ a, 1 - (g : Int) ≤ v a ∧ v a ≤ n a + g) → A v = B (wrapCell n v)) :
    (∀ j : Int, 1 - (g : Int) ≤ j → j ≤ n 1 + g → PeriodicGhost 1 g (n 0) fun i => A ![i, j]) ∧
    ∀ i : Int, 1 - (g : Int) ≤ i → i ≤ n 0 + g → PeriodicGhost 1 g (n 1) fun j => A ![i, j] := by
  constructor
  · intro j a b
    have := periodic_line n g A B h 0 ![0, j] (by
      intro c hc; fin_cases c
      · exact absurd rfl hc
      · exact ⟨a, b⟩)
    have e : ∀ i : Int, Function.update ![0, j] 0 i = ![i, j] := by
      intro i; funext c; fin_cases c <;> simp
    simpa only [e] using this
  · intro i a b
    have := periodic_line n g A B h 1 ![i, 0] (by
      intro c hc; fin_cases c
      · exact ⟨a, b⟩
      · exact absurd rfl hc)
    have e : ∀ j : Int, Function.update ![i, 0] 1 j = ![i, j] := by
      intro i; funext c; fin_cases c <;> simp
    simpa only [e] using this

/-- C81, the two-dimensional unsplit kernel, whatever the transverse solvers. -/
theorem C81_unsplit2 (undef : K) (rpx rpy : Riemann K (Fin naux → K) m w) (rtx rty : Transverse K (Fin naux → K) m)
    (flx fly : (Fin m → K) → (Fin naux → K) → Fin m → K) (hfx : FluxDifference rpx flx) (hfy : FluxDifference rpy fly)
    (cfg : Cfg2 K w) (hdx : cfg.dx ≠ 0) (hdy : cfg.dy ≠ 0) (capa : Option ((Fin naux → K) → K))
    (c : ParCfg (Fin 2) K) (hr : ClassicRun c m naux (intUnsplit2 undef rpx rpy rtx rty cfg capa)) (hp : PeriodicGrid c.bc) (hg : cfg.g = c.bc.g) (rnd : K → K)
    (L : K) (ops : List (StepOp K (GArr (Fin 2) K) (GArr (Fin 2) K × BCArrays (Fin 2) K))) (hops : OnlyEvolves ops)
    (s : StepState K (GArr (Fin 2) K) (GArr (Fin 2) K × BCArrays (Fin 2) K))
    (hcap : PositiveCapacity c.bc.n capa s.sol.rest.1) :
    let s' := runSteps (serialEnv c rnd L) ops s
    s'.sol.rest.1 = s.sol.rest.1 ∧ ∀ k, k < m →
      gridTotal c.bc.n (cfg.dx * cfg.dy) capa s'.sol.rest.1 s'.sol.q k =
        gridTotal c.bc.n (cfg.dx * cfg.dy) capa s.sol.rest.1 s.sol.q k := by
  refine run_conserves c m naux _ hr hp (cfg.dx * cfg.dy) capa s.sol.rest.1 ?_ rnd L ops hops s rfl
  intro dt A Q q r cfl hf hs k
  have h2 := C43_conserves undef rpx rpy rtx rty flx fly hfx hfy { cfg with mx := c.bc.n 0, my := c.bc.n 1, dt := dt }
    (by simp only [hg]; exact hr.ghost) hdx hdy capa (fun i j => A ![i, j]) (fun i j => Q ![i, j])
    (by
      intro κ hκ i j a b e f
      simp only at a b e f ⊢
      rw [(hf _ fun c' => by fin_cases c' <;> simp <;> omega).2]
      exact (capacity_pos _ (fun a => (hp.cells a).1) capa _ hcap κ hκ _).ne')
    (by simp only [hg]; exact fun j a b => (line2 _ _ Q (fun x k => q k.val x) fun v hv => (hf v hv).1).1 j a b)
    (by simp only [hg]; exact fun j a b => (line2 _ _ Q (fun x k => q k.val x) fun v hv => (hf v hv).1).2 j a b)
    (by simp only [hg]; exact fun j a b => (line2 _ _ A _ fun v hv => (hf v hv).2).1 j a b)
    (by simp only [hg]; exact fun j a b => (line2 _ _ A _ fun v hv => (hf v hv).2).2 j a b)
  unfold intUnsplit2 at hs
  simp only [Option.some.injEq, Prod.mk.injEq] at hs
  rw [← hs.1]
  simp only [vec2]
  have := congrFun h2 k
  rw [total2_grid c.bc.n (cfg.dx * cfg.dy), total2_grid c.bc.n (cfg.dx * cfg.dy)] at this
  exact this

/-- C81, the two-dimensional split kernel. -/
theorem C81_split2 (undef : K) (rpx rpy : Riemann K (Fin naux → K) m w)
    (flx fly : (Fin m → K) → (Fin naux → K) → Fin m → K) (hfx : FluxDifference rpx flx) (hfy : FluxDifference rpy fly)
    (cfg : Cfg2 K w) (hdx : cfg.dx ≠ 0) (hdy : cfg.dy ≠ 0) (capa : Option ((Fin naux → K) → K))
    (c : ParCfg (Fin 2) K) (hr : ClassicRun c m naux (intSplit2 undef rpx rpy cfg capa)) (hp : PeriodicGrid c.bc) (hg : cfg.g = c.bc.g) (rnd : K → K)
    (L : K) (ops : List (StepOp K (GArr (Fin 2) K) (GArr (Fin 2) K × BCArrays (Fin 2) K))) (hops : OnlyEvolves ops)
    (s : StepState K (GArr (Fin 2) K) (GArr (Fin 2) K × BCArrays (Fin 2) K))
    (hcap : PositiveCapacity c.bc.n capa s.sol.rest.1) :
    let s' := runSteps (serialEnv c rnd L) ops s
    s'.sol.rest.1 = s.sol.rest.1 ∧ ∀ k, k < m →
      gridTotal c.bc.n (cfg.dx * cfg.dy) capa s'.sol.rest.1 s'.sol.q k =
        gridTotal c.bc.n (cfg.dx * cfg.dy) capa s.sol.rest.1 s.sol.q k := by
  refine run_conserves c m naux _ hr hp (cfg.dx * cfg.dy) capa s.sol.rest.1 ?_ rnd L ops hops s rfl
  intro dt A Q q r cfl hf hs k
  have h2 := C42_conserves undef rpx rpy flx fly hfx hfy { cfg with mx := c.bc.n 0, my := c.bc.n 1, dt := dt }
    (by simp only [hg]; exact hr.ghost) hdx hdy capa (fun i j => A ![i, j]) (fun i j => Q ![i, j])
    (by
      intro κ hκ i j a b e f
      simp only at a b e f ⊢
      rw [(hf _ fun c' => by fin_cases c' <;> simp <;> omega).2]
      exact (capacity_pos _ (fun a => (hp.cells a).1) capa _ hcap κ hκ _).ne')
    (by simp only [hg]; exact fun j a b => (line2 _ _ Q (fun x k => q k.val x) fun v hv => (hf v hv).1).1 j a b)
    (by simp only [hg]; exact fun j a b => (line2 _ _ Q (fun x k => q k.val x) fun v hv => (hf v hv).1).2 j a b)
    (by simp only [hg]; exact fun j a b => (line2 _ _ A _ fun v hv => (hf v hv).2).1 j a b)
    (by simp only [hg]; exact fun j a b => (line2 _ _ A _ fun v hv => (hf v hv).2).2 j a b)
  unfold intSplit2 at hs
  simp only [Option.some.injEq, Prod.mk.injEq] at hs
  rw [← hs.1]
  simp only [vec2]
  have := congrFun h2 k
  rw [total2_grid c.bc.n (cfg.dx * cfg.dy), total2_grid c.bc.n (cfg.dx * cfg.dy)] at this
  exact this

/-! ### Three dimensions -/

theorem total3_grid (n : Fin 3 → Nat) (dV : K) (capa : Option ((Fin naux → K) → K)) (A : Int → Int → Int → Fin naux → K)
    (R : Int → Int → Int → Fin m → K) (k : Fin m) :
    total3 (n 0) (n 1) (n 2) (fun i j l => dV * capacity capa (A i j l)) R k =
      ∑ x ∈ Fintype.piFinset fun a => Finset.range (n a),
        dV * capacity capa (A ((x 0 : Int) + 1) ((x 1 : Int) + 1) ((x 2 : Int) + 1)) *
          R ((x 0 : Int) + 1) ((x 1 : Int) + 1) ((x 2 : Int) + 1) k := by
  rw [sum_grid3]
  unfold total3
  rw [Finset.sum_apply]
  refine Finset.sum_congr rfl fun i _ => ?_
  rw [Finset.sum_apply]
  refine Finset.sum_congr rfl fun j _ => ?_
  rw [Finset.sum_apply]
  refine Finset.sum_congr rfl fun l _ => ?_
  rw [add_comm (1 : Int) i, add_comm (1 : Int) j, add_comm (1 : Int) l]
  rfl

theorem vec3 (x : Fin 3 → Nat) : (fun a => (x a : Int) + 1) = ![(x 0 : Int) + 1, (x 1 : Int) + 1, (x 2 : Int) + 1] := by
  funext a; fin_cases a <;> rfl

theorem line3 (n : Fin 3 → Nat) (g : Nat) {α : Type*} (A : (Fin 3 → Int) → α) (B : (Fin 3 → Nat) → α)
    (h : ∀ v : Fin 3 → Int, (∀ a, 1 - (g : Int) ≤ v a ∧ v a ≤ n a + g) → A v = B (wrapCell n v)) :
    (∀ j k : Int, 1 - (g : Int) ≤ j → j ≤ n 1 + g → 1 - (g : Int) ≤ k → k ≤ n 2 + g →
      PeriodicGhost 1 g (n 0) fun i => A ![i, j, k]) ∧
    (∀ i k : Int, 1 - (g : Int) ≤ i → i ≤ n 0 + g → 1 - (g : Int) ≤ k → k ≤ n 2 + g →
      PeriodicGhost 1 g (n 1) fun j => A ![i, j, k]) ∧
    ∀ i j : Int, 1 - (g : Int) ≤ i → i ≤ n 0 + g → 1 - (g : Int) ≤ j → j ≤ n 1 + g →
      PeriodicGhost 1 g (n 2) fun k => A ![i, j, k] := by
  refine ⟨?_, ?_, ?_⟩
  · intro j k a b a' b'
    have := periodic_line n g A B h 0 ![0, j, k] (by
      intro c hc; fin_cases c
      · exact absurd rfl hc
      · exact ⟨a, b⟩
      · exact ⟨a', b'⟩)
    have e : ∀ i : Int, Function.update ![0, j, k] 0 i = ![i, j, k] := by
      intro i; funext c; fin_cases c <;> simp
    simpa only [e] using this
  · intro i k a b a' b'
    have := periodic_line n g A B h 1 ![i, 0, k] (by
      intro c hc; fin_cases c
      · exact ⟨a, b⟩
      · exact absurd rfl hc
      · exact ⟨a', b'⟩)
    have e : ∀ j : Int, Function.update ![i, 0, k] 1 j = ![i, j, k] := by
      intro i; funext c; fin_cases c <;> simp
    simpa only [e] using this
  · intro i j a b a' b'
    have := periodic_line n g A B h 2 ![i, j, 0] (by
      intro c hc; fin_cases c
      · exact ⟨a, b⟩
      · exact ⟨a', b'⟩
      · exact absurd rfl hc)
    have e : ∀ k : Int, Function.update ![i, j, 0] 2 k = ![i, j, k] := by
      intro i; funext c; fin_cases c <;> simp
    simpa only [e] using this

/-- C81, the three-dimensional unsplit kernel, whatever the transverse solvers and the old content of its work array. -/
theorem C81_unsplit3 (undef : K) (rpx rpy rpz : Riemann K (Fin naux → K) m w) (rtx rty rtz : Transverse3 K (Fin naux → K) m)
    (rttx rtty rttz : Transverse33 K (Fin naux → K) m)
    (flx fly flz : (Fin m → K) → (Fin naux → K) → Fin m → K) (hfx : FluxDifference rpx flx) (hfy : FluxDifference rpy fly)
    (hfz : FluxDifference rpz flz)
    (cfg : Cfg3 K w) (hdx : cfg.dx ≠ 0) (hdy : cfg.dy ≠ 0) (hdz : cfg.dz ≠ 0) (capa : Option ((Fin naux → K) → K))
    (stale : Int → Fin m → K)
    (c : ParCfg (Fin 3) K) (hr : ClassicRun c m naux (intUnsplit3 undef rpx rpy rpz rtx rty rtz rttx rtty rttz cfg capa stale)) (hp : PeriodicGrid c.bc) (hg : cfg.g = c.bc.g)
    (rnd : K → K) (L : K) (ops : List (StepOp K (GArr (Fin 3) K) (GArr (Fin 3) K × BCArrays (Fin 3) K))) (hops : OnlyEvolves ops)
    (s : StepState K (GArr (Fin 3) K) (GArr (Fin 3) K × BCArrays (Fin 3) K))
    (hcap : PositiveCapacity c.bc.n capa s.sol.rest.1) :
    let s' := runSteps (serialEnv c rnd L) ops s
    s'.sol.rest.1 = s.sol.rest.1 ∧ ∀ k, k < m →
      gridTotal c.bc.n (cfg.dx * cfg.dy * cfg.dz) capa s'.sol.rest.1 s'.sol.q k =
        gridTotal c.bc.n (cfg.dx * cfg.dy * cfg.dz) capa s.sol.rest.1 s.sol.q k := by
  refine run_conserves c m naux _ hr hp (cfg.dx * cfg.dy * cfg.dz) capa s.sol.rest.1 ?_ rnd L ops hops s rfl
  intro dt A Q q r cfl hf hs k
  have h2 := C72_conserves undef rpx rpy rpz rtx rty rtz rttx rtty rttz flx fly flz hfx hfy hfz { cfg with mx := c.bc.n 0, my := c.bc.n 1, mz := c.bc.n 2, dt := dt }
    (by simp only [hg]; exact hr.ghost) hdx hdy hdz capa stale (fun i j k => A ![i, j, k]) (fun i j k => Q ![i, j, k])
    (by
      intro κ hκ i j k a b e f g h
      simp only at a b e f g h ⊢
      rw [(hf _ fun c' => by fin_cases c' <;> simp <;> omega).2]
      exact (capacity_pos _ (fun a => (hp.cells a).1) capa _ hcap κ hκ _).ne')
    (by simp only [hg]; exact fun j k => (line3 _ _ Q (fun x k => q k.val x) fun v hv => (hf v hv).1).1 j k)
    (by simp only [hg]; exact fun j k => (line3 _ _ Q (fun x k => q k.val x) fun v hv => (hf v hv).1).2.1 j k)
    (by simp only [hg]; exact fun j k => (line3 _ _ Q (fun x k => q k.val x) fun v hv => (hf v hv).1).2.2 j k)
    (by simp only [hg]; exact fun j k => (line3 _ _ A _ fun v hv => (hf v hv).2).1 j k)
    (by simp only [hg]; exact fun j k => (line3 _ _ A _ fun v hv => (hf v hv).2).2.1 j k)
    (by simp only [hg]; exact fun j k => (line3 _ _ A _ fun v hv => (hf v hv).2).2.2 j k)
  unfold intUnsplit3 at hs
  simp only [Option.some.injEq, Prod.mk.injEq] at hs
  rw [← hs.1]
  simp only [vec3]
  have := congrFun h2 k
  rw [total3_grid c.bc.n (cfg.dx * cfg.dy * cfg.dz), total3_grid c.bc.n (cfg.dx * cfg.dy * cfg.dz)] at this
  exact this

/-- C81, the three-dimensional split kernel. Full statement: as above, for every order and limiter. Missing: second order with
a limiter, where a single step need not conserve (`C71_split3_conserves_violated`). -/
theorem C81_split3_partial (undef : K) (rpx rpy rpz : Riemann K (Fin naux → K) m w)
    (flx fly flz : (Fin m → K) → (Fin naux → K) → Fin m → K) (hfx : FluxDifference rpx flx) (hfy : FluxDifference rpy fly)
    (hfz : FluxDifference rpz flz)
    (cfg : Cfg3 K w) (hn : Narrow cfg.order cfg.limiter) (hdx : cfg.dx ≠ 0) (hdy : cfg.dy ≠ 0) (hdz : cfg.dz ≠ 0)
    (capa : Option ((Fin naux → K) → K))
    (c : ParCfg (Fin 3) K) (hr : ClassicRun c m naux (intSplit3 undef rpx rpy rpz cfg capa)) (hp : PeriodicGrid c.bc) (hg : cfg.g = c.bc.g)
    (rnd : K → K) (L : K) (ops : List (StepOp K (GArr (Fin 3) K) (GArr (Fin 3) K × BCArrays (Fin 3) K))) (hops : OnlyEvolves ops)
    (s : StepState K (GArr (Fin 3) K) (GArr (Fin 3) K × BCArrays (Fin 3) K))
    (hcap : PositiveCapacity c.bc.n capa s.sol.rest.1) :
    let s' := runSteps (serialEnv c rnd L) ops s
    s'.sol.rest.1 = s.sol.rest.1 ∧ ∀ k, k < m →
      gridTotal c.bc.n (cfg.dx * cfg.dy * cfg.dz) capa s'.sol.rest.1 s'.sol.q k =
        gridTotal c.bc.n (cfg.dx * cfg.dy * cfg.dz) capa s.sol.rest.1 s.sol.q k := by
  refine run_conserves c m naux _ hr hp (cfg.dx * cfg.dy * cfg.dz) capa s.sol.rest.1 ?_ rnd L ops hops s rfl
  intro dt A Q q r cfl hf hs k
  have h2 := C71_split3_conserves_partial undef rpx rpy rpz flx fly flz hfx hfy hfz { cfg with mx := c.bc.n 0, my := c.bc.n 1, mz := c.bc.n 2, dt := dt }
    hn (by have := hr.ghost; simp only [hg]; omega) hdx hdy hdz capa  (fun i j k => A ![i, j, k]) (fun i j k => Q ![i, j, k])
    (by
      intro κ hκ i j k a b e f g h
      simp only at a b e f g h ⊢
      rw [(hf _ fun c' => by fin_cases c' <;> simp <;> omega).2]
      exact (capacity_pos _ (fun a => (hp.cells a).1) capa _ hcap κ hκ _).ne')
    (by simp only [hg]; exact fun j k => (line3 _ _ Q (fun x k => q k.val x) fun v hv => (hf v hv).1).1 j k)
    (by simp only [hg]; exact fun j k => (line3 _ _ Q (fun x k => q k.val x) fun v hv => (hf v hv).1).2.1 j k)
    (by simp only [hg]; exact fun j k => (line3 _ _ Q (fun x k => q k.val x) fun v hv => (hf v hv).1).2.2 j k)
    (by simp only [hg]; exact fun j k => (line3 _ _ A _ fun v hv => (hf v hv).2).1 j k)
    (by simp only [hg]; exact fun j k => (line3 _ _ A _ fun v hv => (hf v hv).2).2.1 j k)
    (by simp only [hg]; exact fun j k => (line3 _ _ A _ fun v hv => (hf v hv).2).2.2 j k)
  unfold intSplit3 at hs
  simp only [Option.some.injEq, Prod.mk.injEq] at hs
  rw [← hs.1]
  simp only [vec3]
  have := congrFun h2 k
  rw [total3_grid c.bc.n (cfg.dx * cfg.dy * cfg.dz), total3_grid c.bc.n (cfg.dx * cfg.dy * cfg.dz)] at this
  exact this

end PyClaw
