import Verif.Props.Runs
import Verif.Props.Classic1
import Verif.Props.Classic2
import Verif.Props.Unsplit2
import Verif.Props.Unsplit3
import Verif.Props.Split3
import Verif.Props.Advection
import Verif.Props.CornerTransport
import Verif.Props.BC
import Mathlib.Data.Rat.Floor

/-!
C82: whole runs keep uniform states. C83: whole runs of advection problems keep the bounds of the initial data.
-/
set_option linter.unusedSectionVars false

namespace PyClaw
open Spec

variable {K : Type*} [Field K] [LinearOrder K] [IsStrictOrderedRing K] [FloorRing K] {m w naux : Nat}

/-- A uniform run from a kernel that keeps uniform states. -/
theorem run_uniform {d : Nat} (c : ParCfg (Fin d) K) (m naux : Nat) (step : IntKern (Fin d) K m naux) (hr : ClassicRun c m naux step)
    (h : Admissible c.bc) (hs : Serial c.bc) (u : Fin m → K) (hu : ∀ a, HasWall c.bc a → ∀ k : Fin m, k.val = c.bc.reflect a → u k = 0)
    (rnd : K → K) (L : K) (a0 : GArr (Fin d) K)
    (hstep : ∀ dt A Q r cfl, (∀ v : Fin d → Int, (∀ a, 1 - (c.bc.g : Int) ≤ v a ∧ v a ≤ c.bc.n a + c.bc.g) → Q v = u ∧
        ∃ y : Fin d → Nat, (∀ a, y a < c.bc.n a) ∧ A v = auxAt naux a0 y) →
      step dt c.bc.n A Q = some (r, cfl) → ∀ v : Fin d → Int, (∀ a, 1 ≤ v a ∧ v a ≤ c.bc.n a) → r v = u)
    (ops : List (StepOp K (GArr (Fin d) K) (GArr (Fin d) K × BCArrays (Fin d) K))) (hops : OnlyEvolves ops)
    (s : StepState K (GArr (Fin d) K) (GArr (Fin d) K × BCArrays (Fin d) K)) (ha : s.sol.rest.1 = a0)
    (hq : ∀ x : Fin d → Nat, (∀ a, x a < c.bc.n a) → ∀ k : Fin m, s.sol.q k.val x = u k)
    (x : Fin d → Nat) (hx : ∀ a, x a < c.bc.n a) (k : Fin m) : (runSteps (serialEnv c rnd L) ops s).sol.q k.val x = u k := by
  have := run_values c m naux step hr h hs (fun z => z = u) (fun a hw z hz => by
      subst hz
      funext k
      split_ifs with hk
      · rw [hu a hw k hk, neg_zero]
      · rfl) rnd L a0 (fun _ => True) (fun _ _ => True)
    (fun dt A Q r cfl hf hs _ => hstep dt A Q r cfl hf hs) (fun _ _ _ => trivial) (fun _ _ _ _ _ _ _ _ => trivial)
    (fun _ _ _ _ _ _ _ _ _ => trivial) ops hops (fun _ _ _ _ => trivial) s ha trivial (fun x hx => funext fun k => hq x hx k)
  exact congrFun (this.2 x hx) k

/-! ### C82 -/

/-- C82, the one-dimensional Fortran kernel: a uniform state stays uniform over any session of `evolve_to_time` calls and changes of settings,
with any combination of periodic, outflow and wall boundaries, whatever the aux values; at a wall the reflected component must be 0. -/
theorem C82_fortran1 (undef : K) (rp : Riemann K (Fin naux → K) m w) (hrp : Quiet rp) (cfg : Cfg1 K w)
    (capa : Option ((Fin naux → K) → K)) (c : ParCfg (Fin 1) K) (hr : ClassicRun c m naux (intStep1 undef rp cfg capa))
    (hg : cfg.g = c.bc.g) (h : Admissible c.bc) (hs : Serial c.bc) (u : Fin m → K)
    (hu : ∀ a, HasWall c.bc a → ∀ k : Fin m, k.val = c.bc.reflect a → u k = 0) (rnd : K → K) (L : K)
    (ops : List (StepOp K (GArr (Fin 1) K) (GArr (Fin 1) K × BCArrays (Fin 1) K))) (hops : OnlyEvolves ops)
    (s : StepState K (GArr (Fin 1) K) (GArr (Fin 1) K × BCArrays (Fin 1) K))
    (hcap : PositiveCapacity c.bc.n capa s.sol.rest.1)
    (hq : ∀ x : Fin 1 → Nat, (∀ a, x a < c.bc.n a) → ∀ k : Fin m, s.sol.q k.val x = u k)
    (x : Fin 1 → Nat) (hx : ∀ a, x a < c.bc.n a) (k : Fin m) : (runSteps (serialEnv c rnd L) ops s).sol.q k.val x = u k := by
  refine run_uniform c m naux _ hr h hs u hu rnd L s.sol.rest.1 ?_ ops hops s rfl hq x hx k
  intro dt A Q r cfl hf hst v hv
  obtain ⟨q', cfl', h1, h2⟩ := C35_fortran_uniform undef rp hrp { cfg with n := c.bc.n 0, dt := dt } capa
    (fun i => A fun _ => i) (fun i => Q fun _ => i) (by
      intro κ hκ i a b
      simp only [hg] at a b
      obtain ⟨y, hy, e⟩ := (hf (fun _ => i) fun c' => by rw [Subsingleton.elim c' 0]; exact ⟨a, b⟩).2
      rw [e]
      exact hcap κ hκ y hy)
  unfold intStep1 at hst
  rw [h1] at hst
  simp only [Option.map_some, Option.some.injEq, Prod.mk.injEq] at hst
  rw [← hst.1]
  have h0 := hv 0
  have hgh := hr.ghost
  exact h2 u (v 0) h0.1 (by simp only; omega) fun j j1 j2 => (hf (fun _ => j) fun c' => by
    rw [Subsingleton.elim c' 0]; omega).1

/-- C82, the one-dimensional Python kernel. -/
theorem C82_python1 (tab : Int → Option (LimFun K)) (rp : Riemann K (Fin naux → K) m w) (hrp : Quiet rp) (cfg : Cfg1 K w)
    (capa : Option ((Fin naux → K) → K)) (c : ParCfg (Fin 1) K) (hr : ClassicRun c m naux (intPyStep1 tab rp cfg capa))
    (hg : cfg.g = c.bc.g) (h : Admissible c.bc) (hs : Serial c.bc) (u : Fin m → K)
    (hu : ∀ a, HasWall c.bc a → ∀ k : Fin m, k.val = c.bc.reflect a → u k = 0) (rnd : K → K) (L : K)
    (ops : List (StepOp K (GArr (Fin 1) K) (GArr (Fin 1) K × BCArrays (Fin 1) K))) (hops : OnlyEvolves ops)
    (s : StepState K (GArr (Fin 1) K) (GArr (Fin 1) K × BCArrays (Fin 1) K))
    (hq : ∀ x : Fin 1 → Nat, (∀ a, x a < c.bc.n a) → ∀ k : Fin m, s.sol.q k.val x = u k)
    (x : Fin 1 → Nat) (hx : ∀ a, x a < c.bc.n a) (k : Fin m) : (runSteps (serialEnv c rnd L) ops s).sol.q k.val x = u k := by
  refine run_uniform c m naux _ hr h hs u hu rnd L s.sol.rest.1 ?_ ops hops s rfl hq x hx k
  intro dt A Q r cfl hf hst v hv
  unfold intPyStep1 at hst
  simp only [Option.some.injEq, Prod.mk.injEq] at hst
  rw [← hst.1]
  have h0 := hv 0
  have hgh := hr.ghost
  refine C35_python_uniform tab rp hrp { cfg with n := c.bc.n 0, dt := dt } capa _ _ (by simp only [hg]; exact hgh) u _
    (by simp only; omega) (by simp only; omega) fun j j1 j2 => (hf _ fun c' => by
      rw [Subsingleton.elim c' 0]; simp only [hg] at j1 j2 ⊢; omega).1

/-- C82, the two-dimensional unsplit kernel. -/
theorem C82_unsplit2 (undef : K) (rpx rpy : Riemann K (Fin naux → K) m w) (hrx : Quiet rpx) (hry : Quiet rpy)
    (rtx rty : Transverse K (Fin naux → K) m) (htx : QuietTransverse rtx) (hty : QuietTransverse rty) (cfg : Cfg2 K w)
    (capa : Option ((Fin naux → K) → K)) (c : ParCfg (Fin 2) K) (hr : ClassicRun c m naux (intUnsplit2 undef rpx rpy rtx rty cfg capa))
    (hg : cfg.g = c.bc.g) (h : Admissible c.bc) (hs : Serial c.bc) (u : Fin m → K)
    (hu : ∀ a, HasWall c.bc a → ∀ k : Fin m, k.val = c.bc.reflect a → u k = 0) (rnd : K → K) (L : K)
    (ops : List (StepOp K (GArr (Fin 2) K) (GArr (Fin 2) K × BCArrays (Fin 2) K))) (hops : OnlyEvolves ops)
    (s : StepState K (GArr (Fin 2) K) (GArr (Fin 2) K × BCArrays (Fin 2) K))
    (hq : ∀ x : Fin 2 → Nat, (∀ a, x a < c.bc.n a) → ∀ k : Fin m, s.sol.q k.val x = u k)
    (x : Fin 2 → Nat) (hx : ∀ a, x a < c.bc.n a) (k : Fin m) : (runSteps (serialEnv c rnd L) ops s).sol.q k.val x = u k := by
  refine run_uniform c m naux _ hr h hs u hu rnd L s.sol.rest.1 ?_ ops hops s rfl hq x hx k
  intro dt A Q r cfl hf hst v hv
  unfold intUnsplit2 at hst
  simp only [Option.some.injEq, Prod.mk.injEq] at hst
  rw [← hst.1]
  have h0 := hv 0
  have h1 := hv 1
  exact C35_unsplit2_uniform undef rpx rpy hrx hry rtx rty htx hty { cfg with mx := c.bc.n 0, my := c.bc.n 1, dt := dt } (by simp only [hg]; exact hr.ghost)
    capa _ _ u (fun i j a b e f => (hf ![i, j] fun c' => by
      simp only [hg] at a b e f
      fin_cases c'
      · exact ⟨a, b⟩
      · exact ⟨e, f⟩).1) (v 0) (v 1) h0.1 h0.2 h1.1 h1.2

/-- C82, the two-dimensional split kernel. -/
theorem C82_split2 (undef : K) (rpx rpy : Riemann K (Fin naux → K) m w) (hrx : Quiet rpx) (hry : Quiet rpy) (cfg : Cfg2 K w)
    (capa : Option ((Fin naux → K) → K)) (c : ParCfg (Fin 2) K) (hr : ClassicRun c m naux (intSplit2 undef rpx rpy cfg capa))
    (hg : cfg.g = c.bc.g) (h : Admissible c.bc) (hs : Serial c.bc) (u : Fin m → K)
    (hu : ∀ a, HasWall c.bc a → ∀ k : Fin m, k.val = c.bc.reflect a → u k = 0) (rnd : K → K) (L : K)
    (ops : List (StepOp K (GArr (Fin 2) K) (GArr (Fin 2) K × BCArrays (Fin 2) K))) (hops : OnlyEvolves ops)
    (s : StepState K (GArr (Fin 2) K) (GArr (Fin 2) K × BCArrays (Fin 2) K))
    (hq : ∀ x : Fin 2 → Nat, (∀ a, x a < c.bc.n a) → ∀ k : Fin m, s.sol.q k.val x = u k)
    (x : Fin 2 → Nat) (hx : ∀ a, x a < c.bc.n a) (k : Fin m) : (runSteps (serialEnv c rnd L) ops s).sol.q k.val x = u k := by
  refine run_uniform c m naux _ hr h hs u hu rnd L s.sol.rest.1 ?_ ops hops s rfl hq x hx k
  intro dt A Q r cfl hf hst v hv
  unfold intSplit2 at hst
  simp only [Option.some.injEq, Prod.mk.injEq] at hst
  rw [← hst.1]
  have h0 := hv 0
  have h1 := hv 1
  exact C35_split2_uniform undef rpx rpy hrx hry { cfg with mx := c.bc.n 0, my := c.bc.n 1, dt := dt } (by simp only [hg]; exact hr.ghost)
    capa _ _ u (fun i j a b e f => (hf ![i, j] fun c' => by
      simp only [hg] at a b e f
      fin_cases c'
      · exact ⟨a, b⟩
      · exact ⟨e, f⟩).1) (v 0) (v 1) h0.1 h0.2 h1.1 h1.2

/-- C82, the three-dimensional unsplit kernel. Missing: first order with double transverse correction, which reads work memory it
never wrote (`C35_unsplit3_uniform_violated`). -/
theorem C82_unsplit3_partial (undef : K) (rpx rpy rpz : Riemann K (Fin naux → K) m w) (hrx : Quiet rpx) (hry : Quiet rpy) (hrz : Quiet rpz)
    (rtx rty rtz : Transverse3 K (Fin naux → K) m) (rttx rtty rttz : Transverse33 K (Fin naux → K) m)
    (htx : QuietTransverse3 rtx rttx) (hty : QuietTransverse3 rty rtty) (htz : QuietTransverse3 rtz rttz) (cfg : Cfg3 K w)
    (stale : Int → Fin m → K) (hst0 : StaleUnused cfg stale)
    (capa : Option ((Fin naux → K) → K)) (c : ParCfg (Fin 3) K) (hr : ClassicRun c m naux (intUnsplit3 undef rpx rpy rpz rtx rty rtz rttx rtty rttz cfg capa stale))
    (hg : cfg.g = c.bc.g) (h : Admissible c.bc) (hs : Serial c.bc) (u : Fin m → K)
    (hu : ∀ a, HasWall c.bc a → ∀ k : Fin m, k.val = c.bc.reflect a → u k = 0) (rnd : K → K) (L : K)
    (ops : List (StepOp K (GArr (Fin 3) K) (GArr (Fin 3) K × BCArrays (Fin 3) K))) (hops : OnlyEvolves ops)
    (s : StepState K (GArr (Fin 3) K) (GArr (Fin 3) K × BCArrays (Fin 3) K))
    (hq : ∀ x : Fin 3 → Nat, (∀ a, x a < c.bc.n a) → ∀ k : Fin m, s.sol.q k.val x = u k)
    (x : Fin 3 → Nat) (hx : ∀ a, x a < c.bc.n a) (k : Fin m) : (runSteps (serialEnv c rnd L) ops s).sol.q k.val x = u k := by
  refine run_uniform c m naux _ hr h hs u hu rnd L s.sol.rest.1 ?_ ops hops s rfl hq x hx k
  intro dt A Q r cfl hf hst v hv
  unfold intUnsplit3 at hst
  simp only [Option.some.injEq, Prod.mk.injEq] at hst
  rw [← hst.1]
  have h0 := hv 0
  have h1 := hv 1
  have h2 := hv 2
  have hgh := hr.ghost
  exact C35_unsplit3_uniform_partial undef rpx rpy rpz hrx hry hrz rtx rty rtz rttx rtty rttz htx hty htz
    { cfg with mx := c.bc.n 0, my := c.bc.n 1, mz := c.bc.n 2, dt := dt } (by simp only [hg]; omega) capa stale hst0
    _ _ u (fun i j k a b e f g h => (hf ![i, j, k] fun c' => by
      simp only at a b e f g h
      fin_cases c' <;> simp <;> omega).1) (v 0) (v 1) (v 2) h0.1 h0.2 h1.1 h1.2 h2.1 h2.2

/-- C82, the three-dimensional split kernel. -/
theorem C82_split3 (undef : K) (rpx rpy rpz : Riemann K (Fin naux → K) m w) (hrx : Quiet rpx) (hry : Quiet rpy) (hrz : Quiet rpz) (cfg : Cfg3 K w)
    (capa : Option ((Fin naux → K) → K)) (c : ParCfg (Fin 3) K) (hr : ClassicRun c m naux (intSplit3 undef rpx rpy rpz cfg capa))
    (hg : cfg.g = c.bc.g) (h : Admissible c.bc) (hs : Serial c.bc) (u : Fin m → K)
    (hu : ∀ a, HasWall c.bc a → ∀ k : Fin m, k.val = c.bc.reflect a → u k = 0) (rnd : K → K) (L : K)
    (ops : List (StepOp K (GArr (Fin 3) K) (GArr (Fin 3) K × BCArrays (Fin 3) K))) (hops : OnlyEvolves ops)
    (s : StepState K (GArr (Fin 3) K) (GArr (Fin 3) K × BCArrays (Fin 3) K))
    (hq : ∀ x : Fin 3 → Nat, (∀ a, x a < c.bc.n a) → ∀ k : Fin m, s.sol.q k.val x = u k)
    (x : Fin 3 → Nat) (hx : ∀ a, x a < c.bc.n a) (k : Fin m) : (runSteps (serialEnv c rnd L) ops s).sol.q k.val x = u k := by
  refine run_uniform c m naux _ hr h hs u hu rnd L s.sol.rest.1 ?_ ops hops s rfl hq x hx k
  intro dt A Q r cfl hf hst v hv
  unfold intSplit3 at hst
  simp only [Option.some.injEq, Prod.mk.injEq] at hst
  rw [← hst.1]
  have h0 := hv 0
  have h1 := hv 1
  have h2 := hv 2
  have hgh := hr.ghost
  exact C35_split3_uniform undef rpx rpy rpz hrx hry hrz
    { cfg with mx := c.bc.n 0, my := c.bc.n 1, mz := c.bc.n 2, dt := dt } (by simp only [hg]; omega) capa
    _ _ u (fun i j k a b e f g h => (hf ![i, j, k] fun c' => by
      simp only [hg] at a b e f g h
      fin_cases c' <;> simp <;> omega).1) (v 0) (v 1) (v 2) h0.1 h0.2 h1.1 h1.2 h2.1 h2.2

/-! ### C83 -/

/-- Bounds of a run from a kernel that keeps them. -/
theorem run_bounds {d : Nat} (c : ParCfg (Fin d) K) (naux : Nat) (step : IntKern (Fin d) K 1 naux) (hr : ClassicRun c 1 naux step)
    (h : Admissible c.bc) (hs : Serial c.bc) (hw : ∀ a, ¬ HasWall c.bc a) (rnd : K → K) (hrnd : ∀ x, 0 ≤ x → 0 ≤ rnd x) (L : K) (lo hi : K)
    (hstep : ∀ dt A Q r cfl, 0 ≤ dt →
      (∀ v : Fin d → Int, (∀ a, 1 - (c.bc.g : Int) ≤ v a ∧ v a ≤ c.bc.n a + c.bc.g) → lo ≤ Q v 0 ∧ Q v 0 ≤ hi) →
      step dt c.bc.n A Q = some (r, cfl) → cfl ≤ 1 → ∀ v : Fin d → Int, (∀ a, 1 ≤ v a ∧ v a ≤ c.bc.n a) → lo ≤ r v 0 ∧ r v 0 ≤ hi)
    (ops : List (StepOp K (GArr (Fin d) K) (GArr (Fin d) K × BCArrays (Fin d) K))) (hops : OnlyEvolves ops)
    (hadj : ∀ f, .adjust f ∈ ops → ∀ set, StableSettings set → StableSettings (f set))
    (s : StepState K (GArr (Fin d) K) (GArr (Fin d) K × BCArrays (Fin d) K)) (hS : StableSettings s.set)
    (hq : WithinBounds c.bc.n lo hi s.sol.q) : WithinBounds c.bc.n lo hi (runSteps (serialEnv c rnd L) ops s).sol.q :=
  (run_values c 1 naux step hr h hs (fun z => lo ≤ z 0 ∧ z 0 ≤ hi) (fun a ha => absurd ha (hw a)) rnd L s.sol.rest.1 StableSettings
    (fun dt cfl => 0 ≤ dt ∧ cfl ≤ 1)
    (fun dt A Q r cfl hf hst hO => hstep dt A Q r cfl hO.1 (fun v hv => (hf v hv).1) hst ((le_max_right _ _).trans hO.2))
    (fun set m hS => ⟨hS.variable_dt, hS.dt, hS.dtMax, hS.cflDesired, hS.cflMax⟩)
    (fun t ts te set st cfl hS hT => stable_getDt rnd hrnd t ts te set st cfl hS hT)
    (fun t ts te set st cfl hS hT hc => ⟨getDt_nonneg rnd hrnd t ts te set st hS.dt hS.dtMax hS.cflDesired hT, by
      rcases hc with hc | hc
      · exact hc.trans hS.cflMax
      · rw [hS.variable_dt] at hc; cases hc⟩) ops hops hadj s rfl hS hq).2

omit [FloorRing K] in
theorem between_bounds {x a b lo hi : K} (h : Between x a b) (ha : lo ≤ a ∧ a ≤ hi) (hb : lo ≤ b ∧ b ≤ hi) : lo ≤ x ∧ x ≤ hi :=
  ⟨(le_min ha.1 hb.1).trans h.1, h.2.trans (max_le ha.2 hb.2)⟩

omit [FloorRing K] in
/-- One row of the Fortran kernel keeps bounds. -/
theorem fStep1_bounds (undef u : K) (naux : Nat) (c : Cfg1 K 1) (hg : 1 ≤ c.g) (hdt : 0 ≤ c.dt) (hdx : 0 < c.dx)
    (hfw : c.fwave = false) (hlim : c.order ≠ 1 → c.limiter 0 = 1 ∨ c.limiter 0 = 2 ∨ c.limiter 0 = 3 ∨ c.limiter 0 = 4)
    (aux : Int → Fin naux → K) (q r : Int → Fin 1 → K) (cfl : K)
    (hst : fStep1 undef (ignoreAux naux (advectionRp u)) c none aux q = some (r, cfl)) (hcfl : |u| * c.dt / c.dx ≤ 1) (lo hi : K) (i : Int)
    (h1 : 1 ≤ i) (h2 : i ≤ c.n) (hq : ∀ j, i - 1 ≤ j → j ≤ i + 1 → lo ≤ q j 0 ∧ q j 0 ≤ hi) : lo ≤ r i 0 ∧ r i 0 ≤ hi := by
  have e : fStep1 undef (ignoreAux naux (advectionRp u)) c none aux q = fStep1 undef (advectionRp u) c none (fun _ => ()) q := rfl
  obtain ⟨q', cfl', k1, k2, _⟩ := C39_fortran undef u c hg hdt hdx (by rw [← mul_div_assoc]; exact hcfl) hfw hlim (fun _ => ()) q
  rw [e, k1] at hst
  cases hst
  refine between_bounds (k2 i h1 (by omega)) (hq i (by omega) (by omega)) ?_
  split_ifs
  · exact hq _ (by omega) (by omega)
  · exact hq _ (by omega) (by omega)

omit [FloorRing K] in
theorem fStep1_courant (undef u : K) (naux : Nat) (c : Cfg1 K 1) (hg : 1 ≤ c.g) (hdt : 0 ≤ c.dt) (hdx : 0 < c.dx)
    (aux : Int → Fin naux → K) (q r : Int → Fin 1 → K) (cfl : K)
    (hst : fStep1 undef (ignoreAux naux (advectionRp u)) c none aux q = some (r, cfl)) : |u| * c.dt / c.dx ≤ cfl := by
  obtain ⟨q', cfl', k1, k2⟩ := C37_fortran_cfl undef (ignoreAux naux (advectionRp u)) c hdt hdx hg none aux q (by simp)
  rw [k1] at hst
  cases hst
  have := k2.2.1 1 0 le_rfl (by omega)
  rw [C37_plain] at this
  exact this

/-- C83, the one-dimensional Fortran kernel: in a run of an advection problem with variable time steps and a Courant limit of at most
1, first order or with one of the limiters minmod, superbee, van Leer, MC, no value ever leaves the bounds of the initial data: over
any session of `evolve_to_time` calls and changes of settings that keep the settings stable, with periodic or outflow boundaries and
with any rounding of step sizes that keeps the sign. -/
theorem C83_fortran1 (undef u : K) (cfg : Cfg1 K 1) (hdx : 0 < cfg.dx) (hfw : cfg.fwave = false)
    (hlim : cfg.order ≠ 1 → cfg.limiter 0 = 1 ∨ cfg.limiter 0 = 2 ∨ cfg.limiter 0 = 3 ∨ cfg.limiter 0 = 4)
    (c : ParCfg (Fin 1) K) (hr : ClassicRun c 1 naux (intStep1 undef (ignoreAux naux (advectionRp u)) cfg none))
    (hg : cfg.g = c.bc.g) (h : Admissible c.bc) (hs : Serial c.bc) (hw : ∀ a, ¬ HasWall c.bc a)
    (rnd : K → K) (hrnd : ∀ x, 0 ≤ x → 0 ≤ rnd x) (L lo hi : K)
    (ops : List (StepOp K (GArr (Fin 1) K) (GArr (Fin 1) K × BCArrays (Fin 1) K))) (hops : OnlyEvolves ops)
    (hadj : ∀ f, .adjust f ∈ ops → ∀ set, StableSettings set → StableSettings (f set))
    (s : StepState K (GArr (Fin 1) K) (GArr (Fin 1) K × BCArrays (Fin 1) K)) (hS : StableSettings s.set)
    (hq : WithinBounds c.bc.n lo hi s.sol.q) : WithinBounds c.bc.n lo hi (runSteps (serialEnv c rnd L) ops s).sol.q := by
  refine run_bounds c naux _ hr h hs hw rnd hrnd L lo hi ?_ ops hops hadj s hS hq
  intro dt A Q r cfl hdt hf hst hcfl v hv
  have hgh := hr.ghost
  unfold intStep1 at hst
  obtain ⟨⟨r', cfl'⟩, k1, k2⟩ := Option.map_eq_some_iff.mp hst
  simp only [Prod.mk.injEq] at k2
  rw [← k2.1]
  have hc := fStep1_courant undef u naux { cfg with n := c.bc.n 0, dt := dt } (by simp only; omega) hdt hdx _ _ _ _ k1
  have h0 := hv 0
  exact fStep1_bounds undef u naux { cfg with n := c.bc.n 0, dt := dt } (by simp only; omega) hdt hdx hfw hlim _ _ _ _ k1
    (by rw [k2.2] at hc; exact hc.trans hcfl) lo hi (v 0) h0.1 h0.2
    fun j j1 j2 => hf (fun _ => j) fun c' => by rw [Subsingleton.elim c' 0]; omega

/-- C83, the one-dimensional Python kernel; here also with Klein's limiter (number 9). -/
theorem C83_python1 (opq : Int → LimFun K) (u : K) (cfg : Cfg1 K 1) (hdx : 0 < cfg.dx) (hfw : cfg.fwave = false)
    (hlim : cfg.order = 2 → cfg.limiter 0 = 1 ∨ cfg.limiter 0 = 2 ∨ cfg.limiter 0 = 3 ∨ cfg.limiter 0 = 4 ∨ cfg.limiter 0 = 9)
    (c : ParCfg (Fin 1) K) (hr : ClassicRun c 1 naux (intPyStep1 (pyLimiterFun opq) (ignoreAux naux (advectionRp u)) cfg none))
    (hg : cfg.g = c.bc.g) (h : Admissible c.bc) (hs : Serial c.bc) (hw : ∀ a, ¬ HasWall c.bc a)
    (rnd : K → K) (hrnd : ∀ x, 0 ≤ x → 0 ≤ rnd x) (L lo hi : K)
    (ops : List (StepOp K (GArr (Fin 1) K) (GArr (Fin 1) K × BCArrays (Fin 1) K))) (hops : OnlyEvolves ops)
    (hadj : ∀ f, .adjust f ∈ ops → ∀ set, StableSettings set → StableSettings (f set))
    (s : StepState K (GArr (Fin 1) K) (GArr (Fin 1) K × BCArrays (Fin 1) K)) (hS : StableSettings s.set)
    (hq : WithinBounds c.bc.n lo hi s.sol.q) : WithinBounds c.bc.n lo hi (runSteps (serialEnv c rnd L) ops s).sol.q := by
  refine run_bounds c naux _ hr h hs hw rnd hrnd L lo hi ?_ ops hops hadj s hS hq
  intro dt A Q r cfl hdt hf hst hcfl v hv
  have hgh := hr.ghost
  unfold intPyStep1 at hst
  simp only [Option.some.injEq, Prod.mk.injEq] at hst
  rw [← hst.1]
  have e : ∀ q : Int → Fin 1 → K, pyStep1 (pyLimiterFun opq) (ignoreAux naux (advectionRp u)) { cfg with n := c.bc.n 0, dt := dt } none
      (fun x => A fun _ => x + (1 - cfg.g)) q =
      pyStep1 (pyLimiterFun opq) (advectionRp u) { cfg with n := c.bc.n 0, dt := dt } none (fun _ => ()) q := fun _ => rfl
  have hcour := C37_python_cfl (pyLimiterFun opq) (advectionRp u) { cfg with n := c.bc.n 0, dt := dt } hdt hdx
    (by simp only; omega) none (fun _ => ()) (fun x => Q fun _ => x + (1 - cfg.g)) (by simp)
  have hc := hcour.2.1 cfg.g 0 (by simp only; omega) (by simp only; omega)
  rw [C37_plain, ← e, hst.2] at hc
  have hc1 : |u| * (dt / cfg.dx) ≤ 1 := by rw [← mul_div_assoc]; exact hc.trans hcfl
  have hnn : 0 ≤ |u| * (dt / cfg.dx) := mul_nonneg (abs_nonneg _) (div_nonneg hdt hdx.le)
  have := (C39_python (pyLimiterFun opq) u { cfg with n := c.bc.n 0, dt := dt } (by simp only; omega) hdt hdx hc1 hfw
    (fun ho => C39_python_limiters opq _ hnn hc1 (cfg.limiter 0) (by rcases hlim ho with hh | hh | hh | hh | hh <;> simp [hh]))
    (fun _ => ()) (fun x => Q fun _ => x + (1 - cfg.g))).1 (v 0 + cfg.g - 1) (by have := hv 0; simp only; omega)
      (by have := hv 0; simp only; omega)
  rw [← e] at this
  have h0 := hv 0
  refine between_bounds this (hf (fun _ => _) fun c' => by rw [Subsingleton.elim c' 0]; omega) ?_
  split_ifs
  · exact hf (fun _ => _) fun c' => by rw [Subsingleton.elim c' 0]; omega
  · exact hf (fun _ => _) fun c' => by rw [Subsingleton.elim c' 0]; omega

/-- C83, the two-dimensional unsplit kernel: first order with transverse propagation (corner transport upwind). -/
theorem C83_unsplit2 (undef u v : K) (cfg : Cfg2 K 1) (hdx : 0 < cfg.dx) (hdy : 0 < cfg.dy) (ho : cfg.order = 1) (ht : 0 < cfg.trans)
    (c : ParCfg (Fin 2) K) (hr : ClassicRun c 1 naux (intUnsplit2 undef (ignoreAux naux (advectionRp u)) (ignoreAux naux (advectionRp v))
      (ignoreAux2 naux (advectionRt v)) (ignoreAux2 naux (advectionRt u)) cfg none))
    (hg : cfg.g = c.bc.g) (h : Admissible c.bc) (hs : Serial c.bc) (hw : ∀ a, ¬ HasWall c.bc a)
    (rnd : K → K) (hrnd : ∀ x, 0 ≤ x → 0 ≤ rnd x) (L lo hi : K)
    (ops : List (StepOp K (GArr (Fin 2) K) (GArr (Fin 2) K × BCArrays (Fin 2) K))) (hops : OnlyEvolves ops)
    (hadj : ∀ f, .adjust f ∈ ops → ∀ set, StableSettings set → StableSettings (f set))
    (s : StepState K (GArr (Fin 2) K) (GArr (Fin 2) K × BCArrays (Fin 2) K)) (hS : StableSettings s.set)
    (hq : WithinBounds c.bc.n lo hi s.sol.q) : WithinBounds c.bc.n lo hi (runSteps (serialEnv c rnd L) ops s).sol.q := by
  refine run_bounds c naux _ hr h hs hw rnd hrnd L lo hi ?_ ops hops hadj s hS hq
  intro dt A Q r cfl hdt hf hst hcfl y hv
  have hgh := hr.ghost
  have h0 := hv 0
  have h1 := hv 1
  unfold intUnsplit2 at hst
  simp only [Option.some.injEq, Prod.mk.injEq] at hst
  rw [← hst.1]
  have e : ∀ q : Int → Int → Fin 1 → K, unsplitStep2 undef (ignoreAux naux (advectionRp u)) (ignoreAux naux (advectionRp v))
      (ignoreAux2 naux (advectionRt v)) (ignoreAux2 naux (advectionRt u)) { cfg with mx := c.bc.n 0, my := c.bc.n 1, dt := dt } none
      (fun i j => A ![i, j]) q = unsplitStep2 undef (advectionRp u) (advectionRp v) (advectionRt v) (advectionRt u)
        { cfg with mx := c.bc.n 0, my := c.bc.n 1, dt := dt } none (fun _ _ => ()) q := fun _ => rfl
  have hc := C37_unsplit2_cfl undef (advectionRp u) (advectionRp v) (advectionRt v) (advectionRt u)
    { cfg with mx := c.bc.n 0, my := c.bc.n 1, dt := dt } hdt hdx hdy none (fun _ _ => ()) (fun i j => Q ![i, j]) (by simp)
  rw [← e, hst.2] at hc
  have hu := (hc.2.1 _ (Or.inl ⟨1, 1, 0, le_rfl, by simp only; omega, by omega, by simp only; omega, rfl⟩)).trans hcfl
  have hv' := (hc.2.1 _ (Or.inr ⟨1, 1, 0, le_rfl, by simp only; omega, by omega, by simp only; omega, rfl⟩)).trans hcfl
  rw [C37_plain] at hu hv'
  rw [e]
  refine C75_no_new_extrema2 undef u v { cfg with mx := c.bc.n 0, my := c.bc.n 1, dt := dt } (by simp only; omega) ho ht
    (div_nonneg hdt hdx.le) (div_nonneg hdt hdy.le) (by rw [mul_comm, ← mul_div_assoc]; exact hu)
    (by rw [mul_comm, ← mul_div_assoc]; exact hv') _ _ _ h0.1 h0.2 h1.1 h1.2 lo hi
    (fun k l k1 k2 l1 l2 => hf ![k, l] fun c' => by fin_cases c' <;> simp <;> omega)

/-- C83, the three-dimensional unsplit kernel: first order with transverse and double transverse propagation. -/
theorem C83_unsplit3 (undef u v w : K) (cfg : Cfg3 K 1) (hdx : 0 < cfg.dx) (hdy : 0 < cfg.dy) (hdz : 0 < cfg.dz) (ho : cfg.order = 1)
    (ht : cfg.trans = 11) (stale : Int → Fin 1 → K)
    (c : ParCfg (Fin 3) K) (hr : ClassicRun c 1 naux (intUnsplit3 undef (ignoreAux naux (advectionRp u)) (ignoreAux naux (advectionRp v))
      (ignoreAux naux (advectionRp w)) (ignoreAux3 naux (advectionRt3 v w)) (ignoreAux3 naux (advectionRt3 w u))
      (ignoreAux3 naux (advectionRt3 u v)) (ignoreAux33 naux (advectionRtt3 v w)) (ignoreAux33 naux (advectionRtt3 w u))
      (ignoreAux33 naux (advectionRtt3 u v)) cfg none stale))
    (hg : cfg.g = c.bc.g) (h : Admissible c.bc) (hs : Serial c.bc) (hw : ∀ a, ¬ HasWall c.bc a)
    (rnd : K → K) (hrnd : ∀ x, 0 ≤ x → 0 ≤ rnd x) (L lo hi : K)
    (ops : List (StepOp K (GArr (Fin 3) K) (GArr (Fin 3) K × BCArrays (Fin 3) K))) (hops : OnlyEvolves ops)
    (hadj : ∀ f, .adjust f ∈ ops → ∀ set, StableSettings set → StableSettings (f set))
    (s : StepState K (GArr (Fin 3) K) (GArr (Fin 3) K × BCArrays (Fin 3) K)) (hS : StableSettings s.set)
    (hq : WithinBounds c.bc.n lo hi s.sol.q) : WithinBounds c.bc.n lo hi (runSteps (serialEnv c rnd L) ops s).sol.q := by
  refine run_bounds c naux _ hr h hs hw rnd hrnd L lo hi ?_ ops hops hadj s hS hq
  intro dt A Q r cfl hdt hf hst hcfl y hv
  have hgh := hr.ghost
  have h0 := hv 0
  have h1 := hv 1
  have h2 := hv 2
  unfold intUnsplit3 at hst
  simp only [Option.some.injEq, Prod.mk.injEq] at hst
  rw [← hst.1]
  have e : ∀ q : Int → Int → Int → Fin 1 → K, unsplitStep3 undef (ignoreAux naux (advectionRp u)) (ignoreAux naux (advectionRp v))
      (ignoreAux naux (advectionRp w)) (ignoreAux3 naux (advectionRt3 v w)) (ignoreAux3 naux (advectionRt3 w u))
      (ignoreAux3 naux (advectionRt3 u v)) (ignoreAux33 naux (advectionRtt3 v w)) (ignoreAux33 naux (advectionRtt3 w u))
      (ignoreAux33 naux (advectionRtt3 u v)) { cfg with mx := c.bc.n 0, my := c.bc.n 1, mz := c.bc.n 2, dt := dt } none stale
      (fun i j k => A ![i, j, k]) q = unsplitStep3 undef (advectionRp u) (advectionRp v) (advectionRp w) (advectionRt3 v w)
        (advectionRt3 w u) (advectionRt3 u v) (advectionRtt3 v w) (advectionRtt3 w u) (advectionRtt3 u v)
        { cfg with mx := c.bc.n 0, my := c.bc.n 1, mz := c.bc.n 2, dt := dt } none stale (fun _ _ _ => ()) q := fun _ => rfl
  have hc := C37_unsplit3_cfl undef (advectionRp u) (advectionRp v) (advectionRp w) (advectionRt3 v w)
    (advectionRt3 w u) (advectionRt3 u v) (advectionRtt3 v w) (advectionRtt3 w u) (advectionRtt3 u v)
    { cfg with mx := c.bc.n 0, my := c.bc.n 1, mz := c.bc.n 2, dt := dt } hdt hdx hdy hdz none stale (fun _ _ _ => ())
    (fun i j k => Q ![i, j, k]) (by simp)
  rw [← e, hst.2] at hc
  have hu := (hc.2.1 _ (Or.inl (Or.inl ⟨1, 1, 1, 0, le_rfl, by simp only; omega, by omega, by simp only; omega, by omega,
    by simp only; omega, rfl⟩))).trans hcfl
  have hv' := (hc.2.1 _ (Or.inl (Or.inr ⟨1, 1, 1, 0, le_rfl, by simp only; omega, by omega, by simp only; omega, by omega,
    by simp only; omega, rfl⟩))).trans hcfl
  have hw' := (hc.2.1 _ (Or.inr ⟨1, 1, 1, 0, le_rfl, by simp only; omega, by omega, by simp only; omega, by omega,
    by simp only; omega, rfl⟩)).trans hcfl
  rw [C37_plain] at hu hv' hw'
  rw [e]
  refine C75_no_new_extrema3 undef u v w { cfg with mx := c.bc.n 0, my := c.bc.n 1, mz := c.bc.n 2, dt := dt } (by simp only; omega) ho ht
    stale (div_nonneg hdt hdx.le) (div_nonneg hdt hdy.le) (div_nonneg hdt hdz.le) (by rw [mul_comm, ← mul_div_assoc]; exact hu)
    (by rw [mul_comm, ← mul_div_assoc]; exact hv') (by rw [mul_comm, ← mul_div_assoc]; exact hw') _ _ _ _ h0.1 h0.2 h1.1 h1.2 h2.1 h2.2
    lo hi (fun k l e k1 k2 l1 l2 e1 e2 => hf ![k, l, e] fun c' => by fin_cases c' <;> simp <;> omega)

/-- C83, the two-dimensional split kernel: first order or with a limiter, as in one dimension. -/
theorem C83_split2 (undef u v : K) (cfg : Cfg2 K 1) (hdx : 0 < cfg.dx) (hdy : 0 < cfg.dy) (hfw : cfg.fwave = false)
    (hlim : cfg.order ≠ 1 → cfg.limiter 0 = 1 ∨ cfg.limiter 0 = 2 ∨ cfg.limiter 0 = 3 ∨ cfg.limiter 0 = 4)
    (c : ParCfg (Fin 2) K) (hr : ClassicRun c 1 naux (intSplit2 undef (ignoreAux naux (advectionRp u)) (ignoreAux naux (advectionRp v)) cfg none))
    (hg : cfg.g = c.bc.g) (h : Admissible c.bc) (hs : Serial c.bc) (hw : ∀ a, ¬ HasWall c.bc a)
    (rnd : K → K) (hrnd : ∀ x, 0 ≤ x → 0 ≤ rnd x) (L lo hi : K)
    (ops : List (StepOp K (GArr (Fin 2) K) (GArr (Fin 2) K × BCArrays (Fin 2) K))) (hops : OnlyEvolves ops)
    (hadj : ∀ f, .adjust f ∈ ops → ∀ set, StableSettings set → StableSettings (f set))
    (s : StepState K (GArr (Fin 2) K) (GArr (Fin 2) K × BCArrays (Fin 2) K)) (hS : StableSettings s.set)
    (hq : WithinBounds c.bc.n lo hi s.sol.q) : WithinBounds c.bc.n lo hi (runSteps (serialEnv c rnd L) ops s).sol.q := by
  refine run_bounds c naux _ hr h hs hw rnd hrnd L lo hi ?_ ops hops hadj s hS hq
  intro dt A Q r cfl hdt hf hst hcfl w hv
  have hgh := hr.ghost
  have h0 := hv 0
  have h1 := hv 1
  unfold intSplit2 at hst
  simp only [Option.some.injEq, Prod.mk.injEq] at hst
  rw [← hst.1]
  have hc := C37_split2_cfl undef (ignoreAux naux (advectionRp u)) (ignoreAux naux (advectionRp v))
    { cfg with mx := c.bc.n 0, my := c.bc.n 1, dt := dt } (by simp only; omega) hdt hdx hdy none (fun i j => A ![i, j])
    (fun i j => Q ![i, j]) (by simp)
  rw [hst.2] at hc
  have hu : |u| * dt / cfg.dx ≤ 1 := by
    have := (hc.2.1 _ (Or.inl ⟨1, 1, 0, le_rfl, by simp only; omega, by simp only; omega, by simp only; omega, rfl⟩)).trans hcfl
    rw [C37_plain] at this
    exact this
  have hv' : |v| * dt / cfg.dy ≤ 1 := by
    have := (hc.2.1 _ (Or.inr ⟨1, 1, 0, le_rfl, by simp only; omega, by simp only; omega, by simp only; omega, rfl⟩)).trans hcfl
    rw [C37_plain] at this
    exact this
  obtain ⟨X, x1, x2, x3⟩ := C42_sweeps undef (ignoreAux naux (advectionRp u)) (ignoreAux naux (advectionRp v))
    { cfg with mx := c.bc.n 0, my := c.bc.n 1, dt := dt } (by simp only; omega) none (fun i j => A ![i, j])
    (fun i j => Q ![i, j]) (by simp)
  obtain ⟨r', cfl', k1, k2⟩ := x3 (w 0) h0.1 h0.2
  have k3 := k2 (w 1) h1.1 h1.2
  beta_reduce
  rw [k3]
  refine fStep1_bounds undef v naux _ (by simp only; omega) hdt hdy hfw hlim _ _ _ _ k1 hv' lo hi (w 1) h1.1 h1.2 fun j j1 j2 => ?_
  obtain ⟨r2, cfl2, l1, l2⟩ := x1 j (by simp only; omega) (by simp only; omega)
  rw [l2 (w 0) h0.1 h0.2]
  exact fStep1_bounds undef u naux _ (by simp only; omega) hdt hdx hfw hlim _ _ _ _ l1 hu lo hi (w 0) h0.1 h0.2
    fun i i1 i2 => hf ![i, j] fun c' => by fin_cases c' <;> simp <;> omega

/-- C83, the three-dimensional split kernel. -/
theorem C83_split3 (undef u v z : K) (cfg : Cfg3 K 1) (hdx : 0 < cfg.dx) (hdy : 0 < cfg.dy) (hdz : 0 < cfg.dz) (hfw : cfg.fwave = false)
    (hlim : cfg.order ≠ 1 → cfg.limiter 0 = 1 ∨ cfg.limiter 0 = 2 ∨ cfg.limiter 0 = 3 ∨ cfg.limiter 0 = 4)
    (c : ParCfg (Fin 3) K) (hr : ClassicRun c 1 naux (intSplit3 undef (ignoreAux naux (advectionRp u)) (ignoreAux naux (advectionRp v))
      (ignoreAux naux (advectionRp z)) cfg none))
    (hg : cfg.g = c.bc.g) (h : Admissible c.bc) (hs : Serial c.bc) (hw : ∀ a, ¬ HasWall c.bc a)
    (rnd : K → K) (hrnd : ∀ x, 0 ≤ x → 0 ≤ rnd x) (L lo hi : K)
    (ops : List (StepOp K (GArr (Fin 3) K) (GArr (Fin 3) K × BCArrays (Fin 3) K))) (hops : OnlyEvolves ops)
    (hadj : ∀ f, .adjust f ∈ ops → ∀ set, StableSettings set → StableSettings (f set))
    (s : StepState K (GArr (Fin 3) K) (GArr (Fin 3) K × BCArrays (Fin 3) K)) (hS : StableSettings s.set)
    (hq : WithinBounds c.bc.n lo hi s.sol.q) : WithinBounds c.bc.n lo hi (runSteps (serialEnv c rnd L) ops s).sol.q := by
  refine run_bounds c naux _ hr h hs hw rnd hrnd L lo hi ?_ ops hops hadj s hS hq
  intro dt A Q r cfl hdt hf hst hcfl w hv
  have hgh := hr.ghost
  have h0 := hv 0
  have h1 := hv 1
  have h2 := hv 2
  unfold intSplit3 at hst
  simp only [Option.some.injEq, Prod.mk.injEq] at hst
  rw [← hst.1]
  have hc := C37_split3_cfl undef (ignoreAux naux (advectionRp u)) (ignoreAux naux (advectionRp v)) (ignoreAux naux (advectionRp z))
    { cfg with mx := c.bc.n 0, my := c.bc.n 1, mz := c.bc.n 2, dt := dt } (by simp only; omega) hdt hdx hdy hdz none
    (fun i j k => A ![i, j, k]) (fun i j k => Q ![i, j, k]) (by simp)
  rw [hst.2] at hc
  have hu : |u| * dt / cfg.dx ≤ 1 := by
    have := (hc.2.1 _ (Or.inl (Or.inl ⟨1, 1, 1, 0, le_rfl, by omega, by omega, by omega,
      by omega, by omega, rfl⟩))).trans hcfl
    rw [C37_plain] at this
    exact this
  have hv' : |v| * dt / cfg.dy ≤ 1 := by
    have := (hc.2.1 _ (Or.inl (Or.inr ⟨1, 1, 1, 0, le_rfl, by omega, by omega, by omega,
      by omega, by omega, rfl⟩))).trans hcfl
    rw [C37_plain] at this
    exact this
  have hz' : |z| * dt / cfg.dz ≤ 1 := by
    have := (hc.2.1 _ (Or.inr ⟨1, 1, 1, 0, le_rfl, by omega, by omega, by omega,
      by omega, by omega, rfl⟩)).trans hcfl
    rw [C37_plain] at this
    exact this
  obtain ⟨X, Y, x1, x2, x3, x4, x5⟩ := C71_sweeps undef (ignoreAux naux (advectionRp u)) (ignoreAux naux (advectionRp v))
    (ignoreAux naux (advectionRp z)) { cfg with mx := c.bc.n 0, my := c.bc.n 1, mz := c.bc.n 2, dt := dt } (by simp only; omega) none
    (fun i j k => A ![i, j, k]) (fun i j k => Q ![i, j, k]) (by simp)
  obtain ⟨r', cfl', k1, k2⟩ := x5 (w 0) (w 1) h0.1 h0.2 h1.1 h1.2
  have k3 := k2 (w 2) h2.1 h2.2
  beta_reduce
  rw [k3]
  refine fStep1_bounds undef z naux _ (by simp only; omega) hdt hdz hfw hlim _ _ _ _ k1 hz' lo hi (w 2) h2.1 h2.2 fun k k1 k2 => ?_
  obtain ⟨r3, cfl3, m1, m2⟩ := x3 (w 0) k h0.1 h0.2 (by first | omega | (simp only; omega)) (by first | omega | (simp only; omega))
  rw [m2 (w 1) h1.1 h1.2]
  refine fStep1_bounds undef v naux _ (by simp only; omega) hdt hdy hfw hlim _ _ _ _ m1 hv' lo hi (w 1) h1.1 h1.2 fun j j1 j2 => ?_
  obtain ⟨r2, cfl2, l1, l2⟩ := x1 j k (by first | omega | (simp only; omega)) (by first | omega | (simp only; omega)) (by first | omega | (simp only; omega)) (by first | omega | (simp only; omega))
  rw [l2 (w 0) h0.1 h0.2]
  exact fStep1_bounds undef u naux _ (by simp only; omega) hdt hdx hfw hlim _ _ _ _ l1 hu lo hi (w 0) h0.1 h0.2
    fun i i1 i2 => hf ![i, j, k] fun c' => by fin_cases c' <;> simp <;> omega

/-! ### Total variation -/

/-- C83, total variation, Fortran kernel: on a periodic grid the total variation never grows over a session. -/
theorem C83_fortran1_tvd (undef u : K) (cfg : Cfg1 K 1) (hdx : 0 < cfg.dx) (hfw : cfg.fwave = false)
    (hlim : cfg.order ≠ 1 → cfg.limiter 0 = 1 ∨ cfg.limiter 0 = 2 ∨ cfg.limiter 0 = 3 ∨ cfg.limiter 0 = 4)
    (c : ParCfg (Fin 1) K) (hr : ClassicRun c 1 naux (intStep1 undef (ignoreAux naux (advectionRp u)) cfg none))
    (hg : cfg.g = c.bc.g) (hp : PeriodicGrid c.bc) [NeZero (c.bc.n 0)]
    (rnd : K → K) (hrnd : ∀ x, 0 ≤ x → 0 ≤ rnd x) (L : K)
    (ops : List (StepOp K (GArr (Fin 1) K) (GArr (Fin 1) K × BCArrays (Fin 1) K))) (hops : OnlyEvolves ops)
    (hadj : ∀ f, .adjust f ∈ ops → ∀ set, StableSettings set → StableSettings (f set))
    (s : StepState K (GArr (Fin 1) K) (GArr (Fin 1) K × BCArrays (Fin 1) K)) (hS : StableSettings s.set) :
    totalVariation (lineValues (c.bc.n 0) (runSteps (serialEnv c rnd L) ops s).sol.q) ≤
      totalVariation (lineValues (c.bc.n 0) s.sol.q) := by
  refine (run_keeps c hr.homogeneous rnd L (fun q => totalVariation (lineValues (c.bc.n 0) q) ≤
      totalVariation (lineValues (c.bc.n 0) s.sol.q)) s.sol.rest.1 StableSettings (fun dt cfl => 0 ≤ dt ∧ cfl ≤ 1) ?_
    (fun set m hS => ⟨hS.variable_dt, hS.dt, hS.dtMax, hS.cflDesired, hS.cflMax⟩)
    (fun t ts te set st cfl hS hT => stable_getDt rnd hrnd t ts te set st cfl hS hT)
    (fun t ts te set st cfl hS hT hc => ⟨getDt_nonneg rnd hrnd t ts te set st hS.dt hS.dtMax hS.cflDesired hT, by
      rcases hc with hc | hc
      · exact hc.trans hS.cflMax
      · rw [hS.variable_dt] at hc; cases hc⟩) ops hops hadj s ⟨le_rfl, rfl, hS⟩).1
  intro dt q work w r cfl hP hw hk hO
  refine le_trans ?_ hP
  have hgh := hr.ghost
  obtain ⟨w', hw', hf⟩ := periodic_fill c.bc hp c.axes (by rw [hr.axes]; exact List.nodup_finRange 1)
    (by rw [hr.axes]; exact List.mem_finRange) 1 naux hr.numAux q s.sol.rest.1 work
  rw [hw] at hw'
  cases hw'
  rw [hr.kern] at hk
  obtain ⟨r', hst, hi⟩ := onArrays_interior 1 naux c.bc.g _ dt c.bc.n w r cfl hk
  unfold intStep1 at hst
  obtain ⟨⟨r2, cfl'⟩, k1, k2⟩ := Option.map_eq_some_iff.mp hst
  simp only [Prod.mk.injEq] at k2
  have hc := fStep1_courant undef u naux { cfg with n := c.bc.n 0, dt := dt } (by simp only; omega) hO.1 hdx _ _ _ _ k1
  rw [k2.2] at hc
  have hc1 : |u| * (dt / cfg.dx) ≤ 1 := by rw [← mul_div_assoc]; exact hc.trans ((le_max_right _ _).trans hO.2)
  obtain ⟨q2, cfl2, l1, _, l3⟩ := C39_fortran undef u { cfg with n := c.bc.n 0, dt := dt } (by simp only; omega) hO.1 hdx hc1 hfw hlim
    (fun _ => ()) (fun i => fieldOf 1 c.bc.g w.q fun _ => i)
  have e : fStep1 undef (ignoreAux naux (advectionRp u)) { cfg with n := c.bc.n 0, dt := dt } none
    (fun i => fieldOf naux c.bc.g w.aux fun _ => i) (fun i => fieldOf 1 c.bc.g w.q fun _ => i) =
    fStep1 undef (advectionRp u) { cfg with n := c.bc.n 0, dt := dt } none (fun _ => ()) (fun i => fieldOf 1 c.bc.g w.q fun _ => i) := rfl
  rw [e, l1] at k1
  cases k1
  have hpg : PeriodicGhost 1 cfg.g (c.bc.n 0) fun i => fieldOf 1 c.bc.g w.q fun _ => i := by
    rw [hg]
    exact line1 _ _ _ (fun x k => q k.val x) fun v hv => (hf v hv).1
  have key := l3 hpg
  have e1 : interiorValues 1 (c.bc.n 0) (fun i => fieldOf 1 c.bc.g w.q fun _ => i) = lineValues (c.bc.n 0) q := by
    funext i
    unfold interiorValues lineValues
    have hi := i.2
    beta_reduce
    rw [(hf (fun _ => 1 + (i.val : Int)) fun c' => by rw [Subsingleton.elim c' 0]; omega).1]
    have := wrapCell_interior c.bc.n (fun _ => i.val) (fun c' => by rw [Subsingleton.elim c' 0]; exact hi)
    simp only [add_comm (1 : Int)]
    rw [this]
    rfl
  have e2 : interiorValues 1 (c.bc.n 0) r2 = lineValues (c.bc.n 0) fun k idx => r k fun a => idx a + c.bc.g := by
    funext i
    unfold interiorValues lineValues
    have := hi 0 (fun _ => i.val)
    rw [add_comm]
    refine Eq.trans ?_ this.symm
    rw [← k2.1]
  rw [e1] at key
  rw [← e2]
  exact key

/-- C83, total variation, Python kernel. -/
theorem C83_python1_tvd (opq : Int → LimFun K) (u : K) (cfg : Cfg1 K 1) (hdx : 0 < cfg.dx) (hfw : cfg.fwave = false)
    (hlim : cfg.order = 2 → cfg.limiter 0 = 1 ∨ cfg.limiter 0 = 2 ∨ cfg.limiter 0 = 3 ∨ cfg.limiter 0 = 4 ∨ cfg.limiter 0 = 9)
    (c : ParCfg (Fin 1) K) (hr : ClassicRun c 1 naux (intPyStep1 (pyLimiterFun opq) (ignoreAux naux (advectionRp u)) cfg none))
    (hg : cfg.g = c.bc.g) (hp : PeriodicGrid c.bc) [NeZero (c.bc.n 0)]
    (rnd : K → K) (hrnd : ∀ x, 0 ≤ x → 0 ≤ rnd x) (L : K)
    (ops : List (StepOp K (GArr (Fin 1) K) (GArr (Fin 1) K × BCArrays (Fin 1) K))) (hops : OnlyEvolves ops)
    (hadj : ∀ f, .adjust f ∈ ops → ∀ set, StableSettings set → StableSettings (f set))
    (s : StepState K (GArr (Fin 1) K) (GArr (Fin 1) K × BCArrays (Fin 1) K)) (hS : StableSettings s.set) :
    totalVariation (lineValues (c.bc.n 0) (runSteps (serialEnv c rnd L) ops s).sol.q) ≤
      totalVariation (lineValues (c.bc.n 0) s.sol.q) := by
  refine (run_keeps c hr.homogeneous rnd L (fun q => totalVariation (lineValues (c.bc.n 0) q) ≤
      totalVariation (lineValues (c.bc.n 0) s.sol.q)) s.sol.rest.1 StableSettings (fun dt cfl => 0 ≤ dt ∧ cfl ≤ 1) ?_
    (fun set m hS => ⟨hS.variable_dt, hS.dt, hS.dtMax, hS.cflDesired, hS.cflMax⟩)
    (fun t ts te set st cfl hS hT => stable_getDt rnd hrnd t ts te set st cfl hS hT)
    (fun t ts te set st cfl hS hT hc => ⟨getDt_nonneg rnd hrnd t ts te set st hS.dt hS.dtMax hS.cflDesired hT, by
      rcases hc with hc | hc
      · exact hc.trans hS.cflMax
      · rw [hS.variable_dt] at hc; cases hc⟩) ops hops hadj s ⟨le_rfl, rfl, hS⟩).1
  intro dt q work w r cfl hP hw hk hO
  refine le_trans ?_ hP
  have hgh := hr.ghost
  obtain ⟨w', hw', hf⟩ := periodic_fill c.bc hp c.axes (by rw [hr.axes]; exact List.nodup_finRange 1)
    (by rw [hr.axes]; exact List.mem_finRange) 1 naux hr.numAux q s.sol.rest.1 work
  rw [hw] at hw'
  cases hw'
  rw [hr.kern] at hk
  obtain ⟨r', hst, hi⟩ := onArrays_interior 1 naux c.bc.g _ dt c.bc.n w r cfl hk
  unfold intPyStep1 at hst
  simp only [Option.some.injEq, Prod.mk.injEq] at hst
  have e : ∀ q : Int → Fin 1 → K, pyStep1 (pyLimiterFun opq) (ignoreAux naux (advectionRp u)) { cfg with n := c.bc.n 0, dt := dt } none
      (fun x => fieldOf naux c.bc.g w.aux fun _ => x + (1 - cfg.g)) q =
      pyStep1 (pyLimiterFun opq) (advectionRp u) { cfg with n := c.bc.n 0, dt := dt } none (fun _ => ()) q := fun _ => rfl
  have hcour := C37_python_cfl (pyLimiterFun opq) (advectionRp u) { cfg with n := c.bc.n 0, dt := dt } hO.1 hdx
    (by simp only; omega) none (fun _ => ()) (fun x => fieldOf 1 c.bc.g w.q fun _ => x + (1 - cfg.g)) (by simp)
  have hc := hcour.2.1 cfg.g 0 (by simp only; omega) (by simp only; omega)
  rw [C37_plain, ← e, hst.2] at hc
  have hc1 : |u| * (dt / cfg.dx) ≤ 1 := by rw [← mul_div_assoc]; exact hc.trans ((le_max_right _ _).trans hO.2)
  have hnn : 0 ≤ |u| * (dt / cfg.dx) := mul_nonneg (abs_nonneg _) (div_nonneg hO.1 hdx.le)
  have l3 := (C39_python (pyLimiterFun opq) u { cfg with n := c.bc.n 0, dt := dt } (by simp only; omega) hO.1 hdx hc1 hfw
    (fun ho => C39_python_limiters opq _ hnn hc1 (cfg.limiter 0) (by rcases hlim ho with hh | hh | hh | hh | hh <;> simp [hh]))
    (fun _ => ()) (fun x => fieldOf 1 c.bc.g w.q fun _ => x + (1 - cfg.g))).2
  have hpg : PeriodicGhost cfg.g cfg.g (c.bc.n 0) fun x => fieldOf 1 c.bc.g w.q fun _ => x + (1 - cfg.g) := by
    have h0 : PeriodicGhost 1 c.bc.g (c.bc.n 0) fun i => fieldOf 1 c.bc.g w.q fun _ => i :=
      line1 _ _ _ (fun x k => q k.val x) fun v hv => (hf v hv).1
    intro i a b
    simp only
    rw [show i + (c.bc.n 0 : Int) + (1 - cfg.g) = i + (1 - cfg.g) + c.bc.n 0 by ring]
    exact h0 _ (by omega) (by omega)
  have key := l3 hpg
  have e1 : interiorValues cfg.g (c.bc.n 0) (fun x => fieldOf 1 c.bc.g w.q fun _ => x + (1 - cfg.g)) = lineValues (c.bc.n 0) q := by
    funext i
    unfold interiorValues lineValues
    have hi := i.2
    beta_reduce
    rw [show (cfg.g : Int) + i.val + (1 - cfg.g) = i.val + 1 by ring,
      (hf (fun _ => (i.val : Int) + 1) fun c' => by rw [Subsingleton.elim c' 0]; omega).1]
    have := wrapCell_interior c.bc.n (fun _ => i.val) (fun c' => by rw [Subsingleton.elim c' 0]; exact hi)
    rw [this]
    rfl
  have e2 : interiorValues cfg.g (c.bc.n 0) (pyStep1 (pyLimiterFun opq) (advectionRp u) { cfg with n := c.bc.n 0, dt := dt } none
      (fun _ => ()) (fun x => fieldOf 1 c.bc.g w.q fun _ => x + (1 - cfg.g))).1 =
      lineValues (c.bc.n 0) fun k idx => r k fun a => idx a + c.bc.g := by
    funext i
    unfold interiorValues lineValues
    have := hi 0 (fun _ => i.val)
    refine Eq.trans ?_ this.symm
    rw [← hst.1, ← e]
    beta_reduce
    rw [show (i.val : Int) + 1 + cfg.g - 1 = cfg.g + i.val by ring]
  rw [← e1, ← e2]
  exact key

/-! ### Concrete runs -/

/-- Four cells, periodic, Courant number 1/2, MC limiter in the Python kernel. -/
def exPeriodic1 : ParCfg (Fin 1) ℚ where
  bc := ⟨2, fun _ => 4, 1, 0, fun _ => .periodic, fun _ => .periodic, fun _ => .periodic, fun _ => .periodic, fun _ => 0,
    fun _ => true, fun _ => true, none, none, none, none⟩
  axes := [0]
  kern := onArrays 1 0 2 (intPyStep1 (pyLimiterFun fun _ _ _ => 0) (ignoreAux 0 (advectionRp 1)) ⟨4, 2, 1, 1 / 4, 2, false, fun _ => 4⟩ none)
  sourceSplit := 1
  source := none
  beforeQ := fun _ _ q _ => q
  beforeAux := fun _ _ _ a => a

/-- The run takes a step of 1/8, and the settings are stable. -/
def exStart1 : StepState ℚ (GArr (Fin 1) ℚ) (GArr (Fin 1) ℚ × BCArrays (Fin 1) ℚ) where
  set := ⟨true, 1 / 8, none, 1, 1, 9 / 10, 100, 1 / 2⟩
  status := {}
  sol := ⟨0, fun _ x => if x 0 = 1 then 8 else if x 0 = 2 then 4 else 0, (fun _ _ => 0, ⟨fun _ _ => 0, fun _ _ => 0⟩)⟩
  log := []

theorem exPeriodic1_run : ClassicRun exPeriodic1 1 0
    (intPyStep1 (pyLimiterFun fun _ _ _ => 0) (ignoreAux 0 (advectionRp 1)) ⟨4, 2, 1, 1 / 4, 2, false, fun _ => 4⟩ none) where
  homogeneous := ⟨rfl, fun _ _ _ _ => rfl, fun _ _ _ _ => rfl⟩
  ghost := le_refl 2
  numAux := rfl
  axes := rfl
  kern := rfl

theorem exPeriodic1_grid : PeriodicGrid exPeriodic1.bc where
  cells := fun _ => ⟨(by decide : 0 < 4), (by decide : 2 ≤ 4)⟩
  serial := fun _ => ⟨rfl, rfl⟩
  q := fun _ => ⟨rfl, rfl⟩
  aux := fun _ => ⟨rfl, rfl⟩

theorem exStart1_stable : StableSettings exStart1.set := by
  constructor <;> simp only [exStart1] <;> norm_num

/-- Non-vacuity of `C81_python1`, `C83_python1` and `C83_python1_tvd`: this run meets their hypotheses, and the solution changes. -/
example :
    FluxDifference (ignoreAux 0 (advectionRp (1 : ℚ))) (fun q _ => (1 : ℚ) • q) ∧ ClassicRun exPeriodic1 1 0
      (intPyStep1 (pyLimiterFun fun _ _ _ => 0) (ignoreAux 0 (advectionRp 1)) ⟨4, 2, 1, 1 / 4, 2, false, fun _ => 4⟩ none) ∧
      PeriodicGrid exPeriodic1.bc ∧ Admissible exPeriodic1.bc ∧ Serial exPeriodic1.bc ∧ (∀ a, ¬ HasWall exPeriodic1.bc a) ∧
      StableSettings exStart1.set ∧ WithinBounds exPeriodic1.bc.n 0 8 exStart1.sol.q ∧
      OnlyEvolves [StepOp.evolve (K := ℚ) (Q := GArr (Fin 1) ℚ) (W := GArr (Fin 1) ℚ × BCArrays (Fin 1) ℚ) (some (1 / 4))] := by
  refine ⟨?_, exPeriodic1_run, exPeriodic1_grid, exPeriodic1_grid.admissible, exPeriodic1_grid.serial, ?_, exStart1_stable, ?_, ?_⟩
  · intro ql qr al ar
    exact advectionRp_flux 1 ql qr () ()
  · intro a
    simp [HasWall, exPeriodic1]
  · intro x _
    simp only [exStart1]
    split_ifs <;> norm_num
  · intro o ho
    rw [List.mem_singleton] at ho
    exact .inl ⟨_, ho⟩

example : (List.range 4).map (fun i => (runSteps (serialEnv exPeriodic1 id 1) [.evolve (some (1 / 4))] exStart1).sol.q 0 fun _ => i) =
    [3 / 8, 51 / 32, 181 / 32, 35 / 8] := by
  decide +kernel

/-- A run in two dimensions with a wall, outflow and periodic sides, for any kernel. -/
def exWall2 (step : IntKern (Fin 2) ℚ 3 1) : ParCfg (Fin 2) ℚ where
  bc := exampleBC
  axes := [0, 1]
  kern := onArrays 3 1 2 step
  sourceSplit := 1
  source := none
  beforeQ := fun _ _ q _ => q
  beforeAux := fun _ _ _ a => a

/-- Non-vacuity of `C82_unsplit2` and `C82_split2`: a uniform state whose second component (reflected at the wall) is 0. -/
example (step : IntKern (Fin 2) ℚ 3 1) : ClassicRun (exWall2 step) 3 1 step ∧ Admissible (exWall2 step).bc ∧ Serial (exWall2 step).bc ∧
    HasWall (exWall2 step).bc 0 ∧
    (∀ a, HasWall (exWall2 step).bc a → ∀ k : Fin 3, k.val = (exWall2 step).bc.reflect a → (![5, 0, 7] : Fin 3 → ℚ) k = 0) := by
  refine ⟨⟨⟨rfl, fun _ _ _ _ => rfl, fun _ _ _ _ => rfl⟩, le_refl 2, rfl, rfl, rfl⟩, exampleBC_admissible.1, exampleBC_admissible.2,
    .inl rfl, ?_⟩
  intro a ha k hk
  fin_cases a
  · have : k = 1 := Fin.ext hk
    rw [this]
    rfl
  · rcases ha with ha | ha <;> cases ha

end PyClaw
