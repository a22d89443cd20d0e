import Verif.Props.RunValues
import Verif.Props.SharpFixed

/-!
C84: with Courant number 1 a run of an advection problem moves the data by whole cells, exactly.
-/
set_option linter.unusedSectionVars false

namespace PyClaw
open Spec

variable {K : Type*} [Field K] [LinearOrder K] [IsStrictOrderedRing K] [FloorRing K] {naux : Nat}

section run
variable {ι : Type*} [DecidableEq ι]

/-- One accepted step of fixed size. -/
theorem fixed_attempt (c : ParCfg ι K) (hc : Homogeneous c) (L ts T : K) (n : Nat)
    (s : StepState K (GArr ι K) (GArr ι K × BCArrays ι K)) (hv : s.set.dtVariable = false)
    (hclip : clipDt id landEps s.sol.t ts T s.set.dt = s.set.dt) (w : BCArrays ι K) (r : GArr ι K) (cfl : K)
    (hw : applyBcs c.bc c.axes s.sol.q s.sol.rest.1 s.sol.rest.2 = (w, .ok ()))
    (hk : c.kern s.set.dt c.bc.n w = some (r, cfl)) (hcfl : max 0 cfl ≤ s.set.cflMax) :
    ∃ s', attempt (serialEnv c id L) ts (some T) n s = (s', .ok true) ∧
      s'.set.dtVariable = false ∧ s'.set.dt = s.set.dt ∧ s'.set.cflMax = s.set.cflMax ∧ s'.set.maxSteps = s.set.maxSteps ∧
      s'.sol.t = ts + (n + 1 : Nat) * s.set.dt ∧ s'.sol.rest.1 = s.sol.rest.1 ∧
      (s'.sol.q = fun k idx => r k fun a => idx a + c.bc.g) ∧ s'.status.numsteps = s.status.numsteps + 1 := by
  have hg : (getDt id s.sol.t ts (some T) s.set s.status).1.dt = s.set.dt := by
    have hch : (chooseDt id s.set s.status).1.dt = s.set.dt := by simp [chooseDt, hv]
    simp only [getDt, hch]
    exact hclip
  have hst : (getDt id s.sol.t ts (some T) s.set s.status).2.numsteps = s.status.numsteps := by
    simp [getDt, chooseDt, hv]
  have hset : (getDt id s.sol.t ts (some T) s.set s.status).1 =
      { (getDt id s.sol.t ts (some T) s.set s.status).1 with dt := s.set.dt } := by rw [← hg]
  have hf1 : (getDt id s.sol.t ts (some T) s.set s.status).1.dtVariable = false := by simp [getDt, chooseDt, hv]
  have hf2 : (getDt id s.sol.t ts (some T) s.set s.status).1.cflMax = s.set.cflMax := by simp [getDt, chooseDt, hv]
  have hf3 : (getDt id s.sol.t ts (some T) s.set s.status).1.maxSteps = s.set.maxSteps := by simp [getDt, chooseDt, hv]
  have hh : hypSerial c s.set.dt ⟨s.sol.q, s.sol.rest.1, s.sol.rest.2⟩ =
      (⟨fun k idx => r k fun a => idx a + c.bc.g, s.sol.rest.1, { w with q := r }⟩, .ok cfl) := by
    unfold hypSerial
    simp only [hw, hk]
  have hr : (serialEnv c id L).rnd = id := rfl
  have hgau : ∀ t d, (serialEnv c id L).gauges t d = (d.2, none) := fun _ _ => rfl
  unfold attempt
  simp only [hr]
  rw [serial_numeric c hc, hg, hh]
  simp only [hgau, if_pos hcfl, hv]
  refine ⟨_, rfl, hf1, rfl, hf2, hf3, ?_, rfl, rfl, ?_⟩
  · simp
  · simp [hst]

/-- A run in `N` equal steps: `P k` holds after `k` steps. -/
theorem fixed_run (c : ParCfg ι K) (hc : Homogeneous c) (L T : K) (N : Nat)
    (s : StepState K (GArr ι K) (GArr ι K × BCArrays ι K)) (hF : FixedSteps s T N)
    (P : Nat → GArr ι K → Prop) (hP : P 0 s.sol.q)
    (hstep : ∀ k q work, P k q → ∃ w r cfl, applyBcs c.bc c.axes q s.sol.rest.1 work = (w, .ok ()) ∧
      c.kern s.set.dt c.bc.n w = some (r, cfl) ∧ max 0 cfl ≤ s.set.cflMax ∧ P (k + 1) fun k idx => r k fun a => idx a + c.bc.g) :
    let res := evolveToTime (serialEnv c id L) (some T) s
    res.2 = .ok () ∧ res.1.sol.t = T ∧ P N res.1.sol.q ∧ res.1.status.numsteps = s.status.numsteps + N := by
  obtain ⟨hv, hN, hdt, hdiv, heps, -⟩ := hF
  set dt := s.set.dt with hdtdef
  set t0 := s.sol.t with ht0
  have hpos : 0 < dt := lt_trans (by positivity) hdt
  have htT : t0 < T := by
    have : (0 : K) < N := by exact_mod_cast hN
    nlinarith [mul_pos this hpos]
  have hint : pyInt ((T - t0 + 1 / 10 ^ 10) / dt) = N := by
    have hq : (T - t0 + 1 / 10 ^ 10) / dt = N + (1 / 10 ^ 10) / dt := by
      rw [hdiv, add_div, mul_div_assoc, div_self hpos.ne', mul_one]
    have h0 : 0 ≤ ((1 : K) / 10 ^ 10) / dt := by positivity
    have h1 : ((1 : K) / 10 ^ 10) / dt < 1 := by rw [div_lt_one hpos]; exact hdt
    have hN0 : (0 : K) ≤ N := Nat.cast_nonneg N
    unfold pyInt
    rw [hq, if_pos (by linarith), Int.floor_eq_iff]
    constructor
    · push_cast; linarith
    · push_cast; linarith
  have hr : (serialEnv c id L).rnd = id := rfl
  have hf : fixedSetup (serialEnv c id L).rnd t0 (some T) s.set = (.ok { s.set with maxSteps := N }, { s.set with maxSteps := N }) := by
    have hn : ¬ (1 / 10 ^ 5 * (T - t0) < |(((N : Int) : K)) * dt - (T - t0)|) := by
      rw [hdiv]
      have : (((N : Int) : K)) * dt - N * dt = 0 := by push_cast; ring
      rw [this, abs_zero, not_lt]
      positivity
    simp only [fixedSetup, ← hdtdef, hpos.ne', if_false, hr, id, hint, if_neg hn]
  have key : ∀ fuel m k (s' : StepState K (GArr ι K) (GArr ι K × BCArrays ι K)), m + fuel = N →
      s'.set.dtVariable = false → s'.set.dt = dt → s'.set.cflMax = s.set.cflMax → s'.sol.t = t0 + m * dt →
      s'.sol.rest.1 = s.sol.rest.1 → P m s'.sol.q → s'.status.numsteps = s.status.numsteps + m →
      ∃ s'' j, evolveLoop (serialEnv c id L) t0 (some T) fuel m k s' = (s'', .ok j) ∧ s''.sol.t = T ∧ P N s''.sol.q ∧
        s''.status.numsteps = s.status.numsteps + N ∧ s''.set.dtVariable = false := by
    intro fuel
    induction fuel with
    | zero =>
      intro m k s' hm h1 h2 h3 h4 h5 h6 h7
      have : m = N := by omega
      subst this
      exact ⟨s', k, rfl, by rw [h4]; linarith, h6, h7, h1⟩
    | succ fuel ih =>
      intro m k s' hm h1 h2 h3 h4 h5 h6 h7
      obtain ⟨w, r, cfl, g1, g2, g3, g4⟩ := hstep m s'.sol.q s'.sol.rest.2 h6
      obtain ⟨s'', a1, a2, a3, a4, a5, a6, a7, a8, a9⟩ := fixed_attempt c hc L t0 T m s' h1
        (by rw [h2, h4]; exact clipDt_equal t0 T dt N m (by omega) hpos hdiv heps) w r cfl (by rw [h5]; exact g1)
        (by rw [h2]; exact g2) (by rw [h3]; exact g3)
      rw [h2] at a3 a6
      unfold evolveLoop
      rw [a1]
      simp only [if_true]
      by_cases hstop : T ≤ s''.sol.t
      · rw [if_pos hstop]
        have hmN : m + 1 = N := by
          by_contra hne
          have : (m : K) + 2 ≤ N := by exact_mod_cast (by omega : m + 2 ≤ N)
          rw [a6] at hstop
          push_cast at hstop
          nlinarith
        refine ⟨_, _, rfl, ?_, ?_, ?_, a2⟩
        · rw [a6, hmN]; linarith
        · rw [← hmN, a8]; exact g4
        · rw [a9, h7, ← hmN]; ring
      · rw [if_neg hstop]
        exact ih (m + 1) _ s'' (by omega) a2 a3 (by rw [a4, h3]) a6 (by rw [a7, h5]) (by rw [a8]; exact g4) (by rw [a9, h7]; ring)
  obtain ⟨s'', j, k1, k2, k3, k4, k5⟩ := key N 0 0 { s with set := { s.set with maxSteps := N } } (by omega) hv rfl rfl
    (by simp [ht0]) rfl hP (by simp)
  have hres : evolveToTime (serialEnv c id L) (some T) s = (s'', .ok ()) := by
    unfold evolveToTime
    simp only [hv] at k1
    simp only [hv, Bool.false_eq_true, if_false, ← ht0, hf, false_and, if_neg (not_le.mpr htT), Int.toNat_natCast, k1, k5]
  simp only [hres]
  exact ⟨trivial, k2, k3, k4⟩

/-- Wrapping around commutes with moving. -/
theorem cellBefore_wrap (n : ι → Nat) (hn : ∀ a, 0 < n a) (δ : ι → Int) (k : Nat) (x : ι → Nat) :
    cellBefore n (fun a => k * δ a) (wrapCell n fun a => (x a : Int) + 1 - δ a) = cellBefore n (fun a => ((k + 1 : Nat) : Int) * δ a) x := by
  funext a
  have := hn a
  unfold cellBefore wrapCell
  simp only
  congr 1
  have h1 := Int.emod_nonneg ((x a : Int) + 1 - δ a - 1) (b := (n a : Int)) (by omega)
  rw [Int.toNat_of_nonneg h1, Int.emod_sub_emod]
  congr 1
  push_cast
  ring

/-- A run of a kernel that moves the data by `δ` in every step. -/
theorem exact_run {d : Nat} (c : ParCfg (Fin d) K) (step : IntKern (Fin d) K 1 naux) (hr : ClassicRun c 1 naux step)
    (hp : PeriodicGrid c.bc) (δ : Fin d → Int) (hδ : ∀ a, -1 ≤ δ a ∧ δ a ≤ 1) (L T : K) (N : Nat)
    (s : StepState K (GArr (Fin d) K) (GArr (Fin d) K × BCArrays (Fin d) K)) (hF : FixedSteps s T N)
    (hker : ∀ A Q, ∃ r cfl, step s.set.dt c.bc.n A Q = some (r, cfl) ∧ cfl ≤ 1 ∧
      ∀ v : Fin d → Int, (∀ a, 1 ≤ v a ∧ v a ≤ c.bc.n a) → r v 0 = Q (fun a => v a - δ a) 0) :
    let res := evolveToTime (serialEnv c id L) (some T) s
    res.2 = .ok () ∧ res.1.sol.t = T ∧ res.1.status.numsteps = s.status.numsteps + N ∧
      ∀ x : Fin d → Nat, (∀ a, x a < c.bc.n a) → res.1.sol.q 0 x = s.sol.q 0 (cellBefore c.bc.n (fun a => N * δ a) x) := by
  have hgh := hr.ghost
  have h := fixed_run c hr.homogeneous L T N s hF
    (fun k q => ∀ x : Fin d → Nat, (∀ a, x a < c.bc.n a) → q 0 x = s.sol.q 0 (cellBefore c.bc.n (fun a => k * δ a) x)) ?_ ?_
  · exact ⟨h.1, h.2.1, h.2.2.2, h.2.2.1⟩
  · intro x hx
    refine congrArg (s.sol.q 0) (funext fun a => ?_)
    have := hx a
    unfold cellBefore
    beta_reduce
    rw [Nat.cast_zero, zero_mul, sub_zero, Int.emod_eq_of_lt (by omega) (by omega)]
    omega
  · intro k q work hq
    obtain ⟨w, hw, hf⟩ := periodic_fill c.bc hp c.axes (by rw [hr.axes]; exact List.nodup_finRange d)
      (by rw [hr.axes]; exact List.mem_finRange) 1 naux hr.numAux q s.sol.rest.1 work
    obtain ⟨r', cfl, k1, k2, k3⟩ := hker (fieldOf naux c.bc.g w.aux) (fieldOf 1 c.bc.g w.q)
    have hk : c.kern s.set.dt c.bc.n w = some (putBack 1 c.bc.g w.q r', cfl) := by
      rw [hr.kern]
      unfold onArrays
      rw [k1]
      rfl
    refine ⟨w, _, cfl, hw, hk, max_le (zero_le_one.trans hF.limit) (k2.trans hF.limit), fun x hx => ?_⟩
    rw [hr.kern] at hk
    obtain ⟨r2, l1, l2⟩ := onArrays_interior 1 naux c.bc.g _ s.set.dt c.bc.n w _ cfl hk
    rw [k1] at l1
    cases l1
    have := l2 0 x
    simp only [Fin.val_zero] at this
    beta_reduce
    rw [this, k3 _ fun a => by have := hx a; omega]
    rw [(hf _ fun a => by have := hx a; have := hδ a; omega).1]
    simp only [Fin.val_zero]
    rw [hq _ (wrapCell_lt c.bc.n (fun a => (hp.cells a).1) _), cellBefore_wrap c.bc.n (fun a => (hp.cells a).1)]

end run

/-! ### Single steps -/

theorem heading_bounds (u : K) : -1 ≤ heading u ∧ heading u ≤ 1 := by
  unfold heading
  split_ifs <;> decide

theorem unit_ratio {u dt dx : K} (hdx : 0 < dx) (h : UnitCourant u dt dx) : |u| * (dt / dx) = 1 ∨ u = 0 := by
  rcases h with h | h
  · exact .inl (by rw [← mul_div_assoc, h, div_self hdx.ne'])
  · exact .inr h

theorem upwind_exact (lam u : K) (hl : |u| * lam = 1 ∨ u = 0) (v : Int → K) (i : Int) : upwind lam u v i = v (i - heading u) := by
  unfold upwind heading
  rcases hl with hl | hl
  · rcases lt_trichotomy u 0 with h | h | h
    · rw [if_neg (not_le.mpr h), if_neg (not_lt.mpr h.le), if_pos h]
      rw [abs_of_neg h] at hl
      have : lam * u = -1 := by linarith
      rw [this, sub_neg_eq_add]
      ring
    · rw [h] at hl; simp at hl
    · rw [if_pos h.le, if_pos h]
      rw [abs_of_pos h] at hl
      have : lam * u = 1 := by linarith
      rw [this]
      ring
  · subst hl
    simp

theorem waveProp_exact (u dt dx : K) (hl : |u| * (dt / dx) = 1 ∨ u = 0)
    (W : Int → Fin 1 → Fin 1 → K) (o : Prop) [Decidable o] (aux : Int → Unit) (q : Int → Fin 1 → K) (i : Int) :
    waveProp (localRatio dt dx none aux) (interfaces (advectionRp u) aux q)
      (if o then correctionFlux abs (localRatio dt dx none aux) (interfaces (advectionRp u) aux q) W else fun _ => 0) q i 0 =
      q (i - heading u) 0 := by
  have hF : (if o then correctionFlux abs (localRatio dt dx none aux) (interfaces (advectionRp u) aux q) W else fun _ => 0) =
      fun _ => (0 : Fin 1 → K) := by
    split
    · funext j
      unfold correctionFlux interfaces localRatio advectionRp
      rcases hl with hl | hl
      · have : |u| * (1 / 2 * (dt / dx + dt / dx)) = 1 := by linarith
        refine Finset.sum_eq_zero fun p _ => ?_
        rw [this, sub_self, mul_zero, zero_smul]
      · refine Finset.sum_eq_zero fun p _ => ?_
        rw [hl, abs_zero, mul_zero, zero_mul, zero_smul]
    · rfl
  rw [hF]
  rw [← upwind_exact (dt / dx) u hl (fun i => q i 0) i]
  unfold waveProp interfaces localRatio advectionRp upwind
  simp only [Pi.sub_apply, Pi.smul_apply, Pi.add_apply, smul_eq_mul, sub_self, smul_zero, Pi.zero_apply, sub_zero, add_sub_cancel_right]
  split
  · rename_i h
    rw [max_eq_left h, min_eq_right h]; ring
  · rename_i h
    rw [max_eq_right (not_le.mp h).le, min_eq_left (not_le.mp h).le]; ring

theorem fStep1_exact (undef u : K) (c : Cfg1 K 1) (hg : 1 ≤ c.g) (hdt : 0 ≤ c.dt) (hdx : 0 < c.dx) (hfw : c.fwave = false)
    (hu : UnitCourant u c.dt c.dx) (aux : Int → Fin naux → K) (q : Int → Fin 1 → K) :
    ∃ r cfl, fStep1 undef (ignoreAux naux (advectionRp u)) c none aux q = some (r, cfl) ∧ cfl ≤ 1 ∧
      ∀ i : Int, 1 ≤ i → i ≤ c.n → r i 0 = q (i - heading u) 0 := by
  have hl := unit_ratio hdx hu
  obtain ⟨r, cfl, h1, _, h3⟩ := fStep1_interior undef (advectionRp u) c none (fun _ => ()) q (by simp)
  obtain ⟨r', cfl', g1, _, _, g4⟩ := C37_fortran_cfl undef (advectionRp u) c hdt hdx hg none (fun _ => ()) q (by simp)
  rw [h1] at g1
  cases g1
  refine ⟨r, cfl, h1, ?_, fun i a b => ?_⟩
  · rcases g4 with g | ⟨i, p, _, _, g⟩
    · rw [g]; exact zero_le_one
    · rw [g, C37_plain]
      show |u| * c.dt / c.dx ≤ 1
      rw [mul_div_assoc]
      rcases hl with hl | hl
      · exact hl.le
      · simp [hl]
  · rw [h3 i a (by omega)]
    have := waveProp_exact u c.dt c.dx hl (limitedWave (fPhi undef c.limiter) (localRatio c.dt c.dx none fun _ => ())
      (interfaces (advectionRp u) (fun _ => ()) q)) (¬ c.order = 1) (fun _ => ()) q i
    rw [ite_not] at this
    simp only [hfw, Bool.false_eq_true, if_false]
    exact this

theorem pyStep1_exact (tab : Int → Option (LimFun K)) (u : K) (c : Cfg1 K 1) (hg : 2 ≤ c.g) (hdt : 0 ≤ c.dt) (hdx : 0 < c.dx)
    (hfw : c.fwave = false) (hu : UnitCourant u c.dt c.dx) (aux : Int → Fin naux → K) (q : Int → Fin 1 → K) :
    (pyStep1 tab (ignoreAux naux (advectionRp u)) c none aux q).2 ≤ 1 ∧
      ∀ i : Int, c.g ≤ i → i < c.g + c.n →
        (pyStep1 tab (ignoreAux naux (advectionRp u)) c none aux q).1 i 0 = q (i - heading u) 0 := by
  have hl := unit_ratio hdx hu
  have e : pyStep1 tab (ignoreAux naux (advectionRp u)) c none aux q = pyStep1 tab (advectionRp u) c none (fun _ => ()) q := rfl
  rw [e]
  obtain ⟨phi, _, _, h3⟩ := pyStep1_interior tab (advectionRp u) c none (fun _ => ()) q hg
  have g := (C37_python_cfl tab (advectionRp u) c hdt hdx hg none (fun _ => ()) q (by simp)).2.2
  constructor
  · rcases g with g | ⟨i, p, _, _, g⟩
    · rw [g]; exact zero_le_one
    · rw [g, C37_plain]
      show |u| * c.dt / c.dx ≤ 1
      rw [mul_div_assoc]
      rcases hl with hl | hl
      · exact hl.le
      · simp [hl]
  · intro i a b
    rw [h3 i a b]
    simp only [hfw, Bool.false_eq_true, if_false]
    exact waveProp_exact u c.dt c.dx hl _ (c.order = 2) (fun _ => ()) q i

/-! ### Runs -/

/-- C84, the one-dimensional Fortran kernel with any order and limiter: with fixed steps of Courant number 1 a call of
`evolve_to_time` that is `N` steps long ends at the target and has moved the data by exactly `N` cells, around the periodic grid. -/
theorem C84_fortran1 (undef u : K) (cfg : Cfg1 K 1) (hdx : 0 < cfg.dx) (hfw : cfg.fwave = false)
    (c : ParCfg (Fin 1) K) (hr : ClassicRun c 1 naux (intStep1 undef (ignoreAux naux (advectionRp u)) cfg none))
    (hg : cfg.g = c.bc.g) (hp : PeriodicGrid c.bc) (L T : K) (N : Nat)
    (s : StepState K (GArr (Fin 1) K) (GArr (Fin 1) K × BCArrays (Fin 1) K)) (hF : FixedSteps s T N)
    (hu : UnitCourant u s.set.dt cfg.dx) :
    let res := evolveToTime (serialEnv c id L) (some T) s
    res.2 = .ok () ∧ res.1.sol.t = T ∧ res.1.status.numsteps = s.status.numsteps + N ∧
      ∀ x : Fin 1 → Nat, (∀ a, x a < c.bc.n a) →
        res.1.sol.q 0 x = s.sol.q 0 (cellBefore c.bc.n (fun a => N * ![heading u] a) x) := by
  have hgh := hr.ghost
  have hdt : 0 ≤ s.set.dt := (lt_trans (by positivity) hF.dt).le
  refine exact_run c _ hr hp ![heading u] (fun a => by fin_cases a; exact heading_bounds u) L T N s hF ?_
  intro A Q
  obtain ⟨r, cfl, h1, h2, h3⟩ := fStep1_exact (naux := naux) undef u { cfg with n := c.bc.n 0, dt := s.set.dt } (by simp only; omega)
    hdt hdx hfw hu (fun i => A fun _ => i) (fun i => Q fun _ => i)
  refine ⟨fun v => r (v 0), cfl, by unfold intStep1; rw [h1]; rfl, h2, fun v hv => ?_⟩
  simp only
  rw [h3 (v 0) (hv 0).1 (hv 0).2]
  congr 2
  funext a
  fin_cases a
  rfl

/-- C84, the one-dimensional Python kernel with any order and limiter. -/
theorem C84_python1 (tab : Int → Option (LimFun K)) (u : K) (cfg : Cfg1 K 1) (hdx : 0 < cfg.dx) (hfw : cfg.fwave = false)
    (c : ParCfg (Fin 1) K) (hr : ClassicRun c 1 naux (intPyStep1 tab (ignoreAux naux (advectionRp u)) cfg none))
    (hg : cfg.g = c.bc.g) (hp : PeriodicGrid c.bc) (L T : K) (N : Nat)
    (s : StepState K (GArr (Fin 1) K) (GArr (Fin 1) K × BCArrays (Fin 1) K)) (hF : FixedSteps s T N)
    (hu : UnitCourant u s.set.dt cfg.dx) :
    let res := evolveToTime (serialEnv c id L) (some T) s
    res.2 = .ok () ∧ res.1.sol.t = T ∧ res.1.status.numsteps = s.status.numsteps + N ∧
      ∀ x : Fin 1 → Nat, (∀ a, x a < c.bc.n a) →
        res.1.sol.q 0 x = s.sol.q 0 (cellBefore c.bc.n (fun a => N * ![heading u] a) x) := by
  have hgh := hr.ghost
  have hdt : 0 ≤ s.set.dt := (lt_trans (by positivity) hF.dt).le
  refine exact_run c _ hr hp ![heading u] (fun a => by fin_cases a; exact heading_bounds u) L T N s hF ?_
  intro A Q
  obtain ⟨h2, h3⟩ := pyStep1_exact (naux := naux) tab u { cfg with n := c.bc.n 0, dt := s.set.dt } (by simp only; omega)
    hdt hdx hfw hu (fun x => A fun _ => x + (1 - cfg.g)) (fun x => Q fun _ => x + (1 - cfg.g))
  refine ⟨_, _, rfl, h2, fun v hv => ?_⟩
  have := hv 0
  rw [h3 (v 0 + cfg.g - 1) (by simp only; omega) (by simp only; omega)]
  congr 2
  funext a
  fin_cases a
  simp
  ring

theorem unit_courant_le {u dt dx : K} (hdx : 0 < dx) (h : UnitCourant u dt dx) : |u| * dt / dx ≤ 1 := by
  rw [mul_div_assoc]
  rcases unit_ratio hdx h with hl | hl
  · exact hl.le
  · simp [hl]

theorem rowCourants_unit {A : Type*} (u dt dx : K) (hdx : 0 < dx) (h : UnitCourant u dt dx) (aux : Int → Int → A) (q : Int → Int → Fin 1 → K)
    (n : Nat) (lo hi : Int) : ∀ y ∈ rowCourants (fun ql qr _ _ => advectionRp u ql qr () ()) dt dx none aux q n lo hi, y ≤ 1 := by
  rintro y ⟨_, _, _, _, _, _, _, hy⟩
  rw [hy, C37_plain]
  exact unit_courant_le hdx h

theorem rowCourants3_unit {A : Type*} (u dt dx : K) (hdx : 0 < dx) (h : UnitCourant u dt dx) (aux : Int → Int → Int → A)
    (q : Int → Int → Int → Fin 1 → K) (n : Nat) (hj hk : Int) :
    ∀ y ∈ rowCourants3 (fun ql qr _ _ => advectionRp u ql qr () ()) dt dx none aux q n hj hk, y ≤ 1 := by
  rintro y ⟨_, _, _, _, _, _, _, _, _, _, hy⟩
  rw [hy, C37_plain]
  exact unit_courant_le hdx h

/-- C84, the two-dimensional split kernel with any order and limiter. -/
theorem C84_split2 (undef u v : K) (cfg : Cfg2 K 1) (hdx : 0 < cfg.dx) (hdy : 0 < cfg.dy) (hfw : cfg.fwave = false)
    (c : ParCfg (Fin 2) K) (hr : ClassicRun c 1 naux (intSplit2 undef (ignoreAux naux (advectionRp u)) (ignoreAux naux (advectionRp v)) cfg none))
    (hg : cfg.g = c.bc.g) (hp : PeriodicGrid c.bc) (L T : K) (N : Nat)
    (s : StepState K (GArr (Fin 2) K) (GArr (Fin 2) K × BCArrays (Fin 2) K)) (hF : FixedSteps s T N)
    (hu : UnitCourant u s.set.dt cfg.dx) (hv : UnitCourant v s.set.dt cfg.dy) :
    let res := evolveToTime (serialEnv c id L) (some T) s
    res.2 = .ok () ∧ res.1.sol.t = T ∧ res.1.status.numsteps = s.status.numsteps + N ∧
      ∀ x : Fin 2 → Nat, (∀ a, x a < c.bc.n a) →
        res.1.sol.q 0 x = s.sol.q 0 (cellBefore c.bc.n (fun a => N * ![heading u, heading v] a) x) := by
  have hgh := hr.ghost
  have hdt : 0 ≤ s.set.dt := (lt_trans (by positivity) hF.dt).le
  have hb := heading_bounds v
  refine exact_run c _ hr hp ![heading u, heading v]
    (fun a => by fin_cases a; exacts [heading_bounds u, heading_bounds v]) L T N s hF ?_
  intro A Q
  refine ⟨_, _, rfl, ?_, fun w hw => ?_⟩
  · rcases (C37_split2_cfl undef (ignoreAux naux (advectionRp u)) (ignoreAux naux (advectionRp v))
      { cfg with mx := c.bc.n 0, my := c.bc.n 1, dt := s.set.dt } (by simp only; omega) hdt hdx hdy none (fun i j => A ![i, j])
      (fun i j => Q ![i, j]) (by simp)).2.2 with hc | hc | hc
    · exact hc.le.trans zero_le_one
    · exact rowCourants_unit u s.set.dt cfg.dx hdx hu _ _ _ _ _ _ hc
    · exact rowCourants_unit v s.set.dt cfg.dy hdy hv _ _ _ _ _ _ hc
  · have h0 := hw 0
    have h1 := hw 1
    obtain ⟨X, x1, x2, x3⟩ := C42_sweeps undef (ignoreAux naux (advectionRp u)) (ignoreAux naux (advectionRp v))
      { cfg with mx := c.bc.n 0, my := c.bc.n 1, dt := s.set.dt } (by simp only; omega) none (fun i j => A ![i, j])
      (fun i j => Q ![i, j]) (by simp)
    obtain ⟨r', cfl', k1, k2⟩ := x3 (w 0) h0.1 h0.2
    have k3 := k2 (w 1) h1.1 h1.2
    rw [k3]
    obtain ⟨r2, cfl2, m1, m2, m3⟩ := fStep1_exact (naux := naux) undef v
      ⟨c.bc.n 1, cfg.g, s.set.dt, cfg.dy, cfg.order, cfg.fwave, cfg.limiter⟩
      (by simp only; omega) hdt hdy hfw hv (fun j => A ![w 0, j]) (fun j => X (w 0) j)
    rw [m1] at k1
    cases k1
    rw [m3 (w 1) h1.1 h1.2]
    obtain ⟨r3, cfl3, l1, l2⟩ := x1 (w 1 - heading v) (by simp only; omega) (by simp only; omega)
    rw [l2 (w 0) h0.1 h0.2]
    obtain ⟨r4, cfl4, n1, n2, n3⟩ := fStep1_exact (naux := naux) undef u
      ⟨c.bc.n 0, cfg.g, s.set.dt, cfg.dx, cfg.order, cfg.fwave, cfg.limiter⟩
      (by simp only; omega) hdt hdx hfw hu (fun i => A ![i, w 1 - heading v]) (fun i => Q ![i, w 1 - heading v])
    rw [n1] at l1
    cases l1
    rw [n3 (w 0) h0.1 h0.2]
    congr 2
    funext a
    fin_cases a <;> rfl

/-- C84, the three-dimensional split kernel with any order and limiter. -/
theorem C84_split3 (undef u v z : K) (cfg : Cfg3 K 1) (hdx : 0 < cfg.dx) (hdy : 0 < cfg.dy) (hdz : 0 < cfg.dz) (hfw : cfg.fwave = false)
    (c : ParCfg (Fin 3) K) (hr : ClassicRun c 1 naux (intSplit3 undef (ignoreAux naux (advectionRp u)) (ignoreAux naux (advectionRp v))
      (ignoreAux naux (advectionRp z)) cfg none))
    (hg : cfg.g = c.bc.g) (hp : PeriodicGrid c.bc) (L T : K) (N : Nat)
    (s : StepState K (GArr (Fin 3) K) (GArr (Fin 3) K × BCArrays (Fin 3) K)) (hF : FixedSteps s T N)
    (hu : UnitCourant u s.set.dt cfg.dx) (hv : UnitCourant v s.set.dt cfg.dy) (hz : UnitCourant z s.set.dt cfg.dz) :
    let res := evolveToTime (serialEnv c id L) (some T) s
    res.2 = .ok () ∧ res.1.sol.t = T ∧ res.1.status.numsteps = s.status.numsteps + N ∧
      ∀ x : Fin 3 → Nat, (∀ a, x a < c.bc.n a) →
        res.1.sol.q 0 x = s.sol.q 0 (cellBefore c.bc.n (fun a => N * ![heading u, heading v, heading z] a) x) := by
  have hgh := hr.ghost
  have hdt : 0 ≤ s.set.dt := (lt_trans (by positivity) hF.dt).le
  have hb := heading_bounds v
  have hb2 := heading_bounds z
  refine exact_run c _ hr hp ![heading u, heading v, heading z]
    (fun a => by fin_cases a; exacts [heading_bounds u, heading_bounds v, heading_bounds z]) L T N s hF ?_
  intro A Q
  refine ⟨_, _, rfl, ?_, fun w hw => ?_⟩
  · rcases (C37_split3_cfl undef (ignoreAux naux (advectionRp u)) (ignoreAux naux (advectionRp v)) (ignoreAux naux (advectionRp z))
      { cfg with mx := c.bc.n 0, my := c.bc.n 1, mz := c.bc.n 2, dt := s.set.dt } (by simp only; omega) hdt hdx hdy hdz none
      (fun i j k => A ![i, j, k]) (fun i j k => Q ![i, j, k]) (by simp)).2.2 with hc | (hc | hc) | hc
    · exact hc.le.trans zero_le_one
    · exact rowCourants3_unit u s.set.dt cfg.dx hdx hu _ _ _ _ _ _ hc
    · exact rowCourants3_unit v s.set.dt cfg.dy hdy hv _ _ _ _ _ _ hc
    · exact rowCourants3_unit z s.set.dt cfg.dz hdz hz _ _ _ _ _ _ hc
  · have h0 := hw 0
    have h1 := hw 1
    have h2 := hw 2
    obtain ⟨X, Y, x1, x2, x3, x4, x5⟩ := C71_sweeps undef (ignoreAux naux (advectionRp u)) (ignoreAux naux (advectionRp v))
      (ignoreAux naux (advectionRp z)) { cfg with mx := c.bc.n 0, my := c.bc.n 1, mz := c.bc.n 2, dt := s.set.dt } (by simp only; omega) none
      (fun i j k => A ![i, j, k]) (fun i j k => Q ![i, j, k]) (by simp)
    obtain ⟨r', cfl', k1, k2⟩ := x5 (w 0) (w 1) h0.1 h0.2 h1.1 h1.2
    have k3 := k2 (w 2) h2.1 h2.2
    rw [k3]
    obtain ⟨r2, cfl2, m1, m2, m3⟩ := fStep1_exact (naux := naux) undef z
      ⟨c.bc.n 2, cfg.g, s.set.dt, cfg.dz, cfg.order, cfg.fwave, cfg.limiter⟩
      (by simp only; omega) hdt hdz hfw hz (fun k => A ![w 0, w 1, k]) (fun k => Y (w 0) (w 1) k)
    rw [m1] at k1
    cases k1
    rw [m3 (w 2) h2.1 h2.2]
    obtain ⟨r3, cfl3, l1, l2⟩ := x3 (w 0) (w 2 - heading z) h0.1 h0.2 (by omega) (by simp only; omega)
    rw [l2 (w 1) h1.1 h1.2]
    obtain ⟨r4, cfl4, n1, n2, n3⟩ := fStep1_exact (naux := naux) undef v
      ⟨c.bc.n 1, cfg.g, s.set.dt, cfg.dy, cfg.order, cfg.fwave, cfg.limiter⟩
      (by simp only; omega) hdt hdy hfw hv (fun j => A ![w 0, j, w 2 - heading z]) (fun j => X (w 0) j (w 2 - heading z))
    rw [n1] at l1
    cases l1
    rw [n3 (w 1) h1.1 h1.2]
    obtain ⟨r5, cfl5, p1, p2⟩ := x1 (w 1 - heading v) (w 2 - heading z) (by omega)
      (by simp only; omega) (by omega) (by simp only; omega)
    rw [p2 (w 0) h0.1 h0.2]
    obtain ⟨r6, cfl6, o1, o2, o3⟩ := fStep1_exact (naux := naux) undef u
      ⟨c.bc.n 0, cfg.g, s.set.dt, cfg.dx, cfg.order, cfg.fwave, cfg.limiter⟩
      (by simp only; omega) hdt hdx hfw hu (fun i => A ![i, w 1 - heading v, w 2 - heading z])
      (fun i => Q ![i, w 1 - heading v, w 2 - heading z])
    rw [o1] at p1
    cases p1
    rw [o3 (w 0) h0.1 h0.2]
    congr 2
    funext a
    fin_cases a <;> rfl

/-- C84, the two-dimensional unsplit kernel: first order with transverse propagation. -/
theorem C84_unsplit2 (undef u v : K) (cfg : Cfg2 K 1) (hdx : 0 < cfg.dx) (hdy : 0 < cfg.dy) (ho : cfg.order = 1) (ht : 0 < cfg.trans)
    (c : ParCfg (Fin 2) K) (hr : ClassicRun c 1 naux (intUnsplit2 undef (ignoreAux naux (advectionRp u)) (ignoreAux naux (advectionRp v))
      (ignoreAux2 naux (advectionRt v)) (ignoreAux2 naux (advectionRt u)) cfg none))
    (hg : cfg.g = c.bc.g) (hp : PeriodicGrid c.bc) (L T : K) (N : Nat)
    (s : StepState K (GArr (Fin 2) K) (GArr (Fin 2) K × BCArrays (Fin 2) K)) (hF : FixedSteps s T N)
    (hu : UnitCourant u s.set.dt cfg.dx) (hv : UnitCourant v s.set.dt cfg.dy) :
    let res := evolveToTime (serialEnv c id L) (some T) s
    res.2 = .ok () ∧ res.1.sol.t = T ∧ res.1.status.numsteps = s.status.numsteps + N ∧
      ∀ x : Fin 2 → Nat, (∀ a, x a < c.bc.n a) →
        res.1.sol.q 0 x = s.sol.q 0 (cellBefore c.bc.n (fun a => N * ![heading u, heading v] a) x) := by
  have hgh := hr.ghost
  have hdt : 0 ≤ s.set.dt := (lt_trans (by positivity) hF.dt).le
  refine exact_run c _ hr hp ![heading u, heading v]
    (fun a => by fin_cases a; exacts [heading_bounds u, heading_bounds v]) L T N s hF ?_
  intro A Q
  refine ⟨_, _, rfl, ?_, fun w hw => ?_⟩
  · rcases (C37_unsplit2_cfl undef (ignoreAux naux (advectionRp u)) (ignoreAux naux (advectionRp v))
      (ignoreAux2 naux (advectionRt v)) (ignoreAux2 naux (advectionRt u))
      { cfg with mx := c.bc.n 0, my := c.bc.n 1, dt := s.set.dt } hdt hdx hdy none (fun i j => A ![i, j])
      (fun i j => Q ![i, j]) (by simp)).2.2 with hc | hc | hc
    · exact hc.le.trans zero_le_one
    · exact rowCourants_unit u s.set.dt cfg.dx hdx hu _ _ _ _ _ _ hc
    · exact rowCourants_unit v s.set.dt cfg.dy hdy hv _ _ _ _ _ _ hc
  · have h0 := hw 0
    have h1 := hw 1
    refine (C75_corner_transport2 undef u v { cfg with mx := c.bc.n 0, my := c.bc.n 1, dt := s.set.dt } (by simp only; omega) ho ht
      (fun i j => Q ![i, j]) (w 0) (w 1) h0.1 h0.2 h1.1 h1.2).trans ?_
    rw [upwind_exact _ v (unit_ratio hdy hv), upwind_exact _ u (unit_ratio hdx hu)]
    congr 2
    funext a
    fin_cases a <;> rfl

/-- C84, the three-dimensional unsplit kernel: first order with transverse and double transverse propagation. -/
theorem C84_unsplit3 (undef u v z : K) (cfg : Cfg3 K 1) (hdx : 0 < cfg.dx) (hdy : 0 < cfg.dy) (hdz : 0 < cfg.dz) (ho : cfg.order = 1)
    (ht : cfg.trans = 11) (stale : Int → Fin 1 → K)
    (c : ParCfg (Fin 3) K) (hr : ClassicRun c 1 naux (intUnsplit3 undef (ignoreAux naux (advectionRp u)) (ignoreAux naux (advectionRp v))
      (ignoreAux naux (advectionRp z)) (ignoreAux3 naux (advectionRt3 v z)) (ignoreAux3 naux (advectionRt3 z u))
      (ignoreAux3 naux (advectionRt3 u v)) (ignoreAux33 naux (advectionRtt3 v z)) (ignoreAux33 naux (advectionRtt3 z u))
      (ignoreAux33 naux (advectionRtt3 u v)) cfg none stale))
    (hg : cfg.g = c.bc.g) (hp : PeriodicGrid c.bc) (L T : K) (N : Nat)
    (s : StepState K (GArr (Fin 3) K) (GArr (Fin 3) K × BCArrays (Fin 3) K)) (hF : FixedSteps s T N)
    (hu : UnitCourant u s.set.dt cfg.dx) (hv : UnitCourant v s.set.dt cfg.dy) (hz : UnitCourant z s.set.dt cfg.dz) :
    let res := evolveToTime (serialEnv c id L) (some T) s
    res.2 = .ok () ∧ res.1.sol.t = T ∧ res.1.status.numsteps = s.status.numsteps + N ∧
      ∀ x : Fin 3 → Nat, (∀ a, x a < c.bc.n a) →
        res.1.sol.q 0 x = s.sol.q 0 (cellBefore c.bc.n (fun a => N * ![heading u, heading v, heading z] a) x) := by
  have hgh := hr.ghost
  have hdt : 0 ≤ s.set.dt := (lt_trans (by positivity) hF.dt).le
  refine exact_run c _ hr hp ![heading u, heading v, heading z]
    (fun a => by fin_cases a; exacts [heading_bounds u, heading_bounds v, heading_bounds z]) L T N s hF ?_
  intro A Q
  refine ⟨_, _, rfl, ?_, fun w hw => ?_⟩
  · rcases (C37_unsplit3_cfl undef (ignoreAux naux (advectionRp u)) (ignoreAux naux (advectionRp v)) (ignoreAux naux (advectionRp z))
      (ignoreAux3 naux (advectionRt3 v z)) (ignoreAux3 naux (advectionRt3 z u)) (ignoreAux3 naux (advectionRt3 u v))
      (ignoreAux33 naux (advectionRtt3 v z)) (ignoreAux33 naux (advectionRtt3 z u)) (ignoreAux33 naux (advectionRtt3 u v))
      { cfg with mx := c.bc.n 0, my := c.bc.n 1, mz := c.bc.n 2, dt := s.set.dt } hdt hdx hdy hdz none stale
      (fun i j k => A ![i, j, k]) (fun i j k => Q ![i, j, k]) (by simp)).2.2 with hc | (hc | hc) | hc
    · exact hc.le.trans zero_le_one
    · exact rowCourants3_unit u s.set.dt cfg.dx hdx hu _ _ _ _ _ _ hc
    · exact rowCourants3_unit v s.set.dt cfg.dy hdy hv _ _ _ _ _ _ hc
    · exact rowCourants3_unit z s.set.dt cfg.dz hdz hz _ _ _ _ _ _ hc
  · have h0 := hw 0
    have h1 := hw 1
    have h2 := hw 2
    refine (C75_corner_transport3 undef u v z { cfg with mx := c.bc.n 0, my := c.bc.n 1, mz := c.bc.n 2, dt := s.set.dt } (by simp only; omega) ho ht stale
      (fun i j k => Q ![i, j, k]) (w 0) (w 1) (w 2) h0.1 h0.2 h1.1 h1.2 h2.1 h2.2).trans ?_
    rw [upwind_exact _ z (unit_ratio hdz hz), upwind_exact _ v (unit_ratio hdy hv), upwind_exact _ u (unit_ratio hdx hu)]
    congr 2
    funext a
    fin_cases a <;> rfl

/-! ### The hypotheses are met -/

/-- Fixed steps of 1/4 on a grid of 4 cells of width 1/4. -/
def exFixed1 : StepState ℚ (GArr (Fin 1) ℚ) (GArr (Fin 1) ℚ × BCArrays (Fin 1) ℚ) where
  set := ⟨false, 1 / 4, none, 1, 1, 9 / 10, 100, 1 / 2⟩
  status := {}
  sol := exStart1.sol
  log := []

/-- Non-vacuity of `C84_python1`: six steps to `T = 3/2` with velocity 1. -/
example : FixedSteps exFixed1 (3 / 2) 6 ∧ UnitCourant (1 : ℚ) exFixed1.set.dt (1 / 4) ∧ PeriodicGrid exPeriodic1.bc ∧
    ClassicRun exPeriodic1 1 0
      (intPyStep1 (pyLimiterFun fun _ _ _ => 0) (ignoreAux 0 (advectionRp 1)) ⟨4, 2, 1, 1 / 4, 2, false, fun _ => 4⟩ none) := by
  refine ⟨⟨rfl, by norm_num, ?_, ?_, ?_, ?_⟩, .inl ?_, exPeriodic1_grid, exPeriodic1_run⟩ <;> simp only [exFixed1, exStart1] <;> norm_num

/-- One step of it, computed: the data have moved by one cell, and the `dt = 1` the kernel was configured with does not matter. -/
example : (List.range 4).map (fun i => exFixed1.sol.q 0 fun _ => i) = [0, 8, 4, 0] ∧
    (List.range 4).map (fun i => (evolveToTime (serialEnv exPeriodic1 id 1) (some (1 / 4)) exFixed1).1.sol.q 0 fun _ => i) = [0, 0, 8, 4] := by
  decide +kernel

/-- A run of the unsplit solver on a periodic grid of 3 by 4 cells, moving down the first axis and up the second. -/
def exDiagonal (step : IntKern (Fin 2) ℚ 1 0) : ParCfg (Fin 2) ℚ where
  bc := ⟨2, ![3, 4], 1, 0, fun _ => .periodic, fun _ => .periodic, fun _ => .periodic, fun _ => .periodic, fun _ => 0,
    fun _ => true, fun _ => true, none, none, none, none⟩
  axes := [0, 1]
  kern := onArrays 1 0 2 step
  sourceSplit := 1
  source := none
  beforeQ := fun _ _ q _ => q
  beforeAux := fun _ _ _ a => a

theorem exDiagonal_run (step : IntKern (Fin 2) ℚ 1 0) : ClassicRun (exDiagonal step) 1 0 step where
  homogeneous := ⟨rfl, fun _ _ _ _ => rfl, fun _ _ _ _ => rfl⟩
  ghost := le_refl 2
  numAux := rfl
  axes := rfl
  kern := rfl

theorem exDiagonal_grid (step : IntKern (Fin 2) ℚ 1 0) : PeriodicGrid (exDiagonal step).bc where
  cells := by
    intro a
    fin_cases a
    · exact ⟨(by decide : 0 < 3), (by decide : 2 ≤ 3)⟩
    · exact ⟨(by decide : 0 < 4), (by decide : 2 ≤ 4)⟩
  serial := fun _ => ⟨rfl, rfl⟩
  q := fun _ => ⟨rfl, rfl⟩
  aux := fun _ => ⟨rfl, rfl⟩

/-- Five fixed steps of 1/4. -/
def exFixed2 : StepState ℚ (GArr (Fin 2) ℚ) (GArr (Fin 2) ℚ × BCArrays (Fin 2) ℚ) where
  set := ⟨false, 1 / 4, none, 1, 1, 9 / 10, 100, 1 / 2⟩
  status := {}
  sol := ⟨0, fun _ x => 10 * x 0 + x 1, (fun _ _ => 0, ⟨fun _ _ => 0, fun _ _ => 0⟩)⟩
  log := []

/-- The unsplit first-order kernel with velocities `-1` and `2` on cells of `1/4` by `1/2`. -/
def exDiagonalStep : IntKern (Fin 2) ℚ 1 0 :=
  intUnsplit2 0 (ignoreAux 0 (advectionRp (-1))) (ignoreAux 0 (advectionRp 2)) (ignoreAux2 0 (advectionRt 2))
    (ignoreAux2 0 (advectionRt (-1))) ⟨3, 4, 2, 1, 1 / 4, 1 / 2, 1, 2, false, fun _ => 4⟩ none

/-- Non-vacuity of `C84_unsplit2`, and of `C84_split2` with the same settings. -/
example : FixedSteps exFixed2 (5 / 4) 5 ∧ UnitCourant (-1 : ℚ) exFixed2.set.dt (1 / 4) ∧ UnitCourant (2 : ℚ) exFixed2.set.dt (1 / 2) ∧
    PeriodicGrid (exDiagonal exDiagonalStep).bc ∧ ClassicRun (exDiagonal exDiagonalStep) 1 0 exDiagonalStep := by
  refine ⟨⟨rfl, by norm_num, ?_, ?_, ?_, ?_⟩, .inl ?_, .inl ?_, exDiagonal_grid _, exDiagonal_run _⟩ <;> simp only [exFixed2] <;> norm_num

/-- What `C84_unsplit2` says about cell `(0, 0)`: its value was five cells up the first axis and five cells down the second one. -/
example : (evolveToTime (serialEnv (exDiagonal exDiagonalStep) id 1) (some (5 / 4)) exFixed2).1.sol.q 0 (fun _ => 0) = 23 := by
  have h := (C84_unsplit2 (naux := 0) (0 : ℚ) (-1) 2 ⟨3, 4, 2, 1, 1 / 4, 1 / 2, 1, 2, false, fun _ => 4⟩ (by norm_num) (by norm_num) rfl
    (by norm_num) (exDiagonal exDiagonalStep) (exDiagonal_run _) rfl (exDiagonal_grid _) 1 (5 / 4) 5 exFixed2
    (by refine ⟨rfl, by norm_num, ?_, ?_, ?_, ?_⟩ <;> simp only [exFixed2] <;> norm_num) (.inl (by simp only [exFixed2]; norm_num))
    (.inl (by simp only [exFixed2]; norm_num))).2.2.2 (fun _ => 0) (fun a => by fin_cases a <;> decide)
  rw [h]
  simp only [exFixed2, exDiagonal, cellBefore, heading]
  norm_num [show Int.toNat 2 = 2 from rfl, show Int.toNat 3 = 3 from rfl]

end PyClaw
