import Verif.Lemmas.Units
import Verif.Props.Mirror

/-!
C101: the results do not depend on the units of length, time and of the solution.
-/
set_option linter.unusedSectionVars false

namespace PyClaw
open Spec

variable {K : Type*} [Field K] [LinearOrder K] [IsStrictOrderedRing K] {m w naux : Nat}

/-! ### The time loop -/

/-- C101, the time loop with variable steps: if `before_step`, the hyperbolic step and the gauges do the same in both units, then every
session does: the same steps, accepted and rejected, at the same times, with the same Courant numbers. -/
theorem C101_time_loop [FloorRing K] {Q W : Type*} {c : K} {R : Q × W → Q × W → Prop} {env env' : StepEnv K Q W}
    (E : UnitEnv c R env env') (ts : List (Option K)) (s s' : StepState K Q W) (hv : s.set.dtVariable = true) (h : SameRun c R s s') :
    SameRun c R (runSteps env (callsTo ts) s) (runSteps env' (callsTo (ts.map fun t => t.map (c * ·))) s') :=
  run_unit E ts s s' hv h

theorem pyInt_add_small [FloorRing K] {x : K} (N : Nat) (h0 : 0 ≤ x) (h1 : x < 1) : pyInt ((N : K) + x) = N := by
  unfold pyInt
  rw [if_pos (add_nonneg (Nat.cast_nonneg N) h0), Int.floor_eq_iff]
  push_cast
  exact ⟨by linarith, by linarith⟩

theorem fixedSetup_divides [FloorRing K] (t dt : K) (set : StepSettings K) (hdt : set.dt = dt) (N : Nat) (h : 1 / 10 ^ 10 < dt) :
    fixedSetup id t (some (t + N * dt)) set = (.ok { set with maxSteps := (N : Int) }, { set with maxSteps := (N : Int) }) := by
  have hp : (0 : K) < 1 / 10 ^ 10 := by positivity
  have hd : 0 < dt := lt_trans hp h
  unfold fixedSetup
  simp only [id, hdt, if_neg hd.ne']
  have e : pyInt ((t + N * dt - t + 1 / 10 ^ 10) / dt) = N := by
    have : (t + N * dt - t + 1 / 10 ^ 10) / dt = (N : K) + 1 / 10 ^ 10 / dt := by
      rw [add_sub_cancel_left, add_div, mul_div_assoc, div_self hd.ne', mul_one]
    rw [this]
    exact pyInt_add_small N (div_nonneg hp.le hd.le) ((div_lt_one hd).mpr h)
  rw [e, if_neg]
  push_cast
  rw [add_sub_cancel_left, sub_self, abs_zero, not_lt]
  positivity

/-- C101, the time loop with fixed steps: a call in exact arithmetic to a time that the steps meet exactly, the step size being larger
than 1e-10 in both units (see `C101_fixed_step_violated`). -/
theorem C101_fixed_step_partial [FloorRing K] {Q W : Type*} {c : K} {R : Q × W → Q × W → Prop} {env env' : StepEnv K Q W}
    (E : UnitEnv c R env env') (hid : env.rnd = id) (s s' : StepState K Q W) (h : SameRun c R s s')
    (N : Nat) (h1 : 1 / 10 ^ 10 < s.set.dt) (h2 : 1 / 10 ^ 10 < c * s.set.dt) :
    (evolveToTime env' (some (c * (s.sol.t + N * s.set.dt))) s').2 = (evolveToTime env (some (s.sol.t + N * s.set.dt)) s).2 ∧
      SameRun c R (evolveToTime env (some (s.sol.t + N * s.set.dt)) s).1
        (evolveToTime env' (some (c * (s.sol.t + N * s.set.dt))) s').1 := by
  refine evolve_unit_of_setup E (some (s.sol.t + N * s.set.dt)) s s' h fun _ => ⟨{ s.set with maxSteps := (N : Int) }, ?_, ?_⟩
  · rw [hid]
    exact fixedSetup_divides _ _ _ rfl N h1
  · rw [hid, Option.map_some, show c * (s.sol.t + N * s.set.dt) = c * s.sol.t + N * (c * s.set.dt) by ring]
    exact fixedSetup_divides (c * s.sol.t) (c * s.set.dt) (setIn c s.set) rfl N h2

/-- C101 is false of runs with fixed steps: the tolerance 1e-10 in the number of steps has the unit of time. Whatever the problem,
a call that needs fewer than 100000 steps of size at most 1e-10 is refused, although the steps meet the final time exactly. -/
theorem C101_small_steps_refused [FloorRing K] {Q W : Type*} (env : StepEnv K Q W) (hid : env.rnd = id) (s : StepState K Q W)
    (hf : s.set.dtVariable = false) (h0 : 0 < s.set.dt) (h1 : s.set.dt ≤ 1 / 10 ^ 10) (N : Nat) (hN : N < 10 ^ 5) :
    (evolveToTime env (some (s.sol.t + N * s.set.dt)) s).2 =
        .error (.exception "dt does not divide (tend-tstart) and dt is fixed!") ∧
      (evolveToTime env (some (s.sol.t + N * s.set.dt)) s).1.sol = s.sol := by
  have hm : (N : Int) + 1 ≤ pyInt ((s.sol.t + N * s.set.dt - s.sol.t + 1 / 10 ^ 10) / s.set.dt) := by
    have e : (s.sol.t + N * s.set.dt - s.sol.t + 1 / 10 ^ 10) / s.set.dt = (N : K) + 1 / 10 ^ 10 / s.set.dt := by
      rw [add_sub_cancel_left, add_div, mul_div_assoc, div_self h0.ne', mul_one]
    have h2 : 1 ≤ 1 / 10 ^ 10 / s.set.dt := (one_le_div h0).mpr h1
    rw [e]
    unfold pyInt
    rw [if_pos (add_nonneg (Nat.cast_nonneg N) (by linarith)), Int.le_floor]
    push_cast
    linarith
  have key : (fixedSetup id s.sol.t (some (s.sol.t + N * s.set.dt)) s.set).1 =
      .error (.exception "dt does not divide (tend-tstart) and dt is fixed!") := by
    unfold fixedSetup
    simp only [id, if_neg h0.ne']
    rw [if_pos]
    generalize pyInt ((s.sol.t + N * s.set.dt - s.sol.t + 1 / 10 ^ 10) / s.set.dt) = k at hm
    rw [add_sub_cancel_left]
    have hk : ((N : K) + 1) ≤ k := by exact_mod_cast hm
    have hN' : (N : K) < 10 ^ 5 := by exact_mod_cast hN
    refine lt_of_lt_of_le ?_ (le_abs_self _)
    have : s.set.dt ≤ k * s.set.dt - N * s.set.dt := by nlinarith
    refine lt_of_lt_of_le ?_ this
    have : 1 / 10 ^ 5 * (N * s.set.dt) = (N / 10 ^ 5) * s.set.dt := by ring
    rw [this]
    have : (N : K) / 10 ^ 5 < 1 := (div_lt_one (by positivity)).mpr hN'
    nlinarith
  have hf' : ¬ s.set.dtVariable = true := by rw [hf]; decide
  unfold evolveToTime
  simp only [if_neg hf', hid, key]
  exact ⟨trivial, trivial⟩

/-! ### The one-dimensional kernels -/

theorem unit_run1 [FloorRing K] {σ : Fin m → K} {v : K} {RA : (Fin naux → K) → Fin naux → K} {fw : Bool}
    {rp rp' : Riemann K (Fin naux → K) m w} {step step' : IntKern (Fin 1) K m naux} {g : Nat} {a : K → K} {o : Prop} [Decidable o]
    {phi : Fin w → K → K → K} {dx lx tx : K} {capa : Option ((Fin naux → K) → K)} {lo : Int} {ok : (Fin naux → K) → Prop}
    (hL : LineKernel step g a o phi rp dx capa lo ok) (hL' : LineKernel step' g a o phi rp' (lx * dx) capa lo ok)
    (hlo : 0 ≤ lo) (hok : ∀ z, ok (RA z) ↔ ok z) (hv : v = lx / tx) (hl : 0 < lx) (ht : 0 < tx) (hM : InUnits σ v RA fw rp rp')
    (hσ : o → LimitsAlike σ phi) (ha : o → UnitFactor a fw v) (hc : ∀ κ, capa = some κ → ∀ z, κ (RA z) = κ z)
    (c c' : ParCfg (Fin 1) K) (hr : ClassicRun c m naux step) (hr' : ClassicRun c' m naux step') (had : Admissible c.bc)
    (hs : Serial c.bc) (hbc : c'.bc = c.bc) (hg : g = c.bc.g) (rnd : K → K) (hrnd : ∀ x, rnd (tx * x) = tx * rnd x) (L L' : K)
    (ts : List (Option K)) (s s' : StepState K (GArr (Fin 1) K) (GArr (Fin 1) K × BCArrays (Fin 1) K))
    (hvar : s.set.dtVariable = true) (h : SameRun tx (Converted m naux c.bc.n σ RA) s s') :
    SameRun tx (Converted m naux c.bc.n σ RA) (runSteps (serialEnv c rnd L) (callsTo ts) s)
      (runSteps (serialEnv c' rnd L') (callsTo (ts.map fun t => t.map (tx * ·))) s') := by
  subst hg
  have hv0 : 0 < v := by rw [hv]; exact div_pos hl ht
  have hvt : v * tx = lx := by rw [hv, div_mul_cancel₀ _ ht.ne']
  refine run_unit (kernel_unit m naux tx ht c c' step step' hr hr' had hs hbc σ RA ?_ rnd hrnd L L') ts s s' hvar h
  intro dt A A' Q Q' key
  exact unit_step1 hL hL' hlo hok hv0 hl hvt hM hσ ha hc hr.ghost dt c.bc.n A A' Q Q' key

theorem abs_unit {v : K} (hv : 0 < v) : UnitFactor (K := K) abs false v := by
  intro s
  rw [abs_mul, abs_of_pos hv]
  rfl

theorem dsign_unit {v : K} (hv : 0 < v) : UnitFactor (K := K) dsign1 true v := by
  intro s
  have : 0 ≤ v * s ↔ 0 ≤ s := mul_nonneg_iff_of_pos_left hv
  unfold dsign1
  simp only [this, if_true]

theorem npSign_unit {v : K} (hv : 0 < v) : UnitFactor (K := K) npSign true v := by
  intro s
  have h1 : 0 < v * s ↔ 0 < s := mul_pos_iff_of_pos_left hv
  have h2 : v * s < 0 ↔ s < 0 := by
    constructor
    · intro h; by_contra hn; exact absurd h (not_lt.mpr (mul_nonneg hv.le (not_lt.mp hn)))
    · intro h; exact mul_neg_of_pos_of_neg hv h
  unfold npSign
  simp only [h1, h2, if_true]

/-- The units of the components do not matter: all the same, or no limiter, or first order. -/
def UnitsAllowed (σ : Fin m → K) (order : Int) (limiter : Fin w → Int) : Prop :=
  OneUnit σ ∨ order = 1 ∨ ∀ p, limiter p = 0

/-- C101, the one-dimensional Fortran kernel: `lx`, `tx`, `σ` are the factors of the units of length, time, and the components of the
solution. Whatever the boundary conditions (extrapolated, periodic, walls), limiters and capacity function, the run in the other units
takes the same steps and has the same results. Missing: fixed steps other than those of `C101_fixed_step_partial`, limited systems with a
different unit for every component (`C101_limited_components_violated`), user boundary conditions, source terms. -/
theorem C101_fortran1_partial [FloorRing K] {σ : Fin m → K} {RA : (Fin naux → K) → Fin naux → K}
    {rp rp' : Riemann K (Fin naux → K) m w} (undef : K) (cfg : Cfg1 K w) (capa : Option ((Fin naux → K) → K)) (lx tx : K) (hl : 0 < lx)
    (ht : 0 < tx) (hM : InUnits σ (lx / tx) RA cfg.fwave rp rp') (hσ : UnitsAllowed σ cfg.order cfg.limiter)
    (hc : ∀ κ, capa = some κ → ∀ z, κ (RA z) = κ z)
    (c c' : ParCfg (Fin 1) K) (hr : ClassicRun c m naux (intStep1 undef rp cfg capa))
    (hr' : ClassicRun c' m naux (intStep1 undef rp' { cfg with dx := lx * cfg.dx } capa)) (had : Admissible c.bc)
    (hs : Serial c.bc) (hbc : c'.bc = c.bc) (hg : cfg.g = c.bc.g) (rnd : K → K) (hrnd : ∀ x, rnd (tx * x) = tx * rnd x) (L L' : K)
    (ts : List (Option K)) (s s' : StepState K (GArr (Fin 1) K) (GArr (Fin 1) K × BCArrays (Fin 1) K))
    (hvar : s.set.dtVariable = true) (h : SameRun tx (Converted m naux c.bc.n σ RA) s s') :
    SameRun tx (Converted m naux c.bc.n σ RA) (runSteps (serialEnv c rnd L) (callsTo ts) s)
      (runSteps (serialEnv c' rnd L') (callsTo (ts.map fun t => t.map (tx * ·))) s') := by
  have hv0 : 0 < lx / tx := div_pos hl ht
  refine unit_run1 (fortran1_line undef rp cfg capa) (fortran1_line undef rp' { cfg with dx := lx * cfg.dx } capa)
    (by omega) ?_ rfl hl ht hM ?_ ?_ hc c c' hr hr' had hs hbc hg rnd hrnd L L' ts s s' hvar h
  · intro z
    constructor
    · intro h κ hκ; rw [← hc κ hκ]; exact h κ hκ
    · intro h κ hκ; rw [hc κ hκ]; exact h κ hκ
  · intro ho
    rcases hσ with h | h | h
    · exact Or.inl h
    · exact absurd h ho
    · right
      intro p x y
      unfold fPhi
      rw [if_neg (fun hh => hh.2 (h p))]
  · intro ho
    cases hfw : cfg.fwave
    · simp only [Bool.false_eq_true, if_false]; exact abs_unit hv0
    · simp only [if_true]; exact dsign_unit hv0

/-- C101, the one-dimensional Python kernel with the limiters up to 16. -/
theorem C101_python1_partial [FloorRing K] {σ : Fin m → K} {RA : (Fin naux → K) → Fin naux → K}
    {rp rp' : Riemann K (Fin naux → K) m w} (opq : Int → LimFun K) (cfg : Cfg1 K w) (hlim : ∀ p, 0 ≤ cfg.limiter p ∧ cfg.limiter p ≤ 16)
    (capa : Option ((Fin naux → K) → K)) (lx tx : K) (hl : 0 < lx) (ht : 0 < tx) (hM : InUnits σ (lx / tx) RA cfg.fwave rp rp')
    (hσ : UnitsAllowed σ cfg.order cfg.limiter) (hc : ∀ κ, capa = some κ → ∀ z, κ (RA z) = κ z)
    (c c' : ParCfg (Fin 1) K) (hr : ClassicRun c m naux (intPyStep1 (pyLimiterFun opq) rp cfg capa))
    (hr' : ClassicRun c' m naux (intPyStep1 (pyLimiterFun opq) rp' { cfg with dx := lx * cfg.dx } capa)) (had : Admissible c.bc)
    (hs : Serial c.bc) (hbc : c'.bc = c.bc) (hg : cfg.g = c.bc.g) (rnd : K → K) (hrnd : ∀ x, rnd (tx * x) = tx * rnd x) (L L' : K)
    (ts : List (Option K)) (s s' : StepState K (GArr (Fin 1) K) (GArr (Fin 1) K × BCArrays (Fin 1) K))
    (hvar : s.set.dtVariable = true) (h : SameRun tx (Converted m naux c.bc.n σ RA) s s') :
    SameRun tx (Converted m naux c.bc.n σ RA) (runSteps (serialEnv c rnd L) (callsTo ts) s)
      (runSteps (serialEnv c' rnd L') (callsTo (ts.map fun t => t.map (tx * ·))) s') := by
  have hv0 : 0 < lx / tx := div_pos hl ht
  refine unit_run1 (python1_line opq rp cfg (hg ▸ hr.ghost) hlim capa)
    (python1_line opq rp' { cfg with dx := lx * cfg.dx } (hg ▸ hr.ghost) hlim capa)
    (by omega) (fun _ => Iff.rfl) rfl hl ht hM ?_ ?_ hc c c' hr hr' had hs hbc hg rnd hrnd L L' ts s s' hvar h
  · intro ho
    rcases hσ with h | h | h
    · exact Or.inl h
    · rw [h] at ho
      exact absurd ho (by decide)
    · right
      intro p x y
      unfold localPhi
      rw [h p]
      rfl
  · intro ho
    cases hfw : cfg.fwave
    · simp only [Bool.false_eq_true, if_false]; exact abs_unit hv0
    · simp only [if_true]; exact npSign_unit hv0

/-! ### Limited systems in which every component has its own unit -/

/-- Two quantities carried with speed 1 by a single wave (as density and tracer in a flow). -/
def jointRp : Riemann ℚ (Fin 0 → ℚ) 2 1 := fun ql qr _ _ =>
  { wave := fun _ => qr - ql, s := fun _ => 1, amdq := 0, apdq := qr - ql }

/-- The solver is the same in all units of the two quantities. -/
theorem jointRp_units (σ : Fin 2 → ℚ) : InUnits σ 1 id false jointRp jointRp := by
  intro ql qr al ar
  refine ⟨fun p => ?_, fun p k => ?_, fun k => ?_, fun k => ?_⟩ <;> simp [jointRp, signed] <;> ring

/-- Four cells between open ends, minmod. -/
noncomputable def exJoint : ParCfg (Fin 1) ℚ where
  bc := ⟨2, fun _ => 4, 2, 0, fun _ => .extrap, fun _ => .extrap, fun _ => .extrap, fun _ => .extrap, fun _ => 0,
    fun _ => true, fun _ => true, none, none, none, none⟩
  axes := [0]
  kern := onArrays 2 0 2 (intStep1 0 jointRp ⟨4, 2, 1, 1, 2, false, fun _ => 1⟩ none)
  sourceSplit := 1
  source := none
  beforeQ := fun _ _ q _ => q
  beforeAux := fun _ _ _ a => a

theorem exJoint_run : ClassicRun exJoint 2 0 (intStep1 0 jointRp ⟨4, 2, 1, 1, 2, false, fun _ => 1⟩ none) where
  homogeneous := ⟨rfl, fun _ _ _ _ => rfl, fun _ _ _ _ => rfl⟩
  ghost := le_refl 2
  numAux := rfl
  axes := rfl
  kern := rfl

theorem exJoint_admissible : Admissible exJoint.bc where
  cells := fun _ => ⟨(by decide : 0 < 4), (by decide : 2 ≤ 4)⟩
  lower := fun _ => Or.inl rfl
  upper := fun _ => Or.inl rfl
  auxLower := fun _ _ => Or.inl rfl
  auxUpper := fun _ _ => Or.inl rfl
  reflect := fun _ h => by rcases h with h | h <;> cases h

/-- A jump of the first quantity between cells 0 and 1, and of both between cells 1 and 2. The second has the unit `u`. -/
def exJointData (u : ℚ) : HypData (Fin 1) ℚ :=
  ⟨fun k x => if k = 0 then (if x 0 = 0 then 0 else if x 0 = 1 then 1 else 2) else (if x 0 ≤ 1 then 0 else u), fun _ _ => 0,
    ⟨fun _ _ => 0, fun _ _ => 0⟩⟩

theorem exJoint_values (u : ℚ) (i : Nat) (hi : i < 4) (k : Fin 2) :
    (hypSerial exJoint (1 / 2) (exJointData u)).1.q k.val (fun _ => i) =
      lineStep abs True (fun _ r _ => max 0 (min 1 r)) jointRp (1 / 2) 1 none (fun _ _ => 0)
        (fun j k => (exJointData u).q k.val fun _ => foldCell .extrap .extrap 4 j) ((i : Int) + 1) k := by
  obtain ⟨A, Q, f, h⟩ := hyp_line (fortran1_line 0 jointRp ⟨4, 2, 1, 1, 2, false, fun _ => 1⟩ none) exJoint exJoint_run
    exJoint_admissible (fun _ => ⟨rfl, rfl⟩) rfl (fun _ _ h => by cases h) (1 / 2) (exJointData u)
  refine (h k i hi).trans ?_
  have e : fPhi (0 : ℚ) (fun _ : Fin 1 => (1 : Int)) = fun _ r _ => max 0 (min 1 r) := by
    funext p r x
    unfold fPhi
    simp [philim]
  have hQ : ∀ j : Int, -1 ≤ j → j ≤ 6 → (Q fun _ => j) = fun k => (exJointData u).q k.val fun _ => foldCell .extrap .extrap 4 j := by
    intro j j1 j2
    rw [(f (fun _ => j) (fun b => ⟨by simp only [exJoint]; omega, by simp only [exJoint]; omega⟩)).1]
    funext k
    simp [ghostSign, exJoint, pastWall, List.finRange]
  rw [lineStep_local _ _ _ jointRp (1 / 2) 1 none _ (fun _ _ => 0) _
    (fun j k => (exJointData u).q k.val fun _ => foldCell .extrap .extrap 4 j) _
    (fun j _ _ => funext fun k => k.elim0) (fun j j1 j2 => hQ j (by omega) (by omega))]
  simp only [e]
  unfold lineStep
  simp

/-- C101 is false of limited systems in which the unit of one component changes: the limiters compare waves with the scalar product of
all their components. -/
theorem C101_limited_components_violated : ¬ ∀ d d' : HypData (Fin 1) ℚ,
    Converted 2 0 exJoint.bc.n ![1, 2] id (d.q, d.aux, d.work) (d'.q, d'.aux, d'.work) →
    Converted 2 0 exJoint.bc.n ![1, 2] id
      ((hypSerial exJoint (1 / 2) d).1.q, (hypSerial exJoint (1 / 2) d).1.aux, (hypSerial exJoint (1 / 2) d).1.work)
      ((hypSerial exJoint (1 / 2) d').1.q, (hypSerial exJoint (1 / 2) d').1.aux, (hypSerial exJoint (1 / 2) d').1.work) := by
  intro h
  have := h (exJointData 1) (exJointData 2) (by
    intro x hx
    refine ⟨?_, funext fun k => k.elim0⟩
    funext k
    fin_cases k
    · simp [exJointData, signed]
    · simp only [exJointData, signed, id]
      by_cases h2 : x 0 ≤ 1
      · simp [h2]
      · simp [h2])
  have k := congrFun (this (fun _ => 2) (fun _ => (by decide : 2 < 4))).1 0
  simp only [signed, id] at k
  have k1 := exJoint_values 1 2 (by omega) 0
  have k2 := exJoint_values 2 2 (by omega) 0
  rw [show ((0 : Fin 2).val) = 0 from rfl] at k k1 k2
  rw [k1, k2] at k
  revert k
  decide +kernel

/-! ### Concrete runs -/

/-- A problem in which nothing happens, with steps of the size 1. -/
def exIdle : StepEnv ℚ Unit Unit := ⟨id, fun _ d => d, fun _ _ d => (d, .ok 0), fun _ _ => ((), none)⟩

def exIdleStart (dt : ℚ) : StepState ℚ Unit Unit := ⟨⟨false, dt, none, 100 * dt, 1, 9 / 10, 1000, 0⟩, {}, ⟨0, (), ()⟩, []⟩

theorem exIdle_units (c : ℚ) (hc : 0 < c) : UnitEnv c (fun _ _ => True) exIdle exIdle :=
  ⟨hc, rfl, fun _ => rfl, fun _ _ _ _ _ => ⟨rfl, trivial, trivial⟩, fun _ _ _ _ => ⟨rfl, trivial⟩⟩

theorem exIdle_same (c dt : ℚ) : SameRun c (fun _ _ => True) (exIdleStart dt) (exIdleStart (c * dt)) := by
  refine ⟨?_, rfl, (mul_zero c).symm, rfl, trivial⟩
  simp only [exIdleStart, setIn, Option.map_none, StepSettings.mk.injEq, true_and, and_true]
  ring

/-- C101 is false of fixed steps: ten steps of a second are taken, ten steps of 1/10^10 of another unit are refused. -/
theorem C101_fixed_step_violated : ¬ ∀ (c T : ℚ) (s s' : StepState ℚ Unit Unit), 0 < c → UnitEnv c (fun _ _ => True) exIdle exIdle →
    SameRun c (fun _ _ => True) s s' → (evolveToTime exIdle (some (c * T)) s').2 = (evolveToTime exIdle (some T) s).2 := by
  intro h
  have hc : (0 : ℚ) < 1 / 10 ^ 10 := by norm_num
  have h1 := h (1 / 10 ^ 10) 10 _ _ hc (exIdle_units _ hc) (exIdle_same (1 / 10 ^ 10) 1)
  have h2 := (C101_small_steps_refused exIdle rfl (exIdleStart (1 / 10 ^ 10 * 1)) rfl (by simp [exIdleStart]) (by simp [exIdleStart]) 10
    (by norm_num)).1
  have e : (exIdleStart (1 / 10 ^ 10 * 1)).sol.t + ((10 : Nat) : ℚ) * (exIdleStart (1 / 10 ^ 10 * 1)).set.dt = 1 / 10 ^ 10 * 10 := by
    simp only [exIdleStart]; norm_num
  rw [e, h1] at h2
  revert h2
  decide +kernel

/-- Non-vacuity of `C101_time_loop` and `C101_fixed_step_partial`: seconds and milliseconds. -/
example : UnitEnv 1000 (fun _ _ => True) exIdle exIdle ∧ SameRun 1000 (fun _ _ => True) (exIdleStart 1) (exIdleStart (1000 * 1)) ∧
    (1 / 10 ^ 10 : ℚ) < (exIdleStart 1).set.dt ∧ (1 / 10 ^ 10 : ℚ) < 1000 * (exIdleStart 1).set.dt ∧
    (evolveToTime exIdle (some 3) (exIdleStart 1)).1.log.length = 3 :=
  ⟨exIdle_units _ (by norm_num), exIdle_same _ _, by simp only [exIdleStart]; norm_num, by simp only [exIdleStart]; norm_num,
    by decide +kernel⟩

/-- Advection with velocity `u`, in other units: velocity `v u`, and any unit of the solution. -/
theorem advection_units (naux : Nat) (u v μ : K) (hv : 0 < v) :
    InUnits (fun _ => μ) v id false (ignoreAux naux (advectionRp u)) (ignoreAux naux (advectionRp (v * u))) := by
  intro ql qr al ar
  have e1 : min (v * u) 0 = v * min u 0 := by
    have := mul_min' hv u 0
    rwa [mul_zero] at this
  have e2 : max (v * u) 0 = v * max u 0 := by
    have := mul_max' hv u 0
    rwa [mul_zero] at this
  refine ⟨fun p => rfl, fun p k => ?_, fun k => ?_, fun k => ?_⟩
  · simp only [ignoreAux, advectionRp, signed, Pi.sub_apply, Bool.false_eq_true, if_false]; ring
  · simp only [ignoreAux, advectionRp, signed, Pi.sub_apply, Pi.smul_apply, smul_eq_mul, e1]; ring
  · simp only [ignoreAux, advectionRp, signed, Pi.sub_apply, Pi.smul_apply, smul_eq_mul, e2]; ring

/-- Burgers' equation: the solution is a velocity. -/
def burgersRp : Riemann K Unit 1 1 := fun ql qr _ _ =>
  { wave := fun _ => qr - ql, s := fun _ => (ql 0 + qr 0) / 2, amdq := min ((ql 0 + qr 0) / 2) 0 • (qr - ql),
    apdq := max ((ql 0 + qr 0) / 2) 0 • (qr - ql) }

theorem burgers_units (naux : Nat) (v : K) (hv : 0 < v) :
    InUnits (fun _ => v) v id false (ignoreAux naux burgersRp) (ignoreAux naux burgersRp) := by
  intro ql qr al ar
  have e0 : (v * ql 0 + v * qr 0) / 2 = v * ((ql 0 + qr 0) / 2) := by ring
  have e1 : min (v * ((ql 0 + qr 0) / 2)) 0 = v * min ((ql 0 + qr 0) / 2) 0 := by
    have := mul_min' hv ((ql 0 + qr 0) / 2) 0
    rwa [mul_zero] at this
  have e2 : max (v * ((ql 0 + qr 0) / 2)) 0 = v * max ((ql 0 + qr 0) / 2) 0 := by
    have := mul_max' hv ((ql 0 + qr 0) / 2) 0
    rwa [mul_zero] at this
  refine ⟨fun p => e0, fun p k => ?_, fun k => ?_, fun k => ?_⟩
  · simp only [ignoreAux, burgersRp, signed, Pi.sub_apply, Bool.false_eq_true, if_false]; ring
  · simp only [ignoreAux, burgersRp, signed, Pi.sub_apply, Pi.smul_apply, smul_eq_mul, e0, e1]; ring
  · simp only [ignoreAux, burgersRp, signed, Pi.sub_apply, Pi.smul_apply, smul_eq_mul, e0, e2]; ring

/-- Four cells, an open end and a wall. -/
def exFlow (step : IntKern (Fin 1) ℚ 1 0) : ParCfg (Fin 1) ℚ where
  bc := ⟨2, fun _ => 4, 1, 0, fun _ => .extrap, fun _ => .wall, fun _ => .extrap, fun _ => .wall, fun _ => 0,
    fun _ => true, fun _ => true, none, none, none, none⟩
  axes := [0]
  kern := onArrays 1 0 2 step
  sourceSplit := 1
  source := none
  beforeQ := fun _ _ q _ => q
  beforeAux := fun _ _ _ a => a

/-- The velocities in the cells. -/
def exFlowStart (u : Fin 4 → ℚ) (dt dtMax : ℚ) : StepState ℚ (GArr (Fin 1) ℚ) (GArr (Fin 1) ℚ × BCArrays (Fin 1) ℚ) where
  set := ⟨true, dt, none, dtMax, 1, 9 / 10, 100, 1 / 2⟩
  status := {}
  sol := ⟨0, fun _ x => if h : x 0 < 4 then u ⟨x 0, h⟩ else 0, (fun _ _ => 0, ⟨fun _ _ => 0, fun _ _ => 0⟩)⟩
  log := []

/-- Non-vacuity of `C101_fortran1_partial` and `C101_python1_partial`: Burgers' equation in metres and seconds, and in kilometres and
hours (factors 1/1000 and 1/3600, so velocities have the factor 36/10), with the MC limiter and a wall. -/
example (step step' : IntKern (Fin 1) ℚ 1 0) (u : Fin 4 → ℚ) :
    InUnits (fun _ => (36 / 10 : ℚ)) ((1 / 1000) / (1 / 3600)) id false (ignoreAux 0 burgersRp) (ignoreAux 0 burgersRp) ∧
    UnitsAllowed (fun _ : Fin 1 => (36 / 10 : ℚ)) 2 (fun _ : Fin 1 => 4) ∧
    ClassicRun (exFlow step) 1 0 step ∧ Admissible (exFlow step).bc ∧ Serial (exFlow step).bc ∧ (exFlow step').bc = (exFlow step).bc ∧
    SameRun (1 / 3600) (Converted 1 0 (exFlow step).bc.n (fun _ => 36 / 10) id) (exFlowStart u 1 10)
      (exFlowStart (fun i => 36 / 10 * u i) (1 / 3600) (10 / 3600)) := by
  refine ⟨?_, Or.inl ⟨36 / 10 * (36 / 10), by norm_num, fun _ => rfl⟩, ⟨⟨rfl, fun _ _ _ _ => rfl, fun _ _ _ _ => rfl⟩, le_refl 2, rfl, rfl, rfl⟩,
    ⟨fun _ => ⟨(by decide : 0 < 4), (by decide : 2 ≤ 4)⟩, fun _ => Or.inl rfl, fun _ => Or.inr (Or.inr rfl), fun _ _ => Or.inl rfl,
      fun _ _ => Or.inr (Or.inr rfl), fun _ _ => (by decide : 0 < 1)⟩, fun _ => ⟨rfl, rfl⟩, rfl, ?_, rfl, (mul_zero _).symm, rfl, ?_⟩
  · have := burgers_units (K := ℚ) 0 (36 / 10) (by norm_num)
    rwa [show (1 / 1000 : ℚ) / (1 / 3600) = 36 / 10 by norm_num]
  · simp only [exFlowStart, setIn, Option.map_none, StepSettings.mk.injEq, true_and, and_true]
    norm_num
  · intro x hx
    have h0 : x 0 < 4 := hx 0
    refine ⟨?_, funext fun k => k.elim0⟩
    funext k
    simp [exFlowStart, signed, h0]

end PyClaw
