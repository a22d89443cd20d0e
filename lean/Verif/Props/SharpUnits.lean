import Verif.Lemmas.SharpUnits
import Verif.Props.SharpMirror
import Verif.Props.Units

set_option linter.unusedSectionVars false

/-!
C101 for SharpClaw: the results do not depend on the units of length, time and solution in which the problem is stated.
-/
namespace PyClaw
open Spec

variable {K : Type*} [Field K] [LinearOrder K] [IsStrictOrderedRing K] [FloorRing K] {d m w naux : Nat}

/-- C101 for the time loop of SharpClaw with variable steps: in another unit of time, every sequence of `evolve_to_time` calls gives the
same run in this unit, whatever the time integrator. All steps, rejected ones too, have the converted sizes, the Courant numbers are the
same, and all calls return the same. -/
theorem C101_sharp_time_loop {E : Type*} [AddCommGroup E] [Module K E] (c : K) (hc : 0 < c) (env env' : SharpEnv K E)
    (h : SameInTime c env env') (cfg : SharpCfg K) (hv : cfg.dtVariable = true) (goals : List (SharpGoal K)) (r : SharpRun K E) :
    sharpSessionC env' (sharpCfgIn c cfg) (goals.map (sharpGoalIn c)) (sharpRunIn c r) =
      (sharpRunIn c (sharpSessionC env cfg goals r).1, (sharpSessionC env cfg goals r).2) :=
  clock_session hc h cfg hv goals r

/-- C101 for SharpClaw in one dimension: the same problem with the cell size multiplied by `lx`, times by `tx`, component `k` of the solution
by `σ k`, and Riemann solver, `dq_src`, `before_step` and aux array in these units, takes the same steps with the same Courant numbers, and
its solutions, stages and intermediate solutions are the converted ones, with any time integrator. Missing: solutions in another unit with
the WENO reconstructions (`C101_sharp_weno_violated`), fixed steps (`C101_sharp_fixed_step_violated`), the wave-based and characteristic
reconstructions, and capacity functions in a library built so that `dtdx` is numbered from 1. -/
theorem C101_sharp1_partial (f2003 : Bool) (R : ReconCfg K m w) (c c' : SharpGrid (Fin 1) K) (hR : R.Fits c.bc.g)
    (capa : Option ((Fin naux → K) → K)) (hcap : capa = none ∨ f2003 = false) (σ : Fin m → K) (hσ : ReconUnits σ R)
    (lx tx : K) (hl : 0 < lx) (ht : 0 < tx)
    (RA : (Fin naux → K) → Fin naux → K) (hc : ∀ κ, capa = some κ → ∀ z, κ (RA z) = κ z)
    (rp rp' : Riemann K (Fin naux → K) m w) (hM : InUnits σ (lx / tx) RA R.fwave rp rp')
    (tf tf' : TotalFluct K (Fin naux → K) m) (hT : TotalInUnits σ (lx / tx) RA tf tf') (dx : K)
    (hk : c.kern = dqArrays m naux c.bc.g (intFlux1 f2003 R rp tf c.bc.g dx capa))
    (hk' : c'.kern = dqArrays m naux c'.bc.g (intFlux1 f2003 R rp' tf' c'.bc.g (lx * dx) capa))
    (hp : SharpProblem c naux) (hax : c'.axes = c.axes) (hbc : c'.bc = c.bc) (hact : ActionsInUnits m naux σ tx RA c c')
    (aux aux' : GArr (Fin 1) K) (haux : ∀ x : Fin 1 → Nat, (∀ i, x i < c.bc.n i) → auxAt naux aux' x = RA (auxAt naux aux x))
    (cfg : SharpCfg K) (hv : cfg.dtVariable = true) (goals : List (SharpGoal K)) (r r' : SharpRun K (GArr (Fin 1) K))
    (h : SameSharp (ImageOf m c.bc.n id (signed σ)) (sharpRunIn tx r) r') :
    SameSharp (ImageOf m c.bc.n id (signed σ)) (sharpRunIn tx (sharpSessionC (serialSharp c aux) cfg goals r).1)
      (sharpSessionC (serialSharp c' aux') (sharpCfgIn tx cfg) (goals.map (sharpGoalIn tx)) r').1 ∧
    (sharpSessionC (serialSharp c' aux') (sharpCfgIn tx cfg) (goals.map (sharpGoalIn tx)) r').2 =
      (sharpSessionC (serialSharp c aux) cfg goals r).2 := by
  have hg : c'.bc.g = c.bc.g := by rw [hbc]
  rw [hg] at hk'
  exact unit_session ht (unit_linked f2003 R capa (rp := fun _ => rp) (rp' := fun _ => rp') (tf := fun _ => tf) (tf' := fun _ => tf')
    (fun _ => dx) hσ (lx := fun _ => lx) (fun _ => hl) ht c c' hR
    (flux1_sweeps f2003 R c.bc.g capa hcap hR (fun _ => rp) (fun _ => tf) fun _ => dx)
    (flux1_sweeps f2003 R c.bc.g capa hcap hR (fun _ => rp') (fun _ => tf') fun _ => lx * dx) (fun _ => hM) (fun _ => hT) hc hk hk' hp hax hbc
    hact aux aux' haux) (oldClock_same tx c' aux') cfg hv goals h

/-- C101 for SharpClaw in two dimensions; each axis may have its own unit of length. -/
theorem C101_sharp2_partial (f2003 : Bool) (R : ReconCfg K m w) (c c' : SharpGrid (Fin 2) K) (hR : R.Fits c.bc.g)
    (capa : Option ((Fin naux → K) → K)) (hcap : capa = none ∨ f2003 = false) (σ : Fin m → K) (hσ : ReconUnits σ R)
    (lx : Fin 2 → K) (tx : K) (hl : ∀ a, 0 < lx a) (ht : 0 < tx)
    (RA : (Fin naux → K) → Fin naux → K) (hc : ∀ κ, capa = some κ → ∀ z, κ (RA z) = κ z)
    (rp rp' : Fin 2 → Riemann K (Fin naux → K) m w) (hM : ∀ a, InUnits σ (lx a / tx) RA R.fwave (rp a) (rp' a))
    (tf tf' : Fin 2 → TotalFluct K (Fin naux → K) m) (hT : ∀ a, TotalInUnits σ (lx a / tx) RA (tf a) (tf' a)) (dx : Fin 2 → K)
    (hk : c.kern = dqArrays m naux c.bc.g (intFlux2 f2003 R (rp 0) (rp 1) (tf 0) (tf 1) c.bc.g (dx 0) (dx 1) capa))
    (hk' : c'.kern = dqArrays m naux c'.bc.g
      (intFlux2 f2003 R (rp' 0) (rp' 1) (tf' 0) (tf' 1) c'.bc.g (lx 0 * dx 0) (lx 1 * dx 1) capa))
    (hp : SharpProblem c naux) (hax : c'.axes = c.axes) (hbc : c'.bc = c.bc) (hact : ActionsInUnits m naux σ tx RA c c')
    (aux aux' : GArr (Fin 2) K) (haux : ∀ x : Fin 2 → Nat, (∀ i, x i < c.bc.n i) → auxAt naux aux' x = RA (auxAt naux aux x))
    (cfg : SharpCfg K) (hv : cfg.dtVariable = true) (goals : List (SharpGoal K)) (r r' : SharpRun K (GArr (Fin 2) K))
    (h : SameSharp (ImageOf m c.bc.n id (signed σ)) (sharpRunIn tx r) r') :
    SameSharp (ImageOf m c.bc.n id (signed σ)) (sharpRunIn tx (sharpSessionC (serialSharp c aux) cfg goals r).1)
      (sharpSessionC (serialSharp c' aux') (sharpCfgIn tx cfg) (goals.map (sharpGoalIn tx)) r').1 ∧
    (sharpSessionC (serialSharp c' aux') (sharpCfgIn tx cfg) (goals.map (sharpGoalIn tx)) r').2 =
      (sharpSessionC (serialSharp c aux) cfg goals r).2 := by
  have hg : c'.bc.g = c.bc.g := by rw [hbc]
  rw [hg] at hk'
  have S := flux2_wide f2003 R c.bc.g capa hcap hR (rp 0) (rp 1) (tf 0) (tf 1) (dx 0) (dx 1)
  have S' := flux2_wide f2003 R c.bc.g capa hcap hR (rp' 0) (rp' 1) (tf' 0) (tf' 1) (lx 0 * dx 0) (lx 1 * dx 1)
  simp only [eta_two] at S S'
  rw [show ![lx 0 * dx 0, lx 1 * dx 1] = fun a => lx a * dx a from eta_two fun a => lx a * dx a] at S'
  exact unit_session ht (unit_linked f2003 R capa dx hσ hl ht c c' hR S S' hM hT hc hk hk' hp hax hbc hact aux aux' haux)
    (oldClock_same tx c' aux') cfg hv goals h

/-- C101 for SharpClaw in three dimensions. -/
theorem C101_sharp3_partial (f2003 : Bool) (R : ReconCfg K m w) (c c' : SharpGrid (Fin 3) K) (hR : R.Fits c.bc.g)
    (capa : Option ((Fin naux → K) → K)) (hcap : capa = none ∨ f2003 = false) (σ : Fin m → K) (hσ : ReconUnits σ R)
    (lx : Fin 3 → K) (tx : K) (hl : ∀ a, 0 < lx a) (ht : 0 < tx)
    (RA : (Fin naux → K) → Fin naux → K) (hc : ∀ κ, capa = some κ → ∀ z, κ (RA z) = κ z)
    (rp rp' : Fin 3 → Riemann K (Fin naux → K) m w) (hM : ∀ a, InUnits σ (lx a / tx) RA R.fwave (rp a) (rp' a))
    (tf tf' : Fin 3 → TotalFluct K (Fin naux → K) m) (hT : ∀ a, TotalInUnits σ (lx a / tx) RA (tf a) (tf' a)) (dx : Fin 3 → K)
    (hk : c.kern = dqArrays m naux c.bc.g
      (intFlux3 f2003 R (rp 0) (rp 1) (rp 2) (tf 0) (tf 1) (tf 2) c.bc.g (dx 0) (dx 1) (dx 2) capa))
    (hk' : c'.kern = dqArrays m naux c'.bc.g
      (intFlux3 f2003 R (rp' 0) (rp' 1) (rp' 2) (tf' 0) (tf' 1) (tf' 2) c'.bc.g (lx 0 * dx 0) (lx 1 * dx 1) (lx 2 * dx 2) capa))
    (hp : SharpProblem c naux) (hax : c'.axes = c.axes) (hbc : c'.bc = c.bc) (hact : ActionsInUnits m naux σ tx RA c c')
    (aux aux' : GArr (Fin 3) K) (haux : ∀ x : Fin 3 → Nat, (∀ i, x i < c.bc.n i) → auxAt naux aux' x = RA (auxAt naux aux x))
    (cfg : SharpCfg K) (hv : cfg.dtVariable = true) (goals : List (SharpGoal K)) (r r' : SharpRun K (GArr (Fin 3) K))
    (h : SameSharp (ImageOf m c.bc.n id (signed σ)) (sharpRunIn tx r) r') :
    SameSharp (ImageOf m c.bc.n id (signed σ)) (sharpRunIn tx (sharpSessionC (serialSharp c aux) cfg goals r).1)
      (sharpSessionC (serialSharp c' aux') (sharpCfgIn tx cfg) (goals.map (sharpGoalIn tx)) r').1 ∧
    (sharpSessionC (serialSharp c' aux') (sharpCfgIn tx cfg) (goals.map (sharpGoalIn tx)) r').2 =
      (sharpSessionC (serialSharp c aux) cfg goals r).2 := by
  have hg : c'.bc.g = c.bc.g := by rw [hbc]
  rw [hg] at hk'
  have S := flux3_wide f2003 R c.bc.g capa hcap hR (rp 0) (rp 1) (rp 2) (tf 0) (tf 1) (tf 2) (dx 0) (dx 1) (dx 2)
  have S' := flux3_wide f2003 R c.bc.g capa hcap hR (rp' 0) (rp' 1) (rp' 2) (tf' 0) (tf' 1) (tf' 2) (lx 0 * dx 0) (lx 1 * dx 1) (lx 2 * dx 2)
  simp only [eta_three] at S S'
  rw [show ![lx 0 * dx 0, lx 1 * dx 1, lx 2 * dx 2] = fun a => lx a * dx a from eta_three fun a => lx a * dx a] at S'
  exact unit_session ht (unit_linked f2003 R capa dx hσ hl ht c c' hR S S' hM hT hc hk hk' hp hax hbc hact aux aux' haux)
    (oldClock_same tx c' aux') cfg hv goals h

/-! ### Where it fails -/

/-- C101 is false of the WENO reconstructions and the unit of the solution: they compare differences of the solution with a constant. -/
theorem C101_sharp_weno_violated :
    ∃ q q' : GArr (Fin 1) ℚ, ImageOf 1 (fun _ => 4) id (signed fun _ => 1000) q q' ∧
      ¬ ImageOf 1 (fun _ => 4) id (signed fun _ => 1000)
        (dqSerial (driftSharp 1 4 3 { wenoRing with eps := 1 / 10 ^ 36 }) (fun _ _ => 0) (1 / 2) 0 q).1
        (dqSerial (driftSharp 1 4 3 { wenoRing with eps := 1 / 10 ^ 36 }) (fun _ _ => 0) (1 / 2) 0 q').1 := by
  refine ⟨fun _ x => (x 0 : ℚ) ^ 2, fun _ x => 1000 * (x 0 : ℚ) ^ 2, fun x _ => ?_, fun h => ?_⟩
  · funext k
    simp [signed]
  · have h0 := congrFun (h (fun _ => 0) (fun _ => by norm_num)) 0
    revert h0
    decide +kernel

/-- A problem in which nothing happens. -/
def exStill : SharpEnv ℚ ℚ := ⟨fun _ _ _ => (0, 0), fun _ q => q, fun _ q => q⟩

/-- A fresh run with steps of the size `dt`. -/
def exStillStart (dt : ℚ) : SharpRun ℚ ℚ := ⟨⟨dt, none, 0, true, 0, 0, [], [], [], [], 0, false, 0, 7⟩, 1000, none, []⟩

/-- C101 is false of fixed steps: two steps of a second are taken, two steps of 1/10^10 of another unit are refused. -/
theorem C101_sharp_fixed_step_violated : SameInTime (1 / 10 ^ 10) exStill exStill ∧
    let cfg : SharpCfg ℚ := ⟨.euler, false, 1000, 1, 9 / 10, 1, 1, false⟩
    let a := sharpSessionC exStill cfg [⟨some 2, 1000⟩] (exStillStart 1)
    let b := sharpSessionC exStill (sharpCfgIn (1 / 10 ^ 10) cfg) ([⟨some 2, 1000⟩].map (sharpGoalIn (1 / 10 ^ 10)))
      (sharpRunIn (1 / 10 ^ 10) (exStillStart 1))
    a.2.map Except.isOk = [true] ∧ a.1.st.t = 2 ∧ b.2.map Except.isOk = [false] ∧ b.1.st.t = 0 :=
  ⟨⟨fun _ _ _ => rfl, fun _ _ => rfl, fun _ _ => rfl⟩, by decide +kernel⟩

/-! ### Problems that meet the hypotheses -/

/-- The TVD reconstruction for any number of equations and waves. -/
def tvdAny (m w : Nat) : ReconCfg ℚ m w := { wenoAny m w with limType := 1 }

theorem tvdAny_fits (m w : Nat) (σ : Fin m → ℚ) (h : ∀ k, σ k ≠ 0) : (tvdAny m w).Fits 3 ∧ (tvdAny m w).Supported 3 ∧ ReconUnits σ (tvdAny m w) := by
  refine ⟨⟨by norm_num, ?_, ?_, ?_⟩, ?_, h, fun h => absurd rfl h⟩
  · simp [tvdAny, wenoAny]
  · simp [tvdAny, wenoAny]
  · simp [tvdAny, wenoAny]
  · simp [ReconCfg.Supported, reconRow, fRecon, tvdAny, wenoAny]

/-- Two quantities that both move with the velocity `u`. -/
def bothRp (u : ℚ) : Riemann ℚ (Fin 0 → ℚ) 2 2 := fun ql qr _ _ =>
  ⟨![![qr 0 - ql 0, 0], ![0, qr 1 - ql 1]], fun _ => u, min u 0 • (qr - ql), max u 0 • (qr - ql)⟩

theorem both_units (u v : ℚ) (hv : 0 < v) (σ : Fin 2 → ℚ) : InUnits σ v id false (bothRp u) (bothRp (v * u)) := by
  intro ql qr al ar
  have e1 : min (v * u) 0 = v * min u 0 := by
    have := mul_min' hv u 0
    rwa [mul_zero] at this
  have e2 : max (v * u) 0 = v * max u 0 := by
    have := mul_max' hv u 0
    rwa [mul_zero] at this
  refine ⟨fun p => rfl, fun p k => ?_, fun k => ?_, fun k => ?_⟩
  · fin_cases p <;> fin_cases k <;> simp [bothRp, signed] <;> ring
  · simp only [bothRp, signed, Pi.sub_apply, Pi.smul_apply, smul_eq_mul, e1]; ring
  · simp only [bothRp, signed, Pi.sub_apply, Pi.smul_apply, smul_eq_mul, e2]; ring

/-- The problem of `exImage` with the source term in the unit of time with factor `tx`. -/
def exInTime (tx : ℚ) (d m : Nat) (n : Fin d → Nat) (lo up : Fin d → BCType) (step : IntKern (Fin d) ℚ m 0) : SharpGrid (Fin d) ℚ :=
  { exImage d m n lo up step with source := some fun dt _ _ q _ k => dt / tx * q k }

theorem exInTime_actions (tx : ℚ) (ht : tx ≠ 0) (d m : Nat) (n : Fin d → Nat) (lo up : Fin d → BCType) (step step' : IntKern (Fin d) ℚ m 0)
    (σ : Fin m → ℚ) : ActionsInUnits m 0 σ tx id (exImage d m n lo up step) (exInTime tx d m n lo up step') where
  source := Or.inr ⟨_, _, rfl, rfl, fun dt t x _ u u' a a' hu _ => funext fun k => by
    have := congrFun hu k
    simp only [signed] at this ⊢
    rw [this, mul_div_cancel_left₀ _ ht]
    ring⟩
  before := fun t x _ u u' a a' hu _ => hu
  stage := fun t x _ u u' a a' hu _ => hu

/-- A Riemann solver with all speeds multiplied by `v`. -/
def fasterRp {A : Type*} {m w : Nat} (v : ℚ) (rp : Riemann ℚ A m w) : Riemann ℚ A m w := fun ql qr al ar =>
  { rp ql qr al ar with s := fun p => v * (rp ql qr al ar).s p, amdq := v • (rp ql qr al ar).amdq, apdq := v • (rp ql qr al ar).apdq }

theorem faster_units {A : Type*} {m w : Nat} (v : ℚ) (rp : Riemann ℚ A m w) : InUnits (fun _ => 1) v id false rp (fasterRp v rp) := by
  intro ql qr al ar
  have e : ∀ q : Fin m → ℚ, signed (fun _ => 1) q = q := fun q => funext fun k => one_mul _
  simp [e, fasterRp]

theorem exSharpStart_units {d m : Nat} (n : Fin d → Nat) (σ : Fin m → ℚ) (tx : ℚ) (q q' : GArr (Fin d) ℚ)
    (h : ImageOf m n id (signed σ) q q') :
    SameSharp (ImageOf m n id (signed σ)) (sharpRunIn tx (exSharpStart q)) (sharpRunIn tx (exSharpStart q')) := by
  have h0 : ImageOf m n id (signed σ) (0 : GArr (Fin d) ℚ) 0 := fun x _ => funext fun k => (mul_zero _).symm
  have h1 : ImageOf m n id (signed σ) (tx⁻¹ • (0 : GArr (Fin d) ℚ)) (tx⁻¹ • 0) := by rw [smul_zero]; exact h0
  exact ⟨rfl, rfl, rfl, rfl, rfl, rfl, rfl, rfl, rfl, rfl, rfl, rfl, h, h1, .cons ⟨h0, rfl⟩ (.cons ⟨h0, rfl⟩ .nil), .nil, .nil⟩

/-- Non-vacuity of `C101_sharp1_partial`: two quantities advected with velocity 2 between a wall and an open end, the first in a unit a
thousand times smaller, the second of the other sign, lengths in kilometres and times in hours, componentwise TVD reconstruction. The theorem
applies to all settings with variable steps, goals and initial values. -/
example (cfg : SharpCfg ℚ) (hv : cfg.dtVariable = true) (goals : List (SharpGoal ℚ)) (q : GArr (Fin 1) ℚ) :=
  C101_sharp1_partial true (tvdAny 2 2)
    (exImage 1 2 (fun _ => 4) (fun _ => .wall) (fun _ => .extrap) (intFlux1 true (tvdAny 2 2) (bothRp 2) none 3 (1 / 4) none))
    (exInTime (1 / 3600) 1 2 (fun _ => 4) (fun _ => .wall) (fun _ => .extrap)
      (intFlux1 true (tvdAny 2 2) (bothRp (1 / 1000 / (1 / 3600) * 2)) none 3 (1 / 1000 * (1 / 4)) none))
    (tvdAny_fits 2 2 ![1000, -1] (fun k => by fin_cases k <;> simp)).1 none (Or.inl rfl) ![1000, -1]
    (tvdAny_fits 2 2 ![1000, -1] (fun k => by fin_cases k <;> simp)).2.2 (1 / 1000) (1 / 3600) (by norm_num) (by norm_num)
    id (fun _ h => by cases h) (bothRp 2) (bothRp (1 / 1000 / (1 / 3600) * 2)) (both_units _ _ (by norm_num) _) none none trivial (1 / 4) rfl rfl
    (exSharp_problem 1 2 _ (fun _ => by norm_num) _ _ (fun _ => by simp [BuiltInBC]) (fun _ => by simp [BuiltInBC]) (by norm_num) _) rfl rfl
    (exInTime_actions (1 / 3600) (by norm_num) 1 2 _ _ _ _ _ _) (fun _ _ => 0) (fun _ _ => 0) (fun _ _ => funext fun k => k.elim0) cfg hv goals
    (exSharpStart q) (sharpRunIn (1 / 3600) (exSharpStart fun k x => (if k = 1 then -1 else 1000) * q k x))
    (exSharpStart_units _ _ _ _ _ fun x _ => funext fun k => by fin_cases k <;> simp [signed])

/-- Non-vacuity of `C101_sharp3_partial`: sound in a box of 3 by 4 by 5 cells with WENO5, each axis with its own unit of length. -/
example (cfg : SharpCfg ℚ) (hv : cfg.dtVariable = true) (goals : List (SharpGoal ℚ)) (q : GArr (Fin 3) ℚ) :=
  C101_sharp3_partial true (wenoAny 4 2)
    (exSharpCube ![3, 4, 5] ![.wall, .periodic, .extrap] ![.extrap, .periodic, .wall] ![1, 2, 3])
    (exInTime 60 3 4 ![3, 4, 5] ![.wall, .periodic, .extrap] ![.extrap, .periodic, .wall]
      (intFlux3 true (wenoAny 4 2) (fasterRp (7 / 60) (cubeRp 0)) (fasterRp (8 / 60) (cubeRp 1)) (fasterRp (9 / 60) (cubeRp 2)) none none none 3
        (7 * 1) (8 * 2) (9 * 3) none))
    (wenoAny_fits 4 2).1 none (Or.inl rfl) (fun _ => 1) ⟨fun _ => one_ne_zero, fun _ _ => Or.inl rfl⟩ ![7, 8, 9] 60
    (fun a => by fin_cases a <;> simp) (by norm_num) id (fun _ h => by cases h) cubeRp (fun a => fasterRp (![7, 8, 9] a / 60) (cubeRp a))
    (fun a => faster_units _ _) (fun _ => none) (fun _ => none) (fun _ => trivial) ![1, 2, 3] rfl rfl
    (exSharp_problem 3 4 _ (fun a => by fin_cases a <;> simp) _ _ (fun a => by fin_cases a <;> simp [BuiltInBC])
      (fun a => by fin_cases a <;> simp [BuiltInBC]) (by norm_num) _) rfl rfl
    (exInTime_actions 60 (by norm_num) 3 4 _ _ _ _ _ _) (fun _ _ => 0) (fun _ _ => 0) (fun _ _ => funext fun k => k.elim0) cfg hv goals
    (exSharpStart q) (sharpRunIn 60 (exSharpStart q))
    (exSharpStart_units _ _ _ _ _ fun x _ => funext fun k => by simp [signed])

end PyClaw
