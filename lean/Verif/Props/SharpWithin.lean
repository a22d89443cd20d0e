import Verif.Lemmas.SharpWithin
import Verif.Props.SharpTime

/-!
C77: no evaluation of the right-hand side in an accepted step has a Courant number above the limit.
-/
set_option linter.unusedSectionVars false
namespace PyClaw
open Spec

variable {K E : Type*} [Field K] [LinearOrder K] [IsStrictOrderedRing K] [AddCommGroup E] [Module K E]

/-- One step of the method `T` as `Tableau.Step`, all of whose stages have property `P`. -/
def Spec.Tableau.StepWhere {n : Nat} (T : Tableau K n) (f : K → E → E) (P : K → E → Prop) (dt t : K) (q q' : E) : Prop :=
  ∃ k : Fin n → E, (∀ i, k i = f (t + T.c i * dt) (q + dt • ∑ j, T.a i j • k j)) ∧
    (∀ i, P (t + T.c i * dt) (q + dt • ∑ j, T.a i j • k j)) ∧ q' = q + dt • ∑ i, T.b i • k i

/-- C77. Any sequence of calls of `evolve_to_time` with a Runge-Kutta method and variable steps: every accepted step is a step of the
method all of whose stages, with the step size taken, have a Courant number of at most `cfl_max`. -/
theorem C77_every_stage_within_limit [FloorRing K] {n : Nat} {T : Tableau K n} {env : SharpEnv K E} {c : SharpCfg K} {f : K → E → E}
    {nu : K → E → K} (hs : Semidiscrete env f nu) (hT : Selects c.integ n T) (hv : c.dtVariable = true)
    (hd : 0 < c.cflDesired) (hdm : c.cflDesired ≤ c.cflMax) (hm : 0 < c.dtMax)
    {r0 : SharpRun K E} (h0 : FreshSolver r0) (ks : List (SharpGoal K)) :
    ∀ a ∈ (sharpSessionC env c ks r0).1.log, a.outcome = .accepted →
      T.StepWhere f (fun t q => a.dt * nu t q ≤ c.cflMax) a.dt a.tBefore (env.before a.tBefore a.qBefore) a.qAfter := by
  intro a ha hacc
  obtain ⟨hr, hq⟩ := sessionC_stages hs hT hv hd hdm hm ks (fresh_inv T env c f nu h0) (by rw [h0.log]; simp)
  have hok := hr.ok a ha
  obtain ⟨k, hk, e⟩ := (hok.accepted hacc).2
  have hle : a.cfl ≤ c.cflMax := by
    rcases hok.decided with ⟨_, h⟩ | ⟨h, _⟩
    · exact h
    · rw [hacc] at h; cases h
  exact ⟨k, hk, fun i => le_trans (hq a ha k hk i) hle, e⟩

/-- `q' = (1 + t) q` with the Courant number `dt * (1 + t)`: the later stages have larger Courant numbers than the beginning of the step. -/
def growEnv : SharpEnv ℚ ℚ := ⟨fun dt t q => (dt * ((1 + |t|) * q), dt * (1 + |t|)), fun _ q => q, fun _ q => q⟩

theorem growStart_fresh : FreshSolver (decayStart (2 / 5)) := ⟨by norm_num [decayStart], rfl, rfl, rfl⟩

/-- The hypotheses are met. The first attempt obeys the limit `1/2` at its beginning (`2/5`); it is rejected on account of its second stage
(`14/25`). -/
example : Semidiscrete growEnv (fun t q => (1 + |t|) * q) (fun t _ => 1 + |t|) ∧ (∃ T, Selects (decayCfg true .ssp33).integ 3 T) ∧
    FreshSolver (decayStart (2 / 5)) ∧
    ((sharpSessionC growEnv (decayCfg true .ssp33) [⟨some 1, 4⟩] (decayStart (2 / 5))).1.log.map
      fun a => (a.outcome, a.dt, a.cfl)).take 1 = [(.rejected, 2 / 5, 14 / 25)] :=
  ⟨⟨fun _ _ => by positivity, fun _ _ _ => rfl, fun _ _ _ _ => rfl, fun _ _ => rfl⟩, ⟨_, .ssp33⟩, growStart_fresh, by decide +kernel⟩

end PyClaw
