import Verif.Props.Controller
import Verif.Props.EvolveDt
set_option linter.unusedSectionVars false

/-!
# Controller and time loop together (C31)
-/
namespace PyClaw
open Spec Ctrl

variable {K Q W : Type*} [Field K] [LinearOrder K] [FloorRing K] [IsStrictOrderedRing K]

/-- The controller driving the solver model of `Model/Evolve.lean`; a set-up solver, no failing writes. -/
def solverEnv (env : StepEnv K Q W) : RunEnv K (StepState K Q W) where
  time := fun s => s.sol.t
  prepare := fun s => (s, .ok ())
  evolve := fun te s => evolveToTime env te s
  writeErr := fun _ _ => none

/-- What a call to a later time preserves. -/
theorem evolve_keeps (env : StepEnv K Q W) (hrnd : env.rnd = id) (T : K) (s : StepState K Q W)
    (hv : s.set.dtVariable = true) (hroom : s.set.cflDesired ≤ s.set.cflMax)
    (hdt : 0 < s.set.dt) (hmax : 0 < s.set.dtMax)
    (hcd : 0 < s.set.cflDesired) (hT : s.sol.t < T) :
    SameParams s.set (evolveToTime env (some T) s).1.set ∧ 0 < (evolveToTime env (some T) s).1.set.dt ∧
      (evolveToTime env (some T) s).1.set.maxSteps = s.set.maxSteps := by
  rcases evolveToTime_cases env (some T) s with ⟨m, e, _, he, _⟩ | ⟨m, _, _, hm, _, h1, _⟩
  · exact absurd (he hv) (not_lt.mpr hroom)
  · have hms := hm hv (by intro T' h; cases h; exact hT)
    subst hms
    rw [h1]
    obtain ⟨_, _, hP, _⟩ := evolveLoop_induct env s.sol.t (some T)
      (fun _ _ s' => SameParams s.set s'.set ∧ 0 < s'.set.dt ∧ s'.set.maxSteps = s.set.maxSteps)
      (fun n k s' a hP hlt ha => by
        obtain ⟨p1, p2, p3⟩ := hP
        obtain ⟨q1, q2, q3, _, _⟩ := attempt_params ha
        refine ⟨p1.trans q1, ?_, q2.trans p3⟩
        rw [q3, ha.dt, hrnd]
        exact getDt_pos _ _ _ _ _ p2 (p1.dtMax ▸ hmax) (p1.cflDesired ▸ hcd) (hlt T rfl))
      s.set.maxSteps.toNat 0 0 s ⟨SameParams.refl _, hdt, rfl⟩ (by intro _ T' h; cases h; exact hT)
    exact hP

/-- C31, end to end. Style 1 with `N ≥ 1` output times, a solver whose Courant number is proportional to
`dt` with bounded factor (C29's liveness hypotheses up to `tfinal`): the run returns normally and writes
exactly the frames `start, …, start+N`, at the `N+1` equispaced times from the initial time to `tfinal`. -/
theorem C31_end_to_end (env : StepEnv K Q W) (hrnd : env.rnd = id) (lam : K → Q → K) (Λ : K)
    (hp : Proportional env lam Λ) (cfg : RunCfg K (StepState K Q W)) (c : Ctrl K (StepState K Q W))
    (hs : cfg.outputStyle = 1) (N : Nat) (hN : 0 < N) (hn : cfg.numOutputTimes = N)
    (ho : cfg.output = true) (hnp : cfg.computeP = none) (hnf : cfg.computeF = none)
    (hg : cfg.overwrite = true)
    (hv : c.sol.set.dtVariable = true) (hdt : 0 < c.sol.set.dt) (hmax : 0 < c.sol.set.dtMax)
    (hT : c.sol.sol.t < cfg.tfinal) (hcd : 0 < c.sol.set.cflDesired)
    (hroom : c.sol.set.cflDesired ≤ c.sol.set.cflMax)
    (hΛ : 0 ≤ Λ)
    (hroom' : c.sol.set.cflDesired + Λ * (cfg.tfinal / 10 ^ 14) ≤ c.sol.set.cflMax)
    (k : Nat) (hk : cfg.tfinal - c.sol.sol.t ≤ k * min c.sol.set.dtMax (c.sol.set.cflDesired / Λ))
    (hsteps : (2 * k + 1 : Int) ≤ c.sol.set.maxSteps) :
    (run cfg (solverEnv env) c).2 = .ok () ∧
    ∃ fs t, (run cfg (solverEnv env) c).1.written = c.written ++ fs ∧
      Equispaced c.sol.sol.t cfg.tfinal N t ∧
      fs.map (·.number) = List.range' c.startFrame (N + 1) ∧
      fs.map (fun f => f.content.sol.t) = (List.range (N + 1)).map t := by
  set t0 := c.sol.sol.t with ht0
  set h := (cfg.tfinal - t0) / N with hh
  have hNpos : (0 : K) < N := by exact_mod_cast hN
  have hhpos : 0 < h := div_pos (by linarith) hNpos
  obtain ⟨l1, l2⟩ := linspace_equispaced t0 cfg.tfinal N hN
  have hook_id : hook cfg = id := by funext s; simp [hook, hookP, hnp, hnf]
  -- one call
  have good : ∀ (T : K) (s : StepState K Q W), SameParams c.sol.set s.set → 0 < s.set.dt →
      s.set.maxSteps = c.sol.set.maxSteps → t0 ≤ s.sol.t → s.sol.t < T → T ≤ cfg.tfinal →
      (evolveToTime env (some T) s).2 = .ok () ∧ (evolveToTime env (some T) s).1.sol.t = T ∧
      SameParams c.sol.set (evolveToTime env (some T) s).1.set ∧
      0 < (evolveToTime env (some T) s).1.set.dt ∧
      (evolveToTime env (some T) s).1.set.maxSteps = c.sol.set.maxSteps := by
    intro T s hsp hd hms h1 h2 h3
    have hroomT : s.set.cflDesired + Λ * (T / 10 ^ 14) ≤ s.set.cflMax := by
      rw [hsp.cflDesired, hsp.cflMax]
      have : Λ * (T / 10 ^ 14) ≤ Λ * (cfg.tfinal / 10 ^ 14) :=
        mul_le_mul_of_nonneg_left (div_le_div_of_nonneg_right h3 (by positivity)) hΛ
      linarith
    obtain ⟨r1, r2⟩ := C29_reaches_target env hrnd lam Λ hp T s (hsp.dtVariable.trans hv) hd
      (hsp.dtMax ▸ hmax) h2 (hsp.cflDesired ▸ hcd) (by rw [hsp.cflDesired, hsp.cflMax]; exact hroom)
      hroomT k (by rw [hsp.dtMax, hsp.cflDesired]; linarith) (by rw [hms]; exact hsteps)
    obtain ⟨r3, r4, r5⟩ := evolve_keeps env hrnd T s (hsp.dtVariable.trans hv)
      (by rw [hsp.cflDesired, hsp.cflMax]; exact hroom) hd (hsp.dtMax ▸ hmax) (hsp.cflDesired ▸ hcd) h2
    exact ⟨r1, r2, hsp.trans r3, r4, r5.trans hms⟩
  -- the loop
  have loop_ok : ∀ (M : Nat) (i frame : Nat) (c' : Ctrl K (StepState K Q W)), i + M = N →
      SameParams c.sol.set c'.sol.set → 0 < c'.sol.set.dt →
      c'.sol.set.maxSteps = c.sol.set.maxSteps → c'.sol.sol.t = t0 + i * h →
      (loop cfg (solverEnv env) ((List.range' i M).map fun j => t0 + (j + 1 : Nat) * h) frame c').2 = .ok () := by
    intro M
    induction M with
    | zero => intros; rfl
    | succ M ih =>
      intro i frame c' hi hsp hd hms ht
      have hle : t0 + (i + 1 : Nat) * h ≤ cfg.tfinal := by
        have : ((i + 1 : Nat) : K) ≤ N := by exact_mod_cast (by omega : i + 1 ≤ N)
        have h2 : ((i + 1 : Nat) : K) * h ≤ N * h := mul_le_mul_of_nonneg_right this hhpos.le
        have h3 : (N : K) * h = cfg.tfinal - t0 := by rw [hh]; field_simp
        linarith
      have hlt : c'.sol.sol.t < t0 + (i + 1 : Nat) * h := by rw [ht]; push_cast; linarith
      have hge : t0 ≤ c'.sol.sol.t := by
        rw [ht]; have : 0 ≤ (i : K) * h := by positivity
        linarith
      obtain ⟨g1, g2, g3, g4, g5⟩ := good _ c'.sol hsp hd hms hge hlt hle
      rw [List.range'_succ, List.map_cons, loop]
      have hadv : advance cfg (solverEnv env) (t0 + (i + 1 : Nat) * h) c' =
          ({ c' with sol := (evolveToTime env (some (t0 + (i + 1 : Nat) * h)) c'.sol).1,
                     calls := c'.calls ++ [some (t0 + (i + 1 : Nat) * h)] },
            (evolveToTime env (some (t0 + (i + 1 : Nat) * h)) c'.sol).2) := by
        simp [advance, hs, callEvolve, solverEnv]
      rw [hadv, g1]
      simp only
      obtain ⟨_, _, _, _, o5, _⟩ := outputFrame_spec cfg (solverEnv env) (frame + 1) cfg.writeAuxAlways false
        (keep cfg { c' with sol := (evolveToTime env (some (t0 + (i + 1 : Nat) * h)) c'.sol).1,
                            calls := c'.calls ++ [some (t0 + (i + 1 : Nat) * h)] })
      have hokO : (outputFrame cfg (solverEnv env) (frame + 1) cfg.writeAuxAlways false
          (keep cfg { c' with sol := (evolveToTime env (some (t0 + (i + 1 : Nat) * h)) c'.sol).1,
                              calls := c'.calls ++ [some (t0 + (i + 1 : Nat) * h)] })).2 = .ok () := by
        simp [outputFrame, ho, writeP, hnp, writeQ, solverEnv]
      have p1 := (o5 hokO).1
      rw [hook_id, (keep_spec _ _).1] at p1
      rcases hO : outputFrame cfg (solverEnv env) (frame + 1) cfg.writeAuxAlways false
          (keep cfg { c' with sol := (evolveToTime env (some (t0 + (i + 1 : Nat) * h)) c'.sol).1,
                              calls := c'.calls ++ [some (t0 + (i + 1 : Nat) * h)] }) with ⟨c2, e | u⟩
      · rw [hO] at hokO; simp at hokO
      · rw [hO] at p1
        simp only [id] at p1 ⊢
        exact ih (i + 1) (frame + 1) c2 (by omega) (by rw [p1]; exact g3) (by rw [p1]; exact g4)
          (by rw [p1]; exact g5) (by rw [p1]; exact g2)
  have ht : outputTimes cfg ((solverEnv env).time ((solverEnv env).prepare c.sol).1) c.startFrame = .ok (t0 ::
      (List.range' 0 N).map (fun i => t0 + (i + 1 : Nat) * h)) := by
    change outputTimes cfg t0 c.startFrame = _
    unfold outputTimes
    rw [if_pos hs, hn, if_neg (by omega), show ((N : Int) + 1).toNat = N + 1 by omega, l1,
      List.range_succ_eq_map, ← List.range_eq_range']
    simp [Function.comp_def, hh]
  have hok : (run cfg (solverEnv env) c).2 = .ok () := by
    rcases run_cases cfg (solverEnv env) c with ⟨_, e2, _⟩ | ⟨t0', ts', c2, r, _, g2, g3, _, _, _, _, _, g9, _, g11⟩
    · -- the run cannot stop before the loop
      exfalso
      have hg' : (setupGauges cfg c).written = c.written := by unfold setupGauges; split_ifs <;> rfl
      have hsol : (setupGauges cfg c).sol = c.sol := by unfold setupGauges; split_ifs <;> rfl
      have hnw : (run cfg (solverEnv env) c).1.written ≠ c.written := by
        unfold run
        simp only [hsol]
        rw [ht]
        simp only [show (solverEnv env).prepare c.sol = (c.sol, Except.ok ()) from rfl]
        rw [if_neg (by rw [hg]; simp)]
        set c1 := keep cfg { setupGauges cfg c with sol := c.sol } with hc1
        obtain ⟨_, _, _, _, o5, _⟩ := outputFrame_spec cfg (solverEnv env) c.startFrame
          (cfg.writeAuxAlways || cfg.writeAuxInit) true c1
        have hokO : (outputFrame cfg (solverEnv env) c.startFrame
          (cfg.writeAuxAlways || cfg.writeAuxInit) true c1).2 = .ok () := by
          simp [outputFrame, ho, writeP, hnp, writeQ, solverEnv]
        have p2 := (o5 hokO).2.1
        rw [if_pos ho] at p2
        rcases hO : outputFrame cfg (solverEnv env) c.startFrame
          (cfg.writeAuxAlways || cfg.writeAuxInit) true c1 with ⟨c2, e | u⟩
        · rw [hO] at hokO; simp at hokO
        · rw [hO] at p2
          simp only at p2 ⊢
          have hc1w : c1.written = c.written := by rw [hc1, (keep_spec _ _).2.2.1]; exact hg'
          obtain ⟨m, hm⟩ := loop_facts cfg (solverEnv env)
            ((List.range' 0 N).map (fun i => t0 + (i + 1 : Nat) * h)) c.startFrame c2
          have hw := hm.written
          rw [p2, hc1w] at hw
          clear hm
          revert hw
          rcases loop cfg (solverEnv env) ((List.range' 0 N).map (fun i => t0 + (i + 1 : Nat) * h))
            c.startFrame c2 with ⟨c3, e | u⟩ <;>
          · intro hw
            simp only at hw ⊢
            rw [hw]
            intro hcontra
            have := congrArg List.length hcontra
            simp at this
      exact hnw e2
    · rw [ht] at g2
      simp only [Except.ok.injEq, List.cons.injEq] at g2
      obtain ⟨_, rfl⟩ := g2
      refine g11.mpr ⟨?_, ?_⟩
      · rw [hook_id] at g3
        have g3' : c2.sol = c.sol := g3
        rw [g9]
        exact loop_ok N 0 c.startFrame c2 (by omega) (by rw [g3']; exact SameParams.refl _)
          (by rw [g3']; exact hdt) (by rw [g3']) (by rw [g3']; simp [ht0])
      · rintro (h | ⟨h, _⟩)
        · have := congrArg List.length h
          simp only [List.length_map, List.length_range', List.length_nil] at this
          omega
        · rw [hs] at h; simp at h
  refine ⟨hok, ?_⟩
  obtain ⟨fs, h1, h2, h3, h4, h5, _, _⟩ := C31_frames cfg (solverEnv env) c ho ht
  have hlen : fs.length = N + 1 := by simpa using h5 hok
  refine ⟨fs, _, h1, l2, by rw [h2, hlen], ?_⟩
  -- times
  have vis : ∀ (M i : Nat) (y : StepState K Q W), i + M = N → SameParams c.sol.set y.set → 0 < y.set.dt →
      y.set.maxSteps = c.sol.set.maxSteps → y.sol.t = t0 + i * h →
      (visited (advSol cfg (solverEnv env)) (hook cfg) y
        ((List.range' i M).map fun j => t0 + (j + 1 : Nat) * h)).map (fun s => s.sol.t) =
        (List.range' i M).map fun j => t0 + (j + 1 : Nat) * h := by
    intro M
    induction M with
    | zero => intros; rfl
    | succ M ih =>
      intro i y hi hsp hd hms hty
      have hle : t0 + (i + 1 : Nat) * h ≤ cfg.tfinal := by
        have : ((i + 1 : Nat) : K) ≤ N := by exact_mod_cast (by omega : i + 1 ≤ N)
        have h2 : ((i + 1 : Nat) : K) * h ≤ N * h := mul_le_mul_of_nonneg_right this hhpos.le
        have h3 : (N : K) * h = cfg.tfinal - t0 := by rw [hh]; field_simp
        linarith
      have hlt : y.sol.t < t0 + (i + 1 : Nat) * h := by rw [hty]; push_cast; linarith
      have hge : t0 ≤ y.sol.t := by
        rw [hty]; have : 0 ≤ (i : K) * h := by positivity
        linarith
      obtain ⟨g1, g2, g3, g4, g5⟩ := good _ y hsp hd hms hge hlt hle
      have hadv : advSol cfg (solverEnv env) (t0 + (i + 1 : Nat) * h) y =
          (evolveToTime env (some (t0 + (i + 1 : Nat) * h)) y).1 := by
        simp [advSol, hs, solverEnv]
      rw [List.range'_succ, List.map_cons, visited, List.map_cons, hadv, g2, hook_id]
      congr 1
      have := ih (i + 1) (evolveToTime env (some (t0 + (i + 1 : Nat) * h)) y).1 (by omega) g3 g4 g5 g2
      rw [hook_id] at this
      exact this
  have h3' := congrArg (List.map (fun s : StepState K Q W => s.sol.t)) h3
  have hpid : hookP cfg = id := by funext s; simp [hookP, hnp]
  have hvis := vis N 0 c.sol (by omega) (SameParams.refl _) hdt rfl (by simp [ht0])
  rw [hpid, List.map_id, hlen, List.map_map] at h3'
  have hlenV : (visited (advSol cfg (solverEnv env)) (hook cfg) c.sol
      ((List.range' 0 N).map fun j => t0 + (j + 1 : Nat) * h)).length = N := by
    have := congrArg List.length hvis
    simpa using this
  rw [hook_id] at h3' hlenV hvis
  have hprep : ((solverEnv env).prepare c.sol).1 = c.sol := rfl
  rw [hprep] at h3'
  simp only [id] at h3'
  rw [List.take_of_length_le (by rw [List.length_cons, hlenV]), List.map_cons, hvis] at h3'
  have : (fun f : FrameFile (StepState K Q W) => f.content.sol.t) =
      (fun s : StepState K Q W => s.sol.t) ∘ (fun f => f.content) := rfl
  rw [this, h3', List.range_succ_eq_map, List.map_cons, List.map_map, ← List.range_eq_range']
  simp [Function.comp_def, hh, ht0]

/-- The hypotheses of `C31_end_to_end` on the controller and the solver are met by a run of the solver of
C29's example over `[0,1]` with four output times. -/
example :
    let cfg : RunCfg ℚ (StepState ℚ Unit Unit) :=
      { outputStyle := 1, tfinal := 1, numOutputTimes := 4, outTimes := [], nstepout := 1, keepCopy := true,
        output := true, overwrite := true, writeAuxInit := false, writeAuxAlways := false,
        computeP := none, computeF := none, numGauges := 0 }
    let c : Ctrl ℚ (StepState ℚ Unit Unit) :=
      { sol := { calmState with set := { calmState.set with maxSteps := 50 } } }
    (run cfg (solverEnv advEnv) c).2 = .ok () := by
  intro cfg c
  refine (C31_end_to_end advEnv rfl (fun _ _ => 5) 5
    ⟨fun _ _ _ _ => rfl, fun _ _ => by norm_num, fun _ _ => le_rfl, fun _ _ => rfl⟩ cfg c rfl 4 (by norm_num)
    rfl rfl rfl rfl rfl rfl ?_ ?_ ?_ ?_ ?_ (by norm_num) ?_ 6 ?_ ?_).1 <;> norm_num [c, cfg, calmState]

end PyClaw
