import Verif.Spec.Controller
import Mathlib.Tactic.Linarith
import Mathlib.Tactic.FieldSimp
import Mathlib.Tactic.Ring
set_option linter.unusedSectionVars false

namespace PyClaw
open Spec
namespace Ctrl

variable {K σ : Type*} [Field K] [LinearOrder K]

/-- What `solution.write` sees: the solution after `compute_p`. -/
def hookP (cfg : RunCfg K σ) : σ → σ := if cfg.output then cfg.computeP.getD id else id

/-- Both user hooks of one output. -/
def hook (cfg : RunCfg K σ) (s : σ) : σ := cfg.computeF.getD id (hookP cfg s)

/-- The state after a call `advance`, when it succeeds. -/
def advSol (cfg : RunCfg K σ) (env : RunEnv K σ) (t : K) (s : σ) : σ :=
  if cfg.outputStyle < 3 then (env.evolve (some t) s).1
  else (fun s => (env.evolve none s).1)^[cfg.nstepout.toNat] s

/-- The calls made by a complete `advance`. -/
def advCalls (cfg : RunCfg K σ) (t : K) : List (Option K) :=
  if cfg.outputStyle < 3 then [some t] else List.replicate cfg.nstepout.toNat none

theorem outputFrame_spec (cfg : RunCfg K σ) (env : RunEnv K σ) (frame : Nat) (aux first : Bool)
    (c : Ctrl K σ) :
    let r := outputFrame cfg env frame aux first c
    r.1.startFrame = c.startFrame ∧ r.1.frames = c.frames ∧ r.1.calls = c.calls ∧
    r.1.gaugeFiles = c.gaugeFiles ∧
    (r.2 = .ok () → r.1.sol = hook cfg c.sol ∧
      r.1.written = c.written ++ (if cfg.output then [⟨frame, aux, hookP cfg c.sol⟩] else []) ∧
      r.1.fLines = (if cfg.computeF.isSome then (if first then [] else c.fLines) ++ [hook cfg c.sol]
        else c.fLines)) ∧
    (r.2 ≠ .ok () → r.1.written = c.written) := by
  rcases hP : cfg.computeP with _ | P <;> rcases hF : cfg.computeF with _ | F <;>
    rcases hO : cfg.output with _ | _ <;>
    simp only [outputFrame, writeP, writeQ, writeF, hookP, hook, hP, hF, hO] <;>
    simp <;>
    first
      | (rcases hW : env.writeErr frame c.sol with _ | e <;> simp)
      | (rcases hW : env.writeErr frame (P c.sol) with _ | e <;> simp [hW])

theorem steps_spec (env : RunEnv K σ) : ∀ (k : Nat) (c : Ctrl K σ),
    let r := steps env k c
    r.1.startFrame = c.startFrame ∧ r.1.frames = c.frames ∧ r.1.written = c.written ∧
    r.1.fLines = c.fLines ∧ r.1.gaugeFiles = c.gaugeFiles ∧
    (∃ j ≤ k, r.1.calls = c.calls ++ List.replicate j none ∧ (r.2 = .ok () → j = k)) ∧
    (r.2 = .ok () → r.1.sol = (fun s => (env.evolve none s).1)^[k] c.sol) := by
  intro k
  induction k with
  | zero => intro c; exact ⟨rfl, rfl, rfl, rfl, rfl, ⟨0, le_rfl, by simp [steps], fun _ => rfl⟩, fun _ => rfl⟩
  | succ k ih =>
    intro c
    simp only [steps, callEvolve]
    rcases hE : env.evolve none c.sol with ⟨s, e | u⟩
    · refine ⟨rfl, rfl, rfl, rfl, rfl, ⟨1, by omega, rfl, by simp⟩, by simp⟩
    · obtain ⟨h1, h2, h3, h4, h5, ⟨j, hj, h6, h7⟩, h8⟩ := ih { c with sol := s, calls := c.calls ++ [none] }
      refine ⟨h1, h2, h3, h4, h5, ⟨j + 1, by omega, ?_, fun h => by rw [h7 h]⟩, ?_⟩
      · simp only at h6 ⊢
        rw [h6, List.append_assoc, List.replicate_succ]; rfl
      · intro h
        simp only at h8 ⊢
        rw [h8 h, Function.iterate_succ_apply, hE]

theorem advance_spec (cfg : RunCfg K σ) (env : RunEnv K σ) (t : K) (c : Ctrl K σ) :
    let r := advance cfg env t c
    r.1.startFrame = c.startFrame ∧ r.1.frames = c.frames ∧ r.1.written = c.written ∧
    r.1.fLines = c.fLines ∧ r.1.gaugeFiles = c.gaugeFiles ∧
    (∃ l, r.1.calls = c.calls ++ l ∧ l <+: advCalls cfg t ∧ (r.2 = .ok () → l = advCalls cfg t)) ∧
    (r.2 = .ok () → r.1.sol = advSol cfg env t c.sol) := by
  unfold advance advCalls advSol
  split_ifs with h
  · refine ⟨rfl, rfl, rfl, rfl, rfl, ⟨_, rfl, List.prefix_rfl, fun _ => rfl⟩, fun _ => rfl⟩
  · obtain ⟨h1, h2, h3, h4, h5, ⟨j, hj, h6, h7⟩, h8⟩ := steps_spec env cfg.nstepout.toNat c
    refine ⟨h1, h2, h3, h4, h5, ⟨_, h6, ?_, fun h => by rw [h7 h]⟩, h8⟩
    exact ⟨List.replicate (cfg.nstepout.toNat - j) none, by
      rw [List.replicate_append_replicate]; congr 1; omega⟩

theorem keep_spec (cfg : RunCfg K σ) (c : Ctrl K σ) :
    (keep cfg c).sol = c.sol ∧ (keep cfg c).startFrame = c.startFrame ∧
    (keep cfg c).written = c.written ∧ (keep cfg c).fLines = c.fLines ∧ (keep cfg c).calls = c.calls ∧
    (keep cfg c).gaugeFiles = c.gaugeFiles ∧ (keep cfg c).outdir = c.outdir ∧
    (keep cfg c).frames = c.frames ++ (if cfg.keepCopy then [c.sol] else []) := by
  unfold keep; split_ifs <;> simp

/-- The state of a loop that has completed `m` outputs. -/
structure LoopFacts (cfg : RunCfg K σ) (env : RunEnv K σ) (ts : List K) (frame : Nat) (c : Ctrl K σ)
    (r : Ret (Ctrl K σ) Unit) (m : Nat) : Prop where
  le : m ≤ ts.length
  all : r.2 = .ok () → m = ts.length
  start : r.1.startFrame = c.startFrame
  gaugeFiles : r.1.gaugeFiles = c.gaugeFiles
  written : r.1.written = c.written ++ (if cfg.output then
    numbered (frame + 1) cfg.writeAuxAlways
      (((visited (advSol cfg env) (hook cfg) c.sol ts).take m).map (hookP cfg)) else [])
  frames : ∃ m', m ≤ m' ∧ m' ≤ m + 1 ∧ (r.2 = .ok () → m' = m) ∧ r.1.frames = c.frames ++ (if cfg.keepCopy then
    (visited (advSol cfg env) (hook cfg) c.sol ts).take m' else [])
  calls : ∃ l, r.1.calls = c.calls ++ l ∧ l <+: ts.flatMap (advCalls cfg) ∧
    (r.2 = .ok () → l = ts.flatMap (advCalls cfg))
  fLines : r.2 = .ok () → cfg.computeF.isSome = true → r.1.fLines = c.fLines ++
    (visited (advSol cfg env) (hook cfg) c.sol ts).map (hook cfg)

theorem loop_facts (cfg : RunCfg K σ) (env : RunEnv K σ) : ∀ (ts : List K) (frame : Nat) (c : Ctrl K σ),
    ∃ m, LoopFacts cfg env ts frame c (loop cfg env ts frame c) m := by
  intro ts
  induction ts with
  | nil =>
    intro frame c
    refine ⟨0, ⟨le_rfl, fun _ => rfl, rfl, rfl, ?_, ⟨0, le_rfl, by omega, fun _ => rfl, ?_⟩, ⟨[], ?_, ?_, ?_⟩, ?_⟩⟩ <;>
      simp [loop, numbered, visited]
  | cons t ts ih =>
    intro frame c
    obtain ⟨a1, a2, a3, a4, a5, ⟨l, a6, a7, a8⟩, a9⟩ := advance_spec cfg env t c
    simp only [loop]
    rcases hA : advance cfg env t c with ⟨c1, e | u⟩
    · rw [hA] at a1 a2 a3 a4 a5 a6
      simp only at a1 a2 a3 a4 a5 a6 ⊢
      refine ⟨0, ⟨Nat.zero_le _, by simp, a1, a5, ?_, ⟨0, le_rfl, by omega, by simp, ?_⟩, ⟨l, a6, ?_, by simp⟩, by simp⟩⟩
      · simp [numbered, a3]
      · simp [a2]
      · rw [List.flatMap_cons]; exact a7.trans (List.prefix_append _ _)
    · rw [hA] at a1 a2 a3 a4 a5 a6 a8 a9
      have a8' := a8 rfl
      have a9' := a9 rfl
      simp only at a1 a2 a3 a4 a5 a6 a9' ⊢
      subst a8'
      obtain ⟨k1, k2, k3, k4, k5, k6, _, k7⟩ := keep_spec cfg c1
      obtain ⟨o1, o2, o3, o4, o5, o6⟩ :=
        outputFrame_spec cfg env (frame + 1) cfg.writeAuxAlways false (keep cfg c1)
      rcases hO : outputFrame cfg env (frame + 1) cfg.writeAuxAlways false (keep cfg c1) with ⟨c2, e | u⟩
      · rw [hO] at o1 o2 o3 o4 o6
        have o6' := o6 (by simp)
        simp only at o1 o2 o3 o4 o6' ⊢
        refine ⟨0, ⟨Nat.zero_le _, by simp, by rw [o1, k2, a1], by rw [o4, k6, a5], ?_,
          ⟨1, by omega, by omega, by simp, ?_⟩, ⟨advCalls cfg t, by rw [o3, k5, a6], ?_, by simp⟩, by simp⟩⟩
        · simp [numbered, o6', k3, a3]
        · rw [o2, k7, a2, a9']
          simp [visited]
        · rw [List.flatMap_cons]; exact List.prefix_append _ _
      · rw [hO] at o1 o2 o3 o4 o5
        obtain ⟨p1, p2, p3⟩ := o5 rfl
        simp only at o1 o2 o3 o4 p1 p2 p3 ⊢
        rw [k1, a9'] at p1
        obtain ⟨m, hm⟩ := ih (frame + 1) c2
        obtain ⟨m', q1, q2, q3, q4⟩ := hm.frames
        obtain ⟨l', q5, q6, q7⟩ := hm.calls
        refine ⟨m + 1, ⟨by simpa using hm.le, fun h => by simpa using hm.all h, ?_, ?_, ?_,
          ⟨m' + 1, by omega, by omega, fun h => by rw [q3 h], ?_⟩, ⟨advCalls cfg t ++ l', ?_, ?_, ?_⟩, ?_⟩⟩
        · rw [hm.start, o1, k2, a1]
        · rw [hm.gaugeFiles, o4, k6, a5]
        · rw [hm.written, p2, k3, a3, k1, p1, a9']
          split_ifs <;> simp [numbered, visited]
        · rw [q4, o2, k7, a2, a9', p1]
          split_ifs <;> simp [visited]
        · rw [q5, o3, k5, a6, List.append_assoc]
        · rw [List.flatMap_cons]
          exact (List.prefix_append_right_inj _).mpr q6
        · intro h; rw [q7 h, List.flatMap_cons]
        · intro h hs
          rw [hm.fLines h hs, p3, if_pos hs, k4, a4, k1, p1, a9']
          simp [visited]

/-- How a run can end. -/
theorem run_cases (cfg : RunCfg K σ) (env : RunEnv K σ) (c : Ctrl K σ) :
    ((run cfg env c).2 ≠ .ok () ∧ (run cfg env c).1.written = c.written ∧
      (run cfg env c).1.calls = c.calls ∧ (run cfg env c).1.startFrame = c.startFrame ∧
      (∃ l, (run cfg env c).1.frames = c.frames ++ l ∧ l <+: [(env.prepare c.sol).1])) ∨
    ∃ t0 ts c2 r, (env.prepare c.sol).2 = .ok () ∧
      outputTimes cfg (env.time (env.prepare c.sol).1) c.startFrame = .ok (t0 :: ts) ∧
      c2.sol = hook cfg (env.prepare c.sol).1 ∧ c2.startFrame = c.startFrame ∧
      c2.calls = c.calls ∧
      c2.written = c.written ++ (if cfg.output then [⟨c.startFrame, cfg.writeAuxAlways || cfg.writeAuxInit,
        hookP cfg (env.prepare c.sol).1⟩] else []) ∧
      c2.frames = c.frames ++ (if cfg.keepCopy then [(env.prepare c.sol).1] else []) ∧
      (cfg.computeF.isSome = true → c2.fLines = [hook cfg (env.prepare c.sol).1]) ∧
      r = loop cfg env ts c.startFrame c2 ∧
      (run cfg env c).1 = (if r.2 = .ok () then { r.1 with startFrame := r.1.frames.length } else r.1) ∧
      ((run cfg env c).2 = .ok () ↔ r.2 = .ok () ∧ ¬(ts = [] ∨ (cfg.outputStyle = 3 ∧ cfg.nstepout ≤ 0))) := by
  have hg : (setupGauges cfg c).sol = c.sol ∧ (setupGauges cfg c).written = c.written ∧
      (setupGauges cfg c).calls = c.calls ∧ (setupGauges cfg c).frames = c.frames ∧
      (setupGauges cfg c).startFrame = c.startFrame ∧ (setupGauges cfg c).fLines = c.fLines := by
    unfold setupGauges; split_ifs <;> simp
  obtain ⟨g1, g2, g3, g4, g5, g6⟩ := hg
  unfold run
  simp only [g1]
  rcases hp : (env.prepare c.sol).2 with e | u
  · left; exact ⟨by simp, g2, g3, g5, [], by simp [g4], by simp⟩
  · simp only
    rcases ht : outputTimes cfg (env.time (env.prepare c.sol).1) c.startFrame with e | ⟨_ | ⟨t0, ts⟩⟩
    · left; exact ⟨by simp, g2, g3, g5, [], by simp [g4], by simp⟩
    · left; exact ⟨by simp, g2, g3, g5, [], by simp [g4], by simp⟩
    · simp only
      set c1 := keep cfg { setupGauges cfg c with sol := (env.prepare c.sol).1 } with hc1
      obtain ⟨k1, k2, k3, k4, k5, k6, _, k7⟩ :=
        keep_spec cfg { setupGauges cfg c with sol := (env.prepare c.sol).1 }
      rw [← hc1] at k1 k2 k3 k4 k5 k6 k7
      simp only at k1 k2 k3 k4 k5 k6 k7
      have hfr : ∃ l, c1.frames = c.frames ++ l ∧ l <+: [(env.prepare c.sol).1] := by
        rw [k7, g4]
        refine ⟨_, rfl, ?_⟩
        split_ifs <;> simp
      by_cases hguard : cfg.output = true ∧ c1.outdir = true ∧ cfg.overwrite = false
      · rw [if_pos hguard]
        left
        exact ⟨by simp, by rw [k3, g2], by rw [k5, g3], by rw [k2, g5], hfr⟩
      · rw [if_neg hguard]
        obtain ⟨o1, o2, o3, o4, o5, o6⟩ := outputFrame_spec cfg env c.startFrame
          (cfg.writeAuxAlways || cfg.writeAuxInit) true c1
        rcases hO : outputFrame cfg env c.startFrame (cfg.writeAuxAlways || cfg.writeAuxInit) true c1 with
          ⟨c2, e | u⟩
        · rw [hO] at o1 o2 o3 o6
          have o6' := o6 (by simp)
          simp only at o1 o2 o3 o6' ⊢
          left
          exact ⟨by simp, by rw [o6', k3, g2], by rw [o3, k5, g3], by rw [o1, k2, g5], by rw [o2]; exact hfr⟩
        · rw [hO] at o1 o2 o3 o5
          obtain ⟨p1, p2, p3⟩ := o5 rfl
          simp only at o1 o2 o3 p1 p2 p3 ⊢
          right
          refine ⟨t0, ts, c2, loop cfg env ts c.startFrame c2, trivial, rfl, by rw [p1, k1], by rw [o1, k2, g5],
            by rw [o3, k5, g3], by rw [p2, k3, g2, k1], by rw [o2, k7, g4], ?_, rfl, ?_, ?_⟩
          · intro h; rw [p3, if_pos h, k1]; simp
          · rcases loop cfg env ts c.startFrame c2 with ⟨c3, e | u⟩ <;> simp
          · rcases loop cfg env ts c.startFrame c2 with ⟨c3, e | u⟩
            · simp
            · simp only
              split_ifs with h <;> simp [h]

end Ctrl
end PyClaw
