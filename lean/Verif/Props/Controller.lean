import Verif.Lemmas.Controller
import Mathlib.Data.List.Basic
import Mathlib.Data.List.Range
import Mathlib.Tactic.NormNum
import Mathlib.Data.Rat.Floor
set_option linter.unusedSectionVars false

/-!
# Controller runs (C30-C33)

`Ctrl.advSol cfg env t` is "evolve to `t`" (styles 1 and 2) or "take `nstepout` steps" (style 3);
`Ctrl.hookP`, `Ctrl.hook` are the user's `compute_p` and `compute_p` followed by `compute_F`.
-/
namespace PyClaw
open Spec Ctrl

variable {K σ : Type*} [Field K] [LinearOrder K] [IsStrictOrderedRing K]

/-- The calls of `evolve_to_time` made by a run, in terms of the output times. -/
theorem run_calls (cfg : RunCfg K σ) (env : RunEnv K σ) (c : Ctrl K σ) {t0 : K} {ts : List K}
    (ht : outputTimes cfg (env.time (env.prepare c.sol).1) c.startFrame = .ok (t0 :: ts)) :
    ∃ l, (run cfg env c).1.calls = c.calls ++ l ∧ l <+: ts.flatMap (advCalls cfg) ∧
      ((run cfg env c).2 = .ok () → l = ts.flatMap (advCalls cfg)) := by
  rcases run_cases cfg env c with ⟨h1, _, h3, _⟩ | ⟨t0', ts', c2, r, _, h2, _, _, h5, _, _, _, h9, h10, h11⟩
  · exact ⟨[], by simp [h3], by simp, fun h => absurd h h1⟩
  · rw [ht] at h2
    simp only [Except.ok.injEq, List.cons.injEq] at h2
    obtain ⟨_, rfl⟩ := h2
    obtain ⟨m, hm⟩ := loop_facts cfg env ts c.startFrame c2
    obtain ⟨l, q1, q2, q3⟩ := hm.calls
    rw [← h9] at q1 q3
    refine ⟨l, ?_, q2, fun h => q3 (h11.mp h).1⟩
    rw [h10]
    split_ifs <;> simp [q1, h5]

theorem linspace_equispaced (a b : K) (N : Nat) (hN : 0 < N) :
    (Dim.linspace a b (N + 1)) = (List.range (N + 1)).map (fun i : Nat => a + i * ((b - a) / N)) ∧
    Equispaced a b N (fun i => a + i * ((b - a) / N)) := by
  have hN' : (N : K) ≠ 0 := by exact_mod_cast hN.ne'
  refine ⟨?_, ?_, ?_, ?_⟩
  · unfold Dim.linspace
    rw [if_neg (by omega)]
    simp
  · simp
  · field_simp; ring
  · intro i _; push_cast; ring

/-- C30, style 1. The run visits, in order, the times `t 1, …, t N` of an equispaced sequence from the
current time to `tfinal`; it stops early only if it raises. -/
theorem C30_style1 (cfg : RunCfg K σ) (env : RunEnv K σ) (c : Ctrl K σ) (N : Nat) (hN : 0 < N)
    (hs : cfg.outputStyle = 1) (hn : cfg.numOutputTimes = N) :
    ∃ t : Nat → K, Equispaced (env.time (env.prepare c.sol).1) cfg.tfinal N t ∧
      ∃ l, (run cfg env c).1.calls = c.calls ++ l ∧
        l <+: (List.range N).map (fun i => some (t (i + 1))) ∧
        ((run cfg env c).2 = .ok () → l = (List.range N).map (fun i => some (t (i + 1)))) := by
  set t0 := env.time (env.prepare c.sol).1
  obtain ⟨h1, h2⟩ := linspace_equispaced t0 cfg.tfinal N hN
  refine ⟨_, h2, ?_⟩
  have hflat : ∀ l : List K, l.flatMap (advCalls cfg) = l.map some := by
    intro l
    have : advCalls cfg = fun t => [some t] := by funext t; simp [advCalls, hs]
    rw [this]
    induction l with
    | nil => rfl
    | cons a l ih => simp_all
  have ht : outputTimes cfg t0 c.startFrame = .ok (t0 ::
      (List.range N).map (fun i => t0 + (i + 1 : Nat) * ((cfg.tfinal - t0) / N))) := by
    unfold outputTimes
    rw [if_pos hs, hn, if_neg (by omega), show ((N : Int) + 1).toNat = N + 1 by omega, h1,
      List.range_succ_eq_map]
    simp [Function.comp_def]
  obtain ⟨l, q1, q2, q3⟩ := run_calls cfg env c ht
  rw [hflat, List.map_map] at q2 q3
  exact ⟨l, q1, q2, q3⟩

/-- C30, style 2: exactly the given times after the first. -/
theorem C30_style2 (cfg : RunCfg K σ) (env : RunEnv K σ) (c : Ctrl K σ) (hs : cfg.outputStyle = 2)
    (hne : cfg.outTimes ≠ []) :
    ∃ l, (run cfg env c).1.calls = c.calls ++ l ∧ l <+: cfg.outTimes.tail.map some ∧
      ((run cfg env c).2 = .ok () → l = cfg.outTimes.tail.map some) := by
  obtain ⟨t0, ts, hts⟩ := List.exists_cons_of_ne_nil hne
  have ht : outputTimes cfg (env.time (env.prepare c.sol).1) c.startFrame = .ok (t0 :: ts) := by
    unfold outputTimes; rw [if_neg (by omega), if_pos hs, hts]
  obtain ⟨l, q1, q2, q3⟩ := run_calls cfg env c ht
  have hflat : ∀ l : List K, l.flatMap (advCalls cfg) = l.map some := by
    intro l
    have : advCalls cfg = fun t => [some t] := by funext t; simp [advCalls, hs]
    rw [this]
    induction l with
    | nil => rfl
    | cons a l ih => simp_all
  rw [hflat] at q2 q3
  rw [hts]
  exact ⟨l, q1, q2, q3⟩

/-- C30, style 3: `num_output_times - start_frame` outputs, `nstepout` single steps before each. -/
theorem C30_style3 (cfg : RunCfg K σ) (env : RunEnv K σ) (c : Ctrl K σ) (hs : cfg.outputStyle = 3)
    (N : Nat) (hn : cfg.numOutputTimes - c.startFrame = N) :
    ∃ l, (run cfg env c).1.calls = c.calls ++ l ∧
      l <+: List.replicate (N * cfg.nstepout.toNat) none ∧
      ((run cfg env c).2 = .ok () → l = List.replicate (N * cfg.nstepout.toNat) none) := by
  have ht : outputTimes cfg (env.time (env.prepare c.sol).1) c.startFrame =
      .ok (1 :: List.replicate N 1) := by
    unfold outputTimes
    rw [if_neg (by omega), if_neg (by omega), if_pos hs, if_neg (by omega),
      show (cfg.numOutputTimes + 1 - (c.startFrame : Int)).toNat = N + 1 by omega, List.replicate_succ]
  obtain ⟨l, q1, q2, q3⟩ := run_calls cfg env c ht
  have hflat : (List.replicate N (1 : K)).flatMap (advCalls cfg) =
      List.replicate (N * cfg.nstepout.toNat) none := by
    have : advCalls cfg = fun _ : K => List.replicate cfg.nstepout.toNat none := by
      funext t; simp [advCalls, hs]
    rw [this]
    induction N with
    | zero => simp
    | succ N _ =>
      clear ht q1 q2 q3 hn
      induction (N + 1) with
      | zero => simp
      | succ M ih =>
        rw [List.replicate_succ, List.flatMap_cons, ih, List.replicate_append_replicate]
        congr 1; ring
  rw [hflat] at q2 q3
  exact ⟨l, q1, q2, q3⟩

/-- C30: any other style raises, without a step and without output. -/
theorem C30_invalid_style_raises (cfg : RunCfg K σ) (env : RunEnv K σ) (c : Ctrl K σ)
    (h1 : cfg.outputStyle ≠ 1) (h2 : cfg.outputStyle ≠ 2) (h3 : cfg.outputStyle ≠ 3) :
    (run cfg env c).2 ≠ .ok () ∧ (run cfg env c).1.calls = c.calls ∧
      (run cfg env c).1.written = c.written := by
  rcases run_cases cfg env c with ⟨e1, e2, e3, _⟩ | ⟨t0, ts, c2, r, _, ht, _⟩
  · exact ⟨e1, e3, e2⟩
  · simp [outputTimes, h1, h2, h3] at ht

/-- C31. Whatever happens during a run (including failing steps and failing writes), the frames it writes
are numbered consecutively from `start_frame`, each number once, and frame `start_frame + k` holds the
`k`-th solution of the run; the first frame has an aux file iff `write_aux_init` or `write_aux_always` is set,
a later one iff `write_aux_always` is. If the run returns normally all frames have been written. -/
theorem C31_frames (cfg : RunCfg K σ) (env : RunEnv K σ) (c : Ctrl K σ) (ho : cfg.output = true) {t0 : K}
    {ts : List K} (ht : outputTimes cfg (env.time (env.prepare c.sol).1) c.startFrame = .ok (t0 :: ts)) :
    let x0 := (env.prepare c.sol).1
    let sols := x0 :: visited (advSol cfg env) (hook cfg) (hook cfg x0) ts
    ∃ fs, (run cfg env c).1.written = c.written ++ fs ∧
      fs.map (·.number) = List.range' c.startFrame fs.length ∧
      fs.map (·.content) = (sols.take fs.length).map (hookP cfg) ∧
      fs.length ≤ ts.length + 1 ∧ ((run cfg env c).2 = .ok () → fs.length = ts.length + 1) ∧
      (∀ f ∈ fs.head?, f.withAux = (cfg.writeAuxAlways || cfg.writeAuxInit)) ∧
      ∀ f ∈ fs.tail, f.withAux = cfg.writeAuxAlways := by
  intro x0 sols
  have hvis : ∀ (y : σ) (ts : List K), (visited (advSol cfg env) (hook cfg) y ts).length = ts.length := by
    intro y ts
    induction ts generalizing y with
    | nil => rfl
    | cons t ts ih => simp [visited, ih]
  have hnum : ∀ (n : Nat) (a : Bool) (l : List σ), (numbered n a l).map (·.number) = List.range' n l.length ∧
      (numbered n a l).map (·.content) = l ∧ (numbered n a l).length = l.length := by
    intro n a l
    refine ⟨?_, ?_, by simp [numbered]⟩
    · unfold numbered
      rw [List.map_map]
      exact List.zipIdx_map_snd n l
    · unfold numbered
      rw [List.map_map]
      exact List.zipIdx_map_fst n l
  rcases run_cases cfg env c with ⟨h1, h2, _⟩ | ⟨t0', ts', c2, r, _, h2, h3, h4, _, h6, _, _, h9, h10, h11⟩
  · exact ⟨[], by simp [h2], by simp, by simp, by simp, fun h => absurd h h1, by simp, by simp⟩
  · rw [ht] at h2
    simp only [Except.ok.injEq, List.cons.injEq] at h2
    obtain ⟨_, rfl⟩ := h2
    obtain ⟨m, hm⟩ := loop_facts cfg env ts c.startFrame c2
    rw [← h9] at hm
    have hw := hm.written
    rw [if_pos ho, h6, if_pos ho, h3] at hw
    set V := visited (advSol cfg env) (hook cfg) (hook cfg x0) ts with hV
    obtain ⟨n1, n2, n3⟩ := hnum (c.startFrame + 1) cfg.writeAuxAlways ((V.take m).map (hookP cfg))
    refine ⟨⟨c.startFrame, cfg.writeAuxAlways || cfg.writeAuxInit, hookP cfg x0⟩ ::
      numbered (c.startFrame + 1) cfg.writeAuxAlways ((V.take m).map (hookP cfg)), ?_, ?_, ?_, ?_, ?_, ?_, ?_⟩
    · have : (run cfg env c).1.written = r.1.written := by rw [h10]; split_ifs <;> rfl
      rw [this, hw, List.append_assoc]; rfl
    · rw [List.map_cons, n1, List.length_cons, n3, List.range'_succ]
    · rw [List.map_cons, n2, List.length_cons, n3, List.length_map, List.length_take, hV, hvis,
        Nat.min_eq_left hm.le]
      simp [sols]
    · rw [List.length_cons, n3, List.length_map, List.length_take, hV, hvis, Nat.min_eq_left hm.le]
      have := hm.le; omega
    · intro h
      rw [List.length_cons, n3, List.length_map, List.length_take, hV, hvis, Nat.min_eq_left hm.le,
        hm.all (h11.mp h).1]
    · simp
    · intro f hf
      simp only [List.tail_cons, numbered, List.mem_map] at hf
      obtain ⟨x, _, rfl⟩ := hf
      rfl

/-- C31, functional file: after a run that returns normally the file has exactly one line for each frame of
this run, in order, each computed by `compute_F` from the solution of that frame. Lines of an earlier run
are gone. -/
theorem C31_functionals (cfg : RunCfg K σ) (env : RunEnv K σ) (c : Ctrl K σ) {F : σ → σ}
    (hF : cfg.computeF = some F) {t0 : K} {ts : List K}
    (ht : outputTimes cfg (env.time (env.prepare c.sol).1) c.startFrame = .ok (t0 :: ts))
    (hok : (run cfg env c).2 = .ok ()) :
    let x0 := (env.prepare c.sol).1
    (run cfg env c).1.fLines =
      (x0 :: visited (advSol cfg env) (hook cfg) (hook cfg x0) ts).map (fun s => F (hookP cfg s)) := by
  intro x0
  have hs : cfg.computeF.isSome = true := by rw [hF]; rfl
  have hk : hook cfg = fun s => F (hookP cfg s) := by funext s; simp [hook, hF]
  rcases run_cases cfg env c with ⟨h1, _⟩ | ⟨t0', ts', c2, r, _, h2, h3, _, _, _, _, h8, h9, h10, h11⟩
  · exact absurd hok h1
  · rw [ht] at h2
    simp only [Except.ok.injEq, List.cons.injEq] at h2
    obtain ⟨_, rfl⟩ := h2
    obtain ⟨m, hm⟩ := loop_facts cfg env ts c.startFrame c2
    rw [← h9] at hm
    have hr := (h11.mp hok).1
    have hf := hm.fLines hr hs
    rw [h8 hs, h3] at hf
    have : (run cfg env c).1.fLines = r.1.fLines := by rw [h10]; split_ifs <;> rfl
    rw [this, hf, ← hk]
    rfl

/-- C31, derived quantities: with `compute_p`, a run that returns normally writes one `p` file for each frame
of this run, with the numbers of the frames, holding the solution that frame was written from. -/
theorem C31_p_files (cfg : RunCfg K σ) (env : RunEnv K σ) (c : Ctrl K σ) (ho : cfg.output = true) {P : σ → σ}
    (hP : cfg.computeP = some P) (hok : (run cfg env c).2 = .ok ()) :
    ∃ fs ps, (run cfg env c).1.written = c.written ++ fs ∧ (run cfg env c).1.writtenP = c.writtenP ++ ps ∧
      ps.map (fun f => (f.number, f.content)) = fs.map (fun f => (f.number, f.content)) ∧
      ∀ f ∈ ps, f.withAux = false := by
  have hout : ∀ (frame : Nat) (aux first : Bool) (d : Ctrl K σ), (outputFrame cfg env frame aux first d).2 = .ok () →
      (outputFrame cfg env frame aux first d).1.written = d.written ++ [⟨frame, aux, P d.sol⟩] ∧
      (outputFrame cfg env frame aux first d).1.writtenP = d.writtenP ++ [⟨frame, false, P d.sol⟩] := by
    intro frame aux first d
    rcases hFc : cfg.computeF with _ | F <;> rcases hW : env.writeErr frame (P d.sol) with _ | e <;>
      simp [outputFrame, writeP, writeQ, writeF, hP, hFc, ho, hW]
  have hkp : ∀ d : Ctrl K σ, (keep cfg d).written = d.written ∧ (keep cfg d).writtenP = d.writtenP := by
    intro d; unfold keep; split_ifs <;> exact ⟨rfl, rfl⟩
  have hst : ∀ (k : Nat) (d : Ctrl K σ), (steps env k d).1.written = d.written ∧
      (steps env k d).1.writtenP = d.writtenP := by
    intro k
    induction k with
    | zero => intro d; exact ⟨rfl, rfl⟩
    | succ k ih =>
      intro d
      simp only [steps, callEvolve]
      rcases env.evolve none d.sol with ⟨s, e | u⟩
      · exact ⟨rfl, rfl⟩
      · exact ih _
  have hadv : ∀ (t : K) (d : Ctrl K σ), (advance cfg env t d).1.written = d.written ∧
      (advance cfg env t d).1.writtenP = d.writtenP := by
    intro t d
    unfold advance
    split_ifs
    · exact ⟨rfl, rfl⟩
    · exact hst _ _
  have hloop : ∀ (ts : List K) (frame : Nat) (d : Ctrl K σ), (loop cfg env ts frame d).2 = .ok () →
      ∃ fs ps, (loop cfg env ts frame d).1.written = d.written ++ fs ∧
        (loop cfg env ts frame d).1.writtenP = d.writtenP ++ ps ∧
        ps.map (fun f => (f.number, f.content)) = fs.map (fun f => (f.number, f.content)) ∧
        ∀ f ∈ ps, f.withAux = false := by
    intro ts
    induction ts with
    | nil => intro frame d _; exact ⟨[], [], by simp [loop], by simp [loop], rfl, by simp⟩
    | cons t ts ih =>
      intro frame d h
      obtain ⟨a1, a2⟩ := hadv t d
      simp only [loop] at h ⊢
      rcases hA : advance cfg env t d with ⟨d1, e | u⟩
      · rw [hA] at h; simp at h
      · rw [hA] at h a1 a2
        simp only at h a1 a2 ⊢
        have o := hout (frame + 1) cfg.writeAuxAlways false (keep cfg d1)
        rcases hO : outputFrame cfg env (frame + 1) cfg.writeAuxAlways false (keep cfg d1) with ⟨d2, e | u⟩
        · rw [hO] at h; simp at h
        · rw [hO] at h o
          obtain ⟨o1, o2⟩ := o rfl
          simp only at h o1 o2 ⊢
          obtain ⟨fs, ps, q1, q2, q3, q4⟩ := ih (frame + 1) d2 h
          refine ⟨⟨frame + 1, cfg.writeAuxAlways, P (keep cfg d1).sol⟩ :: fs,
            ⟨frame + 1, false, P (keep cfg d1).sol⟩ :: ps, ?_, ?_, ?_, ?_⟩
          · rw [q1, o1, (hkp d1).1, a1, List.append_assoc]; rfl
          · rw [q2, o2, (hkp d1).2, a2, List.append_assoc]; rfl
          · simp [q3]
          · intro f hf
            rcases List.mem_cons.mp hf with rfl | hf
            · rfl
            · exact q4 f hf
  have hg : (setupGauges cfg c).written = c.written ∧ (setupGauges cfg c).writtenP = c.writtenP := by
    unfold setupGauges; split_ifs <;> exact ⟨rfl, rfl⟩
  unfold run at hok ⊢
  simp only at hok ⊢
  rcases hp : env.prepare (setupGauges cfg c).sol with ⟨s, e | u⟩
  · rw [hp] at hok; simp at hok
  rw [hp] at hok
  simp only at hok ⊢
  rcases ht : outputTimes cfg (env.time s) c.startFrame with e | ⟨_ | ⟨t0, ts⟩⟩
  · rw [ht] at hok; simp at hok
  · rw [ht] at hok; simp at hok
  rw [ht] at hok
  simp only at hok ⊢
  obtain ⟨k1, k2⟩ := hkp { setupGauges cfg c with sol := s }
  replace k1 := k1.trans hg.1
  replace k2 := k2.trans hg.2
  set c1 := keep cfg { setupGauges cfg c with sol := s }
  by_cases hguard : cfg.output = true ∧ c1.outdir = true ∧ cfg.overwrite = false
  · rw [if_pos hguard] at hok; simp at hok
  rw [if_neg hguard] at hok ⊢
  have o := hout c.startFrame (cfg.writeAuxAlways || cfg.writeAuxInit) true c1
  rcases hO : outputFrame cfg env c.startFrame (cfg.writeAuxAlways || cfg.writeAuxInit) true c1 with ⟨c2, e | u⟩
  · rw [hO] at hok; simp at hok
  rw [hO] at hok o
  obtain ⟨o1, o2⟩ := o rfl
  simp only at hok o1 o2 ⊢
  have hl := hloop ts c.startFrame c2
  rcases hL : loop cfg env ts c.startFrame c2 with ⟨c3, e | u⟩
  · rw [hL] at hok; simp at hok
  rw [hL] at hl
  obtain ⟨fs, ps, q1, q2, q3, q4⟩ := hl rfl
  simp only at q1 q2 ⊢
  refine ⟨⟨c.startFrame, cfg.writeAuxAlways || cfg.writeAuxInit, P c1.sol⟩ :: fs,
    ⟨c.startFrame, false, P c1.sol⟩ :: ps, ?_, ?_, ?_, ?_⟩
  · rw [q1, o1, k1, List.append_assoc]; rfl
  · rw [q2, o2, k2, List.append_assoc]; rfl
  · simp [q3]
  · intro f hf
    rcases List.mem_cons.mp hf with rfl | hf
    · rfl
    · exact q4 f hf

/-- C31, copies in memory: with `keep_copy` a successful run appends exactly the solutions of the run (before
the user's hooks) to `frames`, so entry `k` and output file `k` describe the same solution. -/
theorem C31_kept_copies (cfg : RunCfg K σ) (env : RunEnv K σ) (c : Ctrl K σ) (hk : cfg.keepCopy = true)
    {t0 : K} {ts : List K}
    (ht : outputTimes cfg (env.time (env.prepare c.sol).1) c.startFrame = .ok (t0 :: ts))
    (hok : (run cfg env c).2 = .ok ()) :
    let x0 := (env.prepare c.sol).1
    (run cfg env c).1.frames = c.frames ++
      x0 :: visited (advSol cfg env) (hook cfg) (hook cfg x0) ts := by
  intro x0
  rcases run_cases cfg env c with ⟨h1, _⟩ | ⟨t0', ts', c2, r, _, h2, h3, _, _, _, h7, _, h9, h10, h11⟩
  · exact absurd hok h1
  · rw [ht] at h2
    simp only [Except.ok.injEq, List.cons.injEq] at h2
    obtain ⟨_, rfl⟩ := h2
    obtain ⟨m, hm⟩ := loop_facts cfg env ts c.startFrame c2
    rw [← h9] at hm
    obtain ⟨m', q1, q2, q3, q4⟩ := hm.frames
    have hr := (h11.mp hok).1
    have hmm : m' = ts.length := (q3 hr).trans (hm.all hr)
    have hvis : ∀ (y : σ) (ts : List K), (visited (advSol cfg env) (hook cfg) y ts).length = ts.length := by
      intro y ts
      induction ts generalizing y with
      | nil => rfl
      | cons t ts ih => simp [visited, ih]
    have : (run cfg env c).1.frames = r.1.frames := by rw [h10]; split_ifs <;> rfl
    rw [this, q4, if_pos hk, h7, if_pos hk, h3, hmm, List.take_of_length_le (by rw [hvis]),
      List.append_assoc]
    rfl

/-- The solutions reached when every `evolve_to_time(t)` that returns normally ends at time `t`. -/
theorem loop_times (cfg : RunCfg K σ) (env : RunEnv K σ) (hs : cfg.outputStyle < 3)
    (hev : ∀ t s, (env.evolve (some t) s).2 = .ok () → env.time (env.evolve (some t) s).1 = t) :
    ∀ (ts : List K) (frame : Nat) (c : Ctrl K σ), (loop cfg env ts frame c).2 = .ok () →
      (visited (advSol cfg env) (hook cfg) c.sol ts).map env.time = ts := by
  intro ts
  induction ts with
  | nil => intros; rfl
  | cons t ts ih =>
    intro frame c hok
    have ha := advance_spec cfg env t c
    have hadv : (advance cfg env t c).2 = (env.evolve (some t) c.sol).2 := by
      simp [advance, hs, callEvolve]
    simp only [loop] at hok
    rcases hA : advance cfg env t c with ⟨c1, e | u⟩
    · rw [hA] at hok; simp at hok
    · rw [hA] at hok ha hadv
      simp only at hok hadv
      have hsol := ha.2.2.2.2.2.2 rfl
      simp only at hsol
      obtain ⟨_, _, _, _, o5, _⟩ := outputFrame_spec cfg env (frame + 1) cfg.writeAuxAlways false (keep cfg c1)
      rcases hO : outputFrame cfg env (frame + 1) cfg.writeAuxAlways false (keep cfg c1) with ⟨c2, e | u⟩
      · rw [hO] at hok; simp at hok
      · rw [hO] at hok o5
        have p1 := (o5 rfl).1
        simp only at hok p1
        rw [(keep_spec cfg c1).1, hsol] at p1
        have := ih (frame + 1) c2 hok
        rw [p1] at this
        simp only [visited, List.map_cons, this, List.cons.injEq, and_true]
        simp only [advSol, if_pos hs]
        exact hev t c.sol hadv.symm

/-- C31, times: if a normally returning `evolve_to_time(t)` ends at `t` (C19) and the hooks do not change
the time, the frames written by a successful run with style 1 or 2 are at the initial time and at the
output times, in order. -/
theorem C31_frame_times (cfg : RunCfg K σ) (env : RunEnv K σ) (c : Ctrl K σ) (ho : cfg.output = true)
    (hs : cfg.outputStyle = 1 ∨ cfg.outputStyle = 2) {t0 : K} {ts : List K}
    (ht : outputTimes cfg (env.time (env.prepare c.sol).1) c.startFrame = .ok (t0 :: ts))
    (hev : ∀ t s, (env.evolve (some t) s).2 = .ok () → env.time (env.evolve (some t) s).1 = t)
    (hP : ∀ f, cfg.computeP = some f → ∀ s, env.time (f s) = env.time s)
    (hok : (run cfg env c).2 = .ok ()) :
    ∃ fs, (run cfg env c).1.written = c.written ++ fs ∧
      fs.map (fun f => env.time f.content) = env.time (env.prepare c.sol).1 :: ts := by
  obtain ⟨fs, h1, h2, h3, h4, h5, _, _⟩ := C31_frames cfg env c ho ht
  refine ⟨fs, h1, ?_⟩
  have hPt : ∀ s, env.time (hookP cfg s) = env.time s := by
    intro s
    unfold hookP
    rw [if_pos ho]
    rcases hp : cfg.computeP with _ | f
    · rfl
    · exact hP f hp s
  have hs3 : cfg.outputStyle < 3 := by omega
  rcases run_cases cfg env c with ⟨e1, _⟩ | ⟨t0', ts', c2, r, _, g2, g3, _, _, _, _, _, g9, _, g11⟩
  · exact absurd hok e1
  · rw [ht] at g2
    simp only [Except.ok.injEq, List.cons.injEq] at g2
    obtain ⟨_, rfl⟩ := g2
    have hl := loop_times cfg env hs3 hev ts c.startFrame c2 (by rw [← g9]; exact (g11.mp hok).1)
    rw [g3] at hl
    have hlen : (visited (advSol cfg env) (hook cfg) (hook cfg (env.prepare c.sol).1) ts).length = ts.length := by
      have := congrArg List.length hl; simpa using this
    have h3' := congrArg (List.map env.time) h3
    rw [List.map_map, List.map_map, h5 hok, List.take_of_length_le (by simp [hlen])] at h3'
    have : (env.time ∘ hookP cfg) = env.time := by funext s; exact hPt s
    rw [this, List.map_cons, hl] at h3'
    exact h3'

/-! ### Second runs -/

/-- C32. If the frames kept in memory are exactly the ones numbered below `start_frame` (as for a new
solution and controller), then after a successful run with `keep_copy` the next run starts at the first
unused number: all frames it writes have larger numbers than all frames written by the first. -/
theorem C32_numbering_continues_partial (cfg cfg' : RunCfg K σ) (env env' : RunEnv K σ) (c : Ctrl K σ)
    (hk : cfg.keepCopy = true) (ho : cfg.output = true) (ho' : cfg'.output = true)
    (h0 : c.frames.length = c.startFrame) (hok : (run cfg env c).2 = .ok ()) (change : σ → σ) :
    let c1 := (run cfg env c).1
    let c2 := (run cfg' env' { c1 with sol := change c1.sol }).1
    ∃ fs fs', c1.written = c.written ++ fs ∧ c2.written = c1.written ++ fs' ∧
      c1.startFrame = c.startFrame + fs.length ∧
      ∀ f ∈ fs, ∀ f' ∈ fs', f.number < f'.number := by
  intro c1 c2
  rcases run_cases cfg env c with ⟨e1, _⟩ | ⟨t0, ts, d2, r, hp, ht, g3, _, _, _, _, _, g9, g10, g11⟩
  · exact absurd hok e1
  obtain ⟨fs, h1, h2, h3, h4, h5, _, _⟩ := C31_frames cfg env c ho ht
  have hfr := C31_kept_copies cfg env c hk ht hok
  have hlen := h5 hok
  have hstart : c1.startFrame = c.startFrame + fs.length := by
    have e : c1.startFrame = c1.frames.length := by
      simp only [c1]; rw [g10, if_pos (g11.mp hok).1]
    have hvis : ∀ (y : σ) (ts : List K), (visited (advSol cfg env) (hook cfg) y ts).length = ts.length := by
      intro y ts
      induction ts generalizing y with
      | nil => rfl
      | cons t ts ih => simp [visited, ih]
    rw [e]
    simp only [c1]
    rw [hfr, List.length_append, List.length_cons, hvis, h0, hlen]
  rcases run_cases cfg' env' { c1 with sol := change c1.sol } with
    ⟨_, e2, _⟩ | ⟨t0', ts', _, _, _, ht', _⟩
  · exact ⟨fs, [], h1, by simp only [c2]; rw [e2]; simp, hstart, by simp⟩
  · obtain ⟨fs', k1, k2, _, _, _⟩ := C31_frames cfg' env' { c1 with sol := change c1.sol } ho' ht'
    refine ⟨fs, fs', h1, k1, hstart, ?_⟩
    intro f hf f' hf'
    have m1 : f.number ∈ fs.map (·.number) := List.mem_map_of_mem hf
    have m2 : f'.number ∈ fs'.map (·.number) := List.mem_map_of_mem hf'
    rw [h2, List.mem_range'_1] at m1
    rw [k2, List.mem_range'_1] at m2
    have : c1.startFrame ≤ f'.number := m2.1
    omega

/-! ### A concrete controller -/

/-- A solver whose solution is just its time. -/
def clockEnv : RunEnv ℚ ℚ where
  time := id
  prepare := fun s => (s, .ok ())
  evolve := fun te s => (te.getD (s + 1), .ok ())
  writeErr := fun _ _ => none

def clockCfg (keepCopy overwrite : Bool) (gauges : Nat) : RunCfg ℚ ℚ where
  outputStyle := 1
  tfinal := 1
  numOutputTimes := 2
  outTimes := []
  nstepout := 1
  keepCopy := keepCopy
  output := true
  overwrite := overwrite
  writeAuxInit := false
  writeAuxAlways := false
  computeP := none
  computeF := none
  numGauges := gauges

theorem clock_times (k o : Bool) (g n : Nat) (t : ℚ) :
    outputTimes (clockCfg k o g) t n = .ok [t, t + (1 - t) / 2, 1] := by
  unfold outputTimes clockCfg
  have h3 : ((2 : Int) + 1).toNat = 3 := rfl
  simp only [h3, Dim.linspace]
  norm_num [List.range_succ_eq_map]
  ring

theorem clock_run (k o : Bool) (c : Ctrl ℚ ℚ) (h : o = true ∨ c.outdir = false) :
    (run (clockCfg k o 0) clockEnv c).2 = .ok () ∧
    (run (clockCfg k o 0) clockEnv c).1.written = c.written ++
      [⟨c.startFrame, false, c.sol⟩, ⟨c.startFrame + 1, false, c.sol + (1 - c.sol) / 2⟩,
       ⟨c.startFrame + 2, false, 1⟩] ∧
    (run (clockCfg k o 0) clockEnv c).1.startFrame =
      (c.frames ++ if k then [c.sol, c.sol + (1 - c.sol) / 2, 1] else []).length := by
  have ht := clock_times k o 0 c.startFrame c.sol
  have hg : ∀ c' : Ctrl ℚ ℚ, c'.outdir = c.outdir → ¬(true = true ∧ c'.outdir = true ∧ o = false) := by
    rintro c' h1 ⟨_, h2, h3⟩
    rcases h with h | h
    · rw [h] at h3; simp at h3
    · rw [h1, h] at h2; simp at h2
  unfold run
  simp only [show setupGauges (clockCfg k o 0) c = c by simp [setupGauges, clockCfg],
    show clockEnv.prepare = fun s => (s, Except.ok ()) from rfl, show clockEnv.time = id from rfl, id, ht]
  have hk := (keep_spec (clockCfg k o 0) c).2.2.2.2.2.2.1
  have hc : ({ c with sol := c.sol } : Ctrl ℚ ℚ) = c := rfl
  rw [if_neg (by have := hg _ hk; simpa [clockCfg] using this)]
  cases k <;> simp [keep, clockCfg, outputFrame, writeP, writeQ, writeF, clockEnv, loop, advance, callEvolve]

example : (clockCfg true true 0).output = true ∧ (clockCfg true true 0).outputStyle = 1 ∧
    (run (clockCfg true true 0) clockEnv { sol := 0 }).2 = .ok () ∧
    (∀ t s, (clockEnv.evolve (some t) s).2 = .ok () → clockEnv.time (clockEnv.evolve (some t) s).1 = t) ∧
    ({ sol := 0 } : Ctrl ℚ ℚ).frames.length = ({ sol := 0 } : Ctrl ℚ ℚ).startFrame :=
  ⟨rfl, rfl, (clock_run true true _ (Or.inl rfl)).1, fun _ _ _ => rfl, rfl⟩

/-- The hypotheses of `C31_functionals` and `C31_p_files` are met by a run with both hooks; the hooks change
the solution, so that the order of the two and the values written are visible. -/
def hookCfg : RunCfg ℚ ℚ :=
  { clockCfg false true 0 with computeP := some (· + 10), computeF := some (· + 100), writeAuxInit := true }

example : (run hookCfg clockEnv { sol := 0, fLines := [7] }).2 = .ok () ∧
    (run hookCfg clockEnv { sol := 0, fLines := [7] }).1.fLines = [110, 1 / 2 + 110, 111] ∧
    ((run hookCfg clockEnv { sol := 0, fLines := [7] }).1.writtenP.map fun f => (f.number, f.content)) =
      [(0, 10), (1, 1 / 2 + 10), (2, 11)] ∧
    ((run hookCfg clockEnv { sol := 0, fLines := [7] }).1.written.map fun f => (f.withAux, f.content)) =
      [(true, 10), (false, 1 / 2 + 10), (false, 11)] := by
  decide +kernel

/-- C32 fails without `keep_copy`: the second run starts at frame 0 again and overwrites the first. -/
theorem C32_overwrites_violated :
    let c1 := (run (clockCfg false true 0) clockEnv { sol := 0 }).1
    let c2 := (run (clockCfg false true 0) clockEnv { c1 with sol := 0 }).1
    (c2.written.map fun f => (f.number, f.content)) =
      [(0, 0), (1, 1 / 2), (2, 1), (0, 0), (1, 1 / 2), (2, 1)] := by
  intro c1 c2
  obtain ⟨_, h2, h3⟩ := clock_run false true { sol := 0 } (Or.inl rfl)
  obtain ⟨_, k2, _⟩ := clock_run false true { c1 with sol := 0 } (Or.inl rfl)
  simp only [c2]
  rw [k2]
  simp only [c1]
  rw [h2, h3]
  norm_num

/-- C32 fails with `keep_copy` for a solution that was restarted from frame 5: the second run begins at 3
and writes frames 3 and 4 of the earlier computation and frame 5 of the restarted one again. -/
theorem C32_restart_violated :
    let c1 := (run (clockCfg true true 0) clockEnv { sol := 0, startFrame := 5 }).1
    let c2 := (run (clockCfg true true 0) clockEnv { c1 with sol := 0 }).1
    (c2.written.map (·.number)) = [5, 6, 7, 3, 4, 5] := by
  intro c1 c2
  obtain ⟨_, h2, h3⟩ := clock_run true true { sol := 0, startFrame := 5 } (Or.inl rfl)
  obtain ⟨_, k2, _⟩ := clock_run true true { c1 with sol := 0 } (Or.inl rfl)
  simp only [c2]
  rw [k2]
  simp only [c1]
  rw [h2, h3]
  norm_num

/-! ### Protection of existing output -/

/-- C33. With `overwrite = False` and an existing output directory, `run` raises before any call of
`evolve_to_time`, and writes no frame. -/
theorem C33_refuses_partial (cfg : RunCfg K σ) (env : RunEnv K σ) (c : Ctrl K σ) (ho : cfg.output = true)
    (hov : cfg.overwrite = false) (hd : c.outdir = true) :
    (run cfg env c).2 ≠ .ok () ∧ (run cfg env c).1.calls = c.calls ∧
    (run cfg env c).1.written = c.written ∧ (run cfg env c).1.writtenP = c.writtenP ∧
    (run cfg env c).1.fLines = c.fLines := by
  have hg : (setupGauges cfg c).sol = c.sol ∧ (setupGauges cfg c).written = c.written ∧
      (setupGauges cfg c).calls = c.calls ∧ (setupGauges cfg c).writtenP = c.writtenP ∧
      (setupGauges cfg c).fLines = c.fLines ∧ (setupGauges cfg c).outdir = true := by
    unfold setupGauges; split_ifs <;> simp [hd]
  obtain ⟨g1, g2, g3, g4, g5, g6⟩ := hg
  unfold run
  simp only [g1]
  rcases (env.prepare c.sol).2 with e | u
  · exact ⟨by simp, g3, g2, g4, g5⟩
  · simp only
    rcases outputTimes cfg (env.time (env.prepare c.sol).1) c.startFrame with e | ⟨_ | ⟨t0, ts⟩⟩
    · exact ⟨by simp, g3, g2, g4, g5⟩
    · exact ⟨by simp, g3, g2, g4, g5⟩
    · simp only
      rw [if_pos ⟨ho, by rw [(keep_spec _ _).2.2.2.2.2.2.1]; exact g6, hov⟩]
      unfold keep
      split_ifs <;> exact ⟨by simp, g3, g2, g4, g5⟩

/-- C33 does not hold for gauge files: with gauges on the grid the refused run has already erased the gauge
files of the earlier run. -/
theorem C33_gauge_files_erased_violated :
    let c : Ctrl ℚ ℚ := { sol := 0, outdir := true, gaugeFiles := [[0, 1 / 2, 1]] }
    (run (clockCfg false false 1) clockEnv c).2 =
      .error (.exception "Refusing to overwrite existing output data.") ∧
    (run (clockCfg false false 1) clockEnv c).1.gaugeFiles = [[]] := by
  intro c
  have ht := clock_times false false 1 0 0
  unfold run
  simp only [show setupGauges (clockCfg false false 1) c = { c with gaugeFiles := [[]] } by
      simp [setupGauges, clockCfg, c],
    show clockEnv.prepare = fun s => (s, Except.ok ()) from rfl, show clockEnv.time = id from rfl, id]
  simp only [c, ht]
  simp [clockCfg, keep]

/-- C33: with gauges and `overwrite = False` even a run into a directory that does not exist is refused,
because creating the gauge files creates the directory. -/
theorem C33_gauges_block_new_directory_violated :
    (run (clockCfg false false 1) clockEnv { sol := 0, outdir := false }).2 =
      .error (.exception "Refusing to overwrite existing output data.") := by
  have ht := clock_times false false 1 0 0
  unfold run
  simp only [show setupGauges (clockCfg false false 1) { sol := 0, outdir := false } =
      { sol := 0, outdir := true, gaugeFiles := [[]] } by simp [setupGauges, clockCfg],
    show clockEnv.prepare = fun s => (s, Except.ok ()) from rfl, show clockEnv.time = id from rfl, id, ht]
  simp [clockCfg, keep]

example : (clockCfg false false 0).output = true ∧ (clockCfg false false 0).overwrite = false := ⟨rfl, rfl⟩

end PyClaw
