import Verif.Model.Basic
import Verif.Model.Dimension
import Mathlib.Algebra.Order.Field.Basic

/-!
Model of `Controller.run`, /repo/src/pyclaw/controller.py:275-395.

`σ` is everything the solver owns and changes: the solution with its arrays and time, and the solver's
settings and status. What the solver does is a parameter (`RunEnv`); `Model/Evolve.lean` is one instance.
`copy.deepcopy(self.solution)` is the value itself (independence of the copies is C10).

Simplifications. Files written by `solution.write` and by `write_F` are recorded as events with the
solution written; a write may raise (`writeErr`), then nothing is recorded. Gauge output during the steps
belongs to `RunEnv.evolve` and is modelled in `Model/Gauges.lean`; only the creation of the gauge files is
modelled here. Logging and plotting are not modelled. A `FrameCounter` is a number (see C58).
-/
namespace PyClaw

variable {K σ : Type*}

/-- The attributes of the controller that `run` reads, controller.py:85-190. -/
structure RunCfg (K σ : Type*) where
  outputStyle : Int
  tfinal : K
  numOutputTimes : Int
  outTimes : List K
  nstepout : Int
  keepCopy : Bool
  /-- `output_format is not None` -/
  output : Bool
  overwrite : Bool
  writeAuxInit : Bool
  writeAuxAlways : Bool
  computeP : Option (σ → σ)
  computeF : Option (σ → σ)
  /-- number of gauges of the grid -/
  numGauges : Nat

/-- What the run depends on. `prepare` is the set-up of the solver, `check_validity` and the first
`write_gauge_values` (controller.py:302-309). -/
structure RunEnv (K σ : Type*) where
  time : σ → K
  prepare : σ → Ret σ Unit
  evolve : Option K → σ → Ret σ Unit
  writeErr : Nat → σ → Option PyErr

/-- One file (or set of files) written by `solution.write`. -/
structure FrameFile (σ : Type*) where
  number : Nat
  withAux : Bool
  content : σ

/-- Controller, solution and output directory. `calls` records the calls of `evolve_to_time`. -/
structure Ctrl (K σ : Type*) where
  sol : σ
  /-- `solution._start_frame` -/
  startFrame : Nat := 0
  /-- `controller.frames` -/
  frames : List σ := []
  /-- does `outdir` exist? -/
  outdir : Bool := false
  written : List (FrameFile σ) := []
  writtenP : List (FrameFile σ) := []
  /-- the lines of the functional file -/
  fLines : List σ := []
  /-- the lines of each gauge file in `outdir` -/
  gaugeFiles : List (List σ) := []
  calls : List (Option K) := []

namespace Ctrl
variable [Field K] [LinearOrder K]

/-- `setup_gauge_files`, geometry.py:407-423: creates `outdir/_gauges`, removes old files, opens new. -/
def setupGauges (cfg : RunCfg K σ) (c : Ctrl K σ) : Ctrl K σ :=
  if 0 < cfg.numGauges then
    { c with outdir := true, gaugeFiles := List.replicate cfg.numGauges [] }
  else c

/-- The output times, controller.py:312-322. `np.linspace` and `np.ones` raise for a negative size. -/
def outputTimes (cfg : RunCfg K σ) (t : K) (startFrame : Nat) : Except PyErr (List K) :=
  if cfg.outputStyle = 1 then
    if cfg.numOutputTimes + 1 < 0 then .error .valueError
    else .ok (Dim.linspace t cfg.tfinal (cfg.numOutputTimes + 1).toNat)
  else if cfg.outputStyle = 2 then .ok cfg.outTimes
  else if cfg.outputStyle = 3 then
    if cfg.numOutputTimes + 1 - startFrame < 0 then .error .valueError
    else .ok (List.replicate (cfg.numOutputTimes + 1 - startFrame).toNat 1)
  else .error (.exception "Invalid output style")

/-- `if self.compute_p is not None: self.compute_p(...); self.solution.write(...,write_p=True)`,
controller.py:337-344, 370-377. -/
def writeP (cfg : RunCfg K σ) (env : RunEnv K σ) (frame : Nat) (c : Ctrl K σ) : Ret (Ctrl K σ) Unit :=
  match cfg.computeP with
  | none => (c, .ok ())
  | some f =>
    let c := { c with sol := f c.sol, outdir := true }
    match env.writeErr frame c.sol with
    | some e => (c, .error e)
    | none => ({ c with writtenP := c.writtenP ++ [⟨frame, false, c.sol⟩] }, .ok ())

/-- `self.solution.write(frame,self.outdir,...)`, controller.py:346-351, 379-383. -/
def writeQ (env : RunEnv K σ) (frame : Nat) (aux : Bool) (c : Ctrl K σ) : Ret (Ctrl K σ) Unit :=
  let c := { c with outdir := true }
  match env.writeErr frame c.sol with
  | some e => (c, .error e)
  | none => ({ c with written := c.written ++ [⟨frame, aux, c.sol⟩] }, .ok ())

/-- `write_F`, controller.py:399-409; mode `'w'` truncates the file. -/
def writeF (cfg : RunCfg K σ) (truncate : Bool) (c : Ctrl K σ) : Ctrl K σ :=
  match cfg.computeF with
  | none => c
  | some f =>
    let s := f c.sol
    { c with sol := s, fLines := (if truncate then [] else c.fLines) ++ [s] }

/-- One output: copy in memory, files, functionals: controller.py:330-353 (without the guard) and
363-384. -/
def outputFrame (cfg : RunCfg K σ) (env : RunEnv K σ) (frame : Nat) (aux first : Bool) (c : Ctrl K σ) :
    Ret (Ctrl K σ) Unit :=
  if cfg.output then
    match writeP cfg env frame c with
    | (c, .error e) => (c, .error e)
    | (c, .ok _) =>
      match writeQ env frame aux c with
      | (c, .error e) => (c, .error e)
      | (c, .ok _) => (writeF cfg first c, .ok ())
  else (writeF cfg first c, .ok ())

/-- `if self.keep_copy: self.frames.append(copy.deepcopy(self.solution))`. -/
def keep (cfg : RunCfg K σ) (c : Ctrl K σ) : Ctrl K σ :=
  if cfg.keepCopy then { c with frames := c.frames ++ [c.sol] } else c

/-- A call of `self.solver.evolve_to_time(self.solution, t)`. -/
def callEvolve (env : RunEnv K σ) (te : Option K) (c : Ctrl K σ) : Ret (Ctrl K σ) Unit :=
  let r := env.evolve te c.sol
  ({ c with sol := r.1, calls := c.calls ++ [te] }, r.2)

/-- `for n in range(self.nstepout): evolve_to_time(self.solution)`, controller.py:363-364. -/
def steps (env : RunEnv K σ) : Nat → Ctrl K σ → Ret (Ctrl K σ) Unit
  | 0, c => (c, .ok ())
  | k + 1, c =>
    match callEvolve env none c with
    | (c, .error e) => (c, .error e)
    | (c, .ok _) => steps env k c

/-- The part of the loop body before the output, controller.py:358-364. -/
def advance (cfg : RunCfg K σ) (env : RunEnv K σ) (t : K) (c : Ctrl K σ) : Ret (Ctrl K σ) Unit :=
  if cfg.outputStyle < 3 then callEvolve env (some t) c else steps env cfg.nstepout.toNat c

/-- The main loop, controller.py:357-388, with the current frame number. -/
def loop (cfg : RunCfg K σ) (env : RunEnv K σ) : List K → Nat → Ctrl K σ → Ret (Ctrl K σ) Unit
  | [], _, c => (c, .ok ())
  | t :: ts, frame, c =>
    match advance cfg env t c with
    | (c, .error e) => (c, .error e)
    | (c, .ok _) =>
      match outputFrame cfg env (frame + 1) cfg.writeAuxAlways false (keep cfg c) with
      | (c, .error e) => (c, .error e)
      | (c, .ok _) => loop cfg env ts (frame + 1) c

/-- `run`, controller.py:275-395. `status` is unbound (an `UnboundLocalError`, a `NameError`) at the
`return` if no call of `evolve_to_time` was made. With no output times `self.t` raises. -/
def run (cfg : RunCfg K σ) (env : RunEnv K σ) (c : Ctrl K σ) : Ret (Ctrl K σ) Unit :=
  let start := c.startFrame
  let c := setupGauges cfg c
  let r := env.prepare c.sol
  let c := { c with sol := r.1 }
  match r.2 with
  | .error e => (c, .error e)
  | .ok _ =>
    match outputTimes cfg (env.time c.sol) start with
    | .error e => (c, .error e)
    | .ok [] => (c, .error .attributeError)
    | .ok (_ :: ts) =>
      let c := keep cfg c
      if cfg.output = true ∧ c.outdir = true ∧ cfg.overwrite = false then
        (c, .error (.exception "Refusing to overwrite existing output data."))
      else
        match outputFrame cfg env start (cfg.writeAuxAlways || cfg.writeAuxInit) true c with
        | (c, .error e) => (c, .error e)
        | (c, .ok _) =>
          match loop cfg env ts start c with
          | (c, .error e) => (c, .error e)
          | (c, .ok _) =>
            ({ c with startFrame := c.frames.length },
              if ts = [] ∨ (cfg.outputStyle = 3 ∧ cfg.nstepout ≤ 0) then .error .nameError else .ok ())

end Ctrl
end PyClaw
