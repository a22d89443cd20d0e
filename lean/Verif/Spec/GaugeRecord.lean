import Verif.Model.GaugeRecord

/-!
Specification of the recording of gauges (C57).
-/
namespace PyClaw.Spec

variable {K Q W : Type*} [Field K] [LinearOrder K]

/-- The solutions after the accepted steps of a sequence of attempted steps that leads from `s` to `s'`. -/
inductive Snapshots (env : StepEnv K Q W) : StepState K Q W → List (StepSolution K Q W) → StepState K Q W → Prop
  | start (s) : Snapshots env s [] s
  | settings (s l s' f) : Snapshots env s l s' → Snapshots env s l { s' with set := f }
  | accepted (s l s' ts te n) : Snapshots env s l s' → (attempt env ts te n s').2 = .ok true →
      Snapshots env s (l ++ [(attempt env ts te n s').1.sol]) (attempt env ts te n s').1
  | other (s l s' ts te n) : Snapshots env s l s' → (attempt env ts te n s').2 ≠ .ok true →
      Snapshots env s l (attempt env ts te n s').1

/-- The rows written to the file of gauge `i`. -/
def fileRows (gs : GaugeState K) (i : Nat) : List (GRow K) := ((gs.files[i]?).map (·.rows)).getD []

/-- The rows kept in memory for gauge `i` (`state.gauge_data[i]`). -/
def keptRows (gs : GaugeState K) (i : Nat) : List (GRow K) := (gs.data[i]?).getD []

/-- Everything is in place for recording: one open file per gauge; the number of coordinates
of the gauges fits; data kept in memory so far have the right number of columns. -/
structure GaugesReady (numDim m : Nat) (gs : GaugeState K) : Prop where
  dim : numDim = 1 ∨ numDim = 2
  cells : ∀ g ∈ gs.gauges, g.length = numDim
  files : gs.files.length = gs.gauges.length
  opened : ∀ f ∈ gs.files, f.isOpen = true
  data : gs.data = [] ∨ gs.data.length = gs.gauges.length
  columns : ∀ rows ∈ gs.data, ∀ r ∈ rows, r.2.length = m

/-- The gauge part and the record after a run: `l` are the solutions after its accepted steps. Every file, and every list kept in
memory if that was asked for, has got exactly one row per element of `l`, in order, holding its time and the values at the
gauge. The times of `l` are the times reached by the accepted attempts, and their number is what the step counter advanced. -/
structure RecordedRun {Q U : Type*} (value : Q → U → List Int → List K) (s : StepState K Q (GaugeState K × U))
    (l : List (StepSolution K Q (GaugeState K × U))) (s' : StepState K Q (GaugeState K × U)) : Prop where
  attempts : ∃ new, s'.log = s.log ++ new ∧ (∀ a ∈ new, a.outcome ≠ .gaugeFailed) ∧
    (new.filter fun a => decide (a.outcome = .accepted)).map (·.tAfter) = l.map (·.t)
  count : s'.status.numsteps = s.status.numsteps + l.length
  gauges : s'.sol.rest.1.gauges = s.sol.rest.1.gauges
  keep : s'.sol.rest.1.keep = s.sol.rest.1.keep
  rows : ∀ i g, s.sol.rest.1.gauges[i]? = some g →
    fileRows s'.sol.rest.1 i = fileRows s.sol.rest.1 i ++ l.map fun x => (x.t, value x.q x.rest.2 g)
  kept : ∀ i g, s.sol.rest.1.gauges[i]? = some g →
    keptRows s'.sol.rest.1 i = keptRows s.sol.rest.1 i ++
      if s.sol.rest.1.keep then l.map fun x => (x.t, value x.q x.rest.2 g) else []

/-- A session that only calls `evolve_to_time` and changes solver settings. -/
def OnlyEvolves {Q W : Type*} (ops : List (StepOp K Q W)) : Prop :=
  ∀ o ∈ ops, (∃ te, o = .evolve te) ∨ ∃ f, o = .adjust f

end PyClaw.Spec
