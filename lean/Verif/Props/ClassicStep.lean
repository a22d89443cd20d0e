import Verif.Spec.ClassicStep
import Verif.Props.Evolve
set_option linter.unusedSectionVars false

/-!
# Source term splitting (C41)
-/
namespace PyClaw
open Spec

variable {K : Type*} [Field K] [LinearOrder K] {D Q : Type*}

/-- A step that ends with a Courant number below the limit performed the whole splitting sequence. -/
theorem classicNumeric_performs (p : ClassicPlug K D) (cm t dt : K) (d d' : D) (c : K)
    (h : classicNumeric p cm t dt d = (d', .ok c)) (hc : c < cm) :
    Performs p t d (splitting p.sourceSplit p.source.isSome dt) d' := by
  unfold classicNumeric ClassicPlug.runSource at h
  unfold splitting
  rcases hs : p.source with _ | f
  · simp only [hs] at h
    rcases hh : p.hyperbolic t dt d with ⟨d2, e | c2⟩
    · simp [hh] at h
    · simp only [hh] at h
      simp only [Option.isSome_none, Bool.false_eq_true, false_and, if_false]
      refine ⟨c2, d2, hh, ?_⟩
      split at h <;> · simp at h; exact h.1
  · simp only [hs] at h
    by_cases h2 : p.sourceSplit = 2
    · have h1 : ¬ p.sourceSplit = 1 := by omega
      simp only [h2, beq_self_eq_true, if_true] at h
      simp only [Option.isSome_some, h2, true_and, if_true]
      rcases hf : f t (dt / 2) d with ⟨d1, e | ⟨⟩⟩
      · simp [hf] at h
      · simp only [hf] at h
        rcases hh : p.hyperbolic t dt d1 with ⟨d2, e | c2⟩
        · simp [hh] at h
        · simp only [hh] at h
          split at h
          · rename_i hge
            simp at h
            exact absurd (h.2 ▸ hge) (not_le.mpr hc)
          · rcases hf2 : f t (dt / 2) d2 with ⟨d3, e | ⟨⟩⟩
            · simp [hf2] at h
            · simp [hf2] at h
              exact ⟨f, d1, hs, hf, c2, d2, hh, f, d3, hs, hf2, h.1⟩
    · by_cases h1 : p.sourceSplit = 1
      · simp only [h1] at h
        simp only [Option.isSome_some, h1, true_and]
        rw [if_neg (by decide), if_pos trivial]
        rcases hh : p.hyperbolic t dt d with ⟨d2, e | c2⟩
        · simp [hh] at h
        · simp [hh] at h
          split at h
          · rename_i hge
            simp at h
            rw [← h.2] at hc
            rcases hge with hge | hge
            · exact absurd (hge.trans (le_max_left _ _)) (not_le.mpr hc)
            · exact absurd (hge.trans (le_max_right _ _)) (not_le.mpr hc)
          · rcases hf2 : f t dt d2 with ⟨d3, e | ⟨⟩⟩
            · simp [hf2] at h
            · simp [hf2] at h
              exact ⟨c2, d2, hh, f, d3, hs, hf2, h.1⟩
      · simp only [Option.isSome_some, h1, h2, and_false, if_false]
        rcases hh : p.hyperbolic t dt d with ⟨d2, e | c2⟩
        · simp [hh, h2] at h
        · simp [hh, h2, h1] at h
          exact ⟨c2, d2, hh, h.1⟩

/-- The environment of a classic solver without `before_step` and gauges; the data are the whole state. -/
def classicEnv (rnd : K → K) (p : ClassicPlug K Q) (cflMax : K) : StepEnv K Q Unit where
  rnd := rnd
  before := fun _ d => d
  numeric := fun t dt d => ((( classicNumeric p cflMax t dt d.1).1, ()), (classicNumeric p cflMax t dt d.1).2)
  gauges := fun _ _ => ((), none)

theorem trajectory_snoc (p : ClassicPlug K D) (d d1 d2 : D) (l : List (Attempt K)) (a : Attempt K)
    (h : Trajectory p d l d1)
    (h' : Performs p a.tBefore d1 (splitting p.sourceSplit p.source.isSome a.dt) d2) :
    Trajectory p d (l ++ [a]) d2 := by
  induction l generalizing d with
  | nil => cases h; exact ⟨d2, h', rfl⟩
  | cons b l ih => obtain ⟨d3, h1, h2⟩ := h; exact ⟨d3, h1, ih _ h2⟩

variable [FloorRing K]

/-- C41 (`_partial`: unless an attempt has Courant number exactly `cfl_max`, see below). Every call of
`evolve_to_time` that does not end in an exception inside a step leaves the data obtained by performing,
for each accepted step in order, the full splitting sequence with that step's time and size: source `dt/2`,
hyperbolic `dt`, source `dt/2` for Strang splitting; hyperbolic `dt`, source `dt` for Godunov splitting. -/
theorem C41_splitting_partial (rnd : K → K) (p : ClassicPlug K Q) (te : Option K) (s : StepState K Q Unit)
    (cm : K) (hcm : s.set.cflMax = cm)
    (l : List (Attempt K)) (hl : (evolveToTime (classicEnv rnd p cm) te s).1.log = s.log ++ l)
    (hr : ∀ a ∈ l, a.outcome ≠ .raised ∧ a.outcome ≠ .gaveUp) (hne : ∀ a ∈ l, a.cfl ≠ cm) :
    Trajectory p s.sol.q (l.filter fun a => a.outcome.isAccepted)
      (evolveToTime (classicEnv rnd p cm) te s).1.sol.q := by
  have := evolveToTime_invariant (classicEnv rnd p cm) te s (fun s' => SameParams s.set s'.set ∧
      ∃ l, s'.log = s.log ++ l ∧
      ((∀ a ∈ l, a.outcome ≠ .raised ∧ a.outcome ≠ .gaveUp) → (∀ a ∈ l, a.cfl ≠ cm) →
        Trajectory p s.sol.q (l.filter fun a => a.outcome.isAccepted) s'.sol.q))
    ⟨SameParams.refl _, [], by simp, by simp [Trajectory]⟩
    (fun m _ => ⟨⟨rfl, rfl, rfl, rfl⟩, [], by simp, by simp [Trajectory]⟩) (by
      rintro n s' a ⟨h0, l, h1, h2⟩ _ ha
      refine ⟨h0.trans (attempt_params ha).1, l ++ [a], by rw [ha.log, h1, List.append_assoc], ?_⟩
      intro hnr hnc
      have h2' := h2 (fun b hb => hnr b (by simp [hb])) (fun b hb => hnc b (by simp [hb]))
      rw [List.filter_append]
      have hra := hnr a (by simp)
      have hca := hnc a (by simp)
      have hacc : a.outcome.isAccepted = true → Trajectory p s.sol.q
          (List.filter (fun a => a.outcome.isAccepted) l ++ [a])
          (attempt (classicEnv rnd p cm) s.sol.t te n s').1.sol.q := by
        intro ho
        obtain ⟨c1, _, c3⟩ := ha.acc ho
        have hcr := ha.courant hra.1
        refine trajectory_snoc p _ _ _ _ _ h2' ?_
        rw [ha.tBefore, c3]
        refine classicNumeric_performs p cm _ _ _ _ a.cfl ?_ ?_
        · exact Prod.ext rfl hcr
        · rw [h0.cflMax, hcm] at c1
          exact lt_of_le_of_ne c1 hca
      rcases ho : a.outcome with _ | _ | _ | _ | _
      · simpa [List.filter_cons, ho, Outcome.isAccepted] using hacc (by simp [ho, Outcome.isAccepted])
      · simpa [List.filter_cons, ho, Outcome.isAccepted] using hacc (by simp [ho, Outcome.isAccepted])
      · simp only [List.filter_cons, ho, Outcome.isAccepted, Bool.false_eq_true, if_false, List.filter_nil,
          List.append_nil]
        rw [(ha.rejq ho).1]; exact h2'
      · exact absurd ho hra.2
      · exact absurd ho hra.1)
  obtain ⟨_, l', h1, h2⟩ := this
  have : l = l' := List.append_cancel_left (hl.symm.trans h1)
  subst this
  exact h2 hr hne

/-- Without a source term the exception at `cfl = cfl_max` does not matter: every accepted step is the
hyperbolic step. -/
theorem C41_no_source (p : ClassicPlug K D) (hs : p.source = none) (cm t dt : K) (d d' : D) (c : K)
    (h : classicNumeric p cm t dt d = (d', .ok c)) :
    ∃ c', p.hyperbolic t dt d = (d', .ok c') ∧ c = max 0 c' := by
  unfold classicNumeric ClassicPlug.runSource at h
  simp only [hs] at h
  rcases hh : p.hyperbolic t dt d with ⟨d2, e | c2⟩
  · simp [hh] at h
  · simp only [hh] at h
    refine ⟨c2, ?_⟩
    split at h <;> · simp at h; simp [h.1, h.2]

/-- The example plug: the source multiplies by `1 + h`, the hyperbolic step adds `h` and has Courant number
`h`. -/
def exPlug (split : Int) : ClassicPlug ℚ ℚ where
  sourceSplit := split
  source := some fun _ h d => (d * (1 + h), .ok ())
  hyperbolic := fun _ h d => (d + h, .ok h)

/-- A solver for the example, with fixed time step `1/2` and the given `cfl_max`. -/
def exPlugState (cflMax : ℚ) : StepState ℚ ℚ Unit where
  set := { dtVariable := true, dt := 1 / 2, dtOld := none, dtMax := 10, cflMax := cflMax, cflDesired := 1 / 4,
           maxSteps := 5, cfl := 1 / 10 }
  status := {}
  sol := ⟨0, 8, ()⟩
  log := []

/-- Non-vacuity: with `cfl_max = 1` one step of size 1/2 to time 1/2 is accepted, and gives
`(8 * 5/4 + 1/2) * 5/4`, the Strang sequence. -/
example : let r := evolveToTime (classicEnv id (exPlug 2) 1) (some (1 / 2)) (exPlugState 1)
    (r.1.log.map fun a => (a.outcome, a.cfl)) = [(.accepted, 1 / 2)] ∧ r.1.sol.q = (8 * (5 / 4) + 1 / 2) * (5 / 4) := by
  decide +kernel

/-- C41 fails when the Courant number equals `cfl_max` exactly: the step is accepted (the time advances),
but the second half of the source (Strang) or the whole source (Godunov) is left out. -/
theorem C41_equality_skips_source_violated :
    let r := evolveToTime (classicEnv id (exPlug 2) (1 / 2)) (some (1 / 2)) (exPlugState (1 / 2))
    let r' := evolveToTime (classicEnv id (exPlug 1) (1 / 2)) (some (1 / 2)) (exPlugState (1 / 2))
    r.2 = .ok () ∧ (r.1.log.map fun a => (a.outcome, a.tAfter)) = [(.accepted, 1 / 2)] ∧
      r.1.sol.q = 8 * (5 / 4) + 1 / 2 ∧
    r'.2 = .ok () ∧ (r'.1.log.map fun a => (a.outcome, a.tAfter)) = [(.accepted, 1 / 2)] ∧
      r'.1.sol.q = 8 + 1 / 2 := by
  refine ⟨?_, ?_, ?_, ?_, ?_, ?_⟩
  all_goals decide +kernel

end PyClaw
