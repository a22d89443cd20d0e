import Verif.Lemmas.Evolve
import Verif.Spec.Evolve
import Mathlib.Algebra.Order.Field.Basic
import Mathlib.Tactic.Positivity
import Mathlib.Tactic.NormNum
import Mathlib.Tactic.FieldSimp
set_option linter.unusedSectionVars false

namespace PyClaw
open Spec

variable {K Q W : Type*} [Field K] [LinearOrder K]

theorem isAccepted_iff (a : Attempt K) : a.outcome.isAccepted = true ↔ Accepted a := by
  rcases a with ⟨_, _, _, o, _⟩
  cases o <;> simp [Outcome.isAccepted, Accepted]

theorem chain_snoc {t t' : K} {l : List (Attempt K)} {a : Attempt K} (h : Chain t l t') (ha : a.tBefore = t') :
    Chain t (l ++ [a]) a.tAfter := by
  induction l generalizing t with
  | nil => exact ⟨ha.trans h.symm, rfl⟩
  | cons b l ih => exact ⟨h.1, ih h.2⟩

/-- Settings that a call never changes. -/
structure SameParams (s s' : StepSettings K) : Prop where
  dtVariable : s'.dtVariable = s.dtVariable
  dtMax : s'.dtMax = s.dtMax
  cflMax : s'.cflMax = s.cflMax
  cflDesired : s'.cflDesired = s.cflDesired

theorem SameParams.refl (s : StepSettings K) : SameParams s s := ⟨rfl, rfl, rfl, rfl⟩

theorem attempt_params {env : StepEnv K Q W} {ts : K} {te : Option K} {n : Nat} {s : StepState K Q W}
    {a : Attempt K} (ha : AttemptFacts env ts te n s (attempt env ts te n s) a) :
    SameParams s.set (attempt env ts te n s).1.set ∧
      (attempt env ts te n s).1.set.maxSteps = s.set.maxSteps ∧
      (attempt env ts te n s).1.set.dt = a.dt ∧ (attempt env ts te n s).1.set.cfl = a.cfl ∧
      (attempt env ts te n s).1.set.dtOld.isSome = true := by
  obtain ⟨f1, f2, f3, f4, f5, f6, f7, f8⟩ := getDt_frame env.rnd s.sol.t ts te s.set s.status
  rw [ha.set]
  exact ⟨⟨f1, f2, f3, f4⟩, f5, ha.dt.symm, rfl, f8⟩

theorem SameParams.trans {s s' s'' : StepSettings K} (h : SameParams s s') (h' : SameParams s' s'') :
    SameParams s s'' :=
  ⟨h'.1.trans h.1, h'.2.trans h.2, h'.3.trans h.3, h'.4.trans h.4⟩

variable [FloorRing K]

/-- The attempts of one call and what they satisfy, for properties of single attempts that do not depend
on the history. -/
theorem call_log (env : StepEnv K Q W) (te : Option K) (s : StepState K Q W) :
    ∃ l, (evolveToTime env te s).1.log = s.log ++ l ∧ Chain s.sol.t l (evolveToTime env te s).1.sol.t ∧
      SameParams s.set (evolveToTime env te s).1.set ∧
      ∀ a ∈ l, (Accepted a → a.cfl ≤ s.set.cflMax) ∧ (¬Accepted a → a.tAfter = a.tBefore) ∧
        (a.outcome = .rejected → s.set.dtVariable = true ∧ s.set.cflMax < a.cfl) ∧
        (a.outcome = .gaveUp → s.set.dtVariable = false ∧ s.set.cflMax < a.cfl) := by
  refine evolveToTime_invariant env te s (fun s' => ∃ l, s'.log = s.log ++ l ∧ Chain s.sol.t l s'.sol.t ∧
      SameParams s.set s'.set ∧
      ∀ a ∈ l, (Accepted a → a.cfl ≤ s.set.cflMax) ∧ (¬Accepted a → a.tAfter = a.tBefore) ∧
        (a.outcome = .rejected → s.set.dtVariable = true ∧ s.set.cflMax < a.cfl) ∧
        (a.outcome = .gaveUp → s.set.dtVariable = false ∧ s.set.cflMax < a.cfl))
    ⟨[], by simp, rfl, SameParams.refl _, by simp⟩ ?_ ?_
  · intro m _
    exact ⟨[], by simp, rfl, ⟨rfl, rfl, rfl, rfl⟩, by simp⟩
  · rintro n s' a ⟨l, h1, h2, h3, h4⟩ _ ha
    refine ⟨l ++ [a], by rw [ha.log, h1, List.append_assoc], ?_, h3.trans (attempt_params ha).1, ?_⟩
    · rw [ha.t]; exact chain_snoc h2 ha.tBefore
    · intro b hb
      rcases List.mem_append.mp hb with hb | hb
      · exact h4 b hb
      · rw [List.mem_singleton.mp hb]
        refine ⟨fun hacc => ?_, fun hacc => ?_, fun hr => ?_, fun hg => ?_⟩
        · rw [← h3.cflMax]; exact (ha.acc ((isAccepted_iff a).mpr hacc)).1
        · rw [ha.tBefore]
          exact ha.rej (by rw [← isAccepted_iff] at hacc; simpa using hacc)
        · rw [← h3.cflMax, ← h3.dtVariable]; exact (ha.rejq hr).2
        · rw [← h3.cflMax, ← h3.dtVariable]; exact ⟨(ha.gave hg).1, (ha.gave hg).2.1⟩

end PyClaw
