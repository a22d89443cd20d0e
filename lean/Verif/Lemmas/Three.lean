import Verif.Spec.Superposition
import Verif.Lemmas.Simulation

/-! Three runs side by side. -/
set_option linter.unusedSectionVars false

namespace PyClaw
open Spec

section loop
variable {K Q W : Type*} [Field K] [LinearOrder K]

/-- Three states in step. -/
structure InStep3 (R : Q × W → Q × W → Q × W → Prop) (s₁ s₂ s : StepState K Q W) : Prop where
  set₁ : s₁.set = s.set
  status₁ : s₁.status = s.status
  t₁ : s₁.sol.t = s.sol.t
  log₁ : s₁.log = s.log
  set₂ : s₂.set = s.set
  status₂ : s₂.status = s.status
  t₂ : s₂.sol.t = s.sol.t
  log₂ : s₂.log = s.log
  data : R (s₁.sol.q, s₁.sol.rest) (s₂.sol.q, s₂.sol.rest) (s.sol.q, s.sol.rest)

/-- What the numerical steps must have in common. -/
structure SimEnv3 (R : Q × W → Q × W → Q × W → Prop) (env : StepEnv K Q W) : Prop where
  numeric : ∀ t dt d₁ d₂ d, R d₁ d₂ d →
    (env.numeric t dt (env.before t d₁)).2 = (env.numeric t dt (env.before t d)).2 ∧
    (env.numeric t dt (env.before t d₂)).2 = (env.numeric t dt (env.before t d)).2 ∧
    R (env.numeric t dt (env.before t d₁)).1 (env.numeric t dt (env.before t d₂)).1 (env.numeric t dt (env.before t d)).1 ∧
    R (d₁.1, (env.numeric t dt (env.before t d₁)).1.2) (d₂.1, (env.numeric t dt (env.before t d₂)).1.2)
      (d.1, (env.numeric t dt (env.before t d)).1.2)
  gauges : ∀ t d₁ d₂ d, R d₁ d₂ d → (env.gauges t d₁).2 = (env.gauges t d).2 ∧ (env.gauges t d₂).2 = (env.gauges t d).2 ∧
    R (d₁.1, (env.gauges t d₁).1) (d₂.1, (env.gauges t d₂).1) (d.1, (env.gauges t d).1)

variable {R : Q × W → Q × W → Q × W → Prop} {env : StepEnv K Q W}

theorem attempt_sim3 (E : SimEnv3 R env) (ts : K) (te : Option K) (n : Nat) (s₁ s₂ s : StepState K Q W) (h : InStep3 R s₁ s₂ s) :
    (attempt env ts te n s₁).2 = (attempt env ts te n s).2 ∧ (attempt env ts te n s₂).2 = (attempt env ts te n s).2 ∧
      InStep3 R (attempt env ts te n s₁).1 (attempt env ts te n s₂).1 (attempt env ts te n s).1 := by
  obtain ⟨set, status, ⟨t, q, rest⟩, log⟩ := s
  obtain ⟨set₁, status₁, ⟨t₁, q₁, rest₁⟩, log₁⟩ := s₁
  obtain ⟨set₂, status₂, ⟨t₂, q₂, rest₂⟩, log₂⟩ := s₂
  obtain ⟨a1, a2, a3, a4, b1, b2, b3, b4, h5⟩ := h
  dsimp only at a1 a2 a3 a4 b1 b2 b3 b4 h5
  subst a1 a2 a3 a4 b1 b2 b3 b4
  have hn := E.numeric t₂ (getDt env.rnd t₂ ts te set₂ status₂).1.dt _ _ _ h5
  unfold attempt
  simp only []
  revert hn
  generalize env.numeric t₂ (getDt env.rnd t₂ ts te set₂ status₂).1.dt (env.before t₂ (q, rest)) = z
  generalize env.numeric t₂ (getDt env.rnd t₂ ts te set₂ status₂).1.dt (env.before t₂ (q₁, rest₁)) = x
  generalize env.numeric t₂ (getDt env.rnd t₂ ts te set₂ status₂).1.dt (env.before t₂ (q₂, rest₂)) = y
  obtain ⟨⟨xq, xr⟩, x2⟩ := x
  obtain ⟨⟨yq, yr⟩, y2⟩ := y
  obtain ⟨⟨zq, zr⟩, z2⟩ := z
  rintro ⟨e1, e2, hR, hR'⟩
  dsimp only at e1 e2
  subst e1 e2
  cases y2 with
  | error e => exact ⟨rfl, rfl, rfl, rfl, rfl, rfl, rfl, rfl, rfl, rfl, hR⟩
  | ok cfl =>
    simp only
    by_cases hc : cfl ≤ set₂.cflMax
    · simp only [if_pos hc]
      generalize (if set₂.dtVariable = true then env.rnd (t₂ + (getDt env.rnd t₂ ts te set₂ status₂).1.dt)
          else env.rnd (ts + env.rnd ((n + 1 : Nat) * (getDt env.rnd t₂ ts te set₂ status₂).1.dt))) = tn
      have hg := E.gauges tn _ _ _ hR
      revert hg
      generalize env.gauges tn (xq, xr) = u
      generalize env.gauges tn (yq, yr) = v
      generalize env.gauges tn (zq, zr) = w
      obtain ⟨u1, u2⟩ := u
      obtain ⟨v1, v2⟩ := v
      obtain ⟨w1, w2⟩ := w
      rintro ⟨e1, e2, hG⟩
      dsimp only at e1 e2
      subst e1 e2
      cases v2 with
      | none => exact ⟨rfl, rfl, rfl, rfl, rfl, rfl, rfl, rfl, rfl, rfl, hG⟩
      | some e => exact ⟨rfl, rfl, rfl, rfl, rfl, rfl, rfl, rfl, rfl, rfl, hG⟩
    · simp only [if_neg hc]
      by_cases hv : set₂.dtVariable = true
      · simp only [if_pos hv]; exact ⟨trivial, trivial, rfl, rfl, rfl, rfl, rfl, rfl, rfl, rfl, hR'⟩
      · simp only [if_neg hv]; exact ⟨trivial, trivial, rfl, rfl, rfl, rfl, rfl, rfl, rfl, rfl, hR⟩

theorem loop_sim3 (E : SimEnv3 R env) (ts : K) (te : Option K) (fuel n k : Nat) (s₁ s₂ s : StepState K Q W) (h : InStep3 R s₁ s₂ s) :
    (evolveLoop env ts te fuel n k s₁).2 = (evolveLoop env ts te fuel n k s).2 ∧
    (evolveLoop env ts te fuel n k s₂).2 = (evolveLoop env ts te fuel n k s).2 ∧
      InStep3 R (evolveLoop env ts te fuel n k s₁).1 (evolveLoop env ts te fuel n k s₂).1 (evolveLoop env ts te fuel n k s).1 := by
  induction fuel generalizing n k s₁ s₂ s with
  | zero => exact ⟨rfl, rfl, h⟩
  | succ fuel ih =>
    have h0 := attempt_sim3 E ts te n s₁ s₂ s h
    unfold evolveLoop
    revert h0
    generalize attempt env ts te n s₁ = x
    generalize attempt env ts te n s₂ = y
    generalize attempt env ts te n s = z
    obtain ⟨x1, x2⟩ := x
    obtain ⟨y1, y2⟩ := y
    obtain ⟨z1, z2⟩ := z
    rintro ⟨e1, e2, h2⟩
    dsimp only at e1 e2 h2
    subst e1 e2
    cases y2 with
    | error e => exact ⟨rfl, rfl, h2⟩
    | ok acc =>
      cases te with
      | none => exact ⟨rfl, rfl, h2⟩
      | some T =>
        simp only
        rw [h2.t₁, h2.t₂]
        by_cases hT : T ≤ z1.sol.t
        · simp only [if_pos hT]; exact ⟨trivial, trivial, h2⟩
        · simp only [if_neg hT]; exact ih _ _ _ _ _ h2

theorem evolve_sim3 [FloorRing K] (E : SimEnv3 R env) (te : Option K) (s₁ s₂ s : StepState K Q W) (h : InStep3 R s₁ s₂ s) :
    (evolveToTime env te s₁).2 = (evolveToTime env te s).2 ∧ (evolveToTime env te s₂).2 = (evolveToTime env te s).2 ∧
      InStep3 R (evolveToTime env te s₁).1 (evolveToTime env te s₂).1 (evolveToTime env te s).1 := by
  unfold evolveToTime
  simp only [h.set₁, h.t₁, h.set₂, h.t₂]
  generalize (if s.set.dtVariable = true then ((.ok s.set, s.set) : Except PyErr (StepSettings K) × StepSettings K)
    else fixedSetup env.rnd s.sol.t te s.set) = f
  obtain ⟨f1, f2⟩ := f
  cases f1 with
  | error e => exact ⟨rfl, rfl, rfl, h.status₁, h.t₁, h.log₁, rfl, h.status₂, h.t₂, h.log₂, h.data⟩
  | ok set1 =>
    simp only
    by_cases hc : set1.dtVariable = true ∧ set1.cflMax < set1.cflDesired
    · simp only [if_pos hc]; exact ⟨trivial, trivial, rfl, h.status₁, h.t₁, h.log₁, rfl, h.status₂, h.t₂, h.log₂, h.data⟩
    · simp only [if_neg hc]
      cases te with
      | none =>
        simp only
        have h0 := loop_sim3 E s.sol.t none set1.maxSteps.toNat 0 0 { s₁ with set := set1 } { s₂ with set := set1 } { s with set := set1 }
          ⟨rfl, h.status₁, h.t₁, h.log₁, rfl, h.status₂, h.t₂, h.log₂, h.data⟩
        revert h0
        generalize evolveLoop env s.sol.t none set1.maxSteps.toNat 0 0 { s₁ with set := set1 } = x
        generalize evolveLoop env s.sol.t none set1.maxSteps.toNat 0 0 { s₂ with set := set1 } = y
        generalize evolveLoop env s.sol.t none set1.maxSteps.toNat 0 0 { s with set := set1 } = z
        obtain ⟨x1, x2⟩ := x
        obtain ⟨y1, y2⟩ := y
        obtain ⟨z1, z2⟩ := z
        rintro ⟨e1, e2, h2⟩
        dsimp only at e1 e2 h2
        subst e1 e2
        cases y2 <;> exact ⟨rfl, rfl, h2⟩
      | some T =>
        simp only
        generalize (if T ≤ s.sol.t then { set1 with maxSteps := 0 } else set1) = set2
        have h0 := loop_sim3 E s.sol.t (some T) set2.maxSteps.toNat 0 0 { s₁ with set := set2 } { s₂ with set := set2 } { s with set := set2 }
          ⟨rfl, h.status₁, h.t₁, h.log₁, rfl, h.status₂, h.t₂, h.log₂, h.data⟩
        revert h0
        generalize evolveLoop env s.sol.t (some T) set2.maxSteps.toNat 0 0 { s₁ with set := set2 } = x
        generalize evolveLoop env s.sol.t (some T) set2.maxSteps.toNat 0 0 { s₂ with set := set2 } = y
        generalize evolveLoop env s.sol.t (some T) set2.maxSteps.toNat 0 0 { s with set := set2 } = z
        obtain ⟨x1, x2⟩ := x
        obtain ⟨y1, y2⟩ := y
        obtain ⟨z1, z2⟩ := z
        rintro ⟨e1, e2, h2⟩
        dsimp only at e1 e2 h2
        subst e1 e2
        cases y2 with
        | error e => exact ⟨rfl, rfl, h2⟩
        | ok k =>
          simp only
          rw [h2.set₁, h2.t₁, h2.set₂, h2.t₂]
          split <;> exact ⟨rfl, rfl, h2⟩

theorem run_sim3 [FloorRing K] (E : SimEnv3 R env) (ops : List (StepOp K Q W)) (hops : OnlyEvolves ops) (s₁ s₂ s : StepState K Q W)
    (h : InStep3 R s₁ s₂ s) : InStep3 R (runSteps env ops s₁) (runSteps env ops s₂) (runSteps env ops s) := by
  induction ops generalizing s₁ s₂ s with
  | nil => exact h
  | cons o ops ih =>
    have ih' := ih (fun o ho => hops o (List.mem_cons_of_mem _ ho))
    rcases hops o List.mem_cons_self with ⟨te, rfl⟩ | ⟨f, rfl⟩
    · exact ih' _ _ _ (evolve_sim3 E te s₁ s₂ s h).2.2
    · exact ih' _ _ _ ⟨congrArg f h.set₁, h.status₁, h.t₁, h.log₁, congrArg f h.set₂, h.status₂, h.t₂, h.log₂, h.data⟩

end loop

end PyClaw
