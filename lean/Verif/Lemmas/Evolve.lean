import Verif.Model.Evolve
import Mathlib.Tactic.Linarith
import Mathlib.Tactic.SplitIfs
set_option linter.unusedSectionVars false

namespace PyClaw

variable {K Q W : Type*} [Field K] [LinearOrder K]

/-- Was the step accepted? -/
def Outcome.isAccepted : Outcome → Bool
  | .accepted => true
  | .gaugeFailed => true
  | _ => false

/-- Does the step enter `status['cflmax']`? -/
def Outcome.countsCfl : Outcome → Bool
  | .accepted => true
  | .gaugeFailed => true
  | .gaveUp => true
  | _ => false

theorem getDt_frame (rnd : K → K) (t ts : K) (te : Option K) (s : StepSettings K) (st : StepStatus K) :
    (getDt rnd t ts te s st).1.dtVariable = s.dtVariable ∧ (getDt rnd t ts te s st).1.dtMax = s.dtMax ∧
    (getDt rnd t ts te s st).1.cflMax = s.cflMax ∧ (getDt rnd t ts te s st).1.cflDesired = s.cflDesired ∧
    (getDt rnd t ts te s st).1.maxSteps = s.maxSteps ∧
    (getDt rnd t ts te s st).2.numsteps = st.numsteps ∧ (getDt rnd t ts te s st).2.cflmax = st.cflmax ∧
    (getDt rnd t ts te s st).1.dtOld.isSome = true := by
  unfold getDt chooseDt
  split_ifs with h h1 <;> cases te <;> simp_all

/-- What one attempt does, field by field. -/
structure AttemptFacts (env : StepEnv K Q W) (ts : K) (te : Option K) (n : Nat) (s : StepState K Q W)
    (r : Ret (StepState K Q W) Bool) (a : Attempt K) : Prop where
  log : r.1.log = s.log ++ [a]
  tBefore : a.tBefore = s.sol.t
  dt : a.dt = (getDt env.rnd s.sol.t ts te s.set s.status).1.dt
  t : r.1.sol.t = a.tAfter
  set : r.1.set = { (getDt env.rnd s.sol.t ts te s.set s.status).1 with cfl := a.cfl }
  numsteps : r.1.status.numsteps = s.status.numsteps + if a.outcome = .accepted then 1 else 0
  cflmax : r.1.status.cflmax =
    if a.outcome.countsCfl then maxOpt a.cfl s.status.cflmax else s.status.cflmax
  acc : a.outcome.isAccepted = true → a.cfl ≤ s.set.cflMax ∧
    a.tAfter = (if s.set.dtVariable then env.rnd (s.sol.t + a.dt)
      else env.rnd (ts + env.rnd ((n + 1 : Nat) * a.dt))) ∧
    r.1.sol.q = (env.numeric s.sol.t a.dt (env.before s.sol.t (s.sol.q, s.sol.rest))).1.1
  rej : a.outcome.isAccepted = false → a.tAfter = s.sol.t
  rejq : a.outcome = .rejected → r.1.sol.q = s.sol.q ∧ s.set.dtVariable = true ∧ s.set.cflMax < a.cfl
  gave : a.outcome = .gaveUp → s.set.dtVariable = false ∧ s.set.cflMax < a.cfl ∧
    r.2 = .error (.exception "CFL too large, giving up!")
  okT : r.2 = .ok true ↔ a.outcome = .accepted
  okF : r.2 = .ok false ↔ a.outcome = .rejected
  courant : a.outcome ≠ .raised →
    (env.numeric s.sol.t a.dt (env.before s.sol.t (s.sol.q, s.sol.rest))).2 = .ok a.cfl
  raisedBy : a.outcome = .raised → ∃ e,
    (env.numeric s.sol.t a.dt (env.before s.sol.t (s.sol.q, s.sol.rest))).2 = .error e

theorem attempt_facts (env : StepEnv K Q W) (ts : K) (te : Option K) (n : Nat) (s : StepState K Q W) :
    ∃ a, AttemptFacts env ts te n s (attempt env ts te n s) a := by
  obtain ⟨f1, f2, f3, f4, f5, f6, f7, f8⟩ := getDt_frame env.rnd s.sol.t ts te s.set s.status
  unfold attempt
  simp only
  set g := getDt env.rnd s.sol.t ts te s.set s.status with hg
  set r := env.numeric s.sol.t g.1.dt (env.before s.sol.t (s.sol.q, s.sol.rest)) with hr
  rcases hr2 : r.2 with e | cfl
  · refine ⟨⟨s.sol.t, g.1.dt, 0, .raised, s.sol.t⟩, ?_⟩
    constructor <;> simp [Outcome.isAccepted, Outcome.countsCfl, f6, f7, ← hr, ← hg, hr2]
  · simp only
    by_cases hc : cfl ≤ s.set.cflMax
    · rw [if_pos hc]
      rcases hw : (env.gauges (if s.set.dtVariable = true then env.rnd (s.sol.t + g.1.dt)
        else env.rnd (ts + env.rnd (↑(n + 1) * g.1.dt))) r.1).2 with _ | e
      · refine ⟨⟨s.sol.t, g.1.dt, cfl, .accepted, (if s.set.dtVariable = true then env.rnd (s.sol.t + g.1.dt)
          else env.rnd (ts + env.rnd (↑(n + 1) * g.1.dt)))⟩, ?_⟩
        constructor <;> simp [Outcome.isAccepted, Outcome.countsCfl, f6, f7, ← hr, ← hg, hr2, hc]
      · refine ⟨⟨s.sol.t, g.1.dt, cfl, .gaugeFailed, (if s.set.dtVariable = true then env.rnd (s.sol.t + g.1.dt)
          else env.rnd (ts + env.rnd (↑(n + 1) * g.1.dt)))⟩, ?_⟩
        constructor <;> simp [Outcome.isAccepted, Outcome.countsCfl, f6, f7, ← hr, ← hg, hr2, hc]
    · rw [if_neg hc]
      by_cases hv : s.set.dtVariable = true
      · rw [if_pos hv]
        refine ⟨⟨s.sol.t, g.1.dt, cfl, .rejected, s.sol.t⟩, ?_⟩
        constructor <;>
          simp [Outcome.isAccepted, Outcome.countsCfl, f6, f7, ← hr, ← hg, hr2, hv, not_le.mp hc]
      · rw [if_neg hv]
        refine ⟨⟨s.sol.t, g.1.dt, cfl, .gaveUp, s.sol.t⟩, ?_⟩
        constructor <;>
          simp [Outcome.isAccepted, Outcome.countsCfl, f6, f7, ← hr, ← hg, hr2, hv, not_le.mp hc]

/-- Everything that holds of the attempts of one call, provable by following the loop. -/
theorem evolveLoop_induct (env : StepEnv K Q W) (ts : K) (te : Option K)
    (P : Nat → Nat → StepState K Q W → Prop)
    (hstep : ∀ n k s a, P n k s → (∀ T, te = some T → s.sol.t < T) →
      AttemptFacts env ts te n s (attempt env ts te n s) a →
      P (n + 1) (k + if a.outcome = .accepted then 1 else 0) (attempt env ts te n s).1) :
    ∀ fuel n k s, P n k s → (0 < fuel → ∀ T, te = some T → s.sol.t < T) →
      ∃ n' k', P n' k' (evolveLoop env ts te fuel n k s).1 ∧
        n ≤ n' ∧ n' ≤ n + fuel ∧
        (∀ j, (evolveLoop env ts te fuel n k s).2 = .ok j → j = k' ∧
          (n' = n + fuel ∨ te = none ∧ n < n' ∨
            n < n' ∧ ∃ T, te = some T ∧ T ≤ (evolveLoop env ts te fuel n k s).1.sol.t)) := by
  intro fuel
  induction fuel with
  | zero =>
    intro n k s hP _
    exact ⟨n, k, by simpa [evolveLoop] using hP, le_rfl, by omega, by
      intro j hj; simp [evolveLoop] at hj; exact ⟨hj.symm, Or.inl (by omega)⟩⟩
  | succ fuel ih =>
    intro n k s hP hlt
    obtain ⟨a, ha⟩ := attempt_facts env ts te n s
    have hP' := hstep n k s a hP (hlt (by omega)) ha
    simp only [evolveLoop]
    rcases hat : attempt env ts te n s with ⟨s', e | acc⟩
    · rw [hat] at hP'
      exact ⟨n + 1, _, hP', by omega, by omega, by intro j hj; simp at hj⟩
    · rw [hat] at hP' ha
      have hk : (if acc = true then k + 1 else k) = k + if a.outcome = .accepted then 1 else 0 := by
        cases acc with
        | true => simp [ha.okT.mp rfl]
        | false => simp [ha.okF.mp rfl]
      simp only
      rw [hk]
      cases te with
      | none =>
        exact ⟨n + 1, _, hP', by omega, by omega, by
          intro j hj; simp at hj; exact ⟨hj.symm, Or.inr (Or.inl ⟨rfl, by omega⟩)⟩⟩
      | some T =>
        simp only
        by_cases hT : T ≤ s'.sol.t
        · rw [if_pos hT]
          exact ⟨n + 1, _, hP', by omega, by omega, by
            intro j hj; simp at hj
            exact ⟨hj.symm, Or.inr (Or.inr ⟨by omega, T, rfl, hT⟩)⟩⟩
        · rw [if_neg hT]
          obtain ⟨n', k', h1, h2, h3, h4⟩ := ih (n + 1) _ s' hP' (by
            intro _ T' hT'; cases hT'; exact not_le.mp hT)
          refine ⟨n', k', h1, by omega, by omega, ?_⟩
          intro j hj
          obtain ⟨h5, h6⟩ := h4 j hj
          refine ⟨h5, ?_⟩
          rcases h6 with h | ⟨h, h'⟩ | ⟨h, h'⟩
          · exact Or.inl (by omega)
          · exact Or.inr (Or.inl ⟨h, by omega⟩)
          · exact Or.inr (Or.inr ⟨by omega, h'⟩)

variable [FloorRing K]

/-- The two ways a call can go: it raises before the loop, or it runs the loop for `m` iterations. -/
theorem evolveToTime_cases (env : StepEnv K Q W) (te : Option K) (s : StepState K Q W) :
    (∃ m e, evolveToTime env te s = ({ s with set := { s.set with maxSteps := m } }, .error e) ∧
      (s.set.dtVariable = true → s.set.cflMax < s.set.cflDesired) ∧
      (s.set.dtVariable = false → (fixedSetup env.rnd s.sol.t te s.set).1 = .error e)) ∨
    (∃ m : Int,
      ¬(s.set.dtVariable = true ∧ s.set.cflMax < s.set.cflDesired) ∧
      (∀ T, te = some T → T ≤ s.sol.t → m = 0) ∧
      (s.set.dtVariable = true → (∀ T, te = some T → s.sol.t < T) → m = s.set.maxSteps) ∧
      (s.set.dtVariable = false → (∀ T, te = some T → s.sol.t < T) →
        (fixedSetup env.rnd s.sol.t te s.set).1 = .ok { s.set with maxSteps := m }) ∧
      (evolveToTime env te s).1 =
        (evolveLoop env s.sol.t te m.toNat 0 0 { s with set := { s.set with maxSteps := m } }).1 ∧
      (evolveToTime env te s).2 =
        match (evolveLoop env s.sol.t te m.toNat 0 0 { s with set := { s.set with maxSteps := m } }).2 with
        | .error e => .error e
        | .ok k =>
          match te with
          | none => .ok ()
          | some T =>
            if (evolveToTime env te s).1.set.dtVariable = true ∧ (evolveToTime env te s).1.sol.t < T ∧
              (k : Int) = (evolveToTime env te s).1.set.maxSteps then
              .error (.exception "Maximum number of timesteps have been taken")
            else .ok ()) := by
  have key : ∀ set1 m1, set1 = { s.set with maxSteps := m1 } →
      (s.set.dtVariable = true → m1 = s.set.maxSteps) →
      (if s.set.dtVariable then ((.ok s.set, s.set) : Except PyErr (StepSettings K) × StepSettings K)
        else fixedSetup env.rnd s.sol.t te s.set).1 = .ok set1 →
      (s.set.dtVariable = false → (fixedSetup env.rnd s.sol.t te s.set).1 = .ok set1) →
      ¬(s.set.dtVariable = true ∧ s.set.cflMax < s.set.cflDesired) →
      (∃ m : Int,
      ¬(s.set.dtVariable = true ∧ s.set.cflMax < s.set.cflDesired) ∧
      (∀ T, te = some T → T ≤ s.sol.t → m = 0) ∧
      (s.set.dtVariable = true → (∀ T, te = some T → s.sol.t < T) → m = s.set.maxSteps) ∧
      (s.set.dtVariable = false → (∀ T, te = some T → s.sol.t < T) →
        (fixedSetup env.rnd s.sol.t te s.set).1 = .ok { s.set with maxSteps := m }) ∧
      (evolveToTime env te s).1 =
        (evolveLoop env s.sol.t te m.toNat 0 0 { s with set := { s.set with maxSteps := m } }).1 ∧
      (evolveToTime env te s).2 =
        match (evolveLoop env s.sol.t te m.toNat 0 0 { s with set := { s.set with maxSteps := m } }).2 with
        | .error e => .error e
        | .ok k =>
          match te with
          | none => .ok ()
          | some T =>
            if (evolveToTime env te s).1.set.dtVariable = true ∧ (evolveToTime env te s).1.sol.t < T ∧
              (k : Int) = (evolveToTime env te s).1.set.maxSteps then
              .error (.exception "Maximum number of timesteps have been taken")
            else .ok ()) := by
    intro set1 m1 h1 h2 h3 h4 h5
    subst h1
    have hev : evolveToTime env te s =
        match evolveLoop env s.sol.t te
          (match te with
            | none => { s.set with maxSteps := m1 }
            | some T => if T ≤ s.sol.t then { s.set with maxSteps := 0 }
                else { s.set with maxSteps := m1 } : StepSettings K).maxSteps.toNat 0 0
          { s with set := (match te with
            | none => { s.set with maxSteps := m1 }
            | some T => if T ≤ s.sol.t then { s.set with maxSteps := 0 }
                else { s.set with maxSteps := m1 } : StepSettings K) } with
        | (s', .error e) => (s', .error e)
        | (s', .ok k) =>
          match te with
          | none => (s', .ok ())
          | some T =>
            if s'.set.dtVariable = true ∧ s'.sol.t < T ∧ (k : Int) = s'.set.maxSteps then
              (s', .error (.exception "Maximum number of timesteps have been taken"))
            else (s', .ok ()) := by
      unfold evolveToTime
      simp only [h3]
      rw [if_neg h5]
      cases te <;> rfl
    cases te with
    | none =>
      refine ⟨m1, h5, by simp, fun hv _ => h2 hv, fun hv _ => h4 hv, ?_, ?_⟩
      · rw [hev]
        rcases evolveLoop env s.sol.t none m1.toNat 0 0 { s with set := { s.set with maxSteps := m1 } } with
          ⟨s', e | k⟩ <;> rfl
      · rw [hev]
        rcases evolveLoop env s.sol.t none m1.toNat 0 0 { s with set := { s.set with maxSteps := m1 } } with
          ⟨s', e | k⟩ <;> rfl
    | some T =>
      by_cases hT : T ≤ s.sol.t
      · refine ⟨0, h5, fun _ _ _ => rfl, ?_, ?_, ?_, ?_⟩
        · intro _ h; exact absurd (h T rfl) (not_lt.mpr hT)
        · intro _ h; exact absurd (h T rfl) (not_lt.mpr hT)
        · rw [hev]; simp only [if_pos hT]
          rcases evolveLoop env s.sol.t (some T) (0 : Int).toNat 0 0
            { s with set := { s.set with maxSteps := 0 } } with ⟨s', e | k⟩
          · rfl
          · simp only; split_ifs <;> rfl
        · rw [hev]; simp only [if_pos hT]
          rcases evolveLoop env s.sol.t (some T) (0 : Int).toNat 0 0
            { s with set := { s.set with maxSteps := 0 } } with ⟨s', e | k⟩
          · rfl
          · simp only; split_ifs <;> simp_all
      · refine ⟨m1, h5, ?_, fun hv _ => h2 hv, fun hv _ => h4 hv, ?_, ?_⟩
        · intro T' hT' h; cases hT'; exact absurd h hT
        · rw [hev]; simp only [if_neg hT]
          rcases evolveLoop env s.sol.t (some T) m1.toNat 0 0
            { s with set := { s.set with maxSteps := m1 } } with ⟨s', e | k⟩
          · rfl
          · simp only; split_ifs <;> rfl
        · rw [hev]; simp only [if_neg hT]
          rcases evolveLoop env s.sol.t (some T) m1.toNat 0 0
            { s with set := { s.set with maxSteps := m1 } } with ⟨s', e | k⟩
          · rfl
          · simp only; split_ifs <;> simp_all
  by_cases hv : s.set.dtVariable = true
  · by_cases hc : s.set.cflMax < s.set.cflDesired
    · left
      refine ⟨s.set.maxSteps, .exception "Variable time-stepping and desired CFL > maximum CFL", ?_,
        fun _ => hc, by simp [hv]⟩
      unfold evolveToTime
      simp only [hv, if_true, hc, and_self]
      conv_rhs => rw [← hv]
    · right
      exact key s.set s.set.maxSteps rfl (fun _ => rfl) (by simp [hv]) (by simp [hv]) (by simp [hc])
  · have hv' : s.set.dtVariable = false := by simpa using hv
    rcases hf : fixedSetup env.rnd s.sol.t te s.set with ⟨e | s1, s2⟩
    · left
      have : ∃ m, s2 = { s.set with maxSteps := m } := by
        unfold fixedSetup at hf
        cases te with
        | none => simp at hf
        | some T =>
          simp only at hf
          split_ifs at hf
          · simp only [Prod.mk.injEq] at hf; exact ⟨s.set.maxSteps, hf.2.symm⟩
          · simp only [Prod.mk.injEq] at hf; exact ⟨_, hf.2.symm⟩
          · simp at hf
      obtain ⟨m, rfl⟩ := this
      refine ⟨m, e, ?_, by simp [hv'], fun _ => rfl⟩
      unfold evolveToTime
      simp [hv', hf]
    · right
      have : ∃ m, s1 = { s.set with maxSteps := m } := by
        unfold fixedSetup at hf
        cases te with
        | none => simp only [Prod.mk.injEq, Except.ok.injEq] at hf; exact ⟨1, hf.1.symm⟩
        | some T =>
          simp only at hf
          split_ifs at hf
          · simp at hf
          · simp at hf
          · simp only [Prod.mk.injEq, Except.ok.injEq] at hf; exact ⟨_, hf.1.symm⟩
      obtain ⟨m, rfl⟩ := this
      exact hf ▸ key { s.set with maxSteps := m } m rfl (by simp [hv']) (by simp [hv', hf]) (by simp [hf])
        (by simp [hv'])

/-- Invariants of one call: preserved by changing `max_steps` and by every attempt. -/
theorem evolveToTime_invariant (env : StepEnv K Q W) (te : Option K) (s : StepState K Q W)
    (P : StepState K Q W → Prop) (hs : P s)
    (hmax : ∀ m, P s → P { s with set := { s.set with maxSteps := m } })
    (hstep : ∀ n s' a, P s' → (∀ T, te = some T → s'.sol.t < T) →
      AttemptFacts env s.sol.t te n s' (attempt env s.sol.t te n s') a →
      P (attempt env s.sol.t te n s').1) :
    P (evolveToTime env te s).1 := by
  rcases evolveToTime_cases env te s with ⟨m, e, h, _⟩ | ⟨m, _, hm0, _, _, h, _⟩
  · rw [h]; exact hmax m hs
  · rw [h]
    obtain ⟨_, _, hP, _⟩ := evolveLoop_induct env s.sol.t te (fun _ _ s => P s)
      (fun n k s' a hP hlt ha => hstep n s' a hP hlt ha) m.toNat 0 0
      { s with set := { s.set with maxSteps := m } } (hmax m hs) (by
        intro hpos T hT
        by_contra hge
        have := hm0 T hT (not_lt.mp hge)
        subst this; simp at hpos)
    exact hP

end PyClaw
