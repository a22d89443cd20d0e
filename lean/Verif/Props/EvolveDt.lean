import Verif.Props.Evolve
import Mathlib.Algebra.Order.Archimedean.Basic
set_option linter.unusedSectionVars false

/-!
# Fixed time steps, step size selection and progress (C24, C27, C29)
-/
namespace PyClaw
open Spec

variable {K Q W : Type*} [Field K] [LinearOrder K] [FloorRing K] [IsStrictOrderedRing K]

/-- C27. After at least one step, with variable `dt` and any rounding, the step size is at most `dt_max`
and, if the last Courant number `c` was positive, at most the (rounded) value `dt*cfl_desired/c`; with
Courant number zero it is `dt_max`. -/
theorem C27_dt_choice_partial (rnd : K → K) (t ts : K) (s : StepSettings K) (st : StepStatus K)
    (hv : s.dtVariable = true) (ho : s.dtOld.isSome = true) :
    (getDt rnd t ts none s st).1.dt ≤ s.dtMax ∧
    (0 < s.cfl → (getDt rnd t ts none s st).1.dt ≤ rnd (rnd (s.dt * s.cflDesired) / s.cfl)) ∧
    (s.cfl ≤ 0 → (getDt rnd t ts none s st).1.dt = s.dtMax) := by
  simp only [getDt, chooseDt, hv, ho, and_self, if_true]
  refine ⟨?_, ?_, ?_⟩
  · split_ifs with h
    · exact min_le_left _ _
    · exact le_rfl
  · intro h; rw [if_pos h]; exact min_le_right _ _
  · intro h; rw [if_neg (not_lt.mpr h)]

/-- C27, with a target time (exact arithmetic): the adjustment that makes the run land on the target either
shortens the step, or enlarges it by less than `1e-14*t`; and it changes `dt` only to land exactly. -/
theorem C27_landing_adjustment (t ts T : K) (s : StepSettings K) (st : StepStatus K) :
    ((getDt id t ts (some T) s st).1.dt = (getDt id t ts none s st).1.dt ∨
      (getDt id t ts (some T) s st).1.dt = T - t) ∧
    ((getDt id t ts (some T) s st).1.dt ≤ (getDt id t ts none s st).1.dt ∨
      (getDt id t ts (some T) s st).1.dt < (getDt id t ts none s st).1.dt + t / 10 ^ 14) := by
  simp only [getDt, clipDt, id]
  have he : landEps * t = t / 10 ^ 14 := by simp [landEps, div_eq_inv_mul]
  split_ifs with c1 c2 c2
  · exact ⟨Or.inr rfl, Or.inl (by linarith [c1.1])⟩
  · exact ⟨Or.inr rfl, Or.inl (by linarith [c1.1])⟩
  · exact ⟨Or.inr rfl, Or.inr (by rw [he] at c2; linarith)⟩
  · exact ⟨Or.inl rfl, Or.inl le_rfl⟩

example : calmState.set.dtVariable = true ∧
    ((attempt calmEnv 0 none 0 calmState).1.set.dtOld).isSome = true := by
  refine ⟨rfl, ?_⟩
  norm_num [attempt, calmEnv, calmState, getDt, chooseDt]

/-- C27 fails for the first step: it uses `dt` (`dt_initial`) whatever `dt_max` is. -/
theorem C27_first_step_ignores_dt_max_violated (env : StepEnv K Q W) (s : StepState K Q W)
    (hc : s.set.cflDesired ≤ s.set.cflMax) (hm : 0 < s.set.maxSteps) (ho : s.set.dtOld = none)
    (hdt : s.set.dtMax < s.set.dt) :
    ∃ a, (evolveToTime env none s).1.log = s.log ++ [a] ∧ s.set.dtMax < a.dt := by
  obtain ⟨a, h1, _, h3, -⟩ := C28_single_step env s (fun _ => hc) (fun _ => hm)
  refine ⟨a, h1, ?_⟩
  rw [h3 (Or.inr ho)]
  exact hdt

example : ∃ s : StepState ℚ Unit Unit, s.set.cflDesired ≤ s.set.cflMax ∧ 0 < s.set.maxSteps ∧
    s.set.dtOld = none ∧ s.set.dtMax < s.set.dt :=
  ⟨{ calmState with set := { calmState.set with dt := 1 } }, by norm_num [calmState], by norm_num [calmState],
    rfl, by norm_num [calmState]⟩

/-! ### Fixed time step -/

/-- With a fixed `dt` a call that returns normally had all its steps accepted. -/
theorem C24_cfl_violation_raises (env : StepEnv K Q W) (te : Option K) (s : StepState K Q W)
    (hv : s.set.dtVariable = false) (hok : (evolveToTime env te s).2 = .ok ()) :
    ∃ l, (evolveToTime env te s).1.log = s.log ++ l ∧ ∀ a ∈ l, a.outcome = .accepted ∧ a.cfl ≤ s.set.cflMax := by
  have key : ∀ fuel n k (s' : StepState K Q W) j, s'.set.dtVariable = false →
      s'.set.cflMax = s.set.cflMax →
      (evolveLoop env s.sol.t te fuel n k s').2 = .ok j →
      ∃ l, (evolveLoop env s.sol.t te fuel n k s').1.log = s'.log ++ l ∧
        ∀ a ∈ l, a.outcome = .accepted ∧ a.cfl ≤ s.set.cflMax := by
    intro fuel
    induction fuel with
    | zero => intro n k s' j _ _ _; exact ⟨[], by simp [evolveLoop], by simp⟩
    | succ fuel ih =>
      intro n k s' j hv' hcm hj
      obtain ⟨a, ha⟩ := attempt_facts env s.sol.t te n s'
      have hp := attempt_params ha
      have hlog := ha.log
      simp only [evolveLoop] at hj ⊢
      rcases hat : attempt env s.sol.t te n s' with ⟨s'', e | acc⟩
      · rw [hat] at hj; simp at hj
      · rw [hat] at hj hp hlog ha
        simp only at hj hlog ⊢
        have hacc : a.outcome = .accepted ∧ a.cfl ≤ s.set.cflMax := by
          have h1 : a.outcome = .accepted := by
            cases acc with
            | true => exact ha.okT.mp rfl
            | false =>
              have := (ha.rejq (ha.okF.mp rfl)).2.1
              rw [hv'] at this; simp at this
          exact ⟨h1, hcm ▸ (ha.acc (by simp [h1, Outcome.isAccepted])).1⟩
        have hone : ∀ b ∈ [a], b.outcome = .accepted ∧ b.cfl ≤ s.set.cflMax := by
          intro b hb; rw [List.mem_singleton.mp hb]; exact hacc
        cases te with
        | none => exact ⟨[a], hlog, hone⟩
        | some T =>
          simp only at hj ⊢
          by_cases hT : T ≤ s''.sol.t
          · rw [if_pos hT]; exact ⟨[a], hlog, hone⟩
          · rw [if_neg hT] at hj ⊢
            obtain ⟨l, h1, h2⟩ := ih (n + 1) _ s'' j (hp.1.dtVariable.trans hv') (hp.1.cflMax.trans hcm) hj
            refine ⟨a :: l, by rw [h1, hlog]; simp, ?_⟩
            intro b hb
            rcases List.mem_cons.mp hb with rfl | hb
            · exact hacc
            · exact h2 b hb
  rcases evolveToTime_cases env te s with ⟨m, e, h, _⟩ | ⟨m, _, _, _, _, h, h2⟩
  · rw [h] at hok; simp at hok
  · rw [h]
    rcases hl : (evolveLoop env s.sol.t te m.toNat 0 0 { s with set := { s.set with maxSteps := m } }).2 with e | j
    · rw [h2, hl] at hok; simp at hok
    · exact key _ _ _ _ j hv rfl hl

/-- C24, refusal (exact arithmetic): if no whole number of steps of size `dt` covers the interval to
within `1e-5` of its length, the call raises and attempts nothing. -/
theorem C24_not_dividing_raises (env : StepEnv K Q W) (hrnd : env.rnd = id) (T : K) (s : StepState K Q W)
    (hv : s.set.dtVariable = false) (hdt : s.set.dt ≠ 0)
    (hno : ∀ N : Int, 1 / 10 ^ 5 * (T - s.sol.t) < |N * s.set.dt - (T - s.sol.t)|) :
    (evolveToTime env (some T) s).2 =
      .error (.exception "dt does not divide (tend-tstart) and dt is fixed!") ∧
    (evolveToTime env (some T) s).1.log = s.log ∧ (evolveToTime env (some T) s).1.sol = s.sol := by
  have h := hno (pyInt ((T - s.sol.t + 1 / 10 ^ 10) / s.set.dt))
  have hf : fixedSetup env.rnd s.sol.t (some T) s.set =
      (.error (.exception "dt does not divide (tend-tstart) and dt is fixed!"),
        { s.set with maxSteps := pyInt ((T - s.sol.t + 1 / 10 ^ 10) / s.set.dt) }) := by
    simp only [fixedSetup, hdt, if_false, hrnd, id, if_pos h]
  unfold evolveToTime
  simp [hv, hf]

/-- The hypothesis is met by an interval of length one and `dt = 2/3`. -/
example : ∀ N : Int, (1 : ℚ) / 10 ^ 5 * (1 - 0) < |(N : ℚ) * (2 / 3) - (1 - 0)| := by
  intro N
  have h : (N : ℚ) * (2 / 3) - (1 - 0) = ((2 * N - 3 : Int) : ℚ) / 3 := by push_cast; ring
  rw [h, abs_div, ← Int.cast_abs]
  have h1 : (1 : ℚ) ≤ ((|2 * N - 3| : Int) : ℚ) := by
    have : (1 : Int) ≤ |2 * N - 3| := Int.one_le_abs (by omega)
    exact_mod_cast this
  rw [abs_of_pos (by norm_num : (0 : ℚ) < 3)]
  linarith

/-- C24. Exact arithmetic; `dt` divides the interval into `N` steps, `dt` is larger than the two tolerances
`1e-10` and `1e-14*tend` of the code, no step violates the Courant limit or raises: the call returns at the
target after exactly `N` accepted steps of size `dt`, the `k`-th of which ends at `t0 + k*dt`. -/
theorem C24_uniform_steps_partial (env : StepEnv K Q W) (hrnd : env.rnd = id) (T : K) (s : StepState K Q W)
    (hv : s.set.dtVariable = false) (N : Nat) (hN : 0 < N) (hdt : 1 / 10 ^ 10 < s.set.dt)
    (hdiv : T - s.sol.t = N * s.set.dt) (heps : T / 10 ^ 14 ≤ s.set.dt)
    (hnum : ∀ t d, ∃ c, (env.numeric t s.set.dt d).2 = .ok c ∧ c ≤ s.set.cflMax)
    (hg : ∀ t d, (env.gauges t d).2 = none) :
    (evolveToTime env (some T) s).2 = .ok () ∧ (evolveToTime env (some T) s).1.sol.t = T ∧
    ∃ l, (evolveToTime env (some T) s).1.log = s.log ++ l ∧ l.length = N ∧
      ∀ i a, l[i]? = some a → a.outcome = .accepted ∧ a.dt = s.set.dt ∧
        a.tAfter = s.sol.t + (i + 1 : Nat) * s.set.dt := by
  set dt := s.set.dt with hdtdef
  have hpos : 0 < dt := lt_trans (by positivity) hdt
  have htT : s.sol.t < T := by
    have : (0 : K) < N := by exact_mod_cast hN
    nlinarith [mul_pos this hpos]
  -- the set-up computes N
  have hint : pyInt ((T - s.sol.t + 1 / 10 ^ 10) / dt) = N := by
    have hq : (T - s.sol.t + 1 / 10 ^ 10) / dt = N + (1 / 10 ^ 10) / dt := by
      rw [hdiv, add_div, mul_div_assoc, div_self hpos.ne', mul_one]
    have h0 : 0 ≤ ((1 : K) / 10 ^ 10) / dt := by positivity
    have h1 : ((1 : K) / 10 ^ 10) / dt < 1 := by rw [div_lt_one hpos]; exact hdt
    have hN0 : (0 : K) ≤ N := Nat.cast_nonneg N
    unfold pyInt
    rw [hq, if_pos (by linarith)]
    rw [Int.floor_eq_iff]
    constructor
    · push_cast; linarith
    · push_cast; linarith
  have hf : fixedSetup env.rnd s.sol.t (some T) s.set = (.ok { s.set with maxSteps := N },
      { s.set with maxSteps := N }) := by
    have hn : ¬ (1 / 10 ^ 5 * (T - s.sol.t) < |(((N : Int) : K)) * dt - (T - s.sol.t)|) := by
      rw [hdiv]
      have : (((N : Int) : K)) * dt - N * dt = 0 := by push_cast; ring
      rw [this, abs_zero, not_lt]
      positivity
    simp only [fixedSetup, ← hdtdef, hpos.ne', if_false, hrnd, id, hint, if_neg hn]
  -- the loop
  have key : ∀ fuel n k (s' : StepState K Q W) (l : List (Attempt K)), n + fuel = N → n ≤ N →
      s'.set.dtVariable = false → s'.set.cflMax = s.set.cflMax → s'.set.dt = dt →
      s'.sol.t = s.sol.t + n * dt → s'.log = s.log ++ l → l.length = n →
      (∀ i a, l[i]? = some a → a.outcome = .accepted ∧ a.dt = dt ∧
        a.tAfter = s.sol.t + (i + 1 : Nat) * dt) →
      (∃ j, (evolveLoop env s.sol.t (some T) fuel n k s').2 = .ok j) ∧
      (evolveLoop env s.sol.t (some T) fuel n k s').1.sol.t = T ∧
      (evolveLoop env s.sol.t (some T) fuel n k s').1.set.dtVariable = false ∧
      ∃ l, (evolveLoop env s.sol.t (some T) fuel n k s').1.log = s.log ++ l ∧ l.length = N ∧
        ∀ i a, l[i]? = some a → a.outcome = .accepted ∧ a.dt = dt ∧
          a.tAfter = s.sol.t + (i + 1 : Nat) * dt := by
    intro fuel
    induction fuel with
    | zero =>
      intro n k s' l hn _ h1 h2 h3 h4 h5 h6 h7
      have : n = N := by omega
      subst this
      refine ⟨⟨k, rfl⟩, ?_, h1, l, h5, h6, h7⟩
      simp only [evolveLoop]
      rw [h4]; linarith
    | succ fuel ih =>
      intro n k s' l hn _ h1 h2 h3 h4 h5 h6 h7
      obtain ⟨a, ha⟩ := attempt_facts env s.sol.t (some T) n s'
      have hp := attempt_params ha
      have hnN : (n : K) + 1 ≤ N := by exact_mod_cast (by omega : n + 1 ≤ N)
      have hadt : a.dt = dt := by
        rw [ha.dt, hrnd]
        have hch : (chooseDt id s'.set s'.status).1.dt = dt := by simp [chooseDt, h1, h3]
        simp only [getDt, clipDt, id, hch]
        have c1 : ¬ (T < s'.sol.t + dt ∧ s.sol.t < T) := by
          rintro ⟨h, _⟩
          rw [h4] at h
          nlinarith
        rw [if_neg c1]
        by_cases hlast : n + 1 = N
        · have : T - s'.sol.t = dt := by
            have : (n : K) + 1 = N := by exact_mod_cast hlast
            rw [h4]; nlinarith
          split_ifs
          · exact this
          · rfl
        · have hn2 : (n : K) + 2 ≤ N := by exact_mod_cast (by omega : n + 2 ≤ N)
          rw [if_neg]
          rw [not_lt]
          have e1 : landEps * s'.sol.t ≤ T / 10 ^ 14 := by
            have : landEps * s'.sol.t = s'.sol.t / 10 ^ 14 := by simp [landEps, div_eq_inv_mul]
            rw [this]
            apply div_le_div_of_nonneg_right _ (by positivity)
            rw [h4]; nlinarith
          have e2 : dt ≤ T - s'.sol.t - dt := by rw [h4]; nlinarith
          linarith
      obtain ⟨c, hc1, hc2⟩ := hnum s'.sol.t (env.before s'.sol.t (s'.sol.q, s'.sol.rest))
      have hacc : a.outcome = .accepted := by
        have hcr := ha.courant
        have hra := ha.raisedBy
        rw [hadt, hc1] at hcr hra
        rcases ho : a.outcome with _ | _ | _ | _ | _
        · rfl
        · exfalso
          have h8 := ha.okT
          have : (attempt env s.sol.t (some T) n s').2 = .ok true := by
            have hd : (getDt env.rnd s'.sol.t s.sol.t (some T) s'.set s'.status).1.dt = dt := ha.dt ▸ hadt
            unfold attempt
            simp only [hd, hc1]
            rw [if_pos (by rw [h2]; exact hc2)]
            simp [hg]
          rw [h8.mp this] at ho; simp at ho
        · have h8 := (ha.rejq ho).2.1; rw [h1] at h8; simp at h8
        · have h8 := (ha.gave ho).2.1
          have h9 := hcr (by simp [ho])
          simp only [Except.ok.injEq] at h9
          rw [h2, ← h9] at h8
          exact absurd hc2 (not_le.mpr h8)
        · obtain ⟨e, he⟩ := hra ho; simp at he
      have hres := ha.okT.mpr hacc
      have htAfter : a.tAfter = s.sol.t + (n + 1 : Nat) * dt := by
        have := (ha.acc (by simp [hacc, Outcome.isAccepted])).2.1
        rw [this, h1, hrnd, hadt]; simp
      have hlog := ha.log
      have ht := ha.t
      rcases hat : attempt env s.sol.t (some T) n s' with ⟨s'', e | acc⟩
      · rw [hat] at hres; simp at hres
      · rw [hat] at hres hp hlog ht
        simp only [Except.ok.injEq] at hres
        subst hres
        simp only at hlog ht hp
        have hl' : ∀ i b, (l ++ [a])[i]? = some b → b.outcome = .accepted ∧ b.dt = dt ∧
            b.tAfter = s.sol.t + (i + 1 : Nat) * dt := by
          intro i b hb
          by_cases hi : i < l.length
          · rw [List.getElem?_append_left hi] at hb; exact h7 i b hb
          · rw [List.getElem?_append_right (by omega)] at hb
            have hi0 : i = n := by
              by_contra hne
              have : 1 ≤ i - l.length := by omega
              rw [List.getElem?_eq_none (by simpa using this)] at hb
              simp at hb
            subst hi0
            simp only [h6, Nat.sub_self, List.getElem?_cons_zero, Option.some.injEq] at hb
            subst hb
            exact ⟨hacc, hadt, htAfter⟩
        simp only [evolveLoop, hat]
        by_cases hT : T ≤ s''.sol.t
        · rw [if_pos hT]
          have hle : s''.sol.t ≤ T := by rw [ht, htAfter]; push_cast; nlinarith
          have heq : s''.sol.t = T := le_antisymm hle hT
          refine ⟨⟨_, rfl⟩, heq, hp.1.dtVariable.trans h1, l ++ [a],
            by rw [hlog, h5, List.append_assoc], ?_, hl'⟩
          -- all N steps have been taken
          have : ((n + 1 : Nat) : K) * dt = N * dt := by
            have := heq; rw [ht, htAfter] at this; linarith
          have := mul_right_cancel₀ hpos.ne' this
          have : n + 1 = N := by exact_mod_cast this
          simp [h6, this]
        · rw [if_neg hT]
          exact ih (n + 1) _ s'' (l ++ [a]) (by omega) (by omega) (hp.1.dtVariable.trans h1)
            (hp.1.cflMax.trans h2) (hp.2.2.1.trans hadt) (by rw [ht, htAfter])
            (by rw [hlog, h5, List.append_assoc]) (by simp [h6]) hl'
  obtain ⟨⟨j, hj⟩, hT', hv', l, hl1, hl2, hl3⟩ := key N 0 0 { s with set := { s.set with maxSteps := (N : Int) } }
    [] (by omega) (by omega) hv rfl rfl (by simp) (by simp) rfl (by simp)
  rcases evolveToTime_cases env (some T) s with ⟨m, e, _, _, he⟩ | ⟨m, _, _, _, hm, h, h2⟩
  · have := he hv
    rw [hf] at this; simp at this
  · have hmN : m = N := by
      have := hm hv (by intro T' h; cases h; exact htT)
      rw [hf] at this
      simpa using this.symm
    subst hmN
    simp only [Int.toNat_natCast] at h h2
    rw [h] at h2 ⊢
    refine ⟨?_, hT', l, hl1, hl2, hl3⟩
    rw [h2, hj]
    simp only
    rw [if_neg]
    rintro ⟨hc, _⟩
    rw [hv'] at hc; simp at hc

/-- The hypotheses hold for the calm run with `dt` fixed at 1/10 and ten steps to time 1. -/
example : let s : StepState ℚ Unit Unit := { calmState with set := { calmState.set with dtVariable := false } }
    s.set.dtVariable = false ∧ (1 : ℚ) / 10 ^ 10 < s.set.dt ∧ 1 - s.sol.t = ((10 : Nat) : ℚ) * s.set.dt ∧
    (1 : ℚ) / 10 ^ 14 ≤ s.set.dt ∧
    (∀ t d, ∃ c, (calmEnv.numeric t s.set.dt d).2 = .ok c ∧ c ≤ s.set.cflMax) ∧
    (∀ t d, (calmEnv.gauges t d).2 = none) := by
  refine ⟨rfl, ?_, ?_, ?_, fun t d => ⟨0, rfl, ?_⟩, fun _ _ => rfl⟩ <;> norm_num [calmState]

/-- C24 fails at large times: at `t = 10^15` a step of size 1 towards `t + 10` is replaced by a single
step of size 10, because the landing tolerance `1e-14*t` exceeds `dt`. -/
theorem C24_large_time_violated :
    let s : StepState ℚ Unit Unit := { calmState with
      set := { calmState.set with dtVariable := false, dt := 1 }, sol := ⟨10 ^ 15, (), ()⟩ }
    ∃ a, (evolveToTime calmEnv (some (10 ^ 15 + 10)) s).1.log = [a] ∧ a.outcome = .accepted ∧ a.dt = 10 := by
  intro s
  have hi : pyInt ((10 ^ 15 + 10 - 10 ^ 15 + 1 / 10 ^ 10 : ℚ) / 1) = 10 := by
    unfold pyInt
    norm_num [Int.floor_eq_iff]
  have hf : fixedSetup calmEnv.rnd s.sol.t (some (10 ^ 15 + 10)) s.set =
      (.ok { s.set with maxSteps := 10 }, { s.set with maxSteps := 10 }) := by
    simp only [fixedSetup, s, calmEnv, calmState, id, hi]
    norm_num
  refine ⟨⟨10 ^ 15, 10, 0, .accepted, 10 ^ 15 + 10⟩, ?_, rfl, rfl⟩
  have hv : s.set.dtVariable = false := rfl
  have ht : s.sol.t = 10 ^ 15 := rfl
  unfold evolveToTime
  simp only [hv, hf, Bool.false_eq_true, if_false, false_and]
  rw [if_neg (by rw [ht]; norm_num)]
  simp only [show Int.toNat 10 = 9 + 1 from rfl, evolveLoop]
  norm_num [attempt, calmEnv, calmState, s, getDt, chooseDt, clipDt, landEps]

/-! ### Progress under rejection -/

/-- C29. After a step that was rejected with Courant number `c`, the step size chosen next is at most
`dt*cfl_desired/c`, which is smaller than `dt*(cfl_desired/cfl_max)`. -/
theorem C29_retry_shrinks (env : StepEnv K Q W) (hrnd : env.rnd = id) (ts : K) (te : Option K) (n : Nat)
    (s : StepState K Q W) (hcm : 0 < s.set.cflMax) (hcd : 0 < s.set.cflDesired)
    (hrej : (attempt env ts te n s).2 = .ok false) :
    ∃ a, (attempt env ts te n s).1.log = s.log ++ [a] ∧ s.set.cflMax < a.cfl ∧
      ∀ t ts', (getDt env.rnd t ts' none (attempt env ts te n s).1.set (attempt env ts te n s).1.status).1.dt ≤
        a.dt * s.set.cflDesired / a.cfl ∧
        (0 < a.dt → (getDt env.rnd t ts' none (attempt env ts te n s).1.set
          (attempt env ts te n s).1.status).1.dt < a.dt * (s.set.cflDesired / s.set.cflMax)) := by
  obtain ⟨a, ha⟩ := attempt_facts env ts te n s
  have ho := ha.okF.mp hrej
  obtain ⟨_, hv, hlt⟩ := ha.rejq ho
  obtain ⟨p1, _, p3, p4, p5⟩ := attempt_params ha
  have hc : 0 < a.cfl := hcm.trans hlt
  refine ⟨a, ha.log, hlt, fun t ts' => ?_⟩
  have h := (C27_dt_choice_partial env.rnd t ts' (attempt env ts te n s).1.set (attempt env ts te n s).1.status
    (p1.dtVariable.trans hv) p5).2.1 (by rw [p4]; exact hc)
  rw [p3, p4, p1.cflDesired, hrnd] at h
  simp only [id] at h
  rw [hrnd]
  refine ⟨h, fun hpos => lt_of_le_of_lt h ?_⟩
  rw [mul_div_assoc]
  exact mul_lt_mul_of_pos_left (div_lt_div_of_pos_left hcd hcm hlt) hpos

example : 0 < calmState.set.cflMax ∧ 0 < calmState.set.cflDesired ∧
    (attempt stormEnv 0 (some 1) 0 calmState).2 = .ok false := by
  refine ⟨?_, ?_, ?_⟩ <;> norm_num [calmState, attempt, stormEnv]

/-- The Courant number is proportional to `dt`, as for every explicit method on a fixed grid: the factor
depends on the time and on `q` at the start of the step. -/
structure Proportional (env : StepEnv K Q W) (lam : K → Q → K) (Λ : K) : Prop where
  courant : ∀ t dt q w, (env.numeric t dt (env.before t (q, w))).2 = .ok (lam t q * dt)
  pos : ∀ t q, 0 < lam t q
  le : ∀ t q, lam t q ≤ Λ
  gauges : ∀ t d, (env.gauges t d).2 = none

/-- What is known after an attempt in a proportional environment. -/
structure Fresh (s0 s : StepSettings K) (Λ : K) : Prop where
  params : SameParams s0 s
  old : s.dtOld.isSome = true
  dtpos : 0 < s.dt
  cfl : ∃ l, 0 < l ∧ l ≤ Λ ∧ s.cfl = l * s.dt

theorem attempt_proportional {env : StepEnv K Q W} {lam : K → Q → K} {Λ : K} (hp : Proportional env lam Λ)
    (ts : K) (te : Option K) (n : Nat) (s : StepState K Q W) (hv : s.set.dtVariable = true)
    {a : Attempt K} (ha : AttemptFacts env ts te n s (attempt env ts te n s) a) :
    a.cfl = lam s.sol.t s.sol.q * a.dt ∧
    (a.cfl ≤ s.set.cflMax → a.outcome = .accepted) ∧ (s.set.cflMax < a.cfl → a.outcome = .rejected) := by
  have hc := hp.courant s.sol.t a.dt s.sol.q s.sol.rest
  have h1 : a.outcome ≠ .raised := by
    intro h; obtain ⟨e, he⟩ := ha.raisedBy h; rw [hc] at he; simp at he
  have h2 := ha.courant h1
  rw [hc] at h2
  have h3 : a.cfl = lam s.sol.t s.sol.q * a.dt := by simpa using h2.symm
  have h4 : a.outcome ≠ .gaveUp := by
    intro h; have := (ha.gave h).1; rw [hv] at this; simp at this
  refine ⟨h3, ?_, ?_⟩
  · intro hle
    have hd := ha.dt
    apply ha.okT.mp
    unfold attempt
    simp only [← hd, hc]
    rw [← h3, if_pos hle]
    simp [hp.gauges]
  · intro hlt
    rcases ho : a.outcome with _ | _ | _ | _ | _
    · exact absurd (ha.acc (by simp [ho, Outcome.isAccepted])).1 (not_le.mpr hlt)
    · exact absurd (ha.acc (by simp [ho, Outcome.isAccepted])).1 (not_le.mpr hlt)
    · rfl
    · exact absurd ho h4
    · exact absurd ho h1

/-- The step size chosen in a fresh state is at least `min dt_max (cfl_desired/Λ)` unless it lands. -/
theorem fresh_dt {s0 s : StepSettings K} {Λ : K} (hf : Fresh s0 s Λ) (hv : s0.dtVariable = true)
    (hcd : 0 < s0.cflDesired) (t ts T : K) (st : StepStatus K) :
    min s0.dtMax (s0.cflDesired / Λ) ≤ (getDt id t ts (some T) s st).1.dt ∨
      (getDt id t ts (some T) s st).1.dt = T - t := by
  obtain ⟨l, hl0, hlΛ, hcfl⟩ := hf.cfl
  have hch : (getDt id t ts none s st).1.dt = min s0.dtMax (s0.cflDesired / l) := by
    have hcpos : 0 < s.cfl := by rw [hcfl]; exact mul_pos hl0 hf.dtpos
    simp only [getDt, chooseDt, hf.params.dtVariable, hv, hf.old, and_self, if_true,
      if_pos hcpos]
    simp only [getDtNew, id]
    rw [hf.params.dtMax, hf.params.cflDesired, hcfl]
    congr 1
    have := hf.dtpos.ne'
    field_simp
  rcases (C27_landing_adjustment t ts T s st).1 with h | h
  · left
    rw [h, hch]
    exact min_le_min le_rfl (div_le_div_of_nonneg_left hcd.le hl0 hlΛ)
  · exact Or.inr h

/-- C29. If the Courant number is proportional to `dt` and the limit leaves room for the landing
adjustment, a rejected step is followed by an accepted one. -/
theorem C29_retry_accepted (env : StepEnv K Q W) (hrnd : env.rnd = id) (lam : K → Q → K) (Λ : K)
    (hp : Proportional env lam Λ) (ts T : K) (n : Nat) (s : StepState K Q W)
    (hv : s.set.dtVariable = true) (hdt : 0 < s.set.dt) (hmax : 0 < s.set.dtMax) (hT : s.sol.t < T)
    (hcd : 0 < s.set.cflDesired) (hroom : s.set.cflDesired ≤ s.set.cflMax)
    (hroom' : s.set.cflDesired + Λ * (T / 10 ^ 14) ≤ s.set.cflMax)
    (hrej : (attempt env ts (some T) n s).2 = .ok false) :
    (attempt env ts (some T) (n + 1) (attempt env ts (some T) n s).1).2 = .ok true := by
  obtain ⟨a, ha⟩ := attempt_facts env ts (some T) n s
  obtain ⟨b, hb⟩ := attempt_facts env ts (some T) (n + 1) (attempt env ts (some T) n s).1
  have ho := ha.okF.mp hrej
  obtain ⟨hq, _, hlt⟩ := ha.rejq ho
  obtain ⟨p1, _, p3, p4, p5⟩ := attempt_params ha
  have ht : (attempt env ts (some T) n s).1.sol.t = s.sol.t := by
    rw [ha.t]; exact ha.rej (by simp [ho, Outcome.isAccepted])
  obtain ⟨e1, _, _⟩ := attempt_proportional hp ts (some T) n s hv ha
  obtain ⟨f1, f2, _⟩ := attempt_proportional hp ts (some T) (n + 1) _ (p1.dtVariable.trans hv) hb
  apply hb.okT.mpr
  apply f2
  rw [f1, ht, hq, p1.cflMax]
  set l := lam s.sol.t s.sol.q with hl
  have hl0 : 0 < l := hp.pos _ _
  have hlΛ : l ≤ Λ := hp.le _ _
  have hadt : 0 < a.dt := by
    rw [ha.dt, hrnd]; exact getDt_pos _ _ _ _ _ hdt hmax hcd hT
  -- the unadjusted choice
  have hch : (getDt id s.sol.t ts none (attempt env ts (some T) n s).1.set
      (attempt env ts (some T) n s).1.status).1.dt ≤ s.set.cflDesired / l := by
    have hcpos : 0 < (attempt env ts (some T) n s).1.set.cfl := by rw [p4, e1]; exact mul_pos hl0 hadt
    have := (C27_dt_choice_partial id s.sol.t ts (attempt env ts (some T) n s).1.set
      (attempt env ts (some T) n s).1.status (p1.dtVariable.trans hv) p5).2.1 hcpos
    simp only [id, p3, p4, e1, p1.cflDesired] at this
    refine this.trans (le_of_eq ?_)
    have := hadt.ne'
    field_simp
  have hbdt : b.dt = (getDt id s.sol.t ts (some T) (attempt env ts (some T) n s).1.set
      (attempt env ts (some T) n s).1.status).1.dt := by rw [hb.dt, ht, hrnd]
  rw [hbdt]
  have hcdl : l * (s.set.cflDesired / l) = s.set.cflDesired := by field_simp
  rcases (C27_landing_adjustment s.sol.t ts T (attempt env ts (some T) n s).1.set
    (attempt env ts (some T) n s).1.status).2 with h | h
  · calc l * _ ≤ l * (s.set.cflDesired / l) := mul_le_mul_of_nonneg_left (h.trans hch) hl0.le
      _ = s.set.cflDesired := hcdl
      _ ≤ _ := hroom
  · have h10 : (0 : K) < 10 ^ 14 := by positivity
    have htT : s.sol.t / 10 ^ 14 ≤ T / 10 ^ 14 := div_le_div_of_nonneg_right hT.le h10.le
    rcases le_total 0 (T / 10 ^ 14) with hTT | hTT
    · calc l * _ ≤ l * (s.set.cflDesired / l + T / 10 ^ 14) :=
            mul_le_mul_of_nonneg_left (by linarith) hl0.le
        _ = s.set.cflDesired + l * (T / 10 ^ 14) := by rw [mul_add, hcdl]
        _ ≤ s.set.cflDesired + Λ * (T / 10 ^ 14) := by
            have := mul_le_mul_of_nonneg_right hlΛ hTT
            linarith
        _ ≤ _ := hroom'
    · calc l * _ ≤ l * (s.set.cflDesired / l) := mul_le_mul_of_nonneg_left (by linarith) hl0.le
        _ = s.set.cflDesired := hcdl
        _ ≤ _ := hroom

/-- One attempt from a fresh state before the target keeps the state fresh. -/
theorem attempt_fresh {env : StepEnv K Q W} (hrnd : env.rnd = id) {lam : K → Q → K} {Λ : K}
    (hp : Proportional env lam Λ) {s0 : StepSettings K} (hv : s0.dtVariable = true)
    (hcd : 0 < s0.cflDesired) (hmax : 0 < s0.dtMax) (ts T : K) (n : Nat) (s : StepState K Q W)
    (hsp : SameParams s0 s.set) (hdt : 0 < s.set.dt) (hT : s.sol.t < T) :
    Fresh s0 (attempt env ts (some T) n s).1.set Λ := by
  obtain ⟨a, ha⟩ := attempt_facts env ts (some T) n s
  obtain ⟨p1, _, p3, p4, p5⟩ := attempt_params ha
  obtain ⟨e1, _, _⟩ := attempt_proportional hp ts (some T) n s (hsp.dtVariable.trans hv) ha
  have hpos : 0 < a.dt := by
    rw [ha.dt, hrnd]
    exact getDt_pos _ _ _ _ _ hdt (hsp.dtMax ▸ hmax) (hsp.cflDesired ▸ hcd) hT
  exact ⟨hsp.trans p1, p5, by rw [p3]; exact hpos, _, hp.pos _ _, hp.le _ _, by rw [p4, e1, p3]⟩

/-- From a fresh state, `2*k` further attempts cover any interval of at most `k` smallest steps. -/
theorem loop_reaches {env : StepEnv K Q W} (hrnd : env.rnd = id) {lam : K → Q → K} {Λ : K}
    (hp : Proportional env lam Λ) {s0 : StepSettings K} (hv : s0.dtVariable = true)
    (hcd : 0 < s0.cflDesired) (hmax : 0 < s0.dtMax) (ts T : K)
    (hroom : s0.cflDesired ≤ s0.cflMax) (hroom' : s0.cflDesired + Λ * (T / 10 ^ 14) ≤ s0.cflMax) :
    ∀ (k fuel n c : Nat) (s : StepState K Q W), 2 * k ≤ fuel → Fresh s0 s.set Λ → s.sol.t < T →
      T - s.sol.t ≤ k * min s0.dtMax (s0.cflDesired / Λ) →
      (∃ j, (evolveLoop env ts (some T) fuel n c s).2 = .ok j) ∧
        T ≤ (evolveLoop env ts (some T) fuel n c s).1.sol.t := by
  intro k
  induction k with
  | zero =>
    intro fuel n c s _ _ h1 h2
    simp only [Nat.cast_zero, zero_mul] at h2
    linarith
  | succ k ih =>
    intro fuel n c s hfuel hf hT hrem
    -- what an accepted attempt achieves
    have accepted : ∀ (fuel n c : Nat) (s' : StepState K Q W), 2 * k ≤ fuel → Fresh s0 s'.set Λ →
        s'.sol.t = s.sol.t → (attempt env ts (some T) n s').2 = .ok true →
        (∃ j, (evolveLoop env ts (some T) (fuel + 1) n c s').2 = .ok j) ∧
          T ≤ (evolveLoop env ts (some T) (fuel + 1) n c s').1.sol.t := by
      intro fuel n c s' hfuel hf ht hok
      obtain ⟨a, ha⟩ := attempt_facts env ts (some T) n s'
      have hfr := attempt_fresh hrnd hp hv hcd hmax ts T n s' hf.params hf.dtpos (ht ▸ hT)
      have ho := ha.okT.mp hok
      have ht' : (attempt env ts (some T) n s').1.sol.t = s'.sol.t + a.dt := by
        rw [ha.t, (ha.acc (by simp [ho, Outcome.isAccepted])).2.1, if_pos (hf.params.dtVariable.trans hv), hrnd]
        rfl
      have hdt := fresh_dt hf hv hcd s'.sol.t ts T s'.status
      rw [← hrnd, ← ha.dt] at hdt
      rcases hat : attempt env ts (some T) n s' with ⟨s'', e | acc⟩
      · rw [hat] at hok; simp at hok
      · rw [hat] at ht' hfr
        simp only at ht' hfr
        simp only [evolveLoop, hat]
        by_cases hge : T ≤ s''.sol.t
        · rw [if_pos hge]; exact ⟨⟨_, rfl⟩, hge⟩
        · rw [if_neg hge]
          refine ih fuel _ _ s'' hfuel hfr (not_le.mp hge) ?_
          rcases hdt with h | h
          · rw [ht', ht]
            push_cast at hrem
            linarith
          · rw [ht', h] at hge
            exact absurd (by linarith) hge
    obtain ⟨fuel, rfl⟩ : ∃ f, fuel = f + 2 := ⟨fuel - 2, by omega⟩
    obtain ⟨a, ha⟩ := attempt_facts env ts (some T) n s
    obtain ⟨e1, e2, e3⟩ := attempt_proportional hp ts (some T) n s (hf.params.dtVariable.trans hv) ha
    rcases le_or_gt a.cfl s.set.cflMax with hle | hgt
    · exact accepted (fuel + 1) n c s (by omega) hf rfl (ha.okT.mpr (e2 hle))
    · have ho := e3 hgt
      have hrej := ha.okF.mpr ho
      have hnext := C29_retry_accepted env hrnd lam Λ hp ts T n s (hf.params.dtVariable.trans hv) hf.dtpos
        (hf.params.dtMax ▸ hmax) hT (hf.params.cflDesired ▸ hcd)
        (by rw [hf.params.cflDesired, hf.params.cflMax]; exact hroom)
        (by rw [hf.params.cflDesired, hf.params.cflMax]; exact hroom') hrej
      have hfr := attempt_fresh hrnd hp hv hcd hmax ts T n s hf.params hf.dtpos hT
      have ht : (attempt env ts (some T) n s).1.sol.t = s.sol.t := by
        rw [ha.t]; exact ha.rej (by simp [ho, Outcome.isAccepted])
      rw [show fuel + 2 = (fuel + 1) + 1 from rfl]
      rw [evolveLoop]
      rcases hat : attempt env ts (some T) n s with ⟨s'', e | acc⟩
      · rw [hat] at hrej; simp at hrej
      · rw [hat] at hnext hfr ht
        simp only at hnext hfr ht ⊢
        rw [if_neg (by rw [ht]; exact not_le.mpr hT)]
        exact accepted fuel (n + 1) _ s'' (by omega) hfr ht hnext

/-- C29 (liveness). Exact arithmetic, variable `dt`, Courant number proportional to `dt` with a bounded
factor, room for the landing adjustment: if `max_steps` is at least `2*k+1`, where `k` steps of the smallest
size the controller can choose, `min(dt_max, cfl_desired/Λ)`, cover the interval, then the call returns
normally at the target time, however small the initial `dt`. -/
theorem C29_reaches_target (env : StepEnv K Q W) (hrnd : env.rnd = id) (lam : K → Q → K) (Λ : K)
    (hp : Proportional env lam Λ) (T : K) (s : StepState K Q W)
    (hv : s.set.dtVariable = true) (hdt : 0 < s.set.dt) (hmax : 0 < s.set.dtMax) (hT : s.sol.t < T)
    (hcd : 0 < s.set.cflDesired) (hroom : s.set.cflDesired ≤ s.set.cflMax)
    (hroom' : s.set.cflDesired + Λ * (T / 10 ^ 14) ≤ s.set.cflMax)
    (k : Nat) (hk : T - s.sol.t ≤ k * min s.set.dtMax (s.set.cflDesired / Λ))
    (hsteps : (2 * k + 1 : Int) ≤ s.set.maxSteps) :
    (evolveToTime env (some T) s).2 = .ok () ∧ (evolveToTime env (some T) s).1.sol.t = T := by
  suffices h : ∃ j, (evolveLoop env s.sol.t (some T) s.set.maxSteps.toNat 0 0 s).2 = .ok j ∧
      T ≤ (evolveLoop env s.sol.t (some T) s.set.maxSteps.toNat 0 0 s).1.sol.t by
    obtain ⟨j, hj, hge⟩ := h
    have hle := C20_no_overshoot env T s hv hT.le (by intro t _; rw [hrnd]; simp)
    rcases evolveToTime_cases env (some T) s with ⟨m, e, _, he, _⟩ | ⟨m, _, _, hm, _, h1, h2⟩
    · exact absurd (he hv) (not_lt.mpr hroom)
    · have hms := hm hv (by intro T' h; cases h; exact hT)
      subst hms
      have hs : ({ s with set := { s.set with maxSteps := s.set.maxSteps } } : StepState K Q W) = s := rfl
      rw [hs] at h1 h2
      have hTT : (evolveToTime env (some T) s).1.sol.t = T := le_antisymm hle (by rw [h1]; exact hge)
      refine ⟨?_, hTT⟩
      rw [h2, hj]
      simp only
      rw [if_neg]
      rintro ⟨_, hc, _⟩
      rw [hTT] at hc
      exact lt_irrefl _ hc
  obtain ⟨fuel, hfuel, hf2⟩ : ∃ f, s.set.maxSteps.toNat = f + 1 ∧ 2 * k ≤ f :=
    ⟨s.set.maxSteps.toNat - 1, by omega, by omega⟩
  rw [hfuel]
  obtain ⟨a, ha⟩ := attempt_facts env s.sol.t (some T) 0 s
  obtain ⟨e1, e2, e3⟩ := attempt_proportional hp s.sol.t (some T) 0 s hv ha
  have hfr := attempt_fresh hrnd hp hv hcd hmax s.sol.t T 0 s (SameParams.refl _) hdt hT
  have hpos : 0 < a.dt := by rw [ha.dt, hrnd]; exact getDt_pos _ _ _ _ _ hdt hmax hcd hT
  have hnotime : s.sol.t ≤ (attempt env s.sol.t (some T) 0 s).1.sol.t := by
    rw [ha.t]
    cases hacc : a.outcome.isAccepted with
    | true =>
      rw [(ha.acc hacc).2.1, if_pos hv, hrnd]; simp only [id]; linarith
    | false => rw [ha.rej hacc]
  have hokk : ∃ b, (attempt env s.sol.t (some T) 0 s).2 = .ok b := by
    rcases le_or_gt a.cfl s.set.cflMax with hle | hgt
    · exact ⟨true, ha.okT.mpr (e2 hle)⟩
    · exact ⟨false, ha.okF.mpr (e3 hgt)⟩
  obtain ⟨b, hb⟩ := hokk
  simp only [evolveLoop]
  rcases hat : attempt env s.sol.t (some T) 0 s with ⟨s'', e | acc⟩
  · rw [hat] at hb; simp at hb
  · rw [hat] at hnotime hfr
    simp only at hnotime hfr ⊢
    by_cases hge : T ≤ s''.sol.t
    · rw [if_pos hge]; exact ⟨_, rfl, hge⟩
    · rw [if_neg hge]
      obtain ⟨⟨j, hj⟩, h⟩ := loop_reaches hrnd hp hv hcd hmax s.sol.t T hroom hroom' k fuel (0 + 1) _ s''
        hf2 hfr (not_le.mp hge) (by linarith)
      exact ⟨j, hj, h⟩

/-- A proportional environment: Courant number `5*dt`, so that with `dt_initial = 1/10`, `cfl_max = 1`,
`cfl_desired = 9/10` the run makes real progress. -/
def advEnv : StepEnv ℚ Unit Unit where
  rnd := id
  before := fun _ d => d
  numeric := fun _ dt d => (d, .ok (5 * dt))
  gauges := fun _ d => (d.2, none)

example : Proportional advEnv (fun _ _ => 5) 5 :=
  ⟨fun _ _ _ _ => rfl, fun _ _ => by norm_num, fun _ _ => le_rfl, fun _ _ => rfl⟩

example : let s : StepState ℚ Unit Unit := { calmState with set := { calmState.set with maxSteps := 50 } }
    s.set.dtVariable = true ∧ 0 < s.set.dt ∧ 0 < s.set.dtMax ∧
    s.sol.t < 1 ∧ 0 < s.set.cflDesired ∧ s.set.cflDesired ≤ s.set.cflMax ∧
    s.set.cflDesired + 5 * ((1 : ℚ) / 10 ^ 14) ≤ s.set.cflMax ∧
    1 - s.sol.t ≤ ((6 : Nat) : ℚ) * min s.set.dtMax (s.set.cflDesired / 5) ∧
    (2 * (6 : Nat) + 1 : Int) ≤ s.set.maxSteps := by
  refine ⟨rfl, ?_, ?_, ?_, ?_, ?_, ?_, ?_, ?_⟩ <;> norm_num [calmState]

end PyClaw
