import Verif.Lemmas.EvolveCall
import Mathlib.Data.Rat.Floor
set_option linter.unusedSectionVars false

/-!
# The time loop: landing, rejection, counting (C19–C23, C25, C26, C28)
-/
namespace PyClaw
open Spec

variable {K Q W : Type*} [Field K] [LinearOrder K] [FloorRing K]

/-- What a call to a later time with variable `dt` does, for any rounding. -/
theorem variable_call (env : StepEnv K Q W) (T : K) (s : StepState K Q W)
    (hv : s.set.dtVariable = true) (hc : s.set.cflDesired ≤ s.set.cflMax) (hT : s.sol.t < T)
    (hland : ∀ t, t < T → env.rnd (t + env.rnd (T - t)) ≤ T) :
    ∃ l, (evolveToTime env (some T) s).1.log = s.log ++ l ∧ (evolveToTime env (some T) s).1.sol.t ≤ T ∧
      l.length ≤ s.set.maxSteps.toNat ∧
      ((evolveToTime env (some T) s).2 = .ok () →
        (evolveToTime env (some T) s).1.sol.t = T ∨
          ((evolveToTime env (some T) s).1.sol.t < T ∧ l.length = s.set.maxSteps.toNat ∧
            ((l.filter fun a => a.outcome = .accepted).length : Int) ≠ s.set.maxSteps)) ∧
      (∀ e, (evolveToTime env (some T) s).2 = .error e →
        e = .exception "Maximum number of timesteps have been taken" ∧
          (evolveToTime env (some T) s).1.sol.t < T ∧
          ((l.filter fun a => a.outcome = .accepted).length : Int) = s.set.maxSteps ∨
        ∃ a ∈ l, a.outcome = .raised ∨ a.outcome = .gaugeFailed) := by
  rcases evolveToTime_cases env (some T) s with ⟨m, e, h, hcc, _⟩ | ⟨m, _, _, hm, _, h1, h2⟩
  · exact absurd (hcc hv) (not_lt.mpr hc)
  · have hm' : m = s.set.maxSteps := hm hv (fun T' h => by cases h; exact hT)
    subst hm'
    -- follow the loop
    have hloop := evolveLoop_induct env s.sol.t (some T)
      (fun n k s' => ∃ l, s'.log = s.log ++ l ∧ l.length = n ∧ SameParams s.set s'.set ∧
        s'.set.maxSteps = s.set.maxSteps ∧ s'.sol.t ≤ T ∧
        k = (l.filter fun a => a.outcome = .accepted).length)
      (by
        rintro n k s' a ⟨l, g1, g2, g3, g4, g5, g6⟩ hlt ha
        obtain ⟨p1, p2, p3, p4, p5⟩ := attempt_params ha
        have hlt' := hlt T rfl
        refine ⟨l ++ [a], by rw [ha.log, g1, List.append_assoc], by simp [g2], g3.trans p1, p2.trans g4, ?_, ?_⟩
        · rw [ha.t]
          by_cases hacc : a.outcome.isAccepted = true
          · obtain ⟨_, q2, _⟩ := ha.acc hacc
            rw [q2, if_pos (g3.dtVariable.trans hv)]
            have hd := ha.dt
            simp only [getDt, clipDt] at hd
            rw [hd]
            by_cases c2 : env.rnd (env.rnd (T - s'.sol.t) -
                (if T < env.rnd (s'.sol.t + (chooseDt env.rnd s'.set s'.status).1.dt) ∧ s.sol.t < T then
                  env.rnd (T - s'.sol.t) else (chooseDt env.rnd s'.set s'.status).1.dt)) <
                env.rnd (landEps * s'.sol.t)
            · rw [if_pos c2]; exact hland _ hlt'
            · rw [if_neg c2]
              by_cases c1 : T < env.rnd (s'.sol.t + (chooseDt env.rnd s'.set s'.status).1.dt) ∧ s.sol.t < T
              · rw [if_pos c1]; exact hland _ hlt'
              · rw [if_neg c1]
                exact not_lt.mp fun h => c1 ⟨h, hT⟩
          · rw [ha.rej (by simpa using hacc)]; exact hlt'.le
        · rw [g6, List.filter_append]
          by_cases ho : a.outcome = .accepted <;> simp [ho])
      s.set.maxSteps.toNat 0 0 { s with set := { s.set with maxSteps := s.set.maxSteps } }
      ⟨[], by simp, rfl, ⟨rfl, rfl, rfl, rfl⟩, rfl, hT.le, rfl⟩
      (fun _ T' h => by cases h; exact hT)
    obtain ⟨n', k', ⟨l, g1, g2, g3, g4, g5, g6⟩, _, hn', hres⟩ := hloop
    rw [← h1] at g1 g3 g4 g5
    refine ⟨l, g1, g5, by omega, ?_, ?_⟩
    · intro hok
      rw [h2] at hok
      rcases hl : (evolveLoop env s.sol.t (some T) s.set.maxSteps.toNat 0 0
          { s with set := { s.set with maxSteps := s.set.maxSteps } }).2 with e | j
      · rw [hl] at hok; simp at hok
      · rw [hl] at hok
        simp only at hok
        obtain ⟨hj, hend⟩ := hres j hl
        rw [← h1] at hend
        by_cases hge : T ≤ (evolveToTime env (some T) s).1.sol.t
        · exact Or.inl (le_antisymm g5 hge)
        · right
          rcases hend with hend | ⟨hend, _⟩ | ⟨_, T', hT', hend⟩
          · refine ⟨not_le.mp hge, by omega, ?_⟩
            intro heq
            rw [if_pos] at hok
            · simp at hok
            · exact ⟨g3.dtVariable.trans hv, not_le.mp hge, by rw [g4, hj, g6]; exact heq⟩
          · cases hend
          · cases hT'; exact absurd hend hge
    · intro e herr
      rw [h2] at herr
      rcases hl : (evolveLoop env s.sol.t (some T) s.set.maxSteps.toNat 0 0
          { s with set := { s.set with maxSteps := s.set.maxSteps } }).2 with e' | j
      · right
        -- the loop raised: some attempt raised
        have : ∀ fuel n k s' , s'.set.dtVariable = true → ∀ e, (evolveLoop env s.sol.t (some T) fuel n k s').2 = .error e →
            ∀ l', (evolveLoop env s.sol.t (some T) fuel n k s').1.log = s'.log ++ l' →
            ∃ a ∈ l', a.outcome = .raised ∨ a.outcome = .gaugeFailed := by
          intro fuel
          induction fuel with
          | zero => intro n k s' _ e he; simp [evolveLoop] at he
          | succ fuel ih =>
            intro n k s' hv' e he l' hl'
            obtain ⟨a, ha⟩ := attempt_facts env s.sol.t (some T) n s'
            have hpar := attempt_params ha
            simp only [evolveLoop] at he hl'
            rcases hat : attempt env s.sol.t (some T) n s' with ⟨s'', e'' | acc⟩
            · rw [hat] at he hl' ha
              simp only at hl'
              have hlog := ha.log
              simp only at hlog
              rw [hlog] at hl'
              have hl'' : l' = [a] := (List.append_cancel_left hl').symm
              refine ⟨a, by simp [hl''], ?_⟩
              have n1 := ha.okT; have n2 := ha.okF; have n3 := ha.gave
              rcases ho : a.outcome with _ | _ | _ | _ | _
              · simp [ho] at n1
              · simp
              · simp [ho] at n2
              · have := (n3 ho).1; rw [hv'] at this; simp at this
              · simp
            · rw [hat] at he hl' ha hpar
              have hv'' : s''.set.dtVariable = true := by
                exact hpar.1.dtVariable.trans hv'
              simp only at he hl'
              by_cases hge : T ≤ s''.sol.t
              · rw [if_pos hge] at he; simp at he
              · rw [if_neg hge] at he hl'
                have hlog := ha.log
                simp only at hlog
                obtain ⟨l2, hl2⟩ : ∃ l2, (evolveLoop env s.sol.t (some T) fuel (n + 1)
                    (if acc = true then k + 1 else k) s'').1.log = s''.log ++ l2 := by
                  obtain ⟨_, _, hP, _⟩ := evolveLoop_induct env s.sol.t (some T)
                    (fun _ _ x => ∃ l2, x.log = s''.log ++ l2)
                    (by rintro n k x b ⟨l2, h⟩ _ hb; exact ⟨l2 ++ [b], by rw [hb.log, h, List.append_assoc]⟩)
                    fuel (n + 1) (if acc = true then k + 1 else k) s'' ⟨[], by simp⟩
                    (fun _ T' h => by cases h; exact not_le.mp hge)
                  exact hP
                have := ih (n + 1) _ s'' hv'' e he l2 hl2
                obtain ⟨b, hb, hb'⟩ := this
                refine ⟨b, ?_, hb'⟩
                rw [hl2, hlog, List.append_assoc] at hl'
                rw [← List.append_cancel_left hl']
                simp [hb]
        refine this s.set.maxSteps.toNat 0 0 _ ?_ e' hl l ?_
        · exact hv
        · rw [← h1]; exact g1
      · left
        rw [hl] at herr
        simp only at herr
        split_ifs at herr with hcond
        · obtain ⟨hj, _⟩ := hres j hl
          refine ⟨by simpa using herr.symm, hcond.2.1, ?_⟩
          rw [← g6, ← hj, hcond.2.2, g4]

/-- C19. Variable `dt`, target later than the current time: if every attempted step was accepted (and no
gauge output failed), the call either returns with the time *exactly* at the target, or raises "Maximum
number of timesteps have been taken" after `max_steps` steps
that did not reach the target. Rounding is arbitrary except that the sum of `t` and the difference
`tend - t` gives `tend` (true in exact arithmetic; in floating point whenever `tend - t` is exact). -/
theorem C19_lands_on_tend_partial (env : StepEnv K Q W) (T : K) (s : StepState K Q W)
    (hv : s.set.dtVariable = true) (hc : s.set.cflDesired ≤ s.set.cflMax) (hT : s.sol.t < T)
    (hm : 0 ≤ s.set.maxSteps) (hland : ∀ t, t < T → env.rnd (t + env.rnd (T - t)) = T)
    (hall : ∀ l, (evolveToTime env (some T) s).1.log = s.log ++ l → ∀ a ∈ l, a.outcome = .accepted) :
    ((evolveToTime env (some T) s).2 = .ok () ∧ (evolveToTime env (some T) s).1.sol.t = T) ∨
    ((evolveToTime env (some T) s).2 = .error (.exception "Maximum number of timesteps have been taken") ∧
      (evolveToTime env (some T) s).1.sol.t < T ∧
      ∃ l, (evolveToTime env (some T) s).1.log = s.log ++ l ∧ (l.length : Int) = s.set.maxSteps) := by
  obtain ⟨l, h1, h2, h3, h4, h5⟩ := variable_call env T s hv hc hT (fun t ht => (hland t ht).le)
  have hacc := hall l h1
  have hfil : (l.filter fun a => a.outcome = .accepted) = l := by
    rw [List.filter_eq_self]; intro a ha; simp [hacc a ha]
  rw [hfil] at h4 h5
  rcases hr : (evolveToTime env (some T) s).2 with e | u
  · right
    rcases h5 e hr with ⟨he, hlt, hlen⟩ | ⟨a, ha, ho⟩
    · exact ⟨by rw [he], hlt, l, h1, hlen⟩
    · rw [hacc a ha] at ho; simp at ho
  · left
    refine ⟨rfl, ?_⟩
    rcases h4 hr with h | ⟨_, hlen, hne⟩
    · exact h
    · exact absurd (by omega) hne

/-- A run to which C19 applies: Courant number 0 in every step, so all steps are accepted. -/
def calmEnv : StepEnv ℚ Unit Unit where
  rnd := id
  before _ d := d
  numeric _ _ d := (d, .ok 0)
  gauges _ _ := ((), none)

def calmState : StepState ℚ Unit Unit where
  set := { dtVariable := true, dt := 1 / 10, dtOld := none, dtMax := 1 / 4, cflMax := 1,
           cflDesired := 9 / 10, maxSteps := 10, cfl := 9 / 10 }
  status := {}
  sol := ⟨0, (), ()⟩
  log := []

example : (∀ l, (evolveToTime calmEnv (some 1) calmState).1.log = calmState.log ++ l →
      ∀ a ∈ l, a.outcome = .accepted) ∧
    (∀ t : ℚ, t < 1 → calmEnv.rnd (t + calmEnv.rnd (1 - t)) = 1) := by
  constructor
  · have := evolveToTime_invariant calmEnv (some 1) calmState
      (fun s => s.set.cflMax = 1 ∧ ∀ a ∈ s.log, a.outcome = .accepted) ⟨rfl, by simp [calmState]⟩
      (fun m h => ⟨h.1, h.2⟩) (by
        rintro n s' a ⟨hc, h⟩ _ ha
        refine ⟨(attempt_params ha).1.cflMax.trans hc, ?_⟩
        rw [ha.log]
        intro b hb
        rcases List.mem_append.mp hb with hb | hb
        · exact h b hb
        · rw [List.mem_singleton.mp hb]
          apply ha.okT.mp
          simp [attempt, calmEnv, hc])
    intro l hl
    rw [hl] at this
    intro a ha
    exact this.2 a (by simp [ha])
  · intro t _; simp [calmEnv]

/-- A Courant number that is always too large. -/
def stormEnv : StepEnv ℚ Unit Unit where
  rnd := id
  before _ d := d
  numeric _ _ d := (d, .ok 2)
  gauges _ _ := ((), none)

/-- C19 / C26 fail when steps are rejected: with `max_steps = 1` and one rejected step the call returns
normally although no time has passed and the target has not been reached. -/
theorem C19_silent_return_violated :
    (evolveToTime stormEnv (some 1) { calmState with set := { calmState.set with maxSteps := 1 } }).2 = .ok () ∧
    (evolveToTime stormEnv (some 1) { calmState with set := { calmState.set with maxSteps := 1 } }).1.sol.t = 0 := by
  constructor <;>
    norm_num [evolveToTime, evolveLoop, attempt, stormEnv, calmState, getDt, chooseDt, clipDt, landEps]

/-- C20, for any rounding under which the landing step does not overshoot: the time never exceeds the
target. -/
theorem C20_no_overshoot (env : StepEnv K Q W) (T : K) (s : StepState K Q W)
    (hv : s.set.dtVariable = true) (hT : s.sol.t ≤ T)
    (hland : ∀ t, t < T → env.rnd (t + env.rnd (T - t)) ≤ T) :
    (evolveToTime env (some T) s).1.sol.t ≤ T := by
  by_cases hc : s.set.cflDesired ≤ s.set.cflMax
  · rcases hT.lt_or_eq with h | h
    · obtain ⟨l, _, h2, _⟩ := variable_call env T s hv hc h hland
      exact h2
    · rcases evolveToTime_cases env (some T) s with ⟨m, e, h', _⟩ | ⟨m, _, hm, _, _, h1, _⟩
      · rw [h']; exact hT
      · rw [h1, hm T rfl h.ge]; exact hT
  · rcases evolveToTime_cases env (some T) s with ⟨m, e, h', _⟩ | ⟨m, hn, _⟩
    · rw [h']; exact hT
    · exact absurd ⟨hv, not_le.mp hc⟩ hn

section Exact
variable [IsStrictOrderedRing K]

theorem getDt_pos (t ts T : K) (s : StepSettings K) (st : StepStatus K) (hdt : 0 < s.dt)
    (hmax : 0 < s.dtMax) (hdes : 0 < s.cflDesired) (hT : t < T) :
    0 < (getDt id t ts (some T) s st).1.dt := by
  have h1 : 0 < (chooseDt id s st).1.dt := by
    unfold chooseDt
    split_ifs with h h'
    · simp only [getDtNew, id]; exact lt_min hmax (div_pos (mul_pos hdt hdes) h')
    · exact hmax
    · exact hdt
  simp only [getDt, clipDt, id]
  split_ifs <;> linarith

/-- C20. In exact arithmetic, with positive `dt`, `dt_max` and `cfl_desired`: the attempts follow each
other, every attempted `dt` is positive, an accepted step advances the time by exactly its `dt` and not
beyond the target, any other attempt leaves the time unchanged. -/
theorem C20_time_monotone (env : StepEnv K Q W) (hrnd : env.rnd = id) (T : K) (s : StepState K Q W)
    (hv : s.set.dtVariable = true) (hT : s.sol.t < T)
    (hdt : 0 < s.set.dt) (hmax : 0 < s.set.dtMax) (hdes : 0 < s.set.cflDesired) :
    ∃ l, (evolveToTime env (some T) s).1.log = s.log ++ l ∧
      Chain s.sol.t l (evolveToTime env (some T) s).1.sol.t ∧
      ∀ a ∈ l, 0 < a.dt ∧ a.tAfter ≤ T ∧ (Accepted a → a.tAfter = a.tBefore + a.dt) ∧
        (¬Accepted a → a.tAfter = a.tBefore) := by
  refine (evolveToTime_invariant env (some T) s (fun s' => (∃ l, s'.log = s.log ++ l ∧
      Chain s.sol.t l s'.sol.t ∧
      ∀ a ∈ l, 0 < a.dt ∧ a.tAfter ≤ T ∧ (Accepted a → a.tAfter = a.tBefore + a.dt) ∧
        (¬Accepted a → a.tAfter = a.tBefore)) ∧ SameParams s.set s'.set ∧ 0 < s'.set.dt)
    ⟨⟨[], by simp, rfl, by simp⟩, SameParams.refl _, hdt⟩ ?_ ?_).1
  · rintro m _
    exact ⟨⟨[], by simp, rfl, by simp⟩, ⟨rfl, rfl, rfl, rfl⟩, hdt⟩
  · rintro n s' a ⟨⟨l, h1, h2, h3⟩, h4, h5⟩ hlt ha
    obtain ⟨p1, _, p3, _⟩ := attempt_params ha
    have hlt' := hlt T rfl
    have hpos : 0 < a.dt := by
      rw [ha.dt, hrnd]
      exact getDt_pos _ _ _ _ _ h5 (h4.dtMax ▸ hmax) (h4.cflDesired ▸ hdes) hlt'
    refine ⟨⟨l ++ [a], by rw [ha.log, h1, List.append_assoc], by rw [ha.t]; exact chain_snoc h2 ha.tBefore, ?_⟩,
      h4.trans p1, by rw [p3]; exact hpos⟩
    intro b hb
    rcases List.mem_append.mp hb with hb | hb
    · exact h3 b hb
    · rw [List.mem_singleton.mp hb]
      have hacc : Accepted a → a.tAfter = a.tBefore + a.dt := by
        intro h
        obtain ⟨_, q2, _⟩ := ha.acc ((isAccepted_iff a).mpr h)
        rw [q2, if_pos (h4.dtVariable.trans hv), hrnd, ha.tBefore]; rfl
      have hrej : ¬Accepted a → a.tAfter = a.tBefore := by
        intro h
        rw [ha.tBefore]; exact ha.rej (by rw [← isAccepted_iff] at h; simpa using h)
      refine ⟨hpos, ?_, hacc, hrej⟩
      by_cases h : Accepted a
      · rw [hacc h, ha.tBefore, ha.dt, hrnd]
        simp only [getDt, clipDt, id]
        split_ifs with c1 c2 c2
        · linarith
        · linarith
        · linarith
        · exact not_lt.mp fun h => c1 ⟨h, hT⟩
      · rw [hrej h, ha.tBefore]; exact hlt'.le

/-- The hypotheses hold in the calm run. -/
example : calmEnv.rnd = id ∧ calmState.set.dtVariable = true ∧ calmState.sol.t < 1 ∧
    0 < calmState.set.dt ∧ 0 < calmState.set.dtMax ∧ 0 < calmState.set.cflDesired := by
  refine ⟨rfl, rfl, ?_, ?_, ?_, ?_⟩ <;> norm_num [calmState]

end Exact

/-- C21, one attempt: a rejected step (variable `dt`) leaves `q` and `t` exactly as they were, whatever
`before_step` and the numerical step did to them. -/
theorem C21_rejected_restores (env : StepEnv K Q W) (ts : K) (te : Option K) (n : Nat)
    (s : StepState K Q W) (h : (attempt env ts te n s).2 = .ok false) :
    (attempt env ts te n s).1.sol.q = s.sol.q ∧ (attempt env ts te n s).1.sol.t = s.sol.t := by
  obtain ⟨a, ha⟩ := attempt_facts env ts te n s
  have ho := ha.okF.mp h
  exact ⟨(ha.rejq ho).1, by rw [ha.t]; exact ha.rej (by simp [ho, Outcome.isAccepted])⟩

/-- C21, whole calls: if what a step does to `q` does not depend on data other than `q` and the time, then
after any call with variable `dt` that did not raise, `q` is obtained from the old `q` by performing the
*accepted* steps only: rejected attempts leave no trace in `q`. -/
theorem C21_only_accepted_steps_count (env : StepEnv K Q W) (te : Option K) (s : StepState K Q W)
    (stepQ : K → K → Q → Q)
    (hq : ∀ t dt q w, (env.numeric t dt (env.before t (q, w))).1.1 = stepQ t dt q)
    (hv : s.set.dtVariable = true) (l : List (Attempt K))
    (hl : (evolveToTime env te s).1.log = s.log ++ l) (hr : ∀ a ∈ l, a.outcome ≠ .raised) :
    (evolveToTime env te s).1.sol.q =
      (l.filter fun a => a.outcome.isAccepted).foldl (fun q a => stepQ a.tBefore a.dt q) s.sol.q := by
  have := evolveToTime_invariant env te s (fun s' => SameParams s.set s'.set ∧ ∃ l, s'.log = s.log ++ l ∧
      ((∀ a ∈ l, a.outcome ≠ .raised) → s'.sol.q =
        (l.filter fun a => a.outcome.isAccepted).foldl (fun q a => stepQ a.tBefore a.dt q) s.sol.q))
    ⟨SameParams.refl _, [], by simp, by simp⟩ (fun m _ => ⟨⟨rfl, rfl, rfl, rfl⟩, [], by simp, by simp⟩) (by
      rintro n s' a ⟨h0, l, h1, h2⟩ _ ha
      refine ⟨h0.trans (attempt_params ha).1, l ++ [a], by rw [ha.log, h1, List.append_assoc], ?_⟩
      intro hnr
      have h2' := h2 (fun b hb => hnr b (by simp [hb]))
      rw [List.filter_append, List.foldl_append, ← h2']
      have hra := hnr a (by simp)
      rcases ho : a.outcome with _ | _ | _ | _ | _
      · simp only [List.filter_cons, ho, Outcome.isAccepted, if_true, List.filter_nil, List.foldl_cons,
          List.foldl_nil]
        rw [(ha.acc (by simp [ho, Outcome.isAccepted])).2.2, hq, ha.tBefore]
      · simp only [List.filter_cons, ho, Outcome.isAccepted, if_true, List.filter_nil, List.foldl_cons,
          List.foldl_nil]
        rw [(ha.acc (by simp [ho, Outcome.isAccepted])).2.2, hq, ha.tBefore]
      · simp only [List.filter_cons, ho, Outcome.isAccepted, Bool.false_eq_true, if_false, List.filter_nil,
          List.foldl_nil]
        exact (ha.rejq ho).1
      · have := (ha.gave ho).1
        rw [h0.dtVariable, hv] at this; simp at this
      · exact absurd ho hra)
  obtain ⟨_, l', h1, h2⟩ := this
  have : l = l' := List.append_cancel_left (hl.symm.trans h1)
  subst this
  exact h2 hr

/-- The hypotheses of the two theorems above hold in a run whose only attempt is rejected. -/
example : (attempt stormEnv 0 (some 1) 0 calmState).2 = .ok false ∧
    (∀ t dt q w, (stormEnv.numeric t dt (stormEnv.before t (q, w))).1.1 = q) := by
  constructor
  · norm_num [attempt, stormEnv, calmState]
  · intro t dt q w; rfl

/-- C22. Every step accepted during a call had Courant number at most `cfl_max`; every step that was not
accepted because of its Courant number exceeded it. -/
theorem C22_accepted_within_limit (env : StepEnv K Q W) (te : Option K) (s : StepState K Q W) :
    ∃ l, (evolveToTime env te s).1.log = s.log ++ l ∧ ∀ a ∈ l,
      (Accepted a → a.cfl ≤ s.set.cflMax) ∧
      (a.outcome = .rejected ∨ a.outcome = .gaveUp → s.set.cflMax < a.cfl) := by
  obtain ⟨l, h1, _, _, h4⟩ := call_log env te s
  refine ⟨l, h1, fun a ha => ⟨(h4 a ha).1, ?_⟩⟩
  rintro (h | h)
  · exact ((h4 a ha).2.2.1 h).2
  · exact ((h4 a ha).2.2.2 h).2

theorem isMaximum_snoc (m : Option K) (l : List K) (x : K) (h : IsMaximum m l) :
    IsMaximum (maxOpt x m) (l ++ [x]) := by
  cases m with
  | none => simp only [IsMaximum] at h; subst h; simp [IsMaximum, maxOpt]
  | some y =>
    obtain ⟨h1, h2⟩ := h
    refine ⟨?_, ?_⟩
    · rcases le_total x y with hxy | hxy
      · rw [max_eq_right hxy]; simp [h1]
      · rw [max_eq_left hxy]; simp
    · intro z hz
      rcases List.mem_append.mp hz with hz | hz
      · exact (h2 z hz).trans (le_max_right _ _)
      · rw [List.mem_singleton.mp hz]; exact le_max_left _ _

/-- Invariants of sessions: preserved by every attempt, and independent of settings and solution. -/
theorem runSteps_invariant (env : StepEnv K Q W) (P : StepStatus K → List (Attempt K) → Prop)
    (hstep : ∀ ts te n s a, P s.status s.log → AttemptFacts env ts te n s (attempt env ts te n s) a →
      P (attempt env ts te n s).1.status (attempt env ts te n s).1.log)
    (ops : List (StepOp K Q W)) (s : StepState K Q W) (h : P s.status s.log) :
    P (runSteps env ops s).status (runSteps env ops s).log := by
  induction ops generalizing s with
  | nil => exact h
  | cons op ops ih =>
    cases op with
    | evolve te =>
      exact ih _ (evolveToTime_invariant env te s (fun s => P s.status s.log) h (fun _ h => h)
        (fun n s' a h _ ha => hstep _ _ n s' a h ha))
    | adjust f => exact ih _ h
    | assign f => exact ih _ h

/-- C22, sessions: whatever calls are made and settings changed in between, `status['cflmax']` is the
maximum of the Courant numbers of all accepted steps and of the steps with fixed `dt` that aborted a
call. -/
theorem C22_cflmax_is_maximum (env : StepEnv K Q W) (ops : List (StepOp K Q W)) (s : StepState K Q W)
    (h0 : s.status.cflmax = none) (hl : s.log = []) :
    IsMaximum (runSteps env ops s).status.cflmax
      (((runSteps env ops s).log.filter fun a => a.outcome = .accepted ∨ a.outcome = .gaugeFailed ∨
        a.outcome = .gaveUp).map (·.cfl)) := by
  apply runSteps_invariant env (fun st log => IsMaximum st.cflmax
      ((log.filter fun a => a.outcome = .accepted ∨ a.outcome = .gaugeFailed ∨
        a.outcome = .gaveUp).map (·.cfl)))
  · intro ts te n s a h ha
    rw [ha.cflmax, ha.log, List.filter_append, List.map_append]
    rcases ho : a.outcome with _ | _ | _ | _ | _ <;>
      simp only [Outcome.countsCfl, List.filter_cons, ho, List.filter_nil, if_true, List.map_cons, List.map_nil,
        decide_true, Bool.false_eq_true, if_false, reduceCtorEq, or_self, or_false, or_true,
        decide_false, List.append_nil]
    · exact isMaximum_snoc _ _ _ h
    · exact isMaximum_snoc _ _ _ h
    · exact h
    · exact isMaximum_snoc _ _ _ h
    · exact h
  · simp [h0, hl, IsMaximum]

/-- C23. Whatever calls are made (returning or raising) and settings changed in between,
`status['numsteps']` is the number of accepted steps (not counting a step whose gauge output raised). -/
theorem C23_numsteps_counts (env : StepEnv K Q W) (ops : List (StepOp K Q W)) (s : StepState K Q W)
    (h0 : s.status.numsteps = 0) (hl : s.log = []) :
    (runSteps env ops s).status.numsteps =
      ((runSteps env ops s).log.filter fun a => a.outcome = .accepted).length := by
  apply runSteps_invariant env (fun st log => st.numsteps =
      (log.filter fun a => a.outcome = .accepted).length)
  · intro ts te n s a h ha
    rw [ha.numsteps, ha.log, List.filter_append, List.length_append, h]
    by_cases ho : a.outcome = .accepted <;> simp [ho]
  · simp [h0, hl]

/-- C25. With variable `dt`, evolving to the present or a past time attempts no step, changes neither
solution nor status, and returns normally. -/
theorem C25_no_step_partial (env : StepEnv K Q W) (T : K) (s : StepState K Q W) (hT : T ≤ s.sol.t)
    (hv : s.set.dtVariable = true) (hc : s.set.cflDesired ≤ s.set.cflMax) :
    evolveToTime env (some T) s = ({ s with set := { s.set with maxSteps := 0 } }, .ok ()) := by
  have h1 : ¬ s.set.cflMax < s.set.cflDesired := not_lt.mpr hc
  unfold evolveToTime
  simp only [hv, if_true, h1, and_false, if_false, hT, Int.toNat_zero, evolveLoop]
  rw [if_neg]
  rintro ⟨_, h, _⟩
  exact absurd hT (not_le.mpr h)

/-- C25 fails for what follows: `max_steps` is left at zero, so after such a call *every* call to a later
time raises without attempting a step. -/
theorem C25_next_call_fails_violated (env : StepEnv K Q W) (T T' : K) (s : StepState K Q W)
    (hT : T ≤ s.sol.t) (hT' : s.sol.t < T') (hv : s.set.dtVariable = true)
    (hc : s.set.cflDesired ≤ s.set.cflMax) :
    (evolveToTime env (some T') (evolveToTime env (some T) s).1).2 =
      .error (.exception "Maximum number of timesteps have been taken") ∧
    (evolveToTime env (some T') (evolveToTime env (some T) s).1).1.sol = s.sol := by
  rw [C25_no_step_partial env T s hT hv hc]
  have h1 : ¬ s.set.cflMax < s.set.cflDesired := not_lt.mpr hc
  have h2 : ¬ T' ≤ s.sol.t := not_le.mpr hT'
  unfold evolveToTime
  simp [hv, h1, h2, evolveLoop, hT']

/-- The hypotheses hold in the calm run: evolving to time 0 and then to 1 raises. -/
example : (0 : ℚ) ≤ calmState.sol.t ∧ calmState.sol.t < 1 ∧ calmState.set.dtVariable = true ∧
    calmState.set.cflDesired ≤ calmState.set.cflMax := by
  refine ⟨?_, ?_, rfl, ?_⟩ <;> norm_num [calmState]

/-- C25 fails for fixed `dt`, too: evolving to a past time raises "dt does not divide" instead of doing
nothing. -/
theorem C25_fixed_dt_past_raises_violated [IsStrictOrderedRing K] (env : StepEnv K Q W)
    (hrnd : env.rnd = id) (T : K) (s : StepState K Q W)
    (hT : T < s.sol.t) (hv : s.set.dtVariable = false) (hdt : 0 < s.set.dt) :
    (evolveToTime env (some T) s).2 =
      .error (.exception "dt does not divide (tend-tstart) and dt is fixed!") := by
  unfold evolveToTime fixedSetup
  have h : 1 / 10 ^ 5 * (T - s.sol.t) <
      |((pyInt ((T - s.sol.t + 1 / 10 ^ 10) / s.set.dt) : Int) : K) * s.set.dt - (T - s.sol.t)| := by
    refine lt_of_lt_of_le ?_ (abs_nonneg _)
    have : (0 : K) < 1 / 10 ^ 5 := by positivity
    nlinarith
  simp [hv, hdt.ne', hrnd] at h ⊢
  simp [h]

/-- C26. No call attempts more than `max_steps` steps, whatever happens (with fixed `dt` the bound is the
`max_steps` computed from the interval, see C24). -/
theorem C26_attempts_bounded (env : StepEnv K Q W) (te : Option K) (s : StepState K Q W)
    (hv : s.set.dtVariable = true) :
    ∃ l, (evolveToTime env te s).1.log = s.log ++ l ∧ l.length ≤ s.set.maxSteps.toNat := by
  rcases evolveToTime_cases env te s with ⟨m, e, h, _⟩ | ⟨m, _, hm0, hm, _, h, _⟩
  · exact ⟨[], by rw [h]; simp, by simp⟩
  · by_cases hlt : ∀ T, te = some T → s.sol.t < T
    · rw [h]
      obtain ⟨n', _, ⟨l, h1, h2⟩, _, h3, _⟩ := evolveLoop_induct env s.sol.t te
        (fun n _ s' => ∃ l, s'.log = s.log ++ l ∧ l.length = n)
        (by
          rintro n k s' a ⟨l, h1, h2⟩ _ ha
          exact ⟨l ++ [a], by rw [ha.log, h1, List.append_assoc], by simp [h2]⟩)
        m.toNat 0 0 { s with set := { s.set with maxSteps := m } } ⟨[], by simp, rfl⟩ (fun _ => hlt)
      exact ⟨l, h1, by rw [h2, ← hm hv hlt]; omega⟩
    · push Not at hlt
      obtain ⟨T, hT, hle⟩ := hlt
      rw [h, hm0 T hT hle]
      exact ⟨[], by simp [evolveLoop], by simp⟩

/-- C26, reporting: a call with variable `dt` that returns normally has reached the target unless one of
its steps was rejected. -/
theorem C26_exhaustion_reported_partial (env : StepEnv K Q W) (T : K) (s : StepState K Q W)
    (hv : s.set.dtVariable = true) (hm : 0 ≤ s.set.maxSteps) (hT : s.sol.t < T)
    (hland : ∀ t, t < T → env.rnd (t + env.rnd (T - t)) ≤ T)
    (hok : (evolveToTime env (some T) s).2 = .ok ()) :
    ∃ l, (evolveToTime env (some T) s).1.log = s.log ++ l ∧
      ((evolveToTime env (some T) s).1.sol.t = T ∨ ∃ a ∈ l, a.outcome ≠ .accepted) := by
  have hc : s.set.cflDesired ≤ s.set.cflMax := by
    by_contra hcon
    rcases evolveToTime_cases env (some T) s with ⟨m, e, h, _⟩ | ⟨m, hn, _⟩
    · rw [h] at hok; simp at hok
    · exact hn ⟨hv, not_le.mp hcon⟩
  obtain ⟨l, h1, h2, h3, h4, h5⟩ := variable_call env T s hv hc hT hland
  refine ⟨l, h1, ?_⟩
  rcases h4 hok with h | ⟨_, hlen, hne⟩
  · exact Or.inl h
  · right
    by_contra hcon
    push Not at hcon
    have hfil : (l.filter fun a => a.outcome = .accepted) = l := by
      rw [List.filter_eq_self]; intro a ha; simp [hcon a ha]
    rw [hfil] at hne
    exact hne (by omega)

/-- C26, the exception: with a rejected step exhaustion is not reported (same run as for C19). -/
theorem C26_silent_exhaustion_violated :
    (evolveToTime stormEnv (some 1) { calmState with set := { calmState.set with maxSteps := 1 } }).2 = .ok () ∧
    (evolveToTime stormEnv (some 1)
      { calmState with set := { calmState.set with maxSteps := 1 } }).1.log.length = 1 ∧
    (evolveToTime stormEnv (some 1)
      { calmState with set := { calmState.set with maxSteps := 1 } }).1.sol.t < 1 := by
  refine ⟨?_, ?_, ?_⟩ <;>
    norm_num [evolveToTime, evolveLoop, attempt, stormEnv, calmState, getDt, chooseDt, clipDt, landEps]

theorem single_step (env : StepEnv K Q W) (s : StepState K Q W)
    (hc : s.set.dtVariable = true → s.set.cflDesired ≤ s.set.cflMax)
    (hm : s.set.dtVariable = true → 0 < s.set.maxSteps) :
    ∃ a, (evolveToTime env none s).1.log = s.log ++ [a] ∧ a.tBefore = s.sol.t ∧
      a.dt = (chooseDt env.rnd s.set s.status).1.dt := by
  rcases evolveToTime_cases env none s with ⟨m, e, h, h1, h2⟩ | ⟨m, hn, _, hmv, hmf, h, _⟩
  · cases hv : s.set.dtVariable with
    | true => exact absurd (h1 hv) (not_lt.mpr (hc hv))
    | false => have := h2 hv; simp [fixedSetup] at this
  · have hpos : 0 < m := by
      cases hv : s.set.dtVariable with
      | true => rw [hmv hv (by simp)]; exact hm hv
      | false =>
        have := hmf hv (by simp)
        simp only [fixedSetup, Except.ok.injEq] at this
        have := congrArg StepSettings.maxSteps this
        simp only at this
        omega
    obtain ⟨k, hk⟩ : ∃ k, m.toNat = k + 1 := ⟨m.toNat - 1, by omega⟩
    set s0 : StepState K Q W := { s with set := { s.set with maxSteps := m } } with hs0
    obtain ⟨a, ha⟩ := attempt_facts env s.sol.t none 0 s0
    refine ⟨a, ?_, ha.tBefore, ?_⟩
    · rw [h, hk]
      have hlog := ha.log
      simp only [evolveLoop]
      rcases hat : attempt env s.sol.t none 0 s0 with ⟨s', e | acc⟩
      · rw [hat] at hlog; exact hlog
      · rw [hat] at hlog; exact hlog
    · rw [ha.dt]
      simp only [getDt, chooseDt, hs0]
      split_ifs <;> rfl

/-- C28. Without a target time the call attempts exactly one step (none if `max_steps` is not positive
and `dt` is variable). Its size is `dt` if `dt` is fixed or no step was taken before; otherwise it is
`dt * cfl_desired / cfl`, with the Courant number of the last step, but at most `dt_max`, and `dt_max` if that number is 0. -/
theorem C28_single_step (env : StepEnv K Q W) (s : StepState K Q W)
    (hc : s.set.dtVariable = true → s.set.cflDesired ≤ s.set.cflMax)
    (hm : s.set.dtVariable = true → 0 < s.set.maxSteps) :
    ∃ a, (evolveToTime env none s).1.log = s.log ++ [a] ∧ a.tBefore = s.sol.t ∧
      (s.set.dtVariable = false ∨ s.set.dtOld = none → a.dt = s.set.dt) ∧
      (s.set.dtVariable = true → s.set.dtOld ≠ none → 0 < s.set.cfl →
        a.dt = min s.set.dtMax (env.rnd (env.rnd (s.set.dt * s.set.cflDesired) / s.set.cfl))) ∧
      (s.set.dtVariable = true → s.set.dtOld ≠ none → s.set.cfl ≤ 0 → a.dt = s.set.dtMax) := by
  obtain ⟨a, h1, h2, h3⟩ := single_step env s hc hm
  refine ⟨a, h1, h2, fun h => ?_, fun hv ho hp => ?_, fun hv ho hp => ?_⟩ <;> rw [h3] <;> unfold chooseDt
  · rw [if_neg]
    rintro ⟨h4, h5⟩
    rcases h with h | h <;> simp_all
  · rw [if_pos ⟨hv, Option.isSome_iff_ne_none.mpr ho⟩, if_pos hp]
    rfl
  · rw [if_pos ⟨hv, Option.isSome_iff_ne_none.mpr ho⟩, if_neg (not_lt.mpr hp)]

example : (calmState.set.dtVariable = true → calmState.set.cflDesired ≤ calmState.set.cflMax) ∧
    (calmState.set.dtVariable = true → 0 < calmState.set.maxSteps) := by
  constructor <;> intro _ <;> norm_num [calmState]

/-- A session with a step in it meets the hypotheses of C22 and C23. -/
example : calmState.status.cflmax = none ∧ calmState.status.numsteps = 0 ∧ calmState.log = [] ∧
    (runSteps calmEnv [.evolve none, .adjust (fun s => { s with dtVariable := false })] calmState).log.length = 1 := by
  refine ⟨rfl, rfl, rfl, ?_⟩
  obtain ⟨a, h, _⟩ := C28_single_step calmEnv calmState (fun _ => by norm_num [calmState])
    (fun _ => by norm_num [calmState])
  simp only [runSteps, h]
  rfl

end PyClaw
