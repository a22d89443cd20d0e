import Verif.Spec.Units
import Verif.Lemmas.Mirror

/-! Two runs in different units. -/
set_option linter.unusedSectionVars false

namespace PyClaw
open Spec

section loop
variable {K Q W : Type*} [Field K] [LinearOrder K] [IsStrictOrderedRing K]

/-- What two environments in different units of time must have in common. The rounding must not depend on the unit: exact
arithmetic, or binary rounding and a power of 2. -/
structure UnitEnv (c : K) (R : Q × W → Q × W → Prop) (env env' : StepEnv K Q W) : Prop where
  pos : 0 < c
  rnd : env'.rnd = env.rnd
  round : ∀ x, env.rnd (c * x) = c * env.rnd x
  numeric : ∀ t dt d d', R d d' →
    (env'.numeric (c * t) (c * dt) (env'.before (c * t) d')).2 = (env.numeric t dt (env.before t d)).2 ∧
    R (env.numeric t dt (env.before t d)).1 (env'.numeric (c * t) (c * dt) (env'.before (c * t) d')).1 ∧
    R (d.1, (env.numeric t dt (env.before t d)).1.2) (d'.1, (env'.numeric (c * t) (c * dt) (env'.before (c * t) d')).1.2)
  gauges : ∀ t d d', R d d' →
    (env'.gauges (c * t) d').2 = (env.gauges t d).2 ∧ R (d.1, (env.gauges t d).1) (d'.1, (env'.gauges (c * t) d').1)

theorem mul_min' {c : K} (h : 0 < c) (x y : K) : min (c * x) (c * y) = c * min x y := by
  rcases le_total x y with h1 | h1
  · rw [min_eq_left h1, min_eq_left (mul_le_mul_of_nonneg_left h1 h.le)]
  · rw [min_eq_right h1, min_eq_right (mul_le_mul_of_nonneg_left h1 h.le)]

theorem mul_max' {c : K} (h : 0 < c) (x y : K) : max (c * x) (c * y) = c * max x y := by
  rcases le_total x y with h1 | h1
  · rw [max_eq_right h1, max_eq_right (mul_le_mul_of_nonneg_left h1 h.le)]
  · rw [max_eq_left h1, max_eq_left (mul_le_mul_of_nonneg_left h1 h.le)]

theorem minOpt_unit {c : K} (h : 0 < c) (x : K) (m : Option K) :
    minOpt (c * x) (m.map (c * ·)) = (minOpt x m).map (c * ·) := by
  cases m with
  | none => rfl
  | some y => exact congrArg some (mul_min' h x y)

theorem maxOpt_unit {c : K} (h : 0 < c) (x : K) (m : Option K) :
    maxOpt (c * x) (m.map (c * ·)) = (maxOpt x m).map (c * ·) := by
  cases m with
  | none => rfl
  | some y => exact congrArg some (mul_max' h x y)

theorem chooseDt_unit {c : K} (h : 0 < c) {rnd : K → K} (hr : ∀ x, rnd (c * x) = c * rnd x) (s : StepSettings K) (st : StepStatus K) :
    chooseDt rnd (setIn c s) (statusIn c st) = (setIn c (chooseDt rnd s st).1, statusIn c (chooseDt rnd s st).2) := by
  obtain ⟨v, dt, dtOld, dtMax, cm, cd, ms, cf⟩ := s
  have e2 : getDtNew rnd (setIn c ⟨v, dt, dtOld, dtMax, cm, cd, ms, cf⟩) = c * getDtNew rnd ⟨v, dt, dtOld, dtMax, cm, cd, ms, cf⟩ := by
    show min (c * dtMax) (rnd (rnd (c * dt * cd) / cf)) = c * min dtMax (rnd (rnd (dt * cd) / cf))
    rw [mul_assoc, hr, mul_div_assoc, hr, mul_min' h]
  unfold chooseDt
  rw [e2]
  generalize getDtNew rnd ⟨v, dt, dtOld, dtMax, cm, cd, ms, cf⟩ = x
  cases v with
  | false => cases dtOld <;> rfl
  | true =>
    cases dtOld with
    | none => rfl
    | some y =>
      dsimp only [setIn, statusIn, Option.map_some, Option.isSome]
      by_cases h2 : 0 < cf
      · simp [h2, minOpt_unit h, maxOpt_unit h]
      · simp [h2]

theorem clipDt_unit {c : K} (h : 0 < c) {rnd : K → K} (hr : ∀ x, rnd (c * x) = c * rnd x) (ε t ts te dt : K) :
    clipDt rnd ε (c * t) (c * ts) (c * te) (c * dt) = c * clipDt rnd ε t ts te dt := by
  unfold clipDt
  have lt : ∀ x y : K, c * x < c * y ↔ x < y := fun x y => mul_lt_mul_iff_right₀ h
  simp only [← mul_add, ← mul_sub, hr, lt]
  have e : (if te < rnd (t + dt) ∧ ts < te then c * rnd (te - t) else c * dt) =
      c * (if te < rnd (t + dt) ∧ ts < te then rnd (te - t) else dt) := by split <;> rfl
  rw [e]
  rw [show ε * (c * t) = c * (ε * t) by ring, hr, ← mul_sub, hr]
  simp only [lt]
  exact (mul_ite _ _ _ _).symm

theorem getDt_unit {c : K} (h : 0 < c) {rnd : K → K} (hr : ∀ x, rnd (c * x) = c * rnd x) (t ts : K) (te : Option K)
    (s : StepSettings K) (st : StepStatus K) :
    getDt rnd (c * t) (c * ts) (te.map (c * ·)) (setIn c s) (statusIn c st) =
      (setIn c (getDt rnd t ts te s st).1, statusIn c (getDt rnd t ts te s st).2) := by
  unfold getDt
  rw [chooseDt_unit h hr]
  cases te with
  | none => rfl
  | some T =>
    dsimp only [Option.map_some]
    have e : (setIn c (chooseDt rnd s st).1).dt = c * (chooseDt rnd s st).1.dt := rfl
    rw [e, clipDt_unit h hr]
    rfl

theorem attempt_unit {c : K} {R : Q × W → Q × W → Prop} {env env' : StepEnv K Q W} (E : UnitEnv c R env env') (ts : K)
    (te : Option K) (n : Nat) (s s' : StepState K Q W) (h : SameRun c R s s') :
    (attempt env' (c * ts) (te.map (c * ·)) n s').2 = (attempt env ts te n s).2 ∧
      SameRun c R (attempt env ts te n s).1 (attempt env' (c * ts) (te.map (c * ·)) n s').1 := by
  obtain ⟨set, status, ⟨t, q, rest⟩, log⟩ := s
  obtain ⟨set', status', ⟨t', q', rest'⟩, log'⟩ := s'
  obtain ⟨h1, h2, h3, h4, h5⟩ := h
  dsimp only at h1 h2 h3 h4 h5
  subst h1 h2 h3 h4
  have hn := E.numeric t (getDt env.rnd t ts te set status).1.dt _ _ h5
  have hg := getDt_unit E.pos E.round t ts te set status
  unfold attempt
  simp only [E.rnd]
  rw [hg]
  have hdt : (setIn c (getDt env.rnd t ts te set status).1).dt = c * (getDt env.rnd t ts te set status).1.dt := rfl
  simp only [hdt]
  revert hn
  generalize getDt env.rnd t ts te set status = G
  generalize env'.numeric (c * t) (c * G.1.dt) (env'.before (c * t) (q', rest')) = y
  generalize env.numeric t G.1.dt (env.before t (q, rest)) = x
  obtain ⟨⟨xq, xr⟩, x2⟩ := x
  obtain ⟨⟨yq, yr⟩, y2⟩ := y
  rintro ⟨rfl, hR, hR'⟩
  have hlog : ∀ a : Attempt K, log.map (attemptIn c) ++ [attemptIn c a] = (log ++ [a]).map (attemptIn c) := by
    intro a; simp
  cases y2 with
  | error e => exact ⟨rfl, rfl, rfl, rfl, hlog ⟨t, G.1.dt, 0, .raised, t⟩, hR⟩
  | ok cfl =>
    have ecm : (setIn c set).cflMax = set.cflMax := rfl
    have edv : (setIn c set).dtVariable = set.dtVariable := rfl
    simp only [ecm, edv]
    by_cases hc : cfl ≤ set.cflMax
    · simp only [if_pos hc]
      have et : (if set.dtVariable = true then env.rnd (c * t + c * G.1.dt)
            else env.rnd (c * ts + env.rnd ((n + 1 : Nat) * (c * G.1.dt)))) =
          c * (if set.dtVariable = true then env.rnd (t + G.1.dt) else env.rnd (ts + env.rnd ((n + 1 : Nat) * G.1.dt))) := by
        split
        · rw [← mul_add, E.round]
        · rw [show ((n + 1 : Nat) : K) * (c * G.1.dt) = c * ((n + 1 : Nat) * G.1.dt) by ring, E.round, ← mul_add, E.round]
      rw [et]
      generalize (if set.dtVariable = true then env.rnd (t + G.1.dt) else env.rnd (ts + env.rnd ((n + 1 : Nat) * G.1.dt))) = tn
      have hgg := E.gauges tn _ _ hR
      revert hgg
      generalize env'.gauges (c * tn) (yq, yr) = u
      generalize env.gauges tn (xq, xr) = v
      obtain ⟨u1, u2⟩ := u
      obtain ⟨v1, v2⟩ := v
      rintro ⟨rfl, hG⟩
      cases u2 with
      | none => exact ⟨rfl, rfl, rfl, rfl, hlog ⟨t, G.1.dt, cfl, .accepted, tn⟩, hG⟩
      | some e => exact ⟨rfl, rfl, rfl, rfl, hlog ⟨t, G.1.dt, cfl, .gaugeFailed, tn⟩, hG⟩
    · simp only [if_neg hc]
      by_cases hv : set.dtVariable = true
      · rw [if_pos hv, if_pos hv]; exact ⟨rfl, rfl, rfl, rfl, hlog ⟨t, G.1.dt, cfl, .rejected, t⟩, hR'⟩
      · rw [if_neg hv, if_neg hv]; exact ⟨rfl, rfl, rfl, rfl, hlog ⟨t, G.1.dt, cfl, .gaveUp, t⟩, hR⟩

theorem loop_unit {c : K} {R : Q × W → Q × W → Prop} {env env' : StepEnv K Q W} (E : UnitEnv c R env env') (ts : K)
    (te : Option K) (fuel n k : Nat) (s s' : StepState K Q W) (h : SameRun c R s s') :
    (evolveLoop env' (c * ts) (te.map (c * ·)) fuel n k s').2 = (evolveLoop env ts te fuel n k s).2 ∧
      SameRun c R (evolveLoop env ts te fuel n k s).1 (evolveLoop env' (c * ts) (te.map (c * ·)) fuel n k s').1 := by
  induction fuel generalizing n k s s' with
  | zero => exact ⟨rfl, h⟩
  | succ fuel ih =>
    obtain ⟨h1, h2⟩ := attempt_unit E ts te n s s' h
    unfold evolveLoop
    revert h1 h2
    generalize attempt env' (c * ts) (te.map (c * ·)) n s' = y
    generalize attempt env ts te n s = x
    obtain ⟨x1, x2⟩ := x
    obtain ⟨y1, y2⟩ := y
    rintro rfl h2
    dsimp only at h2
    cases y2 with
    | error e => exact ⟨rfl, h2⟩
    | ok acc =>
      cases te with
      | none => exact ⟨rfl, h2⟩
      | some T =>
        simp only [Option.map_some]
        rw [h2.t]
        have hle : c * T ≤ c * x1.sol.t ↔ T ≤ x1.sol.t := mul_le_mul_iff_right₀ E.pos
        by_cases hT : T ≤ x1.sol.t
        · rw [if_pos hT, if_pos (hle.mpr hT)]; exact ⟨rfl, h2⟩
        · rw [if_neg hT, if_neg (mt hle.mp hT)]; exact ih _ _ _ _ h2

/-- After the set-up of the step size (with variable steps there is none) a call does the same in both units. -/
theorem evolve_unit_of_setup [FloorRing K] {c : K} {R : Q × W → Q × W → Prop} {env env' : StepEnv K Q W} (E : UnitEnv c R env env')
    (te : Option K) (s s' : StepState K Q W) (h : SameRun c R s s')
    (hfix : s.set.dtVariable = false → ∃ set1, fixedSetup env.rnd s.sol.t te s.set = (.ok set1, set1) ∧
      fixedSetup env.rnd (c * s.sol.t) (te.map (c * ·)) (setIn c s.set) = (.ok (setIn c set1), setIn c set1)) :
    (evolveToTime env' (te.map (c * ·)) s').2 = (evolveToTime env te s).2 ∧
      SameRun c R (evolveToTime env te s).1 (evolveToTime env' (te.map (c * ·)) s').1 := by
  have hset : ∃ set1, (if s.set.dtVariable = true then ((.ok s.set, s.set) : Except PyErr (StepSettings K) × StepSettings K)
        else fixedSetup env.rnd s.sol.t te s.set) = (.ok set1, set1) ∧
      (if s'.set.dtVariable = true then ((.ok s'.set, s'.set) : Except PyErr (StepSettings K) × StepSettings K)
        else fixedSetup env'.rnd s'.sol.t (te.map (c * ·)) s'.set) = (.ok (setIn c set1), setIn c set1) := by
    rw [h.set, h.t, E.rnd]
    have edv : (setIn c s.set).dtVariable = s.set.dtVariable := rfl
    rw [edv]
    by_cases hv : s.set.dtVariable = true
    · exact ⟨s.set, by rw [if_pos hv], by rw [if_pos hv]⟩
    · obtain ⟨set1, e1, e2⟩ := hfix (by simpa using hv)
      exact ⟨set1, by rw [if_neg hv, e1], by rw [if_neg hv, e2]⟩
  obtain ⟨set1, e1, e2⟩ := hset
  unfold evolveToTime
  simp only [e1, e2]
  by_cases hc : set1.dtVariable = true ∧ set1.cflMax < set1.cflDesired
  · have hc' : (setIn c set1).dtVariable = true ∧ (setIn c set1).cflMax < (setIn c set1).cflDesired := hc
    rw [if_pos hc, if_pos hc']; exact ⟨rfl, rfl, h.status, h.t, h.log, h.data⟩
  · have hc' : ¬((setIn c set1).dtVariable = true ∧ (setIn c set1).cflMax < (setIn c set1).cflDesired) := hc
    rw [if_neg hc, if_neg hc']
    cases te with
    | none =>
      simp only [Option.map_none]
      have ems : (setIn c set1).maxSteps = set1.maxSteps := rfl
      obtain ⟨h1, h2⟩ := loop_unit E s.sol.t none set1.maxSteps.toNat 0 0 { s with set := set1 } { s' with set := setIn c set1 }
        ⟨rfl, h.status, h.t, h.log, h.data⟩
      rw [ems, h.t]
      revert h1 h2
      rw [show (none : Option K).map (c * ·) = none from rfl]
      generalize evolveLoop env' (c * s.sol.t) none set1.maxSteps.toNat 0 0 { s' with set := setIn c set1 } = y
      generalize evolveLoop env s.sol.t none set1.maxSteps.toNat 0 0 { s with set := set1 } = x
      obtain ⟨x1, x2⟩ := x
      obtain ⟨y1, y2⟩ := y
      rintro rfl h2
      cases y2 <;> exact ⟨rfl, h2⟩
    | some T =>
      simp only [Option.map_some]
      rw [h.t]
      have hle : c * T ≤ c * s.sol.t ↔ T ≤ s.sol.t := mul_le_mul_iff_right₀ E.pos
      have eset : (if c * T ≤ c * s.sol.t then { setIn c set1 with maxSteps := 0 } else setIn c set1) =
          setIn c (if T ≤ s.sol.t then { set1 with maxSteps := 0 } else set1) := by
        by_cases hT : T ≤ s.sol.t
        · rw [if_pos hT, if_pos (hle.mpr hT)]; rfl
        · rw [if_neg hT, if_neg (mt hle.mp hT)]
      rw [eset]
      generalize (if T ≤ s.sol.t then { set1 with maxSteps := 0 } else set1) = set2
      have ems : (setIn c set2).maxSteps = set2.maxSteps := rfl
      rw [ems]
      obtain ⟨h1, h2⟩ := loop_unit E s.sol.t (some T) set2.maxSteps.toNat 0 0 { s with set := set2 } { s' with set := setIn c set2 }
        ⟨rfl, h.status, h.t, h.log, h.data⟩
      revert h1 h2
      rw [show (some T : Option K).map (c * ·) = some (c * T) from rfl]
      generalize evolveLoop env' (c * s.sol.t) (some (c * T)) set2.maxSteps.toNat 0 0 { s' with set := setIn c set2 } = y
      generalize evolveLoop env s.sol.t (some T) set2.maxSteps.toNat 0 0 { s with set := set2 } = x
      obtain ⟨x1, x2⟩ := x
      obtain ⟨y1, y2⟩ := y
      rintro rfl h2
      cases y2 with
      | error e => exact ⟨rfl, h2⟩
      | ok k =>
        simp only
        dsimp only at h2
        rw [h2.set, h2.t]
        have hlt : c * x1.sol.t < c * T ↔ x1.sol.t < T := mul_lt_mul_iff_right₀ E.pos
        have edv2 : (setIn c x1.set).dtVariable = x1.set.dtVariable := rfl
        have ems2 : (setIn c x1.set).maxSteps = x1.set.maxSteps := rfl
        simp only [hlt, edv2, ems2]
        split <;> exact ⟨rfl, h2⟩

/-- The loop does not change the kind of steps. -/
theorem loop_variable (env : StepEnv K Q W) (ts : K) (te : Option K) (fuel n k : Nat) (s : StepState K Q W) :
    (evolveLoop env ts te fuel n k s).1.set.dtVariable = s.set.dtVariable := by
  have hchoose : ∀ (set : StepSettings K) (st : StepStatus K), (chooseDt env.rnd set st).1.dtVariable = set.dtVariable := by
    intro set st
    unfold chooseDt
    split
    · split <;> rfl
    · rfl
  have hget : ∀ t (set : StepSettings K) (st : StepStatus K), (getDt env.rnd t ts te set st).1.dtVariable = set.dtVariable := by
    intro t set st
    unfold getDt
    cases te <;> exact hchoose set st
  have hatt : ∀ n (s : StepState K Q W), (attempt env ts te n s).1.set.dtVariable = s.set.dtVariable := by
    intro n s
    unfold attempt
    dsimp only
    split
    · exact hget _ _ _
    · split
      · split <;> exact hget _ _ _
      · split <;> exact hget _ _ _
  induction fuel generalizing n k s with
  | zero => rfl
  | succ fuel ih =>
    unfold evolveLoop
    have h := hatt n s
    revert h
    generalize attempt env ts te n s = x
    obtain ⟨x1, x2⟩ := x
    intro h
    cases x2 with
    | error e => exact h
    | ok acc =>
      cases te with
      | none => exact h
      | some T =>
        simp only
        split
        · exact h
        · rw [ih]; exact h

theorem evolve_variable [FloorRing K] (env : StepEnv K Q W) (te : Option K) (s : StepState K Q W) (hv : s.set.dtVariable = true) :
    (evolveToTime env te s).1.set.dtVariable = true := by
  unfold evolveToTime
  simp only [if_pos hv]
  split
  · exact hv
  · have key : ∀ set2 : StepSettings K, set2.dtVariable = true →
        (evolveLoop env s.sol.t te set2.maxSteps.toNat 0 0 { s with set := set2 }).1.set.dtVariable = true := by
      intro set2 h2
      rw [loop_variable]
      exact h2
    cases te with
    | none =>
      simp only
      have := key s.set hv
      revert this
      generalize evolveLoop env s.sol.t none s.set.maxSteps.toNat 0 0 { s with set := s.set } = x
      obtain ⟨x1, x2⟩ := x
      intro h
      cases x2 <;> exact h
    | some T =>
      simp only
      have : (if T ≤ s.sol.t then { s.set with maxSteps := 0 } else s.set).dtVariable = true := by split <;> exact hv
      have := key _ this
      revert this
      generalize evolveLoop env s.sol.t (some T) (if T ≤ s.sol.t then { s.set with maxSteps := 0 } else s.set).maxSteps.toNat 0 0
        { s with set := if T ≤ s.sol.t then { s.set with maxSteps := 0 } else s.set } = x
      obtain ⟨x1, x2⟩ := x
      intro h
      cases x2 with
      | error e => exact h
      | ok k => simp only; split <;> exact h

/-- Sessions with variable steps. -/
theorem run_unit [FloorRing K] {c : K} {R : Q × W → Q × W → Prop} {env env' : StepEnv K Q W} (E : UnitEnv c R env env')
    (ts : List (Option K)) (s s' : StepState K Q W) (hv : s.set.dtVariable = true) (h : SameRun c R s s') :
    SameRun c R (runSteps env (callsTo ts) s) (runSteps env' (callsTo (ts.map fun t => t.map (c * ·))) s') := by
  induction ts generalizing s s' with
  | nil => exact h
  | cons te ts ih =>
    refine ih _ _ (evolve_variable env te s hv) (evolve_unit_of_setup E te s s' h ?_).2
    intro hf
    rw [hv] at hf
    cases hf

end loop

section serial
variable {ι K : Type*} [DecidableEq ι] [Field K] [LinearOrder K] [IsStrictOrderedRing K]

/-- Serial homogeneous runs in different units, from the hyperbolic step. -/
theorem serial_unit (b : K) (hb : 0 < b) (c c' : ParCfg ι K) (hc : Homogeneous c) (hc' : Homogeneous c') (rnd : K → K)
    (hr : ∀ x, rnd (b * x) = b * rnd x) (L L' : K) (Rq Ra : GArr ι K → GArr ι K → Prop)
    (hyp : ∀ dt q q' a a' w w', Rq q q' → Ra a a' →
      (hypSerial c' (b * dt) ⟨q', a', w'⟩).2 = (hypSerial c dt ⟨q, a, w⟩).2 ∧
      Rq (hypSerial c dt ⟨q, a, w⟩).1.q (hypSerial c' (b * dt) ⟨q', a', w'⟩).1.q) :
    UnitEnv b (fun d d' => Rq d.1 d'.1 ∧ Ra d.2.1 d'.2.1) (serialEnv c rnd L) (serialEnv c' rnd L') := by
  have haux : ∀ (c : ParCfg ι K) dt d, (hypSerial c dt d).1.aux = d.aux := by
    intro c dt d
    unfold hypSerial
    rcases applyBcs c.bc c.axes d.q d.aux d.work with ⟨w, e | u⟩
    · rfl
    · simp only
      rcases c.kern dt c.bc.n w with _ | ⟨r, x⟩ <;> rfl
  refine ⟨hb, rfl, hr, ?_, ?_⟩
  · rintro t dt ⟨q, a, w⟩ ⟨q', a', w'⟩ ⟨h1, h2⟩
    obtain ⟨k1, k2⟩ := hyp dt q q' a a' w w' h1 h2
    rw [serial_numeric c hc, serial_numeric c' hc']
    simp only [haux]
    refine ⟨by rw [k1], ⟨k2, h2⟩, h1, h2⟩
  · rintro t ⟨q, a, w⟩ ⟨q', a', w'⟩ h
    exact ⟨rfl, h⟩

/-- The same problem in other units: data and aux values of every cell are converted. -/
def Converted (m naux : Nat) (n : ι → Nat) (σ : Fin m → K) (RA : (Fin naux → K) → Fin naux → K)
    (d d' : GArr ι K × GArr ι K × BCArrays ι K) : Prop :=
  Corresponds m naux n id (signed σ) RA d d'

theorem unit_fill (bc : BCConfig ι K) (h : Admissible bc) (axes : List ι) {m naux : Nat} (hx : bc.numAux = naux)
    {A A' : (ι → Int) → Fin naux → K} {Q Q' : (ι → Int) → Fin m → K} {q q' aux aux' : GArr ι K} (σ : Fin m → K)
    (RA : (Fin naux → K) → Fin naux → K)
    (f : FilledBy bc axes m naux A Q q aux) (f' : FilledBy bc axes m naux A' Q' q' aux')
    (hq : ∀ x : ι → Nat, (∀ i, x i < bc.n i) → (fun k : Fin m => q' k.val x) = signed σ fun k => q k.val x)
    (ha : ∀ x : ι → Nat, (∀ i, x i < bc.n i) → auxAt naux aux' x = RA (auxAt naux aux x))
    (v : ι → Int) (hv : ∀ a, 1 - (bc.g : Int) ≤ v a ∧ v a ≤ bc.n a + bc.g) :
    Q' v = signed σ (Q v) ∧ A' v = RA (A v) := by
  obtain ⟨f1, f2⟩ := f v hv
  obtain ⟨f1', f2'⟩ := f' v hv
  have hq' := hq (fun a => foldCell (bc.bcLower a) (bc.bcUpper a) (bc.n a) (v a))
    (fun a => foldCell_lt _ _ (h.lower a) (h.upper a) _ bc.g (h.cells a).1 (h.cells a).2 _ (hv a).1 (hv a).2)
  constructor
  · rw [f1, f1']
    funext k
    have := congrFun hq' k
    simp only [signed] at this ⊢
    rw [this]
    ring
  · rw [f2, f2']
    by_cases hp : 0 < bc.numAux
    · exact ha _ fun a => foldCell_lt _ _ (h.auxLower hp a) (h.auxUpper hp a) _ bc.g (h.cells a).1 (h.cells a).2 _ (hv a).1 (hv a).2
    · have h0 : naux = 0 := by omega
      subst h0
      funext k
      exact k.elim0

end serial

/-- Serial runs of the kernels in different units. -/
theorem kernel_unit {d : Nat} {K : Type*} [Field K] [LinearOrder K] [IsStrictOrderedRing K] (m naux : Nat) (b : K) (hb : 0 < b)
    (c c' : ParCfg (Fin d) K) (step step' : IntKern (Fin d) K m naux) (hr : ClassicRun c m naux step)
    (hr' : ClassicRun c' m naux step') (ha : Admissible c.bc) (hs : Serial c.bc) (hbc : c'.bc = c.bc) (σ : Fin m → K)
    (RA : (Fin naux → K) → Fin naux → K)
    (hstep : ∀ dt (A A' : (Fin d → Int) → Fin naux → K) (Q Q' : (Fin d → Int) → Fin m → K),
      (∀ v : Fin d → Int, (∀ a, 1 - (c.bc.g : Int) ≤ v a ∧ v a ≤ c.bc.n a + c.bc.g) → Q' v = signed σ (Q v) ∧ A' v = RA (A v)) →
      (step dt c.bc.n A Q = none ∧ step' (b * dt) c.bc.n A' Q' = none) ∨
      ∃ r r' cfl, step dt c.bc.n A Q = some (r, cfl) ∧ step' (b * dt) c.bc.n A' Q' = some (r', cfl) ∧
        ∀ x : Fin d → Nat, (∀ i, x i < c.bc.n i) → r' (fun i => (x i : Int) + 1) = signed σ (r fun i => (x i : Int) + 1))
    (rnd : K → K) (hrnd : ∀ x, rnd (b * x) = b * rnd x) (L L' : K) :
    UnitEnv b (Converted m naux c.bc.n σ RA) (serialEnv c rnd L) (serialEnv c' rnd L') := by
  have nd : c.axes.Nodup := by rw [hr.axes]; exact List.nodup_finRange d
  have al : ∀ b, b ∈ c.axes := by rw [hr.axes]; exact List.mem_finRange
  have hax : c'.axes = c.axes := by rw [hr.axes, hr'.axes]
  have E := serial_unit b hb c c' hr.homogeneous hr'.homogeneous rnd hrnd L L'
    (fun q q' => ∀ x : Fin d → Nat, (∀ i, x i < c.bc.n i) → (fun k : Fin m => q' k.val x) = signed σ fun k => q k.val x)
    (fun a a' => ∀ x : Fin d → Nat, (∀ i, x i < c.bc.n i) → auxAt naux a' x = RA (auxAt naux a x)) ?_
  · have e : (fun u u' : GArr (Fin d) K × GArr (Fin d) K × BCArrays (Fin d) K =>
        (∀ x, (∀ i, x i < c.bc.n i) → (fun k : Fin m => u'.1 k.val x) = signed σ fun k => u.1 k.val x) ∧
        ∀ x, (∀ i, x i < c.bc.n i) → auxAt naux u'.2.1 x = RA (auxAt naux u.2.1 x)) = Converted m naux c.bc.n σ RA := by
      funext u u'
      exact propext ⟨fun h x hx => ⟨h.1 x hx, h.2 x hx⟩, fun h => ⟨fun x hx => (h x hx).1, fun x hx => (h x hx).2⟩⟩
    rw [e] at E
    exact E
  · intro dt q q' a a' w w' hq haux
    obtain ⟨v, e, f⟩ := serial_fill c.bc ha hs c.axes nd al m naux hr.numAux q a w
    obtain ⟨v', e', f'⟩ := serial_fill c.bc ha hs c.axes nd al m naux hr.numAux q' a' w'
    have hs := hstep dt _ _ _ _ fun x hx => unit_fill c.bc ha c.axes hr.numAux σ RA f f' hq haux x hx
    unfold hypSerial
    rw [hbc, hax]
    simp only [e, e', hr.kern, hr'.kern, hbc, onArrays]
    rcases hs with ⟨h1, h2⟩ | ⟨r, r', cfl, h1, h2, h3⟩
    · rw [h1, h2]
      exact ⟨rfl, hq⟩
    · rw [h1, h2]
      refine ⟨rfl, fun x hx => ?_⟩
      have := h3 x hx
      simp only [Option.map_some, putBack, Fin.is_lt, dite_true]
      have e1 : ∀ (g : Nat) (y : Fin d → Nat), (fun i => (((y i + g : Nat)) : Int) + 1 - g) = fun i => (y i : Int) + 1 := by
        intro g y; funext i; push_cast; ring
      rw [e1]
      exact this

section line
variable {K A : Type*} [Field K] [LinearOrder K] [IsStrictOrderedRing K] {m w : Nat} {σ : Fin m → K} {v : K} {RA : A → A} {fw : Bool}
  {rp rp' : Riemann K A m w}

theorem ratio_in_units {b c : K} (hb : b ≠ 0) (hv : v * c = b) (dt dx : K) (capa : Option (A → K))
    (hc : ∀ κ, capa = some κ → ∀ z, κ (RA z) = κ z) (aux : Int → A) (j : Int) :
    localRatio dt dx capa aux j = v * localRatio (c * dt) (b * dx) capa (fun j => RA (aux j)) j := by
  have key : ∀ X : K, dt / X = v * (c * dt / (b * X)) := by
    intro X
    rw [← mul_div_assoc, ← mul_assoc, hv, mul_div_mul_left _ _ hb]
  unfold localRatio
  cases capa with
  | none => exact key dx
  | some κ =>
    dsimp only
    rw [hc κ rfl, mul_assoc]
    exact key _

theorem unit_interface (hM : InUnits σ v RA fw rp rp') (aux : Int → A) (q : Int → Fin m → K) (j : Int) :
    (∀ p, (interfaces rp' (fun j => RA (aux j)) (fun j => signed σ (q j)) j).s p = v * (interfaces rp aux q j).s p) ∧
    (∀ p, (interfaces rp' (fun j => RA (aux j)) (fun j => signed σ (q j)) j).wave p =
      if fw then v • signed σ ((interfaces rp aux q j).wave p) else signed σ ((interfaces rp aux q j).wave p)) ∧
    (interfaces rp' (fun j => RA (aux j)) (fun j => signed σ (q j)) j).amdq = v • signed σ (interfaces rp aux q j).amdq ∧
    (interfaces rp' (fun j => RA (aux j)) (fun j => signed σ (q j)) j).apdq = v • signed σ (interfaces rp aux q j).apdq := by
  obtain ⟨h1, h2, h3, h4⟩ := hM (q (j - 1)) (q j) (aux (j - 1)) (aux j)
  refine ⟨h1, fun p => ?_, funext h3, funext h4⟩
  funext k
  refine (h2 p k).trans ?_
  cases fw <;> rfl

/-- Limiting does not depend on the units if all components have the same unit, or if nothing is limited. -/
def LimitsAlike (σ : Fin m → K) (phi : Fin w → K → K → K) : Prop := OneUnit σ ∨ ∀ p x y, phi p x y = 1

theorem wdot_unit {μ : K} (h : ∀ k, σ k * σ k = μ) (u u' : Fin m → K) : wdot (signed σ u) (signed σ u') = μ * wdot u u' := by
  unfold wdot signed
  rw [Finset.mul_sum]
  refine Finset.sum_congr rfl fun k _ => ?_
  linear_combination u k * u' k * h k

theorem unit_limited (hv : 0 < v) (hM : InUnits σ v RA fw rp rp') {phi : Fin w → K → K → K} (hσ : LimitsAlike σ phi)
    (L L' : Int → K) (hL : ∀ j, L j = v * L' j) (aux : Int → A) (q : Int → Fin m → K) (j : Int) (p : Fin w) :
    limitedWave phi L' (interfaces rp' (fun j => RA (aux j)) fun j => signed σ (q j)) j p =
      if fw then v • signed σ (limitedWave phi L (interfaces rp aux q) j p)
      else signed σ (limitedWave phi L (interfaces rp aux q) j p) := by
  have h0 := unit_interface hM aux q j
  rcases hσ with ⟨μ, hμ, hσ⟩ | h1
  · have h1 := (unit_interface hM aux q (j - 1)).2.1 p
    have h2 := (unit_interface hM aux q (j + 1)).2.1 p
    have l0 := hL j
    have l1 := hL (j - 1)
    unfold limitedWave
    simp only [h0.1 p, h0.2.1 p, h1, h2, l0, l1]
    generalize interfaces rp aux q j = D at *
    generalize interfaces rp aux q (j + 1) = D1 at *
    generalize interfaces rp aux q (j - 1) = D2 at *
    generalize L' j = l
    generalize L' (j - 1) = l'
    have wd : ∃ ν : K, ν ≠ 0 ∧ ∀ x y : Fin m → K, wdot (if fw = true then v • signed σ x else signed σ x)
        (if fw = true then v • signed σ y else signed σ y) = ν * wdot x y := by
      cases fw
      · exact ⟨μ, hμ, fun x y => by simp only [Bool.false_eq_true, if_false]; exact wdot_unit hσ x y⟩
      · refine ⟨v * v * μ, mul_ne_zero (mul_ne_zero hv.ne' hv.ne') hμ, fun x y => ?_⟩
        simp only [if_true]
        have : wdot (v • signed σ x) (v • signed σ y) = v * v * wdot (signed σ x) (signed σ y) := by
          unfold wdot
          rw [Finset.mul_sum]
          refine Finset.sum_congr rfl fun k _ => ?_
          simp only [Pi.smul_apply, smul_eq_mul]
          ring
        rw [this, wdot_unit hσ]
        ring
    obtain ⟨ν, hν, wd⟩ := wd
    have sm : ∀ (x : K) (u : Fin m → K), x • (if fw = true then v • signed σ u else signed σ u) =
        if fw = true then v • signed σ (x • u) else signed σ (x • u) := by
      intro x u
      cases fw
      · funext k; show x * (σ k * u k) = σ k * (x * u k); ring
      · funext k; show x * (v * (σ k * u k)) = v * (σ k * (x * u k)); ring
    have hs : 0 < v * D.s p ↔ 0 < D.s p := by
      constructor
      · intro h; exact (mul_pos_iff_of_pos_left hv).mp h
      · intro h; exact mul_pos hv h
    have ab : ∀ l : K, v * D.s p * l = D.s p * (v * l) := fun l => by ring
    have hz : ∀ x : K, ν * x = 0 ↔ x = 0 := fun x => by rw [mul_eq_zero]; exact or_iff_right hν
    by_cases hp : 0 < D.s p
    · simp only [if_pos hp, if_pos (hs.mpr hp), wd, ab, sm, mul_div_mul_left _ _ hν]
      by_cases hw : wdot (D.wave p) (D.wave p) = 0
      · rw [if_pos hw, if_pos ((hz _).mpr hw)]
      · rw [if_neg hw, if_neg (mt (hz _).mp hw)]
    · simp only [if_neg hp, if_neg (mt hs.mp hp), wd, ab, sm, mul_div_mul_left _ _ hν]
      by_cases hw : wdot (D.wave p) (D.wave p) = 0
      · rw [if_pos hw, if_pos ((hz _).mpr hw)]
      · rw [if_neg hw, if_neg (mt (hz _).mp hw)]
  · have e : ∀ (l : Int → K) (d : Int → Rp K m w), limitedWave phi l d j p = (d j).wave p := by
      intro l d
      unfold limitedWave
      simp only [h1, one_smul, ite_self]
    rw [e, e]
    exact h0.2.1 p

/-- What is required of the factor `a` of the correction flux: a speed for waves, without unit for f-waves. -/
def UnitFactor (a : K → K) (fw : Bool) (v : K) : Prop := ∀ s, a (v * s) = if fw then a s else v * a s

theorem unit_flux (hv : 0 < v) (hM : InUnits σ v RA fw rp rp') {phi : Fin w → K → K → K} (hσ : LimitsAlike σ phi) {a : K → K}
    (ha : UnitFactor a fw v) (L L' : Int → K) (hL : ∀ j, L j = v * L' j) (aux : Int → A) (q : Int → Fin m → K) (j : Int) :
    correctionFlux a L' (interfaces rp' (fun j => RA (aux j)) fun j => signed σ (q j))
      (limitedWave phi L' (interfaces rp' (fun j => RA (aux j)) fun j => signed σ (q j))) j =
    v • signed σ (correctionFlux a L (interfaces rp aux q) (limitedWave phi L (interfaces rp aux q)) j) := by
  unfold correctionFlux
  have e : ∀ f : Fin w → Fin m → K, v • signed σ (∑ p, f p) = ∑ p, v • signed σ (f p) := by
    intro f
    funext k
    simp only [signed, Finset.sum_apply, Pi.smul_apply, smul_eq_mul, Finset.mul_sum]
  rw [e]
  refine Finset.sum_congr rfl fun p _ => ?_
  rw [(unit_interface hM aux q j).1 p, unit_limited hv hM hσ L L' hL, ha, abs_mul, abs_of_pos hv, hL j, hL (j - 1)]
  funext k
  cases fw <;> simp only [signed, Bool.false_eq_true, if_false, if_true, Pi.smul_apply, smul_eq_mul] <;> ring

/-- A step on a line in other units. -/
theorem unit_line (hv : 0 < v) {b c : K} (hb : 0 < b) (hvc : v * c = b) (hM : InUnits σ v RA fw rp rp') {phi : Fin w → K → K → K}
    (a : K → K) (o : Prop) [Decidable o] (hσ : o → LimitsAlike σ phi) (ha : o → UnitFactor a fw v) (dt dx : K) (capa : Option (A → K))
    (hc : ∀ κ, capa = some κ → ∀ z, κ (RA z) = κ z) (aux : Int → A) (q : Int → Fin m → K) (i : Int) :
    lineStep a o phi rp' (c * dt) (b * dx) capa (fun j => RA (aux j)) (fun j => signed σ (q j)) i =
      signed σ (lineStep a o phi rp dt dx capa aux q i) := by
  have hL := ratio_in_units hb.ne' hvc dt dx capa hc aux
  have h0 := unit_interface hM aux q i
  have h1 := unit_interface hM aux q (i + 1)
  unfold lineStep waveProp
  rw [h0.2.2.2, h1.2.2.1]
  by_cases ho : o
  · simp only [if_pos ho]
    rw [unit_flux hv hM (hσ ho) (ha ho) _ _ hL, unit_flux hv hM (hσ ho) (ha ho) _ _ hL]
    rw [hL i]
    funext k
    simp only [signed, Pi.smul_apply, Pi.sub_apply, Pi.add_apply, smul_eq_mul]
    ring
  · simp only [if_neg ho]
    rw [hL i]
    funext k
    simp only [signed, Pi.smul_apply, Pi.sub_apply, Pi.add_apply, smul_eq_mul, Pi.zero_apply]
    ring

/-- The Courant numbers at an interface are the same in all units. -/
theorem unit_number {b c : K} (hb : 0 < b) (hvc : v * c = b) (hM : InUnits σ v RA fw rp rp') (dt dx : K) (capa : Option (A → K))
    (hc : ∀ κ, capa = some κ → ∀ z, κ (RA z) = κ z) (aux : Int → A) (q : Int → Fin m → K) (j : Int) (x : K) :
    WaveNumber (localRatio (c * dt) (b * dx) capa fun j => RA (aux j)) (interfaces rp' (fun j => RA (aux j)) fun j => signed σ (q j)) j x ↔
      WaveNumber (localRatio dt dx capa aux) (interfaces rp aux q) j x := by
  have h0 := (unit_interface hM aux q j).1
  have l0 := ratio_in_units hb.ne' hvc dt dx capa hc aux j
  have l1 := ratio_in_units hb.ne' hvc dt dx capa hc aux (j - 1)
  unfold WaveNumber
  simp only [h0, l0, l1]
  refine exists_congr fun p => or_congr ?_ ?_
  · exact ⟨fun h => by rw [h]; ring, fun h => by rw [h]; ring⟩
  · exact ⟨fun h => by rw [h]; ring, fun h => by rw [h]; ring⟩

end line

section step
variable {K : Type*} [Field K] [LinearOrder K] [IsStrictOrderedRing K] {m w naux : Nat} {σ : Fin m → K} {v : K}
  {RA : (Fin naux → K) → Fin naux → K} {fw : Bool} {rp rp' : Riemann K (Fin naux → K) m w}

/-- A step of a kernel in other units. -/
theorem unit_step1 {step step' : IntKern (Fin 1) K m naux} {g : Nat} {a : K → K} {o : Prop} [Decidable o]
    {phi : Fin w → K → K → K} {dx b c : K} {capa : Option ((Fin naux → K) → K)} {lo : Int} {ok : (Fin naux → K) → Prop}
    (hL : LineKernel step g a o phi rp dx capa lo ok) (hL' : LineKernel step' g a o phi rp' (b * dx) capa lo ok)
    (hlo : 0 ≤ lo) (hok : ∀ z, ok (RA z) ↔ ok z) (hv : 0 < v) (hb : 0 < b) (hvc : v * c = b) (hM : InUnits σ v RA fw rp rp')
    (hσ : o → LimitsAlike σ phi) (ha : o → UnitFactor a fw v) (hc : ∀ κ, capa = some κ → ∀ z, κ (RA z) = κ z) (hg : 2 ≤ g)
    (dt : K) (n : Fin 1 → Nat) (A A' : (Fin 1 → Int) → Fin naux → K) (Q Q' : (Fin 1 → Int) → Fin m → K)
    (key : ∀ x : Fin 1 → Int, (∀ a, 1 - (g : Int) ≤ x a ∧ x a ≤ n a + g) → Q' x = signed σ (Q x) ∧ A' x = RA (A x)) :
    (step dt n A Q = none ∧ step' (c * dt) n A' Q' = none) ∨
      ∃ r r' cfl, step dt n A Q = some (r, cfl) ∧ step' (c * dt) n A' Q' = some (r', cfl) ∧
        ∀ x : Fin 1 → Nat, (∀ i, x i < n i) → r' (fun i => (x i : Int) + 1) = signed σ (r fun i => (x i : Int) + 1) := by
  have key' : ∀ i : Int, 1 - (g : Int) ≤ i → i ≤ n 0 + g →
      Q' (fun _ => i) = signed σ (Q fun _ => i) ∧ A' (fun _ => i) = RA (A fun _ => i) := fun i i1 i2 =>
    key (fun _ => i) fun a => by rw [Subsingleton.elim a 0]; exact ⟨i1, i2⟩
  have okk : (∀ i : Int, 1 - (g : Int) ≤ i → i ≤ n 0 + g → ok (A' fun _ => i)) ↔
      ∀ i : Int, 1 - (g : Int) ≤ i → i ≤ n 0 + g → ok (A fun _ => i) := by
    refine forall_congr' fun i => forall_congr' fun i1 => forall_congr' fun i2 => ?_
    rw [(key' i i1 i2).2, hok]
  by_cases hk : ∀ i : Int, 1 - (g : Int) ≤ i → i ≤ n 0 + g → ok (A fun _ => i)
  · right
    obtain ⟨r, cfl, h1, h2, h3⟩ := hL.runs dt n A Q hk
    obtain ⟨r', cfl', h1', h2', h3'⟩ := hL'.runs (c * dt) n A' Q' (okk.mpr hk)
    have hcfl : cfl' = cfl := by
      refine isMax_unique h3' (isMax_congr (fun x => ?_) h3)
      refine exists_congr fun j => ?_
      constructor
      · rintro ⟨j1, j2, h⟩
        refine ⟨j1, j2, ?_⟩
        have e := waveNumber_congr rp' (c * dt) (b * dx) capa (fun j => RA (A fun _ => j)) (fun j => A' fun _ => j)
          (fun j => signed σ (Q fun _ => j)) (fun j => Q' fun _ => j) 0 j x
          (by rw [add_zero]; exact (key' j (by omega) (by omega)).2) (by rw [add_zero]; exact (key' (j - 1) (by omega) (by omega)).2)
          (by rw [add_zero]; exact (key' j (by omega) (by omega)).1) (by rw [add_zero]; exact (key' (j - 1) (by omega) (by omega)).1)
        rw [add_zero] at e
        exact (e.trans (unit_number hb hvc hM dt dx capa hc (fun i => A fun _ => i) (fun i => Q fun _ => i) j x)).mpr h
      · rintro ⟨j1, j2, h⟩
        refine ⟨j1, j2, ?_⟩
        have e := waveNumber_congr rp' (c * dt) (b * dx) capa (fun j => RA (A fun _ => j)) (fun j => A' fun _ => j)
          (fun j => signed σ (Q fun _ => j)) (fun j => Q' fun _ => j) 0 j x
          (by rw [add_zero]; exact (key' j (by omega) (by omega)).2) (by rw [add_zero]; exact (key' (j - 1) (by omega) (by omega)).2)
          (by rw [add_zero]; exact (key' j (by omega) (by omega)).1) (by rw [add_zero]; exact (key' (j - 1) (by omega) (by omega)).1)
        rw [add_zero] at e
        exact (e.trans (unit_number hb hvc hM dt dx capa hc (fun i => A fun _ => i) (fun i => Q fun _ => i) j x)).mp h
    refine ⟨r, r', cfl, h1, hcfl ▸ h1', fun x hx => ?_⟩
    have hx0 := hx 0
    have e1 : (fun i => (x i : Int) + 1) = fun _ : Fin 1 => (x 0 : Int) + 1 := by
      funext i; rw [Subsingleton.elim i 0]
    rw [e1, h2' _ (by omega) (by omega), h2 _ (by omega) (by omega)]
    rw [lineStep_local a o phi rp' (c * dt) (b * dx) capa (fun j => A' fun _ => j) (fun j => RA (A fun _ => j))
      (fun j => Q' fun _ => j) (fun j => signed σ (Q fun _ => j)) ((x 0 : Int) + 1)
      (fun j j1 j2 => (key' j (by omega) (by omega)).2) (fun j j1 j2 => (key' j (by omega) (by omega)).1)]
    exact unit_line hv hb hvc hM a o hσ ha dt dx capa hc (fun i => A fun _ => i) (fun i => Q fun _ => i) _
  · left
    exact ⟨hL.stops dt n A Q hk, hL'.stops (c * dt) n A' Q' (mt okk.mp hk)⟩

end step

end PyClaw
