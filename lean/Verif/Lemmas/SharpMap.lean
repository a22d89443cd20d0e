import Verif.Model.SharpStages
import Mathlib.Algebra.Module.LinearMap.Defs

set_option linter.unusedSectionVars false

/-!
A linear map that carries one problem to another carries SharpClaw sessions to SharpClaw sessions.
-/
namespace PyClaw

variable {K E F : Type*}

def SharpState.map (φ : F → E) (s : SharpState K F) : SharpState K E :=
  { dt := s.dt, dtOld := s.dtOld, cfl := s.cfl, accept := s.accept, numsteps := s.numsteps, dqDt := φ s.dqDt,
    regs := s.regs.map (Prod.map φ id), prevDq := s.prevDq.map φ, prevDt := s.prevDt, prevFE := s.prevFE, sspcoeff0 := s.sspcoeff0,
    lmmCond := s.lmmCond, t := s.t, q := φ s.q }

def SharpTry.map (φ : F → E) (l : SharpTry K F) : SharpTry K E :=
  { target := l.target, tBefore := l.tBefore, qBefore := φ l.qBefore, dt := l.dt, cfl := l.cfl, stageCfl := l.stageCfl, outcome := l.outcome,
    tAfter := l.tAfter, qAfter := φ l.qAfter }

def SharpRun.map (φ : F → E) (r : SharpRun K F) : SharpRun K E :=
  { st := r.st.map φ, maxSteps := r.maxSteps, cflmax := r.cflmax, log := r.log.map (SharpTry.map φ) }

variable [Field K] [LinearOrder K] [AddCommGroup E] [Module K E] [AddCommGroup F] [Module K F]

/-- `φ` carries the problem `envF` to `env`. -/
structure Carries (φ : F →ₗ[K] E) (envF : SharpEnv K F) (env : SharpEnv K E) : Prop where
  dq : ∀ dt t x, env.dq dt t (φ x) = (φ (envF.dq dt t x).1, (envF.dq dt t x).2)
  stage : ∀ t x, env.stage t (φ x) = φ (envF.stage t x)
  before : ∀ t x, env.before t (φ x) = φ (envF.before t x)

variable {φ : F →ₗ[K] E} {envF : SharpEnv K F} {env : SharpEnv K E}

theorem map_evalRhs (h : Carries φ envF env) (s : SharpState K F) : evalRhs env (s.map φ) = (evalRhs envF s).map φ := by
  unfold evalRhs
  cases ha : s.accept <;> simp [SharpState.map, ha, h.dq]

theorem map_rollIn {α β : Type*} (f : α → β) (l : List α) (x : α) : rollIn (l.map f) (f x) = (rollIn l x).map f := by
  cases l <;> simp [rollIn]

theorem map_setLast {α β : Type*} (f : α → β) (l : List α) (x : α) : setLast (l.map f) (f x) = (setLast l x).map f := by
  unfold setLast
  by_cases h : l = []
  · simp [h]
  · rw [if_neg h, if_neg (by simpa using h)]
    simp

theorem map_getLast {α β : Type*} (f : α → β) (l : List α) (x : α) : ((l.map f).getLast?).getD (f x) = f (l.getLast?.getD x) := by
  rw [List.getLast?_map]
  cases l.getLast? <;> rfl

theorem map_rollSaved (c : SharpCfg K) (s : SharpState K F) (i : Int) (d : K) :
    rollSaved c (s.map φ) i d = (rollSaved c s i d).map φ := by
  have hr : rollIn (s.regs.map (Prod.map φ id)) (φ s.q, s.t) = (rollIn s.regs (s.q, s.t)).map (Prod.map φ id) :=
    map_rollIn (Prod.map φ id) s.regs (s.q, s.t)
  have hq : rollIn (s.prevDq.map φ) (φ s.dqDt) = (rollIn s.prevDq s.dqDt).map φ := map_rollIn φ s.prevDq s.dqDt
  unfold rollSaved
  cases c.integ <;> simp only [SharpState.map, List.length_map, hr, hq] <;>
    by_cases hb : i ≤ s.regs.length <;> simp [hb]

theorem map_updateSaved (c : SharpCfg K) (s : SharpState K F) (i : Int) :
    updateSaved c (s.map φ) i = ((updateSaved c s i).1.map φ, (updateSaved c s i).2) := by
  have hset : setLast (s.regs.map (Prod.map φ id)) (φ s.q, s.t) = (setLast s.regs (s.q, s.t)).map (Prod.map φ id) :=
    map_setLast (Prod.map φ id) s.regs (s.q, s.t)
  have h1 : dtForwardEuler c (s.map φ) = dtForwardEuler c s := rfl
  have h2 : ∀ d, check3rdOrd (s.map φ) i d = check3rdOrd s i d := by
    intro d
    simp [check3rdOrd, SharpState.map]
  have hl : ((s.map φ).regs.getLast?).getD ((s.map φ).q, (s.map φ).t) = Prod.map φ id (s.regs.getLast?.getD (s.q, s.t)) :=
    map_getLast (Prod.map φ id) s.regs (s.q, s.t)
  have hd : ((s.map φ).prevDq.getLast?).getD (s.map φ).dqDt = φ (s.prevDq.getLast?.getD s.dqDt) := map_getLast φ s.prevDq s.dqDt
  unfold updateSaved
  by_cases hp : s.prevDt = []
  · rw [if_pos (show (s.map φ).prevDt = [] from hp), if_pos hp, h1]
    by_cases hs : c.integ.isSspLmm
    · simp only [hs, if_true]
      simp [SharpState.map, hset]
    · simp only [hs]
      simp [SharpState.map, hset]
  · rw [if_neg (show ¬ (s.map φ).prevDt = [] from hp), if_neg hp]
    by_cases ha : s.accept = true
    · rw [if_pos (show (s.map φ).accept = true from ha), if_pos ha, h1]
      simp only [h2, hl, hd]
      cases hi : c.integ with
      | ssplmmk3 =>
        cases hc : c.checkCond
        · simp only [Bool.false_and, Bool.false_eq_true, if_false]
          rw [map_rollSaved]
        · simp only [if_true, Bool.true_and]
          by_cases hk : check3rdOrd s i (dtForwardEuler c s) = true
          · simp only [hk, Bool.not_true, Bool.false_eq_true, if_false]
            exact Prod.ext (map_rollSaved c { s with lmmCond := true } i _) rfl
          · have hk' : check3rdOrd s i (dtForwardEuler c s) = false := by simpa using hk
            simp only [hk', Bool.not_false, if_true]
            rfl
      | _ => simp only [Bool.false_eq_true, if_false]; rw [map_rollSaved]
    · rw [if_neg (show ¬ (s.map φ).accept = true from ha), if_neg ha]

theorem map_prepare (h : Carries φ envF env) (c : SharpCfg K) (s : SharpState K F) :
    prepare env c (s.map φ) = ((prepare envF c s).1.map φ, (prepare envF c s).2) := by
  unfold prepare
  have e : ({ s.map φ with q := env.before (s.map φ).t (s.map φ).q } : SharpState K E) =
      ({ s with q := envF.before s.t s.q } : SharpState K F).map φ := by
    simp [SharpState.map, h.before]
  simp only [e, map_evalRhs h]
  by_cases hl : c.integ.isLmm
  · simp only [hl, if_true]
    exact map_updateSaved c _ _
  · simp only [hl]
    rfl

theorem map_getDt (c : SharpCfg K) (tstart : K) (tend : Option K) (s : SharpState K F) :
    sharpGetDt c tstart tend (s.map φ) = (sharpGetDt c tstart tend s).map φ := by
  have hn : sharpDtNew c (s.map φ) = sharpDtNew c s := by
    unfold sharpDtNew
    simp [SharpState.map]
  unfold sharpGetDt
  rw [hn]
  by_cases h1 : c.dtVariable = true ∧ s.dtOld.isSome = true
  · by_cases h2 : 0 < s.cfl
    · simp only [SharpState.map, h1, h2, and_self, if_true]
      cases tend <;> rfl
    · simp only [SharpState.map, h1, h2, and_self, if_true]
      cases tend <;> rfl
  · have h1' : ¬ (c.dtVariable = true ∧ (s.map φ).dtOld.isSome = true) := h1
    simp only [if_neg h1, if_neg h1']
    cases tend <;> rfl

/-! ### Runge-Kutta stages -/

section rk
variable {p : SharpRhs K E} {pF : SharpRhs K F} (hd : ∀ dt t x, p.dq dt t (φ x) = φ (pF.dq dt t x))
  (hs : ∀ t x, p.stage t (φ x) = φ (pF.stage t x))
include hd hs

theorem map_ssp22 (dt t : K) (f q : F) : ssp22Step p dt t (φ f) (φ q) = φ (ssp22Step pF dt t f q) := by
  simp only [ssp22Step, ← map_smul, ← map_add, hd, hs]

theorem map_ssp33 (dt t : K) (f q : F) : ssp33Step p dt t (φ f) (φ q) = φ (ssp33Step pF dt t f q) := by
  simp only [ssp33Step, ← map_smul, ← map_add, hd, hs]

theorem map_ssp104Stage (dt : K) (s : F × K) : ssp104Stage p dt (Prod.map φ id s) = Prod.map φ id (ssp104Stage pF dt s) := by
  simp only [ssp104Stage, Prod.map_fst, Prod.map_snd, id_eq, Prod.map_apply, ← map_smul, ← map_add, hd, hs]

theorem map_ssp104Loop (dt : K) (s : F × K) : ssp104Loop p dt (Prod.map φ id s) = Prod.map φ id (ssp104Loop pF dt s) := by
  simp only [ssp104Loop, map_ssp104Stage hd hs]

theorem map_ssp104 (dt t : K) (f q : F) : ssp104Step p dt t (φ f) (φ q) = φ (ssp104Step pF dt t f q) := by
  have e1 : ((φ q + (1 / 6 : K) • (dt • φ f), t + dt / 6) : E × K) = Prod.map φ id (q + (1 / 6 : K) • (dt • f), t + dt / 6) := by
    simp
  simp only [ssp104Step]
  rw [e1, map_ssp104Loop hd hs]
  generalize ssp104Loop pF dt (q + (1 / 6 : K) • (dt • f), t + dt / 6) = s1
  have e2 : (((15 : K) • ((1 / 25 : K) • φ q + (36 / 100 : K) • (Prod.map φ id s1).1) - (5 : K) • (Prod.map φ id s1).1, t + dt / 3) : E × K)
      = Prod.map φ id ((15 : K) • ((1 / 25 : K) • q + (36 / 100 : K) • s1.1) - (5 : K) • s1.1, t + dt / 3) := by
    simp
  rw [e2, map_ssp104Loop hd hs]
  simp only [Prod.map_fst, Prod.map_snd, id_eq, ← map_smul, ← map_add, hd, hs]

omit hd hs in
theorem map_addRegisters (w : Nat → K) (regs : List F) (acc : F) : addRegisters w (φ acc) (regs.map φ) = φ (addRegisters w acc regs) := by
  unfold addRegisters
  rw [List.zipIdx_map]
  rw [List.foldl_map]
  generalize regs.zipIdx = l
  induction l generalizing acc with
  | nil => rfl
  | cons a l ih =>
    have := ih (acc + w a.2 • a.1)
    simpa only [List.foldl_cons, Prod.map_fst, Prod.map_snd, id_eq, map_smul, map_add] using this

theorem map_rkStages (a : Nat → Nat → K) (c : Nat → K) (dt t : K) (q : F) (n : Nat) (regs : List F) :
    rkStages p a c dt t (φ q) n (regs.map φ) = (rkStages pF a c dt t q n regs).map φ := by
  induction n generalizing regs with
  | zero => rfl
  | succ n ih =>
    simp only [rkStages, List.length_map]
    rw [hs, map_addRegisters, hd, ← ih]
    simp

theorem map_rk (a : Nat → Nat → K) (b c : Nat → K) (n : Nat) (dt t : K) (f q : F) :
    rkStep p a b c n dt t (φ f) (φ q) = φ (rkStep pF a b c n dt t f q) := by
  unfold rkStep
  have : [dt • φ f] = [dt • f].map φ := by simp
  rw [this, map_rkStages hd hs, map_addRegisters]

theorem map_ssp22Evals (dt t : K) (f q : F) :
    ssp22Evals p dt t (φ f) (φ q) = (ssp22Evals pF dt t f q).map (Prod.map id φ) := by
  simp only [ssp22Evals, ← map_smul, ← map_add, hs, List.map_cons, List.map_nil, Prod.map_apply, id_eq]

theorem map_ssp33Evals (dt t : K) (f q : F) :
    ssp33Evals p dt t (φ f) (φ q) = (ssp33Evals pF dt t f q).map (Prod.map id φ) := by
  simp only [ssp33Evals, ← map_smul, ← map_add, hs, hd, List.map_cons, List.map_nil, Prod.map_apply, id_eq]

theorem map_ssp104LoopEvals (dt : K) (s : F × K) :
    ssp104LoopEvals p dt (Prod.map φ id s) = (ssp104LoopEvals pF dt s).map (Prod.map id φ) := by
  simp only [ssp104LoopEvals, map_ssp104Stage hd hs, List.map_cons, List.map_nil, Prod.map_apply, Prod.map_fst, Prod.map_snd, id_eq, hs]

theorem map_ssp104Evals (dt t : K) (f q : F) :
    ssp104Evals p dt t (φ f) (φ q) = (ssp104Evals pF dt t f q).map (Prod.map id φ) := by
  have e1 : ((φ q + (1 / 6 : K) • (dt • φ f), t + dt / 6) : E × K) = Prod.map φ id (q + (1 / 6 : K) • (dt • f), t + dt / 6) := by
    simp
  simp only [ssp104Evals]
  rw [e1, map_ssp104Loop hd hs]
  generalize ssp104Loop pF dt (q + (1 / 6 : K) • (dt • f), t + dt / 6) = s1
  have e2 : (((15 : K) • ((1 / 25 : K) • φ q + (36 / 100 : K) • (Prod.map φ id s1).1) - (5 : K) • (Prod.map φ id s1).1, t + dt / 3) : E × K)
      = Prod.map φ id ((15 : K) • ((1 / 25 : K) • q + (36 / 100 : K) • s1.1) - (5 : K) • s1.1, t + dt / 3) := by
    simp
  rw [e2, map_ssp104Loop hd hs, map_ssp104LoopEvals hd hs, map_ssp104LoopEvals hd hs]
  simp only [List.map_append, List.map_cons, List.map_nil, Prod.map_apply, Prod.map_fst, Prod.map_snd, id_eq, hs]

theorem map_rkEvals (a : Nat → Nat → K) (c : Nat → K) (dt t : K) (q : F) (n : Nat) (regs : List F) :
    rkEvals p a c dt t (φ q) n (regs.map φ) = (rkEvals pF a c dt t q n regs).map (Prod.map id φ) := by
  induction n generalizing regs with
  | zero => rfl
  | succ n ih =>
    simp only [rkEvals, List.length_map, List.map_cons, Prod.map_apply, id_eq]
    rw [hs, map_addRegisters, hd, ← ih]
    simp

end rk

/-! ### The step -/

theorem map_lmmTerms (al be : List K) (dt : K) (regs : List (F × K)) (prev : List F) (acc : F) (n : Nat) :
    lmmTerms al be dt (regs.map (Prod.map φ id)) (prev.map φ) (φ acc) n = (lmmTerms al be dt regs prev acc n).map φ := by
  induction n with
  | zero => rfl
  | succ n ih =>
    simp only [lmmTerms, ih, List.getElem?_map]
    cases lmmTerms al be dt regs prev acc n <;> cases al[n]? <;> cases regs[n]? <;> cases be[n]? <;> cases prev[n]? <;> simp

theorem map_lmmUpdate (al be : List K) (k : Nat) (dt : K) (regs : List (F × K)) (prev : List F) :
    lmmUpdate al be k dt (regs.map (Prod.map φ id)) (prev.map φ) = (lmmUpdate al be k dt regs prev).map φ := by
  unfold lmmUpdate
  rw [List.getLast?_map, List.getLast?_map]
  cases al.getLast? <;> cases regs.getLast? <;> cases be.getLast? <;> cases prev.getLast? <;> try rfl
  simp only [Option.map_some]
  rw [← map_lmmTerms]
  simp

theorem map_fromEnd {α β : Type*} (f : α → β) (l : List α) (k : Nat) : fromEnd (l.map f) k = (fromEnd l k).map f := by
  unfold fromEnd
  simp only [List.length_map, List.getElem?_map]
  split <;> rfl

theorem map_setFirst (l : List (F × K)) (x : F × K) :
    setFirst (l.map (Prod.map φ id)) (Prod.map φ id x) = (setFirst l x).map (Prod.map φ id) := by
  cases l <;> rfl

theorem map_integrate (h : Carries φ envF env) (c : SharpCfg K) (i : Int) (s : SharpState K F) :
    integrate env c i (s.map φ) = ((integrate envF c i s).1.map φ, (integrate envF c i s).2) := by
  have hd : ∀ dt t x, (env.dq dt t (φ x)).1 = φ (envF.dq dt t x).1 := fun dt t x => by rw [h.dq]
  have e22 := map_ssp22 (p := ⟨fun dt t q => (env.dq dt t q).1, env.stage⟩) (pF := ⟨fun dt t q => (envF.dq dt t q).1, envF.stage⟩)
    hd h.stage s.dt s.t s.dqDt s.q
  have e33 := map_ssp33 (p := ⟨fun dt t q => (env.dq dt t q).1, env.stage⟩) (pF := ⟨fun dt t q => (envF.dq dt t q).1, envF.stage⟩)
    hd h.stage s.dt s.t s.dqDt s.q
  have e104 := map_ssp104 (p := ⟨fun dt t q => (env.dq dt t q).1, env.stage⟩)
    (pF := ⟨fun dt t q => (envF.dq dt t q).1, envF.stage⟩) hd h.stage s.dt s.t s.dqDt s.q
  have erk := fun a b cc n => map_rk (p := ⟨fun dt t q => (env.dq dt t q).1, env.stage⟩)
    (pF := ⟨fun dt t q => (envF.dq dt t q).1, envF.stage⟩) hd h.stage a b cc n s.dt s.t s.dqDt s.q
  have ef : setFirst (s.regs.map (Prod.map φ id)) (env.stage (s.t + s.dt) (φ s.q + s.dt • φ s.dqDt), s.t + s.dt) =
      (setFirst s.regs (envF.stage (s.t + s.dt) (s.q + s.dt • s.dqDt), s.t + s.dt)).map (Prod.map φ id) := by
    rw [← map_setFirst]
    simp only [Prod.map_apply, id_eq, ← map_smul, ← map_add, h.stage]
  unfold integrate
  cases hi : c.integ with
  | euler => simp [SharpState.map, eulerStep]
  | ssp22 =>
    simp only [SharpState.map] at *
    simp only [e22, ef]
  | ssp33 =>
    simp only [SharpState.map] at *
    simp only [e33]
  | ssp104 =>
    simp only [SharpState.map] at *
    simp only [e104]
  | rk a b cc n =>
    simp only [SharpState.map] at *
    simp only [erk]
  | ssplmmk2 =>
    simp only [SharpState.map] at *
    split
    · simp only [e22, ef]
    · rw [map_fromEnd]
      cases fromEnd s.regs c.lmmSteps with
      | none => rfl
      | some r => simp [ssplmmk2Update]
  | ssplmmk3 =>
    simp only [SharpState.map] at *
    split
    · simp only [e22, ef]
    · rw [map_fromEnd, map_fromEnd, List.getLast?_map]
      cases fromEnd s.regs c.lmmSteps <;> cases s.prevDq.getLast? <;> cases fromEnd s.prevDq c.lmmSteps <;> try rfl
      simp [ssplmmk3Update]
  | lmm al be =>
    simp only [SharpState.map] at *
    simp only [List.length_map]
    split
    · simp only [e104]
    · rw [map_lmmUpdate]
      cases lmmUpdate al be c.lmmSteps s.dt s.regs s.prevDq <;> rfl
  | unknown => rfl

theorem map_stageEvals (h : Carries φ envF env) (c : SharpCfg K) (i : Int) (s : SharpState K F) :
    stageEvals env c i (s.map φ) = (stageEvals envF c i s).map (Prod.map id φ) := by
  have hd : ∀ dt t x, (env.dq dt t (φ x)).1 = φ (envF.dq dt t x).1 := fun dt t x => by rw [h.dq]
  have e22 := map_ssp22Evals (p := ⟨fun dt t q => (env.dq dt t q).1, env.stage⟩)
    (pF := ⟨fun dt t q => (envF.dq dt t q).1, envF.stage⟩) hd h.stage s.dt s.t s.dqDt s.q
  have e33 := map_ssp33Evals (p := ⟨fun dt t q => (env.dq dt t q).1, env.stage⟩)
    (pF := ⟨fun dt t q => (envF.dq dt t q).1, envF.stage⟩) hd h.stage s.dt s.t s.dqDt s.q
  have e104 := map_ssp104Evals (p := ⟨fun dt t q => (env.dq dt t q).1, env.stage⟩)
    (pF := ⟨fun dt t q => (envF.dq dt t q).1, envF.stage⟩) hd h.stage s.dt s.t s.dqDt s.q
  have erk := fun a cc n => map_rkEvals (p := ⟨fun dt t q => (env.dq dt t q).1, env.stage⟩)
    (pF := ⟨fun dt t q => (envF.dq dt t q).1, envF.stage⟩) hd h.stage a cc s.dt s.t s.q n [s.dt • s.dqDt]
  have e1 : [s.dt • φ s.dqDt] = [s.dt • s.dqDt].map φ := by simp
  unfold stageEvals
  cases hi : c.integ <;> simp only [SharpState.map, List.length_map, e22, e33, e104, e1, erk, List.map_nil] <;> split <;>
    simp only [List.map_nil]

theorem map_stageMax (h : Carries φ envF env) (c : SharpCfg K) (i : Int) (s : SharpState K F) :
    stageMax env c i (s.map φ) = stageMax envF c i s := by
  unfold stageMax
  rw [map_stageEvals h, List.foldl_map]
  simp only [Prod.map_fst, Prod.map_snd, id_eq, h.dq]
  rfl

theorem map_stepCfl (h : Carries φ envF env) (c : SharpCfg K) (tstart : K) (tend : Option K) (s : SharpState K F) :
    stepCfl env c tstart tend (s.map φ) = stepCfl envF c tstart tend s := by
  unfold stepCfl
  simp only [map_prepare h, map_getDt]
  exact map_stageMax h c _ { sharpGetDt c tstart tend (prepare envF c s).1 with cfl := _, dtOld := _ }

theorem map_attempt (h : Carries φ envF env) (c : SharpCfg K) (x : K) (tstart : K) (tend : Option K) (n : Nat) (s : SharpState K F) :
    sharpAttempt env c x tstart tend n (s.map φ) =
      ((sharpAttempt envF c x tstart tend n s).1.map φ, (sharpAttempt envF c x tstart tend n s).2) := by
  unfold sharpAttempt
  simp only [map_prepare h, map_getDt]
  generalize sharpGetDt c tstart tend (prepare envF c s).1 = s1
  have e := map_integrate h c (prepare envF c s).2 { s1 with cfl := s1.dt / s1.dtOld.getD 0 * s1.cfl, dtOld := some s1.dt }
  have e' : integrate env c (prepare envF c s).2
      { s1.map φ with cfl := (s1.map φ).dt / (s1.map φ).dtOld.getD 0 * (s1.map φ).cfl, dtOld := some (s1.map φ).dt } = _ := e
  rw [e']
  generalize integrate envF c (prepare envF c s).2 { s1 with cfl := s1.dt / s1.dtOld.getD 0 * s1.cfl, dtOld := some s1.dt } = r
  obtain ⟨r1, r2⟩ := r
  cases r2 with
  | error e => rfl
  | ok u =>
    simp only
    have ha : sharpAccepts c { r1.map φ with cfl := max (r1.map φ).cfl x } = sharpAccepts c { r1 with cfl := max r1.cfl x } := by
      simp [sharpAccepts, SharpState.map]
    rw [ha]
    cases sharpAccepts c { r1 with cfl := max r1.cfl x } <;> cases c.dtVariable <;> rfl

theorem map_try (h : Carries φ envF env) (c : SharpCfg K) (x : K) (tstart : K) (tend : Option K) (n : Nat) (r : SharpRun K F) :
    sharpTry env c x tstart tend n (r.map φ) =
      ((sharpTry envF c x tstart tend n r).1.map φ, (sharpTry envF c x tstart tend n r).2) := by
  unfold sharpTry
  have e : sharpAttempt env c x tstart tend n (r.map φ).st = _ := map_attempt h c x tstart tend n r.st
  simp only [e]
  generalize sharpAttempt envF c x tstart tend n r.st = a
  obtain ⟨a1, a2⟩ := a
  cases a2 with
  | error e =>
    simp only
    split <;> simp [SharpRun.map, SharpTry.map, SharpState.map]
  | ok b => cases b <;> simp [SharpRun.map, SharpTry.map, SharpState.map]

theorem map_loop (h : Carries φ envF env) (c : SharpCfg K) (tstart : K) (tend : Option K) (fuel n k : Nat) (r : SharpRun K F) :
    sharpLoopC env c tstart tend fuel n k (r.map φ) =
      ((sharpLoopC envF c tstart tend fuel n k r).1.map φ, (sharpLoopC envF c tstart tend fuel n k r).2) := by
  induction fuel generalizing n k r with
  | zero => rfl
  | succ fuel ih =>
    unfold sharpLoopC
    have e : stepCfl env c tstart tend (r.map φ).st = _ := map_stepCfl h c tstart tend r.st
    rw [e, map_try h]
    generalize sharpTry envF c (stepCfl envF c tstart tend r.st) tstart tend n r = a
    obtain ⟨a1, a2⟩ := a
    cases a2 with
    | error e => rfl
    | ok acc =>
      cases tend with
      | none => rfl
      | some te =>
        simp only
        have : (a1.map φ).st.t = a1.st.t := rfl
        rw [this]
        split
        · rfl
        · exact ih _ _ _

/-- The end of `evolve_to_time`. -/
theorem map_finish (h : Carries φ envF env) (c : SharpCfg K) (tstart : K) (tend : Option K) (r : SharpRun K F) :
    (match sharpLoopC env c tstart tend (r.map φ).maxSteps.toNat 0 0 (r.map φ) with
      | (r', .error e) => (r', .error e)
      | (r', .ok k) =>
        match tend with
        | none => (r', .ok ())
        | some te =>
          if c.dtVariable = true ∧ r'.st.t < te ∧ (k : Int) = r'.maxSteps then
            (r', .error (.exception "Maximum number of timesteps have been taken"))
          else (r', .ok ()) : Ret (SharpRun K E) Unit) =
    ((match sharpLoopC envF c tstart tend r.maxSteps.toNat 0 0 r with
      | (r', .error e) => (r', .error e)
      | (r', .ok k) =>
        match tend with
        | none => (r', .ok ())
        | some te =>
          if c.dtVariable = true ∧ r'.st.t < te ∧ (k : Int) = r'.maxSteps then
            (r', .error (.exception "Maximum number of timesteps have been taken"))
          else (r', .ok ()) : Ret (SharpRun K F) Unit).1.map φ,
      (match sharpLoopC envF c tstart tend r.maxSteps.toNat 0 0 r with
      | (r', .error e) => (r', .error e)
      | (r', .ok k) =>
        match tend with
        | none => (r', .ok ())
        | some te =>
          if c.dtVariable = true ∧ r'.st.t < te ∧ (k : Int) = r'.maxSteps then
            (r', .error (.exception "Maximum number of timesteps have been taken"))
          else (r', .ok ()) : Ret (SharpRun K F) Unit).2) := by
  have h2 : (r.map φ).maxSteps = r.maxSteps := rfl
  rw [h2, map_loop h]
  generalize sharpLoopC envF c tstart tend r.maxSteps.toNat 0 0 r = l
  obtain ⟨l1, l2⟩ := l
  cases l2 with
  | error e => rfl
  | ok k =>
    cases tend with
    | none => rfl
    | some te =>
      have h3 : (l1.map φ).st.t = l1.st.t := rfl
      have h4 : (l1.map φ).maxSteps = l1.maxSteps := rfl
      simp only [h3, h4]
      split <;> rfl

theorem map_evolve [FloorRing K] (h : Carries φ envF env) (c : SharpCfg K) (tend : Option K) (r : SharpRun K F) :
    sharpEvolveC env c tend (r.map φ) = ((sharpEvolveC envF c tend r).1.map φ, (sharpEvolveC envF c tend r).2) := by
  unfold sharpEvolveC
  have ef : (if c.dtVariable then (r.map φ, .ok ()) else sharpFixedSetup (r.map φ).st.t tend (r.map φ) : Ret (SharpRun K E) Unit) =
      ((if c.dtVariable then (r, .ok ()) else sharpFixedSetup r.st.t tend r : Ret (SharpRun K F) Unit).1.map φ,
        (if c.dtVariable then (r, .ok ()) else sharpFixedSetup r.st.t tend r : Ret (SharpRun K F) Unit).2) := by
    cases c.dtVariable
    · simp only [Bool.false_eq_true, if_false]
      unfold sharpFixedSetup
      cases tend with
      | none => rfl
      | some te =>
        have h0 : (r.map φ).st.dt = r.st.dt := rfl
        have h1 : (r.map φ).st.t = r.st.t := rfl
        simp only [h0, h1]
        split
        · rfl
        · split <;> rfl
    · rfl
  simp only [ef]
  clear ef
  generalize (if c.dtVariable then (r, .ok ()) else sharpFixedSetup r.st.t tend r : Ret (SharpRun K F) Unit) = f
  obtain ⟨f1, f2⟩ := f
  cases f2 with
  | error e => rfl
  | ok u =>
    simp only
    split
    · rfl
    · have h1 : (r.map φ).st.t = r.st.t := rfl
      cases tend with
      | none => exact map_finish h c r.st.t none f1
      | some te =>
        by_cases hte : te ≤ r.st.t
        · simp only [h1, if_pos hte]
          exact map_finish h c r.st.t (some te) { f1 with maxSteps := 0 }
        · simp only [h1, if_neg hte]
          exact map_finish h c r.st.t (some te) f1

theorem map_session [FloorRing K] (h : Carries φ envF env) (c : SharpCfg K) (ks : List (SharpGoal K)) (r : SharpRun K F) :
    sharpSessionC env c ks (r.map φ) = ((sharpSessionC envF c ks r).1.map φ, (sharpSessionC envF c ks r).2) := by
  induction ks generalizing r with
  | nil => rfl
  | cons k ks ih =>
    unfold sharpSessionC
    have e : ({ r.map φ with maxSteps := k.maxSteps } : SharpRun K E) = ({ r with maxSteps := k.maxSteps } : SharpRun K F).map φ := rfl
    simp only [e, map_evolve h]
    rw [ih]

end PyClaw
