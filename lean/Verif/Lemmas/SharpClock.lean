import Verif.Lemmas.SharpMap
import Verif.Spec.SharpUnits

set_option linter.unusedSectionVars false

/-!
SharpClaw sessions in another unit of time.
-/
namespace PyClaw
open Spec

variable {K E : Type*} [Field K] [LinearOrder K] [IsStrictOrderedRing K] [AddCommGroup E] [Module K E]

variable {a : K} {env env' : SharpEnv K E}

theorem clock_evalRhs (ha : 0 < a) (h : SameInTime a env env') (s : SharpState K E) :
    evalRhs env' (sharpStateIn a s) = sharpStateIn a (evalRhs env s) := by
  unfold evalRhs
  cases hs : s.accept
  · simp [sharpStateIn, hs]
  · simp only [sharpStateIn, hs, if_true, h.dq, mul_inv, mul_smul]

theorem clock_dtFE (ha : 0 < a) (c : SharpCfg K) (s : SharpState K E) :
    dtForwardEuler (sharpCfgIn a c) (sharpStateIn a s) = a * dtForwardEuler c s := by
  simp only [dtForwardEuler, sharpCfgIn, sharpStateIn]
  ring

theorem clock_lt (ha : 0 < a) (x y : K) : (a * x < a * y) = (x < y) := propext (mul_lt_mul_iff_right₀ ha)

theorem clock_le (ha : 0 < a) (x y : K) : (a * x ≤ a * y) = (x ≤ y) := propext (mul_le_mul_iff_right₀ ha)

theorem clock_check (ha : 0 < a) (s : SharpState K E) (i : Int) (d : K) :
    check3rdOrd (sharpStateIn a s) i (a * d) = check3rdOrd s i d := by
  have hl : ((s.prevFE.map (a * ·)).getLast?).getD 0 = a * (s.prevFE.getLast?.getD 0) := by
    rw [List.getLast?_map]
    cases s.prevFE.getLast? <;> simp
  unfold check3rdOrd
  simp only [sharpStateIn, List.length_map, hl]
  have e1 : a * d * lmmRho s.regs.length = a * (d * lmmRho s.regs.length) := by ring
  have e2 : lmmRhoFE s.regs.length * (a * s.prevFE.getLast?.getD 0) = a * (lmmRhoFE s.regs.length * s.prevFE.getLast?.getD 0) := by ring
  have e3 : a * s.prevFE.getLast?.getD 0 / lmmRhoFE s.regs.length = a * (s.prevFE.getLast?.getD 0 / lmmRhoFE s.regs.length) := by ring
  simp only [e1, e2, e3, clock_lt ha]

theorem clock_rollSaved (c : SharpCfg K) (s : SharpState K E) (i : Int) (d : K) :
    rollSaved (sharpCfgIn a c) (sharpStateIn a s) i (a * d) = sharpStateIn a (rollSaved c s i d) := by
  have hr : rollIn (s.regs.map (Prod.map id (a * ·))) (s.q, a * s.t) = (rollIn s.regs (s.q, s.t)).map (Prod.map id (a * ·)) :=
    map_rollIn (Prod.map id (a * ·)) s.regs (s.q, s.t)
  have hq : rollIn (s.prevDq.map (a⁻¹ • ·)) (a⁻¹ • s.dqDt) = (rollIn s.prevDq s.dqDt).map (a⁻¹ • ·) := map_rollIn (a⁻¹ • ·) s.prevDq s.dqDt
  have hd : (s.dtOld.map (a * ·)).getD 0 = a * s.dtOld.getD 0 := by cases s.dtOld <;> simp
  have ht : rollIn (s.prevDt.map (a * ·)) (a * s.dtOld.getD 0) = (rollIn s.prevDt (s.dtOld.getD 0)).map (a * ·) := map_rollIn (a * ·) _ _
  have hf : rollIn (s.prevFE.map (a * ·)) (a * d) = (rollIn s.prevFE d).map (a * ·) := map_rollIn (a * ·) _ _
  unfold rollSaved
  have hci : (sharpCfgIn a c).integ = c.integ := rfl
  rw [hci]
  cases c.integ <;> simp only [sharpStateIn, List.length_map, hr, hq, hd, ht, hf] <;>
    by_cases hb : i ≤ s.regs.length <;> simp [hb]

theorem clock_updateSaved (ha : 0 < a) (c : SharpCfg K) (s : SharpState K E) (i : Int) :
    updateSaved (sharpCfgIn a c) (sharpStateIn a s) i = (sharpStateIn a (updateSaved c s i).1, (updateSaved c s i).2) := by
  have hset : setLast (s.regs.map (Prod.map id (a * ·))) (s.q, a * s.t) = (setLast s.regs (s.q, s.t)).map (Prod.map id (a * ·)) :=
    map_setLast (Prod.map id (a * ·)) s.regs (s.q, s.t)
  have h1 := clock_dtFE ha c s
  have h2 := clock_check ha s i
  have hl : ((sharpStateIn a s).regs.getLast?).getD ((sharpStateIn a s).q, (sharpStateIn a s).t) =
      Prod.map id (a * ·) (s.regs.getLast?.getD (s.q, s.t)) := map_getLast (Prod.map id (a * ·)) s.regs (s.q, s.t)
  have hd : ((sharpStateIn a s).prevDq.getLast?).getD (sharpStateIn a s).dqDt = a⁻¹ • (s.prevDq.getLast?.getD s.dqDt) :=
    map_getLast (a⁻¹ • ·) s.prevDq s.dqDt
  have hci : (sharpCfgIn a c).integ = c.integ := rfl
  have hcc : (sharpCfgIn a c).checkCond = c.checkCond := rfl
  have he : ((sharpStateIn a s).prevDt = []) = (s.prevDt = []) := by simp [sharpStateIn]
  have hac : (sharpStateIn a s).accept = s.accept := rfl
  unfold updateSaved
  simp only [he, hac, hci, hcc, h1]
  by_cases hp : s.prevDt = []
  · rw [if_pos hp, if_pos hp]
    by_cases hs : c.integ.isSspLmm
    · simp only [hs, if_true]
      simp [sharpStateIn, hset]
    · simp only [hs]
      simp [sharpStateIn, hset]
  · rw [if_neg hp, if_neg hp]
    by_cases ha' : s.accept = true
    · rw [if_pos ha', if_pos ha']
      simp only [h2, hl, hd]
      cases hi : c.integ with
      | ssplmmk3 =>
        cases hc : c.checkCond
        · simp only [Bool.false_and, Bool.false_eq_true, if_false]
          rw [clock_rollSaved]
        · simp only [if_true, Bool.true_and]
          by_cases hk : check3rdOrd s i (dtForwardEuler c s) = true
          · simp only [hk, Bool.not_true, Bool.false_eq_true, if_false]
            exact Prod.ext (clock_rollSaved c { s with lmmCond := true } i _) rfl
          · have hk' : check3rdOrd s i (dtForwardEuler c s) = false := by simpa using hk
            simp only [hk', Bool.not_false, if_true]
            rfl
      | _ => simp only [Bool.false_eq_true, if_false]; rw [clock_rollSaved]
    · rw [if_neg ha', if_neg ha']

theorem clock_prepare (ha : 0 < a) (h : SameInTime a env env') (c : SharpCfg K) (s : SharpState K E) :
    prepare env' (sharpCfgIn a c) (sharpStateIn a s) = (sharpStateIn a (prepare env c s).1, (prepare env c s).2) := by
  unfold prepare
  have e : ({ sharpStateIn a s with q := env'.before (sharpStateIn a s).t (sharpStateIn a s).q } : SharpState K E) =
      sharpStateIn a ({ s with q := env.before s.t s.q } : SharpState K E) := by
    simp [sharpStateIn, h.before]
  simp only [e, clock_evalRhs ha h]
  have hci : (sharpCfgIn a c).integ = c.integ := rfl
  rw [hci]
  by_cases hl : c.integ.isLmm
  · simp only [hl, if_true]
    exact clock_updateSaved ha c _ _
  · simp only [hl]
    rfl

theorem clock_span (l : List K) : lmmSpan (l.map (a * ·)) = a * lmmSpan l := by
  unfold lmmSpan
  rw [← List.map_drop]
  generalize l.drop 1 = l
  induction l with
  | nil => simp
  | cons x l ih => simp [ih, mul_add]

theorem clock_listMin (ha : 0 < a) (l : List K) : listMin (l.map (a * ·)) = a * listMin l := by
  induction l with
  | nil => simp [listMin]
  | cons x l ih =>
    cases l with
    | nil => simp [listMin]
    | cons y l =>
      simp only [List.map_cons, listMin] at ih ⊢
      rw [ih, mul_min_of_nonneg _ _ ha.le]

theorem clock_dtNew (ha : 0 < a) (c : SharpCfg K) (s : SharpState K E) :
    sharpDtNew (sharpCfgIn a c) (sharpStateIn a s) = a * sharpDtNew c s := by
  have key : ∀ H mu p : K, a * H * (a * mu) / (a * H + (p - 1) * (a * mu)) = a * (H * mu / (H + (p - 1) * mu)) := by
    intro H mu p
    rw [show a * H + (p - 1) * (a * mu) = a * (H + (p - 1) * mu) by ring, show a * H * (a * mu) = a * (a * (H * mu)) by ring,
      mul_div_mul_left _ _ ha.ne', mul_div_assoc]
  unfold sharpDtNew
  have hci : (sharpCfgIn a c).integ = c.integ := rfl
  rw [hci]
  cases c.integ <;>
    simp only [sharpStateIn, sharpCfgIn, List.length_map, ← List.map_take, clock_listMin ha, clock_span, key] <;> (try split_ifs) <;> (try simp_all) <;> ring

theorem clock_clip (ha : 0 < a) (t ts te dt : K) : clipDt id landEps (a * t) (a * ts) (a * te) (a * dt) = a * clipDt id landEps t ts te dt := by
  unfold clipDt
  simp only [id]
  simp only [← mul_add, clock_lt ha, ← mul_sub]
  have e : (if te < t + dt ∧ ts < te then a * (te - t) else a * dt) = a * (if te < t + dt ∧ ts < te then te - t else dt) := by
    split_ifs <;> rfl
  rw [e, ← mul_sub, show landEps * (a * t) = a * (landEps * t) by ring]
  simp only [clock_lt ha]
  split_ifs <;> rfl

theorem clock_getDt (ha : 0 < a) (c : SharpCfg K) (tstart : K) (tend : Option K) (s : SharpState K E) :
    sharpGetDt (sharpCfgIn a c) (a * tstart) (tend.map (a * ·)) (sharpStateIn a s) = sharpStateIn a (sharpGetDt c tstart tend s) := by
  unfold sharpGetDt
  rw [clock_dtNew ha]
  have ho : (s.dtOld.map (a * ·)).isSome = s.dtOld.isSome := by simp
  simp only [sharpCfgIn, sharpStateIn, ho]
  by_cases h1 : c.dtVariable = true ∧ s.dtOld.isSome = true
  · by_cases h2 : 0 < s.cfl
    · simp only [h1, h2, and_self, if_true]
      cases tend with
      | none => rfl
      | some te => simp only [Option.map_some, clock_clip ha]
    · simp only [h1, h2, and_self, if_true, if_false]
      cases tend with
      | none => rfl
      | some te => simp only [Option.map_some, clock_clip ha]
  · simp only [if_neg h1]
    cases tend with
    | none => rfl
    | some te => simp only [Option.map_some, clock_clip ha]

/-! ### Runge-Kutta stages -/

section rk
variable {p p' : SharpRhs K E} (ha : 0 < a) (hd : ∀ dt t x, p'.dq (a * dt) (a * t) x = p.dq dt t x)
  (hs : ∀ t x, p'.stage (a * t) x = p.stage t x)
include ha hd hs

omit [LinearOrder K] [IsStrictOrderedRing K] ha hd hs in
theorem clock_smul (ha : a ≠ 0) (dt : K) (f : E) : (a * dt) • (a⁻¹ • f) = dt • f := by
  rw [smul_smul, mul_right_comm, mul_inv_cancel₀ ha, one_mul]

theorem clock_ssp22 (dt t : K) (f q : E) : ssp22Step p' (a * dt) (a * t) (a⁻¹ • f) q = ssp22Step p dt t f q := by
  simp only [ssp22Step, clock_smul ha.ne', ← mul_add, hd, hs]

theorem clock_ssp33 (dt t : K) (f q : E) : ssp33Step p' (a * dt) (a * t) (a⁻¹ • f) q = ssp33Step p dt t f q := by
  have e : a * t + 1 / 2 * (a * dt) = a * (t + 1 / 2 * dt) := by ring
  simp only [ssp33Step, clock_smul ha.ne', e, ← mul_add, hd, hs]

theorem clock_ssp104Stage (dt : K) (s : E × K) : ssp104Stage p' (a * dt) (Prod.map id (a * ·) s) = Prod.map id (a * ·) (ssp104Stage p dt s) := by
  have e : a * s.2 + a * dt / 6 = a * (s.2 + dt / 6) := by ring
  simp only [ssp104Stage, Prod.map_fst, Prod.map_snd, id_eq, Prod.map_apply, hd, hs, e]

theorem clock_ssp104Loop (dt : K) (s : E × K) : ssp104Loop p' (a * dt) (Prod.map id (a * ·) s) = Prod.map id (a * ·) (ssp104Loop p dt s) := by
  simp only [ssp104Loop, clock_ssp104Stage ha hd hs]

theorem clock_ssp104 (dt t : K) (f q : E) : ssp104Step p' (a * dt) (a * t) (a⁻¹ • f) q = ssp104Step p dt t f q := by
  have e1 : ((q + (1 / 6 : K) • ((a * dt) • (a⁻¹ • f)), a * t + a * dt / 6) : E × K) =
      Prod.map id (a * ·) (q + (1 / 6 : K) • (dt • f), t + dt / 6) := by
    rw [clock_smul ha.ne']
    exact Prod.ext rfl (by simp; ring)
  simp only [ssp104Step]
  rw [e1, clock_ssp104Loop ha hd hs]
  generalize ssp104Loop p dt (q + (1 / 6 : K) • (dt • f), t + dt / 6) = s1
  have e2 : (((15 : K) • ((1 / 25 : K) • q + (36 / 100 : K) • (Prod.map id (a * ·) s1).1) - (5 : K) • (Prod.map id (a * ·) s1).1, a * t + a * dt / 3) : E × K)
      = Prod.map id (a * ·) ((15 : K) • ((1 / 25 : K) • q + (36 / 100 : K) • s1.1) - (5 : K) • s1.1, t + dt / 3) :=
    Prod.ext rfl (by simp; ring)
  rw [e2, clock_ssp104Loop ha hd hs]
  simp only [Prod.map_fst, Prod.map_snd, id_eq, hd, hs]

theorem clock_rkStages (A : Nat → Nat → K) (c : Nat → K) (dt t : K) (q : E) (n : Nat) (regs : List E) :
    rkStages p' A c (a * dt) (a * t) q n regs = rkStages p A c dt t q n regs := by
  have e : ∀ i, a * t + a * dt * c i = a * (t + dt * c i) := fun i => by ring
  induction n generalizing regs with
  | zero => rfl
  | succ n ih => simp only [rkStages, e, hs, hd, ih]

theorem clock_rk (A : Nat → Nat → K) (b c : Nat → K) (n : Nat) (dt t : K) (f q : E) :
    rkStep p' A b c n (a * dt) (a * t) (a⁻¹ • f) q = rkStep p A b c n dt t f q := by
  unfold rkStep
  rw [clock_smul ha.ne', clock_rkStages ha hd hs]

theorem clock_ssp22Evals (dt t : K) (f q : E) :
    ssp22Evals p' (a * dt) (a * t) (a⁻¹ • f) q = (ssp22Evals p dt t f q).map (Prod.map (a * ·) id) := by
  simp only [ssp22Evals, clock_smul ha.ne', ← mul_add, hs, List.map_cons, List.map_nil, Prod.map_apply, id_eq]

theorem clock_ssp33Evals (dt t : K) (f q : E) :
    ssp33Evals p' (a * dt) (a * t) (a⁻¹ • f) q = (ssp33Evals p dt t f q).map (Prod.map (a * ·) id) := by
  have e : a * t + 1 / 2 * (a * dt) = a * (t + 1 / 2 * dt) := by ring
  simp only [ssp33Evals, clock_smul ha.ne', e, ← mul_add, hs, hd, List.map_cons, List.map_nil, Prod.map_apply, id_eq]

theorem clock_ssp104LoopEvals (dt : K) (s : E × K) :
    ssp104LoopEvals p' (a * dt) (Prod.map id (a * ·) s) = (ssp104LoopEvals p dt s).map (Prod.map (a * ·) id) := by
  simp only [ssp104LoopEvals, clock_ssp104Stage ha hd hs, List.map_cons, List.map_nil, Prod.map_apply, Prod.map_fst, Prod.map_snd, id_eq, hs]

theorem clock_ssp104Evals (dt t : K) (f q : E) :
    ssp104Evals p' (a * dt) (a * t) (a⁻¹ • f) q = (ssp104Evals p dt t f q).map (Prod.map (a * ·) id) := by
  have e1 : ((q + (1 / 6 : K) • ((a * dt) • (a⁻¹ • f)), a * t + a * dt / 6) : E × K) =
      Prod.map id (a * ·) (q + (1 / 6 : K) • (dt • f), t + dt / 6) := by
    rw [clock_smul ha.ne']
    exact Prod.ext rfl (by simp; ring)
  simp only [ssp104Evals]
  rw [e1, clock_ssp104Loop ha hd hs]
  generalize ssp104Loop p dt (q + (1 / 6 : K) • (dt • f), t + dt / 6) = s1
  have e2 : (((15 : K) • ((1 / 25 : K) • q + (36 / 100 : K) • (Prod.map id (a * ·) s1).1) - (5 : K) • (Prod.map id (a * ·) s1).1, a * t + a * dt / 3) : E × K)
      = Prod.map id (a * ·) ((15 : K) • ((1 / 25 : K) • q + (36 / 100 : K) • s1.1) - (5 : K) • s1.1, t + dt / 3) :=
    Prod.ext rfl (by simp; ring)
  rw [e2, clock_ssp104Loop ha hd hs, clock_ssp104LoopEvals ha hd hs, clock_ssp104LoopEvals ha hd hs]
  simp only [List.map_append, List.map_cons, List.map_nil, Prod.map_apply, Prod.map_fst, Prod.map_snd, id_eq, hs]

theorem clock_rkEvals (A : Nat → Nat → K) (c : Nat → K) (dt t : K) (q : E) (n : Nat) (regs : List E) :
    rkEvals p' A c (a * dt) (a * t) q n regs = (rkEvals p A c dt t q n regs).map (Prod.map (a * ·) id) := by
  have e : ∀ i, a * t + a * dt * c i = a * (t + dt * c i) := fun i => by ring
  induction n generalizing regs with
  | zero => rfl
  | succ n ih => simp only [rkEvals, List.map_cons, Prod.map_apply, id_eq, e, hs, hd, ih]

end rk

/-! ### The step -/

theorem clock_lmmTerms (ha : a ≠ 0) (al be : List K) (dt : K) (regs : List (E × K)) (prev : List E) (acc : E) (n : Nat) :
    lmmTerms al be (a * dt) (regs.map (Prod.map id (a * ·))) (prev.map (a⁻¹ • ·)) acc n = lmmTerms al be dt regs prev acc n := by
  induction n with
  | zero => rfl
  | succ n ih =>
    have e : ∀ (b : K) (f : E), (b * (a * dt)) • (a⁻¹ • f) = (b * dt) • f := by
      intro b f
      rw [← mul_assoc, mul_comm b a, mul_assoc, clock_smul ha]
    simp only [lmmTerms, ih, List.getElem?_map]
    cases lmmTerms al be dt regs prev acc n <;> cases al[n]? <;> cases regs[n]? <;> cases be[n]? <;> cases prev[n]? <;> simp [e]

theorem clock_lmmUpdate (ha : a ≠ 0) (al be : List K) (k : Nat) (dt : K) (regs : List (E × K)) (prev : List E) :
    lmmUpdate al be k (a * dt) (regs.map (Prod.map id (a * ·))) (prev.map (a⁻¹ • ·)) = lmmUpdate al be k dt regs prev := by
  have e : ∀ (b : K) (f : E), (b * (a * dt)) • (a⁻¹ • f) = (b * dt) • f := by
    intro b f
    rw [← mul_assoc, mul_comm b a, mul_assoc, clock_smul ha]
  unfold lmmUpdate
  rw [List.getLast?_map, List.getLast?_map]
  cases al.getLast? <;> cases regs.getLast? <;> cases be.getLast? <;> cases prev.getLast? <;> try rfl
  simp only [Option.map_some, e, clock_lmmTerms ha, Prod.map_fst, id]

theorem clock_k2 (ha : 0 < a) (dt : K) (pd : List K) (f q qk : E) :
    ssplmmk2Update (a * dt) (pd.map (a * ·)) (a⁻¹ • f) q qk = ssplmmk2Update dt pd f q qk := by
  unfold ssplmmk2Update
  simp only [clock_span, mul_div_mul_left _ _ ha.ne', clock_smul ha.ne']

theorem clock_k3 (ha : 0 < a) (dt : K) (pd : List K) (q f1 qk fk : E) :
    ssplmmk3Update (a * dt) (pd.map (a * ·)) q (a⁻¹ • f1) qk (a⁻¹ • fk) = ssplmmk3Update dt pd q f1 qk fk := by
  have e : ∀ (b : K) (f : E), (b * (a * dt)) • (a⁻¹ • f) = (b * dt) • f := by
    intro b f
    rw [← mul_assoc, mul_comm b a, mul_assoc, clock_smul ha.ne']
  unfold ssplmmk3Update
  simp only [clock_span, mul_div_mul_left _ _ ha.ne', clock_smul ha.ne', e]

theorem clock_integrate (ha : 0 < a) (h : SameInTime a env env') (c : SharpCfg K) (i : Int) (s : SharpState K E) :
    integrate env' (sharpCfgIn a c) i (sharpStateIn a s) = (sharpStateIn a (integrate env c i s).1, (integrate env c i s).2) := by
  have hd : ∀ dt t x, (env'.dq (a * dt) (a * t) x).1 = (env.dq dt t x).1 := fun dt t x => by rw [h.dq]
  have e22 := clock_ssp22 (p' := ⟨fun dt t q => (env'.dq dt t q).1, env'.stage⟩) (p := ⟨fun dt t q => (env.dq dt t q).1, env.stage⟩)
    ha hd h.stage s.dt s.t s.dqDt s.q
  have e33 := clock_ssp33 (p' := ⟨fun dt t q => (env'.dq dt t q).1, env'.stage⟩) (p := ⟨fun dt t q => (env.dq dt t q).1, env.stage⟩)
    ha hd h.stage s.dt s.t s.dqDt s.q
  have e104 := clock_ssp104 (p' := ⟨fun dt t q => (env'.dq dt t q).1, env'.stage⟩)
    (p := ⟨fun dt t q => (env.dq dt t q).1, env.stage⟩) ha hd h.stage s.dt s.t s.dqDt s.q
  have erk := fun A b cc n => clock_rk (p' := ⟨fun dt t q => (env'.dq dt t q).1, env'.stage⟩)
    (p := ⟨fun dt t q => (env.dq dt t q).1, env.stage⟩) ha hd h.stage A b cc n s.dt s.t s.dqDt s.q
  have ef : setFirst (s.regs.map (Prod.map id (a * ·))) (env'.stage (a * s.t + a * s.dt) (s.q + (a * s.dt) • (a⁻¹ • s.dqDt)), a * s.t + a * s.dt) =
      (setFirst s.regs (env.stage (s.t + s.dt) (s.q + s.dt • s.dqDt), s.t + s.dt)).map (Prod.map id (a * ·)) := by
    rw [clock_smul ha.ne', ← mul_add, h.stage]
    cases s.regs <;> rfl
  have hci : (sharpCfgIn a c).integ = c.integ := rfl
  have hcl : (sharpCfgIn a c).lmmSteps = c.lmmSteps := rfl
  unfold integrate
  rw [hci, hcl]
  cases hi : c.integ with
  | euler => simp [sharpStateIn, eulerStep, clock_smul ha.ne']
  | ssp22 =>
    simp only [sharpStateIn] at *
    simp only [e22, ef]
  | ssp33 =>
    simp only [sharpStateIn] at *
    simp only [e33]
  | ssp104 =>
    simp only [sharpStateIn] at *
    simp only [e104]
  | rk A b cc n =>
    simp only [sharpStateIn] at *
    simp only [erk]
  | ssplmmk2 =>
    simp only [sharpStateIn] at *
    split
    · simp only [e22, ef]
    · rw [map_fromEnd]
      cases fromEnd s.regs c.lmmSteps with
      | none => rfl
      | some r => simp [clock_k2 ha]
  | ssplmmk3 =>
    simp only [sharpStateIn] at *
    split
    · simp only [e22, ef]
    · rw [map_fromEnd, map_fromEnd, List.getLast?_map]
      cases fromEnd s.regs c.lmmSteps <;> cases s.prevDq.getLast? <;> cases fromEnd s.prevDq c.lmmSteps <;> try rfl
      simp [clock_k3 ha]
  | lmm al be =>
    simp only [sharpStateIn] at *
    simp only [List.length_map]
    split
    · simp only [e104]
    · rw [clock_lmmUpdate ha.ne']
      cases lmmUpdate al be c.lmmSteps s.dt s.regs s.prevDq <;> rfl
  | unknown => rfl

theorem clock_stageEvals (ha : 0 < a) (h : SameInTime a env env') (c : SharpCfg K) (i : Int) (s : SharpState K E) :
    stageEvals env' (sharpCfgIn a c) i (sharpStateIn a s) = (stageEvals env c i s).map (Prod.map (a * ·) id) := by
  have hd : ∀ dt t x, (env'.dq (a * dt) (a * t) x).1 = (env.dq dt t x).1 := fun dt t x => by rw [h.dq]
  have e22 := clock_ssp22Evals (p' := ⟨fun dt t q => (env'.dq dt t q).1, env'.stage⟩)
    (p := ⟨fun dt t q => (env.dq dt t q).1, env.stage⟩) ha hd h.stage s.dt s.t s.dqDt s.q
  have e33 := clock_ssp33Evals (p' := ⟨fun dt t q => (env'.dq dt t q).1, env'.stage⟩)
    (p := ⟨fun dt t q => (env.dq dt t q).1, env.stage⟩) ha hd h.stage s.dt s.t s.dqDt s.q
  have e104 := clock_ssp104Evals (p' := ⟨fun dt t q => (env'.dq dt t q).1, env'.stage⟩)
    (p := ⟨fun dt t q => (env.dq dt t q).1, env.stage⟩) ha hd h.stage s.dt s.t s.dqDt s.q
  have erk := fun A cc n => clock_rkEvals (p' := ⟨fun dt t q => (env'.dq dt t q).1, env'.stage⟩)
    (p := ⟨fun dt t q => (env.dq dt t q).1, env.stage⟩) ha hd h.stage A cc s.dt s.t s.q n [s.dt • s.dqDt]
  have hci : (sharpCfgIn a c).integ = c.integ := rfl
  have hcl : (sharpCfgIn a c).lmmSteps = c.lmmSteps := rfl
  unfold stageEvals
  rw [hci, hcl]
  cases hi : c.integ <;> simp only [sharpStateIn, List.length_map, e22, e33, e104, clock_smul ha.ne', erk, List.map_nil] <;> split <;>
    simp only [List.map_nil]

theorem clock_stepCfl (ha : 0 < a) (h : SameInTime a env env') (c : SharpCfg K) (tstart : K) (tend : Option K) (s : SharpState K E) :
    stepCfl env' (sharpCfgIn a c) (a * tstart) (tend.map (a * ·)) (sharpStateIn a s) = stepCfl env c tstart tend s := by
  unfold stepCfl
  simp only [clock_prepare ha h, clock_getDt ha]
  generalize sharpGetDt c tstart tend (prepare env c s).1 = s1
  have hd : (s1.dtOld.map (a * ·)).getD 0 = a * s1.dtOld.getD 0 := by cases s1.dtOld <;> simp
  have e : ({ sharpStateIn a s1 with cfl := (sharpStateIn a s1).dt / (sharpStateIn a s1).dtOld.getD 0 * (sharpStateIn a s1).cfl, dtOld := some (sharpStateIn a s1).dt } : SharpState K E) =
      sharpStateIn a { s1 with cfl := s1.dt / s1.dtOld.getD 0 * s1.cfl, dtOld := some s1.dt } := by
    simp [sharpStateIn, hd, mul_div_mul_left _ _ ha.ne']
  rw [e]
  generalize ({ s1 with cfl := s1.dt / s1.dtOld.getD 0 * s1.cfl, dtOld := some s1.dt } : SharpState K E) = s2
  unfold stageMax
  rw [clock_stageEvals ha h, List.foldl_map]
  simp only [Prod.map_fst, Prod.map_snd, id_eq]
  congr 1
  funext x e
  rw [show (sharpStateIn a s2).dt = a * s2.dt from rfl, h.dq]

theorem clock_attempt (ha : 0 < a) (h : SameInTime a env env') (c : SharpCfg K) (x : K) (tstart : K) (tend : Option K) (n : Nat)
    (s : SharpState K E) :
    sharpAttempt env' (sharpCfgIn a c) x (a * tstart) (tend.map (a * ·)) n (sharpStateIn a s) =
      (sharpStateIn a (sharpAttempt env c x tstart tend n s).1, (sharpAttempt env c x tstart tend n s).2) := by
  unfold sharpAttempt
  simp only [clock_prepare ha h, clock_getDt ha]
  generalize sharpGetDt c tstart tend (prepare env c s).1 = s1
  have hd : (s1.dtOld.map (a * ·)).getD 0 = a * s1.dtOld.getD 0 := by cases s1.dtOld <;> simp
  have e : ({ sharpStateIn a s1 with cfl := (sharpStateIn a s1).dt / (sharpStateIn a s1).dtOld.getD 0 * (sharpStateIn a s1).cfl, dtOld := some (sharpStateIn a s1).dt } : SharpState K E) =
      sharpStateIn a { s1 with cfl := s1.dt / s1.dtOld.getD 0 * s1.cfl, dtOld := some s1.dt } := by
    simp [sharpStateIn, hd, mul_div_mul_left _ _ ha.ne']
  rw [e, clock_integrate ha h]
  generalize integrate env c (prepare env c s).2 { s1 with cfl := s1.dt / s1.dtOld.getD 0 * s1.cfl, dtOld := some s1.dt } = r
  obtain ⟨r1, r2⟩ := r
  cases r2 with
  | error e => rfl
  | ok u =>
    simp only
    have hacc : sharpAccepts (sharpCfgIn a c) { sharpStateIn a r1 with cfl := max (sharpStateIn a r1).cfl x } =
        sharpAccepts c { r1 with cfl := max r1.cfl x } := by
      simp only [sharpAccepts, sharpStateIn, sharpCfgIn, List.length_map]
      rfl
    rw [hacc]
    have hv : (sharpCfgIn a c).dtVariable = c.dtVariable := rfl
    have h1 : (sharpStateIn a r1).t + (sharpStateIn a r1).dt = a * (r1.t + r1.dt) := by simp [sharpStateIn, mul_add]
    have h2 : a * tstart + ((n + 1 : Nat) : K) * (sharpStateIn a r1).dt = a * (tstart + ((n + 1 : Nat) : K) * r1.dt) := by
      simp only [sharpStateIn]
      ring
    rw [hv]
    cases sharpAccepts c { r1 with cfl := max r1.cfl x } <;> cases c.dtVariable <;> simp only [Bool.false_eq_true, if_true, if_false, h1, h2] <;> rfl

theorem clock_try (ha : 0 < a) (h : SameInTime a env env') (c : SharpCfg K) (x : K) (tstart : K) (tend : Option K) (n : Nat) (r : SharpRun K E) :
    sharpTry env' (sharpCfgIn a c) x (a * tstart) (tend.map (a * ·)) n (sharpRunIn a r) =
      (sharpRunIn a (sharpTry env c x tstart tend n r).1, (sharpTry env c x tstart tend n r).2) := by
  unfold sharpTry
  have e : sharpAttempt env' (sharpCfgIn a c) x (a * tstart) (tend.map (a * ·)) n (sharpRunIn a r).st = _ := clock_attempt ha h c x tstart tend n r.st
  simp only [e]
  generalize sharpAttempt env c x tstart tend n r.st = b
  obtain ⟨b1, b2⟩ := b
  cases b2 with
  | error e =>
    simp only
    split <;> simp [sharpRunIn, sharpTryIn, sharpStateIn]
  | ok b => cases b <;> simp [sharpRunIn, sharpTryIn, sharpStateIn]

theorem clock_loop (ha : 0 < a) (h : SameInTime a env env') (c : SharpCfg K) (tstart : K) (tend : Option K) (fuel n k : Nat) (r : SharpRun K E) :
    sharpLoopC env' (sharpCfgIn a c) (a * tstart) (tend.map (a * ·)) fuel n k (sharpRunIn a r) =
      (sharpRunIn a (sharpLoopC env c tstart tend fuel n k r).1, (sharpLoopC env c tstart tend fuel n k r).2) := by
  induction fuel generalizing n k r with
  | zero => rfl
  | succ fuel ih =>
    unfold sharpLoopC
    have e : stepCfl env' (sharpCfgIn a c) (a * tstart) (tend.map (a * ·)) (sharpRunIn a r).st = _ := clock_stepCfl ha h c tstart tend r.st
    rw [e, clock_try ha h]
    generalize sharpTry env c (stepCfl env c tstart tend r.st) tstart tend n r = b
    obtain ⟨b1, b2⟩ := b
    cases b2 with
    | error e => rfl
    | ok acc =>
      cases tend with
      | none => rfl
      | some te =>
        simp only [Option.map_some]
        have : (sharpRunIn a b1).st.t = a * b1.st.t := rfl
        simp only [this, clock_le ha]
        split
        · rfl
        · exact ih _ _ _

/-- The end of `evolve_to_time`. -/
def sharpFinish (env : SharpEnv K E) (c : SharpCfg K) (tstart : K) (tend : Option K) (r : SharpRun K E) : Ret (SharpRun K E) Unit :=
  match sharpLoopC env c tstart tend r.maxSteps.toNat 0 0 r with
  | (r', .error e) => (r', .error e)
  | (r', .ok k) =>
    match tend with
    | none => (r', .ok ())
    | some te =>
      if c.dtVariable = true ∧ r'.st.t < te ∧ (k : Int) = r'.maxSteps then
        (r', .error (.exception "Maximum number of timesteps have been taken"))
      else (r', .ok ())

theorem clock_finish (ha : 0 < a) (h : SameInTime a env env') (c : SharpCfg K) (tstart : K) (tend : Option K) (r : SharpRun K E) :
    sharpFinish env' (sharpCfgIn a c) (a * tstart) (tend.map (a * ·)) (sharpRunIn a r) =
      (sharpRunIn a (sharpFinish env c tstart tend r).1, (sharpFinish env c tstart tend r).2) := by
  unfold sharpFinish
  have h2 : (sharpRunIn a r).maxSteps = r.maxSteps := rfl
  rw [h2, clock_loop ha h]
  generalize sharpLoopC env c tstart tend r.maxSteps.toNat 0 0 r = l
  obtain ⟨l1, l2⟩ := l
  cases l2 with
  | error e => rfl
  | ok k =>
    cases tend with
    | none => rfl
    | some te =>
      have h3 : (sharpRunIn a l1).st.t = a * l1.st.t := rfl
      have h4 : (sharpRunIn a l1).maxSteps = l1.maxSteps := rfl
      have h5 : (sharpCfgIn a c).dtVariable = c.dtVariable := rfl
      simp only [h3, h4, h5, Option.map_some, clock_lt ha]
      split <;> rfl

/-- A call with variable steps. -/
theorem clock_evolve [FloorRing K] (ha : 0 < a) (h : SameInTime a env env') (c : SharpCfg K) (hv : c.dtVariable = true) (tend : Option K)
    (r : SharpRun K E) :
    sharpEvolveC env' (sharpCfgIn a c) (tend.map (a * ·)) (sharpRunIn a r) =
      (sharpRunIn a (sharpEvolveC env c tend r).1, (sharpEvolveC env c tend r).2) := by
  have key : ∀ (env : SharpEnv K E) (c : SharpCfg K) (_ : c.dtVariable = true) (tend : Option K) (r : SharpRun K E),
      sharpEvolveC env c tend r = if c.cflMax < c.cflDesired then
        (r, .error (.exception "Variable time-stepping and desired CFL > maximum CFL"))
      else sharpFinish env c r.st.t tend (match tend with
        | none => r
        | some te => if te ≤ r.st.t then { r with maxSteps := 0 } else r) := by
    intro env c hv tend r
    unfold sharpEvolveC sharpFinish
    simp only [hv, if_true, true_and]
    rfl
  have h6 : (sharpCfgIn a c).cflMax = c.cflMax := rfl
  have h7 : (sharpCfgIn a c).cflDesired = c.cflDesired := rfl
  have h1 : (sharpRunIn a r).st.t = a * r.st.t := rfl
  rw [key env c hv, key env' (sharpCfgIn a c) hv, h6, h7, h1]
  split
  · rfl
  · rw [← clock_finish ha h]
    congr 1
    cases tend with
    | none => rfl
    | some te =>
      simp only [Option.map_some, clock_le ha]
      split <;> rfl

theorem clock_session [FloorRing K] (ha : 0 < a) (h : SameInTime a env env') (c : SharpCfg K) (hv : c.dtVariable = true)
    (ks : List (SharpGoal K)) (r : SharpRun K E) :
    sharpSessionC env' (sharpCfgIn a c) (ks.map (sharpGoalIn a)) (sharpRunIn a r) =
      (sharpRunIn a (sharpSessionC env c ks r).1, (sharpSessionC env c ks r).2) := by
  induction ks generalizing r with
  | nil => rfl
  | cons k ks ih =>
    rw [List.map_cons]
    unfold sharpSessionC
    have e : ({ sharpRunIn a r with maxSteps := (sharpGoalIn a k).maxSteps } : SharpRun K E) =
        sharpRunIn a ({ r with maxSteps := k.maxSteps } : SharpRun K E) := rfl
    have e2 : (sharpGoalIn a k).tend = k.tend.map (a * ·) := rfl
    simp only [e, e2, clock_evolve ha h c hv]
    rw [ih]

end PyClaw
