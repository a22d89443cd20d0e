import Verif.Lemmas.SharpTime
import Verif.Lemmas.SharpStages

/-!
The evaluations of the right-hand side that a Runge-Kutta step makes are exactly at the stages of the method.
-/
set_option linter.unusedSectionVars false
namespace PyClaw
open Spec

variable {K E : Type*} [Field K] [LinearOrder K] [IsStrictOrderedRing K] [AddCommGroup E] [Module K E]

/-- The `i`th stage of the method: where the right-hand side is evaluated. -/
def stagePoint {n : Nat} (T : Tableau K n) (dt t : K) (q : E) (k : Fin n → E) (i : Fin n) : K × E :=
  (t + T.c i * dt, q + dt • ∑ j, T.a i j • k j)

theorem euler_points (dt t : K) (q : E) (k : Fin 1 → E) (i : Fin 1) : stagePoint tabEuler dt t q k i = (t, q) := by
  simp [stagePoint, tabEuler, Tableau.c]

theorem ssp22_points (f : K → E → E) (dt t : K) (q : E) (k : Fin 2 → E)
    (hk : ∀ i, k i = f (stagePoint tab22 dt t q k i).1 (stagePoint tab22 dt t q k i).2) (i : Fin 2) :
    stagePoint tab22 dt t q k i = (t, q) ∨ stagePoint tab22 dt t q k i ∈ ssp22Evals (odeRhs f) dt t (f t q) q := by
  have s0 : stagePoint tab22 dt t q k 0 = (t, q) := by simp [stagePoint, tab22, Tableau.c]
  have k0 : k 0 = f t q := by rw [hk 0, s0]
  have s1 : stagePoint tab22 dt t q k 1 = (t + dt, q + dt • f t q) := by
    rw [← k0]; simp [stagePoint, tab22, Tableau.c]
  fin_cases i
  · exact Or.inl s0
  · refine Or.inr ?_
    show stagePoint tab22 dt t q k 1 ∈ _
    rw [s1]
    simp [ssp22Evals, odeRhs]

theorem ssp33_points (f : K → E → E) (dt t : K) (q : E) (k : Fin 3 → E)
    (hk : ∀ i, k i = f (stagePoint tab33 dt t q k i).1 (stagePoint tab33 dt t q k i).2) (i : Fin 3) :
    stagePoint tab33 dt t q k i = (t, q) ∨ stagePoint tab33 dt t q k i ∈ ssp33Evals (odeRhs f) dt t (f t q) q := by
  have s0 : stagePoint tab33 dt t q k 0 = (t, q) := by simp [stagePoint, tab33, Tableau.c]
  have k0 : k 0 = f t q := by rw [hk 0, s0]
  have s1 : stagePoint tab33 dt t q k 1 = (t + dt, q + dt • f t q) := by
    rw [← k0]; simp [stagePoint, tab33, Tableau.c]
  have k1 : k 1 = f (t + dt) (q + dt • f t q) := by rw [hk 1, s1]
  have s2 : stagePoint tab33 dt t q k 2 = (t + 1 / 2 * dt,
      (3 / 4 : K) • q + (1 / 4 : K) • (q + dt • f t q + dt • f (t + dt) (q + dt • f t q))) := by
    rw [← k1, ← k0]
    have h : (tab33 (K := K)).c 2 = 1 / 2 := by
      unfold Tableau.c; rw [Fin.sum_univ_three]; simp [tab33]; norm_num
    refine Prod.ext ?_ ?_
    · show t + tab33.c 2 * dt = _
      rw [h]
    · simp [stagePoint, tab33, Fin.sum_univ_succ]; module
  fin_cases i
  · exact Or.inl s0
  · refine Or.inr ?_
    show stagePoint tab33 dt t q k 1 ∈ _
    rw [s1]
    simp [ssp33Evals, odeRhs]
  · refine Or.inr ?_
    show stagePoint tab33 dt t q k 2 ∈ _
    rw [s2]
    simp [ssp33Evals, odeRhs]

theorem ssp104_points (f : K → E → E) (dt t : K) (q : E) (k : Fin 10 → E)
    (hk : ∀ i, k i = f (stagePoint tab104 dt t q k i).1 (stagePoint tab104 dt t q k i).2) (i : Fin 10) :
    stagePoint tab104 dt t q k i = (t, q) ∨ stagePoint tab104 dt t q k i ∈ ssp104Evals (odeRhs f) dt t (f t q) q := by
  unfold ssp104Evals ssp104LoopEvals ssp104Loop ssp104Stage
  simp only [odeRhs]
  have s0 : stagePoint tab104 dt t q k 0 = (t, q) := by
    unfold stagePoint; rw [abs104_0, row104_0]; simp
  have k0 : k 0 = f t q := by rw [hk 0, s0]
  rw [← k0]
  set y1 := q + (1 / 6 : K) • dt • k 0 with hy1
  have s1 : stagePoint tab104 dt t q k 1 = (t + dt / 6, y1) := by
    unfold stagePoint
    rw [abs104_1, row104_1]
    refine Prod.ext ?_ ?_
    · show t + _ * dt = _
      ring
    · show q + dt • _ = y1
      rw [hy1]; module
  have k1 : k 1 = f (t + dt / 6) y1 := by rw [hk 1, s1]
  rw [← k1]
  set y2 := y1 + (1 / 6 : K) • dt • k 1 with hy2
  have s2 : stagePoint tab104 dt t q k 2 = (t + dt / 6 + dt / 6, y2) := by
    unfold stagePoint
    rw [abs104_2, row104_2]
    refine Prod.ext ?_ ?_
    · show t + _ * dt = _
      ring
    · show q + dt • _ = y2
      rw [hy2, hy1]; module
  have k2 : k 2 = f (t + dt / 6 + dt / 6) y2 := by rw [hk 2, s2]
  rw [← k2]
  set y3 := y2 + (1 / 6 : K) • dt • k 2 with hy3
  have s3 : stagePoint tab104 dt t q k 3 = (t + dt / 6 + dt / 6 + dt / 6, y3) := by
    unfold stagePoint
    rw [abs104_3, row104_3]
    refine Prod.ext ?_ ?_
    · show t + _ * dt = _
      ring
    · show q + dt • _ = y3
      rw [hy3, hy2, hy1]; module
  have k3 : k 3 = f (t + dt / 6 + dt / 6 + dt / 6) y3 := by rw [hk 3, s3]
  rw [← k3]
  set y4 := y3 + (1 / 6 : K) • dt • k 3 with hy4
  have s4 : stagePoint tab104 dt t q k 4 = (t + dt / 6 + dt / 6 + dt / 6 + dt / 6, y4) := by
    unfold stagePoint
    rw [abs104_4, row104_4]
    refine Prod.ext ?_ ?_
    · show t + _ * dt = _
      ring
    · show q + dt • _ = y4
      rw [hy4, hy3, hy2, hy1]; module
  have k4 : k 4 = f (t + dt / 6 + dt / 6 + dt / 6 + dt / 6) y4 := by rw [hk 4, s4]
  rw [← k4]
  set y5 := y4 + (1 / 6 : K) • dt • k 4 with hy5
  set y6 := (15 : K) • ((1 / 25 : K) • q + (36 / 100 : K) • y5) - (5 : K) • y5 with hy6
  have s5 : stagePoint tab104 dt t q k 5 = (t + dt / 3, y6) := by
    unfold stagePoint
    rw [abs104_5, row104_5]
    refine Prod.ext ?_ ?_
    · show t + _ * dt = _
      ring
    · show q + dt • _ = y6
      rw [hy6, hy5, hy4, hy3, hy2, hy1]; module
  have k5 : k 5 = f (t + dt / 3) y6 := by rw [hk 5, s5]
  rw [← k5]
  set y7 := y6 + (1 / 6 : K) • dt • k 5 with hy7
  have s6 : stagePoint tab104 dt t q k 6 = (t + dt / 3 + dt / 6, y7) := by
    unfold stagePoint
    rw [abs104_6, row104_6]
    refine Prod.ext ?_ ?_
    · show t + _ * dt = _
      ring
    · show q + dt • _ = y7
      rw [hy7, hy6, hy5, hy4, hy3, hy2, hy1]; module
  have k6 : k 6 = f (t + dt / 3 + dt / 6) y7 := by rw [hk 6, s6]
  rw [← k6]
  set y8 := y7 + (1 / 6 : K) • dt • k 6 with hy8
  have s7 : stagePoint tab104 dt t q k 7 = (t + dt / 3 + dt / 6 + dt / 6, y8) := by
    unfold stagePoint
    rw [abs104_7, row104_7]
    refine Prod.ext ?_ ?_
    · show t + _ * dt = _
      ring
    · show q + dt • _ = y8
      rw [hy8, hy7, hy6, hy5, hy4, hy3, hy2, hy1]; module
  have k7 : k 7 = f (t + dt / 3 + dt / 6 + dt / 6) y8 := by rw [hk 7, s7]
  rw [← k7]
  set y9 := y8 + (1 / 6 : K) • dt • k 7 with hy9
  have s8 : stagePoint tab104 dt t q k 8 = (t + dt / 3 + dt / 6 + dt / 6 + dt / 6, y9) := by
    unfold stagePoint
    rw [abs104_8, row104_8]
    refine Prod.ext ?_ ?_
    · show t + _ * dt = _
      ring
    · show q + dt • _ = y9
      rw [hy9, hy8, hy7, hy6, hy5, hy4, hy3, hy2, hy1]; module
  have k8 : k 8 = f (t + dt / 3 + dt / 6 + dt / 6 + dt / 6) y9 := by rw [hk 8, s8]
  rw [← k8]
  set y10 := y9 + (1 / 6 : K) • dt • k 8 with hy10
  have s9 : stagePoint tab104 dt t q k 9 = (t + dt / 3 + dt / 6 + dt / 6 + dt / 6 + dt / 6, y10) := by
    unfold stagePoint
    rw [abs104_9, row104_9]
    refine Prod.ext ?_ ?_
    · show t + _ * dt = _
      ring
    · show q + dt • _ = y10
      rw [hy10, hy9, hy8, hy7, hy6, hy5, hy4, hy3, hy2, hy1]; module
  have k9 : k 9 = f (t + dt / 3 + dt / 6 + dt / 6 + dt / 6 + dt / 6) y10 := by rw [hk 9, s9]
  fin_cases i
  · exact Or.inl s0
  · refine Or.inr ?_
    show stagePoint tab104 dt t q k 1 ∈ _
    rw [s1]
    simp
  · refine Or.inr ?_
    show stagePoint tab104 dt t q k 2 ∈ _
    rw [s2]
    simp
  · refine Or.inr ?_
    show stagePoint tab104 dt t q k 3 ∈ _
    rw [s3]
    simp
  · refine Or.inr ?_
    show stagePoint tab104 dt t q k 4 ∈ _
    rw [s4]
    simp
  · refine Or.inr ?_
    show stagePoint tab104 dt t q k 5 ∈ _
    rw [s5]
    simp
  · refine Or.inr ?_
    show stagePoint tab104 dt t q k 6 ∈ _
    rw [s6]
    simp
  · refine Or.inr ?_
    show stagePoint tab104 dt t q k 7 ∈ _
    rw [s7]
    simp
  · refine Or.inr ?_
    show stagePoint tab104 dt t q k 8 ∈ _
    rw [s8]
    simp
  · refine Or.inr ?_
    show stagePoint tab104 dt t q k 9 ∈ _
    rw [s9]
    simp

theorem rk_points {n : Nat} (T : Tableau K (n + 1)) (hT : T.Explicit) (a : Nat → Nat → K) (c : Nat → K)
    (ha : ∀ i j : Fin (n + 1), a i j = T.a i j) (hc : ∀ i : Fin (n + 1), c i = T.c i) (f : K → E → E) (dt t : K) (q : E)
    (k : Fin (n + 1) → E) (hk : ∀ i, k i = f (stagePoint T dt t q k i).1 (stagePoint T dt t q k i).2) :
    ∀ (m : Nat) (regs : List E), regs.length + m = n + 1 → (∀ j : Fin (n + 1), j.val < regs.length → regs[j.val]? = some (dt • k j)) →
      ∀ i : Fin (n + 1), regs.length ≤ i.val → stagePoint T dt t q k i ∈ rkEvals (odeRhs f) a c dt t q m regs := by
  intro m
  induction m with
  | zero => intro regs h1 _ i hi; exact absurd i.isLt (by omega)
  | succ m ih =>
    intro regs h1 h2 i hi
    have hl : regs.length < n + 1 := by omega
    have hpt : stagePoint T dt t q k ⟨regs.length, hl⟩ = (t + dt * c regs.length, addRegisters (a regs.length) q regs) := by
      unfold stagePoint
      refine Prod.ext ?_ ?_
      · show t + _ = t + _
        rw [← hc, mul_comm]
      · show q + dt • _ = _
        rw [addRegisters_eq]
        congr 1
        rw [Finset.smul_sum]
        have e : ∀ m' (hm : regs.length + m' = n + 1), ∑ j : Fin regs.length, a regs.length j • regs[j] =
            ∑ j : Fin (n + 1), dt • (T.a ⟨regs.length, hl⟩ j • k j) := by
          intro m' hm
          have e3 : ∑ j : Fin (n + 1), dt • (T.a ⟨regs.length, hl⟩ j • k j) =
              ∑ j : Fin (regs.length + m'), dt • (T.a ⟨regs.length, hl⟩ ⟨j.val, by omega⟩ • k ⟨j.val, by omega⟩) :=
            (Fintype.sum_equiv (finCongr hm) _ _ fun j => rfl).symm
          rw [e3, Fin.sum_univ_add]
          have hz : ∑ j : Fin m', dt • (T.a ⟨regs.length, hl⟩ ⟨(Fin.natAdd regs.length j).val, by omega⟩ •
              k ⟨(Fin.natAdd regs.length j).val, by omega⟩) = 0 := by
            refine Finset.sum_eq_zero fun j _ => ?_
            rw [hT _ _ (Fin.le_def.mpr (by simp)), zero_smul, smul_zero]
          rw [hz, add_zero]
          refine Finset.sum_congr rfl fun j _ => ?_
          have := h2 ⟨j.val, by omega⟩ j.isLt
          rw [List.getElem?_eq_getElem j.isLt, Option.some.injEq] at this
          rw [show regs[j] = regs[j.val] from rfl, this, smul_comm]
          congr 2
          exact ha ⟨regs.length, hl⟩ ⟨j.val, by omega⟩
        exact (e (m + 1) h1).symm
    unfold rkEvals
    simp only [odeRhs]
    rcases Nat.eq_or_lt_of_le hi with h | h
    · have : i = ⟨regs.length, hl⟩ := Fin.ext h.symm
      rw [this, hpt]
      exact List.mem_cons_self
    · refine List.mem_cons_of_mem _ (ih _ (by simp; omega) ?_ i (by simp; omega))
      intro j hj
      rw [List.length_append, List.length_singleton] at hj
      rcases Nat.lt_or_ge j.val regs.length with hlt | hge
      · rw [List.getElem?_append_left hlt]
        exact h2 j hlt
      · have : j = ⟨regs.length, hl⟩ := Fin.ext (by simp; omega)
        subst this
        simp only [List.getElem?_concat_length]
        rw [hk, hpt]

/-- Every stage other than the first is evaluated by the integrator. -/
theorem points_evaluated {env : SharpEnv K E} {f : K → E → E} {nu : K → E → K} (hs : Semidiscrete env f nu)
    {c : SharpCfg K} {n : Nat} {T : Tableau K n} (h : Selects c.integ n T) (idx : Int) (s : SharpState K E)
    (hf : s.dqDt = f s.t s.q) (k : Fin n → E)
    (hk : ∀ i, k i = f (stagePoint T s.dt s.t s.q k i).1 (stagePoint T s.dt s.t s.q k i).2) (i : Fin n) :
    stagePoint T s.dt s.t s.q k i = (s.t, s.q) ∨ stagePoint T s.dt s.t s.q k i ∈ stageEvals env c idx s := by
  have hp : (⟨fun dt t q => (env.dq dt t q).1, env.stage⟩ : SharpRhs K E) = odeRhs f := by
    unfold odeRhs
    congr 1
    · funext dt t q; exact hs.dq dt t q
    · funext t q; exact hs.stage t q
  unfold stageEvals
  rw [hp, hf]
  generalize hi : c.integ = I at h
  cases h with
  | euler => exact Or.inl (euler_points ..)
  | ssp22 => exact ssp22_points f s.dt s.t s.q k hk i
  | ssp33 => exact ssp33_points f s.dt s.t s.q k hk i
  | ssp104 => exact ssp104_points f s.dt s.t s.q k hk i
  | @rk n T hT a b cc ha hb hc =>
    have h0 : stagePoint T s.dt s.t s.q k 0 = (s.t, s.q) := by
      have hz : ∀ j, T.a 0 j = 0 := fun j => hT 0 j (Fin.zero_le j)
      simp [stagePoint, Tableau.c, hz]
    rcases Nat.eq_zero_or_pos i.val with hz | hz
    · exact Or.inl (by rw [show i = 0 from Fin.ext hz]; exact h0)
    · refine Or.inr (rk_points T hT a cc ha hc f s.dt s.t s.q k hk n [s.dt • f s.t s.q] (by simp; omega) ?_ i hz)
      intro j hj
      simp only [List.length_singleton] at hj
      have : j = 0 := Fin.ext (Nat.lt_one_iff.mp hj)
      subst this
      simp only [Fin.val_zero, List.getElem?_cons_zero]
      rw [hk 0, h0]

theorem le_foldl_max {α : Type*} (g : α → K) (l : List α) : ∀ x, x ≤ l.foldl (fun y e => max y (g e)) x ∧
    ∀ e ∈ l, g e ≤ l.foldl (fun y e => max y (g e)) x := by
  induction l with
  | nil => intro x; exact ⟨le_rfl, by simp⟩
  | cons a l ih =>
    intro x
    obtain ⟨h1, h2⟩ := ih (max x (g a))
    refine ⟨le_trans (le_max_left _ _) h1, fun e he => ?_⟩
    rcases List.mem_cons.mp he with rfl | he
    · exact le_trans (le_max_right _ _) h1
    · exact h2 e he

/-- The reported Courant number of the attempt `a` bounds those of all stages. -/
def StagesWithin {n : Nat} (T : Tableau K n) (env : SharpEnv K E) (f : K → E → E) (nu : K → E → K) (a : SharpTry K E) : Prop :=
  ∀ k : Fin n → E, let q := env.before a.tBefore a.qBefore
    (∀ i, k i = f (stagePoint T a.dt a.tBefore q k i).1 (stagePoint T a.dt a.tBefore q k i).2) →
    ∀ i, a.dt * nu (stagePoint T a.dt a.tBefore q k i).1 (stagePoint T a.dt a.tBefore q k i).2 ≤ a.cfl

theorem integrate_dt (env : SharpEnv K E) (c : SharpCfg K) (i : Int) (s : SharpState K E) :
    (integrate env c i s).1.dt = s.dt := by
  unfold integrate
  dsimp only
  repeat' split
  all_goals rfl

theorem sharpAttempt_dt (env : SharpEnv K E) (c : SharpCfg K) (σ ts : K) (te : Option K) (m : Nat) (s : SharpState K E) :
    (sharpAttempt env c σ ts te m s).1.dt = (sharpGetDt c ts te (prepare env c s).1).dt := by
  unfold sharpAttempt
  dsimp only
  split
  · rw [integrate_dt]
  · split
    · dsimp only; rw [integrate_dt]
    · split <;> (dsimp only; rw [integrate_dt])

theorem sharpTry_dt (env : SharpEnv K E) (c : SharpCfg K) (σ ts : K) (te : Option K) (m : Nat) (r : SharpRun K E) :
    (sharpTry env c σ ts te m r).1.st.dt = (sharpGetDt c ts te (prepare env c r.st).1).dt := by
  rw [← sharpAttempt_dt env c σ ts te m]
  unfold sharpTry
  dsimp only
  repeat' split
  all_goals rfl

theorem sharpGetDt_rest (c : SharpCfg K) (ts : K) (te : Option K) (s : SharpState K E) :
    (sharpGetDt c ts te s).t = s.t ∧ (sharpGetDt c ts te s).q = s.q ∧ (sharpGetDt c ts te s).dqDt = s.dqDt := by
  unfold sharpGetDt
  dsimp only
  repeat' split
  all_goals exact ⟨rfl, rfl, rfl⟩

theorem try_stages {n : Nat} {T : Tableau K n} {env : SharpEnv K E} {c : SharpCfg K} {f : K → E → E}
    {nu : K → E → K} (hs : Semidiscrete env f nu) (hT : Selects c.integ n T) (hv : c.dtVariable = true)
    (hd : 0 < c.cflDesired) (hdm : c.cflDesired ≤ c.cflMax) (hm : 0 < c.dtMax) {r : SharpRun K E}
    {s0 : SharpState K E} (hr : RkInv T env c f nu s0 r) (ts : K) (te : Option K) (hte : ∀ T, te = some T → r.st.t < T ∧ ts < T) (m : Nat) :
    ∃ st' cm a, sharpTry env c (stepCfl env c ts te r.st) ts te m r =
        (⟨st', r.maxSteps, cm, r.log ++ [a]⟩, .ok (decide (a.outcome = .accepted))) ∧
      RkInv T env c f nu s0 ⟨st', r.maxSteps, cm, r.log ++ [a]⟩ ∧ StagesWithin T env f nu a ∧
      (∀ T, te = some T → st'.t ≤ T) := by
  obtain ⟨st', cm, a, h1, h2, h3, h4, h5, h6, h7, h8, h9, h10, h11, -⟩ :=
    try_inv hs hT hv hd hdm hm hr (stepCfl env c ts te r.st) ts te hte m
  have hok := h2.ok a (by simp)
  refine ⟨st', cm, a, h1, h2, ?_, ?_⟩
  · have hl := selects_notLmm hT
    have hdt' := sharpTry_dt env c (stepCfl env c ts te r.st) ts te m r
    rw [h1] at hdt'
    have hadt : a.dt = (sharpGetDt c ts te (prepare env c r.st).1).dt := by rw [← h7]; exact hdt'
    set p := evalRhs env { r.st with q := env.before r.st.t r.st.q } with hp
    have hprep : prepare env c r.st = (p, r.st.numsteps + 1) := by
      simp only [prepare, hl]; rfl
    have hfp : p.dqDt = f r.st.t (env.before r.st.t r.st.q) := by
      by_cases ha : r.st.accept = true
      · simp only [hp, evalRhs, ha, if_true]
        rw [hs.dq, smul_smul, inv_mul_cancel₀ hr.dt_pos.ne', one_smul]
      · rcases hr.fresh with h | ⟨h, -⟩
        · exact absurd h ha
        · have : p = { r.st with q := env.before r.st.t r.st.q } := by
            simp only [hp, evalRhs]
            rw [if_neg ha]
          rw [this]
          exact h
    have hpt : p.t = r.st.t ∧ p.q = env.before r.st.t r.st.q := by
      simp only [hp, evalRhs]
      split <;> exact ⟨rfl, rfl⟩
    rw [hprep] at hadt
    obtain ⟨g1, g2, g3⟩ := sharpGetDt_rest c ts te p
    intro k q hk i
    have hcf : a.stageCfl ≤ a.cfl := hok.courant.2
    rw [h6] at hcf
    simp only [stepCfl, hprep] at hcf
    set s1 := sharpGetDt c ts te p with hs1
    set s2 : SharpState K E := { s1 with cfl := s1.dt / s1.dtOld.getD 0 * s1.cfl, dtOld := some s1.dt } with hs2
    have q2 : s2.t = a.tBefore := by rw [h4]; exact g1.trans hpt.1
    have q3 : s2.q = q := by
      show s1.q = env.before a.tBefore a.qBefore
      rw [h4, h5, g2, hpt.2]
    have q4 : s2.dt = a.dt := hadt.symm
    have q5 : s2.dqDt = f s2.t s2.q := by
      rw [q2, q3]
      show s1.dqDt = f a.tBefore (env.before a.tBefore a.qBefore)
      rw [h4, h5, g3, hfp]
    have hk' : ∀ i, k i = f (stagePoint T s2.dt s2.t s2.q k i).1 (stagePoint T s2.dt s2.t s2.q k i).2 := by
      rw [q2, q3, q4]; exact hk
    rcases points_evaluated hs hT (r.st.numsteps + 1) s2 q5 k hk' i with h | h
    · rw [q2, q3, q4] at h
      rw [h]
      exact hok.courant.1
    · have := (le_foldl_max (fun e : K × E => (env.dq s2.dt e.1 e.2).2) (stageEvals env c (r.st.numsteps + 1) s2) s2.cfl).2 _ h
      have h0 : 0 < s2.dt := by rw [q4]; exact hok.positive
      rw [hs.courant _ _ _ h0] at this
      rw [q2, q3, q4] at this
      refine le_trans this (le_trans (le_of_eq ?_) hcf)
      unfold stageMax
      rw [q4]
  · intro te' h
    show st'.t ≤ te'
    rw [h11]
    rcases hok.decided with ⟨h', -⟩ | ⟨h', -⟩
    · rw [(hok.accepted h').1]; exact hok.before_target te' (h3.trans h)
    · rw [(hok.rejected h').1, h4]; exact (hte te' h).1.le

theorem loopC_stages {n : Nat} {T : Tableau K n} {env : SharpEnv K E} {c : SharpCfg K} {f : K → E → E}
    {nu : K → E → K} (hs : Semidiscrete env f nu) (hT : Selects c.integ n T) (hv : c.dtVariable = true)
    (hd : 0 < c.cflDesired) (hdm : c.cflDesired ≤ c.cflMax) (hm : 0 < c.dtMax) {s0 : SharpState K E}
    (ts : K) (te : Option K) :
    ∀ (fuel m k : Nat) {r : SharpRun K E}, RkInv T env c f nu s0 r → (∀ a ∈ r.log, StagesWithin T env f nu a) →
      (∀ T, te = some T → r.st.t < T ∧ ts < T) →
    RkInv T env c f nu s0 (sharpLoopC env c ts te fuel m k r).1 ∧
      ∀ a ∈ (sharpLoopC env c ts te fuel m k r).1.log, StagesWithin T env f nu a := by
  intro fuel
  induction fuel with
  | zero => intro m k r hr hq _; exact ⟨hr, hq⟩
  | succ fuel ih =>
    intro m k r hr hq hte
    obtain ⟨st', cm, a, h1, h2, h3, h4⟩ := try_stages hs hT hv hd hdm hm hr ts te hte m
    have hq' : ∀ x ∈ r.log ++ [a], StagesWithin T env f nu x := by
      intro x hx
      rcases List.mem_append.mp hx with hx | hx
      · exact hq x hx
      · rw [List.mem_singleton.mp hx]; exact h3
    unfold sharpLoopC
    rw [h1]
    dsimp only
    cases te with
    | none => exact ⟨h2, hq'⟩
    | some te =>
      dsimp only
      by_cases hend : te ≤ st'.t
      · rw [if_pos hend]; exact ⟨h2, hq'⟩
      · rw [if_neg hend]
        exact ih _ _ h2 hq' (by rintro T ⟨rfl⟩; exact ⟨not_le.mp hend, (hte te rfl).2⟩)

theorem evolveC_stages [FloorRing K] {n : Nat} {T : Tableau K n} {env : SharpEnv K E} {c : SharpCfg K} {f : K → E → E}
    {nu : K → E → K} (hs : Semidiscrete env f nu) (hT : Selects c.integ n T) (hv : c.dtVariable = true)
    (hd : 0 < c.cflDesired) (hdm : c.cflDesired ≤ c.cflMax) (hm : 0 < c.dtMax) {s0 : SharpState K E}
    (te : Option K) {r : SharpRun K E} (hr : RkInv T env c f nu s0 r) (hq : ∀ a ∈ r.log, StagesWithin T env f nu a) :
    RkInv T env c f nu s0 (sharpEvolveC env c te r).1 ∧ ∀ a ∈ (sharpEvolveC env c te r).1.log, StagesWithin T env f nu a := by
  have hn : ¬ (c.cflMax < c.cflDesired) := not_lt.mpr hdm
  unfold sharpEvolveC
  simp only [hv, if_true, hn, and_false, if_false, true_and]
  cases te with
  | none =>
    have := loopC_stages hs hT hv hd hdm hm r.st.t none r.maxSteps.toNat 0 0 hr hq (by simp)
    dsimp only
    generalize sharpLoopC env c r.st.t none r.maxSteps.toNat 0 0 r = x at this
    obtain ⟨x1, x2⟩ := x
    cases x2 <;> exact this
  | some te =>
    dsimp only
    by_cases hle : te ≤ r.st.t
    · rw [if_pos hle]
      have hr' : RkInv T env c f nu s0 { r with maxSteps := 0 } := ⟨hr.1, hr.2, hr.3, hr.4, hr.5, hr.6, hr.7, hr.8, hr.9, hr.10⟩
      simp only [Int.toNat_zero, sharpLoopC, not_lt.mpr hle, false_and, if_false]
      exact ⟨hr', hq⟩
    · rw [if_neg hle]
      have := loopC_stages hs hT hv hd hdm hm r.st.t (some te) r.maxSteps.toNat 0 0 hr hq (by
        rintro T ⟨rfl⟩
        exact ⟨not_le.mp hle, not_le.mp hle⟩)
      generalize sharpLoopC env c r.st.t (some te) r.maxSteps.toNat 0 0 r = x at this
      obtain ⟨x1, x2⟩ := x
      cases x2 with
      | error e => exact this
      | ok k => dsimp only; split <;> exact this

theorem sessionC_stages [FloorRing K] {n : Nat} {T : Tableau K n} {env : SharpEnv K E} {c : SharpCfg K} {f : K → E → E}
    {nu : K → E → K} (hs : Semidiscrete env f nu) (hT : Selects c.integ n T) (hv : c.dtVariable = true)
    (hd : 0 < c.cflDesired) (hdm : c.cflDesired ≤ c.cflMax) (hm : 0 < c.dtMax) {s0 : SharpState K E} :
    ∀ (ks : List (SharpGoal K)) {r : SharpRun K E}, RkInv T env c f nu s0 r → (∀ a ∈ r.log, StagesWithin T env f nu a) →
      RkInv T env c f nu s0 (sharpSessionC env c ks r).1 ∧
      ∀ a ∈ (sharpSessionC env c ks r).1.log, StagesWithin T env f nu a := by
  intro ks
  induction ks with
  | nil => intro r hr hq; exact ⟨hr, hq⟩
  | cons k ks ih =>
    intro r hr hq
    have hr' : RkInv T env c f nu s0 { r with maxSteps := k.maxSteps } :=
      ⟨hr.1, hr.2, hr.3, hr.4, hr.5, hr.6, hr.7, hr.8, hr.9, hr.10⟩
    obtain ⟨h1, h2⟩ := evolveC_stages hs hT hv hd hdm hm k.tend hr' hq
    exact ih h1 h2

end PyClaw
