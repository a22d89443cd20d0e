import Verif.Spec.SharpTime
import Verif.Lemmas.SharpLMM
import Verif.Spec.Evolve
import Verif.Props.SharpRK
import Mathlib.Data.List.Chain
import Mathlib.Tactic.FieldSimp
import Mathlib.Tactic.Positivity

/-!
Invariant of SharpClaw runs with Runge-Kutta methods and variable time step.
-/
set_option linter.unusedSectionVars false
namespace PyClaw
open Spec

variable {K E : Type*} [Field K] [LinearOrder K] [IsStrictOrderedRing K] [AddCommGroup E] [Module K E]

theorem selects_notLmm {i : Integrator K} {n : Nat} {T : Tableau K n} (h : Selects i n T) : i.isLmm = false := by
  cases h <;> rfl

/-- The integrators are the methods they are named after. -/
theorem integrate_selected {env : SharpEnv K E} {f : K → E → E} {nu : K → E → K} (hs : Semidiscrete env f nu)
    {c : SharpCfg K} {n : Nat} {T : Tableau K n} (h : Selects c.integ n T) (i : Int) (s : SharpState K E)
    (hf : s.dqDt = f s.t s.q) :
    ∃ q' regs, integrate env c i s = ({ s with q := q', regs := regs }, .ok ()) ∧ T.Step f s.dt s.t s.q q' := by
  have hp : (⟨fun dt t q => (env.dq dt t q).1, env.stage⟩ : SharpRhs K E) = odeRhs f := by
    unfold odeRhs
    congr 1
    · funext dt t q; exact hs.dq dt t q
    · funext t q; exact hs.stage t q
  unfold integrate
  rw [hp, hf]
  generalize hi : c.integ = I at h
  cases h with
  | euler => exact ⟨_, _, rfl, euler_step f s.dt s.t s.q⟩
  | ssp22 => exact ⟨_, _, rfl, ssp22_step f s.dt s.t s.q⟩
  | ssp33 => exact ⟨_, _, rfl, ssp33_step f s.dt s.t s.q⟩
  | ssp104 => exact ⟨_, _, rfl, ssp104_step f s.dt s.t s.q⟩
  | rk T hT a b cc ha hb hc => exact ⟨_, _, rfl, rk_step T hT a b cc ha hb hc f s.dt s.t s.q⟩

/-- The size wanted before it is cut to the target. -/
def wantedDt (c : SharpCfg K) (s : SharpState K E) : K :=
  if s.dtOld.isSome = true then (if 0 < s.cfl then s.dt * c.cflDesired / s.cfl else c.dtMax) else s.dt

theorem sharpDtNew_rk (c : SharpCfg K) (hl : c.integ.isLmm = false) (s : SharpState K E) :
    sharpDtNew c s = s.dt * c.cflDesired / s.cfl := by
  unfold sharpDtNew
  cases hi : c.integ <;> simp_all [Integrator.isLmm]

theorem clipDt_sized (t ts te x : K) (hts : ts < te) :
    SizedTo (some te) t x (clipDt id landEps t ts te x) := by
  unfold SizedTo clipDt landEps
  simp only [id]
  by_cases h1 : te < t + x
  · have e : (if te < t + x ∧ ts < te then te - t else x) = te - t := if_pos ⟨h1, hts⟩
    rw [e]
    simp only [ite_self]
    exact Or.inr ⟨trivial, Or.inl h1⟩
  · have e : (if te < t + x ∧ ts < te then te - t else x) = x := if_neg fun h => h1 h.1
    rw [e]
    by_cases h2 : te - t - x < 1 / 10 ^ 14 * t
    · rw [if_pos h2]; exact Or.inr ⟨rfl, Or.inr h2⟩
    · rw [if_neg h2]; exact Or.inl ⟨rfl, not_lt.mp h1⟩

theorem sizedTo_pos {target : Option K} {t x d : K} (h : SizedTo target t x d) (hx : 0 < x)
    (ht : ∀ te, target = some te → t < te) : 0 < d := by
  cases target with
  | none => simp only [SizedTo] at h; rw [h]; exact hx
  | some T =>
    rcases h with ⟨h, -⟩ | ⟨h, -⟩
    · rw [h]; exact hx
    · rw [h]; have := ht T rfl; linarith

theorem sizedTo_le {te t x d : K} (h : SizedTo (some te) t x d) : t + d ≤ te := by
  rcases h with ⟨h, h'⟩ | ⟨h, -⟩
  · rw [h]; exact h'
  · rw [h]; linarith

/-- The step size chosen and the rescaled Courant number. -/
theorem sharpGetDt_rk (c : SharpCfg K) (hl : c.integ.isLmm = false) (hv : c.dtVariable = true) (ts : K)
    (te : Option K) (hts : ∀ T, te = some T → ts < T) (s : SharpState K E) (h0 : 0 ≤ s.cfl) :
    ∃ d o, sharpGetDt c ts te s = { s with dt := d, dtOld := o } ∧ SizedTo te s.t (wantedDt c s) d ∧
      d / o.getD 0 * s.cfl = d / s.dt * s.cfl := by
  unfold sharpGetDt wantedDt
  simp only [hv, true_and, sharpDtNew_rk c hl]
  by_cases ho : s.dtOld.isSome = true
  · simp only [ho, if_true]
    by_cases hc : 0 < s.cfl
    · simp only [hc, if_true]
      cases te with
      | none => exact ⟨_, _, rfl, rfl, rfl⟩
      | some T => exact ⟨_, _, rfl, clipDt_sized s.t ts T _ (hts T rfl), rfl⟩
    · have hz : s.cfl = 0 := le_antisymm (not_lt.mp hc) h0
      simp only [hc, if_false]
      cases te with
      | none => exact ⟨_, s.dtOld, rfl, rfl, by rw [hz]; simp⟩
      | some T => exact ⟨_, s.dtOld, rfl, clipDt_sized s.t ts T _ (hts T rfl), by rw [hz]; simp⟩
  · simp only [ho]
    cases te with
    | none => exact ⟨s.dt, some s.dt, rfl, rfl, rfl⟩
    | some T => exact ⟨_, some s.dt, rfl, clipDt_sized s.t ts T _ (hts T rfl), rfl⟩

/-- Between two attempts. -/
structure RkInv {n : Nat} (T : Tableau K n) (env : SharpEnv K E) (c : SharpCfg K) (f : K → E → E) (nu : K → E → K)
    (s0 : SharpState K E) (r : SharpRun K E) : Prop where
  dt_pos : 0 < r.st.dt
  fresh : r.st.accept = true ∨ (r.st.dqDt = f r.st.t (env.before r.st.t r.st.q) ∧
    r.st.dt * nu r.st.t (env.before r.st.t r.st.q) ≤ r.st.cfl ∧ c.cflMax < r.st.cfl)
  old : r.log ≠ [] → r.st.dtOld.isSome = true
  last : ∀ a, r.log.getLast? = some a → a.tAfter = r.st.t ∧ a.qAfter = r.st.q ∧
    ((a.outcome = .accepted ∧ r.st.accept = true) ∨
     (a.outcome = .rejected ∧ r.st.accept = false ∧ r.st.dt = a.dt ∧ r.st.cfl = a.cfl))
  chain : r.log.IsChain (fun a b => Follows a b ∧ SizeRule env c nu a b)
  ok : ∀ a ∈ r.log, StepOk T env c f nu a
  steps : r.st.numsteps = s0.numsteps + (r.log.filter fun a => a.outcome = .accepted).length
  start : r.log = [] → r.st = s0
  first : ∀ a, r.log.head? = some a → a.tBefore = s0.t ∧ a.qBefore = s0.q ∧
    (s0.dtOld = none → SizedTo a.target s0.t s0.dt a.dt)
  maxc : IsMaximum r.cflmax ((r.log.filter fun a => a.outcome = .accepted).map fun a => a.cfl)

theorem isMaximum_append {m : Option K} {l : List K} (h : IsMaximum m l) (x : K) :
    IsMaximum (maxOpt x m) (l ++ [x]) := by
  cases m with
  | none =>
    simp only [IsMaximum] at h
    subst h
    simp [maxOpt, IsMaximum]
  | some y =>
    obtain ⟨h1, h2⟩ := h
    simp only [maxOpt, IsMaximum]
    refine ⟨?_, ?_⟩
    · rcases max_choice x y with h | h <;> rw [h] <;> simp [h1]
    · intro z hz
      rcases List.mem_append.mp hz with hz | hz
      · exact le_trans (h2 z hz) (le_max_right _ _)
      · simp only [List.mem_singleton] at hz
        rw [hz]; exact le_max_left _ _

theorem isChain_append_last {α : Type*} {R : α → α → Prop} {l : List α} {b : α} (h : l.IsChain R)
    (hb : ∀ a, l.getLast? = some a → R a b) : (l ++ [b]).IsChain R := by
  rw [List.isChain_append]
  refine ⟨h, by simp, fun x hx y hy => ?_⟩
  simp only [List.head?_cons, Option.mem_def, Option.some.injEq] at hy
  subst hy
  exact hb x hx

theorem try_inv {n : Nat} {T : Tableau K n} {env : SharpEnv K E} {c : SharpCfg K} {f : K → E → E}
    {nu : K → E → K} (hs : Semidiscrete env f nu) (hT : Selects c.integ n T) (hv : c.dtVariable = true)
    (hd : 0 < c.cflDesired) (hdm : c.cflDesired ≤ c.cflMax) (hm : 0 < c.dtMax) {r : SharpRun K E}
    {s0 : SharpState K E} (hr : RkInv T env c f nu s0 r) (σ ts : K) (te : Option K) (hte : ∀ T, te = some T → r.st.t < T ∧ ts < T) (m : Nat) :
    ∃ st' cm a, sharpTry env c σ ts te m r =
        (⟨st', r.maxSteps, cm, r.log ++ [a]⟩, .ok (decide (a.outcome = .accepted))) ∧
      RkInv T env c f nu s0 ⟨st', r.maxSteps, cm, r.log ++ [a]⟩ ∧
      a.target = te ∧ a.tBefore = r.st.t ∧ a.qBefore = r.st.q ∧ a.stageCfl = σ ∧
      st'.dt = a.dt ∧ st'.cfl = a.cfl ∧ st'.dtOld = some a.dt ∧ st'.accept = decide (a.outcome = .accepted) ∧
      st'.t = a.tAfter ∧
      (r.st.dtOld = none → SizedTo te r.st.t r.st.dt a.dt) ∧
      (r.st.dtOld.isSome = true → r.st.accept = true →
        SizedTo te r.st.t (if nu r.st.t (env.before r.st.t r.st.q) = 0 then c.dtMax
          else c.cflDesired / nu r.st.t (env.before r.st.t r.st.q)) a.dt) ∧
      (r.st.dtOld.isSome = true → r.st.accept = false →
        SizedTo te r.st.t (r.st.dt * c.cflDesired / r.st.cfl) a.dt) ∧
      (r.st.accept = true → a.cfl = max (a.dt * nu r.st.t (env.before r.st.t r.st.q)) σ) ∧
      (r.st.accept = false → a.cfl = max (a.dt / r.st.dt * r.st.cfl) σ) := by
  have hl := selects_notLmm hT
  have hdt := hr.dt_pos
  -- the state before the step size is chosen
  set p := evalRhs env { r.st with q := env.before r.st.t r.st.q } with hp
  have hprep : prepare env c r.st = (p, r.st.numsteps + 1) := by
    simp only [prepare, hl]; rfl
  obtain ⟨e1, e2, e3, e4, e5, e6, e7, e8, e9, e10⟩ :=
    evalRhs_fields env { r.st with q := env.before r.st.t r.st.q }
  rw [← hp] at e1 e2 e3 e4 e5 e6 e7 e8 e9 e10
  simp only at e1 e2 e3 e4 e5 e6 e7 e8 e9 e10
  set q0 := env.before r.st.t r.st.q with hq0
  have hnu := hs.nonneg r.st.t q0
  have hfresh : p.dqDt = f r.st.t q0 ∧ r.st.dt * nu r.st.t q0 ≤ p.cfl ∧
      (r.st.accept = true → p.cfl = r.st.dt * nu r.st.t q0) ∧ (r.st.accept = false → p.cfl = r.st.cfl ∧ c.cflMax < p.cfl) := by
    by_cases ha : r.st.accept = true
    · have hc : p.cfl = r.st.dt * nu r.st.t q0 := by
        simp only [hp, evalRhs, ha, if_true]
        rw [hs.courant _ _ _ hdt]
        exact max_eq_right (mul_nonneg hdt.le hnu)
      refine ⟨?_, hc.ge, fun _ => hc, fun h => by simp [ha] at h⟩
      simp only [hp, evalRhs, ha, if_true]
      rw [hs.dq, smul_smul, inv_mul_cancel₀ hdt.ne', one_smul]
    · rcases hr.fresh with h | ⟨h1, h2, h3⟩
      · exact absurd h ha
      · have : p = { r.st with q := q0 } := by
          simp only [hp, evalRhs]
          rw [if_neg ha]
        rw [this]
        exact ⟨h1, h2, fun h => absurd h ha, fun _ => ⟨rfl, h3⟩⟩
  obtain ⟨hf1, hf2, hf3, hf4⟩ := hfresh
  have hp0 : 0 ≤ p.cfl := le_trans (mul_nonneg hdt.le hnu) hf2
  obtain ⟨d, o, hg, hsz, hresc⟩ := sharpGetDt_rk c hl hv ts te (fun T h => (hte T h).2) p hp0
  rw [e2] at hsz
  rw [e9] at hresc
  have hw : 0 < wantedDt c p := by
    unfold wantedDt
    split
    · split
      · rename_i h; rw [e9]; positivity
      · exact hm
    · rw [e9]; exact hdt
  have hdpos : 0 < d := sizedTo_pos hsz hw fun T h => (hte T h).1
  obtain ⟨q', regs, hint, hstep⟩ := integrate_selected hs hT (r.st.numsteps + 1)
    { p with dt := d, cfl := d / r.st.dt * p.cfl, dtOld := some d } (by
      simp only [hf1, e1, e2])
  simp only [e1, e2] at hstep
  set cf := max (d / r.st.dt * p.cfl) σ with hcf
  have hcour : d * nu r.st.t q0 ≤ cf := by
    refine le_trans ?_ (le_max_left _ _)
    calc d * nu r.st.t q0 = d / r.st.dt * (r.st.dt * nu r.st.t q0) := by field_simp
      _ ≤ d / r.st.dt * p.cfl := mul_le_mul_of_nonneg_left hf2 (by positivity)
  have hatt : sharpAttempt env c σ ts te m r.st =
      if c.cflMax < cf then
        ({ p with dt := d, cfl := cf, dtOld := some d, q := r.st.q, regs := regs, accept := false, t := r.st.t }, .ok false)
      else
        ({ p with dt := d, cfl := cf, dtOld := some d, q := q', regs := regs, accept := true, t := r.st.t + d,
                  numsteps := r.st.numsteps + 1 }, .ok true) := by
    unfold sharpAttempt
    simp only [hprep, hg, hresc, hint, sharpAccepts, hl, hv, if_true, ← hcf]
    by_cases hh : c.cflMax < cf
    · simp [hh]
    · simp [hh, e2, e7]
  have hsz0 : r.st.dtOld = none → SizedTo te r.st.t r.st.dt d := by
    intro ho
    unfold wantedDt at hsz
    rw [e10, ho] at hsz
    simpa [e9] using hsz
  have hsz1 : r.st.dtOld.isSome = true → r.st.accept = true →
      SizedTo te r.st.t (if nu r.st.t q0 = 0 then c.dtMax else c.cflDesired / nu r.st.t q0) d := by
    intro hold l4
    unfold wantedDt at hsz
    rw [e10, if_pos hold, e9] at hsz
    rw [hf3 l4] at hsz
    by_cases hz : nu r.st.t q0 = 0
    · rw [if_pos hz]
      simpa [hz] using hsz
    · rw [if_neg hz]
      have hpos : 0 < nu r.st.t q0 := lt_of_le_of_ne hnu (Ne.symm hz)
      rw [if_pos (mul_pos hdt hpos)] at hsz
      have : r.st.dt * c.cflDesired / (r.st.dt * nu r.st.t q0) = c.cflDesired / nu r.st.t q0 := by
        field_simp
      rwa [this] at hsz
  have hsz2 : r.st.dtOld.isSome = true → r.st.accept = false →
      SizedTo te r.st.t (r.st.dt * c.cflDesired / r.st.cfl) d := by
    intro hold l4
    unfold wantedDt at hsz
    rw [e10, if_pos hold, e9] at hsz
    obtain ⟨h5, h6⟩ := hf4 l4
    have h7 : 0 < p.cfl := lt_of_lt_of_le (lt_of_lt_of_le hd hdm) h6.le
    rw [if_pos h7, h5] at hsz
    exact hsz
  have hc1 : r.st.accept = true → cf = max (d * nu r.st.t q0) σ := by
    intro h
    rw [hcf, hf3 h]
    congr 1
    field_simp
  have hc2 : r.st.accept = false → cf = max (d / r.st.dt * r.st.cfl) σ := by
    intro h
    rw [hcf, (hf4 h).1]
  have hsize : ∀ a, r.log.getLast? = some a → ∀ b : SharpTry K E, b.target = te → b.tBefore = r.st.t → b.qBefore = r.st.q →
      b.dt = d → Follows a b ∧ SizeRule env c nu a b := by
    intro a hla b h1 h2 h3 h4
    obtain ⟨l1, l2, l3⟩ := hr.last a hla
    have hne : r.log ≠ [] := by rintro h; simp [h] at hla
    have hold := hr.old hne
    refine ⟨⟨by rw [h2, l1], by rw [h3, l2]⟩, ?_⟩
    unfold SizeRule
    simp only [h1, h2, h3, h4, ← hq0]
    rcases l3 with ⟨l3, l4⟩ | ⟨l3, l4, l5, l6⟩
    · exact ⟨fun _ => hsz1 hold l4, fun h => by rw [l3] at h; cases h⟩
    · refine ⟨(fun h => by rw [l3] at h; cases h), fun _ => ?_⟩
      have := hsz2 hold l4
      rwa [l5, l6] at this
  have hfirst : ∀ b : SharpTry K E, b.target = te → b.tBefore = r.st.t → b.qBefore = r.st.q → b.dt = d →
      ∀ a, (r.log ++ [b]).head? = some a → a.tBefore = s0.t ∧ a.qBefore = s0.q ∧
        (s0.dtOld = none → SizedTo a.target s0.t s0.dt a.dt) := by
    intro b h1 h2 h3 h4 a ha
    cases hlog : r.log with
    | nil =>
      rw [hlog] at ha
      simp only [List.nil_append, List.head?_cons, Option.some.injEq] at ha
      subst ha
      have := hr.start hlog
      rw [← this, h1, h2, h3, h4]
      exact ⟨rfl, rfl, hsz0⟩
    | cons x l =>
      rw [hlog] at ha
      exact hr.first a (by rw [hlog]; exact ha)
  unfold sharpTry
  rw [hatt]
  by_cases hh : c.cflMax < cf
  · rw [if_pos hh]
    refine ⟨_, _, _, rfl, ?_, rfl, rfl, rfl, rfl, rfl, rfl, rfl, rfl, rfl, hsz0, hsz1, hsz2, hc1, hc2⟩
    constructor
    · exact hdpos
    · right
      simp only [← hq0]
      exact ⟨hf1, hcour, hh⟩
    · intro _; rfl
    · intro a ha
      simp only [List.getLast?_append, List.getLast?_singleton, Option.some_or, Option.some.injEq] at ha
      subst ha
      exact ⟨rfl, rfl, Or.inr ⟨rfl, rfl, rfl, rfl⟩⟩
    · exact isChain_append_last hr.chain fun a ha => hsize a ha _ rfl rfl rfl rfl
    · intro a ha
      rcases List.mem_append.mp ha with ha | ha
      · exact hr.ok a ha
      · simp only [List.mem_singleton] at ha
        subst ha
        refine ⟨hdpos, ?_, ⟨hcour, le_max_right _ _⟩, Or.inr ⟨rfl, hh⟩, (fun h => by cases h), fun _ => ⟨rfl, rfl⟩⟩
        intro T h
        subst h
        exact sizedTo_le hsz
    · simpa [e7] using hr.steps
    · simp
    · exact hfirst _ rfl rfl rfl rfl
    · simpa using hr.maxc
  · rw [if_neg hh]
    refine ⟨_, _, _, rfl, ?_, rfl, rfl, rfl, rfl, rfl, rfl, rfl, rfl, rfl, hsz0, hsz1, hsz2, hc1, hc2⟩
    constructor
    · exact hdpos
    · left; rfl
    · intro _; rfl
    · intro a ha
      simp only [List.getLast?_append, List.getLast?_singleton, Option.some_or, Option.some.injEq] at ha
      subst ha
      exact ⟨rfl, rfl, Or.inl ⟨rfl, rfl⟩⟩
    · exact isChain_append_last hr.chain fun a ha => hsize a ha _ rfl rfl rfl rfl
    · intro a ha
      rcases List.mem_append.mp ha with ha | ha
      · exact hr.ok a ha
      · simp only [List.mem_singleton] at ha
        subst ha
        refine ⟨hdpos, ?_, ⟨hcour, le_max_right _ _⟩, Or.inl ⟨rfl, not_lt.mp hh⟩, fun _ => ⟨rfl, hstep⟩, fun h => by cases h⟩
        intro T h
        subst h
        exact sizedTo_le hsz
    · have := hr.steps
      simp [this, add_assoc]
    · simp
    · exact hfirst _ rfl rfl rfl rfl
    · simpa using isMaximum_append hr.maxc cf

/-- Number of accepted steps. -/
def acceptedIn (l : List (SharpTry K E)) : Nat := (l.filter fun a => a.outcome = .accepted).length

theorem loop_inv {n : Nat} {T : Tableau K n} {env : SharpEnv K E} {c : SharpCfg K} {f : K → E → E}
    {nu : K → E → K} (hs : Semidiscrete env f nu) (hT : Selects c.integ n T) (hv : c.dtVariable = true)
    (hd : 0 < c.cflDesired) (hdm : c.cflDesired ≤ c.cflMax) (hm : 0 < c.dtMax) {s0 : SharpState K E}
    (σ : Nat → K) (ts : K) (te : Option K) :
    ∀ (fuel m k : Nat) {r : SharpRun K E}, RkInv T env c f nu s0 r →
      (∀ T, te = some T → r.st.t < T ∧ ts < T) →
    ∃ r' new, sharpLoop env c σ ts te fuel m k r = (r', .ok (k + acceptedIn new)) ∧ RkInv T env c f nu s0 r' ∧
      r'.log = r.log ++ new ∧ r'.maxSteps = r.maxSteps ∧ new.length ≤ fuel ∧ (∀ a ∈ new, a.target = te) ∧
      (te = none → new.length = min 1 fuel) ∧
      (∀ T, te = some T → r'.st.t = T ∨ (r'.st.t < T ∧ new.length = fuel)) := by
  intro fuel
  induction fuel with
  | zero =>
    intro m k r hr hte
    exact ⟨r, [], rfl, hr, by simp, rfl, by simp, by simp, fun _ => rfl, fun T h => Or.inr ⟨(hte T h).1, rfl⟩⟩
  | succ fuel ih =>
    intro m k r hr hte
    obtain ⟨st', cm, a, h1, h2, h3, h4, h5, h6, h7, h8, h9, h10, h11, -⟩ :=
      try_inv hs hT hv hd hdm hm hr (σ m) ts te hte m
    have hok := h2.ok a (by simp)
    have hk : (if decide (a.outcome = .accepted) = true then k + 1 else k) = k + acceptedIn [a] := by
      unfold acceptedIn
      by_cases h : a.outcome = .accepted <;> simp [h]
    unfold sharpLoop
    rw [h1]
    simp only [hk]
    cases te with
    | none =>
      exact ⟨_, [a], rfl, h2, rfl, rfl, by simp, by simpa using h3, fun _ => by simp, fun T h => by cases h⟩
    | some te =>
      have hle : st'.t ≤ te := by
        rw [h11]
        rcases hok.decided with ⟨h, -⟩ | ⟨h, -⟩
        · rw [(hok.accepted h).1]; exact hok.before_target te h3
        · rw [(hok.rejected h).1, h4]; exact (hte te rfl).1.le
      by_cases hend : te ≤ st'.t
      · simp only [hend, if_true]
        refine ⟨_, [a], rfl, h2, rfl, rfl, by simp, by simpa using h3, (fun h => by cases h), fun T h => Or.inl ?_⟩
        cases h
        exact le_antisymm hle hend
      · simp only [hend, if_false]
        obtain ⟨r', new, i1, i2, i3, i4, i5, i6, -, i8⟩ := ih (m + 1) (k + acceptedIn [a]) h2 (by
          rintro T ⟨rfl⟩
          exact ⟨not_le.mp hend, (hte te rfl).2⟩)
        refine ⟨r', a :: new, ?_, i2, by simp [i3], i4, by simp [i5], ?_, (fun h => by cases h), fun T h => ?_⟩
        · rw [i1, add_assoc]
          congr 3
          unfold acceptedIn
          rw [← List.length_append, ← List.filter_append]
          rfl
        · intro x hx
          rcases List.mem_cons.mp hx with hx | hx
          · rw [hx]; exact h3
          · exact i6 x hx
        · rcases i8 T h with h | ⟨h, h'⟩
          · exact Or.inl h
          · exact Or.inr ⟨h, by simp [h']⟩

theorem evolve_inv [FloorRing K] {n : Nat} {T : Tableau K n} {env : SharpEnv K E} {c : SharpCfg K} {f : K → E → E}
    {nu : K → E → K} (hs : Semidiscrete env f nu) (hT : Selects c.integ n T) (hv : c.dtVariable = true)
    (hd : 0 < c.cflDesired) (hdm : c.cflDesired ≤ c.cflMax) (hm : 0 < c.dtMax) {s0 : SharpState K E}
    (σ : Nat → K) (te : Option K) {r : SharpRun K E} (hr : RkInv T env c f nu s0 r) :
    ∃ r' new, (sharpEvolveToTime env c σ te r).1 = r' ∧ RkInv T env c f nu s0 r' ∧ r'.log = r.log ++ new ∧
      (∀ a ∈ new, a.target = te) ∧ new.length ≤ r.maxSteps.toNat ∧
      (te = none → (sharpEvolveToTime env c σ te r).2 = .ok () ∧ new.length = min 1 r.maxSteps.toNat) ∧
      (∀ T, te = some T →
        (T ≤ r.st.t → new = [] ∧ r'.st = r.st ∧ (sharpEvolveToTime env c σ te r).2 = .ok ()) ∧
        (r.st.t < T →
          (r'.st.t = T ∧ (sharpEvolveToTime env c σ te r).2 = .ok ()) ∨
          (r'.st.t < T ∧ new.length = r.maxSteps.toNat ∧
            (sharpEvolveToTime env c σ te r).2 =
              if (acceptedIn new : Int) = r.maxSteps then
                .error (.exception "Maximum number of timesteps have been taken") else .ok ()))) := by
  have hn : ¬ (c.cflMax < c.cflDesired) := not_lt.mpr hdm
  unfold sharpEvolveToTime
  simp only [hv, if_true, hn, and_false, if_false, true_and]
  cases te with
  | none =>
    obtain ⟨r', new, h1, h2, h3, h4, h5, h6, h7, -⟩ :=
      loop_inv hs hT hv hd hdm hm σ r.st.t none r.maxSteps.toNat 0 0 hr (by simp)
    simp only [h1]
    exact ⟨r', new, rfl, h2, h3, h6, h5, fun _ => ⟨trivial, h7 rfl⟩, fun T h => by cases h⟩
  | some te =>
    by_cases hle : te ≤ r.st.t
    · simp only [hle, if_true]
      have hr' : RkInv T env c f nu s0 { r with maxSteps := 0 } := ⟨hr.1, hr.2, hr.3, hr.4, hr.5, hr.6, hr.7, hr.8, hr.9, hr.10⟩
      refine ⟨_, [], rfl, ?_⟩
      simp only [Int.toNat_zero, sharpLoop, not_lt.mpr hle, false_and, if_false]
      refine ⟨hr', by simp, by simp, by simp, (fun h => by cases h), ?_⟩
      rintro T ⟨rfl⟩
      exact ⟨fun _ => ⟨trivial, trivial, trivial⟩, fun h => absurd hle (not_le.mpr h)⟩
    · simp only [hle, if_false]
      obtain ⟨r', new, h1, h2, h3, h4, h5, h6, -, h8⟩ :=
        loop_inv hs hT hv hd hdm hm σ r.st.t (some te) r.maxSteps.toNat 0 0 hr (by
          rintro T ⟨rfl⟩
          exact ⟨not_le.mp hle, not_le.mp hle⟩)
      simp only [h1, Nat.zero_add, h4]
      refine ⟨r', new, ?_, h2, h3, h6, h5, (fun h => by cases h), ?_⟩
      · split <;> rfl
      · rintro T ⟨rfl⟩
        refine ⟨fun h => absurd h hle, fun _ => ?_⟩
        rcases h8 te rfl with h | ⟨h, h'⟩
        · left
          refine ⟨h, ?_⟩
          simp only [h, lt_irrefl, false_and, if_false]
        · right
          refine ⟨h, h', ?_⟩
          simp only [h, true_and]
          split <;> rfl

theorem session_inv [FloorRing K] {n : Nat} {T : Tableau K n} {env : SharpEnv K E} {c : SharpCfg K} {f : K → E → E}
    {nu : K → E → K} (hs : Semidiscrete env f nu) (hT : Selects c.integ n T) (hv : c.dtVariable = true)
    (hd : 0 < c.cflDesired) (hdm : c.cflDesired ≤ c.cflMax) (hm : 0 < c.dtMax) {s0 : SharpState K E} :
    ∀ (ks : List (SharpCall K)) {r : SharpRun K E}, RkInv T env c f nu s0 r →
      RkInv T env c f nu s0 (sharpSession env c ks r) := by
  intro ks
  induction ks with
  | nil => intro r hr; exact hr
  | cons k ks ih =>
    intro r hr
    have hr' : RkInv T env c f nu s0 { r with maxSteps := k.maxSteps } :=
      ⟨hr.1, hr.2, hr.3, hr.4, hr.5, hr.6, hr.7, hr.8, hr.9, hr.10⟩
    obtain ⟨r', -, h1, h2, -⟩ := evolve_inv hs hT hv hd hdm hm k.stages k.tend hr'
    unfold sharpSession
    rw [h1]
    exact ih h2

end PyClaw
