import Verif.Props.SharpHistory
import Verif.Lemmas.SharpSteps

/-!
C50 for whole runs: step sizes and strong stability of the multistep methods as the solver uses them.
-/
set_option linter.unusedSectionVars false

namespace PyClaw
open Spec

variable {K E : Type*} [Field K] [LinearOrder K] [IsStrictOrderedRing K] [AddCommGroup E] [Module K E]

/-- What the preparation leaves alone after an accepted step. -/
theorem prepare_dt {env : SharpEnv K E} {c : SharpCfg K} {f : K → E → E} {nu : K → E → K} (hl : c.integ.isLmm = true)
    (hlin : LinearInDt env f nu) {s : SharpState K E} (hdt : 0 < s.dt) (hacc : s.accept = true) :
    (prepare env c s).1.dt = s.dt ∧ (prepare env c s).1.dtOld = s.dtOld ∧
    (prepare env c s).1.cfl = s.dt * nu s.t (env.before s.t s.q) ∧
    (¬ discards env c s → (prepare env c s).1.accept = true) ∧
    (discards env c s → (prepare env c s).1.accept = false) := by
  unfold discards
  rw [prepare_lmm hl]
  obtain ⟨-, -, -, -, -, -, e7, e8, e9, e10⟩ := evalRhs_fields env { s with q := env.before s.t s.q }
  obtain ⟨-, hcfl, -⟩ := evalRhs_accept hlin c { s with q := env.before s.t s.q } hdt hacc
  generalize evalRhs env { s with q := env.before s.t s.q } = s1 at *
  simp only at e7 e8 e9 e10 hcfl
  by_cases hp : s1.prevDt = []
  · rw [updateSaved_first _ _ _ hp]
    split <;> exact ⟨e9, e10, hcfl, fun _ => e8.trans hacc, fun h => by simp [e7] at h⟩
  · rcases updateSaved_accepted c s1 (s.numsteps + 1) hp (e8.trans hacc) with ⟨-, b, hb⟩ | ⟨-, -, -, hb⟩
    · rw [hb]
      obtain ⟨-, -, -, r4, r5, r6, r7, r8⟩ :=
        rollSaved_fields c { s1 with lmmCond := b } (s.numsteps + 1) (dtForwardEuler c s1)
      simp only at r4 r5 r6 r7 r8
      refine ⟨r6.trans e9, r8.trans e10, r7.trans hcfl, fun _ => r5.trans (e8.trans hacc), fun h => ?_⟩
      dsimp only at h
      rw [r4, e7] at h
      exact absurd h (lt_irrefl _)
    · rw [hb]
      exact ⟨e9, e10, hcfl, fun h => absurd (by simp [e7]) h, fun _ => rfl⟩

/-- The landing clause of `get_dt` does not lengthen the step (it can do so by a rounding-size amount). -/
def Unstretched (env : SharpEnv K E) (c : SharpCfg K) (ts : K) (te : Option K) (s : SharpState K E) : Prop :=
  (sharpGetDt c ts te (prepare env c s).1).dt ≤ (sharpGetDt c ts none (prepare env c s).1).dt

/-- The settings for strong stability: positive Courant numbers, SSP coefficient and wave speeds. -/
structure SspSetup (c : SharpCfg K) (nu : K → E → K) : Prop where
  ssp : c.integ.isSspLmm = true
  variable_dt : c.dtVariable = true
  cflMax : 0 < c.cflMax
  coeff : 0 < c.sspcoeff
  speed : ∀ t q, 0 < nu t q

theorem SspSetup.fe_pos {c : SharpCfg K} {nu : K → E → K} (h : SspSetup c nu) (t : K) (q : E) :
    0 < feSize c nu t q := by
  have h1 := h.cflMax
  have h2 := h.coeff
  have h3 := h.speed t q
  unfold feSize
  positivity

theorem run_dt {env : SharpEnv K E} {c : SharpCfg K} {P : K → Option K → SharpState K E → Prop} {s0 : SharpState K E}
    {h : List (StepRec K E)} {s : SharpState K E} (hr : LmmRun env c P s0 h s) (hacc : s.accept = true)
    {h0 : List (StepRec K E)} {r : StepRec K E} (e : h = h0 ++ [r]) : s.dt = r.dt := by
  cases hr with
  | start => simp at e
  | accepted => have := List.append_inj' e rfl; simp at this; rw [← this.2]
  | rejected _ _ _ _ ha => rw [(sharpAttempt_cases ha).2.1] at hacc; cases hacc
  | redone => have := List.append_inj' e rfl; simp at this; rw [← this.2]

theorem rejected_startup {env : SharpEnv K E} {c : SharpCfg K} {f : K → E → E} {fe : K → E → K} {k : Nat}
    {h : List (StepRec K E)} {t : K} {q : E} {s s' : SharpState K E} {m ts : K} {te : Option K} {n : Nat}
    (hc : LmmConfig c k) (hp : LmmPrep c f fe k h t q (prepare env c s))
    (ha : sharpAttempt env c m ts te n s = (s', .ok false)) : h.length + 1 < k := by
  have hs := attempt_saved hc hp ha
  obtain ⟨-, -, hb, -, -, -, -, hregs, -⟩ := sharpAttempt_cases ha
  obtain ⟨-, -, -, -, -, -, i7, -⟩ := integrate_fields env c (prepare env c s).2 (withStep c ts te (prepare env c s).1)
  have hn : (withStep c ts te (prepare env c s).1).numsteps = h.length :=
    ((sharpGetDt_fields c ts te (prepare env c s).1).2.2.2.2.2.1).trans hp.steps
  by_contra hlt
  unfold sharpAccepts at hb
  rw [if_pos hc.lmm, if_neg] at hb
  · cases hb
  · simp only
    rw [← hregs, hs.len, i7, hn]
    omega

/-- Steps are rejected only while the starting method is used. -/
theorem run_rejected {env : SharpEnv K E} {c : SharpCfg K} {f : K → E → E} {nu : K → E → K} {k : Nat}
    {P : K → Option K → SharpState K E → Prop} {s0 : SharpState K E} (hc : LmmConfig c k) (hlin : LinearInDt env f nu)
    (h0 : LmmFresh k s0) {h : List (StepRec K E)} {s : SharpState K E} (hr : LmmRun env c P s0 h s)
    (hacc : s.accept = false) : h.length + 1 < k := by
  cases hr with
  | start => rw [h0.accept] at hacc; cases hacc
  | accepted _ _ _ _ ha => rw [(sharpAttempt_cases ha).2.1] at hacc; cases hacc
  | redone _ _ _ _ ha => rw [(sharpAttempt_cases ha).2.1] at hacc; cases hacc
  | rejected hr hd _ hnd ha =>
    exact rejected_startup hc (prepare_keeps hc hlin hd (run_inv hc hlin h0 hr) hnd) ha

/-- The step `x` after the steps `h` obeys the step-size restriction of the method. -/
def Admissible (c : SharpCfg K) (fe : K → E → K) (k : Nat) (h : List (StepRec K E)) (x : StepRec K E) : Prop :=
  x.dt ≤ spanAt k h * feMin k fe (h ++ [x]) / (spanAt k h + (c.integ.order - 1) * feMin k fe (h ++ [x]))

theorem feMin_dt (k : Nat) (fe : K → E → K) (h : List (StepRec K E)) (t : K) (q : E) (d d' : K) :
    feMin k fe (h ++ [⟨t, q, d⟩]) = feMin k fe (h ++ [⟨t, q, d'⟩]) := by
  simp only [feMin, List.map_drop, List.map_append, List.length_append, List.length_singleton, List.map_cons, List.map_nil]

/-- C50, step sizes in a run: once the multistep method is in use, every step obeys the restriction. -/
theorem C50_run_step_size {env : SharpEnv K E} {c : SharpCfg K} {f : K → E → E} {nu : K → E → K} {k : Nat}
    {P : K → Option K → SharpState K E → Prop} {s0 : SharpState K E} (hc : LmmConfig c k) (hk2 : 2 ≤ k)
    (hlin : LinearInDt env f nu) (hset : SspSetup c nu)
    (h0 : LmmFresh k s0) {h : List (StepRec K E)} {s s' : SharpState K E} (hr : LmmRun env c P s0 h s)
    (hdt : 0 < s.dt) (hnd : ¬ discards env c s) (hk : k ≤ h.length + 1)
    {m ts : K} {te : Option K} {n : Nat} (hun : Unstretched env c ts te s) {b : Bool}
    (ha : sharpAttempt env c m ts te n s = (s', .ok b)) :
    Admissible c (feSize c nu) k h ⟨s.t, env.before s.t s.q, s'.dt⟩ := by
  have hinv := run_inv hc hlin h0 hr
  have hacc : s.accept = true := by
    by_contra h1
    rw [Bool.not_eq_true] at h1
    have := run_rejected hc hlin h0 hr h1
    omega
  have hp := prepare_keeps hc hlin hdt hinv hnd
  obtain ⟨-, p2, p3, p4, -⟩ := prepare_dt hc.lmm hlin hdt hacc
  have hold : s.dtOld.isSome = true := by
    rcases hinv.cases with ⟨h1, -⟩ | ⟨-, h1, r, -, -, hd⟩ | ⟨h1, -⟩
    · rw [h1] at hk; simp at hk; omega
    · rw [hd]; rfl
    · rw [hacc] at h1; cases h1
  have hcfl : 0 < (prepare env c s).1.cfl := by
    rw [p3]; exact mul_pos hdt (hset.speed _ _)
  have hnone : (sharpGetDt c ts none (prepare env c s).1).dt = sharpDtNew c (prepare env c s).1 := by
    unfold sharpGetDt
    simp only
    rw [if_pos ⟨hset.variable_dt, by rw [p2]; exact hold⟩, if_pos hcfl]
  have hs' : s'.dt = (sharpGetDt c ts te (prepare env c s).1).dt := (sharpAttempt_cases ha).2.2.2.2.2.2.2.2.1
  have hsize := lmm_step_size c (prepare env c s).1 hset.ssp (by rw [hp.saved.len, hp.steps]; omega) (p4 hnd)
  unfold Admissible
  simp only
  rw [hs']
  refine hun.trans ?_
  rw [hnone, hsize, prep_span hset.ssp hp, prep_fe hset.ssp hp s'.dt]
  rw [feMin_dt k _ h s.t _ s'.dt]

theorem span_pos {k : Nat} {h : List (StepRec K E)} (hk2 : 2 ≤ k) (hk : k ≤ h.length + 1)
    (hpos : ∀ r ∈ h, 0 < r.dt) : 0 < spanAt k h := by
  refine List.sum_pos _ ?_ ?_
  · intro x hx
    obtain ⟨r, hr', rfl⟩ := List.mem_map.1 hx
    exact hpos r (List.mem_of_mem_drop hr')
  · intro he
    have := congrArg List.length he
    rw [List.length_map, List.length_drop, List.length_nil] at this
    omega

theorem feMin_pos {k : Nat} {fe : K → E → K} {l : List (StepRec K E)} (hk : 0 < k) (hl : l ≠ [])
    (hpos : ∀ t q, 0 < fe t q) : 0 < feMin k fe l := by
  have hne : (l.drop (l.length - k)).map (fun r => fe r.t r.q) ≠ [] := by
    intro he
    have := congrArg List.length he
    rw [List.length_map, List.length_drop, List.length_nil] at this
    have := List.length_pos_iff.2 hl
    omega
  obtain ⟨r, -, hr⟩ := List.mem_map.1 (listMin_mem hne)
  unfold feMin
  rw [← hr]
  exact hpos _ _

theorem feMin_le {k : Nat} {fe : K → E → K} {l : List (StepRec K E)} {r : StepRec K E} {j : Nat} (hj : j < k)
    (hr : back l j = some r) : feMin k fe l ≤ fe r.t r.q := by
  have hlt : j < l.length := by
    by_contra hc
    rw [back, List.getElem?_eq_none (by simpa using hc)] at hr
    cases hr
  apply listMin_le
  apply List.mem_map.2
  refine ⟨r, ?_, rfl⟩
  rw [back, List.getElem?_reverse hlt] at hr
  rw [List.mem_iff_getElem?]
  refine ⟨l.length - 1 - j - (l.length - k), ?_⟩
  rw [List.getElem?_drop, ← hr]
  congr 1
  omega

/-- C50, the `feMin` of the statements about runs: it is the forward Euler step size of one of the last `k` steps, and that of
none of them is smaller. -/
theorem C50_smallest {k : Nat} {fe : K → E → K} {l : List (StepRec K E)} (hk : 0 < k) (hl : l ≠ []) :
    (∃ j < k, ∃ r, back l j = some r ∧ feMin k fe l = fe r.t r.q) ∧
      ∀ j < k, ∀ r, back l j = some r → feMin k fe l ≤ fe r.t r.q := by
  refine ⟨?_, fun j hj r hr => feMin_le hj hr⟩
  have hpos := List.length_pos_iff.2 hl
  have hne : (l.drop (l.length - k)).map (fun r => fe r.t r.q) ≠ [] := by
    intro he
    have := congrArg List.length he
    rw [List.length_map, List.length_drop, List.length_nil] at this
    omega
  obtain ⟨r, hr, he⟩ := List.mem_map.1 (listMin_mem hne)
  obtain ⟨i, hi⟩ := List.mem_iff_getElem?.1 hr
  rw [List.getElem?_drop] at hi
  have hlt : l.length - k + i < l.length := by
    by_contra hc
    rw [List.getElem?_eq_none (by omega)] at hi
    cases hi
  refine ⟨l.length - 1 - (l.length - k + i), by omega, r, ?_, he.symm⟩
  rw [back, List.getElem?_reverse (by omega), ← hi]
  congr 1
  omega

/-- C50 for whole runs of `SSPLMMk2`: a convex functional that is not increased by forward Euler steps up to the
forward Euler step size at each state, is at most as large after every multistep step as at the two solutions used. -/
theorem C50_run_k2 {env : SharpEnv K E} {c : SharpCfg K} {f : K → E → E} {nu : K → E → K} {k : Nat}
    {P : K → Option K → SharpState K E → Prop} {s0 : SharpState K E} (hi : c.integ = .ssplmmk2) (hc : LmmConfig c k)
    (hk2 : 3 ≤ k) (hlin : LinearInDt env f nu) (hset : SspSetup c nu) {φ : E → K} (hφ : ConvexOn K Set.univ φ)
    (hE : ∀ t q d, 0 ≤ d → d ≤ feSize c nu t q → φ (q + d • f t q) ≤ φ q)
    (h0 : LmmFresh k s0) {h : List (StepRec K E)} {s s' : SharpState K E} (hr : LmmRun env c P s0 h s)
    (hdt : 0 < s.dt) (hk : k ≤ h.length + 1)
    {m ts : K} {te : Option K} {n : Nat} (hun : Unstretched env c ts te s)
    (ha : sharpAttempt env c m ts te n s = (s', .ok true)) (hdt' : 0 < s'.dt) :
    ∃ old, back (h ++ [⟨s.t, env.before s.t s.q, s'.dt⟩]) (k - 1) = some old ∧
      φ s'.q ≤ max (φ (env.before s.t s.q)) (φ old.q) := by
  have hnd : ¬ discards env c s := fun hd => by have := (discards_only hd).1; rw [hi] at this; cases this
  have hadm := C50_run_step_size hc (by omega) hlin hset h0 hr hdt hnd hk hun ha
  have hres := C49_multistep_step hc (by rw [hi]; intro _ _ h; cases h) hlin h0 hr hdt hnd hk (fun _ => by omega) ha hdt'.ne'
  rw [hi] at hres
  obtain ⟨old, hold, hq⟩ := hres
  refine ⟨old, hold, ?_⟩
  simp only [Admissible, hi, Integrator.order] at hadm
  rw [hq]
  have hspos := span_pos (by omega) hk (run_pos hr hdt)
  refine C50_ssp_k2 hφ hspos (feMin_pos (by omega) (by simp) hset.fe_pos) hdt' hadm _ _ _ _ ?_
  intro d hd0 hd
  refine hE _ _ d hd0 (hd.trans ?_)
  exact feMin_le (k := k) (fe := feSize c nu) (j := 0) (r := ⟨s.t, env.before s.t s.q, s'.dt⟩) (by omega)
    (back_append_zero _ _)

end PyClaw
