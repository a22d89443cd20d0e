import Verif.Props.SharpTime
import Verif.Props.EvolveDt

/-!
C77, fixed steps: SharpClaw runs with a Runge-Kutta method and `dt_variable = False`.
-/
set_option linter.unusedSectionVars false

namespace PyClaw
open Spec

variable {K E : Type*} [Field K] [LinearOrder K] [IsStrictOrderedRing K] [AddCommGroup E] [Module K E]

/-- C77, fixed steps. A step size that does not divide the interval (to within `1e-5` of its length) is refused
before anything happens. -/
theorem C77_fixed_not_dividing [FloorRing K] (env : SharpEnv K E) (c : SharpCfg K) (hv : c.dtVariable = false)
    (σ : Nat → K) (T : K) (r : SharpRun K E) (hdt : r.st.dt ≠ 0)
    (hno : ∀ N : Int, 1 / 10 ^ 5 * (T - r.st.t) < |N * r.st.dt - (T - r.st.t)|) :
    let res := sharpEvolveToTime env c σ (some T) r
    res.2 = .error (.exception "dt does not divide (tend-tstart) and dt is fixed!") ∧
      res.1.log = r.log ∧ res.1.st = r.st := by
  have h := hno (pyInt ((T - r.st.t + 1 / 10 ^ 10) / r.st.dt))
  simp only [sharpEvolveToTime, hv, sharpFixedSetup, hdt, if_false, if_pos h]
  simp

/-- The step size that remains after clipping, on the way in equal steps. -/
theorem clipDt_equal (t0 T dt : K) (N n : Nat) (hn : n < N) (hdt : 0 < dt) (hdiv : T - t0 = N * dt)
    (heps : T / 10 ^ 14 ≤ dt) : clipDt id landEps (t0 + n * dt) t0 T dt = dt := by
  have hnN : (n : K) + 1 ≤ N := by exact_mod_cast (by omega : n + 1 ≤ N)
  simp only [clipDt, id]
  have c1 : ¬ (T < t0 + n * dt + dt ∧ t0 < T) := by
    rintro ⟨h, _⟩
    nlinarith
  rw [if_neg c1]
  by_cases hlast : n + 1 = N
  · have e : T - (t0 + n * dt) = dt := by
      have : (n : K) + 1 = N := by exact_mod_cast hlast
      nlinarith
    rw [e, ite_self]
  · have hn2 : (n : K) + 2 ≤ N := by exact_mod_cast (by omega : n + 2 ≤ N)
    rw [if_neg]
    rw [not_lt]
    have e1 : landEps * (t0 + n * dt) ≤ T / 10 ^ 14 := by
      have : landEps * (t0 + n * dt) = (t0 + n * dt) / 10 ^ 14 := by simp [landEps, div_eq_inv_mul]
      rw [this]
      apply div_le_div_of_nonneg_right _ (by positivity)
      nlinarith
    have e2 : dt ≤ T - (t0 + n * dt) - dt := by nlinarith
    linarith

/-- One step of fixed size within the limit. -/
theorem fixed_try {n : Nat} {T : Tableau K n} {env : SharpEnv K E} {c : SharpCfg K} {f : K → E → E}
    {nu : K → E → K} (hs : Semidiscrete env f nu) (hT : Selects c.integ n T) (hv : c.dtVariable = false)
    (r : SharpRun K E) (hdt : 0 < r.st.dt) (hacc : r.st.accept = true) (σ ts te : K)
    (hclip : clipDt id landEps r.st.t ts te r.st.dt = r.st.dt)
    (hlim : r.st.dt * nu r.st.t (env.before r.st.t r.st.q) ≤ c.cflMax) (hσ : σ ≤ c.cflMax) (m : Nat) :
    ∃ st' cm a, sharpTry env c σ ts (some te) m r = (⟨st', r.maxSteps, cm, r.log ++ [a]⟩, .ok true) ∧
      st'.dt = r.st.dt ∧ st'.accept = true ∧ st'.t = a.tAfter ∧ st'.q = a.qAfter ∧
      a.outcome = .accepted ∧ a.dt = r.st.dt ∧ a.tBefore = r.st.t ∧ a.qBefore = r.st.q ∧
      a.tAfter = ts + (m + 1 : Nat) * r.st.dt ∧
      T.Step f r.st.dt r.st.t (env.before r.st.t r.st.q) a.qAfter ∧
      a.cfl = max (r.st.dt * nu r.st.t (env.before r.st.t r.st.q)) σ ∧ st'.numsteps = r.st.numsteps + 1 := by
  have hl := selects_notLmm hT
  set q0 := env.before r.st.t r.st.q with hq0
  set p : SharpState K E := evalRhs env { r.st with q := q0 } with hp
  have hprep : prepare env c r.st = (p, r.st.numsteps + 1) := by
    simp only [prepare, hl]; rfl
  obtain ⟨e1, e2, e3, e4, e5, e6, e7, e8, e9, e10⟩ := evalRhs_fields env { r.st with q := q0 }
  rw [← hp] at e1 e2 e3 e4 e5 e6 e7 e8 e9 e10
  simp only at e1 e2 e3 e4 e5 e6 e7 e8 e9 e10
  have hnu := hs.nonneg r.st.t q0
  have hc : p.cfl = r.st.dt * nu r.st.t q0 := by
    simp only [hp, evalRhs, hacc, if_true]
    rw [hs.courant _ _ _ hdt]
    exact max_eq_right (mul_nonneg hdt.le hnu)
  have hf : p.dqDt = f r.st.t q0 := by
    simp only [hp, evalRhs, hacc, if_true]
    rw [hs.dq, smul_smul, inv_mul_cancel₀ hdt.ne', one_smul]
  have hg : sharpGetDt c ts (some te) p = { p with dt := r.st.dt, dtOld := some r.st.dt } := by
    unfold sharpGetDt
    simp only [hv, Bool.false_eq_true, false_and, if_false]
    rw [e2, e9, hclip]
  have hcfl : r.st.dt / (some r.st.dt).getD 0 * p.cfl = p.cfl := by
    rw [Option.getD_some, div_self hdt.ne', one_mul]
  obtain ⟨q', regs, hint, hstep⟩ := integrate_selected hs hT (r.st.numsteps + 1)
    { p with dt := r.st.dt, cfl := p.cfl, dtOld := some r.st.dt } (by simp only [hf, e1, e2])
  simp only [e1, e2] at hstep
  have hmax : ¬ c.cflMax < max p.cfl σ := by
    rw [not_lt, hc]
    exact max_le hlim hσ
  have hatt : sharpAttempt env c σ ts (some te) m r.st =
      ({ p with dt := r.st.dt, cfl := max p.cfl σ, dtOld := some r.st.dt, q := q', regs := regs, accept := true,
                t := ts + (m + 1 : Nat) * r.st.dt, numsteps := r.st.numsteps + 1 }, .ok true) := by
    unfold sharpAttempt
    simp only [hprep, hg, hcfl, hint, sharpAccepts, hl, hv]
    simp [hmax, e7]
  unfold sharpTry
  rw [hatt]
  exact ⟨_, _, _, rfl, rfl, rfl, rfl, rfl, rfl, rfl, rfl, rfl, rfl, hstep, by simp only [hc], rfl⟩

/-- C77, fixed steps. `dt` divides the interval into `N` steps, is larger than the two tolerances of the code, and
the Courant limit holds: the call returns at the target after exactly `N` accepted steps of size `dt`. The `k`-th of
them ends at `t0 + k*dt`, is a step of the method, and begins where the one before ended. -/
theorem C77_fixed_lands [FloorRing K] {n : Nat} {T : Tableau K n} {env : SharpEnv K E} {c : SharpCfg K} {f : K → E → E}
    {nu : K → E → K} (hs : Semidiscrete env f nu) (hT : Selects c.integ n T) (hv : c.dtVariable = false)
    (r : SharpRun K E) (hacc : r.st.accept = true) (σ : Nat → K) (te : K) (N : Nat) (hN : 0 < N)
    (hdt : 1 / 10 ^ 10 < r.st.dt) (hdiv : te - r.st.t = N * r.st.dt) (heps : te / 10 ^ 14 ≤ r.st.dt)
    (hlim : ∀ t q, r.st.dt * nu t q ≤ c.cflMax) (hσ : ∀ i, σ i ≤ c.cflMax) :
    let res := sharpEvolveToTime env c σ (some te) r
    res.2 = .ok () ∧ res.1.st.t = te ∧ res.1.st.numsteps = r.st.numsteps + N ∧
    ∃ l, res.1.log = r.log ++ l ∧ l.length = N ∧ l.IsChain Follows ∧
      (∀ a, l.head? = some a → a.tBefore = r.st.t ∧ a.qBefore = r.st.q) ∧
      (∀ a, l.getLast? = some a → res.1.st.q = a.qAfter) ∧
      ∀ i a, l[i]? = some a → a.outcome = .accepted ∧ a.dt = r.st.dt ∧
        a.tAfter = r.st.t + (i + 1 : Nat) * r.st.dt ∧
        T.Step f a.dt a.tBefore (env.before a.tBefore a.qBefore) a.qAfter := by
  set dt := r.st.dt with hdtdef
  set t0 := r.st.t with ht0
  have hpos : 0 < dt := lt_trans (by positivity) hdt
  have htT : t0 < te := by
    have : (0 : K) < N := by exact_mod_cast hN
    nlinarith [mul_pos this hpos]
  have hint : pyInt ((te - t0 + 1 / 10 ^ 10) / dt) = N := by
    have hq : (te - t0 + 1 / 10 ^ 10) / dt = N + (1 / 10 ^ 10) / dt := by
      rw [hdiv, add_div, mul_div_assoc, div_self hpos.ne', mul_one]
    have h0 : 0 ≤ ((1 : K) / 10 ^ 10) / dt := by positivity
    have h1 : ((1 : K) / 10 ^ 10) / dt < 1 := by rw [div_lt_one hpos]; exact hdt
    have hN0 : (0 : K) ≤ N := Nat.cast_nonneg N
    unfold pyInt
    rw [hq, if_pos (by linarith), Int.floor_eq_iff]
    constructor
    · push_cast; linarith
    · push_cast; linarith
  have hf : sharpFixedSetup t0 (some te) r = ({ r with maxSteps := N }, .ok ()) := by
    have hn : ¬ (1 / 10 ^ 5 * (te - t0) < |(((N : Int) : K)) * dt - (te - t0)|) := by
      rw [hdiv]
      have : (((N : Int) : K)) * dt - N * dt = 0 := by push_cast; ring
      rw [this, abs_zero, not_lt]
      positivity
    simp only [sharpFixedSetup, ← hdtdef, hpos.ne', if_false, hint, if_neg hn]
  -- the loop
  have key : ∀ fuel m k (s : SharpRun K E) (l : List (SharpTry K E)), m + fuel = N →
      s.st.dt = dt → s.st.accept = true → s.st.t = t0 + m * dt → s.st.numsteps = r.st.numsteps + m →
      s.log = r.log ++ l → l.length = m → l.IsChain Follows →
      (∀ a, l.head? = some a → a.tBefore = t0 ∧ a.qBefore = r.st.q) → (l = [] → s.st.q = r.st.q) →
      (∀ a, l.getLast? = some a → s.st.q = a.qAfter ∧ s.st.t = a.tAfter) →
      (∀ i a, l[i]? = some a → a.outcome = .accepted ∧ a.dt = dt ∧ a.tAfter = t0 + (i + 1 : Nat) * dt ∧
        T.Step f a.dt a.tBefore (env.before a.tBefore a.qBefore) a.qAfter) →
      ∃ s' j, sharpLoop env c σ t0 (some te) fuel m k s = (s', .ok j) ∧ s'.st.t = te ∧
        s'.st.numsteps = r.st.numsteps + N ∧
        ∃ l, s'.log = r.log ++ l ∧ l.length = N ∧ l.IsChain Follows ∧
          (∀ a, l.head? = some a → a.tBefore = t0 ∧ a.qBefore = r.st.q) ∧
          (∀ a, l.getLast? = some a → s'.st.q = a.qAfter) ∧
          ∀ i a, l[i]? = some a → a.outcome = .accepted ∧ a.dt = dt ∧ a.tAfter = t0 + (i + 1 : Nat) * dt ∧
            T.Step f a.dt a.tBefore (env.before a.tBefore a.qBefore) a.qAfter := by
    intro fuel
    induction fuel with
    | zero =>
      intro m k s l hm h1 h2 h3 h4 h5 h6 h7 h8 h9 h10 h11
      have : m = N := by omega
      subst this
      exact ⟨s, k, rfl, by rw [h3]; linarith, h4, l, h5, h6, h7, h8, fun a ha => (h10 a ha).1, h11⟩
    | succ fuel ih =>
      intro m k s l hm h1 h2 h3 h4 h5 h6 h7 h8 h9 h10 h11
      obtain ⟨st', cm, a, ht, b1, b2, b3, b4, b5, b6, b7, b8, b9, b10, _, b12⟩ :=
        fixed_try hs hT hv s (by rw [h1]; exact hpos) h2 (σ m) t0 te
          (by rw [h1, h3]; exact clipDt_equal t0 te dt N m (by omega) hpos hdiv heps)
          (by rw [h1]; exact hlim _ _) (hσ m) m
      rw [h1] at b1 b6 b9 b10
      have hl' : ∀ i b, (l ++ [a])[i]? = some b → b.outcome = .accepted ∧ b.dt = dt ∧
          b.tAfter = t0 + (i + 1 : Nat) * dt ∧ T.Step f b.dt b.tBefore (env.before b.tBefore b.qBefore) b.qAfter := by
        intro i b hb
        by_cases hi : i < l.length
        · rw [List.getElem?_append_left hi] at hb; exact h11 i b hb
        · rw [List.getElem?_append_right (by omega)] at hb
          have hi2 : i - l.length = 0 := by
            by_contra hc
            rw [List.getElem?_eq_none (by simp; omega)] at hb
            cases hb
          rw [hi2] at hb
          simp only [List.getElem?_cons_zero, Option.some.injEq] at hb
          subst hb
          have : i = m := by omega
          subst this
          exact ⟨b5, b6, b9, by rw [b6, b7, b8]; exact b10⟩
      have hchain : (l ++ [a]).IsChain Follows := by
        refine isChain_append_last h7 fun x hx => ?_
        obtain ⟨x1, x2⟩ := h10 x hx
        exact ⟨by rw [b7, x2], by rw [b8, x1]⟩
      have hhead : ∀ x, (l ++ [a]).head? = some x → x.tBefore = t0 ∧ x.qBefore = r.st.q := by
        intro x hx
        cases hl : l with
        | nil =>
          rw [hl] at hx
          simp only [List.nil_append, List.head?_cons, Option.some.injEq] at hx
          subst hx
          have hm0 : m = 0 := by rw [← h6, hl]; rfl
          refine ⟨?_, by rw [b8, h9 hl]⟩
          rw [b7, h3, hm0]
          simp
        | cons y l' =>
          rw [hl] at hx
          exact h8 x (by rw [hl]; exact hx)
      have hlast : ∀ x, (l ++ [a]).getLast? = some x → st'.q = x.qAfter ∧ st'.t = x.tAfter := by
        intro x hx
        simp only [List.getLast?_append, List.getLast?_singleton, Option.some_or, Option.some.injEq] at hx
        subst hx
        exact ⟨b4, b3⟩
      unfold sharpLoop
      rw [ht]
      simp only [if_true]
      by_cases hstop : te ≤ st'.t
      · rw [if_pos hstop]
        have hmN : m + 1 = N := by
          by_contra hne
          have : (m : K) + 2 ≤ N := by exact_mod_cast (by omega : m + 2 ≤ N)
          rw [b3, b9] at hstop
          push_cast at hstop
          nlinarith
        refine ⟨_, _, rfl, ?_, ?_, l ++ [a], ?_, ?_, hchain, hhead, fun x hx => (hlast x hx).1, hl'⟩
        · simp only
          rw [b3, b9, hmN]
          linarith
        · simp only
          rw [b12, h4, ← hmN]
          push_cast; ring
        · simp [h5]
        · simp [h6, hmN]
      · rw [if_neg hstop]
        exact ih (m + 1) _ ⟨st', s.maxSteps, cm, s.log ++ [a]⟩ (l ++ [a]) (by omega) b1 b2 (by simp only; rw [b3, b9])
          (by simp only; rw [b12, h4]; push_cast; ring) (by simp [h5]) (by simp [h6]) hchain hhead (by simp) hlast hl'
  obtain ⟨s', j, k1, k2, k3, k4⟩ := key N 0 0 { r with maxSteps := N } [] (by omega) rfl hacc (by simp [ht0]) (by simp)
    (by simp) rfl (by simp) (by simp) (by simp) (by simp) (by simp)
  have hres : sharpEvolveToTime env c σ (some te) r = (s', .ok ()) := by
    unfold sharpEvolveToTime
    simp only [hv, Bool.false_eq_true, if_false, ← ht0, hf, false_and, if_neg (not_le.mpr htT), Int.toNat_natCast, k1]
  simp only [hres]
  exact ⟨trivial, k2, k3, k4⟩

/-- Non-vacuity of `C77_fixed_not_dividing`: an interval of length 1 and steps of 2/3. -/
example : (sharpEvolveToTime unitEnv (decayCfg false .ssp33) (fun _ => 0) (some 1) (decayStart (2 / 3))).2 =
    .error (.exception "dt does not divide (tend-tstart) and dt is fixed!") := by decide +kernel

/-- Non-vacuity of `C77_fixed_lands`: two steps of 1/2. -/
example : (sharpEvolveToTime unitEnv (decayCfg false .ssp33) (fun _ => 0) (some 1) (decayStart (1 / 2))).1.st.t = 1 :=
  (C77_fixed_lands (f := fun _ q => -q) (nu := fun _ _ => 1) (c := decayCfg false .ssp33)
    ⟨fun _ _ => zero_le_one, fun _ _ _ => rfl, fun _ _ _ _ => rfl, fun _ _ => rfl⟩ .ssp33 rfl (decayStart (1 / 2)) rfl
    (fun _ => 0) 1 2 (by norm_num) (by norm_num [decayStart]) (by norm_num [decayStart]) (by norm_num [decayStart])
    (by norm_num [decayStart, decayCfg]) (by norm_num [decayCfg])).2.1

end PyClaw
