import Verif.Lemmas.SharpAffine
import Verif.Lemmas.SharpTime
import Mathlib.Tactic.Positivity
import Mathlib.Algebra.Order.BigOperators.Group.List

/-!
The strong-stability-preserving multistep methods divide by the step size and by the time spanned by the saved steps.
Both are positive in every session (C89).
-/
set_option linter.unusedSectionVars false

namespace PyClaw
open Spec

variable {K E : Type*} [Field K] [LinearOrder K] [IsStrictOrderedRing K] [AddCommGroup E] [Module K E]

/-- The saved step sizes after the first one, and the saved forward Euler step sizes, are positive. -/
structure PosLists (s : SharpState K E) : Prop where
  dts : ∃ x tl, s.prevDt = x :: tl ∧ ∀ d ∈ tl, 0 < d
  coeff0 : 0 < s.sspcoeff0
  ne : s.prevFE ≠ []
  fes : ∀ d ∈ s.prevFE, 0 < d

/-- Enough step sizes have been saved. -/
def Enough (k : Nat) (n : Int) (s : SharpState K E) : Prop := n ≤ s.prevDt.length ∨ k ≤ s.prevDt.length

structure PosRunning (k : Nat) (s : SharpState K E) : Prop extends PosLists s where
  old : ∃ d, s.dtOld = some d ∧ 0 < d
  count : Enough k s.numsteps s
  again : s.accept = false → Enough k (s.numsteps + 1) s ∧ 0 < s.cfl

/-- The invariant between attempts. -/
structure PosInv (c : SharpCfg K) (k : Nat) (s : SharpState K E) : Prop where
  dt : 0 < s.dt
  len : s.regs.length = k
  cases : FreshFor k s ∨ (PosRunning k s ∧ (c.dtVariable = true → ∀ r, s.regs.getLast? = some r → r.2 ≤ s.t))

/-- When the step size is chosen. -/
structure PosPrep (c : SharpCfg K) (k : Nat) (s : SharpState K E) (p : SharpState K E × Int) : Prop extends
    PosLists p.1 where
  dt : 0 < p.1.dt
  len : p.1.regs.length = k
  old : ∀ d, p.1.dtOld = some d → 0 < d
  cfl : 0 < p.1.cfl
  count : Enough k (p.1.numsteps + 1) p.1
  index : p.2 = p.1.numsteps + 1
  time : p.1.t ≤ s.t
  last : c.dtVariable = true → ∀ r, p.1.regs.getLast? = some r → r.2 ≤ p.1.t

variable {env : SharpEnv K E} {c : SharpCfg K} {k : Nat}

theorem isLmm_of_ssp {i : Integrator K} (h : i.isSspLmm = true) : i.isLmm = true := by
  cases i <;> simp_all [Integrator.isSspLmm, Integrator.isLmm]

theorem evalRhs_extra (env : SharpEnv K E) (s : SharpState K E) :
    (evalRhs env s).sspcoeff0 = s.sspcoeff0 ∧ (s.accept = false → (evalRhs env s).cfl = s.cfl) := by
  unfold evalRhs
  split <;> simp_all

theorem evalRhs_cfl_pos (hc : SspConfig env c k) {s : SharpState K E} (hdt : 0 < s.dt) (ha : s.accept = true) :
    0 < (evalRhs env s).cfl := by
  unfold evalRhs
  rw [if_pos ha]
  exact lt_max_of_lt_right (hc.speed _ _ _ hdt)

theorem dtFE_pos (hc : SspConfig env c k) {s : SharpState K E} (hdt : 0 < s.dt) (hcfl : 0 < s.cfl) :
    0 < dtForwardEuler c s := by
  have h1 := hc.cflMax
  have h2 := hc.coeff
  unfold dtForwardEuler
  positivity

theorem rollSaved_ssp (hs : c.integ.isSspLmm = true) (s : SharpState K E) (i : Int) (d : K) :
    (rollSaved c s i d).prevDt =
      (if i ≤ s.regs.length then s.prevDt ++ [s.dtOld.getD 0] else rollIn s.prevDt (s.dtOld.getD 0)) ∧
    (rollSaved c s i d).prevFE = (if i ≤ s.regs.length then s.prevFE ++ [d] else rollIn s.prevFE d) ∧
    (rollSaved c s i d).sspcoeff0 = s.sspcoeff0 ∧ (rollSaved c s i d).regs = rollIn s.regs (s.q, s.t) := by
  unfold rollSaved
  dsimp only
  cases hi : c.integ <;> simp [hi, Integrator.isSspLmm] at hs <;> dsimp only <;> by_cases h : i ≤ s.regs.length <;> simp [h]

theorem rollIn_last {α : Type*} {l : List α} {x y : α} (h : (rollIn l x).getLast? = some y) : y = x := by
  cases l with
  | nil => simp [rollIn] at h
  | cons a l => rw [rollIn_cons] at h; simpa using h.symm

theorem setLast_last {α : Type*} {l : List α} {x y : α} (h : (setLast l x).getLast? = some y) : y = x := by
  unfold setLast at h
  split at h
  · simp at h
  · simpa using h.symm

theorem setFirst_last {l : List (E × K)} {x : E × K} (h : 2 ≤ l.length) : (setFirst l x).getLast? = l.getLast? := by
  match l, h with
  | a :: b :: l, _ => simp [setFirst]

theorem prepare_pos (hc : SspConfig env c k) {s : SharpState K E} (h : PosInv c k s) :
    PosPrep c k s (prepare env c s) := by
  have hl := isLmm_of_ssp hc.ssp
  have hk := hc.two
  unfold prepare
  dsimp only
  rw [if_pos hl]
  obtain ⟨e1, e2, e3, e4, e5, e6, e7, e8, e9, e10⟩ := evalRhs_fields env { s with q := env.before s.t s.q }
  obtain ⟨x1, x2⟩ := evalRhs_extra env { s with q := env.before s.t s.q }
  have hcp := fun ha => evalRhs_cfl_pos (s := { s with q := env.before s.t s.q }) hc h.dt ha
  generalize evalRhs env { s with q := env.before s.t s.q } = v at *
  dsimp only at e1 e2 e3 e4 e5 e6 e7 e8 e9 e10 x1 x2 hcp
  have hdt : 0 < v.dt := by rw [e9]; exact h.dt
  have hlen : v.regs.length = k := by rw [e3]; exact h.len
  rcases h.cases with hf | ⟨hr, hlast⟩
  · rw [updateSaved_first c v _ (by rw [e5]; exact hf.prevDt), if_pos hc.ssp]
    have hcfl := hcp hf.accept
    refine ⟨⟨⟨0, [], rfl, by simp⟩, zero_lt_one, by simp, ?_⟩, hdt, ?_, ?_, hcfl, ?_, ?_, ?_, ?_⟩
    · intro d hd
      simp only at hd
      rw [e6, hf.prevFE] at hd
      simp only [List.nil_append, List.mem_singleton] at hd
      rw [hd]
      exact dtFE_pos hc hdt hcfl
    · rw [setLast_length]; exact hlen
    · intro d hd
      simp only at hd
      rw [e10, hf.dtOld] at hd
      cases hd
    · left
      simp only
      rw [e7, hf.numsteps]
      simp
    · simp only
      rw [e7]
    · simp only
      rw [e2]
    · intro _ r hr
      rw [setLast_last hr]
  · have hne : v.prevDt ≠ [] := by
      rw [e5]
      obtain ⟨x, tl, e, _⟩ := hr.dts
      rw [e]; simp
    obtain ⟨d0, hd0, hd0p⟩ := hr.old
    by_cases ha : s.accept = true
    · have hcfl := hcp ha
      rcases updateSaved_accepted c v (s.numsteps + 1) hne (by rw [e8]; exact ha) with ⟨_, b, e⟩ | ⟨_, hck, _, e⟩
      · rw [e]
        obtain ⟨f1, f2, f3, f4, f5, f6, f7, f8⟩ := rollSaved_fields c { v with lmmCond := b } (s.numsteps + 1)
          (dtForwardEuler c v)
        obtain ⟨g1, g2, g3, g4⟩ := rollSaved_ssp hc.ssp { v with lmmCond := b } (s.numsteps + 1) (dtForwardEuler c v)
        generalize rollSaved c { v with lmmCond := b } (s.numsteps + 1) (dtForwardEuler c v) = w at *
        dsimp only at f1 f2 f3 f4 f5 f6 f7 f8 g1 g2 g3 g4
        have hfe := dtFE_pos hc hdt hcfl
        have hold : v.dtOld.getD 0 = d0 := by rw [e10, hd0]; rfl
        obtain ⟨x, tl, hx, htl⟩ := hr.dts
        refine ⟨⟨?_, by rw [g3, x1]; exact hr.coeff0, ?_, ?_⟩, by rw [f6]; exact hdt, by rw [g4, rollIn_length]; exact hlen,
          ?_, by rw [f7]; exact hcfl, ?_, by rw [f4, e7], by rw [f2, e2], ?_⟩
        · rw [g1, hold, e5, hx]
          split
          · exact ⟨x, tl ++ [d0], rfl, append_mem htl hd0p⟩
          · rw [rollIn_cons]
            cases tl with
            | nil => exact ⟨d0, [], rfl, by simp⟩
            | cons y tl =>
              exact ⟨y, tl ++ [d0], rfl, append_mem (fun z hz => htl z (List.mem_cons_of_mem _ hz)) hd0p⟩
        · rw [g2, e6]
          split
          · simp
          · intro h0
            have := congrArg List.length h0
            rw [rollIn_length] at this
            exact hr.ne (List.length_eq_zero_iff.mp this)
        · rw [g2, e6]
          split
          · exact append_mem hr.fes hfe
          · exact rollIn_mem hr.fes hfe
        · intro d hd
          rw [f8, e10, hd0] at hd
          cases hd
          exact hd0p
        · unfold Enough
          rw [f4, e7, g1, e5, hlen]
          have hcount := hr.count
          unfold Enough at hcount
          split
          · rw [List.length_append, List.length_singleton]
            push_cast
            omega
          · rw [rollIn_length]
            omega
        · intro _ r hr'
          rw [g4] at hr'
          rw [rollIn_last hr', f2]
      · rw [e]
        have hv : c.dtVariable = true := hc.mode.resolve_right (by simp [hck])
        have hlast' : ∀ r, v.regs.getLast? = some r → r.2 ≤ v.t := by
          rw [e3, e2]; exact hlast hv
        have ht : (v.regs.getLast?.getD (v.q, v.t)).2 ≤ s.t := by
          cases hg : v.regs.getLast? with
          | none => simp [e2]
          | some r =>
            rw [← e2]
            exact hlast' r hg
        obtain ⟨x, tl, hx, htl⟩ := hr.dts
        refine ⟨⟨⟨x, tl, by simp only; rw [e5, hx], htl⟩, by simp only; rw [x1]; exact hr.coeff0, by simp only; rw [e6]; exact hr.ne,
          by simp only; rw [e6]; exact hr.fes⟩, hdt, hlen, ?_, hcfl, ?_, rfl, ht, ?_⟩
        · intro d hd
          simp only at hd
          rw [e10, hd0] at hd
          cases hd
          exact hd0p
        · unfold Enough
          simp only
          rw [e7, e5]
          have hcount := hr.count
          unfold Enough at hcount
          omega
        · intro _ r hr'
          simp only at hr' ⊢
          rw [hr']
          exact le_refl _
    · rw [Bool.not_eq_true] at ha
      rw [updateSaved_rejected c v _ hne (by rw [e8]; exact ha)]
      obtain ⟨hn, hcfl⟩ := hr.again ha
      obtain ⟨x, tl, hx, htl⟩ := hr.dts
      refine ⟨⟨⟨x, tl, by simp only; rw [e5, hx], htl⟩, by simp only; rw [x1]; exact hr.coeff0, by simp only; rw [e6]; exact hr.ne,
        by simp only; rw [e6]; exact hr.fes⟩, hdt, hlen, ?_, ?_, ?_, by simp only; rw [e7], by simp only; rw [e2], ?_⟩
      · intro d hd
        simp only at hd
        rw [e10, hd0] at hd
        cases hd
        exact hd0p
      · simp only
        rw [x2 ha]
        exact hcfl
      · unfold Enough
        simp only
        rw [e7, e5]
        exact hn
      · intro hv r hr'
        simp only at hr' ⊢
        rw [e3] at hr'
        rw [e2]
        exact hlast hv r hr'

theorem listMin_pos {l : List K} (hne : l ≠ []) (h : ∀ x ∈ l, 0 < x) : 0 < listMin l := by
  induction l with
  | nil => exact absurd rfl hne
  | cons x l ih =>
    cases l with
    | nil => exact h x List.mem_cons_self
    | cons y l =>
      exact lt_min (h x List.mem_cons_self) (ih (by simp) fun z hz => h z (List.mem_cons_of_mem _ hz))

theorem lmmSpan_pos {l : List K} (h : ∃ x tl, l = x :: tl ∧ ∀ d ∈ tl, 0 < d) (h2 : 2 ≤ l.length) : 0 < lmmSpan l := by
  obtain ⟨x, tl, rfl, ht⟩ := h
  cases tl with
  | nil => simp at h2
  | cons y tl =>
    unfold lmmSpan
    exact List.sum_pos _ ht (by simp)

theorem enough_two {k : Nat} (hk : 2 ≤ k) {n : Int} {s : SharpState K E} (h : Enough k n s) (hn : (k : Int) ≤ n) :
    2 ≤ s.prevDt.length := by
  unfold Enough at h
  omega

theorem dtNew_pos (hc : SspConfig env c k) {s : SharpState K E} (hl : PosLists s) (hdt : 0 < s.dt) (hlen : s.regs.length = k)
    (hcfl : 0 < s.cfl) (hn : Enough k (s.numsteps + 1) s) : 0 < sharpDtNew c s := by
  have hk := hc.two
  have h1 := hc.cflDesired
  have h2 := hc.coeff
  have h3 := hl.coeff0
  have hrho : 0 < (lmmRho k : K) := by unfold lmmRho; split <;> norm_num
  have key : ∀ p : K, 1 ≤ p → ∀ b : Bool, 0 <
      (if s.numsteps + 1 < s.regs.length then
        if b && c.checkCond && !s.lmmCond then
          lmmRho s.regs.length * (s.sspcoeff0 / c.sspcoeff * s.dt * c.cflDesired / s.cfl)
        else s.sspcoeff0 / c.sspcoeff * s.dt * c.cflDesired / s.cfl
      else if s.accept then
        lmmSpan s.prevDt * listMin (s.prevFE.take s.regs.length) /
          (lmmSpan s.prevDt + (p - 1) * listMin (s.prevFE.take s.regs.length))
      else if b && c.checkCond then 1 / 2 * s.dt
      else s.dt) := by
    intro p hp b
    rw [hlen]
    have hd : 0 < s.sspcoeff0 / c.sspcoeff * s.dt * c.cflDesired / s.cfl := by positivity
    by_cases hi : s.numsteps + 1 < (k : Int)
    · rw [if_pos hi]
      split
      · exact mul_pos hrho hd
      · exact hd
    · rw [if_neg hi]
      split
      · have hs := lmmSpan_pos hl.dts (enough_two hk hn (by omega))
        have hm : 0 < listMin (s.prevFE.take k) := listMin_pos (by
          have := hl.ne
          intro h0
          rcases List.take_eq_nil_iff.mp h0 with h | h
          · omega
          · exact this h) fun x hx => hl.fes x (List.mem_of_mem_take hx)
        have : 0 ≤ (p - 1) * listMin (s.prevFE.take k) := mul_nonneg (by linarith) hm.le
        positivity
      · split
        · linarith
        · exact hdt
  unfold sharpDtNew
  have hs := hc.ssp
  cases hi : c.integ <;> simp [hi, Integrator.isSspLmm] at hs
  · exact key 2 (by norm_num) false
  · exact key 3 (by norm_num) true

theorem clipDt_pos {t ts te x : K} (hx : 0 < x) (ht : t < te) : 0 < clipDt id landEps t ts te x := by
  unfold clipDt
  dsimp only [id]
  have : 0 < te - t := sub_pos.mpr ht
  split <;> split <;> assumption

theorem sharpGetDt_pos (hc : SspConfig env c k) {s : SharpState K E} {p : SharpState K E × Int} (h : PosPrep c k s p) {ts : K}
    {te : Option K} (hte : ∀ x, te = some x → s.t < x) :
    0 < (sharpGetDt c ts te p.1).dt ∧ ∃ d, (sharpGetDt c ts te p.1).dtOld = some d ∧ 0 < d := by
  have h1 := dtNew_pos hc h.toPosLists h.dt h.len h.cfl h.count
  have key : ∀ s1 : SharpState K E, s1.t = p.1.t → 0 < s1.dt → (∃ d, s1.dtOld = some d ∧ 0 < d) →
      0 < (match te with
        | none => s1
        | some te => { s1 with dt := clipDt id landEps p.1.t ts te s1.dt }).dt ∧
      ∃ d, (match te with
        | none => s1
        | some te => { s1 with dt := clipDt id landEps p.1.t ts te s1.dt }).dtOld = some d ∧ 0 < d := by
    intro s1 _ hd ho
    cases te with
    | none => exact ⟨hd, ho⟩
    | some x => exact ⟨clipDt_pos hd (lt_of_le_of_lt h.time (hte x rfl)), ho⟩
  unfold sharpGetDt
  dsimp only
  by_cases hv : c.dtVariable = true ∧ p.1.dtOld.isSome = true
  · rw [if_pos hv, if_pos h.cfl]
    exact key { p.1 with dt := sharpDtNew c p.1, dtOld := some p.1.dt } rfl h1 ⟨_, rfl, h.dt⟩
  · rw [if_neg hv]
    exact key { p.1 with dtOld := some p.1.dt } rfl h.dt ⟨_, rfl, h.dt⟩

theorem getDt_extra (c : SharpCfg K) (ts : K) (te : Option K) (s : SharpState K E) :
    (sharpGetDt c ts te s).sspcoeff0 = s.sspcoeff0 := by
  unfold sharpGetDt
  cases te <;> dsimp only <;> split <;> (try split) <;> simp

theorem integrate_extra (env : SharpEnv K E) (c : SharpCfg K) (i : Int) (s : SharpState K E) :
    (integrate env c i s).1.sspcoeff0 = s.sspcoeff0 := by
  unfold integrate
  cases hi : c.integ <;> dsimp only <;> (try split) <;> (try split) <;> rfl

/-- The coefficients are well defined at every attempt. -/
theorem coef_pos (hc : SspConfig env c k) {s : SharpState K E} (h : PosInv c k s) {ts : K} {te : Option K}
    (hte : ∀ x, te = some x → s.t < x) : CoefOk c (prepare env c s).2 (withStep c ts te (prepare env c s).1) := by
  have hp := prepare_pos hc h
  obtain ⟨hd, _⟩ := sharpGetDt_pos (ts := ts) hc hp hte
  have key : (c.lmmSteps : Int) ≤ (prepare env c s).2 →
      lmmSpan (withStep c ts te (prepare env c s).1).prevDt / (withStep c ts te (prepare env c s).1).dt ≠ 0 := by
    intro hi
    rw [hc.steps, hp.index] at hi
    have hs := lmmSpan_pos hp.dts (enough_two hc.two hp.count hi)
    have e : (withStep c ts te (prepare env c s).1).prevDt = (prepare env c s).1.prevDt :=
      (sharpGetDt_fields c ts te (prepare env c s).1).2.1
    rw [e]
    exact (div_pos hs hd).ne'
  unfold CoefOk
  have hs := hc.ssp
  cases hi : c.integ <;> simp [hi, Integrator.isSspLmm] at hs
  · exact key
  · exact key

theorem attempt_pos (hc : SspConfig env c k) {s : SharpState K E} (h : PosInv c k s) {m ts : K} {te : Option K} {n : Nat}
    (hte : ∀ x, te = some x → s.t < x) : PosInv c k (sharpAttempt env c m ts te n s).1 := by
  have hp := prepare_pos hc h
  obtain ⟨hd, d1, hd1, hd1p⟩ := sharpGetDt_pos (ts := ts) hc hp hte
  obtain ⟨g1, g2, g3, g4, g5, g6, g7, g8, g9⟩ := sharpGetDt_fields c ts te (prepare env c s).1
  have gx := getDt_extra c ts te (prepare env c s).1
  have hk := hc.two
  obtain ⟨i1, i2, i3, i4, i5, i6, i7, i8, i9, i10⟩ :=
    integrate_fields env c (prepare env c s).2 (withStep c ts te (prepare env c s).1)
  have ix := integrate_extra env c (prepare env c s).2 (withStep c ts te (prepare env c s).1)
  have w1 : (withStep c ts te (prepare env c s).1).prevDt = (prepare env c s).1.prevDt := g2
  have w2 : (withStep c ts te (prepare env c s).1).prevFE = (prepare env c s).1.prevFE := g3
  have w3 : (withStep c ts te (prepare env c s).1).regs = (prepare env c s).1.regs := g5
  have w4 : (withStep c ts te (prepare env c s).1).numsteps = (prepare env c s).1.numsteps := g6
  have w5 : (withStep c ts te (prepare env c s).1).t = (prepare env c s).1.t := g7
  have w6 : (withStep c ts te (prepare env c s).1).sspcoeff0 = (prepare env c s).1.sspcoeff0 := gx
  have w7 : 0 < (withStep c ts te (prepare env c s).1).dt := hd
  have w8 : (withStep c ts te (prepare env c s).1).dtOld = some (withStep c ts te (prepare env c s).1).dt := rfl
  have w9 : 0 < (withStep c ts te (prepare env c s).1).cfl := by
    show 0 < (sharpGetDt c ts te (prepare env c s).1).dt / (sharpGetDt c ts te (prepare env c s).1).dtOld.getD 0 *
      (sharpGetDt c ts te (prepare env c s).1).cfl
    rw [hd1, g9]
    exact mul_pos (div_pos hd hd1p) hp.cfl
  rw [sharpAttempt_eq]
  dsimp only
  generalize withStep c ts te (prepare env c s).1 = w at *
  generalize integrate env c (prepare env c s).2 w = r at *
  generalize prepare env c s = p at *
  -- every outcome has the lists of the prepared state
  have hlen : r.1.regs.length = k := by
    rcases i10 with e | ⟨_, _, x, e⟩ <;> rw [e]
    · rw [w3]; exact hp.len
    · rw [setFirst_length, w3]; exact hp.len
  have hlast : c.dtVariable = true → ∀ x, r.1.regs.getLast? = some x → x.2 ≤ p.1.t := by
    intro hv x hx
    rcases i10 with e | ⟨_, _, y, e⟩ <;> rw [e] at hx
    · rw [w3] at hx; exact hp.last hv x hx
    · rw [setFirst_last (by rw [w3, hp.len]; exact hk), w3] at hx; exact hp.last hv x hx
  have key : ∀ v : SharpState K E, v.prevDt = r.1.prevDt → v.prevFE = r.1.prevFE → v.sspcoeff0 = r.1.sspcoeff0 →
      v.dt = r.1.dt → v.dtOld = r.1.dtOld → v.regs = r.1.regs → (c.dtVariable = true → p.1.t ≤ v.t) →
      ((v.accept = true ∧ v.numsteps = r.1.numsteps + 1) ∨ (v.numsteps = r.1.numsteps ∧ 0 < v.cfl)) → PosInv c k v := by
    intro v v1 v2 v3 v4 v5 v6 v7 v8
    have hdt : 0 < v.dt := by rw [v4, i5]; exact w7
    have hE : Enough k (r.1.numsteps + 1) v := by
      have := hp.count
      unfold Enough at this ⊢
      rw [v1, i2, w1, i7, w4]
      exact this
    refine ⟨hdt, by rw [v6]; exact hlen, Or.inr ⟨⟨⟨?_, by rw [v3, ix, w6]; exact hp.coeff0, by rw [v2, i3, w2]; exact hp.ne,
      by rw [v2, i3, w2]; exact hp.fes⟩, ⟨v.dt, by rw [v5, i6, w8, v4, i5], hdt⟩, ?_, ?_⟩, ?_⟩⟩
    · rw [v1, i2, w1]; exact hp.dts
    · rcases v8 with ⟨_, e⟩ | ⟨e, _⟩ <;> rw [e]
      · exact hE
      · unfold Enough at hE ⊢
        omega
    · intro ha
      rcases v8 with ⟨e, _⟩ | ⟨e, e'⟩
      · rw [ha] at e; cases e
      · rw [e]; exact ⟨hE, e'⟩
    · intro hv x hx
      rw [v6] at hx
      exact (hlast hv x hx).trans (v7 hv)
  have hcm : ∀ y : K, 0 < max r.1.cfl y := fun y => lt_max_of_lt_left (by rw [i9]; exact w9)
  split
  · refine key _ rfl rfl rfl rfl rfl rfl (fun _ => by rw [i8, w5]) (Or.inr ⟨rfl, by rw [i9]; exact w9⟩)
  · split
    · rename_i hacc
      refine key _ rfl rfl rfl rfl rfl rfl (fun hv => ?_) (Or.inl ⟨hacc, rfl⟩)
      simp only
      rw [if_pos hv, i8, w5, i5]
      linarith
    · split
      · refine key _ rfl rfl rfl rfl rfl rfl (fun _ => hp.time) (Or.inr ⟨rfl, hcm m⟩)
      · refine key _ rfl rfl rfl rfl rfl rfl (fun _ => by simp only; rw [i8, w5]) (Or.inr ⟨rfl, hcm m⟩)

end PyClaw
