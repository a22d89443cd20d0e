import Verif.Lemmas.SharpTime
import Mathlib.Data.Rat.Floor
import Mathlib.Tactic.NormNum

/-!
C77: SharpClaw runs. Every accepted step is a step of the chosen method within the Courant limit, the step size
is the announced one, rejected steps leave no trace, and a run ends exactly at its target time.
-/
set_option linter.unusedSectionVars false
namespace PyClaw
open Spec

variable {K E : Type*} [Field K] [LinearOrder K] [IsStrictOrderedRing K] [AddCommGroup E] [Module K E]

/-- A solver as set up: no step rejected so far, nothing recorded. -/
structure FreshSolver (r : SharpRun K E) : Prop where
  dt_pos : 0 < r.st.dt
  accept : r.st.accept = true
  cflmax : r.cflmax = none
  log : r.log = []

theorem fresh_inv {n : Nat} (T : Tableau K n) (env : SharpEnv K E) (c : SharpCfg K) (f : K → E → E)
    (nu : K → E → K) {r : SharpRun K E} (h : FreshSolver r) : RkInv T env c f nu r.st r := by
  constructor
  · exact h.dt_pos
  · exact Or.inl h.accept
  · intro h'; exact absurd h.log h'
  · intro a ha; rw [h.log] at ha; simp at ha
  · rw [h.log]; simp
  · rw [h.log]; simp
  · rw [h.log]; simp
  · intro _; rfl
  · intro a ha; rw [h.log] at ha; simp at ha
  · rw [h.log, h.cflmax]; simp [IsMaximum]

/-- C77. Any sequence of calls of `evolve_to_time` with a Runge-Kutta method and variable steps, whatever Courant
numbers occur in the stages and whatever exceptions are raised and caught: every attempted step is as required,
consecutive attempts continue each other with the announced step size, the first starts at the initial data with
the initial step size, and the counters of the solver describe the attempts. -/
theorem C77_runs [FloorRing K] {n : Nat} {T : Tableau K n} {env : SharpEnv K E} {c : SharpCfg K} {f : K → E → E}
    {nu : K → E → K} (hs : Semidiscrete env f nu) (hT : Selects c.integ n T) (hv : c.dtVariable = true)
    (hd : 0 < c.cflDesired) (hdm : c.cflDesired ≤ c.cflMax) (hm : 0 < c.dtMax)
    {r0 : SharpRun K E} (h0 : FreshSolver r0) (ks : List (SharpCall K)) :
    let r := sharpSession env c ks r0
    (∀ a ∈ r.log, StepOk T env c f nu a) ∧
    r.log.IsChain (fun a b => Follows a b ∧ SizeRule env c nu a b) ∧
    (∀ a, r.log.head? = some a → a.tBefore = r0.st.t ∧ a.qBefore = r0.st.q ∧
      (r0.st.dtOld = none → SizedTo a.target r0.st.t r0.st.dt a.dt)) ∧
    (∀ a, r.log.getLast? = some a → a.tAfter = r.st.t ∧ a.qAfter = r.st.q) ∧
    r.st.numsteps = r0.st.numsteps + (r.log.filter fun a => a.outcome = .accepted).length ∧
    IsMaximum r.cflmax ((r.log.filter fun a => a.outcome = .accepted).map fun a => a.cfl) := by
  have h := session_inv hs hT hv hd hdm hm ks (fresh_inv T env c f nu h0)
  exact ⟨h.ok, h.chain, h.first, fun a ha => ⟨(h.last a ha).1, (h.last a ha).2.1⟩, h.steps, h.maxc⟩

/-- C77. A retry is smaller than the rejected attempt, unless the landing tolerance stretches it to the target. -/
theorem C77_retry_smaller {n : Nat} {T : Tableau K n} {env : SharpEnv K E} {c : SharpCfg K} {f : K → E → E}
    {nu : K → E → K} (hd : 0 < c.cflDesired) (hdm : c.cflDesired ≤ c.cflMax) {a b : SharpTry K E}
    (ha : StepOk T env c f nu a) (hf : Follows a b) (hab : SizeRule env c nu a b) (hrej : a.outcome = .rejected)
    (htar : b.target = a.target) :
    b.dt = a.dt * c.cflDesired / a.cfl ∧ b.dt < a.dt ∨
    ∃ te, b.target = some te ∧ b.tBefore + b.dt = te ∧ b.dt < a.dt * c.cflDesired / a.cfl + 1 / 10 ^ 14 * b.tBefore := by
  have hcf : c.cflMax < a.cfl := by
    rcases ha.decided with ⟨h, -⟩ | ⟨-, h⟩
    · rw [hrej] at h; cases h
    · exact h
  have hp := ha.positive
  have hx : a.dt * c.cflDesired / a.cfl < a.dt := by
    rw [div_lt_iff₀ (by linarith)]
    exact mul_lt_mul_of_pos_left (by linarith) hp
  have hs := hab.2 hrej
  have ht : b.tBefore = a.tBefore := by rw [hf.1, (ha.rejected hrej).1]
  cases hte : b.target with
  | none => rw [hte] at hs; exact Or.inl ⟨hs, by rw [hs]; exact hx⟩
  | some te =>
    rw [hte] at hs
    have h2 := ha.before_target te (by rw [← htar, hte])
    rcases hs with ⟨h, -⟩ | ⟨h, h3 | h3⟩
    · exact Or.inl ⟨h, by rw [h]; exact hx⟩
    · rw [ht] at h3; linarith
    · exact Or.inr ⟨te, rfl, by rw [h]; ring, by rw [h]; linarith⟩

/-- C77. A call with target `T` after any session: it does nothing if the target is reached already. Otherwise it
ends exactly at the target, or all `max_steps` attempts were used up; then the exception is raised if all of them
were accepted, and the call returns normally short of the target if not. -/
theorem C77_lands [FloorRing K] {n : Nat} {T : Tableau K n} {env : SharpEnv K E} {c : SharpCfg K} {f : K → E → E}
    {nu : K → E → K} (hs : Semidiscrete env f nu) (hT : Selects c.integ n T) (hv : c.dtVariable = true)
    (hd : 0 < c.cflDesired) (hdm : c.cflDesired ≤ c.cflMax) (hm : 0 < c.dtMax)
    {r0 : SharpRun K E} (h0 : FreshSolver r0) (ks : List (SharpCall K)) (σ : Nat → K) (te : K) :
    let r := sharpSession env c ks r0
    let res := sharpEvolveToTime env c σ (some te) r
    ∃ new, res.1.log = r.log ++ new ∧ (∀ a ∈ new, a.target = some te) ∧ new.length ≤ r.maxSteps.toNat ∧
      (te ≤ r.st.t → new = [] ∧ res.1.st = r.st ∧ res.2 = .ok ()) ∧
      (r.st.t < te →
        (res.1.st.t = te ∧ res.2 = .ok ()) ∨
        (res.1.st.t < te ∧ new.length = r.maxSteps.toNat ∧
          res.2 = if ((new.filter fun a => a.outcome = .accepted).length : Int) = r.maxSteps then
            .error (.exception "Maximum number of timesteps have been taken") else .ok ())) := by
  intro r res
  have h := session_inv hs hT hv hd hdm hm ks (fresh_inv T env c f nu h0)
  obtain ⟨r', new, h1, -, h3, h4, h5, -, h7⟩ := evolve_inv hs hT hv hd hdm hm σ (some te) h
  subst h1
  exact ⟨new, h3, h4, h5, (h7 te rfl).1, (h7 te rfl).2⟩

/-- The loop reaches its target. `m` steps of size `h` suffice and `j` counts the retries that are left. -/
theorem sharpLoop_reaches {n : Nat} {T : Tableau K n} {env : SharpEnv K E} {c : SharpCfg K} {f : K → E → E}
    {nu : K → E → K} (hs : Semidiscrete env f nu) (hT : Selects c.integ n T) (hv : c.dtVariable = true)
    (hd : 0 < c.cflDesired) (hdm : c.cflDesired ≤ c.cflMax) (hm : 0 < c.dtMax) {s0 : SharpState K E}
    (σ : Nat → K) (ts te : K) (hts : ts < te) {lam h rho e : K} (hlam : 0 < lam) (hnu : ∀ t q, nu t q ≤ lam)
    (hh : 0 < h) (hh1 : h * lam ≤ c.cflDesired) (hh2 : h ≤ c.dtMax) (he0 : 0 ≤ e) (he : 1 / 10 ^ 14 * te ≤ e)
    (hrho : c.cflDesired + e * lam ≤ rho * c.cflMax) {J : Nat} (hJ : rho ^ J * (te - ts) * lam ≤ c.cflMax) :
    ∀ (fuel i k m : Nat) {r : SharpRun K E}, RkInv T env c f nu s0 r → r.st.t < te → ts ≤ r.st.t →
      te - r.st.t ≤ m * h → (r.st.dtOld = none → h ≤ r.st.dt) →
      (r.st.accept = true ∧ m * (J + 1) ≤ fuel ∨
       r.st.accept = false ∧ r.st.dtOld.isSome = true ∧ r.st.cfl ≤ r.st.dt * lam ∧ c.cflMax < r.st.cfl ∧
        ∃ j, rho ^ j * r.st.dt * lam ≤ c.cflMax ∧ (m - 1) * (J + 1) + j ≤ fuel) →
      (∀ a ∈ (sharpLoop env c σ ts (some te) fuel i k r).1.log, a.stageCfl ≤ a.dt * lam) →
      (sharpLoop env c σ ts (some te) fuel i k r).1.st.t = te := by
  have hmax : 0 < c.cflMax := lt_of_lt_of_le hd hdm
  have hrho0 : 0 < rho := by
    have : 0 < rho * c.cflMax := lt_of_lt_of_le hd (by nlinarith)
    exact (mul_pos_iff_of_pos_right hmax).mp this
  intro fuel
  induction fuel with
  | zero =>
    intro i k m r hr ht _ hmh _ hcase _
    exfalso
    have hm1 : 1 ≤ m := by
      rcases Nat.eq_zero_or_pos m with h' | h'
      · subst h'; simp at hmh; linarith
      · exact h'
    rcases hcase with ⟨-, h1⟩ | ⟨-, -, h2, h3, j, h4, h5⟩
    · have : 0 < m * (J + 1) := by positivity
      omega
    · have : j = 0 := by omega
      subst this
      simp only [pow_zero, one_mul] at h4
      linarith
  | succ fuel ih =>
    intro i k m r hr ht htsr hmh hfirst hcase hlog
    have hm1 : 1 ≤ m := by
      rcases Nat.eq_zero_or_pos m with h' | h'
      · subst h'; simp at hmh; linarith
      · exact h'
    obtain ⟨st', cm, a, h1, h2, h3, h4, h5, h6, h7, h8, h9, h10, h11, z0, z1, z2, c1, c2⟩ :=
      try_inv hs hT hv hd hdm hm hr (σ i) ts (some te) (by rintro T ⟨rfl⟩; exact ⟨ht, hts⟩) i
    have hok := h2.ok a (by simp)
    have hnuq := hnu r.st.t (env.before r.st.t r.st.q)
    have hdt := hr.dt_pos
    have hap := hok.positive
    unfold sharpLoop at hlog ⊢
    rw [h1] at hlog ⊢
    simp only at hlog ⊢
    by_cases hend : te ≤ st'.t
    · simp only [hend, if_true]
      refine le_antisymm ?_ hend
      rw [h11]
      rcases hok.decided with ⟨h, -⟩ | ⟨h, -⟩
      · rw [(hok.accepted h).1]; exact hok.before_target te h3
      · rw [(hok.rejected h).1, h4]; exact ht.le
    · simp only [hend, if_false] at hlog ⊢
      have hend' := not_le.mp hend
      -- the Courant number of the stages of this attempt
      obtain ⟨r', new, l1, -, l3, -⟩ := loop_inv hs hT hv hd hdm hm σ ts (some te) fuel (i + 1)
        (if decide (a.outcome = .accepted) = true then k + 1 else k) h2 (by
          rintro T ⟨rfl⟩; exact ⟨hend', hts⟩)
      have hσ : σ i ≤ a.dt * lam := by
        rw [← h6]
        refine hlog a ?_
        rw [l1]
        simp only [l3]
        simp
      have hcfl : a.cfl ≤ a.dt * lam := by
        rcases hcase with ⟨h', -⟩ | ⟨h', -, h'', -⟩
        · rw [c1 h']
          exact max_le (mul_le_mul_of_nonneg_left hnuq hap.le) hσ
        · rw [c2 h']
          refine max_le ?_ hσ
          calc a.dt / r.st.dt * r.st.cfl ≤ a.dt / r.st.dt * (r.st.dt * lam) :=
                mul_le_mul_of_nonneg_left h'' (by positivity)
            _ = a.dt * lam := by field_simp
      -- the size is at least `h`, or the step lands
      have hsz : h ≤ a.dt ∨ r.st.t + a.dt = te := by
        have key : ∀ w, SizedTo (some te) r.st.t w a.dt → h ≤ w → h ≤ a.dt ∨ r.st.t + a.dt = te := by
          intro w hw hhw
          rcases hw with ⟨hw, -⟩ | ⟨hw, -⟩
          · exact Or.inl (by rw [hw]; exact hhw)
          · exact Or.inr (by rw [hw]; ring)
        cases hold : r.st.dtOld with
        | none => exact key _ (z0 hold) (hfirst hold)
        | some d0 =>
          have hold' : r.st.dtOld.isSome = true := by rw [hold]; rfl
          rcases hcase with ⟨h', -⟩ | ⟨h', -, h'', h3', -⟩
          · refine key _ (z1 hold' h') ?_
            split
            · exact hh2
            · rename_i hne
              have hpos : 0 < nu r.st.t (env.before r.st.t r.st.q) := lt_of_le_of_ne (hs.nonneg _ _) (Ne.symm hne)
              rw [le_div_iff₀ hpos]
              exact le_trans (mul_le_mul_of_nonneg_left hnuq hh.le) hh1
          · refine key _ (z2 hold' h') ?_
            rw [le_div_iff₀ (by linarith)]
            calc h * r.st.cfl ≤ h * (r.st.dt * lam) := mul_le_mul_of_nonneg_left h'' hh.le
              _ = r.st.dt * (h * lam) := by ring
              _ ≤ r.st.dt * c.cflDesired := mul_le_mul_of_nonneg_left hh1 hdt.le
      rcases hok.decided with ⟨ho, -⟩ | ⟨ho, hgt⟩
      · -- accepted
        have ht' : st'.t = r.st.t + a.dt := by rw [h11, (hok.accepted ho).1, h4]
        have hha : h ≤ a.dt := by
          rcases hsz with h' | h'
          · exact h'
          · rw [ht'] at hend'; linarith
        refine ih _ _ (m - 1) h2 hend' (by simp only [ht']; linarith) ?_ (by simp [h9]) (Or.inl ⟨by simp [h10, ho], ?_⟩) hlog
        · have : ((m - 1 : Nat) : K) = (m : K) - 1 := by
            rw [Nat.cast_sub hm1, Nat.cast_one]
          simp only [ht', this]
          nlinarith
        · rcases hcase with ⟨-, h'⟩ | ⟨-, -, h2', h3', j, h4', h5'⟩
          · have : m * (J + 1) = (m - 1) * (J + 1) + (J + 1) := by
              conv_lhs => rw [show m = (m - 1) + 1 by omega]
              ring
            omega
          · have hj : j ≠ 0 := by
              rintro rfl
              simp only [pow_zero, one_mul] at h4'
              linarith
            omega
      · -- rejected
        have ht' : st'.t = r.st.t := by rw [h11, (hok.rejected ho).1, h4]
        have hle := hok.before_target te h3
        rw [h4] at hle
        refine ih _ _ m h2 hend' (by simp only [ht']; exact htsr) (by simp only [ht']; exact hmh) (by simp [h9])
          (Or.inr ⟨by simp [h10, ho], by simp [h9], by simp only [h7, h8]; exact hcfl, by simp only [h8]; exact hgt, ?_⟩) hlog
        simp only [h7]
        rcases hcase with ⟨-, h'⟩ | ⟨h'', ho', h2', h3', j, h4', h5'⟩
        · refine ⟨J, le_trans ?_ hJ, ?_⟩
          · have : a.dt ≤ te - ts := by linarith
            have hp : 0 ≤ rho ^ J := by positivity
            exact mul_le_mul_of_nonneg_right (mul_le_mul_of_nonneg_left this hp) hlam.le
          · have : m * (J + 1) = (m - 1) * (J + 1) + (J + 1) := by
              conv_lhs => rw [show m = (m - 1) + 1 by omega]
              ring
            omega
        · have hj : j ≠ 0 := by
            rintro rfl
            simp only [pow_zero, one_mul] at h4'
            linarith
          have hshrink : a.dt ≤ rho * r.st.dt := by
            have hx : r.st.dt * c.cflDesired / r.st.cfl ≤ r.st.dt * c.cflDesired / c.cflMax :=
              div_le_div_of_nonneg_left (by positivity) hmax h3'.le
            have hbig : c.cflMax ≤ r.st.dt * lam := le_trans h3'.le h2'
            have hsum : r.st.dt * c.cflDesired / c.cflMax + e ≤ rho * r.st.dt := by
              rw [div_add' _ _ _ hmax.ne', div_le_iff₀ hmax]
              have : e * c.cflMax ≤ e * (r.st.dt * lam) := mul_le_mul_of_nonneg_left hbig he0
              nlinarith [mul_le_mul_of_nonneg_left hrho hdt.le]
            rcases z2 ho' h'' with ⟨h6', -⟩ | ⟨h6', h7' | h7'⟩
            · rw [h6']; linarith
            · rw [h6']; linarith
            · have : 1 / 10 ^ 14 * r.st.t ≤ 1 / 10 ^ 14 * te := mul_le_mul_of_nonneg_left ht.le (by positivity)
              rw [h6']; linarith
          obtain ⟨j, rfl⟩ := Nat.exists_eq_succ_of_ne_zero hj
          refine ⟨j, le_trans ?_ h4', by omega⟩
          have hp : 0 ≤ rho ^ j := by positivity
          calc rho ^ j * a.dt * lam ≤ rho ^ j * (rho * r.st.dt) * lam :=
                mul_le_mul_of_nonneg_right (mul_le_mul_of_nonneg_left hshrink hp) hlam.le
            _ = rho ^ (j + 1) * r.st.dt * lam := by ring

/-- C77. A run always reaches its target if `max_steps` is large enough: retries cannot go on for ever. Let `lam`
bound the wave speeds at the beginnings of steps and in the stages. Let `h` be at most the smallest size that is
ever wanted and let `m` steps of size `h` cover the distance. Let each retry be smaller by the factor `rho`
(`e` is the landing tolerance) and let `J` retries bring any step below the limit. Then `m * (J + 1)` attempts are
enough. -/
theorem C77_reaches [FloorRing K] {n : Nat} {T : Tableau K n} {env : SharpEnv K E} {c : SharpCfg K} {f : K → E → E}
    {nu : K → E → K} (hs : Semidiscrete env f nu) (hT : Selects c.integ n T) (hv : c.dtVariable = true)
    (hd : 0 < c.cflDesired) (hdm : c.cflDesired ≤ c.cflMax) (hm : 0 < c.dtMax)
    {r0 : SharpRun K E} (h0 : FreshSolver r0) (ks : List (SharpCall K)) (σ : Nat → K) (te : K)
    {lam h rho e : K} (hlam : 0 < lam) (hnu : ∀ t q, nu t q ≤ lam) (hh : 0 < h) (hh0 : h ≤ r0.st.dt)
    (hh1 : h * lam ≤ c.cflDesired) (hh2 : h ≤ c.dtMax) (he0 : 0 ≤ e) (he : 1 / 10 ^ 14 * te ≤ e)
    (hrho : c.cflDesired + e * lam ≤ rho * c.cflMax) {J m : Nat} :
    let r := sharpSession env c ks r0
    let res := sharpEvolveToTime env c σ (some te) r
    (∀ a, r.log.getLast? = some a → a.outcome = .accepted) → r.st.t < te →
    rho ^ J * (te - r.st.t) * lam ≤ c.cflMax → te - r.st.t ≤ m * h → (m * (J + 1) : Nat) ≤ r.maxSteps →
    (∀ a ∈ res.1.log, a.stageCfl ≤ a.dt * lam) →
    res.1.st.t = te ∧ res.2 = .ok () := by
  intro r res hlast ht hJ hmh hmax hst
  have hinv := session_inv hs hT hv hd hdm hm ks (fresh_inv T env c f nu h0)
  have hacc : r.st.accept = true := by
    cases hg : r.log.getLast? with
    | none =>
      have : r.log = [] := List.getLast?_eq_none_iff.mp hg
      have h' := hinv.start this
      change r.st = r0.st at h'
      rw [h']; exact h0.accept
    | some a =>
      rcases (hinv.last a hg).2.2 with ⟨-, h'⟩ | ⟨h', -⟩
      · exact h'
      · rw [hlast a hg] at h'; cases h'
  have hfirst : r.st.dtOld = none → h ≤ r.st.dt := by
    intro ho
    have : r.log = [] := by
      by_contra hne
      have h' := hinv.old hne
      change r.st.dtOld.isSome = true at h'
      rw [ho] at h'; cases h'
    have h' := hinv.start this
    change r.st = r0.st at h'
    rw [h']; exact hh0
  obtain ⟨r', new, e1, -, e3, -, -, -, e7⟩ := evolve_inv hs hT hv hd hdm hm σ (some te) hinv
  have key : res.1.st.t = te := by
    have hn : ¬ (c.cflMax < c.cflDesired) := not_lt.mpr hdm
    have hres : res.1 = (sharpLoop env c σ r.st.t (some te) r.maxSteps.toNat 0 0 r).1 := by
      simp only [res, sharpEvolveToTime, hv, if_true, hn, and_false, if_false, true_and, not_le.mpr ht]
      obtain ⟨r'', new', l1, -⟩ := loop_inv hs hT hv hd hdm hm σ r.st.t (some te) r.maxSteps.toNat 0 0 hinv (by
        rintro T ⟨rfl⟩; exact ⟨ht, ht⟩)
      rw [l1]
      simp only
      split <;> rfl
    rw [hres] at hst ⊢
    refine sharpLoop_reaches hs hT hv hd hdm hm σ r.st.t te ht hlam hnu hh hh1 hh2 he0 he hrho hJ _ 0 0 m hinv ht le_rfl hmh
      hfirst (Or.inl ⟨hacc, by omega⟩) hst
  refine ⟨key, ?_⟩
  rcases (e7 te rfl).2 ht with ⟨-, h'⟩ | ⟨h', -⟩
  · exact h'
  · exfalso
    rw [← e1] at h'
    change res.1.st.t < te at h'
    linarith

/-- C77. The strong-stability-preserving multistep methods apply a limit only to the starting steps: the Courant
limit scaled to forward Euler steps. Every later step is accepted. -/
theorem C77_multistep_decision {env : SharpEnv K E} {c : SharpCfg K} (hl : c.integ.isSspLmm = true) (σ ts : K)
    (te : Option K) (i : Nat) (r r' : SharpRun K E) :
    (sharpTry env c σ ts te i r = (r', .ok true) →
      r'.st.numsteps < r'.st.regs.length → r'.st.cfl ≤ r'.st.sspcoeff0 / c.sspcoeff * c.cflMax) ∧
    (sharpTry env c σ ts te i r = (r', .ok false) →
      r'.st.numsteps + 1 < r'.st.regs.length ∧ r'.st.sspcoeff0 / c.sspcoeff * c.cflMax < r'.st.cfl) := by
  have hl' : c.integ.isLmm = true := by
    cases h : c.integ <;> simp_all [Integrator.isSspLmm, Integrator.isLmm]
  unfold sharpTry sharpAttempt
  simp only
  generalize integrate env c _ _ = w
  obtain ⟨w1, w2⟩ := w
  cases w2 with
  | error er =>
    simp only
    split <;> simp
  | ok u =>
    simp only [sharpAccepts, hl, hl', if_true]
    by_cases h1 : w1.numsteps + 1 < w1.regs.length
    · by_cases h2 : w1.sspcoeff0 / c.sspcoeff * c.cflMax < max w1.cfl σ
      · simp only [h1, if_true, h2, decide_true, Bool.not_true, Bool.false_eq_true, if_false]
        by_cases h3 : c.dtVariable = true
        · simp only [h3, if_true]
          refine ⟨fun h => by simp at h, fun h => ?_⟩
          simp only [Prod.mk.injEq, and_true] at h
          subst h
          exact ⟨h1, h2⟩
        · simp [h3, PyErr.isGiveUp]
      · simp only [h1, if_true, h2, decide_false, Bool.not_false]
        refine ⟨fun h h' => ?_, fun h => by simp at h⟩
        simp only [Prod.mk.injEq, and_true] at h
        subst h
        exact not_lt.mp h2
    · simp only [h1, if_false, if_true]
      refine ⟨fun h h' => ?_, fun h => by simp at h⟩
      simp only [Prod.mk.injEq, and_true] at h
      subst h
      exact absurd h' h1

/-- C77, fixed steps. A single step that is accepted is within the limit. -/
theorem C77_fixed_accepted {env : SharpEnv K E} {c : SharpCfg K} (hl : c.integ.isLmm = false) (σ ts : K)
    (te : Option K) (i : Nat) (r r' : SharpRun K E) (h : sharpTry env c σ ts te i r = (r', .ok true)) :
    r'.st.cfl ≤ c.cflMax ∧ σ ≤ r'.st.cfl := by
  unfold sharpTry sharpAttempt at h
  simp only at h
  generalize integrate env c _ _ = w at h
  obtain ⟨w1, w2⟩ := w
  cases w2 with
  | error er =>
    simp only at h
    split at h <;> simp at h
  | ok u =>
    simp only [sharpAccepts, hl, Bool.false_eq_true, if_false] at h
    by_cases h2 : c.cflMax < max w1.cfl σ
    · simp only [h2, decide_true, Bool.not_true, Bool.false_eq_true, if_false] at h
      by_cases h3 : c.dtVariable = true
      · simp [h3] at h
      · simp [h3, PyErr.isGiveUp] at h
    · simp only [h2, decide_false, Bool.not_false, if_true, Prod.mk.injEq, and_true] at h
      subst h
      exact ⟨not_lt.mp h2, le_max_right _ _⟩

/-- C77, fixed steps. After "CFL too large, giving up!" the solver is useless: whatever solution and step size the
user tries next, single steps raise the same exception, because the last Courant number is kept and the right-hand
side is not evaluated again. -/
theorem C77_stuck_after_giving_up {env : SharpEnv K E} {c : SharpCfg K} {n : Nat} {T : Tableau K n}
    (hT : Selects c.integ n T) (hv : c.dtVariable = false) (σ σ' ts ts' : K)
    (te : Option K) (i i' : Nat) (r r' : SharpRun K E) (e : PyErr)
    (h : sharpTry env c σ ts te i r = (r', .error e))
    (q : E) (t dt : K) (hdt : dt ≠ 0) :
    (sharpTry env c σ' ts' none i' { r' with st := { r'.st with q := q, t := t, dt := dt } }).2 =
      .error (.exception "CFL too large, giving up!") := by
  have hl := selects_notLmm hT
  have hi : ∀ s i, (integrate env c i s).2 = .ok () := by
    intro s i
    unfold integrate
    generalize c.integ = I at hT
    cases hT <;> rfl
  -- the state after the first failure
  have hst : r'.st.accept = false ∧ c.cflMax < r'.st.cfl := by
    unfold sharpTry sharpAttempt at h
    simp only at h
    generalize hw : integrate env c _ _ = w at h
    have hok : w.2 = .ok () := by rw [← hw]; exact hi _ _
    obtain ⟨w1, w2⟩ := w
    simp only at hok
    subst hok
    simp only [sharpAccepts, hl, Bool.false_eq_true, if_false, hv] at h
    by_cases h2 : c.cflMax < max w1.cfl σ
    · simp only [h2, decide_true, Bool.not_true, Bool.false_eq_true, if_false, PyErr.isGiveUp, beq_self_eq_true, if_true,
        Prod.mk.injEq] at h
      obtain ⟨h, -⟩ := h
      subst h
      exact ⟨rfl, h2⟩
    · simp [h2] at h
  obtain ⟨ha, hc⟩ := hst
  unfold sharpTry sharpAttempt
  simp only
  generalize hw : integrate env c _ _ = w
  have hok : w.2 = .ok () := by rw [← hw]; exact hi _ _
  have hcf : w.1.cfl = r'.st.cfl := by
    have hcfl : ∀ i (s : SharpState K E), (integrate env c i s).1.cfl = s.cfl := fun i s =>
      (integrate_fields env c i s).2.2.2.2.2.2.2.2.1
    rw [← hw, hcfl]
    simp [prepare, evalRhs, ha, hl, sharpGetDt, hv, hdt]
  obtain ⟨w1, w2⟩ := w
  simp only at hok hcf
  subst hok
  have h2 : c.cflMax < max w1.cfl σ' := lt_of_lt_of_le (by rw [hcf]; exact hc) (le_max_left _ _)
  simp [sharpAccepts, hl, hv, h2, PyErr.isGiveUp]

section Examples

/-- `q' = -q` with the Courant number `dt * |q|`. -/
def decayEnv : SharpEnv ℚ ℚ := ⟨fun dt _ q => (dt * -q, dt * |q|), fun _ q => q, fun _ q => q⟩

theorem decayEnv_semidiscrete : Semidiscrete decayEnv (fun _ q => -q) (fun _ q => |q|) :=
  ⟨fun _ _ => abs_nonneg _, fun _ _ _ => rfl, fun _ _ _ _ => rfl, fun _ _ => rfl⟩

def decayCfg (v : Bool) (i : Integrator ℚ) : SharpCfg ℚ := ⟨i, v, 10, 1 / 2, 9 / 20, 0, 1, true⟩

def decayStart (dt : ℚ) : SharpRun ℚ ℚ :=
  ⟨⟨dt, none, 0, true, 0, 0, [(0, 0)], [], [], [], 1, true, 0, 1⟩, 100, none, []⟩

theorem decayStart_fresh : FreshSolver (decayStart 1) := ⟨by norm_num [decayStart], rfl, rfl, rfl⟩

/-- The hypotheses are met and the run is not trivial: the first attempt is rejected and retried, later ones are
accepted. -/
example : Semidiscrete decayEnv (fun _ q => -q) (fun _ q => |q|) ∧ (∃ T, Selects (decayCfg true .ssp22).integ 2 T) ∧
    FreshSolver (decayStart 1) ∧
    ((sharpSession decayEnv (decayCfg true .ssp22) [⟨some 1, fun _ => 0, 100⟩] (decayStart 1)).log.map
      fun a => (a.outcome, a.dt)).take 2 = [(.rejected, 1), (.accepted, 9 / 20)] ∧
    (sharpSession decayEnv (decayCfg true .ssp22) [⟨some 1, fun _ => 0, 100⟩] (decayStart 1)).st.t = 1 :=
  ⟨decayEnv_semidiscrete, ⟨_, .ssp22⟩, decayStart_fresh, by decide +kernel, by decide +kernel⟩

/-- `q' = -q` with the Courant number `dt`. -/
def unitEnv : SharpEnv ℚ ℚ := ⟨fun dt _ q => (dt * -q, dt * 1), fun _ q => q, fun _ q => q⟩

/-- The hypotheses of `C77_reaches` can be met: 45 attempts are enough here. -/
example : (sharpEvolveToTime unitEnv (decayCfg true .ssp33) (fun _ => 0) (some 1) (decayStart 1)).1.st.t = 1 :=
  (C77_reaches (T := _) (f := fun _ q => -q) (nu := fun _ _ => 1) (c := decayCfg true .ssp33)
    ⟨fun _ _ => zero_le_one, fun _ _ _ => rfl, fun _ _ _ _ => rfl, fun _ _ => rfl⟩ .ssp33 rfl
    (by norm_num [decayCfg]) (by norm_num [decayCfg]) (by norm_num [decayCfg]) decayStart_fresh [] (fun _ => 0) 1
    (lam := 1) (h := 9 / 20) (rho := 19 / 20) (e := 1 / 10 ^ 14) (J := 14) (m := 3) (by norm_num) (fun _ _ => le_rfl)
    (by norm_num) (by norm_num [decayStart]) (by norm_num [decayCfg]) (by norm_num [decayCfg]) (by norm_num)
    (by norm_num) (by norm_num [decayCfg]) (by simp [sharpSession, decayStart]) (by norm_num [sharpSession, decayStart])
    (by norm_num [sharpSession, decayStart, decayCfg]) (by norm_num [sharpSession, decayStart])
    (by norm_num [sharpSession, decayStart]) (by
      have h : (sharpEvolveToTime unitEnv (decayCfg true .ssp33) (fun _ => 0) (some 1) (decayStart 1)).1.log.all
        (fun a => decide (a.stageCfl ≤ a.dt * 1)) = true := by decide +kernel
      intro a ha
      exact of_decide_eq_true (List.all_eq_true.mp h a ha))).1

/-- A single step that is rejected returns normally. If the user then assigns other data, the next step uses the
slope of the old data: it is accepted and it is not a step of the method. -/
theorem C77_new_data_violated :
    let c := decayCfg true .euler
    let r1 := (sharpEvolveToTime decayEnv c (fun _ => 0) none (decayStart 1)).1
    let r2 := sharpEvolveToTime decayEnv c (fun _ => 0) none { r1 with st := { r1.st with q := 1 / 10 } }
    Selects c.integ 1 ⟨fun _ _ => 0, fun _ => 1⟩ ∧ r2.2 = .ok () ∧
    ∃ a, r2.1.log.getLast? = some a ∧ a.outcome = .accepted ∧ a.qBefore = 1 / 10 ∧
      ¬ (⟨fun _ _ => 0, fun _ => 1⟩ : Tableau ℚ 1).Step (fun _ q => -q) a.dt a.tBefore a.qBefore a.qAfter := by
  refine ⟨.euler, by decide +kernel, ⟨none, 0, 1 / 10, 9 / 20, 9 / 20, 0, .accepted, 9 / 20, 1 / 10 - 9 / 20⟩,
    ?_, rfl, rfl, ?_⟩
  · decide +kernel
  · rintro ⟨k, h1, h2⟩
    have := h1 0
    simp at this h2
    rw [this] at h2
    norm_num at h2

/-- The stuck solver exists: with fixed steps of size 1 the first call gives up. -/
example : (sharpTry decayEnv (decayCfg false .euler) 0 0 (some 1) 0 (decayStart 1)).2 =
    .error (.exception "CFL too large, giving up!") := by decide +kernel

/-- The step size can exceed `dt_max`. -/
theorem C77_dtMax_violated :
    let c := { decayCfg true .euler with dtMax := 1 / 10 }
    ∃ a ∈ (sharpSession decayEnv c [⟨some 1, fun _ => 0, 100⟩] (decayStart (1 / 10))).log,
      a.outcome = .accepted ∧ c.dtMax < a.dt := by
  have h : (sharpSession decayEnv { decayCfg true .euler with dtMax := 1 / 10 } [⟨some 1, fun _ => 0, 100⟩]
      (decayStart (1 / 10))).log.any (fun a => decide (a.outcome = .accepted ∧ 1 / 10 < a.dt)) = true := by
    decide +kernel
  obtain ⟨a, ha, h⟩ := List.any_eq_true.mp h
  exact ⟨a, ha, of_decide_eq_true h⟩

end Examples

end PyClaw
