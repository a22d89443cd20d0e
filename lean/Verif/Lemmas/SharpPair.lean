import Verif.Lemmas.SharpMap
import Verif.Spec.SharpPair
import Mathlib.LinearAlgebra.Prod
import Mathlib.Algebra.Module.Submodule.LinearMap

set_option linter.unusedSectionVars false

/-!
Two problems that correspond give runs that correspond.
-/
namespace PyClaw
open Spec

variable {K E E' : Type*} [Field K] [LinearOrder K] [AddCommGroup E] [Module K E] [AddCommGroup E'] [Module K E']

/-- The right-hand sides, with the same Courant numbers, and `before_step` keep a linear correspondence. -/
structure Linked (S : Submodule K (E × E')) (env : SharpEnv K E) (env' : SharpEnv K E') : Prop where
  dq : ∀ dt t q q', (q, q') ∈ S → ((env.dq dt t q).1, (env'.dq dt t q').1) ∈ S ∧ (env'.dq dt t q').2 = (env.dq dt t q).2
  stage : ∀ t q q', (q, q') ∈ S → (env.stage t q, env'.stage t q') ∈ S
  before : ∀ t q q', (q, q') ∈ S → (env.before t q, env'.before t q') ∈ S

/-- Both problems together. -/
def pairEnv {S : Submodule K (E × E')} {env : SharpEnv K E} {env' : SharpEnv K E'} (h : Linked S env env') : SharpEnv K S where
  dq := fun dt t x => (⟨_, (h.dq dt t x.1.1 x.1.2 x.2).1⟩, (env.dq dt t x.1.1).2)
  stage := fun t x => ⟨_, h.stage t x.1.1 x.1.2 x.2⟩
  before := fun t x => ⟨_, h.before t x.1.1 x.1.2 x.2⟩

theorem pair_fst {S : Submodule K (E × E')} {env : SharpEnv K E} {env' : SharpEnv K E'} (h : Linked S env env') :
    Carries ((LinearMap.fst K E E').comp S.subtype) (pairEnv h) env where
  dq := fun _ _ _ => rfl
  stage := fun _ _ => rfl
  before := fun _ _ => rfl

theorem pair_snd {S : Submodule K (E × E')} {env : SharpEnv K E} {env' : SharpEnv K E'} (h : Linked S env env') :
    Carries ((LinearMap.snd K E E').comp S.subtype) (pairEnv h) env' where
  dq := fun dt t x => Prod.ext rfl (h.dq dt t x.1.1 x.1.2 x.2).2
  stage := fun _ _ => rfl
  before := fun _ _ => rfl

theorem zip_lists {α β γ : Type*} {R : α → β → Prop} (f : γ → α) (g : γ → β) (hR : ∀ a b, R a b → ∃ c, f c = a ∧ g c = b)
    {l : List α} {l' : List β} (h : List.Forall₂ R l l') : ∃ L : List γ, L.map f = l ∧ L.map g = l' := by
  induction h with
  | nil => exact ⟨[], rfl, rfl⟩
  | cons hab _ ih =>
    obtain ⟨L, h1, h2⟩ := ih
    obtain ⟨c, h3, h4⟩ := hR _ _ hab
    exact ⟨c :: L, by simp [h1, h3], by simp [h2, h4]⟩

theorem unzip_lists {α β γ : Type*} {R : α → β → Prop} (f : γ → α) (g : γ → β) (hR : ∀ c, R (f c) (g c)) (L : List γ) :
    List.Forall₂ R (L.map f) (L.map g) := by
  induction L with
  | nil => exact .nil
  | cons c L ih => exact .cons (hR c) ih

theorem same_of_map (S : Submodule K (E × E')) (x : SharpRun K S) :
    SameSharp (fun q q' => (q, q') ∈ S) (x.map ((LinearMap.fst K E E').comp S.subtype)) (x.map ((LinearMap.snd K E E').comp S.subtype)) where
  t := rfl
  dt := rfl
  dtOld := rfl
  cfl := rfl
  cflmax := rfl
  maxSteps := rfl
  numsteps := rfl
  accept := rfl
  prevDt := rfl
  prevFE := rfl
  sspcoeff0 := rfl
  lmmCond := rfl
  q := x.st.q.2
  dqDt := x.st.dqDt.2
  regs := unzip_lists _ _ (fun c => ⟨c.1.2, rfl⟩) _
  prevDq := unzip_lists _ _ (fun c => c.2) _
  log := unzip_lists _ _ (fun c => ⟨rfl, rfl, rfl, rfl, rfl, rfl, rfl, c.qBefore.2, c.qAfter.2⟩) _

theorem map_of_same (S : Submodule K (E × E')) {r : SharpRun K E} {r' : SharpRun K E'} (h : SameSharp (fun q q' => (q, q') ∈ S) r r') :
    ∃ x : SharpRun K S, x.map ((LinearMap.fst K E E').comp S.subtype) = r ∧ x.map ((LinearMap.snd K E E').comp S.subtype) = r' := by
  obtain ⟨regs, g1, g2⟩ := zip_lists (γ := S × K) (Prod.map ((LinearMap.fst K E E').comp S.subtype) id)
    (Prod.map ((LinearMap.snd K E E').comp S.subtype) id) (fun a b hab => ⟨(⟨(a.1, b.1), hab.1⟩, a.2), rfl, Prod.ext rfl hab.2.symm⟩) h.regs
  obtain ⟨prev, p1, p2⟩ := zip_lists (γ := S) ((LinearMap.fst K E E').comp S.subtype) ((LinearMap.snd K E E').comp S.subtype)
    (fun a b hab => ⟨⟨(a, b), hab⟩, rfl, rfl⟩) h.prevDq
  obtain ⟨log, l1, l2⟩ := zip_lists (γ := SharpTry K S) (SharpTry.map ((LinearMap.fst K E E').comp S.subtype))
    (SharpTry.map ((LinearMap.snd K E E').comp S.subtype)) (fun a b hab => by
      refine ⟨⟨a.target, a.tBefore, ⟨(a.qBefore, b.qBefore), hab.qBefore⟩, a.dt, a.cfl, a.stageCfl, a.outcome, a.tAfter,
        ⟨(a.qAfter, b.qAfter), hab.qAfter⟩⟩, rfl, ?_⟩
      obtain ⟨h1, h2, h3, h4, h5, h6, h7, h8, h9⟩ := hab
      cases a; cases b
      simp only at h1 h2 h3 h4 h5 h6 h7
      subst h1 h2 h3 h4 h5 h6 h7
      rfl) h.log
  refine ⟨⟨⟨r.st.dt, r.st.dtOld, r.st.cfl, r.st.accept, r.st.numsteps, ⟨_, h.dqDt⟩, regs, prev, r.st.prevDt, r.st.prevFE, r.st.sspcoeff0,
    r.st.lmmCond, r.st.t, ⟨_, h.q⟩⟩, r.maxSteps, r.cflmax, log⟩, ?_, ?_⟩
  · obtain ⟨st, a, b, l⟩ := r
    cases st
    simp only [SharpRun.map, SharpState.map]
    rw [g1, p1, l1]
    rfl
  · obtain ⟨e1, e2, e3, e4, e5, e6, e7, e8, e9, e10, e11, e12, e13, e14, e15, e16, e17⟩ := h
    obtain ⟨st, a, b, l⟩ := r
    obtain ⟨st', a', b', l'⟩ := r'
    cases st
    cases st'
    simp only at e1 e2 e3 e4 e5 e6 e7 e8 e9 e10 e11 e12
    subst e1 e2 e3 e4 e5 e6 e7 e8 e9 e10 e11 e12
    simp only [SharpRun.map, SharpState.map]
    rw [g2, p2, l2]
    rfl

/-- Sessions of corresponding problems from corresponding runs go the same way. -/
theorem pair_session [FloorRing K] {S : Submodule K (E × E')} {env : SharpEnv K E} {env' : SharpEnv K E'} (h : Linked S env env')
    (c : SharpCfg K) (ks : List (SharpGoal K)) {r : SharpRun K E} {r' : SharpRun K E'} (hr : SameSharp (fun q q' => (q, q') ∈ S) r r') :
    SameSharp (fun q q' => (q, q') ∈ S) (sharpSessionC env c ks r).1 (sharpSessionC env' c ks r').1 ∧
      (sharpSessionC env' c ks r').2 = (sharpSessionC env c ks r).2 := by
  obtain ⟨x, rfl, rfl⟩ := map_of_same S hr
  rw [map_session (pair_fst h), map_session (pair_snd h)]
  exact ⟨same_of_map S _, rfl⟩

end PyClaw
