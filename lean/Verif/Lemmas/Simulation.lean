import Verif.Spec.Symmetry
import Verif.Lemmas.Runs

/-! Two runs side by side. -/
set_option linter.unusedSectionVars false

namespace PyClaw
open Spec

section loop
variable {K Q W : Type*} [Field K] [LinearOrder K]

/-- What the numerical step of two environments must have in common. -/
structure SimEnv (R : Q × W → Q × W → Prop) (env env' : StepEnv K Q W) : Prop where
  rnd : env'.rnd = env.rnd
  numeric : ∀ t dt d d', R d d' →
    (env'.numeric t dt (env'.before t d')).2 = (env.numeric t dt (env.before t d)).2 ∧
    R (env.numeric t dt (env.before t d)).1 (env'.numeric t dt (env'.before t d')).1 ∧
    R (d.1, (env.numeric t dt (env.before t d)).1.2) (d'.1, (env'.numeric t dt (env'.before t d')).1.2)
  gauges : ∀ t d d', R d d' → (env'.gauges t d').2 = (env.gauges t d).2 ∧ R (d.1, (env.gauges t d).1) (d'.1, (env'.gauges t d').1)

theorem attempt_sim {R : Q × W → Q × W → Prop} {env env' : StepEnv K Q W} (E : SimEnv R env env') (ts : K) (te : Option K) (n : Nat)
    (s s' : StepState K Q W) (h : InStep R s s') :
    (attempt env' ts te n s').2 = (attempt env ts te n s).2 ∧ InStep R (attempt env ts te n s).1 (attempt env' ts te n s').1 := by
  obtain ⟨set, status, ⟨t, q, rest⟩, log⟩ := s
  obtain ⟨set', status', ⟨t', q', rest'⟩, log'⟩ := s'
  obtain ⟨h1, h2, h3, h4, h5⟩ := h
  dsimp only at h1 h2 h3 h4 h5
  subst h1 h2 h3 h4
  have hn := E.numeric t' (getDt env.rnd t' ts te set' status').1.dt _ _ h5
  unfold attempt
  simp only [E.rnd]
  revert hn
  generalize env'.numeric t' (getDt env.rnd t' ts te set' status').1.dt (env'.before t' (q', rest')) = y
  generalize env.numeric t' (getDt env.rnd t' ts te set' status').1.dt (env.before t' (q, rest)) = x
  obtain ⟨⟨xq, xr⟩, x2⟩ := x
  obtain ⟨⟨yq, yr⟩, y2⟩ := y
  rintro ⟨rfl, hR, hR'⟩
  cases y2 with
  | error e => exact ⟨rfl, rfl, rfl, rfl, rfl, hR⟩
  | ok cfl =>
    simp only
    by_cases hc : cfl ≤ set'.cflMax
    · simp only [if_pos hc]
      generalize (if set'.dtVariable = true then env.rnd (t' + (getDt env.rnd t' ts te set' status').1.dt)
          else env.rnd (ts + env.rnd ((n + 1 : Nat) * (getDt env.rnd t' ts te set' status').1.dt))) = tn
      have hg := E.gauges tn _ _ hR
      revert hg
      generalize env'.gauges tn (yq, yr) = u
      generalize env.gauges tn (xq, xr) = v
      obtain ⟨u1, u2⟩ := u
      obtain ⟨v1, v2⟩ := v
      rintro ⟨rfl, hG⟩
      cases u2 with
      | none => exact ⟨rfl, rfl, rfl, rfl, rfl, hG⟩
      | some e => exact ⟨rfl, rfl, rfl, rfl, rfl, hG⟩
    · simp only [if_neg hc]
      by_cases hv : set'.dtVariable = true
      · rw [if_pos hv, if_pos hv]; exact ⟨rfl, rfl, rfl, rfl, rfl, hR'⟩
      · rw [if_neg hv, if_neg hv]; exact ⟨rfl, rfl, rfl, rfl, rfl, hR⟩

theorem loop_sim {R : Q × W → Q × W → Prop} {env env' : StepEnv K Q W} (E : SimEnv R env env') (ts : K) (te : Option K) (fuel n k : Nat)
    (s s' : StepState K Q W) (h : InStep R s s') :
    (evolveLoop env' ts te fuel n k s').2 = (evolveLoop env ts te fuel n k s).2 ∧
      InStep R (evolveLoop env ts te fuel n k s).1 (evolveLoop env' ts te fuel n k s').1 := by
  induction fuel generalizing n k s s' with
  | zero => exact ⟨rfl, h⟩
  | succ fuel ih =>
    obtain ⟨h1, h2⟩ := attempt_sim E ts te n s s' h
    unfold evolveLoop
    revert h1 h2
    generalize attempt env' ts te n s' = y
    generalize attempt env ts te n s = x
    obtain ⟨x1, x2⟩ := x
    obtain ⟨y1, y2⟩ := y
    rintro rfl h2
    dsimp only at h2
    cases y2 with
    | error e => exact ⟨rfl, h2⟩
    | ok acc =>
      cases te with
      | none => exact ⟨rfl, h2⟩
      | some T =>
        simp only
        rw [h2.t]
        by_cases hT : T ≤ x1.sol.t
        · rw [if_pos hT, if_pos hT]; exact ⟨rfl, h2⟩
        · rw [if_neg hT, if_neg hT]; exact ih _ _ _ _ h2

theorem evolve_sim [FloorRing K] {R : Q × W → Q × W → Prop} {env env' : StepEnv K Q W} (E : SimEnv R env env') (te : Option K)
    (s s' : StepState K Q W) (h : InStep R s s') :
    (evolveToTime env' te s').2 = (evolveToTime env te s).2 ∧ InStep R (evolveToTime env te s).1 (evolveToTime env' te s').1 := by
  unfold evolveToTime
  simp only [E.rnd, h.set, h.t]
  generalize (if s.set.dtVariable = true then ((.ok s.set, s.set) : Except PyErr (StepSettings K) × StepSettings K)
    else fixedSetup env.rnd s.sol.t te s.set) = f
  obtain ⟨f1, f2⟩ := f
  cases f1 with
  | error e => exact ⟨rfl, rfl, h.status, h.t, h.log, h.data⟩
  | ok set1 =>
    simp only
    by_cases hc : set1.dtVariable = true ∧ set1.cflMax < set1.cflDesired
    · rw [if_pos hc, if_pos hc]; exact ⟨rfl, rfl, h.status, h.t, h.log, h.data⟩
    · rw [if_neg hc, if_neg hc]
      cases te with
      | none =>
        simp only
        obtain ⟨h1, h2⟩ := loop_sim E s.sol.t none set1.maxSteps.toNat 0 0 { s with set := set1 } { s' with set := set1 }
          ⟨rfl, h.status, h.t, h.log, h.data⟩
        revert h1 h2
        generalize evolveLoop env' s.sol.t none set1.maxSteps.toNat 0 0 { s' with set := set1 } = y
        generalize evolveLoop env s.sol.t none set1.maxSteps.toNat 0 0 { s with set := set1 } = x
        obtain ⟨x1, x2⟩ := x
        obtain ⟨y1, y2⟩ := y
        rintro rfl h2
        cases y2 <;> exact ⟨rfl, h2⟩
      | some T =>
        simp only
        generalize (if T ≤ s.sol.t then { set1 with maxSteps := 0 } else set1) = set2
        obtain ⟨h1, h2⟩ := loop_sim E s.sol.t (some T) set2.maxSteps.toNat 0 0 { s with set := set2 } { s' with set := set2 }
          ⟨rfl, h.status, h.t, h.log, h.data⟩
        revert h1 h2
        generalize evolveLoop env' s.sol.t (some T) set2.maxSteps.toNat 0 0 { s' with set := set2 } = y
        generalize evolveLoop env s.sol.t (some T) set2.maxSteps.toNat 0 0 { s with set := set2 } = x
        obtain ⟨x1, x2⟩ := x
        obtain ⟨y1, y2⟩ := y
        rintro rfl h2
        cases y2 with
        | error e => exact ⟨rfl, h2⟩
        | ok k =>
          simp only
          dsimp only at h2
          rw [h2.set, h2.t]
          split <;> exact ⟨rfl, h2⟩

theorem run_sim [FloorRing K] {R : Q × W → Q × W → Prop} {env env' : StepEnv K Q W} (E : SimEnv R env env')
    (ops : List (StepOp K Q W)) (hops : OnlyEvolves ops) (s s' : StepState K Q W) (h : InStep R s s') :
    InStep R (runSteps env ops s) (runSteps env' ops s') := by
  induction ops generalizing s s' with
  | nil => exact h
  | cons o ops ih =>
    have ih' := ih (fun o ho => hops o (List.mem_cons_of_mem _ ho))
    rcases hops o List.mem_cons_self with ⟨te, rfl⟩ | ⟨f, rfl⟩
    · exact ih' _ _ (evolve_sim E te s s' h).2
    · exact ih' _ _ ⟨congrArg f h.set, h.status, h.t, h.log, h.data⟩

end loop

variable {ι K : Type*} [DecidableEq ι] [Field K] [LinearOrder K]

/-- Serial homogeneous runs side by side, from the hyperbolic step. -/
theorem serial_sim (c c' : ParCfg ι K) (hc : Homogeneous c) (hc' : Homogeneous c') (rnd : K → K) (L L' : K)
    (Rq Ra : GArr ι K → GArr ι K → Prop)
    (hyp : ∀ dt q q' a a' w w', Rq q q' → Ra a a' →
      (hypSerial c' dt ⟨q', a', w'⟩).2 = (hypSerial c dt ⟨q, a, w⟩).2 ∧
      Rq (hypSerial c dt ⟨q, a, w⟩).1.q (hypSerial c' dt ⟨q', a', w'⟩).1.q) :
    SimEnv (fun d d' => Rq d.1 d'.1 ∧ Ra d.2.1 d'.2.1) (serialEnv c rnd L) (serialEnv c' rnd L') := by
  have haux : ∀ (c : ParCfg ι K) dt d, (hypSerial c dt d).1.aux = d.aux := by
    intro c dt d
    unfold hypSerial
    rcases applyBcs c.bc c.axes d.q d.aux d.work with ⟨w, e | u⟩
    · rfl
    · simp only
      rcases c.kern dt c.bc.n w with _ | ⟨r, x⟩ <;> rfl
  refine ⟨rfl, ?_, ?_⟩
  · rintro t dt ⟨q, a, w⟩ ⟨q', a', w'⟩ ⟨h1, h2⟩
    obtain ⟨k1, k2⟩ := hyp dt q q' a a' w w' h1 h2
    rw [serial_numeric c hc, serial_numeric c' hc']
    simp only [haux]
    refine ⟨by rw [k1], ⟨k2, h2⟩, h1, h2⟩
  · rintro t ⟨q, a, w⟩ ⟨q', a', w'⟩ h
    exact ⟨rfl, h⟩

/-- Serial runs of the kernels side by side: the ghosted arrays correspond by `Cell`, the kernel keeps this. -/
theorem kernel_sim {d : Nat} (m naux : Nat) (c c' : ParCfg (Fin d) K) (step step' : IntKern (Fin d) K m naux)
    (hr : ClassicRun c m naux step) (hr' : ClassicRun c' m naux step')
    (cell : (Fin d → Nat) → Fin d → Nat) (onQ : (Fin d → Nat) → (Fin m → K) → Fin m → K)
    (F : ((Fin d → Int) → Fin naux → K) → ((Fin d → Int) → Fin m → K) → GArr (Fin d) K → GArr (Fin d) K → Prop)
    (F' : ((Fin d → Int) → Fin naux → K) → ((Fin d → Int) → Fin m → K) → GArr (Fin d) K → GArr (Fin d) K → Prop)
    (fill : ∀ q aux old, ∃ w, applyBcs c.bc c.axes q aux old = (w, .ok ()) ∧ F (fieldOf naux c.bc.g w.aux) (fieldOf m c.bc.g w.q) q aux)
    (fill' : ∀ q aux old, ∃ w, applyBcs c'.bc c'.axes q aux old = (w, .ok ()) ∧
      F' (fieldOf naux c'.bc.g w.aux) (fieldOf m c'.bc.g w.q) q aux)
    (Ra : GArr (Fin d) K → GArr (Fin d) K → Prop)
    (hstep : ∀ dt A A' Q Q' q q' a a', F A Q q a → F' A' Q' q' a' → Ra a a' →
      (∀ x : Fin d → Nat, (∀ i, x i < c'.bc.n i) → (fun k : Fin m => q' k.val x) = onQ x fun k => q k.val (cell x)) →
      (step dt c.bc.n A Q = none ∧ step' dt c'.bc.n A' Q' = none) ∨
      ∃ r r' cfl, step dt c.bc.n A Q = some (r, cfl) ∧ step' dt c'.bc.n A' Q' = some (r', cfl) ∧
        ∀ x : Fin d → Nat, (∀ i, x i < c'.bc.n i) → r' (fun i => (x i : Int) + 1) = onQ x (r fun i => (cell x i : Int) + 1))
    (rnd : K → K) (L L' : K) :
    SimEnv (fun (s s' : GArr (Fin d) K × GArr (Fin d) K × BCArrays (Fin d) K) => (∀ x : Fin d → Nat, (∀ i, x i < c'.bc.n i) → (fun k : Fin m => s'.1 k.val x) = onQ x fun k => s.1 k.val (cell x)) ∧
      Ra s.2.1 s'.2.1) (serialEnv c rnd L) (serialEnv c' rnd L') := by
  refine serial_sim c c' hr.homogeneous hr'.homogeneous rnd L L' (fun q q' => ∀ x : Fin d → Nat, (∀ i, x i < c'.bc.n i) →
    (fun k : Fin m => q' k.val x) = onQ x fun k => q k.val (cell x)) Ra ?_
  intro dt q q' a a' w w' hq ha
  obtain ⟨v, e, f⟩ := fill q a w
  obtain ⟨v', e', f'⟩ := fill' q' a' w'
  have hs := hstep dt _ _ _ _ q q' a a' f f' ha hq
  unfold hypSerial
  simp only [e, e', hr.kern, hr'.kern, onArrays]
  rcases hs with ⟨h1, h2⟩ | ⟨r, r', cfl, h1, h2, h3⟩
  · rw [h1, h2]
    exact ⟨rfl, hq⟩
  · rw [h1, h2]
    refine ⟨rfl, fun x hx => ?_⟩
    have := h3 x hx
    simp only [Option.map_some, putBack, Fin.is_lt, dite_true]
    have e1 : ∀ (g : Nat) (y : Fin d → Nat), (fun i => (((y i + g : Nat)) : Int) + 1 - g) = fun i => (y i : Int) + 1 := by
      intro g y; funext i; push_cast; ring
    rw [e1, e1]
    exact this

end PyClaw
