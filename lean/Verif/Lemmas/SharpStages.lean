import Verif.Model.SharpStages

set_option linter.unusedSectionVars false

/-!
Sessions with computed Courant numbers are sessions in the sense of `sharpSession`, whose Courant numbers are arbitrary.
-/
namespace PyClaw

variable {K E : Type*} [Field K] [LinearOrder K] [AddCommGroup E] [Module K E]

theorem sharpLoop_congr (env : SharpEnv K E) (c : SharpCfg K) (σ σ' : Nat → K) (tstart : K) (tend : Option K) (fuel : Nat) :
    ∀ n k r, (∀ i, n ≤ i → σ i = σ' i) → sharpLoop env c σ tstart tend fuel n k r = sharpLoop env c σ' tstart tend fuel n k r := by
  induction fuel with
  | zero => intros; rfl
  | succ fuel ih =>
    intro n k r h
    unfold sharpLoop
    rw [h n le_rfl]
    split
    · rfl
    · cases tend with
      | none => rfl
      | some te =>
        dsimp only
        split
        · rfl
        · exact ih _ _ _ fun i hi => h i (by omega)

theorem sharpLoopC_eq (env : SharpEnv K E) (c : SharpCfg K) (tstart : K) (tend : Option K) (fuel : Nat) :
    ∀ n k r, ∃ σ, sharpLoopC env c tstart tend fuel n k r = sharpLoop env c σ tstart tend fuel n k r := by
  induction fuel with
  | zero => intros; exact ⟨fun _ => 0, rfl⟩
  | succ fuel ih =>
    intro n k r
    unfold sharpLoopC
    obtain ⟨⟨r', e⟩, hr⟩ : ∃ x, sharpTry env c (stepCfl env c tstart tend r.st) tstart tend n r = x := ⟨_, rfl⟩
    rw [hr]
    cases e with
    | error e => exact ⟨fun _ => stepCfl env c tstart tend r.st, by unfold sharpLoop; rw [hr]⟩
    | ok acc =>
      dsimp only
      cases tend with
      | none => exact ⟨fun _ => stepCfl env c tstart none r.st, by unfold sharpLoop; rw [hr]⟩
      | some te =>
        obtain ⟨σ, hσ⟩ := ih (n + 1) (if acc then k + 1 else k) r'
        refine ⟨fun i => if i = n then stepCfl env c tstart (some te) r.st else σ i, ?_⟩
        unfold sharpLoop
        rw [if_pos rfl, hr]
        dsimp only
        rw [hσ, sharpLoop_congr env c _ σ tstart (some te) fuel (n + 1) _ r' (fun i hi => if_neg (by omega))]

theorem sharpEvolveC_eq [FloorRing K] (env : SharpEnv K E) (c : SharpCfg K) (tend : Option K) (r : SharpRun K E) :
    ∃ σ, sharpEvolveC env c tend r = sharpEvolveToTime env c σ tend r := by
  unfold sharpEvolveC sharpEvolveToTime
  dsimp only
  generalize (if c.dtVariable = true then (r, Except.ok ()) else sharpFixedSetup r.st.t tend r) = f
  obtain ⟨f1, f2⟩ := f
  cases f2 with
  | error e => exact ⟨fun _ => 0, rfl⟩
  | ok u =>
    dsimp only
    by_cases hc : c.dtVariable = true ∧ c.cflMax < c.cflDesired
    · exact ⟨fun _ => 0, by simp only [if_pos hc]⟩
    · simp only [if_neg hc]
      cases tend with
      | none =>
        obtain ⟨σ, hσ⟩ := sharpLoopC_eq env c r.st.t none f1.maxSteps.toNat 0 0 f1
        exact ⟨σ, by dsimp only; rw [hσ]; rfl⟩
      | some te =>
        dsimp only
        obtain ⟨σ, hσ⟩ := sharpLoopC_eq env c r.st.t (some te)
          (if te ≤ r.st.t then { f1 with maxSteps := 0 } else f1).maxSteps.toNat 0 0 (if te ≤ r.st.t then { f1 with maxSteps := 0 } else f1)
        exact ⟨σ, by rw [hσ]; rfl⟩

/-- The final state of a session with computed Courant numbers is that of a session of `sharpSession`. -/
theorem sharpSessionC_eq [FloorRing K] (env : SharpEnv K E) (c : SharpCfg K) (goals : List (SharpGoal K)) :
    ∀ r, ∃ ks : List (SharpCall K), ks.map (fun k => (k.tend, k.maxSteps)) = goals.map (fun k => (k.tend, k.maxSteps)) ∧
      (sharpSessionC env c goals r).1 = sharpSession env c ks r := by
  induction goals with
  | nil => exact fun r => ⟨[], rfl, rfl⟩
  | cons k goals ih =>
    intro r
    obtain ⟨σ, hσ⟩ := sharpEvolveC_eq env c k.tend { r with maxSteps := k.maxSteps }
    obtain ⟨ks, h1, h2⟩ := ih (sharpEvolveC env c k.tend { r with maxSteps := k.maxSteps }).1
    refine ⟨⟨k.tend, σ, k.maxSteps⟩ :: ks, by simp [h1], ?_⟩
    unfold sharpSessionC sharpSession
    dsimp only
    rw [h2, hσ]

/-- What holds after every session with arbitrary Courant numbers of the stages holds after every session with the computed ones. -/
theorem sharpSessionC_of [FloorRing K] (env : SharpEnv K E) (c : SharpCfg K) (r : SharpRun K E) (Good : SharpRun K E → Prop)
    (h : ∀ ks, Good (sharpSession env c ks r)) (goals : List (SharpGoal K)) : Good (sharpSessionC env c goals r).1 := by
  obtain ⟨ks, _, e⟩ := sharpSessionC_eq env c goals r
  rw [e]
  exact h ks

end PyClaw
