import Verif.Lemmas.Superpose

/-!
C103: superposition. For linear problems without limiters a run from a combination of two initial states takes the same steps as the runs
from the two states, and gives the combination of their results.
-/
set_option linter.unusedSectionVars false

namespace PyClaw
open Spec

variable {K : Type*} [Field K] [LinearOrder K] [IsStrictOrderedRing K] {m w naux : Nat} {α β : K}

/-- C103, the Fortran kernel in one dimension. -/
theorem C103_fortran1 [FloorRing K] (undef : K) (rp : Riemann K (Fin naux → K) m w) (cfg : Cfg1 K w) (capa : Option ((Fin naux → K) → K))
    (hl : LinearRiemann α β rp) (hu : Unlimited cfg.order cfg.limiter)
    (c : ParCfg (Fin 1) K) (hr : LinearRun α β c m naux (intStep1 undef rp cfg capa)) (ha : Admissible c.bc) (hs : Serial c.bc)
    (hg : cfg.g = c.bc.g) (rnd : K → K) (L : K)
    (ops : List (StepOp K (GArr (Fin 1) K) (GArr (Fin 1) K × BCArrays (Fin 1) K))) (hops : OnlyEvolves ops)
    (s₁ s₂ s : StepState K (GArr (Fin 1) K) (GArr (Fin 1) K × BCArrays (Fin 1) K)) (h : Superposed m naux c.bc.n α β s₁ s₂ s) :
    Superposed m naux c.bc.n α β (runSteps (serialEnv c rnd L) ops s₁) (runSteps (serialEnv c rnd L) ops s₂)
      (runSteps (serialEnv c rnd L) ops s) := by
  have hk := fortran1_line undef rp cfg capa
  have hg2 : 2 ≤ cfg.g := by rw [hg]; exact hr.ghost
  exact lin_run c hr ha hs (by rw [← hg]; exact hk.localInt hg2 (by decide))
    (hk.linear hl fun ho => fPhi_off undef (hu.resolve_left ho)) rnd L ops hops s₁ s₂ s h

/-- C103, the Python kernel in one dimension. -/
theorem C103_python1 [FloorRing K] (opq : Int → LimFun K) (rp : Riemann K (Fin naux → K) m w) (cfg : Cfg1 K w)
    (hlim : ∀ p, 0 ≤ cfg.limiter p ∧ cfg.limiter p ≤ 16) (capa : Option ((Fin naux → K) → K))
    (hl : LinearRiemann α β rp) (hu : Unlimited cfg.order cfg.limiter)
    (c : ParCfg (Fin 1) K) (hr : LinearRun α β c m naux (intPyStep1 (pyLimiterFun opq) rp cfg capa)) (ha : Admissible c.bc) (hs : Serial c.bc)
    (hg : cfg.g = c.bc.g) (rnd : K → K) (L : K)
    (ops : List (StepOp K (GArr (Fin 1) K) (GArr (Fin 1) K × BCArrays (Fin 1) K))) (hops : OnlyEvolves ops)
    (s₁ s₂ s : StepState K (GArr (Fin 1) K) (GArr (Fin 1) K × BCArrays (Fin 1) K)) (h : Superposed m naux c.bc.n α β s₁ s₂ s) :
    Superposed m naux c.bc.n α β (runSteps (serialEnv c rnd L) ops s₁) (runSteps (serialEnv c rnd L) ops s₂)
      (runSteps (serialEnv c rnd L) ops s) := by
  have hg2 : 2 ≤ cfg.g := by rw [hg]; exact hr.ghost
  have hk := python1_line opq rp cfg hg2 hlim capa
  refine lin_run c hr ha hs (by rw [← hg]; exact hk.localInt hg2 (le_refl 0)) (hk.linear hl fun ho p x y => ?_) rnd L ops hops s₁ s₂ s h
  rcases hu with hu | hu
  · omega
  · unfold localPhi
    rw [hu p]
    rfl

/-- C103, the unsplit method in the plane. -/
theorem C103_unsplit2 [FloorRing K] (undef : K) (rpx rpy : Riemann K (Fin naux → K) m w) (rtx rty : Transverse K (Fin naux → K) m)
    (cfg : Cfg2 K w) (capa : Option ((Fin naux → K) → K)) (hx : LinearRiemann α β rpx) (hy : LinearRiemann α β rpy)
    (htx : LinearSplitting α β rtx) (hty : LinearSplitting α β rty) (hu : Unlimited cfg.order cfg.limiter)
    (c : ParCfg (Fin 2) K) (hr : LinearRun α β c m naux (intUnsplit2 undef rpx rpy rtx rty cfg capa)) (ha : Admissible c.bc) (hs : Serial c.bc)
    (hg : cfg.g = c.bc.g) (rnd : K → K) (L : K)
    (ops : List (StepOp K (GArr (Fin 2) K) (GArr (Fin 2) K × BCArrays (Fin 2) K))) (hops : OnlyEvolves ops)
    (s₁ s₂ s : StepState K (GArr (Fin 2) K) (GArr (Fin 2) K × BCArrays (Fin 2) K)) (h : Superposed m naux c.bc.n α β s₁ s₂ s) :
    Superposed m naux c.bc.n α β (runSteps (serialEnv c rnd L) ops s₁) (runSteps (serialEnv c rnd L) ops s₂)
      (runSteps (serialEnv c rnd L) ops s) := by
  have hg2 : 2 ≤ cfg.g := by rw [hg]; exact hr.ghost
  exact lin_run c hr ha hs (by rw [← hg]; exact unsplit2_localInt undef rpx rpy rtx rty cfg hg2 capa)
    (unsplit2_linear hx hy htx hty undef cfg (by omega) hu capa) rnd L ops hops s₁ s₂ s h

/-- C103, dimensional splitting in the plane. -/
theorem C103_split2 [FloorRing K] (undef : K) (rpx rpy : Riemann K (Fin naux → K) m w)
    (cfg : Cfg2 K w) (capa : Option ((Fin naux → K) → K)) (hx : LinearRiemann α β rpx) (hy : LinearRiemann α β rpy)
    (hu : Unlimited cfg.order cfg.limiter)
    (c : ParCfg (Fin 2) K) (hr : LinearRun α β c m naux (intSplit2 undef rpx rpy cfg capa)) (ha : Admissible c.bc) (hs : Serial c.bc)
    (hg : cfg.g = c.bc.g) (rnd : K → K) (L : K)
    (ops : List (StepOp K (GArr (Fin 2) K) (GArr (Fin 2) K × BCArrays (Fin 2) K))) (hops : OnlyEvolves ops)
    (s₁ s₂ s : StepState K (GArr (Fin 2) K) (GArr (Fin 2) K × BCArrays (Fin 2) K)) (h : Superposed m naux c.bc.n α β s₁ s₂ s) :
    Superposed m naux c.bc.n α β (runSteps (serialEnv c rnd L) ops s₁) (runSteps (serialEnv c rnd L) ops s₂)
      (runSteps (serialEnv c rnd L) ops s) := by
  have hg2 : 2 ≤ cfg.g := by rw [hg]; exact hr.ghost
  exact lin_run c hr ha hs (by rw [← hg]; exact split2_localInt undef rpx rpy cfg hg2 capa)
    (split2_linear hx hy undef cfg (by omega) hu capa) rnd L ops hops s₁ s₂ s h

/-! ### Concrete runs -/

theorem acoustics_superposes (α β : K) : LinearRiemann α β (ignoreAux 0 (acousticsRp (K := K))) where
  speeds _ _ _ _ _ _ := rfl
  waves ql qr ql' qr' _ _ p := by
    funext k
    fin_cases p <;> fin_cases k <;> simp [ignoreAux, acousticsRp] <;> ring
  amdq ql qr ql' qr' _ _ := by
    funext k
    fin_cases k <;> simp [ignoreAux, acousticsRp] <;> ring
  apdq ql qr ql' qr' _ _ := by
    funext k
    fin_cases k <;> simp [ignoreAux, acousticsRp] <;> ring

/-- Acoustics with friction: the velocity is damped by a source term. -/
def exFriction (step : IntKern (Fin 1) ℚ 2 0) : ParCfg (Fin 1) ℚ :=
  { exAcoustics .wall .extrap step with
    sourceSplit := 2
    source := some fun _ h _ q _ k => if k = 1 then (1 - h) * q 1 else q k }

/-- Non-vacuity of the one-dimensional theorems: acoustics with friction, a wall on the left, an open end on the right, and two sounds
played together, the second with half its strength. -/
example (step : IntKern (Fin 1) ℚ 2 0) : let c := exFriction step
    LinearRiemann (1 : ℚ) (1 / 2) (ignoreAux 0 (acousticsRp (K := ℚ))) ∧ Unlimited 2 (![0, 0] : Fin 2 → Int) ∧
    LinearRun (1 : ℚ) (1 / 2) c 2 0 step ∧ Admissible c.bc ∧ Serial c.bc ∧
    Superposed 2 0 c.bc.n 1 (1 / 2) (exSound ![0, 1, 3, 2] ![0, 1, 1, 0]) (exSound ![4, 0, 0, 2] ![0, 0, 2, 0])
      (exSound ![2, 1, 3, 3] ![0, 1, 2, 0]) := by
  refine ⟨acoustics_superposes 1 (1 / 2), Or.inr fun p => by fin_cases p <;> rfl, ⟨le_refl 2, rfl, rfl, rfl, ?_, ?_, ?_⟩,
    exAcoustics_admissible _ _ (Or.inr (Or.inr rfl)) (Or.inl rfl) step, fun _ => ⟨rfl, rfl⟩, ⟨rfl, rfl, rfl, rfl, trivial⟩,
    ⟨rfl, rfl, rfl, rfl, trivial⟩, ?_⟩
  · rintro f hf t h x q₁ q₂ q a₁ a₂ a hq _ k hk
    obtain rfl : (fun _ h _ q _ k => if k = 1 then (1 - h) * q 1 else q k) = f := by simpa [exFriction] using hf
    dsimp only
    split
    · rw [hq 1 (by decide)]; ring
    · exact hq k hk
  · intro t x q₁ q₂ q a₁ a₂ a hq _ k hk
    exact hq k hk
  · intro t x q q' a a' ha k hk
    exact ha k hk
  · intro x hx
    have h0 : x 0 < 4 := hx 0
    refine ⟨fun k hk => ?_, fun k hk => absurd hk (by omega)⟩
    obtain ⟨y, rfl⟩ : ∃ y : Nat, x = fun _ => y := ⟨x 0, funext fun b => by rw [Subsingleton.elim b 0]⟩
    dsimp only at h0
    interval_cases y <;> interval_cases k <;> norm_num [exSound]

/-- Three runs without limiters: the pressure of the third is the combination, and differs from that at the start. -/
example : let run := fun s => runSteps (serialEnv (exFriction (exAcousticsPy ![0, 0])) id 1) [.evolve (some (1 / 4))] s
    let s₁ := run (exSound ![0, 1, 3, 2] ![0, 1, 1, 0])
    let s₂ := run (exSound ![4, 0, 0, 2] ![0, 0, 2, 0])
    let s := run (exSound ![2, 1, 3, 3] ![0, 1, 2, 0])
    (∀ i ∈ List.range 4, s.sol.q 0 (fun _ => i) = s₁.sol.q 0 (fun _ => i) + 1 / 2 * s₂.sol.q 0 (fun _ => i)) ∧
    s.sol.q 0 (fun _ => 1) ≠ 1 ∧ s.log.map (fun a => (a.dt, a.cfl)) = s₁.log.map (fun a => (a.dt, a.cfl)) ∧ s.log.length ≠ 0 := by
  decide +kernel

/-- The hypothesis about limiters is needed: with the minmod limiter the results of a linear problem do not add up. -/
theorem C103_limiters_needed : ∃ (c : ParCfg (Fin 1) ℚ) (s₁ s₂ s : StepState ℚ (GArr (Fin 1) ℚ) (GArr (Fin 1) ℚ × BCArrays (Fin 1) ℚ)),
    LinearRun (1 : ℚ) 1 c 2 0 (exAcousticsPy ![1, 1]) ∧ Superposed 2 0 c.bc.n 1 1 s₁ s₂ s ∧
    ¬ Superposed 2 0 c.bc.n 1 1 (runSteps (serialEnv c id 1) [.evolve (some (1 / 8))] s₁)
      (runSteps (serialEnv c id 1) [.evolve (some (1 / 8))] s₂) (runSteps (serialEnv c id 1) [.evolve (some (1 / 8))] s) := by
  refine ⟨exAcoustics .wall .extrap (exAcousticsPy ![1, 1]), exSound ![0, 1, 3, 2] ![0, 1, 1, 0], exSound ![4, 0, 0, 2] ![0, 0, 2, 0],
    exSound ![4, 1, 3, 4] ![0, 1, 3, 0], ⟨le_refl 2, rfl, rfl, rfl, fun f hf => ?_, ?_, ?_⟩, ⟨⟨rfl, rfl, rfl, rfl, trivial⟩,
    ⟨rfl, rfl, rfl, rfl, trivial⟩, ?_⟩, fun h => ?_⟩
  · exact absurd hf (by simp [exAcoustics])
  · intro t x q₁ q₂ q a₁ a₂ a hq _ k hk
    exact hq k hk
  · intro t x q q' a a' ha k hk
    exact ha k hk
  · intro x hx
    have h0 : x 0 < 4 := hx 0
    refine ⟨fun k hk => ?_, fun k hk => absurd hk (by omega)⟩
    obtain ⟨y, rfl⟩ : ∃ y : Nat, x = fun _ => y := ⟨x 0, funext fun b => by rw [Subsingleton.elim b 0]⟩
    dsimp only at h0
    interval_cases y <;> interval_cases k <;> norm_num [exSound]
  · have := (h.data (fun _ => 2) fun _ => (by decide : 2 < 4)).1 0 (by decide)
    revert this
    decide +kernel

/-- Non-vacuity of the theorems in the plane. -/
example (step : IntKern (Fin 2) ℚ 3 0) (α β : ℚ) : LinearRiemann α β (ignoreAux 0 (acoustics2Rp (K := ℚ) 1)) ∧
    LinearRiemann α β (ignoreAux 0 (acoustics2Rp (K := ℚ) 2)) ∧ LinearSplitting α β (ignoreAux2 0 (acoustics2Rt (K := ℚ) 2)) ∧
    LinearSplitting α β (ignoreAux2 0 (acoustics2Rt (K := ℚ) 1)) ∧ LinearRun α β (exChannel step) 3 0 step := by
  refine ⟨⟨fun _ _ _ _ _ _ => rfl, ?_, ?_, ?_⟩, ⟨fun _ _ _ _ _ _ => rfl, ?_, ?_, ?_⟩, ?_, ?_, ⟨le_refl 2, rfl, rfl, rfl, fun f hf => ?_, ?_, ?_⟩⟩
  · intro ql qr ql' qr' _ _ p
    funext k
    fin_cases p <;> fin_cases k <;> simp [ignoreAux, acoustics2Rp] <;> ring
  · intro ql qr ql' qr' _ _
    funext k
    fin_cases k <;> simp [ignoreAux, acoustics2Rp, acoustics2Part] <;> ring
  · intro ql qr ql' qr' _ _
    funext k
    fin_cases k <;> simp [ignoreAux, acoustics2Rp, acoustics2Part] <;> ring
  · intro ql qr ql' qr' _ _ p
    funext k
    fin_cases p <;> fin_cases k <;> simp [ignoreAux, acoustics2Rp] <;> ring
  · intro ql qr ql' qr' _ _
    funext k
    fin_cases k <;> simp [ignoreAux, acoustics2Rp, acoustics2Part] <;> ring
  · intro ql qr ql' qr' _ _
    funext k
    fin_cases k <;> simp [ignoreAux, acoustics2Rp, acoustics2Part] <;> ring
  · intro imp _ _ _ _ _ _ _ _ a₁ a₂
    refine Prod.ext ?_ ?_ <;> funext k <;> fin_cases k <;> simp [ignoreAux2, acoustics2Rt, acoustics2Part] <;> ring
  · intro imp _ _ _ _ _ _ _ _ a₁ a₂
    refine Prod.ext ?_ ?_ <;> funext k <;> fin_cases k <;> simp [ignoreAux2, acoustics2Rt, acoustics2Part] <;> ring
  · exact absurd hf (by simp [exChannel])
  · intro t x q₁ q₂ q a₁ a₂ a hq _ k hk
    exact hq k hk
  · intro t x q q' a a' ha k hk
    exact ha k hk

end PyClaw
