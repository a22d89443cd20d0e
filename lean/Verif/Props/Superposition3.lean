import Verif.Lemmas.Superpose3
import Verif.Props.Superposition

/-!
C103 in three dimensions: superposition for the unsplit method and for dimensional splitting.
-/
set_option linter.unusedSectionVars false

namespace PyClaw
open Spec

variable {K : Type*} [Field K] [LinearOrder K] [IsStrictOrderedRing K] {m w naux : Nat} {α β : K}

/-- C103, the unsplit method in three dimensions, unless it reads the uninitialised part of its work array. -/
theorem C103_unsplit3 [FloorRing K] (undef : K) (rpx rpy rpz : Riemann K (Fin naux → K) m w)
    (rtx rty rtz : Transverse3 K (Fin naux → K) m) (rttx rtty rttz : Transverse33 K (Fin naux → K) m)
    (cfg : Cfg3 K w) (capa : Option ((Fin naux → K) → K)) (stale : Int → Fin m → K)
    (hst : cfg.order ≠ 1 ∨ cfg.trans / 10 ≠ 2)
    (hx : LinearRiemann α β rpx) (hy : LinearRiemann α β rpy) (hz : LinearRiemann α β rpz)
    (htx : LinearSplitting3 α β rtx rttx) (hty : LinearSplitting3 α β rty rtty) (htz : LinearSplitting3 α β rtz rttz)
    (hu : Unlimited cfg.order cfg.limiter) (c : ParCfg (Fin 3) K)
    (hr : LinearRun α β c m naux (intUnsplit3 undef rpx rpy rpz rtx rty rtz rttx rtty rttz cfg capa stale))
    (ha : Admissible c.bc) (hs : Serial c.bc) (hg : cfg.g = c.bc.g) (rnd : K → K) (L : K)
    (ops : List (StepOp K (GArr (Fin 3) K) (GArr (Fin 3) K × BCArrays (Fin 3) K))) (hops : OnlyEvolves ops)
    (s₁ s₂ s : StepState K (GArr (Fin 3) K) (GArr (Fin 3) K × BCArrays (Fin 3) K)) (h : Superposed m naux c.bc.n α β s₁ s₂ s) :
    Superposed m naux c.bc.n α β (runSteps (serialEnv c rnd L) ops s₁) (runSteps (serialEnv c rnd L) ops s₂)
      (runSteps (serialEnv c rnd L) ops s) := by
  have hg2 : 2 ≤ cfg.g := by rw [hg]; exact hr.ghost
  exact lin_run c hr ha hs (by rw [← hg]; exact unsplit3_localInt undef cfg hg2 capa stale)
    (unsplit3_linear hx hy hz htx hty htz undef cfg (by omega) hu hst capa stale) rnd L ops hops s₁ s₂ s h

/-- C103, dimensional splitting in three dimensions. -/
theorem C103_split3 [FloorRing K] (undef : K) (rpx rpy rpz : Riemann K (Fin naux → K) m w)
    (cfg : Cfg3 K w) (capa : Option ((Fin naux → K) → K))
    (hx : LinearRiemann α β rpx) (hy : LinearRiemann α β rpy) (hz : LinearRiemann α β rpz)
    (hu : Unlimited cfg.order cfg.limiter)
    (c : ParCfg (Fin 3) K) (hr : LinearRun α β c m naux (intSplit3 undef rpx rpy rpz cfg capa)) (ha : Admissible c.bc) (hs : Serial c.bc)
    (hg : cfg.g = c.bc.g) (rnd : K → K) (L : K)
    (ops : List (StepOp K (GArr (Fin 3) K) (GArr (Fin 3) K × BCArrays (Fin 3) K))) (hops : OnlyEvolves ops)
    (s₁ s₂ s : StepState K (GArr (Fin 3) K) (GArr (Fin 3) K × BCArrays (Fin 3) K)) (h : Superposed m naux c.bc.n α β s₁ s₂ s) :
    Superposed m naux c.bc.n α β (runSteps (serialEnv c rnd L) ops s₁) (runSteps (serialEnv c rnd L) ops s₂)
      (runSteps (serialEnv c rnd L) ops s) := by
  have hg2 : 2 ≤ cfg.g := by rw [hg]; exact hr.ghost
  exact lin_run c hr ha hs (by rw [← hg]; exact split3_localInt undef cfg hg2 capa)
    (split3_linear hx hy hz undef cfg (by omega) hu capa) rnd L ops hops s₁ s₂ s h

/-! ### A concrete problem -/

theorem advection_superposes (α β u : K) : LinearRiemann α β (ignoreAux 0 (advectionRp u)) where
  speeds _ _ _ _ _ _ := rfl
  waves ql qr ql' qr' _ _ p := by simp only [ignoreAux, advectionRp]; module
  amdq ql qr ql' qr' _ _ := by simp only [ignoreAux, advectionRp]; module
  apdq ql qr ql' qr' _ _ := by simp only [ignoreAux, advectionRp]; module

theorem advection_superposes3 (α β v w : K) : LinearSplitting3 α β (ignoreAux3 0 (advectionRt3 v w)) (ignoreAux33 0 (advectionRtt3 v w)) := by
  constructor
  · intro icoor imp _ _ _ _ _ _ _ _ a₁ a₂
    simp only [ignoreAux3, advectionRt3]
    split <;> refine Prod.ext ?_ ?_ <;> simp only [Prod.fst_add, Prod.snd_add, Prod.smul_fst, Prod.smul_snd] <;> module
  · intro icoor imp impt _ _ _ _ _ _ _ _ a₁ a₂
    simp only [ignoreAux33, advectionRtt3]
    split <;> refine Prod.ext ?_ ?_ <;> simp only [Prod.fst_add, Prod.snd_add, Prod.smul_fst, Prod.smul_snd] <;> module

/-- A box of 2 × 3 × 2 cells, open in `x` and `z` and periodic in `y`, with a source that decays. -/
def exBox (step : IntKern (Fin 3) ℚ 1 0) : ParCfg (Fin 3) ℚ where
  bc := ⟨2, ![2, 3, 2], 1, 0, ![.extrap, .periodic, .extrap], ![.extrap, .periodic, .extrap], ![.extrap, .periodic, .extrap],
    ![.extrap, .periodic, .extrap], ![0, 0, 0], fun _ => true, fun _ => true, none, none, none, none⟩
  axes := [0, 1, 2]
  kern := onArrays 1 0 2 step
  sourceSplit := 1
  source := some fun _ h _ q _ k => (1 - h) * q k
  beforeQ := fun _ _ q _ => q
  beforeAux := fun _ _ _ a => a

/-- A state of the box: a background and the value in one corner. -/
def exCorner (a b : ℚ) : StepState ℚ (GArr (Fin 3) ℚ) (GArr (Fin 3) ℚ × BCArrays (Fin 3) ℚ) where
  set := ⟨true, 1 / 8, none, 1, 1, 9 / 10, 100, 1 / 2⟩
  status := {}
  sol := ⟨0, fun _ x => if x 0 = 0 ∧ x 1 = 0 ∧ x 2 = 0 then a else b, (fun _ _ => 0, ⟨fun _ _ => 0, fun _ _ => 0⟩)⟩
  log := []

/-- Non-vacuity: advection through the box with decay. -/
example (step : IntKern (Fin 3) ℚ 1 0) (a₁ b₁ a₂ b₂ : ℚ) : let c := exBox step
    LinearRiemann (2 : ℚ) (-1) (ignoreAux 0 (advectionRp 3)) ∧
    LinearSplitting3 (2 : ℚ) (-1) (ignoreAux3 0 (advectionRt3 1 (-1))) (ignoreAux33 0 (advectionRtt3 1 (-1))) ∧
    LinearRun (2 : ℚ) (-1) c 1 0 step ∧ Admissible c.bc ∧ Serial c.bc ∧
    Superposed 1 0 c.bc.n 2 (-1) (exCorner a₁ b₁) (exCorner a₂ b₂) (exCorner (2 * a₁ - a₂) (2 * b₁ - b₂)) := by
  refine ⟨advection_superposes _ _ _, advection_superposes3 _ _ _ _, ⟨le_refl 2, rfl, rfl, rfl, ?_, ?_, ?_⟩, ⟨?_, ?_, ?_, ?_, ?_, ?_⟩,
    fun _ => ⟨rfl, rfl⟩, ⟨rfl, rfl, rfl, rfl, trivial⟩, ⟨rfl, rfl, rfl, rfl, trivial⟩, ?_⟩
  · rintro f hf t h x q₁ q₂ q a₁ a₂ a hq _ k hk
    obtain rfl : (fun _ h _ q _ k => (1 - h) * q k) = f := by simpa [exBox] using hf
    dsimp only
    rw [hq k hk]; ring
  · intro t x q₁ q₂ q a₁ a₂ a hq _ k hk
    exact hq k hk
  · intro t x q q' a a' ha k hk
    exact ha k hk
  · intro a; fin_cases a <;> simp [exBox]
  · intro a; fin_cases a <;> simp [exBox, BuiltInBC]
  · intro a; fin_cases a <;> simp [exBox, BuiltInBC]
  · intro h; exact absurd h (by simp [exBox])
  · intro h; exact absurd h (by simp [exBox])
  · intro a; fin_cases a <;> simp [exBox]
  · intro x _
    refine ⟨fun k _ => ?_, fun k hk => absurd hk (by omega)⟩
    simp only [exCorner]
    split <;> ring

end PyClaw
