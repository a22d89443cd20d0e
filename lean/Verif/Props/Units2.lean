import Verif.Lemmas.Units2

/-!
C101 for the two-dimensional methods: the units of length may even differ between the axes.
-/
set_option linter.unusedSectionVars false

namespace PyClaw
open Spec

variable {K : Type*} [Field K] [LinearOrder K] [IsStrictOrderedRing K] {m w naux : Nat}

section
variable {σ : Fin m → K} {RA : (Fin naux → K) → Fin naux → K} {rpx rpx' rpy rpy' : Riemann K (Fin naux → K) m w}
  {rtx rtx' rty rty' : Transverse K (Fin naux → K) m}

/-- C101, the unsplit method in two dimensions: `lx`, `ly`, `tx`, `σ` are the factors of the units of length along the two axes, of time,
and of the components of the solution. Missing: as in `C101_fortran1_partial`. -/
theorem C101_unsplit2_partial [FloorRing K] (undef : K) (cfg : Cfg2 K w) (capa : Option ((Fin naux → K) → K)) (lx ly tx : K) (hlx : 0 < lx)
    (hly : 0 < ly) (ht : 0 < tx) (hMx : InUnits σ (lx / tx) RA cfg.fwave rpx rpx') (hMy : InUnits σ (ly / tx) RA cfg.fwave rpy rpy')
    (hTx : TransverseInUnits σ (lx / tx) (ly / tx) RA rtx rtx') (hTy : TransverseInUnits σ (ly / tx) (lx / tx) RA rty rty')
    (hσ : UnitsAllowed σ cfg.order cfg.limiter) (hc : ∀ κ, capa = some κ → ∀ z, κ (RA z) = κ z)
    (c c' : ParCfg (Fin 2) K) (hr : ClassicRun c m naux (intUnsplit2 undef rpx rpy rtx rty cfg capa))
    (hr' : ClassicRun c' m naux (intUnsplit2 undef rpx' rpy' rtx' rty' { cfg with dx := lx * cfg.dx, dy := ly * cfg.dy } capa))
    (had : Admissible c.bc) (hs : Serial c.bc) (hbc : c'.bc = c.bc) (hg : cfg.g = c.bc.g) (rnd : K → K)
    (hrnd : ∀ x, rnd (tx * x) = tx * rnd x) (L L' : K)
    (ts : List (Option K)) (s s' : StepState K (GArr (Fin 2) K) (GArr (Fin 2) K × BCArrays (Fin 2) K))
    (hvar : s.set.dtVariable = true) (h : SameRun tx (Converted m naux c.bc.n σ RA) s s') :
    SameRun tx (Converted m naux c.bc.n σ RA) (runSteps (serialEnv c rnd L) (callsTo ts) s)
      (runSteps (serialEnv c' rnd L') (callsTo (ts.map fun t => t.map (tx * ·))) s') := by
  have hg2 : 2 ≤ cfg.g := by rw [hg]; exact hr.ghost
  refine run_unit (kernel_unit_of_local tx ht c c' _ _ hr hr' had hs hbc σ RA ?_ ?_ rnd hrnd L L') ts s s' hvar h
  · rw [← hg]; exact unsplit2_localInt undef rpx' rpy' rtx' rty' { cfg with dx := lx * cfg.dx, dy := ly * cfg.dy } hg2 capa
  · intro dt A Q
    have key := unit_unsplit2 (div_pos hlx ht) (div_pos hly ht) hlx hly (div_mul_cancel₀ lx ht.ne') (div_mul_cancel₀ ly ht.ne') undef
      { cfg with mx := c.bc.n 0, my := c.bc.n 1, dt := dt } (by dsimp only; omega) hMx hMy hTx hTy hσ capa hc (fun i j => A ![i, j])
      (fun i j => Q ![i, j])
    refine both_some (x := intUnsplit2 undef rpx rpy rtx rty cfg capa dt c.bc.n A Q)
      (x' := intUnsplit2 undef rpx' rpy' rtx' rty' { cfg with dx := lx * cfg.dx, dy := ly * cfg.dy } capa (tx * dt) c.bc.n
        (fun v => RA (A v)) fun v => signed σ (Q v))
      (P := fun (r r' : (Fin 2 → Int) → Fin m → K) => ∀ v : Fin 2 → Int, (∀ a, 1 ≤ v a ∧ v a ≤ c.bc.n a) → r' v = signed σ (r v))
      rfl rfl key.2 fun v hv => ?_
    exact key.1 (v 0) (v 1) (hv 0).1 (hv 0).2 (hv 1).1 (hv 1).2

/-- C101, dimensional splitting in two dimensions. -/
theorem C101_split2_partial [FloorRing K] (undef : K) (cfg : Cfg2 K w) (capa : Option ((Fin naux → K) → K)) (lx ly tx : K) (hlx : 0 < lx)
    (hly : 0 < ly) (ht : 0 < tx) (hMx : InUnits σ (lx / tx) RA cfg.fwave rpx rpx') (hMy : InUnits σ (ly / tx) RA cfg.fwave rpy rpy')
    (hσ : UnitsAllowed σ cfg.order cfg.limiter) (hc : ∀ κ, capa = some κ → ∀ z, κ (RA z) = κ z)
    (c c' : ParCfg (Fin 2) K) (hr : ClassicRun c m naux (intSplit2 undef rpx rpy cfg capa))
    (hr' : ClassicRun c' m naux (intSplit2 undef rpx' rpy' { cfg with dx := lx * cfg.dx, dy := ly * cfg.dy } capa))
    (had : Admissible c.bc) (hs : Serial c.bc) (hbc : c'.bc = c.bc) (hg : cfg.g = c.bc.g) (rnd : K → K)
    (hrnd : ∀ x, rnd (tx * x) = tx * rnd x) (L L' : K)
    (ts : List (Option K)) (s s' : StepState K (GArr (Fin 2) K) (GArr (Fin 2) K × BCArrays (Fin 2) K))
    (hvar : s.set.dtVariable = true) (h : SameRun tx (Converted m naux c.bc.n σ RA) s s') :
    SameRun tx (Converted m naux c.bc.n σ RA) (runSteps (serialEnv c rnd L) (callsTo ts) s)
      (runSteps (serialEnv c' rnd L') (callsTo (ts.map fun t => t.map (tx * ·))) s') := by
  have hg2 : 2 ≤ cfg.g := by rw [hg]; exact hr.ghost
  refine run_unit (kernel_unit_of_local tx ht c c' _ _ hr hr' had hs hbc σ RA ?_ ?_ rnd hrnd L L') ts s s' hvar h
  · rw [← hg]; exact split2_localInt undef rpx' rpy' { cfg with dx := lx * cfg.dx, dy := ly * cfg.dy } hg2 capa
  · intro dt A Q
    have key := unit_split2 (div_pos hlx ht) (div_pos hly ht) hlx hly (div_mul_cancel₀ lx ht.ne') (div_mul_cancel₀ ly ht.ne') undef
      { cfg with mx := c.bc.n 0, my := c.bc.n 1, dt := dt } (by dsimp only; omega) hMx hMy hσ capa hc (fun i j => A ![i, j])
      (fun i j => Q ![i, j])
    refine both_some (x := intSplit2 undef rpx rpy cfg capa dt c.bc.n A Q)
      (x' := intSplit2 undef rpx' rpy' { cfg with dx := lx * cfg.dx, dy := ly * cfg.dy } capa (tx * dt) c.bc.n
        (fun v => RA (A v)) fun v => signed σ (Q v))
      (P := fun (r r' : (Fin 2 → Int) → Fin m → K) => ∀ v : Fin 2 → Int, (∀ a, 1 ≤ v a ∧ v a ≤ c.bc.n a) → r' v = signed σ (r v))
      rfl rfl key.2 fun v hv => ?_
    exact key.1 (v 0) (v 1) (hv 0).1 (hv 0).2 (hv 1).1 (hv 1).2

end

/-- The transverse solver of advection in other units. -/
theorem advectionRt_units (naux : Nat) (y vx vy μ : K) (hv : 0 < vy) :
    TransverseInUnits (fun _ => μ) vx vy id (ignoreAux2 naux (advectionRt y)) (ignoreAux2 naux (advectionRt (vy * y))) := by
  intro imp ql qr al ar a
  have e1 : min (vy * y) 0 = vy * min y 0 := by
    have := mul_min' hv y 0
    rwa [mul_zero] at this
  have e2 : max (vy * y) 0 = vy * max y 0 := by
    have := mul_max' hv y 0
    rwa [mul_zero] at this
  refine Prod.ext ?_ ?_ <;> funext k <;>
  simp only [ignoreAux2, advectionRt, Pi.smul_apply, smul_eq_mul, e1, e2] <;> ring

/-- Three by four cells, open ends in `x`, periodic in `y`. -/
def exFlow2 (step : IntKern (Fin 2) ℚ 1 0) : ParCfg (Fin 2) ℚ where
  bc := ⟨2, fun a => if a = 0 then 3 else 4, 1, 0, fun a => if a = 0 then .extrap else .periodic,
    fun a => if a = 0 then .extrap else .periodic, fun _ => .extrap, fun _ => .extrap, fun _ => 0,
    fun _ => true, fun _ => true, none, none, none, none⟩
  axes := [0, 1]
  kern := onArrays 1 0 2 step
  sourceSplit := 1
  source := none
  beforeQ := fun _ _ q _ => q
  beforeAux := fun _ _ _ a => a

def exFlow2Start (u : (Fin 2 → Nat) → ℚ) (dt dtMax : ℚ) : StepState ℚ (GArr (Fin 2) ℚ) (GArr (Fin 2) ℚ × BCArrays (Fin 2) ℚ) where
  set := ⟨true, dt, none, dtMax, 1, 9 / 10, 100, 1 / 2⟩
  status := {}
  sol := ⟨0, fun _ x => u x, (fun _ _ => 0, ⟨fun _ _ => 0, fun _ _ => 0⟩)⟩
  log := []

/-- Non-vacuity of `C101_unsplit2_partial` and `C101_split2_partial`: a tracer carried with the velocity (2, -3) in metres and seconds, and
the same with the width in kilometres, the depth in centimetres, the time in hours and the tracer in percent. -/
example (step step' : IntKern (Fin 2) ℚ 1 0) (u : (Fin 2 → Nat) → ℚ) :
    InUnits (fun _ => (100 : ℚ)) ((1 / 1000) / (1 / 3600)) id false (ignoreAux 0 (advectionRp 2))
      (ignoreAux 0 (advectionRp ((1 / 1000) / (1 / 3600) * 2))) ∧
    InUnits (fun _ => (100 : ℚ)) (100 / (1 / 3600)) id false (ignoreAux 0 (advectionRp (-3)))
      (ignoreAux 0 (advectionRp (100 / (1 / 3600) * (-3)))) ∧
    TransverseInUnits (fun _ => (100 : ℚ)) ((1 / 1000) / (1 / 3600)) (100 / (1 / 3600)) id (ignoreAux2 0 (advectionRt (-3)))
      (ignoreAux2 0 (advectionRt (100 / (1 / 3600) * (-3)))) ∧
    UnitsAllowed (fun _ : Fin 1 => (100 : ℚ)) 2 (fun _ : Fin 1 => 4) ∧
    ClassicRun (exFlow2 step) 1 0 step ∧ Admissible (exFlow2 step).bc ∧ Serial (exFlow2 step).bc ∧
    (exFlow2 step').bc = (exFlow2 step).bc ∧
    SameRun (1 / 3600) (Converted 1 0 (exFlow2 step).bc.n (fun _ => 100) id) (exFlow2Start u 1 10)
      (exFlow2Start (fun x => 100 * u x) (1 / 3600) (10 / 3600)) := by
  refine ⟨advection_units 0 2 _ _ (by norm_num), advection_units 0 (-3) _ _ (by norm_num), advectionRt_units 0 (-3) _ _ _ (by norm_num),
    Or.inl ⟨100 * 100, by norm_num, fun _ => rfl⟩, ⟨⟨rfl, fun _ _ _ _ => rfl, fun _ _ _ _ => rfl⟩, le_refl 2, rfl, rfl, rfl⟩,
    ⟨?_, ?_, ?_, fun h => absurd h (lt_irrefl 0), fun h => absurd h (lt_irrefl 0), ?_⟩, fun _ => ⟨rfl, rfl⟩, rfl, ?_, rfl, (mul_zero _).symm,
    rfl, ?_⟩
  · intro a; fin_cases a
    · exact ⟨(by decide : 0 < 3), (by decide : 2 ≤ 3)⟩
    · exact ⟨(by decide : 0 < 4), (by decide : 2 ≤ 4)⟩
  · intro a; fin_cases a
    · exact Or.inl rfl
    · exact Or.inr (Or.inl rfl)
  · intro a; fin_cases a
    · exact Or.inl rfl
    · exact Or.inr (Or.inl rfl)
  · intro a h; fin_cases a <;> rcases h with h | h <;> cases h
  · simp only [exFlow2Start, setIn, Option.map_none, StepSettings.mk.injEq, true_and, and_true]
    norm_num
  · intro x hx
    refine ⟨?_, funext fun k => k.elim0⟩
    funext k
    simp [exFlow2Start, signed]

end PyClaw
