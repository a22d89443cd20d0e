import Verif.Lemmas.Units3
import Verif.Props.Units2
import Verif.Props.Superposition3

/-!
C101 for the three-dimensional methods: each axis may have its own unit of length.
-/
set_option linter.unusedSectionVars false

namespace PyClaw
open Spec

variable {K : Type*} [Field K] [LinearOrder K] [IsStrictOrderedRing K] {m w naux : Nat}

section
variable {σ : Fin m → K} {RA : (Fin naux → K) → Fin naux → K} {rpx rpx' rpy rpy' rpz rpz' : Riemann K (Fin naux → K) m w}
  {rtx rtx' rty rty' rtz rtz' : Transverse3 K (Fin naux → K) m} {rttx rttx' rtty rtty' rttz rttz' : Transverse33 K (Fin naux → K) m}

/-- C101, the unsplit method in three dimensions: `lx`, `ly`, `lz` are the factors of the units of length along the axes, `tx` that of the
unit of time, `σ` those of the components of the solution. `stale` and `stale'` are the contents of uninitialised memory in the two runs.
Missing: as in `C101_fortran1_partial`. -/
theorem C101_unsplit3_partial [FloorRing K] (undef : K) (cfg : Cfg3 K w) (capa : Option ((Fin naux → K) → K)) (stale stale' : Int → Fin m → K)
    (hst : cfg.order ≠ 1 ∨ cfg.trans / 10 ≠ 2)
    (lx ly lz tx : K) (hlx : 0 < lx) (hly : 0 < ly) (hlz : 0 < lz) (ht : 0 < tx)
    (hMx : InUnits σ (lx / tx) RA cfg.fwave rpx rpx') (hMy : InUnits σ (ly / tx) RA cfg.fwave rpy rpy')
    (hMz : InUnits σ (lz / tx) RA cfg.fwave rpz rpz')
    (hTx : Transverse3InUnits σ (lx / tx) (ly / tx) (lz / tx) RA rtx rtx' rttx rttx')
    (hTy : Transverse3InUnits σ (ly / tx) (lz / tx) (lx / tx) RA rty rty' rtty rtty')
    (hTz : Transverse3InUnits σ (lz / tx) (lx / tx) (ly / tx) RA rtz rtz' rttz rttz')
    (hσ : UnitsAllowed σ cfg.order cfg.limiter) (hc : ∀ κ, capa = some κ → ∀ z, κ (RA z) = κ z)
    (c c' : ParCfg (Fin 3) K) (hr : ClassicRun c m naux (intUnsplit3 undef rpx rpy rpz rtx rty rtz rttx rtty rttz cfg capa stale))
    (hr' : ClassicRun c' m naux (intUnsplit3 undef rpx' rpy' rpz' rtx' rty' rtz' rttx' rtty' rttz'
      { cfg with dx := lx * cfg.dx, dy := ly * cfg.dy, dz := lz * cfg.dz } capa stale'))
    (had : Admissible c.bc) (hs : Serial c.bc) (hbc : c'.bc = c.bc) (hg : cfg.g = c.bc.g) (rnd : K → K)
    (hrnd : ∀ x, rnd (tx * x) = tx * rnd x) (L L' : K)
    (ts : List (Option K)) (s s' : StepState K (GArr (Fin 3) K) (GArr (Fin 3) K × BCArrays (Fin 3) K))
    (hvar : s.set.dtVariable = true) (h : SameRun tx (Converted m naux c.bc.n σ RA) s s') :
    SameRun tx (Converted m naux c.bc.n σ RA) (runSteps (serialEnv c rnd L) (callsTo ts) s)
      (runSteps (serialEnv c' rnd L') (callsTo (ts.map fun t => t.map (tx * ·))) s') := by
  have hg2 : 2 ≤ cfg.g := by rw [hg]; exact hr.ghost
  refine run_unit (kernel_unit_of_local tx ht c c' _ _ hr hr' had hs hbc σ RA ?_ ?_ rnd hrnd L L') ts s s' hvar h
  · rw [← hg]
    exact unsplit3_localInt undef { cfg with dx := lx * cfg.dx, dy := ly * cfg.dy, dz := lz * cfg.dz } hg2 capa stale'
  · intro dt A Q
    have key := unit_unsplit3 (div_pos hlx ht) (div_pos hly ht) (div_pos hlz ht) hlx hly hlz (div_mul_cancel₀ lx ht.ne')
      (div_mul_cancel₀ ly ht.ne') (div_mul_cancel₀ lz ht.ne') undef
      { cfg with mx := c.bc.n 0, my := c.bc.n 1, mz := c.bc.n 2, dt := dt } (by dsimp only; omega) hMx hMy hMz hTx hTy hTz hσ hst capa hc
      stale stale' (fun i j k => A ![i, j, k]) (fun i j k => Q ![i, j, k])
    refine both_some (x := intUnsplit3 undef rpx rpy rpz rtx rty rtz rttx rtty rttz cfg capa stale dt c.bc.n A Q)
      (x' := intUnsplit3 undef rpx' rpy' rpz' rtx' rty' rtz' rttx' rtty' rttz'
        { cfg with dx := lx * cfg.dx, dy := ly * cfg.dy, dz := lz * cfg.dz } capa stale' (tx * dt) c.bc.n
        (fun v => RA (A v)) fun v => signed σ (Q v))
      (P := fun (r r' : (Fin 3 → Int) → Fin m → K) => ∀ v : Fin 3 → Int, (∀ a, 1 ≤ v a ∧ v a ≤ c.bc.n a) → r' v = signed σ (r v))
      rfl rfl key.2 fun v hv => ?_
    exact key.1 (v 0) (v 1) (v 2) (hv 0).1 (hv 0).2 (hv 1).1 (hv 1).2 (hv 2).1 (hv 2).2

/-- C101, dimensional splitting in three dimensions. -/
theorem C101_split3_partial [FloorRing K] (undef : K) (cfg : Cfg3 K w) (capa : Option ((Fin naux → K) → K))
    (lx ly lz tx : K) (hlx : 0 < lx) (hly : 0 < ly) (hlz : 0 < lz) (ht : 0 < tx)
    (hMx : InUnits σ (lx / tx) RA cfg.fwave rpx rpx') (hMy : InUnits σ (ly / tx) RA cfg.fwave rpy rpy')
    (hMz : InUnits σ (lz / tx) RA cfg.fwave rpz rpz')
    (hσ : UnitsAllowed σ cfg.order cfg.limiter) (hc : ∀ κ, capa = some κ → ∀ z, κ (RA z) = κ z)
    (c c' : ParCfg (Fin 3) K) (hr : ClassicRun c m naux (intSplit3 undef rpx rpy rpz cfg capa))
    (hr' : ClassicRun c' m naux (intSplit3 undef rpx' rpy' rpz' { cfg with dx := lx * cfg.dx, dy := ly * cfg.dy, dz := lz * cfg.dz } capa))
    (had : Admissible c.bc) (hs : Serial c.bc) (hbc : c'.bc = c.bc) (hg : cfg.g = c.bc.g) (rnd : K → K)
    (hrnd : ∀ x, rnd (tx * x) = tx * rnd x) (L L' : K)
    (ts : List (Option K)) (s s' : StepState K (GArr (Fin 3) K) (GArr (Fin 3) K × BCArrays (Fin 3) K))
    (hvar : s.set.dtVariable = true) (h : SameRun tx (Converted m naux c.bc.n σ RA) s s') :
    SameRun tx (Converted m naux c.bc.n σ RA) (runSteps (serialEnv c rnd L) (callsTo ts) s)
      (runSteps (serialEnv c' rnd L') (callsTo (ts.map fun t => t.map (tx * ·))) s') := by
  have hg2 : 2 ≤ cfg.g := by rw [hg]; exact hr.ghost
  refine run_unit (kernel_unit_of_local tx ht c c' _ _ hr hr' had hs hbc σ RA ?_ ?_ rnd hrnd L L') ts s s' hvar h
  · rw [← hg]
    exact split3_localInt undef { cfg with dx := lx * cfg.dx, dy := ly * cfg.dy, dz := lz * cfg.dz } hg2 capa
  · intro dt A Q
    have key := unit_split3 (div_pos hlx ht) (div_pos hly ht) (div_pos hlz ht) hlx hly hlz (div_mul_cancel₀ lx ht.ne')
      (div_mul_cancel₀ ly ht.ne') (div_mul_cancel₀ lz ht.ne') undef
      { cfg with mx := c.bc.n 0, my := c.bc.n 1, mz := c.bc.n 2, dt := dt } (by dsimp only; omega) hMx hMy hMz hσ capa hc
      (fun i j k => A ![i, j, k]) (fun i j k => Q ![i, j, k])
    refine both_some (x := intSplit3 undef rpx rpy rpz cfg capa dt c.bc.n A Q)
      (x' := intSplit3 undef rpx' rpy' rpz' { cfg with dx := lx * cfg.dx, dy := ly * cfg.dy, dz := lz * cfg.dz } capa (tx * dt) c.bc.n
        (fun v => RA (A v)) fun v => signed σ (Q v))
      (P := fun (r r' : (Fin 3 → Int) → Fin m → K) => ∀ v : Fin 3 → Int, (∀ a, 1 ≤ v a ∧ v a ≤ c.bc.n a) → r' v = signed σ (r v))
      rfl rfl key.2 fun v hv => ?_
    exact key.1 (v 0) (v 1) (v 2)

end

/-- The transverse solvers of advection in other units. -/
theorem advectionRt3_units (naux : Nat) (y z vx vy vz μ : K) (hy : 0 < vy) (hz : 0 < vz) :
    Transverse3InUnits (fun _ => μ) vx vy vz id (ignoreAux3 naux (advectionRt3 y z)) (ignoreAux3 naux (advectionRt3 (vy * y) (vz * z)))
      (ignoreAux33 naux (advectionRtt3 y z)) (ignoreAux33 naux (advectionRtt3 (vy * y) (vz * z))) := by
  have e1 : ∀ v x : K, 0 < v → min (v * x) 0 = v * min x 0 := fun v x hv => by
    have := mul_min' hv x 0
    rwa [mul_zero] at this
  have e2 : ∀ v x : K, 0 < v → max (v * x) 0 = v * max x 0 := fun v x hv => by
    have := mul_max' hv x 0
    rwa [mul_zero] at this
  intro icoor hic imp ql qr al ar a
  rcases hic with rfl | rfl <;>
  · simp only [if_true, show ¬ (3 = 2) by decide, if_false]
    refine ⟨Prod.ext ?_ ?_, fun impt => Prod.ext ?_ ?_⟩ <;> funext k <;>
    simp only [ignoreAux3, ignoreAux33, advectionRt3, advectionRtt3, if_true, show ¬ (3 = 2) by decide, if_false, Pi.smul_apply, smul_eq_mul,
      e1 _ _ hy, e2 _ _ hy, e1 _ _ hz, e2 _ _ hz] <;> ring

/-- The box of `exBox` without the source. -/
def exDuct (step : IntKern (Fin 3) ℚ 1 0) : ParCfg (Fin 3) ℚ := { exBox step with source := none }

/-- Non-vacuity of `C101_unsplit3_partial` and `C101_split3_partial`: a tracer carried with the velocity (2, -3, 1) in metres and seconds, and
the same with the length in kilometres, the width in metres, the depth in centimetres, the time in hours and the tracer in percent. -/
example (step step' : IntKern (Fin 3) ℚ 1 0) (a b : ℚ) :
    InUnits (fun _ => (100 : ℚ)) ((1 / 1000) / (1 / 3600)) id false (ignoreAux 0 (advectionRp 2))
      (ignoreAux 0 (advectionRp ((1 / 1000) / (1 / 3600) * 2))) ∧
    Transverse3InUnits (fun _ => (100 : ℚ)) ((1 / 1000) / (1 / 3600)) (1 / (1 / 3600)) (100 / (1 / 3600)) id
      (ignoreAux3 0 (advectionRt3 (-3) 1)) (ignoreAux3 0 (advectionRt3 (1 / (1 / 3600) * (-3)) (100 / (1 / 3600) * 1)))
      (ignoreAux33 0 (advectionRtt3 (-3) 1)) (ignoreAux33 0 (advectionRtt3 (1 / (1 / 3600) * (-3)) (100 / (1 / 3600) * 1))) ∧
    UnitsAllowed (fun _ : Fin 1 => (100 : ℚ)) 2 (fun _ : Fin 1 => 4) ∧
    ClassicRun (exDuct step) 1 0 step ∧ Admissible (exDuct step).bc ∧ Serial (exDuct step).bc ∧
    (exDuct step').bc = (exDuct step).bc ∧
    SameRun (1 / 3600) (Converted 1 0 (exDuct step).bc.n (fun _ => 100) id) (exCorner a b)
      { exCorner (100 * a) (100 * b) with set := ⟨true, 1 / 8 / 3600, none, 1 / 3600, 1, 9 / 10, 100, 1 / 2⟩ } := by
  refine ⟨advection_units 0 2 _ _ (by norm_num), advectionRt3_units 0 (-3) 1 _ _ _ _ (by norm_num) (by norm_num),
    Or.inl ⟨100 * 100, by norm_num, fun _ => rfl⟩, ⟨⟨rfl, fun _ _ _ _ => rfl, fun _ _ _ _ => rfl⟩, le_refl 2, rfl, rfl, rfl⟩,
    ⟨?_, ?_, ?_, fun h => absurd h (lt_irrefl 0), fun h => absurd h (lt_irrefl 0), ?_⟩, fun _ => ⟨rfl, rfl⟩, rfl, ?_, rfl, (mul_zero _).symm,
    rfl, ?_⟩
  · intro a; fin_cases a <;> exact ⟨by simp [exDuct, exBox], by simp [exDuct, exBox]⟩
  · intro a; fin_cases a <;> simp [exDuct, exBox, BuiltInBC]
  · intro a; fin_cases a <;> simp [exDuct, exBox, BuiltInBC]
  · intro a h; fin_cases a <;> simp [exDuct, exBox] at h ⊢
  · simp only [exCorner, setIn, Option.map_none, StepSettings.mk.injEq, true_and, and_true]
    norm_num
  · intro x hx
    refine ⟨?_, funext fun k => k.elim0⟩
    funext k
    show (if _ then 100 * a else 100 * b) = 100 * (if x 0 = 0 ∧ x 1 = 0 ∧ x 2 = 0 then a else b)
    rw [mul_ite]

end PyClaw
