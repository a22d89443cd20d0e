import Verif.Lemmas.SharpKernels
import Verif.Lemmas.SharpPair
import Verif.Props.ParallelSplit

set_option linter.unusedSectionVars false

/-!
C95: SharpClaw runs on several processes compute what the serial run computes.
-/
namespace PyClaw
open Spec

variable {ι K : Type*} [DecidableEq ι] [Field K] [LinearOrder K] [IsStrictOrderedRing K] {m w naux : Nat}

/-- The processes hold the parts of the global array. -/
def partsSub (D : Decomp ι) : Submodule K (GArr ι K × (Proc ι → GArr ι K)) where
  carrier := {x | ∀ P, ValidProc D P → IsPart D P x.1 (x.2 P)}
  add_mem' := by
    intro x y hx hy P hP c idx h
    exact congrArg₂ (· + ·) (hx P hP c idx h) (hy P hP c idx h)
  zero_mem' := fun P _ c idx _ => rfl
  smul_mem' := by
    intro a x hx P hP c idx h
    exact congrArg (a * ·) (hx P hP c idx h)

theorem withSource_part (c : SharpGrid ι K) {D : Decomp ι} {P : Proc ι} (dt t : K) {q aux d q' aux' d' : GArr ι K} (hq : IsPart D P q q')
    (ha : IsPart D P aux aux') (hd : IsPart D P d d') :
    IsPart D P (withSource c (fun _ => 0) dt t q aux d) (withSource c (D.lo P) dt t q' aux' d') := by
  unfold withSource
  cases c.source with
  | none => exact hd
  | some f =>
    intro k idx h
    exact congrArg₂ (· + ·) (hd k idx h) (cellwise_part hq ha (f dt t) k idx h)

theorem parallel_linked (c : SharpGrid ι K) (D : Decomp ι) (ok : RunOk c.par D) (aux : GArr ι K) (auxP : Proc ι → GArr ι K)
    (haux : ∀ P, ValidProc D P → IsPart D P aux (auxP P)) :
    Linked (partsSub D) (serialSharp c aux) (parallelSharp c D auxP) where
  dq := by
    intro dt t q q' hq
    have hparts : Parts D (gridData q aux) (fun P => gridData (q' P) (auxP P)) := fun P hP => ⟨hq P hP, haux P hP⟩
    have hmem : ∀ P, P ∈ D.procs c.axes ↔ ValidProc D P := fun P => mem_procs_valid D c.axes ok.nodup ok.all P
    show ((dqSerial c aux dt t q).1, (dqParallel c D auxP dt t q').1) ∈ partsSub D ∧ (dqParallel c D auxP dt t q').2 = (dqSerial c aux dt t q).2
    rcases hyp_agrees ok dt (fun _ => dt) (fun _ _ => rfl) _ _ hparts with ⟨S', cfl, cP, h1, h2, h3, h4⟩ | ⟨h1, h2, h3⟩
    · obtain ⟨x, hx, hmax⟩ := reduce_ok (fun P => hypLocal c.par D dt (fun P => gridData (q' P) (auxP P)) P) cP (D.procs c.axes)
        (fun P hP => h2 P ((hmem P).mp hP))
      have hxc : x = cfl := isMax_unique (isMax_congr (fun v => by simp only [hmem]) hmax) h4
      unfold dqSerial dqParallel
      rw [h1]
      dsimp only
      rw [hx]
      exact ⟨fun P hP => withSource_part c dt t (hq P hP) (haux P hP) (h3 P hP).1, hxc⟩
    · have hr := reduce_err (fun P => hypLocal c.par D dt (fun P => gridData (q' P) (auxP P)) P) stopErr (D.procs c.axes)
        (fun P hP => h2 P ((hmem P).mp hP)) (by obtain ⟨P, hP, h⟩ := h3; exact ⟨P, (hmem P).mpr hP, h⟩)
      unfold dqSerial dqParallel
      rw [h1]
      dsimp only
      rw [hr]
      exact ⟨(partsSub D).zero_mem, rfl⟩
  stage := fun t q q' hq P hP => cellwise_part (hq P hP) (haux P hP) (c.stage t)
  before := fun t q q' hq P hP => cellwise_part (hq P hP) (haux P hP) (c.before t)

theorem dqArrays_local {g : Nat} {step : IntKern ι K m naux} (h : LocalKernel (onArrays m naux g step) g naux) :
    LocalKernel (dqArrays m naux g step) g naux := by
  refine ⟨fun dt n D hD hn G L hpart => ?_⟩
  obtain ⟨h1, h2⟩ := h.split dt n D hD hn G L hpart
  constructor
  · intro hno
    obtain ⟨P, hP, h⟩ := h1 (by simpa [dqArrays] using hno)
    exact ⟨P, hP, by simp [dqArrays, h]⟩
  · intro r cfl hr
    unfold dqArrays at hr
    rw [Option.map_eq_some_iff] at hr
    obtain ⟨⟨r0, c0⟩, h0, he⟩ := hr
    obtain ⟨rfl, rfl⟩ := Prod.mk.inj he
    obtain ⟨rP, cP, h3, h4⟩ := h2 r0 c0 h0
    refine ⟨fun P c idx => if c < m then rP P c idx else 0, cP, fun P hP => ⟨?_, fun c idx hidx => ?_⟩, h4⟩
    · simp [dqArrays, (h3 P hP).1]
    · dsimp only
      rw [(h3 P hP).2 c idx hidx]

/-- C95: a SharpClaw problem whose kernel treats the parts of a distributed grid like the whole. On any number of processes, with any
distribution in which every process has at least `num_ghost` cells along each axis: if each process starts with its part of the serial
solution, then after any sequence of `evolve_to_time` calls (any time integrator, variable or fixed steps, rejected steps, exceptions)
each process has its part of the serial solution and of all stored stages; times, step sizes, Courant numbers, accepted and rejected
steps and exceptions are those of the serial run. -/
theorem C95_run [FloorRing K] (c : SharpGrid ι K) (D : Decomp ι) (ok : RunOk c.par D) (aux : GArr ι K) (auxP : Proc ι → GArr ι K)
    (haux : ∀ P, ValidProc D P → IsPart D P aux (auxP P)) (cfg : SharpCfg K) (goals : List (SharpGoal K))
    (r : SharpRun K (GArr ι K)) (r' : SharpRun K (Proc ι → GArr ι K))
    (h : SameSharp (fun G L => ∀ P, ValidProc D P → IsPart D P G (L P)) r r') :
    SameSharp (fun G L => ∀ P, ValidProc D P → IsPart D P G (L P)) (sharpSessionC (serialSharp c aux) cfg goals r).1
      (sharpSessionC (parallelSharp c D auxP) cfg goals r').1 ∧
    (sharpSessionC (parallelSharp c D auxP) cfg goals r').2 = (sharpSessionC (serialSharp c aux) cfg goals r).2 :=
  pair_session (parallel_linked c D ok aux auxP haux) cfg goals h

/-- C95, the one-dimensional Fortran kernel meets the condition of `C95_run`, for all reconstructions of `ReconOk`, any Riemann solver, with
or without a total fluctuation solver. Missing: the wave-based TVD reconstruction, see `C95_tvd_wave_violated`, and capacity functions
in a library built so that `dtdx` is numbered from 1. -/
theorem C95_flux1_partial (f2003 : Bool) (R : ReconCfg K m w) (g : Nat) (hR : R.Fits g) (capa : Option ((Fin naux → K) → K))
    (hcap : capa = none ∨ f2003 = false) (rp : Riemann K (Fin naux → K) m w) (tf : TotalFluct K (Fin naux → K) m) (dx : K) :
    LocalKernel (dqArrays m naux g (intFlux1 f2003 R rp tf g dx capa)) g naux :=
  dqArrays_local ((flux1_wide f2003 R g capa hcap hR rp tf dx).localKernel hR.1)

/-- C95, the same in two dimensions. -/
theorem C95_flux2_partial (f2003 : Bool) (R : ReconCfg K m w) (g : Nat) (hR : R.Fits g) (capa : Option ((Fin naux → K) → K))
    (hcap : capa = none ∨ f2003 = false) (rpx rpy : Riemann K (Fin naux → K) m w) (tfx tfy : TotalFluct K (Fin naux → K) m) (dx dy : K) :
    LocalKernel (dqArrays m naux g (intFlux2 f2003 R rpx rpy tfx tfy g dx dy capa)) g naux :=
  dqArrays_local ((flux2_wide f2003 R g capa hcap hR rpx rpy tfx tfy dx dy).localKernel hR.1)

/-- C95, the same in three dimensions. -/
theorem C95_flux3_partial (f2003 : Bool) (R : ReconCfg K m w) (g : Nat) (hR : R.Fits g) (capa : Option ((Fin naux → K) → K))
    (hcap : capa = none ∨ f2003 = false) (rpx rpy rpz : Riemann K (Fin naux → K) m w) (tfx tfy tfz : TotalFluct K (Fin naux → K) m)
    (dx dy dz : K) : LocalKernel (dqArrays m naux g (intFlux3 f2003 R rpx rpy rpz tfx tfy tfz g dx dy dz capa)) g naux :=
  dqArrays_local ((flux3_wide f2003 R g capa hcap hR rpx rpy rpz tfx tfy tfz dx dy dz).localKernel hR.1)

/-! ### The wave-based TVD reconstruction -/

/-- `lim_type = 1`, `char_decomp = 1`, minmod. -/
def tvdWaveCfg : ReconCfg ℚ 1 1 where
  eps := 0
  tol := 0
  undef := 0
  first := 0
  limType := 1
  charDecomp := 1
  order := 0
  fwave := false
  limEqn := fun _ => 1
  limWave := fun _ => 1
  old := ⟨fun _ => 0, fun _ => 0⟩

/-- C95 fails for the wave-based TVD reconstruction, which leaves out the last interface of the grid of each process: advection, four
cells with values 4, 9, 16, 25, two processes; the second cell of the first process gets another value than in the serial run. -/
theorem C95_tvd_wave_violated :
    ¬ LocalKernel (dqArrays 1 0 2 (intFlux1 true tvdWaveCfg (fun ql qr _ _ => advectionRp (1 : ℚ) ql qr () ()) none 2 1 none)) 2 0 := by
  intro h
  have hv := (localKernel_value h (1 / 2) (fun _ => 4) twoParts1 twoParts1_good (fun _ => by decide) squares1 _ _ rfl
    (fun _ => 0) (fun a => by simp [twoParts1]) _ _ rfl).1 0 (fun _ => 1) (fun a => by simp [Decomp.size, twoParts1])
  revert hv; decide +kernel

/-! ### A problem that meets the hypotheses of `C95_run` -/

/-- Six processes on a grid of 7 by 10 cells. -/
def sixWide : Decomp (Fin 2) := ⟨![7, 10], ![2, 3], fun a k => if a = 0 then (if k = 0 then 0 else if k = 1 then 3 else 7) else
  if k = 0 then 0 else if k = 1 then 3 else if k = 2 then 6 else 10⟩

theorem sixWide_good : GoodDecomp sixWide ![7, 10] 3 := by
  refine ⟨rfl, fun a => ⟨?_, ?_, ?_⟩, fun P hP a => ?_⟩
  · fin_cases a <;> rfl
  · fin_cases a <;> rfl
  · intro k hk
    fin_cases a
    · have hk : k < 2 := hk
      interval_cases k <;> decide
    · have hk : k < 3 := hk
      interval_cases k <;> decide
  · have := hP a
    generalize hk : P a = k at this
    simp only [Decomp.size, hk]
    fin_cases a
    · have hk : k < 2 := this
      interval_cases k <;> decide
    · have hk : k < 3 := this
      interval_cases k <;> decide

/-- The WENO reconstruction of order 5, three equations and two waves. -/
def wenoCfg5 : ReconCfg ℚ 3 2 where
  eps := 1 / 1000000
  tol := 0
  undef := 0
  first := 0
  limType := 2
  charDecomp := 0
  order := 5
  fwave := false
  limEqn := fun _ => 1
  limWave := fun _ => 1
  old := ⟨fun _ => 0, fun _ => 0⟩

theorem wenoCfg5_fits : wenoCfg5.Fits 3 := by
  refine ⟨by norm_num, ?_, ?_, ?_⟩ <;> simp [wenoCfg5]

/-- The reconstruction is one that the library has. -/
theorem wenoCfg5_supported : wenoCfg5.Supported 3 := by
  simp [ReconCfg.Supported, reconRow, fRecon, wenoCfg5, wenoComp]

/-- Reflection and extrapolation in the first direction, periodic in the second; `flux2` for any Riemann solvers; a source term. -/
def exSharp (rpx rpy : Riemann ℚ (Fin 1 → ℚ) 3 2) : SharpGrid (Fin 2) ℚ where
  bc := { exampleBC with n := ![7, 10], g := 3 }
  axes := [0, 1]
  kern := dqArrays 3 1 3 (intFlux2 false wenoCfg5 rpx rpy none none 3 (1 / 7) (1 / 10) (some fun a => a 0))
  source := some fun dt t _ q aux k => dt * (q k + aux 0 + t)
  before := fun _ _ q _ => q
  stage := fun t _ q aux k => q k + t * aux 0

/-- Non-vacuity of `C95_run`: this problem can be distributed over the six processes. -/
theorem exSharp_ok (rpx rpy : Riemann ℚ (Fin 1 → ℚ) 3 2) : RunOk (exSharp rpx rpy).par sixWide where
  bc := by
    have h := exampleBC_admissible.1
    exact ⟨(by decide : ∀ a : Fin 2, 0 < (![7, 10] : Fin 2 → Nat) a ∧ 3 ≤ (![7, 10] : Fin 2 → Nat) a), h.lower, h.upper, h.auxLower, h.auxUpper,
      h.reflect⟩
  ser := exampleBC_admissible.2
  nodup := (by decide : ([0, 1] : List (Fin 2)).Nodup)
  all := (by decide : ∀ a : Fin 2, a ∈ [0, 1])
  good := sixWide_good
  kern := C95_flux2_partial false wenoCfg5 3 wenoCfg5_fits (some fun a => a 0) (Or.inr rfl) rpx rpy none none (1 / 7) (1 / 10)

/-- Every serial run can be distributed. -/
theorem sharp_parts_exist (D : Decomp ι) (r : SharpRun K (GArr ι K)) :
    ∃ r' : SharpRun K (Proc ι → GArr ι K), SameSharp (fun G L => ∀ P, ValidProc D P → IsPart D P G (L P)) r r' := by
  let f : GArr ι K →ₗ[K] (Proc ι → GArr ι K) :=
    { toFun := fun q P c idx => q c fun a => D.lo P a + idx a, map_add' := fun _ _ => rfl, map_smul' := fun _ _ => rfl }
  have hf : ∀ q P, ValidProc D P → IsPart D P q (f q P) := fun q P _ c idx _ => rfl
  refine ⟨r.map f, ?_⟩
  refine ⟨rfl, rfl, rfl, rfl, rfl, rfl, rfl, rfl, rfl, rfl, rfl, rfl, hf _, hf _, ?_, ?_, ?_⟩
  · exact List.forall₂_map_right_iff.mpr (List.forall₂_same.mpr fun x _ => ⟨hf _, rfl⟩)
  · exact List.forall₂_map_right_iff.mpr (List.forall₂_same.mpr fun x _ => hf _)
  · exact List.forall₂_map_right_iff.mpr (List.forall₂_same.mpr fun x _ => ⟨rfl, rfl, rfl, rfl, rfl, rfl, rfl, hf _, hf _⟩)

end PyClaw
