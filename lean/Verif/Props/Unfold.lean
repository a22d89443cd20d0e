import Verif.Lemmas.SharpUnfold
import Verif.Props.Walls3
import Verif.Props.SharpWalls
import Verif.Props.ParallelKernels

set_option linter.unusedSectionVars false

/-!
C92 on grids of two and three dimensions, and in SharpClaw: a wall is a mirror. A run in front of a wall is the one half of a run on a grid
twice as long whose data are continued by their image behind the wall.
-/
namespace PyClaw
open Spec

variable {K : Type*} [Field K] [LinearOrder K] [IsStrictOrderedRing K] {d m w naux : Nat}

theorem own_mirror2 (undef : K) (a : Fin 2) (cfg : Cfg2 K w) (hg : 2 ≤ cfg.g) (capa : Option ((Fin naux → K) → K))
    {σ : Fin m → K} (hσ : IsSign σ) (rp : Fin 2 → Riemann K (Fin naux → K) m w) (rt : Fin 2 → Transverse K (Fin naux → K) m)
    (hM : OwnImage2 σ cfg.fwave cfg.order cfg.limiter (rp a) (rp (otherAxis a)))
    (ht : MirrorTransverse σ id (rt a) (rt a)) (ht' : SidewaysTransverse σ id (rt (otherAxis a)) (rt (otherAxis a))) (n : Fin 2 → Nat) :
    ImageStep (intUnsplit2 undef (rp 0) (rp 1) (rt 0) (rt 1) cfg capa) (intUnsplit2 undef (rp 0) (rp 1) (rt 0) (rt 1) cfg capa) n n
      (fun v => Function.update v a ((n a : Int) + 1 - v a)) (signed σ) id := by
  obtain ⟨⟨π, h1, l1⟩, ⟨π', h2, l2⟩, hf⟩ := hM
  intro dt A Q
  refine both_some (x := intUnsplit2 undef (rp 0) (rp 1) (rt 0) (rt 1) cfg capa dt n A Q)
    (x' := intUnsplit2 undef (rp 0) (rp 1) (rt 0) (rt 1) cfg capa dt n _ _)
    (P := fun (r r' : (Fin 2 → Int) → Fin m → K) => ∀ v : Fin 2 → Int, (∀ a, 1 ≤ v a ∧ v a ≤ n a) →
      r' v = signed σ (r (Function.update v a ((n a : Int) + 1 - v a)))) rfl rfl ?_ ?_
  all_goals
    fin_cases a
    · have key := mirrorX_step hσ undef { cfg with mx := n 0, my := n 1, dt := dt } cfg.limiter (by dsimp only; omega) h1 h2 ht ht' l1 l2 hf
        capa (fun _ _ _ => rfl) (fun i j => A ![i, j]) (fun i j => Q ![i, j])
      simp only [Fin.zero_eta, update_pair0, Matrix.cons_val_zero]
      first
        | exact key.2
        | intro v hv
          exact key.1 (v 0) (v 1) (hv 0).1 (hv 0).2 (hv 1).1 (hv 1).2
    · have key := mirrorY_step hσ undef { cfg with mx := n 0, my := n 1, dt := dt } cfg.limiter (by dsimp only; omega) h2 h1 ht' ht l2 l1 hf
        capa (fun _ _ _ => rfl) (fun i j => A ![i, j]) (fun i j => Q ![i, j])
      simp only [Fin.mk_one, update_pair1, Matrix.cons_val_one]
      first
        | exact key.2
        | intro v hv
          exact key.1 (v 0) (v 1) (hv 0).1 (hv 0).2 (hv 1).1 (hv 1).2

/-- C92 in the plane, without dimensional splitting: a wall at the upper end of axis `a`, at its lower end an open end or another wall; any
conditions along the other axis. `rp b` and `rt b` are the solvers for the sweeps along axis `b`; those across the wall do not tell a
problem from its image. Full statement: also for f-waves of speed 0 and second order (there see `C91_fwave_violated`), and for the kernel
with dimensional splitting (for this see `C92_split2_partial`). -/
theorem C92_unsplit2_partial [FloorRing K] (undef : K) (a : Fin 2) (cfg : Cfg2 K w) (capa : Option ((Fin naux → K) → K))
    (rp : Fin 2 → Riemann K (Fin naux → K) m w) (rt : Fin 2 → Transverse K (Fin naux → K) m) (c c' : ParCfg (Fin 2) K)
    (hM : OwnImage2 (axisSign c.bc a m) cfg.fwave cfg.order cfg.limiter (rp a) (rp (otherAxis a)))
    (ht : MirrorTransverse (axisSign c.bc a m) id (rt a) (rt a))
    (ht' : SidewaysTransverse (axisSign c.bc a m) id (rt (otherAxis a)) (rt (otherAxis a)))
    (hr : ClassicRun c m naux (intUnsplit2 undef (rp 0) (rp 1) (rt 0) (rt 1) cfg capa))
    (hr' : ClassicRun c' m naux (intUnsplit2 undef (rp 0) (rp 1) (rt 0) (rt 1) cfg capa))
    (ha : Admissible c.bc) (hs : Serial c.bc) (hg : cfg.g = c.bc.g)
    (hw : c.bc.bcUpper a = .wall) (hwx : 0 < naux → c.bc.auxUpper a = .wall)
    (hp : c.bc.bcLower a ≠ .periodic) (hpx : 0 < naux → c.bc.auxLower a ≠ .periodic)
    (hbc : c'.bc = unfoldAxis a c.bc) (rnd : K → K) (L L' : K)
    (ops : List (StepOp K (GArr (Fin 2) K) (GArr (Fin 2) K × BCArrays (Fin 2) K))) (hops : OnlyEvolves ops)
    (s s' : StepState K (GArr (Fin 2) K) (GArr (Fin 2) K × BCArrays (Fin 2) K))
    (h : InStep (UnfoldedAlong m naux c.bc.n a (axisSign c.bc a m)) s s') :
    InStep (UnfoldedAlong m naux c.bc.n a (axisSign c.bc a m)) (runSteps (serialEnv c rnd L) ops s)
      (runSteps (serialEnv c' rnd L') ops s') := by
  have hg2 : 2 ≤ cfg.g := by rw [hg]; exact hr.ghost
  exact unfoldAxis_run (agree_refl _) c c' hr hr' ha hs a hbc (by rw [← hg]; exact unsplit2_stencil undef _ _ _ _ cfg hg2 capa)
    (own_mirror2 undef a cfg hg2 capa (axisSign_isSign c.bc a) rp rt hM ht ht' c.bc.n) hw hwx hp hpx rnd L L' ops hops s s' h

theorem step3X_cfl_stale {A : Type*} (undef : K) (rp : Riemann K A m w) (rt : Transverse3 K A m) (rtt : Transverse33 K A m)
    (c : Cfg3 K w) (capa : Option (A → K)) (stale stale' : Int → Fin m → K) (aux : Int → Int → Int → A)
    (q qn qn' : Int → Int → Int → Fin m → K) :
    (step3X undef rp rt rtt c capa stale' aux q qn').2 = (step3X undef rp rt rtt c capa stale aux q qn).2 := by
  have e : ∀ (stale : Int → Fin m → K) (qn : Int → Int → Int → Fin m → K), (step3X undef rp rt rtt c capa stale aux q qn).2 =
      (pairs 0 (c.my + 2) 0 (c.mz + 2)).foldl (fun x (y : Int × Int) => max x
        (fCfl c.mx (sliceRatio c.dt c.dx capa fun i => aux i y.1 y.2)
          (interfaces rp (fun i => aux i y.1 y.2) (fun i => q i y.1 y.2)))) 0 := by
    intro stale qn
    unfold step3X
    have := foldl_pairs (fun (st : (Int → Int → Int → Fin m → K) × K) (y : Int × Int) =>
      (unsplitUpdate3 c capa aux y.1 y.2 (unsplitSlice3 undef rp rt rtt c capa stale aux q y.1 y.2) st.1,
        max st.2 (unsplitSlice3 undef rp rt rtt c capa stale aux q y.1 y.2).cfl)) 0 (c.my + 2) 0 (c.mz + 2) (qn, 0)
    refine (congrArg Prod.snd this).trans ?_
    refine (foldl_max_snd (fun v (y : Int × Int) => unsplitUpdate3 c capa aux y.1 y.2 (unsplitSlice3 undef rp rt rtt c capa stale aux q y.1 y.2) v)
      (fun (y : Int × Int) => (unsplitSlice3 undef rp rt rtt c capa stale aux q y.1 y.2).cfl) _ qn 0).trans ?_
    rfl
  rw [e, e]

theorem unsplit3_agree (undef : K) (rp : Fin 3 → Riemann K (Fin naux → K) m w) (rt : Fin 3 → Transverse3 K (Fin naux → K) m)
    (rtt : Fin 3 → Transverse33 K (Fin naux → K) m) (cfg : Cfg3 K w) (hg : 2 ≤ cfg.g) (capa : Option ((Fin naux → K) → K))
    (stale stale' : Int → Fin m → K) (hst : cfg.order ≠ 1 ∨ cfg.trans / 10 ≠ 2) :
    AgreeInside (unsplit3 undef rp rt rtt cfg capa stale) (unsplit3 undef rp rt rtt cfg capa stale') := by
  intro dt n A Q
  refine both_some (x := unsplit3 undef rp rt rtt cfg capa stale dt n A Q) (x' := unsplit3 undef rp rt rtt cfg capa stale' dt n A Q)
    (P := fun (r r' : (Fin 3 → Int) → Fin m → K) => ∀ v : Fin 3 → Int, (∀ a, 1 ≤ v a ∧ v a ≤ n a) → r' v = r v) rfl rfl ?_ fun v hv => ?_
  · exact congrArg₂ max (congrArg₂ max (step3X_cfl_stale ..) (step3X_cfl_stale ..)) (step3X_cfl_stale ..)
  exact C72_determined_partial undef (rp 0) (rp 1) (rp 2) (rt 0) (rt 1) (rt 2) (rtt 0) (rtt 1) (rtt 2)
    { cfg with mx := n 0, my := n 1, mz := n 2, dt := dt } (by dsimp only; omega) capa stale' stale hst _ _ (v 0) (v 1) (v 2)
    (hv 0).1 (hv 0).2 (hv 1).1 (hv 1).2 (hv 2).1 (hv 2).2

/-- C92 in space, without dimensional splitting. `hst`: see `C72_determined_violated`. Missing as in the plane. -/
theorem C92_unsplit3_partial [FloorRing K] (undef : K) (a : Fin 3) (cfg : Cfg3 K w) (capa : Option ((Fin naux → K) → K))
    (stale stale' : Int → Fin m → K) (rp : Fin 3 → Riemann K (Fin naux → K) m w) (rt : Fin 3 → Transverse3 K (Fin naux → K) m)
    (rtt : Fin 3 → Transverse33 K (Fin naux → K) m) (π : Fin 3 → Equiv.Perm (Fin w)) (c c' : ParCfg (Fin 3) K)
    (hM : MirrorImage3 a (axisSign c.bc a m) id π cfg.fwave rp rp rt rt rtt rtt)
    (hl : ∀ b p, cfg.limiter (π b p) = cfg.limiter p)
    (hf : cfg.fwave = true → cfg.order ≠ 1 → ∀ ql qr al ar p, (rp a ql qr al ar).s p ≠ 0)
    (hst : cfg.order ≠ 1 ∨ cfg.trans / 10 ≠ 2)
    (hr : ClassicRun c m naux (unsplit3 undef rp rt rtt cfg capa stale))
    (hr' : ClassicRun c' m naux (unsplit3 undef rp rt rtt cfg capa stale'))
    (ha : Admissible c.bc) (hs : Serial c.bc) (hg : cfg.g = c.bc.g)
    (hw : c.bc.bcUpper a = .wall) (hwx : 0 < naux → c.bc.auxUpper a = .wall)
    (hp : c.bc.bcLower a ≠ .periodic) (hpx : 0 < naux → c.bc.auxLower a ≠ .periodic)
    (hbc : c'.bc = unfoldAxis a c.bc) (rnd : K → K) (L L' : K)
    (ops : List (StepOp K (GArr (Fin 3) K) (GArr (Fin 3) K × BCArrays (Fin 3) K))) (hops : OnlyEvolves ops)
    (s s' : StepState K (GArr (Fin 3) K) (GArr (Fin 3) K × BCArrays (Fin 3) K))
    (h : InStep (UnfoldedAlong m naux c.bc.n a (axisSign c.bc a m)) s s') :
    InStep (UnfoldedAlong m naux c.bc.n a (axisSign c.bc a m)) (runSteps (serialEnv c rnd L) ops s)
      (runSteps (serialEnv c' rnd L') ops s') := by
  have hg2 : 2 ≤ cfg.g := by rw [hg]; exact hr.ghost
  exact unfoldAxis_run (unsplit3_agree undef rp rt rtt cfg hg2 capa stale stale' hst) c c' hr hr' ha hs a hbc
    (by rw [← hg]; exact unsplit3_stencil undef _ _ _ _ _ _ _ _ _ cfg hg2 hst capa stale)
    (mirror_image3 undef a cfg cfg.limiter hg2 capa stale stale (axisSign_isSign c.bc a) hM hl (fun _ _ _ => rfl) hf hst c.bc.n)
    hw hwx hp hpx rnd L L' ops hops s s' h

/-! ### SharpClaw -/

variable [FloorRing K]

/-- C92 for SharpClaw in one dimension, with any time integrator: a wall on the right, an open end or another wall on the left. Missing:
the reconstructions that prefer a side (see `C108_limiter_violated` and `C108_tvd_wave_violated`), and capacity functions in a library
built so that `dtdx` is numbered from 1. -/
theorem C92_sharp1_partial (f2003 : Bool) (R : ReconCfg K m w) (capa : Option ((Fin naux → K) → K)) (hcap : capa = none ∨ f2003 = false)
    (c c' : SharpGrid (Fin 1) K) (hR : R.Fits c.bc.g) (rp : Riemann K (Fin naux → K) m w) (tf : TotalFluct K (Fin naux → K) m) (dx : K)
    (hM : OwnImageSharp c.bc R (fun _ => rp) (fun _ => tf) 0)
    (hk : c.kern = dqArrays m naux c.bc.g (intFlux1 f2003 R rp tf c.bc.g dx capa))
    (hk' : c'.kern = dqArrays m naux c'.bc.g (intFlux1 f2003 R rp tf c.bc.g dx capa)) (hp : SharpProblem c naux)
    (hax : c'.axes = c.axes) (hbc : c'.bc = unfoldAxis 0 c.bc)
    (hw : c.bc.bcUpper 0 = .wall) (hwx : 0 < naux → c.bc.auxUpper 0 = .wall)
    (hpl : c.bc.bcLower 0 ≠ .periodic) (hpx : 0 < naux → c.bc.auxLower 0 ≠ .periodic)
    (hact : UnfoldedActions m naux 0 (axisSign c.bc 0 m) c c')
    (aux aux' : GArr (Fin 1) K) (haux : UnfoldedArray naux c.bc.n 0 (fun _ => 1) aux aux')
    (cfg : SharpCfg K) (goals : List (SharpGoal K)) (r r' : SharpRun K (GArr (Fin 1) K))
    (h : SameSharp (UnfoldedArray m c.bc.n 0 (axisSign c.bc 0 m)) r r') :
    SameSharp (UnfoldedArray m c.bc.n 0 (axisSign c.bc 0 m)) (sharpSessionC (serialSharp c aux) cfg goals r).1
      (sharpSessionC (serialSharp c' aux') cfg goals r').1 ∧
    (sharpSessionC (serialSharp c' aux') cfg goals r').2 = (sharpSessionC (serialSharp c aux) cfg goals r).2 :=
  pair_session (unfold_linked f2003 R capa (rp := fun _ => rp) (tf := fun _ => tf) (fun _ => dx) 0 c c' hcap hR
    (flux1_sweeps f2003 R c.bc.g capa hcap hR (fun _ => rp) (fun _ => tf) fun _ => dx) hM hk hk' hp hax hbc hw hwx hpl hpx hact aux aux' haux)
    cfg goals h

/-- C92 for SharpClaw in the plane: a wall at the upper end of axis `a`. -/
theorem C92_sharp2_partial (f2003 : Bool) (R : ReconCfg K m w) (capa : Option ((Fin naux → K) → K)) (hcap : capa = none ∨ f2003 = false)
    (a : Fin 2) (c c' : SharpGrid (Fin 2) K) (hR : R.Fits c.bc.g) (rp : Fin 2 → Riemann K (Fin naux → K) m w)
    (tf : Fin 2 → TotalFluct K (Fin naux → K) m) (dx : Fin 2 → K) (hM : OwnImageSharp c.bc R rp tf a)
    (hk : c.kern = dqArrays m naux c.bc.g (intFlux2 f2003 R (rp 0) (rp 1) (tf 0) (tf 1) c.bc.g (dx 0) (dx 1) capa))
    (hk' : c'.kern = dqArrays m naux c'.bc.g (intFlux2 f2003 R (rp 0) (rp 1) (tf 0) (tf 1) c.bc.g (dx 0) (dx 1) capa))
    (hp : SharpProblem c naux) (hax : c'.axes = c.axes) (hbc : c'.bc = unfoldAxis a c.bc)
    (hw : c.bc.bcUpper a = .wall) (hwx : 0 < naux → c.bc.auxUpper a = .wall)
    (hpl : c.bc.bcLower a ≠ .periodic) (hpx : 0 < naux → c.bc.auxLower a ≠ .periodic)
    (hact : UnfoldedActions m naux a (axisSign c.bc a m) c c')
    (aux aux' : GArr (Fin 2) K) (haux : UnfoldedArray naux c.bc.n a (fun _ => 1) aux aux')
    (cfg : SharpCfg K) (goals : List (SharpGoal K)) (r r' : SharpRun K (GArr (Fin 2) K))
    (h : SameSharp (UnfoldedArray m c.bc.n a (axisSign c.bc a m)) r r') :
    SameSharp (UnfoldedArray m c.bc.n a (axisSign c.bc a m)) (sharpSessionC (serialSharp c aux) cfg goals r).1
      (sharpSessionC (serialSharp c' aux') cfg goals r').1 ∧
    (sharpSessionC (serialSharp c' aux') cfg goals r').2 = (sharpSessionC (serialSharp c aux) cfg goals r).2 := by
  have S := flux2_wide f2003 R c.bc.g capa hcap hR (rp 0) (rp 1) (tf 0) (tf 1) (dx 0) (dx 1)
  simp only [eta_two] at S
  exact pair_session (unfold_linked f2003 R capa dx a c c' hcap hR S hM hk hk' hp hax hbc hw hwx hpl hpx hact aux aux' haux) cfg goals h

/-- C92 for SharpClaw in space: a wall at the upper end of axis `a`. -/
theorem C92_sharp3_partial (f2003 : Bool) (R : ReconCfg K m w) (capa : Option ((Fin naux → K) → K)) (hcap : capa = none ∨ f2003 = false)
    (a : Fin 3) (c c' : SharpGrid (Fin 3) K) (hR : R.Fits c.bc.g) (rp : Fin 3 → Riemann K (Fin naux → K) m w)
    (tf : Fin 3 → TotalFluct K (Fin naux → K) m) (dx : Fin 3 → K) (hM : OwnImageSharp c.bc R rp tf a)
    (hk : c.kern = dqArrays m naux c.bc.g
      (intFlux3 f2003 R (rp 0) (rp 1) (rp 2) (tf 0) (tf 1) (tf 2) c.bc.g (dx 0) (dx 1) (dx 2) capa))
    (hk' : c'.kern = dqArrays m naux c'.bc.g
      (intFlux3 f2003 R (rp 0) (rp 1) (rp 2) (tf 0) (tf 1) (tf 2) c.bc.g (dx 0) (dx 1) (dx 2) capa))
    (hp : SharpProblem c naux) (hax : c'.axes = c.axes) (hbc : c'.bc = unfoldAxis a c.bc)
    (hw : c.bc.bcUpper a = .wall) (hwx : 0 < naux → c.bc.auxUpper a = .wall)
    (hpl : c.bc.bcLower a ≠ .periodic) (hpx : 0 < naux → c.bc.auxLower a ≠ .periodic)
    (hact : UnfoldedActions m naux a (axisSign c.bc a m) c c')
    (aux aux' : GArr (Fin 3) K) (haux : UnfoldedArray naux c.bc.n a (fun _ => 1) aux aux')
    (cfg : SharpCfg K) (goals : List (SharpGoal K)) (r r' : SharpRun K (GArr (Fin 3) K))
    (h : SameSharp (UnfoldedArray m c.bc.n a (axisSign c.bc a m)) r r') :
    SameSharp (UnfoldedArray m c.bc.n a (axisSign c.bc a m)) (sharpSessionC (serialSharp c aux) cfg goals r).1
      (sharpSessionC (serialSharp c' aux') cfg goals r').1 ∧
    (sharpSessionC (serialSharp c' aux') cfg goals r').2 = (sharpSessionC (serialSharp c aux) cfg goals r).2 := by
  have S := flux3_wide f2003 R c.bc.g capa hcap hR (rp 0) (rp 1) (rp 2) (tf 0) (tf 1) (tf 2) (dx 0) (dx 1) (dx 2)
  simp only [eta_three] at S
  exact pair_session (unfold_linked f2003 R capa dx a c c' hcap hR S hM hk hk' hp hax hbc hw hwx hpl hpx hact aux aux' haux) cfg goals h

/-! ### Concrete cases -/

/-- The values continued by their image behind the upper end of axis `a`. -/
def withImage {m : Nat} (n : Fin d → Nat) (a : Fin d) (ρ : Fin m → K) (q : Fin m → (Fin d → Nat) → K) : Fin m → (Fin d → Nat) → K :=
  fun k x => if x a < n a then q k x else ρ k * q k (Function.update x a (2 * n a - 1 - x a))

theorem withImage_spec {m : Nat} (n : Fin d → Nat) (a : Fin d) (ρ : Fin m → K) (q : Fin m → (Fin d → Nat) → K) (x : Fin d → Nat)
    (hx : ∀ b, x b < n b) (k : Fin m) : withImage n a ρ q k x = q k x ∧
      withImage n a ρ q k (Function.update x a (2 * n a - 1 - x a)) = ρ k * q k x := by
  have h := hx a
  constructor
  · simp only [withImage, if_pos h]
  · have e : 2 * n a - 1 - (2 * n a - 1 - x a) = x a := by omega
    simp only [withImage, Function.update_self, if_neg (show ¬ 2 * n a - 1 - x a < n a by omega), Function.update_idem, e,
      Function.update_eq_self]

/-- Acoustics in the plane on a rectangle without aux values. -/
def exTank (n : Fin 2 → Nat) (lo up : Fin 2 → BCType) (step : IntKern (Fin 2) ℚ 3 0) : ParCfg (Fin 2) ℚ where
  bc := ⟨2, n, 3, 0, lo, up, lo, up, ![1, 2], fun _ => true, fun _ => true, none, none, none, none⟩
  axes := [0, 1]
  kern := onArrays 3 0 2 step
  sourceSplit := 1
  source := none
  beforeQ := fun _ _ q _ => q
  beforeAux := fun _ _ _ a => a

theorem exTank_run (n : Fin 2 → Nat) (lo up : Fin 2 → BCType) (step : IntKern (Fin 2) ℚ 3 0) : ClassicRun (exTank n lo up step) 3 0 step where
  homogeneous := ⟨rfl, fun _ _ _ _ => rfl, fun _ _ _ _ => rfl⟩
  ghost := le_refl 2
  numAux := rfl
  axes := rfl
  kern := rfl

/-- Steps of `1/8`, given values. -/
def exInPlane (q : Fin 3 → (Fin 2 → Nat) → ℚ) : StepState ℚ (GArr (Fin 2) ℚ) (GArr (Fin 2) ℚ × BCArrays (Fin 2) ℚ) where
  set := ⟨true, 1 / 8, none, 1, 1, 9 / 10, 100, 1 / 2⟩
  status := {}
  sol := ⟨0, fun k x => if h : k < 3 then q ⟨k, h⟩ x else 0, (fun _ _ => 0, ⟨fun _ _ => 0, fun _ _ => 0⟩)⟩
  log := []

/-- Non-vacuity of `C92_unsplit2_partial`: sound on 3 by 4 cells with an open end on the left and a wall on the right, periodic in `y`, and
on 6 by 4 cells with two open ends; any limiters, any initial values, any calls. -/
example (undef : ℚ) (lim : Fin 2 → Int) (hl : lim 1 = lim 0) (order trans : Int) (q : Fin 3 → (Fin 2 → Nat) → ℚ)
    (ops : List (StepOp ℚ (GArr (Fin 2) ℚ) (GArr (Fin 2) ℚ × BCArrays (Fin 2) ℚ))) (hops : OnlyEvolves ops) (rnd : ℚ → ℚ) (L L' : ℚ) :=
  let cfg : Cfg2 ℚ 2 := ⟨0, 0, 2, 0, 1 / 3, 1 / 4, order, trans, false, lim⟩
  let step := intUnsplit2 undef (ignoreAux 0 (acoustics2Rp 1)) (ignoreAux 0 (acoustics2Rp 2)) (ignoreAux2 0 (acoustics2Rt 2))
    (ignoreAux2 0 (acoustics2Rt 1)) cfg none
  let c := exTank ![3, 4] ![.extrap, .periodic] ![.wall, .periodic] step
  have e : axisSign c.bc 0 3 = ![1, -1, 1] := by funext k; fin_cases k <;> simp [axisSign, c, exTank]
  C92_unsplit2_partial undef 0 cfg none ![ignoreAux 0 (acoustics2Rp 1), ignoreAux 0 (acoustics2Rp 2)]
    ![ignoreAux2 0 (acoustics2Rt 2), ignoreAux2 0 (acoustics2Rt 1)] c
    (exTank ![6, 4] ![.extrap, .periodic] ![.extrap, .periodic] step)
    (by
      rw [e]
      refine ⟨⟨Equiv.swap 0 1, acoustics2_mirror 0, ?_⟩, ⟨1, acoustics2_turned 0, fun p => rfl⟩, fun h => absurd h (by simp [cfg])⟩
      intro p; fin_cases p <;> simp [cfg, hl])
    (by rw [e]; exact (acoustics2_own_transverse 0).1) (by rw [e]; exact (acoustics2_own_transverse 0).2)
    (exTank_run _ _ _ _) (exTank_run _ _ _ _)
    (by
      refine ⟨?_, ?_, ?_, ?_, ?_, ?_⟩
      · intro a; fin_cases a <;> simp [c, exTank]
      · intro a; fin_cases a <;> simp [c, exTank, BuiltInBC]
      · intro a; fin_cases a <;> simp [c, exTank, BuiltInBC]
      · intro h; simp [c, exTank] at h
      · intro h; simp [c, exTank] at h
      · intro a; fin_cases a <;> simp [c, exTank])
    (fun _ => ⟨rfl, rfl⟩) rfl rfl (fun h => absurd h (by norm_num)) (by simp [c, exTank]) (fun h => absurd h (by norm_num))
    (by
      simp only [c, exTank, unfoldAxis, BCConfig.mk.injEq, and_true, true_and]
      refine ⟨?_, ?_, ?_⟩ <;> funext b <;> fin_cases b <;> rfl)
    rnd L L' ops hops (exInPlane q) (exInPlane (withImage c.bc.n 0 ![1, -1, 1] q))
    ⟨rfl, rfl, rfl, rfl, fun x hx k => by
      rw [e]
      simpa only [exInPlane, Fin.is_lt, dif_pos, Fin.eta] using withImage_spec c.bc.n 0 ![1, -1, 1] q x hx k, fun _ _ k => k.elim0⟩

/-- Non-vacuity of `C92_unsplit3_partial`: sound on 3 by 2 by 4 cells with a wall below and above, and on 3 by 2 by 8 cells with a wall below
and its image above; a wall on the left, periodic in `y`. -/
example (undef : ℚ) (stale stale' : Int → Fin 4 → ℚ) (q : Fin 4 → (Fin 3 → Nat) → ℚ)
    (ops : List (StepOp ℚ (GArr (Fin 3) ℚ) (GArr (Fin 3) ℚ × BCArrays (Fin 3) ℚ))) (hops : OnlyEvolves ops) (rnd : ℚ → ℚ) (L L' : ℚ) :=
  let cfg : Cfg3 ℚ 2 := ⟨0, 0, 0, 2, 0, 1 / 3, 1 / 2, 1 / 4, 2, 22, false, false, fun _ => 4⟩
  let c := exCube ![3, 2, 4] ![.wall, .periodic, .wall] ![.extrap, .periodic, .wall] (unsplit3 undef cubeRp cubeRt cubeRtt cfg none stale)
  have e : axisSign c.bc 2 4 = cubeSign 2 := by funext k; fin_cases k <;> simp [axisSign, c, exCube, cubeSign]
  C92_unsplit3_partial undef 2 cfg none stale stale' cubeRp cubeRt cubeRtt (fun b => if b = 2 then Equiv.swap 0 1 else Equiv.refl _) c
    (exCube ![3, 2, 8] ![.wall, .periodic, .wall] ![.extrap, .periodic, .wall] (unsplit3 undef cubeRp cubeRt cubeRtt cfg none stale'))
    (by rw [e]; exact cube_mirror 2 false rfl) (fun _ _ => rfl) (fun h => absurd h (by simp [cfg])) (Or.inl (by simp [cfg]))
    (exCube_run _ _ _ _) (exCube_run _ _ _ _)
    (by
      refine ⟨?_, ?_, ?_, ?_, ?_, ?_⟩
      · intro a; fin_cases a <;> simp [c, exCube]
      · intro a; fin_cases a <;> simp [c, exCube, BuiltInBC]
      · intro a; fin_cases a <;> simp [c, exCube, BuiltInBC]
      · intro h; simp [c, exCube] at h
      · intro h; simp [c, exCube] at h
      · intro a; fin_cases a <;> simp [c, exCube])
    (fun _ => ⟨rfl, rfl⟩) rfl rfl (fun h => absurd h (by norm_num)) (by simp [c, exCube]) (fun h => absurd h (by norm_num))
    (by
      simp only [c, exCube, unfoldAxis, BCConfig.mk.injEq, and_true, true_and]
      refine ⟨?_, ?_, ?_⟩ <;> funext b <;> fin_cases b <;> rfl)
    rnd L L' ops hops (exInCube q) (exInCube (withImage c.bc.n 2 (cubeSign 2) q))
    ⟨rfl, rfl, rfl, rfl, fun x hx k => by
      rw [e]
      simpa only [exInCube, Fin.is_lt, dif_pos, Fin.eta] using withImage_spec c.bc.n 2 (cubeSign 2) q x hx k, fun _ _ k => k.elim0⟩

theorem exImage_unfolded (d m : Nat) (n n' : Fin d → Nat) (lo up lo' up' : Fin d → BCType) (step step' : IntKern (Fin d) ℚ m 0) (a : Fin d)
    (ρ : Fin m → ℚ) : UnfoldedActions m 0 a ρ (exImage d m n lo up step) (exImage d m n' lo' up' step') where
  source := Or.inr ⟨_, _, rfl, rfl, fun dt t x _ u u' e e' _ => ⟨fun h k => congrArg (dt * ·) (h k), fun h k => by
    show dt * u' k.val = ρ k * (dt * u k.val)
    rw [h k]; ring⟩⟩
  before := fun t x _ u u' e e' _ => ⟨fun h k => h k, fun h k => h k⟩
  stage := fun t x _ u u' e e' _ => ⟨fun h k => h k, fun h k => h k⟩

theorem exSharpStart_unfolded {d m : Nat} (n : Fin d → Nat) (a : Fin d) (ρ : Fin m → ℚ) (q : Fin m → (Fin d → Nat) → ℚ) :
    SameSharp (UnfoldedArray m n a ρ) (exSharpStart fun k x => if h : k < m then q ⟨k, h⟩ x else 0)
      (exSharpStart fun k x => if h : k < m then withImage n a ρ q ⟨k, h⟩ x else 0) := by
  have h0 : UnfoldedArray m n a ρ (0 : GArr (Fin d) ℚ) 0 := fun x _ k => ⟨rfl, (mul_zero _).symm⟩
  refine ⟨rfl, rfl, rfl, rfl, rfl, rfl, rfl, rfl, rfl, rfl, rfl, rfl, fun x hx k => ?_, h0, .cons ⟨h0, rfl⟩ (.cons ⟨h0, rfl⟩ .nil), .nil, .nil⟩
  simpa only [exSharpStart, Fin.is_lt, dif_pos, Fin.eta] using withImage_spec n a ρ q x hx k

/-- Non-vacuity of `C92_sharp1_partial`: sound on 4 cells with an open end on the left and a wall on the right, with WENO, and on 8 cells
between open ends. -/
example (cfg : SharpCfg ℚ) (goals : List (SharpGoal ℚ)) (q : Fin 2 → (Fin 1 → Nat) → ℚ) :=
  let step : IntKern (Fin 1) ℚ 2 0 := intFlux1 true (wenoAny 2 2) (ignoreAux 0 acousticsRp) none 3 (1 / 4) none
  let c := exImage 1 2 (fun _ => 4) (fun _ => .extrap) (fun _ => .wall) step
  have e : axisSign c.bc 0 2 = ![1, -1] := by funext k; fin_cases k <;> simp [axisSign, c, exImage]
  C92_sharp1_partial true (wenoAny 2 2) none (Or.inl rfl) c (exImage 1 2 (fun _ => 8) (fun _ => .extrap) (fun _ => .extrap) step)
    (wenoAny_fits 2 2).1 (ignoreAux 0 acousticsRp) none (1 / 4)
    (by
      refine ⟨(wenoAny_fits 2 2).2.2, ⟨Equiv.swap 0 1, ?_⟩, trivial, fun b hb => absurd (Subsingleton.elim b 0) hb,
        fun b hb => absurd (Subsingleton.elim b 0) hb⟩
      rw [e]
      exact acoustics_image 0)
    rfl rfl
    (exSharp_problem 1 2 _ (fun _ => by norm_num) _ _ (fun _ => by simp [BuiltInBC]) (fun _ => by simp [BuiltInBC]) (by norm_num) _) rfl
    (by
      simp only [c, exImage, unfoldAxis, BCConfig.mk.injEq, and_true, true_and]
      refine ⟨?_, ?_, ?_⟩ <;> funext b <;> fin_cases b <;> rfl)
    rfl (fun h => absurd h (by norm_num)) (by simp [c, exImage]) (fun h => absurd h (by norm_num)) (exImage_unfolded ..)
    (fun _ _ => 0) (fun _ _ => 0) (fun _ _ k => k.elim0) cfg goals _ _ (exSharpStart_unfolded _ _ _ q)

/-- Non-vacuity of `C92_sharp3_partial`: sound on 3 by 4 by 5 cells with an open end in front of and a wall behind the second axis, and on 3 by
8 by 5 cells between open ends. -/
example (cfg : SharpCfg ℚ) (goals : List (SharpGoal ℚ)) (q : Fin 4 → (Fin 3 → Nat) → ℚ) :=
  let c := exSharpCube ![3, 4, 5] ![.wall, .extrap, .periodic] ![.extrap, .wall, .periodic] ![1, 2, 3]
  have e : axisSign c.bc 1 4 = cubeSign 1 := by funext k; fin_cases k <;> simp [axisSign, c, exSharpCube, exImage, cubeSign]
  C92_sharp3_partial true (wenoAny 4 2) none (Or.inl rfl) 1 c
    (exSharpCube ![3, 8, 5] ![.wall, .extrap, .periodic] ![.extrap, .extrap, .periodic] ![1, 2, 3])
    (wenoAny_fits 4 2).1 cubeRp (fun _ => none) ![1, 2, 3]
    (by
      have M := cube_mirror (K := ℚ) (naux := 0) 1 false rfl
      refine ⟨(wenoAny_fits 4 2).2.2, ⟨(fun b => if b = 1 then Equiv.swap 0 1 else Equiv.refl (Fin 2)) 1, ?_⟩, trivial,
        fun b hb => ⟨(fun b => if b = 1 then Equiv.swap 0 1 else Equiv.refl (Fin 2)) b, ?_⟩, fun b hb => trivial⟩
      · rw [e]; exact M.across
      · rw [e]; exact M.along b hb)
    rfl rfl
    (exSharp_problem 3 4 _ (fun a => by fin_cases a <;> simp) _ _ (fun a => by fin_cases a <;> simp [BuiltInBC])
      (fun a => by fin_cases a <;> simp [BuiltInBC]) (by norm_num) _) rfl
    (by
      simp only [c, exSharpCube, exImage, unfoldAxis, BCConfig.mk.injEq, and_true, true_and]
      refine ⟨?_, ?_, ?_⟩ <;> funext b <;> fin_cases b <;> rfl)
    rfl (fun h => absurd h (by norm_num)) (by simp [c, exSharpCube, exImage]) (fun h => absurd h (by norm_num)) (exImage_unfolded ..)
    (fun _ _ => 0) (fun _ _ => 0) (fun _ _ k => k.elim0) cfg goals _ _ (exSharpStart_unfolded _ _ _ q)

end PyClaw
