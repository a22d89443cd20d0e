import Verif.Lemmas.CubeSplit
import Verif.Props.Walls3

/-!
C107 and C102 for dimensional splitting in three dimensions: mirrors, and a box closed by walls.
-/
set_option linter.unusedSectionVars false

namespace PyClaw
open Spec

variable {K : Type*} [Field K] [LinearOrder K] [IsStrictOrderedRing K] {m w naux : Nat}

/-- The split step with the solvers of the three axes in a list. -/
def Spec.split3 (undef : K) (rp : Fin 3 → Riemann K (Fin naux → K) m w) (c : Cfg3 K w) (capa : Option ((Fin naux → K) → K)) :
    IntKern (Fin 3) K m naux := intSplit3 undef (rp 0) (rp 1) (rp 2) c capa

section
variable {σ : Fin m → K} {RA : (Fin naux → K) → Fin naux → K} {π : Fin 3 → Equiv.Perm (Fin w)} {rp rp' : Fin 3 → Riemann K (Fin naux → K) m w}

theorem mirror_split_image3 (undef : K) (a : Fin 3) (cfg : Cfg3 K w) (lim' : Fin w → Int) (hg : 2 ≤ cfg.g) (capa : Option ((Fin naux → K) → K))
    (hσ : IsSign σ) (hM : MirrorImage σ RA (π a) cfg.fwave (rp a) (rp' a)) (hT : ∀ b, b ≠ a → TurnedImage (signed σ) RA (π b) (rp b) (rp' b))
    (hl : ∀ b p, lim' (π b p) = cfg.limiter p) (hc : ∀ κ, capa = some κ → ∀ z, κ (RA z) = κ z)
    (hf : cfg.fwave = true → cfg.order ≠ 1 → ∀ ql qr al ar p, (rp a ql qr al ar).s p ≠ 0) (n : Fin 3 → Nat) :
    ImageStep (split3 undef rp cfg capa) (split3 undef rp' { cfg with limiter := lim' } capa) n n
      (fun v => Function.update v a ((n a : Int) + 1 - v a)) (signed σ) RA := by
  intro dt A Q
  refine both_some (x := split3 undef rp cfg capa dt n A Q) (x' := split3 undef rp' { cfg with limiter := lim' } capa dt n _ _)
    (P := fun (r r' : (Fin 3 → Int) → Fin m → K) => ∀ v : Fin 3 → Int, (∀ a, 1 ≤ v a ∧ v a ≤ n a) →
    r' v = signed σ (r (Function.update v a ((n a : Int) + 1 - v a)))) rfl rfl ?_ ?_
  all_goals
    fin_cases a
    · have key := mirror_split3 hσ undef { cfg with mx := n 0, my := n 1, mz := n 2, dt := dt } lim' (by dsimp only; omega)
        (hl 0) (hl 1) (hl 2) capa hc (fun i j k => A ![i, j, k]) (fun i j k => Q ![i, j, k]) hM (hT 1 (by decide)) (hT 2 (by decide)) hf
      simp only [Fin.zero_eta, update_triple0, Matrix.cons_val_zero]
      first
        | exact (Prod.ext_iff.mp key).2
        | intro v _
          exact congrFun (congrFun (congrFun (Prod.ext_iff.mp key).1 (v 0)) (v 1)) (v 2)
    · have key := mirror_split3_y hσ undef { cfg with mx := n 0, my := n 1, mz := n 2, dt := dt } lim' (by dsimp only; omega)
        (hl 0) (hl 1) (hl 2) capa hc (fun i j k => A ![i, j, k]) (fun i j k => Q ![i, j, k]) (hT 0 (by decide)) hM (hT 2 (by decide)) hf
      simp only [Fin.mk_one, update_triple1, Matrix.cons_val_one, Matrix.cons_val_zero]
      first
        | exact (Prod.ext_iff.mp key).2
        | intro v _
          exact congrFun (congrFun (congrFun (Prod.ext_iff.mp key).1 (v 0)) (v 1)) (v 2)
    · have key := mirror_split3_z hσ undef { cfg with mx := n 0, my := n 1, mz := n 2, dt := dt } lim' (by dsimp only; omega)
        (hl 0) (hl 1) (hl 2) capa hc (fun i j k => A ![i, j, k]) (fun i j k => Q ![i, j, k]) (hT 0 (by decide)) (hT 1 (by decide)) hM hf
      simp only [Fin.reduceFinMk, update_triple2, Matrix.cons_val]
      first
        | exact (Prod.ext_iff.mp key).2
        | intro v _
          exact congrFun (congrFun (congrFun (Prod.ext_iff.mp key).1 (v 0)) (v 1)) (v 2)

/-- C107 for dimensional splitting: the two sides of every axis are alike, at any order and with any limiter. The axes are not
(`C107_exchange_split_violated`). With f-waves and second order no speed along `a` may be 0 (see `C91_fwave_violated`). -/
theorem C107_split_mirror_partial [FloorRing K] (undef : K) (a : Fin 3) (cfg : Cfg3 K w) (lim' : Fin w → Int) (capa : Option ((Fin naux → K) → K))
    (hσ : IsSign σ) (hM : MirrorImage σ RA (π a) cfg.fwave (rp a) (rp' a)) (hT : ∀ b, b ≠ a → TurnedImage (signed σ) RA (π b) (rp b) (rp' b))
    (hl : ∀ b p, lim' (π b p) = cfg.limiter p) (hc : ∀ κ, capa = some κ → ∀ z, κ (RA z) = κ z)
    (hf : cfg.fwave = true → cfg.order ≠ 1 → ∀ ql qr al ar p, (rp a ql qr al ar).s p ≠ 0)
    (c c' : ParCfg (Fin 3) K) (hr : ClassicRun c m naux (split3 undef rp cfg capa))
    (hr' : ClassicRun c' m naux (split3 undef rp' { cfg with limiter := lim' } capa))
    (ha : Admissible c.bc) (hs : Serial c.bc) (hbc : c'.bc = mirrorBC a c.bc) (hg : cfg.g = c.bc.g) (rnd : K → K) (L : K)
    (ops : List (StepOp K (GArr (Fin 3) K) (GArr (Fin 3) K × BCArrays (Fin 3) K))) (hops : OnlyEvolves ops)
    (s s' : StepState K (GArr (Fin 3) K) (GArr (Fin 3) K × BCArrays (Fin 3) K))
    (h : InStep (Corresponds m naux c.bc.n (mirrorCell c.bc.n a) (signed σ) RA) s s') :
    InStep (Corresponds m naux c.bc.n (mirrorCell c.bc.n a) (signed σ) RA) (runSteps (serialEnv c rnd L) ops s)
      (runSteps (serialEnv c' rnd L) ops s') := by
  have hg2 : 2 ≤ cfg.g := by rw [hg]; exact hr.ghost
  refine mirror_run a c c' hr hr' ha hs hbc ?_ ?_ rnd L ops hops s s' h
  · rw [← hg]; exact split3_localInt undef { cfg with limiter := lim' } hg2 capa
  · exact mirror_split_image3 undef a cfg lim' hg2 capa hσ hM hT hl hc hf c.bc.n

end

/-- Non-vacuity: acoustics (see `cube_mirror`). The runs are those of the `example` in `Props/Cube.lean`. -/
example (a : Fin 3) : MirrorImage (K := ℚ) (cubeSign a) id (Equiv.swap 0 1) false (cubeRp (naux := 0) a) (cubeRp a) ∧
    ∀ b, b ≠ a → TurnedImage (K := ℚ) (signed (cubeSign a)) id (Equiv.refl _) (cubeRp (naux := 0) b) (cubeRp b) := by
  have h := cube_mirror (K := ℚ) (naux := 0) a false rfl
  refine ⟨?_, fun b hb => ?_⟩
  · have := h.across
    rwa [if_pos rfl] at this
  · have := h.along b hb
    rwa [if_neg hb] at this

/-! ### The axes -/

/-- A box of 3 by 3 by 1 cells with open ends, one component. -/
def exBox1 (step : IntKern (Fin 3) ℚ 1 0) : ParCfg (Fin 3) ℚ where
  bc := ⟨2, ![3, 3, 1], 1, 0, fun _ => .extrap, fun _ => .extrap, fun _ => .extrap, fun _ => .extrap, fun _ => 0, fun _ => true, fun _ => true,
    none, none, none, none⟩
  axes := [0, 1, 2]
  kern := onArrays 1 0 2 step
  sourceSplit := 1
  source := none
  beforeQ := fun _ _ q _ => q
  beforeAux := fun _ _ _ a => a

/-- Steps of `1/8`, values that do not depend on `z`. -/
def exInBox1 (q : Nat → Nat → ℚ) : StepState ℚ (GArr (Fin 3) ℚ) (GArr (Fin 3) ℚ × BCArrays (Fin 3) ℚ) where
  set := ⟨true, 1 / 8, none, 1, 1, 9 / 10, 100, 1 / 2⟩
  status := {}
  sol := ⟨0, fun _ x => q (x 0) (x 1), (fun _ _ => 0, ⟨fun _ _ => 0, fun _ _ => 0⟩)⟩
  log := []

/-- Advection with velocity 1 along `x` and `y`, second order with the minmod limiter, dimensional splitting. -/
def exSweeps3 : IntKern (Fin 3) ℚ 1 0 :=
  split3 0 (fun a => ignoreAux 0 (advectionRp (if a = 2 then 0 else 1)))
    ⟨2, 2, 1, 2, 1, 1 / 4, 1 / 4, 1 / 4, 2, 0, false, false, fun _ => 1⟩ none

/-- C107 for dimensional splitting: the sweeps along `x` come first, so the axes are not alike, as in the plane
(`C94_transpose_split_violated`). A scalar advected along the diagonal of a square prism with open ends; the solvers along `x` and `y` are the
same. -/
theorem C107_exchange_split_violated :
    ∃ q : Nat → Nat → ℚ,
      (runSteps (serialEnv (exBox1 exSweeps3) id 1) [.evolve (some (1 / 8))] (exInBox1 q)).sol.q 0 ![1, 1, 0] ≠
      (runSteps (serialEnv (exBox1 exSweeps3) id 1) [.evolve (some (1 / 8))] (exInBox1 fun i j => q j i)).sol.q 0 ![1, 1, 0] := by
  refine ⟨fun i j => if i = 0 ∧ j = 0 then 2 else if i = 1 ∧ j = 1 then 1 else if i = 2 ∧ j = 1 then 3 else 0, ?_⟩
  decide +kernel

/-! ### Walls -/

section
variable {rpx rpy rpz : Riemann K (Fin naux → K) m w}

theorem split3_sized (undef : K) (c : Cfg3 K w) (hn : Narrow c.order c.limiter) (hg : 1 ≤ c.g) (capa : Option ((Fin naux → K) → K))
    (ok : (Fin naux → K) → Prop) : SizedKernel (intSplit3 undef rpx rpy rpz c capa) ok where
  runs dt n A Q _ _ := ⟨_, _, rfl⟩
  sized dt n n' A Q r cfl r' cfl' hle hs hs' v hv := by
    unfold intSplit3 at hs hs'
    simp only [Option.some.injEq, Prod.mk.injEq] at hs hs'
    rw [← hs.1, ← hs'.1]
    dsimp only
    have h0 := hv 0
    have h1 := hv 1
    have h2 := hv 2
    have l0 := hle 0
    have l1 := hle 1
    have l2 := hle 2
    rw [splitStep3_eq undef rpx rpy rpz { c with mx := n 0, my := n 1, mz := n 2, dt := dt } hg, if_pos (by dsimp only; omega),
      splitStep3_eq undef rpx rpy rpz { c with mx := n' 0, my := n' 1, mz := n' 2, dt := dt } hg, if_pos (by dsimp only; omega)]
    refine rowStep_narrow undef rpz _ hn capa _ _ _ _ _ (fun _ _ _ => rfl) fun k a b => ?_
    unfold afterY
    rw [if_pos (by dsimp only; omega), if_pos (by dsimp only; omega)]
    refine rowStep_narrow undef rpy _ hn capa _ _ _ _ _ (fun _ _ _ => rfl) fun j a b => ?_
    unfold afterX
    rw [if_pos (by dsimp only; omega), if_pos (by dsimp only; omega)]
    rfl

theorem split3_conserves [FloorRing K] (undef : K) (c : Cfg3 K w) (hn : Narrow c.order c.limiter) (hg : 1 ≤ c.g) (hdx : c.dx ≠ 0)
    (hdy : c.dy ≠ 0) (hdz : c.dz ≠ 0) (capa : Option ((Fin naux → K) → K)) (flx fly flz : (Fin m → K) → (Fin naux → K) → Fin m → K)
    (hfx : FluxDifference rpx flx) (hfy : FluxDifference rpy fly) (hfz : FluxDifference rpz flz) (dt : K) (n : Fin 3 → Nat)
    (A : (Fin 3 → Int) → Fin naux → K) (Q r : (Fin 3 → Int) → Fin m → K) (cfl : K)
    (hA : ∀ v κ, capa = some κ → 0 < κ (A v)) (pQ : ∀ a v, Q (Function.update v a (v a + n a)) = Q v)
    (pA : ∀ a v, A (Function.update v a (v a + n a)) = A v)
    (hs : intSplit3 undef rpx rpy rpz c capa dt n A Q = some (r, cfl)) (k : Fin m) :
    boxTotal n (c.dx * c.dy * c.dz) capa A r k = boxTotal n (c.dx * c.dy * c.dz) capa A Q k := by
  have h2 := C71_split3_conserves_partial undef rpx rpy rpz flx fly flz hfx hfy hfz
    { c with mx := n 0, my := n 1, mz := n 2, dt := dt } hn hg hdx hdy hdz capa (fun i j k => A ![i, j, k]) (fun i j k => Q ![i, j, k])
    (fun κ hκ _ _ _ _ _ _ _ _ _ => (hA _ κ hκ).ne')
    (fun j k _ _ _ _ => (periodic_lines3 n Q pQ c.g).1 j k) (fun j k _ _ _ _ => (periodic_lines3 n Q pQ c.g).2.1 j k)
    (fun j k _ _ _ _ => (periodic_lines3 n Q pQ c.g).2.2 j k) (fun j k _ _ _ _ => (periodic_lines3 n A pA c.g).1 j k)
    (fun j k _ _ _ _ => (periodic_lines3 n A pA c.g).2.1 j k) (fun j k _ _ _ _ => (periodic_lines3 n A pA c.g).2.2 j k)
  unfold intSplit3 at hs
  simp only [Option.some.injEq, Prod.mk.injEq] at hs
  rw [← hs.1]
  unfold boxTotal
  simp only [vec3]
  have := congrFun h2 k
  rw [total3_grid n (c.dx * c.dy * c.dz), total3_grid n (c.dx * c.dy * c.dz)] at this
  exact this

end

/-- C102, the split kernel in three dimensions. Full statement: as for the unsplit kernel, for every order and limiter. Missing: second order
with a limiter, where a step need not conserve (`C71_split3_conserves_violated`), and f-waves of speed 0 with second order. -/
theorem C102_split3_partial [FloorRing K] (undef : K) (rp : Fin 3 → Riemann K (Fin naux → K) m w)
    (cfg : Cfg3 K w) (hn : Narrow cfg.order cfg.limiter) (hdx : cfg.dx ≠ 0) (hdy : cfg.dy ≠ 0) (hdz : cfg.dz ≠ 0)
    (capa : Option ((Fin naux → K) → K))
    (fl : Fin 3 → (Fin m → K) → (Fin naux → K) → Fin m → K) (hfl : ∀ a, FluxDifference (rp a) (fl a))
    (c : ParCfg (Fin 3) K) (hr : ClassicRun c m naux (split3 undef rp cfg capa)) (ha : Admissible c.bc) (hs : Serial c.bc)
    (he : Enclosed c.bc) (hg : cfg.g = c.bc.g)
    (hM : ∀ a, HasWall c.bc a → ∃ π : Fin 3 → Equiv.Perm (Fin w), MirrorImage (axisSign c.bc a m) id (π a) cfg.fwave (rp a) (rp a) ∧
      (∀ b, b ≠ a → TurnedImage (signed (axisSign c.bc a m)) id (π b) (rp b) (rp b)) ∧ ∀ b p, cfg.limiter (π b p) = cfg.limiter p)
    (hf : cfg.fwave = true → cfg.order ≠ 1 → ∀ a, HasWall c.bc a → ∀ ql qr al ar p, (rp a ql qr al ar).s p ≠ 0)
    (rnd : K → K) (L : K) (ops : List (StepOp K (GArr (Fin 3) K) (GArr (Fin 3) K × BCArrays (Fin 3) K))) (hops : OnlyEvolves ops)
    (s : StepState K (GArr (Fin 3) K) (GArr (Fin 3) K × BCArrays (Fin 3) K)) (hcap : PositiveCapacity c.bc.n capa s.sol.rest.1) :
    let s' := runSteps (serialEnv c rnd L) ops s
    s'.sol.rest.1 = s.sol.rest.1 ∧ ∀ k, k < m → Unreflected c.bc k →
      gridTotal c.bc.n (cfg.dx * cfg.dy * cfg.dz) capa s'.sol.rest.1 s'.sol.q k =
        gridTotal c.bc.n (cfg.dx * cfg.dy * cfg.dz) capa s.sol.rest.1 s.sol.q k := by
  have hg2 : 2 ≤ cfg.g := by rw [hg]; exact hr.ghost
  refine walls_run (ok := fun z => ∀ κ, capa = some κ → 0 < κ z) (split3_sized undef cfg hn (by omega) capa _) c hr ha hs he
    (by rw [← hg]; exact (split3_localInt undef cfg hg2 capa).result) ?_ (cfg.dx * cfg.dy * cfg.dz) capa ?_ rnd L ops hops s
    fun x hx κ hκ => hcap κ hκ x hx
  · intro a hw
    obtain ⟨π, h1, h2, hl⟩ := hM a hw
    exact keeps_of_image (axisSign_isSign c.bc a) fun n =>
      mirror_split_image3 undef a cfg cfg.limiter hg2 capa (axisSign_isSign c.bc a) h1 h2 hl (fun _ _ _ => rfl)
        (fun h1 h2 => hf h1 h2 a hw) n
  · intro dt n A Q r cfl _ hA pQ pA hs k
    exact split3_conserves undef cfg hn (by omega) hdx hdy hdz capa (fl 0) (fl 1) (fl 2) (hfl 0) (hfl 1) (hfl 2) dt n A Q r cfl hA pQ pA hs k

/-- Non-vacuity: first order with the MC limiter, and second order without limiter. The run and the solvers are those of the `example` in
`Props/Walls3.lean`. -/
example : Narrow 1 (fun _ : Fin 2 => 4) ∧ Narrow 2 (fun _ : Fin 2 => 0) := ⟨Or.inl rfl, Or.inr fun _ => le_refl 0⟩

end PyClaw
