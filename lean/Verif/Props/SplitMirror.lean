import Verif.Lemmas.SplitMirror
import Verif.Props.Square

/-!
C94 for dimensional splitting: the two sides of each axis are alike (the axes themselves are not, `C94_transpose_split_violated`).
-/
set_option linter.unusedSectionVars false

namespace PyClaw
open Spec

variable {K : Type*} [Field K] [LinearOrder K] [IsStrictOrderedRing K] {m w naux : Nat}

theorem split2_localInt (undef : K) (rpx rpy : Riemann K (Fin naux → K) m w) (c : Cfg2 K w)
    (hg : 2 ≤ c.g) (capa : Option ((Fin naux → K) → K)) : LocalInt (intSplit2 undef rpx rpy c capa) c.g := by
  intro dt n A A' Q Q' h
  have key := splitStep2_local undef rpx rpy { c with mx := n 0, my := n 1, dt := dt } hg capa (fun i j => A ![i, j])
    (fun i j => A' ![i, j]) (fun i j => Q ![i, j]) (fun i j => Q' ![i, j]) fun i j i1 i2 j1 j2 =>
    h ![i, j] fun a => by fin_cases a <;> simp <;> (dsimp only at *; omega)
  refine both_some (x := intSplit2 undef rpx rpy c capa dt n A Q) (x' := intSplit2 undef rpx rpy c capa dt n A' Q')
    (P := fun (r r' : (Fin 2 → Int) → Fin m → K) => ∀ v : Fin 2 → Int, (∀ a, 1 ≤ v a ∧ v a ≤ n a) → r' v = r v) rfl rfl key.2 fun v hv => ?_
  exact key.1 (v 0) (v 1) (hv 0).1 (hv 0).2 (hv 1).1 (hv 1).2

section
variable {σ : Fin m → K} {RA : (Fin naux → K) → Fin naux → K} {πx πy : Equiv.Perm (Fin w)}
  {rpx rpx' rpy rpy' : Riemann K (Fin naux → K) m w}

/-- C94: left and right are alike in runs with dimensional splitting. With f-waves and second order no speed in `x` may be 0 (see
`C91_fwave_violated`). -/
theorem C94_split_mirror_x_partial [FloorRing K] (undef : K) (cfg : Cfg2 K w) (lim' : Fin w → Int) (capa : Option ((Fin naux → K) → K))
    (hσ : IsSign σ) (hx : MirrorImage σ RA πx cfg.fwave rpx rpx') (hy : TurnedImage (signed σ) RA πy rpy rpy')
    (hlx : ∀ p, lim' (πx p) = cfg.limiter p) (hly : ∀ p, lim' (πy p) = cfg.limiter p)
    (hc : ∀ κ, capa = some κ → ∀ z, κ (RA z) = κ z)
    (hf : cfg.fwave = true → cfg.order ≠ 1 → ∀ ql qr al ar p, (rpx ql qr al ar).s p ≠ 0)
    (c c' : ParCfg (Fin 2) K) (hr : ClassicRun c m naux (intSplit2 undef rpx rpy cfg capa))
    (hr' : ClassicRun c' m naux (intSplit2 undef rpx' rpy' { cfg with limiter := lim' } capa))
    (ha : Admissible c.bc) (hs : Serial c.bc) (hbc : c'.bc = mirrorBC 0 c.bc) (hg : cfg.g = c.bc.g) (rnd : K → K) (L : K)
    (ops : List (StepOp K (GArr (Fin 2) K) (GArr (Fin 2) K × BCArrays (Fin 2) K))) (hops : OnlyEvolves ops)
    (s s' : StepState K (GArr (Fin 2) K) (GArr (Fin 2) K × BCArrays (Fin 2) K))
    (h : InStep (Corresponds m naux c.bc.n (mirrorCell c.bc.n 0) (signed σ) RA) s s') :
    InStep (Corresponds m naux c.bc.n (mirrorCell c.bc.n 0) (signed σ) RA) (runSteps (serialEnv c rnd L) ops s)
      (runSteps (serialEnv c' rnd L) ops s') := by
  have hg2 : 2 ≤ cfg.g := by rw [hg]; exact hr.ghost
  refine mirror_run 0 c c' hr hr' ha hs hbc ?_ ?_ rnd L ops hops s s' h
  · rw [← hg]; exact split2_localInt undef rpx' rpy' { cfg with limiter := lim' } hg2 capa
  · intro dt A Q
    have key := mirrorX_split hσ undef { cfg with mx := c.bc.n 0, my := c.bc.n 1, dt := dt } lim' (by dsimp only; omega) hx hy hlx hly hf
      capa hc (fun i j => A ![i, j]) (fun i j => Q ![i, j])
    refine both_some (x := intSplit2 undef rpx rpy cfg capa dt c.bc.n A Q)
      (x' := intSplit2 undef rpx' rpy' { cfg with limiter := lim' } capa dt c.bc.n _ _) (P := fun (r r' : (Fin 2 → Int) → Fin m → K) =>
      ∀ v : Fin 2 → Int, (∀ a, 1 ≤ v a ∧ v a ≤ c.bc.n a) → r' v = signed σ (r (Function.update v 0 ((c.bc.n 0 : Int) + 1 - v 0))))
      rfl rfl ?_ fun v hv => ?_
    · simp only [update_pair0, Matrix.cons_val_zero]
      exact key.2
    · have h0 := hv 0
      have h1 := hv 1
      simp only [update_pair0, Matrix.cons_val_zero]
      refine (key.1 (v 0) (v 1) h0.1 h0.2 h1.1 h1.2).trans ?_
      simp

/-- C94: down and up are alike in runs with dimensional splitting. With f-waves and second order no speed in `y` may be 0 (see
`C91_fwave_violated`). -/
theorem C94_split_mirror_y_partial [FloorRing K] (undef : K) (cfg : Cfg2 K w) (lim' : Fin w → Int) (capa : Option ((Fin naux → K) → K))
    (hσ : IsSign σ) (hx : TurnedImage (signed σ) RA πx rpx rpx') (hy : MirrorImage σ RA πy cfg.fwave rpy rpy')
    (hlx : ∀ p, lim' (πx p) = cfg.limiter p) (hly : ∀ p, lim' (πy p) = cfg.limiter p)
    (hc : ∀ κ, capa = some κ → ∀ z, κ (RA z) = κ z)
    (hf : cfg.fwave = true → cfg.order ≠ 1 → ∀ ql qr al ar p, (rpy ql qr al ar).s p ≠ 0)
    (c c' : ParCfg (Fin 2) K) (hr : ClassicRun c m naux (intSplit2 undef rpx rpy cfg capa))
    (hr' : ClassicRun c' m naux (intSplit2 undef rpx' rpy' { cfg with limiter := lim' } capa))
    (ha : Admissible c.bc) (hs : Serial c.bc) (hbc : c'.bc = mirrorBC 1 c.bc) (hg : cfg.g = c.bc.g) (rnd : K → K) (L : K)
    (ops : List (StepOp K (GArr (Fin 2) K) (GArr (Fin 2) K × BCArrays (Fin 2) K))) (hops : OnlyEvolves ops)
    (s s' : StepState K (GArr (Fin 2) K) (GArr (Fin 2) K × BCArrays (Fin 2) K))
    (h : InStep (Corresponds m naux c.bc.n (mirrorCell c.bc.n 1) (signed σ) RA) s s') :
    InStep (Corresponds m naux c.bc.n (mirrorCell c.bc.n 1) (signed σ) RA) (runSteps (serialEnv c rnd L) ops s)
      (runSteps (serialEnv c' rnd L) ops s') := by
  have hg2 : 2 ≤ cfg.g := by rw [hg]; exact hr.ghost
  refine mirror_run 1 c c' hr hr' ha hs hbc ?_ ?_ rnd L ops hops s s' h
  · rw [← hg]; exact split2_localInt undef rpx' rpy' { cfg with limiter := lim' } hg2 capa
  · intro dt A Q
    have key := mirrorY_split hσ undef { cfg with mx := c.bc.n 0, my := c.bc.n 1, dt := dt } lim' (by dsimp only; omega) hx hy hlx hly hf
      capa hc (fun i j => A ![i, j]) (fun i j => Q ![i, j])
    refine both_some (x := intSplit2 undef rpx rpy cfg capa dt c.bc.n A Q)
      (x' := intSplit2 undef rpx' rpy' { cfg with limiter := lim' } capa dt c.bc.n _ _) (P := fun (r r' : (Fin 2 → Int) → Fin m → K) =>
      ∀ v : Fin 2 → Int, (∀ a, 1 ≤ v a ∧ v a ≤ c.bc.n a) → r' v = signed σ (r (Function.update v 1 ((c.bc.n 1 : Int) + 1 - v 1))))
      rfl rfl ?_ fun v hv => ?_
    · simp only [update_pair1, Matrix.cons_val_one]
      exact key.2
    · have h0 := hv 0
      have h1 := hv 1
      simp only [update_pair1, Matrix.cons_val_one]
      refine (key.1 (v 0) (v 1) h0.1 h0.2 h1.1 h1.2).trans ?_
      simp

end

/-- Non-vacuity of `C94_split_mirror_x_partial`: acoustics, a wall on the left, an open end on the right, periodic in `y`; and the same in
the mirror, with the limiter `l` for both families of waves. -/
example (l order : Int) (q : Nat → Nat → Nat → ℚ) (n : Nat) :
    let cfg : Cfg2 ℚ 2 := ⟨3, 2, 2, 1 / 8, 1 / 4, 1 / 4, order, 0, false, fun _ => l⟩
    let step := intSplit2 0 (ignoreAux 0 (squareAcousticsRp 1)) (ignoreAux 0 (squareAcousticsRp 2)) cfg none
    let ops : List (StepOp ℚ (GArr (Fin 2) ℚ) (GArr (Fin 2) ℚ × BCArrays (Fin 2) ℚ)) := List.replicate n (.evolve none)
    InStep (Corresponds 3 0 ![3, 2] (mirrorCell ![3, 2] 0) (signed ![1, -1, 1]) id)
      (runSteps (serialEnv (exPlane 3 ![1, 2] ![3, 2] ![.wall, .periodic] ![.extrap, .periodic] step) id 1) ops (exOnPlane q))
      (runSteps (serialEnv (exPlane 3 ![1, 2] ![3, 2] ![.extrap, .periodic] ![.wall, .periodic] step) id 1) ops
        (exOnPlane fun k i j => if k = 1 then -q k (2 - i) j else q k (2 - i) j)) := by
  intro cfg step ops
  obtain ⟨⟨hσ, hx, hy, _, _⟩, _, _⟩ := acoustics2_images (K := ℚ) 0
  refine C94_split_mirror_x_partial 0 cfg (fun _ => l) none hσ hx hy (fun _ => rfl) (fun _ => rfl) (fun _ h => by simp at h)
    (fun h => by simp [cfg] at h) (exPlane 3 ![1, 2] ![3, 2] ![.wall, .periodic] ![.extrap, .periodic] step)
    (exPlane 3 ![1, 2] ![3, 2] ![.extrap, .periodic] ![.wall, .periodic] step) (exPlane_run ..) (exPlane_run ..)
    ⟨?_, ?_, ?_, ?_, ?_, ?_⟩ (fun _ => ⟨rfl, rfl⟩) ?_ rfl id 1 ops ?_ _ _ ⟨rfl, rfl, rfl, rfl, ?_⟩
  · intro a; fin_cases a <;> simp [exPlane]
  · intro a; fin_cases a <;> simp [exPlane, BuiltInBC]
  · intro a; fin_cases a <;> simp [exPlane, BuiltInBC]
  · intro h; simp [exPlane] at h
  · intro h; simp [exPlane] at h
  · intro a; fin_cases a <;> simp [exPlane]
  · simp only [exPlane, mirrorBC, BCConfig.mk.injEq, and_true, true_and]
    refine ⟨?_, ?_, ?_, ?_⟩ <;> funext a <;> fin_cases a <;> rfl
  · intro o ho
    exact Or.inl ⟨none, List.eq_of_mem_replicate ho⟩
  · intro x hx
    refine ⟨funext fun k => ?_, funext fun k => k.elim0⟩
    have h0 : x 0 < 3 := hx 0
    have e : 3 - 1 - x 0 = 2 - x 0 := by omega
    fin_cases k <;> simp [exOnPlane, signed, mirrorCell, exPlane, e]

end PyClaw
