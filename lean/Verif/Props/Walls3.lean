import Verif.Props.Cube
import Verif.Props.Walls

/-!
C102 in three dimensions: a box closed by reflecting walls loses and gains nothing under the unsplit method.
-/
set_option linter.unusedSectionVars false

namespace PyClaw
open Spec

variable {K : Type*} [Field K] [LinearOrder K] [IsStrictOrderedRing K] {m w naux : Nat}

/-- A step that carries over to the image keeps data that are their own image. -/
theorem keeps_of_image {d : Nat} {step : IntKern (Fin d) K m naux} {a : Fin d} {σ : Fin m → K} (hσ : IsSign σ)
    (h : ∀ n : Fin d → Nat, ImageStep step step n n (fun v => Function.update v a ((n a : Int) + 1 - v a)) (signed σ) id) :
    KeepsImage step a σ := by
  intro dt n A Q r cfl hA hQ hs v hv
  have ff : ∀ u : Fin d → Int, flipAt a ((n a : Int) + 1) (flipAt a ((n a : Int) + 1) u) = u := by
    intro u; unfold flipAt; simp
  have eA : (fun v => id (A (Function.update v a ((n a : Int) + 1 - v a)))) = A := funext hA
  have eQ : (fun v => signed σ (Q (Function.update v a ((n a : Int) + 1 - v a)))) = Q := funext fun v => by
    rw [show Q (Function.update v a ((n a : Int) + 1 - v a)) = _ from hQ v, signed_signed hσ]
  have key := h n dt A Q
  rw [eA, eQ, hs] at key
  obtain ⟨k, -⟩ | ⟨r1, r2, c1, e1, e2, k⟩ := key
  · cases k
  · cases e1
    cases e2
    have := k (flipAt a ((n a : Int) + 1) v) fun b => by
      unfold flipAt
      by_cases hb : b = a
      · subst hb; rw [Function.update_self]; have := hv b; omega
      · rw [Function.update_of_ne hb]; exact hv b
    rw [this]
    exact congrArg (fun u => signed σ (r u)) (ff v)

theorem periodic_lines3 {α : Type*} (n : Fin 3 → Nat) (A : (Fin 3 → Int) → α) (h : ∀ a v, A (Function.update v a (v a + n a)) = A v) (g : Nat) :
    (∀ j k : Int, PeriodicGhost 1 g (n 0) fun i => A ![i, j, k]) ∧ (∀ i k : Int, PeriodicGhost 1 g (n 1) fun j => A ![i, j, k]) ∧
    ∀ i j : Int, PeriodicGhost 1 g (n 2) fun k => A ![i, j, k] := by
  refine ⟨fun j k i _ _ => ?_, fun i k j _ _ => ?_, fun i j k _ _ => ?_⟩
  · have := h 0 ![i, j, k]
    rwa [update_triple0] at this
  · have := h 1 ![i, j, k]
    rwa [update_triple1] at this
  · have := h 2 ![i, j, k]
    rwa [update_triple2] at this

section
variable {rpx rpy rpz : Riemann K (Fin naux → K) m w} {rtx rty rtz : Transverse3 K (Fin naux → K) m}
  {rttx rtty rttz : Transverse33 K (Fin naux → K) m}

theorem unsplit3_sized (undef : K) (c : Cfg3 K w) (hg : 1 ≤ c.g) (capa : Option ((Fin naux → K) → K)) (stale : Int → Fin m → K)
    (ok : (Fin naux → K) → Prop) : SizedKernel (intUnsplit3 undef rpx rpy rpz rtx rty rtz rttx rtty rttz c capa stale) ok where
  runs dt n A Q _ _ := ⟨_, _, rfl⟩
  sized dt n n' A Q r cfl r' cfl' hle hs hs' v hv := by
    unfold intUnsplit3 at hs hs'
    simp only [Option.some.injEq, Prod.mk.injEq] at hs hs'
    rw [← hs.1, ← hs'.1]
    dsimp only
    have h0 := hv 0
    have h1 := hv 1
    have h2 := hv 2
    have l0 := hle 0
    have l1 := hle 1
    have l2 := hle 2
    rw [unsplitStep3_cell undef rpx rpy rpz rtx rty rtz rttx rtty rttz { c with mx := n 0, my := n 1, mz := n 2, dt := dt } hg capa stale
        _ _ _ _ _ h0.1 h0.2 h1.1 h1.2 h2.1 h2.2,
      unsplitStep3_cell undef rpx rpy rpz rtx rty rtz rttx rtty rttz { c with mx := n' 0, my := n' 1, mz := n' 2, dt := dt } hg capa stale
        _ _ _ _ _ h0.1 (by dsimp only; omega) h1.1 (by dsimp only; omega) h2.1 (by dsimp only; omega)]
    rfl

theorem unsplit3_conserves [FloorRing K] (undef : K) (c : Cfg3 K w) (hg : 2 ≤ c.g) (hdx : c.dx ≠ 0) (hdy : c.dy ≠ 0) (hdz : c.dz ≠ 0)
    (capa : Option ((Fin naux → K) → K)) (stale : Int → Fin m → K) (flx fly flz : (Fin m → K) → (Fin naux → K) → Fin m → K)
    (hfx : FluxDifference rpx flx) (hfy : FluxDifference rpy fly) (hfz : FluxDifference rpz flz) (dt : K) (n : Fin 3 → Nat)
    (A : (Fin 3 → Int) → Fin naux → K) (Q r : (Fin 3 → Int) → Fin m → K) (cfl : K)
    (hA : ∀ v κ, capa = some κ → 0 < κ (A v)) (pQ : ∀ a v, Q (Function.update v a (v a + n a)) = Q v)
    (pA : ∀ a v, A (Function.update v a (v a + n a)) = A v)
    (hs : intUnsplit3 undef rpx rpy rpz rtx rty rtz rttx rtty rttz c capa stale dt n A Q = some (r, cfl)) (k : Fin m) :
    boxTotal n (c.dx * c.dy * c.dz) capa A r k = boxTotal n (c.dx * c.dy * c.dz) capa A Q k := by
  have h2 := C72_conserves undef rpx rpy rpz rtx rty rtz rttx rtty rttz flx fly flz hfx hfy hfz
    { c with mx := n 0, my := n 1, mz := n 2, dt := dt } hg hdx hdy hdz capa stale (fun i j k => A ![i, j, k]) (fun i j k => Q ![i, j, k])
    (fun κ hκ _ _ _ _ _ _ _ _ _ => (hA _ κ hκ).ne')
    (fun j k _ _ _ _ => (periodic_lines3 n Q pQ c.g).1 j k) (fun j k _ _ _ _ => (periodic_lines3 n Q pQ c.g).2.1 j k)
    (fun j k _ _ _ _ => (periodic_lines3 n Q pQ c.g).2.2 j k) (fun j k _ _ _ _ => (periodic_lines3 n A pA c.g).1 j k)
    (fun j k _ _ _ _ => (periodic_lines3 n A pA c.g).2.1 j k) (fun j k _ _ _ _ => (periodic_lines3 n A pA c.g).2.2 j k)
  unfold intUnsplit3 at hs
  simp only [Option.some.injEq, Prod.mk.injEq] at hs
  rw [← hs.1]
  unfold boxTotal
  simp only [vec3]
  have := congrFun h2 k
  rw [total3_grid n (c.dx * c.dy * c.dz), total3_grid n (c.dx * c.dy * c.dz)] at this
  exact this

end

/-- C102, the unsplit kernel in three dimensions: each axis periodic or with walls on both sides. `hM`: the solvers do not tell a problem
from its image in a wall, and families that are images of each other have the same limiter. Full statement: also for f-waves of speed 0
and second order, and for order 1 with `transverse_waves` 20 to 22 (see `C72_determined_violated`). -/
theorem C102_unsplit3_partial [FloorRing K] (undef : K) (rp : Fin 3 → Riemann K (Fin naux → K) m w)
    (rt : Fin 3 → Transverse3 K (Fin naux → K) m) (rtt : Fin 3 → Transverse33 K (Fin naux → K) m)
    (cfg : Cfg3 K w) (hdx : cfg.dx ≠ 0) (hdy : cfg.dy ≠ 0) (hdz : cfg.dz ≠ 0) (capa : Option ((Fin naux → K) → K)) (stale : Int → Fin m → K)
    (hst : cfg.order ≠ 1 ∨ cfg.trans / 10 ≠ 2)
    (fl : Fin 3 → (Fin m → K) → (Fin naux → K) → Fin m → K) (hfl : ∀ a, FluxDifference (rp a) (fl a))
    (c : ParCfg (Fin 3) K) (hr : ClassicRun c m naux (unsplit3 undef rp rt rtt cfg capa stale)) (ha : Admissible c.bc) (hs : Serial c.bc)
    (he : Enclosed c.bc) (hg : cfg.g = c.bc.g)
    (hM : ∀ a, HasWall c.bc a → ∃ π, MirrorImage3 a (axisSign c.bc a m) id π cfg.fwave rp rp rt rt rtt rtt ∧
      ∀ b p, cfg.limiter (π b p) = cfg.limiter p)
    (hf : cfg.fwave = true → cfg.order ≠ 1 → ∀ a, HasWall c.bc a → ∀ ql qr al ar p, (rp a ql qr al ar).s p ≠ 0)
    (rnd : K → K) (L : K) (ops : List (StepOp K (GArr (Fin 3) K) (GArr (Fin 3) K × BCArrays (Fin 3) K))) (hops : OnlyEvolves ops)
    (s : StepState K (GArr (Fin 3) K) (GArr (Fin 3) K × BCArrays (Fin 3) K)) (hcap : PositiveCapacity c.bc.n capa s.sol.rest.1) :
    let s' := runSteps (serialEnv c rnd L) ops s
    s'.sol.rest.1 = s.sol.rest.1 ∧ ∀ k, k < m → Unreflected c.bc k →
      gridTotal c.bc.n (cfg.dx * cfg.dy * cfg.dz) capa s'.sol.rest.1 s'.sol.q k =
        gridTotal c.bc.n (cfg.dx * cfg.dy * cfg.dz) capa s.sol.rest.1 s.sol.q k := by
  have hg2 : 2 ≤ cfg.g := by rw [hg]; exact hr.ghost
  refine walls_run (ok := fun z => ∀ κ, capa = some κ → 0 < κ z) (unsplit3_sized undef cfg (by omega) capa stale _) c hr ha hs he
    (by rw [← hg]; exact (unsplit3_localInt undef cfg hg2 capa stale).result) ?_ (cfg.dx * cfg.dy * cfg.dz) capa ?_ rnd L ops hops s
    fun x hx κ hκ => hcap κ hκ x hx
  · intro a hw
    obtain ⟨π, h, hl⟩ := hM a hw
    exact keeps_of_image (axisSign_isSign c.bc a) fun n =>
      mirror_image3 undef a cfg cfg.limiter hg2 capa stale stale (axisSign_isSign c.bc a) h hl (fun _ _ _ => rfl)
        (fun h1 h2 => hf h1 h2 a hw) hst n
  · intro dt n A Q r cfl _ hA pQ pA hs k
    exact unsplit3_conserves undef cfg hg2 hdx hdy hdz capa stale (fl 0) (fl 1) (fl 2) (hfl 0) (hfl 1) (hfl 2) dt n A Q r cfl hA pQ pA hs k

/-- The flux of acoustics along axis `a`. -/
def cubeFlux (a : Fin 3) (q : Fin 4 → K) : Fin 4 → K := fun k => if k = 0 then q a.succ else if k = a.succ then q 0 else 0

/-- Non-vacuity: acoustics in a duct with walls across `x` and across `z`, periodic along `y`. The pressure and the velocity along the
duct are not reflected. -/
example (step : IntKern (Fin 3) ℚ 4 0) : let c := exCube ![3, 2, 4] ![.wall, .periodic, .wall] ![.wall, .periodic, .wall] step
    ClassicRun c 4 0 step ∧ Admissible c.bc ∧ Serial c.bc ∧ Enclosed c.bc ∧ HasWall c.bc 0 ∧ ¬ HasWall c.bc 1 ∧ HasWall c.bc 2 ∧
    (∀ a, FluxDifference (cubeRp (K := ℚ) (naux := 0) a) fun q _ => cubeFlux a q) ∧
    (∀ a, HasWall c.bc a → ∃ π, MirrorImage3 a (axisSign c.bc a 4) id π false (cubeRp (K := ℚ) (naux := 0)) cubeRp cubeRt cubeRt cubeRtt
      cubeRtt ∧ ∀ b p, (fun _ => 4 : Fin 2 → Int) (π b p) = (fun _ => 4 : Fin 2 → Int) p) ∧
    Unreflected c.bc 0 ∧ ¬ Unreflected c.bc 1 ∧ Unreflected c.bc 2 ∧ ¬ Unreflected c.bc 3 := by
  have hw : ¬ HasWall (exCube ![3, 2, 4] ![.wall, .periodic, .wall] ![.wall, .periodic, .wall] step).bc 1 := by simp [HasWall, exCube]
  refine ⟨exCube_run _ _ _ _, ⟨?_, ?_, ?_, ?_, ?_, ?_⟩, fun _ => ⟨rfl, rfl⟩, ⟨fun a => ?_, fun h => absurd h (by simp [exCube])⟩,
    Or.inl rfl, hw, Or.inl rfl, fun a => ?_, fun a _ => ⟨fun b => if b = a then Equiv.swap 0 1 else Equiv.refl _, ?_, fun _ _ => rfl⟩, ?_, fun h => h 0 (Or.inl rfl) rfl, ?_,
    fun h => h 2 (Or.inl rfl) rfl⟩
  · intro a; fin_cases a <;> simp [exCube]
  · intro a; fin_cases a <;> simp [exCube, BuiltInBC]
  · intro a; fin_cases a <;> simp [exCube, BuiltInBC]
  · intro h; simp [exCube] at h
  · intro h; simp [exCube] at h
  · intro a; fin_cases a <;> simp [exCube]
  · fin_cases a
    · exact Or.inl ⟨rfl, rfl⟩
    · exact Or.inr ⟨rfl, rfl⟩
    · exact Or.inl ⟨rfl, rfl⟩
  · intro ql qr al ar
    have h0 : (0 : Fin 4) ≠ a.succ := (Fin.succ_ne_zero a).symm
    funext k
    by_cases k0 : k = 0 <;> by_cases k1 : k = a.succ <;> simp_all [cubeRp, cubeFlux, cubeDown, cubeUp] <;> ring
  · have e : axisSign (exCube ![3, 2, 4] ![.wall, .periodic, .wall] ![.wall, .periodic, .wall] step).bc a 4 = cubeSign a := by
      funext k; fin_cases a <;> fin_cases k <;> simp [axisSign, exCube, cubeSign]
    rw [e]
    exact cube_mirror a false rfl
  · intro a h
    fin_cases a
    · simp [exCube]
    · exact absurd h hw
    · simp [exCube]
  · intro a h
    fin_cases a
    · simp [exCube]
    · exact absurd h hw
    · simp [exCube]

end PyClaw
