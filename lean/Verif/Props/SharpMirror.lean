import Verif.Lemmas.SharpImage
import Verif.Props.SharpTranslate

set_option linter.unusedSectionVars false

/-!
C108: in SharpClaw the two ends of each axis are alike, and so are the axes. A run on the mirrored problem gives the mirrored results, a run
with the axes in another order gives the results in this order.
-/
namespace PyClaw
open Spec

variable {K : Type*} [Field K] [LinearOrder K] [IsStrictOrderedRing K] {d m w naux : Nat}

theorem mirror_linked {step step' : IntKern (Fin d) K m naux} (f2003 : Bool) (R : ReconCfg K m w) (capa : Option ((Fin naux → K) → K))
    {rp rp' : Fin d → Riemann K (Fin naux → K) m w} {tf tf' : Fin d → TotalFluct K (Fin naux → K) m} (dx : Fin d → K)
    (a : Fin d) {σ : Fin m → K} (hσ : IsSign σ) {RA : (Fin naux → K) → Fin naux → K} {π : Fin d → Equiv.Perm (Fin w)}
    (c c' : SharpGrid (Fin d) K) (hcap : capa = none ∨ f2003 = false) (hR : R.Fits c.bc.g) (hE : EvenRecon R)
    (S : WideStencil step c.bc.g (fun _ _ => R.Supported c.bc.g)
      (fun dt aux q v => ∑ t, sweepNew f2003 R c.bc.g capa rp tf dx t dt aux q v) (fun t a => if a = t then 1 else 0)
      (sweepNum f2003 R c.bc.g capa rp dx))
    (S' : WideStencil step' c.bc.g (fun _ _ => R.Supported c.bc.g)
      (fun dt aux q v => ∑ t, sweepNew f2003 R c.bc.g capa rp' tf' dx t dt aux q v) (fun t a => if a = t then 1 else 0)
      (sweepNum f2003 R c.bc.g capa rp' dx))
    (hM : MirrorImage σ RA (π a) R.fwave (rp a) (rp' a)) (hT : MirrorTotal σ RA (tf a) (tf' a))
    (hM' : ∀ b, b ≠ a → TurnedImage (signed σ) RA (π b) (rp b) (rp' b)) (hT' : ∀ b, b ≠ a → TurnedTotal (signed σ) RA (tf b) (tf' b))
    (hc : ∀ κ, capa = some κ → ∀ z, κ (RA z) = κ z)
    (hk : c.kern = dqArrays m naux c.bc.g step) (hk' : c'.kern = dqArrays m naux c'.bc.g step') (hp : SharpProblem c naux)
    (hax : c'.axes = c.axes) (hbc : c'.bc = mirrorBC a c.bc) (hact : SameActions m naux (mirrorCell c.bc.n a) (signed σ) RA c c')
    (aux aux' : GArr (Fin d) K)
    (haux : ∀ x : Fin d → Nat, (∀ i, x i < c.bc.n i) → auxAt naux aux' x = RA (auxAt naux aux (mirrorCell c.bc.n a x))) :
    Linked (imageSub c.bc.n (mirrorCell c.bc.n a) σ 1) (serialSharp c aux) (serialSharp c' aux') := by
  have hn : c'.bc.n = c.bc.n := by rw [hbc]; rfl
  have hg : c'.bc.g = c.bc.g := by rw [hbc]; rfl
  have hpos : ∀ a, 0 < c.bc.n a := fun a => (hp.admissible.cells a).1
  have hp' : SharpProblem c' naux := by
    refine ⟨by rw [hbc]; exact mirrorBC_admissible c.bc hp.admissible a, by rw [hbc]; exact hp.serial, by rw [hax]; exact hp.axes, ?_⟩
    rw [hbc]
    exact hp.numAux
  have key := image_linked (σ := σ) (τ := 1) (RA := RA) c c' hk hk' hp hp' (mirrorCell c.bc.n a)
    (fun v => Function.update v a ((c.bc.n a : Int) + 1 - v a)) ?_ ?_ ?_ hact aux aux' (by rw [hn]; exact haux)
  · rwa [hn] at key
  · intro x hx
    rw [hn] at hx
    funext b
    by_cases hb : b = a
    · subst hb
      have := hx b
      simp only [mirrorCell, Function.update_self]
      omega
    · simp only [mirrorCell, Function.update_of_ne hb]
  · intro A A' Q Q' q q' aux aux' f f' hq haux v hv
    rw [hax, hbc] at f'
    rw [hn] at hq haux
    rw [hn, hg] at hv
    have := mirror_fill c.bc hp.admissible a c.axes hp.numAux σ RA f f' hq haux (Function.update v a ((c.bc.n a : Int) + 1 - v a)) (by
      intro b
      by_cases hb : b = a
      · subst hb
        have := hv b
        rw [Function.update_self]
        omega
      · rw [Function.update_of_ne hb]; exact hv b)
    rw [Function.update_idem, Function.update_self, show (c.bc.n a : Int) + 1 - (c.bc.n a + 1 - v a) = v a by ring,
      Function.update_eq_self] at this
    exact this
  · intro dt A A' Q Q' h
    rw [hn, hg] at h
    rw [hn]
    refine wide_image S S' Iff.rfl c.bc.n c.bc.n hpos hpos _ ?_ _ _ ?_ ?_ dt A A' Q Q' h
    · intro v hv b
      by_cases hb : b = a
      · subst hb
        have := hv b
        simp only [Function.update_self]
        omega
      · simp only [Function.update_of_ne hb]; exact hv b
    · intro dt A Q v
      exact (sweeps_mirror f2003 R c.bc.g capa dx a hσ hcap hR hE hM hT hM' hT' hc c.bc.n dt A Q).1 v
    · intro dt A Q x
      exact (sweeps_mirror f2003 R c.bc.g capa dx a hσ hcap hR hE hM hT hM' hT' hc c.bc.n dt A Q).2 x

theorem permute_linked {step step' : IntKern (Fin d) K m naux} (f2003 : Bool) (R : ReconCfg K m w) (capa : Option ((Fin naux → K) → K))
    {rp rp' : Fin d → Riemann K (Fin naux → K) m w} {tf tf' : Fin d → TotalFluct K (Fin naux → K) m} (dx : Fin d → K)
    (ρ : Equiv.Perm (Fin d)) (τ : Equiv.Perm (Fin m)) {RA : (Fin naux → K) → Fin naux → K} {π : Fin d → Equiv.Perm (Fin w)}
    (c c' : SharpGrid (Fin d) K) (hR : R.Fits c.bc.g)
    (S : WideStencil step c.bc.g (fun _ _ => R.Supported c.bc.g)
      (fun dt aux q v => ∑ t, sweepNew f2003 R c.bc.g capa rp tf dx t dt aux q v) (fun t a => if a = t then 1 else 0)
      (sweepNum f2003 R c.bc.g capa rp dx))
    (S' : WideStencil step' c.bc.g (fun _ _ => ReconCfg.Supported { R with limEqn := fun k => R.limEqn (τ k) } c.bc.g)
      (fun dt aux q v => ∑ t, sweepNew f2003 { R with limEqn := fun k => R.limEqn (τ k) } c.bc.g capa rp' tf' (fun a => dx (ρ a)) t dt aux q v)
      (fun t a => if a = t then 1 else 0) (sweepNum f2003 { R with limEqn := fun k => R.limEqn (τ k) } c.bc.g capa rp' fun a => dx (ρ a)))
    (hM : ∀ a, TurnedImage (fun u k => u (τ k)) RA (π a) (rp (ρ a)) (rp' a))
    (hT : ∀ a, TurnedTotal (fun u k => u (τ k)) RA (tf (ρ a)) (tf' a))
    (hc : ∀ κ, capa = some κ → ∀ z, κ (RA z) = κ z)
    (hk : c.kern = dqArrays m naux c.bc.g step) (hk' : c'.kern = dqArrays m naux c'.bc.g step') (hp : SharpProblem c naux)
    (hm : c.bc.numEqn = m)
    (hax : c'.axes = c.axes) (hbc : c'.bc = permuteBC ρ τ c.bc) (hact : SameActions m naux (fun x a => x (ρ.symm a)) (fun u k => u (τ k)) RA c c')
    (aux aux' : GArr (Fin d) K)
    (haux : ∀ x : Fin d → Nat, (∀ i, x i < c.bc.n (ρ i)) → auxAt naux aux' x = RA (auxAt naux aux fun a => x (ρ.symm a))) :
    Linked (imageSub (fun a => c.bc.n (ρ a)) (fun x a => x (ρ.symm a)) (fun _ => 1) τ) (serialSharp c aux) (serialSharp c' aux') := by
  have hn : c'.bc.n = fun a => c.bc.n (ρ a) := by rw [hbc]; rfl
  have hg : c'.bc.g = c.bc.g := by rw [hbc]; rfl
  have hpos : ∀ a, 0 < c.bc.n a := fun a => (hp.admissible.cells a).1
  have hrel : relabel (fun _ => (1 : K)) τ = fun u k => u (τ k) := by
    funext u k
    unfold relabel
    rw [one_mul]
  have hp' : SharpProblem c' naux := by
    refine ⟨by rw [hbc]; exact permuteBC_admissible ρ τ c.bc hm hp.admissible, ?_, by rw [hax]; exact hp.axes, ?_⟩
    · rw [hbc]
      exact fun a => hp.serial (ρ a)
    · rw [hbc]
      exact hp.numAux
  have key := image_linked (σ := fun _ => 1) (τ := τ) (RA := RA) c c' hk hk' hp hp' (fun x a => x (ρ.symm a))
    (fun v a => v (ρ.symm a)) (fun x _ => rfl) ?_ ?_ (by rw [hrel]; exact hact) aux aux' (by rw [hn]; exact haux)
  · rwa [hn] at key
  · intro A A' Q Q' q q' aux aux' f f' hq haux v hv
    rw [hax, hbc, hp.axes] at f'
    rw [hp.axes] at f
    rw [hn] at hq haux
    rw [hn, hg] at hv
    rw [hrel] at hq ⊢
    exact permute_fill ρ τ c.bc hp.admissible hp.numAux RA f f' hq haux v hv
  · intro dt A A' Q Q' h
    rw [hn, hg] at h
    rw [hn]
    have sw := sweeps_permute f2003 R c.bc.g capa dx ρ τ hR (by rw [hrel]; exact hM) (by rw [hrel]; exact hT) hc c.bc.n
    refine wide_image S S' (supported_turn R c.bc.g _) c.bc.n (fun a => c.bc.n (ρ a)) hpos (fun a => hpos _) _ ?_ _ _ ?_ ?_ dt A A' Q Q' h
    · intro v hv b
      have := hv (ρ.symm b)
      rwa [Equiv.apply_symm_apply] at this
    · intro dt A Q v
      exact (sw dt A Q).1 v
    · intro dt A Q x
      exact (sw dt A Q).2 x

theorem eta_two {β : Type*} (f : Fin 2 → β) : ![f 0, f 1] = f := by funext i; fin_cases i <;> rfl

theorem eta_three {β : Type*} (f : Fin 3 → β) : ![f 0, f 1, f 2] = f := by funext i; fin_cases i <;> rfl

variable [FloorRing K]

/-- C108 in one dimension: of two SharpClaw runs whose boundary conditions, data, Riemann solvers, `dq_src` and `before_step` are mirror
images of each other (both ends of the axis exchanged, components multiplied by the signs `σ`), both take the same steps with the same
Courant numbers, and their solutions, stored stages and all solutions on the way are mirror images, after any sequence of `evolve_to_time`
calls with any time integrator. Missing: the limiter 5 of the componentwise TVD reconstruction (`C108_limiter_violated`), the wave-based
TVD reconstruction (`C108_tvd_wave_violated`), and capacity functions in a library built so that `dtdx` is numbered from 1. -/
theorem C108_mirror_flux1_partial (f2003 : Bool) (R : ReconCfg K m w) (c c' : SharpGrid (Fin 1) K) (hR : R.Fits c.bc.g) (hE : EvenRecon R)
    (capa : Option ((Fin naux → K) → K)) (hcap : capa = none ∨ f2003 = false) (σ : Fin m → K) (hσ : IsSign σ)
    (RA : (Fin naux → K) → Fin naux → K) (hc : ∀ κ, capa = some κ → ∀ z, κ (RA z) = κ z) (π : Equiv.Perm (Fin w))
    (rp rp' : Riemann K (Fin naux → K) m w) (hM : MirrorImage σ RA π R.fwave rp rp')
    (tf tf' : TotalFluct K (Fin naux → K) m) (hT : MirrorTotal σ RA tf tf') (dx : K)
    (hk : c.kern = dqArrays m naux c.bc.g (intFlux1 f2003 R rp tf c.bc.g dx capa))
    (hk' : c'.kern = dqArrays m naux c'.bc.g (intFlux1 f2003 R rp' tf' c'.bc.g dx capa))
    (hp : SharpProblem c naux) (hax : c'.axes = c.axes) (hbc : c'.bc = mirrorBC 0 c.bc)
    (hact : SameActions m naux (mirrorCell c.bc.n 0) (signed σ) RA c c') (aux aux' : GArr (Fin 1) K)
    (haux : ∀ x : Fin 1 → Nat, (∀ i, x i < c.bc.n i) → auxAt naux aux' x = RA (auxAt naux aux (mirrorCell c.bc.n 0 x)))
    (cfg : SharpCfg K) (goals : List (SharpGoal K)) (r r' : SharpRun K (GArr (Fin 1) K))
    (h : SameSharp (ImageOf m c.bc.n (mirrorCell c.bc.n 0) (signed σ)) r r') :
    SameSharp (ImageOf m c.bc.n (mirrorCell c.bc.n 0) (signed σ)) (sharpSessionC (serialSharp c aux) cfg goals r).1
      (sharpSessionC (serialSharp c' aux') cfg goals r').1 ∧
    (sharpSessionC (serialSharp c' aux') cfg goals r').2 = (sharpSessionC (serialSharp c aux) cfg goals r).2 := by
  have hg : c'.bc.g = c.bc.g := by rw [hbc]; rfl
  have hk'' := hk'
  rw [hg] at hk''
  exact pair_session (mirror_linked f2003 R capa (rp := fun _ => rp) (rp' := fun _ => rp') (tf := fun _ => tf) (tf' := fun _ => tf')
    (fun _ => dx) 0 hσ (π := fun _ => π) c c' hcap hR hE (flux1_sweeps f2003 R c.bc.g capa hcap hR (fun _ => rp) (fun _ => tf) fun _ => dx)
    (flux1_sweeps f2003 R c.bc.g capa hcap hR (fun _ => rp') (fun _ => tf') fun _ => dx) hM hT
    (fun b hb => absurd (Subsingleton.elim b 0) hb) (fun b hb => absurd (Subsingleton.elim b 0) hb) hc hk (by rw [hg]; exact hk'') hp hax hbc
    hact aux aux' haux) cfg goals h

/-- C108 in two dimensions, the mirror across axis `a`: the solver for this axis sees left and right exchanged, the other one only the
signs. -/
theorem C108_mirror_flux2_partial (f2003 : Bool) (R : ReconCfg K m w) (c c' : SharpGrid (Fin 2) K) (hR : R.Fits c.bc.g) (hE : EvenRecon R)
    (capa : Option ((Fin naux → K) → K)) (hcap : capa = none ∨ f2003 = false) (a : Fin 2) (σ : Fin m → K) (hσ : IsSign σ)
    (RA : (Fin naux → K) → Fin naux → K) (hc : ∀ κ, capa = some κ → ∀ z, κ (RA z) = κ z) (π : Fin 2 → Equiv.Perm (Fin w))
    (rp rp' : Fin 2 → Riemann K (Fin naux → K) m w) (hM : MirrorImage σ RA (π a) R.fwave (rp a) (rp' a))
    (hM' : ∀ b, b ≠ a → TurnedImage (signed σ) RA (π b) (rp b) (rp' b))
    (tf tf' : Fin 2 → TotalFluct K (Fin naux → K) m) (hT : MirrorTotal σ RA (tf a) (tf' a))
    (hT' : ∀ b, b ≠ a → TurnedTotal (signed σ) RA (tf b) (tf' b)) (dx : Fin 2 → K)
    (hk : c.kern = dqArrays m naux c.bc.g (intFlux2 f2003 R (rp 0) (rp 1) (tf 0) (tf 1) c.bc.g (dx 0) (dx 1) capa))
    (hk' : c'.kern = dqArrays m naux c'.bc.g (intFlux2 f2003 R (rp' 0) (rp' 1) (tf' 0) (tf' 1) c'.bc.g (dx 0) (dx 1) capa))
    (hp : SharpProblem c naux) (hax : c'.axes = c.axes) (hbc : c'.bc = mirrorBC a c.bc)
    (hact : SameActions m naux (mirrorCell c.bc.n a) (signed σ) RA c c') (aux aux' : GArr (Fin 2) K)
    (haux : ∀ x : Fin 2 → Nat, (∀ i, x i < c.bc.n i) → auxAt naux aux' x = RA (auxAt naux aux (mirrorCell c.bc.n a x)))
    (cfg : SharpCfg K) (goals : List (SharpGoal K)) (r r' : SharpRun K (GArr (Fin 2) K))
    (h : SameSharp (ImageOf m c.bc.n (mirrorCell c.bc.n a) (signed σ)) r r') :
    SameSharp (ImageOf m c.bc.n (mirrorCell c.bc.n a) (signed σ)) (sharpSessionC (serialSharp c aux) cfg goals r).1
      (sharpSessionC (serialSharp c' aux') cfg goals r').1 ∧
    (sharpSessionC (serialSharp c' aux') cfg goals r').2 = (sharpSessionC (serialSharp c aux) cfg goals r).2 := by
  have hg : c'.bc.g = c.bc.g := by rw [hbc]; rfl
  have hk'' := hk'
  rw [hg] at hk''
  have S := flux2_wide f2003 R c.bc.g capa hcap hR (rp 0) (rp 1) (tf 0) (tf 1) (dx 0) (dx 1)
  have S' := flux2_wide f2003 R c.bc.g capa hcap hR (rp' 0) (rp' 1) (tf' 0) (tf' 1) (dx 0) (dx 1)
  simp only [eta_two] at S S'
  exact pair_session (mirror_linked f2003 R capa dx a hσ c c' hcap hR hE S S' hM hT hM' hT' hc hk (by rw [hg]; exact hk'') hp hax hbc
    hact aux aux' haux) cfg goals h

/-- C108 in three dimensions, the mirror across axis `a`. -/
theorem C108_mirror_flux3_partial (f2003 : Bool) (R : ReconCfg K m w) (c c' : SharpGrid (Fin 3) K) (hR : R.Fits c.bc.g) (hE : EvenRecon R)
    (capa : Option ((Fin naux → K) → K)) (hcap : capa = none ∨ f2003 = false) (a : Fin 3) (σ : Fin m → K) (hσ : IsSign σ)
    (RA : (Fin naux → K) → Fin naux → K) (hc : ∀ κ, capa = some κ → ∀ z, κ (RA z) = κ z) (π : Fin 3 → Equiv.Perm (Fin w))
    (rp rp' : Fin 3 → Riemann K (Fin naux → K) m w) (hM : MirrorImage σ RA (π a) R.fwave (rp a) (rp' a))
    (hM' : ∀ b, b ≠ a → TurnedImage (signed σ) RA (π b) (rp b) (rp' b))
    (tf tf' : Fin 3 → TotalFluct K (Fin naux → K) m) (hT : MirrorTotal σ RA (tf a) (tf' a))
    (hT' : ∀ b, b ≠ a → TurnedTotal (signed σ) RA (tf b) (tf' b)) (dx : Fin 3 → K)
    (hk : c.kern = dqArrays m naux c.bc.g
      (intFlux3 f2003 R (rp 0) (rp 1) (rp 2) (tf 0) (tf 1) (tf 2) c.bc.g (dx 0) (dx 1) (dx 2) capa))
    (hk' : c'.kern = dqArrays m naux c'.bc.g
      (intFlux3 f2003 R (rp' 0) (rp' 1) (rp' 2) (tf' 0) (tf' 1) (tf' 2) c'.bc.g (dx 0) (dx 1) (dx 2) capa))
    (hp : SharpProblem c naux) (hax : c'.axes = c.axes) (hbc : c'.bc = mirrorBC a c.bc)
    (hact : SameActions m naux (mirrorCell c.bc.n a) (signed σ) RA c c') (aux aux' : GArr (Fin 3) K)
    (haux : ∀ x : Fin 3 → Nat, (∀ i, x i < c.bc.n i) → auxAt naux aux' x = RA (auxAt naux aux (mirrorCell c.bc.n a x)))
    (cfg : SharpCfg K) (goals : List (SharpGoal K)) (r r' : SharpRun K (GArr (Fin 3) K))
    (h : SameSharp (ImageOf m c.bc.n (mirrorCell c.bc.n a) (signed σ)) r r') :
    SameSharp (ImageOf m c.bc.n (mirrorCell c.bc.n a) (signed σ)) (sharpSessionC (serialSharp c aux) cfg goals r).1
      (sharpSessionC (serialSharp c' aux') cfg goals r').1 ∧
    (sharpSessionC (serialSharp c' aux') cfg goals r').2 = (sharpSessionC (serialSharp c aux) cfg goals r).2 := by
  have hg : c'.bc.g = c.bc.g := by rw [hbc]; rfl
  have hk'' := hk'
  rw [hg] at hk''
  have S := flux3_wide f2003 R c.bc.g capa hcap hR (rp 0) (rp 1) (rp 2) (tf 0) (tf 1) (tf 2) (dx 0) (dx 1) (dx 2)
  have S' := flux3_wide f2003 R c.bc.g capa hcap hR (rp' 0) (rp' 1) (rp' 2) (tf' 0) (tf' 1) (tf' 2) (dx 0) (dx 1) (dx 2)
  simp only [eta_three] at S S'
  exact pair_session (mirror_linked f2003 R capa dx a hσ c c' hcap hR hE S S' hM hT hM' hT' hc hk (by rw [hg]; exact hk'') hp hax hbc
    hact aux aux' haux) cfg goals h

/-- C108, the axes of the plane in another order: axis `a` of the second problem is axis `ρ a` of the first, component `k` of its state is
component `τ k`. Here all limiters are admitted. -/
theorem C108_axes_flux2_partial (f2003 : Bool) (R : ReconCfg K m w) (c c' : SharpGrid (Fin 2) K) (hR : R.Fits c.bc.g)
    (capa : Option ((Fin naux → K) → K)) (hcap : capa = none ∨ f2003 = false) (ρ : Equiv.Perm (Fin 2)) (τ : Equiv.Perm (Fin m))
    (RA : (Fin naux → K) → Fin naux → K) (hc : ∀ κ, capa = some κ → ∀ z, κ (RA z) = κ z) (π : Fin 2 → Equiv.Perm (Fin w))
    (rp rp' : Fin 2 → Riemann K (Fin naux → K) m w) (hM : ∀ a, TurnedImage (fun u k => u (τ k)) RA (π a) (rp (ρ a)) (rp' a))
    (tf tf' : Fin 2 → TotalFluct K (Fin naux → K) m) (hT : ∀ a, TurnedTotal (fun u k => u (τ k)) RA (tf (ρ a)) (tf' a)) (dx : Fin 2 → K)
    (hk : c.kern = dqArrays m naux c.bc.g (intFlux2 f2003 R (rp 0) (rp 1) (tf 0) (tf 1) c.bc.g (dx 0) (dx 1) capa))
    (hk' : c'.kern = dqArrays m naux c'.bc.g (intFlux2 f2003 { R with limEqn := fun k => R.limEqn (τ k) } (rp' 0) (rp' 1) (tf' 0) (tf' 1)
      c'.bc.g (dx (ρ 0)) (dx (ρ 1)) capa))
    (hp : SharpProblem c naux) (hm : c.bc.numEqn = m) (hax : c'.axes = c.axes) (hbc : c'.bc = permuteBC ρ τ c.bc)
    (hact : SameActions m naux (fun x a => x (ρ.symm a)) (fun u k => u (τ k)) RA c c') (aux aux' : GArr (Fin 2) K)
    (haux : ∀ x : Fin 2 → Nat, (∀ i, x i < c.bc.n (ρ i)) → auxAt naux aux' x = RA (auxAt naux aux fun a => x (ρ.symm a)))
    (cfg : SharpCfg K) (goals : List (SharpGoal K)) (r r' : SharpRun K (GArr (Fin 2) K))
    (h : SameSharp (ImageOf m (fun a => c.bc.n (ρ a)) (fun x a => x (ρ.symm a)) fun u k => u (τ k)) r r') :
    SameSharp (ImageOf m (fun a => c.bc.n (ρ a)) (fun x a => x (ρ.symm a)) fun u k => u (τ k)) (sharpSessionC (serialSharp c aux) cfg goals r).1
      (sharpSessionC (serialSharp c' aux') cfg goals r').1 ∧
    (sharpSessionC (serialSharp c' aux') cfg goals r').2 = (sharpSessionC (serialSharp c aux) cfg goals r).2 := by
  have hg : c'.bc.g = c.bc.g := by rw [hbc]; rfl
  have hk'' := hk'
  rw [hg] at hk''
  have S := flux2_wide f2003 R c.bc.g capa hcap hR (rp 0) (rp 1) (tf 0) (tf 1) (dx 0) (dx 1)
  have S' := flux2_wide f2003 { R with limEqn := fun k => R.limEqn (τ k) } c.bc.g capa hcap hR (rp' 0) (rp' 1) (tf' 0) (tf' 1)
    (dx (ρ 0)) (dx (ρ 1))
  simp only [eta_two] at S S'
  rw [show ![dx (ρ 0), dx (ρ 1)] = fun a => dx (ρ a) from eta_two fun a => dx (ρ a)] at S'
  have L := permute_linked f2003 R capa dx ρ τ c c' hR S S' hM hT hc hk (by rw [hg]; exact hk'') hp hm hax hbc hact aux aux' haux
  have hrel : relabel (fun _ => (1 : K)) τ = fun u k => u (τ k) := by
    funext u k
    unfold relabel
    rw [one_mul]
  rw [← hrel] at h ⊢
  exact pair_session L cfg goals h

/-- C108, the axes of space in another order. -/
theorem C108_axes_flux3_partial (f2003 : Bool) (R : ReconCfg K m w) (c c' : SharpGrid (Fin 3) K) (hR : R.Fits c.bc.g)
    (capa : Option ((Fin naux → K) → K)) (hcap : capa = none ∨ f2003 = false) (ρ : Equiv.Perm (Fin 3)) (τ : Equiv.Perm (Fin m))
    (RA : (Fin naux → K) → Fin naux → K) (hc : ∀ κ, capa = some κ → ∀ z, κ (RA z) = κ z) (π : Fin 3 → Equiv.Perm (Fin w))
    (rp rp' : Fin 3 → Riemann K (Fin naux → K) m w) (hM : ∀ a, TurnedImage (fun u k => u (τ k)) RA (π a) (rp (ρ a)) (rp' a))
    (tf tf' : Fin 3 → TotalFluct K (Fin naux → K) m) (hT : ∀ a, TurnedTotal (fun u k => u (τ k)) RA (tf (ρ a)) (tf' a)) (dx : Fin 3 → K)
    (hk : c.kern = dqArrays m naux c.bc.g
      (intFlux3 f2003 R (rp 0) (rp 1) (rp 2) (tf 0) (tf 1) (tf 2) c.bc.g (dx 0) (dx 1) (dx 2) capa))
    (hk' : c'.kern = dqArrays m naux c'.bc.g (intFlux3 f2003 { R with limEqn := fun k => R.limEqn (τ k) } (rp' 0) (rp' 1) (rp' 2)
      (tf' 0) (tf' 1) (tf' 2) c'.bc.g (dx (ρ 0)) (dx (ρ 1)) (dx (ρ 2)) capa))
    (hp : SharpProblem c naux) (hm : c.bc.numEqn = m) (hax : c'.axes = c.axes) (hbc : c'.bc = permuteBC ρ τ c.bc)
    (hact : SameActions m naux (fun x a => x (ρ.symm a)) (fun u k => u (τ k)) RA c c') (aux aux' : GArr (Fin 3) K)
    (haux : ∀ x : Fin 3 → Nat, (∀ i, x i < c.bc.n (ρ i)) → auxAt naux aux' x = RA (auxAt naux aux fun a => x (ρ.symm a)))
    (cfg : SharpCfg K) (goals : List (SharpGoal K)) (r r' : SharpRun K (GArr (Fin 3) K))
    (h : SameSharp (ImageOf m (fun a => c.bc.n (ρ a)) (fun x a => x (ρ.symm a)) fun u k => u (τ k)) r r') :
    SameSharp (ImageOf m (fun a => c.bc.n (ρ a)) (fun x a => x (ρ.symm a)) fun u k => u (τ k)) (sharpSessionC (serialSharp c aux) cfg goals r).1
      (sharpSessionC (serialSharp c' aux') cfg goals r').1 ∧
    (sharpSessionC (serialSharp c' aux') cfg goals r').2 = (sharpSessionC (serialSharp c aux) cfg goals r).2 := by
  have hg : c'.bc.g = c.bc.g := by rw [hbc]; rfl
  have hk'' := hk'
  rw [hg] at hk''
  have S := flux3_wide f2003 R c.bc.g capa hcap hR (rp 0) (rp 1) (rp 2) (tf 0) (tf 1) (tf 2) (dx 0) (dx 1) (dx 2)
  have S' := flux3_wide f2003 { R with limEqn := fun k => R.limEqn (τ k) } c.bc.g capa hcap hR (rp' 0) (rp' 1) (rp' 2) (tf' 0) (tf' 1) (tf' 2)
    (dx (ρ 0)) (dx (ρ 1)) (dx (ρ 2))
  simp only [eta_three] at S S'
  rw [show ![dx (ρ 0), dx (ρ 1), dx (ρ 2)] = fun a => dx (ρ a) from eta_three fun a => dx (ρ a)] at S'
  have L := permute_linked f2003 R capa dx ρ τ c c' hR S S' hM hT hc hk (by rw [hg]; exact hk'') hp hm hax hbc hact aux aux' haux
  have hrel : relabel (fun _ => (1 : K)) τ = fun u k => u (τ k) := by
    funext u k
    unfold relabel
    rw [one_mul]
  rw [← hrel] at h ⊢
  exact pair_session L cfg goals h

/-! ### Where it fails -/

/-- Advection with velocity `u` on a ring of `n` cells, without a source. -/
def driftSharp (u : ℚ) (n g : Nat) (R : ReconCfg ℚ 1 1) : SharpGrid (Fin 1) ℚ where
  bc := ringBC n g
  axes := List.finRange 1
  kern := dqArrays 1 0 g (intFlux1 true R (fun ql qr _ _ => advectionRp u ql qr () ()) none g 1 none)
  source := none
  before := fun _ _ q _ => q
  stage := fun _ _ q _ => q

/-- The Riemann solver with the opposite velocity is the mirror image. -/
theorem drift_image (u : ℚ) : MirrorImage (fun _ => 1) id (Equiv.refl (Fin 1)) false (fun ql qr (_ _ : Fin 0 → ℚ) => advectionRp u ql qr () ())
    fun ql qr _ _ => advectionRp (-u) ql qr () () := by
  intro ql qr al ar
  refine ⟨fun p => ?_, fun p => funext fun k => ?_, funext fun k => ?_, funext fun k => ?_⟩
  · simp [advectionRp]
  · simp [advectionRp, signed]
  · simp only [advectionRp, signed]
    rcases le_total u 0 with h | h
    · simp [h]
    · simp [h, signed]
      ring
  · simp only [advectionRp, signed]
    rcases le_total u 0 with h | h
    · simp [h, signed]
      ring
    · simp [h]

/-- `lim_type = 1`, `char_decomp = 0`, limiter 5. -/
def tvdCada : ReconCfg ℚ 1 1 := { wenoRing with limType := 1, limEqn := fun _ => 5 }

/-- Values 0, 1, 4, 9, … and their mirror image are mirror images. -/
theorem squares_image (n : Nat) : ImageOf 1 (fun _ : Fin 1 => n) (mirrorCell (fun _ => n) 0) (signed fun _ => (1 : ℚ))
    (fun _ x => (x 0 : ℚ) ^ 2) fun _ x => ((n - 1 - x 0 : Nat) : ℚ) ^ 2 := by
  intro x _
  funext k
  simp [signed, mirrorCell]

/-- C108 fails for the limiter 5 of the componentwise TVD reconstruction, which treats left and right differences differently: advection on
a ring of four cells with values 0, 1, 4, 9 to the right, and of the mirrored values to the left. -/
theorem C108_limiter_violated :
    ∃ q q' : GArr (Fin 1) ℚ, ImageOf 1 (fun _ => 4) (mirrorCell (fun _ => 4) 0) (signed fun _ => 1) q q' ∧
      ¬ ImageOf 1 (fun _ => 4) (mirrorCell (fun _ => 4) 0) (signed fun _ => 1)
        (dqSerial (driftSharp 1 4 2 tvdCada) (fun _ _ => 0) (1 / 2) 0 q).1
        (dqSerial (driftSharp (-1) 4 2 tvdCada) (fun _ _ => 0) (1 / 2) 0 q').1 := by
  refine ⟨_, _, squares_image 4, fun h => ?_⟩
  have h0 := congrFun (h (fun _ => 0) (fun _ => by norm_num)) 0
  have h1 := congrFun (h (fun _ => 1) (fun _ => by norm_num)) 0
  have h2 := congrFun (h (fun _ => 2) (fun _ => by norm_num)) 0
  have h3 := congrFun (h (fun _ => 3) (fun _ => by norm_num)) 0
  have := And.intro h0 (And.intro h1 (And.intro h2 h3))
  revert this
  decide +kernel

/-- C108 fails for the wave-based TVD reconstruction, which leaves out the last interface of the grid. -/
theorem C108_tvd_wave_violated :
    ∃ q q' : GArr (Fin 1) ℚ, ImageOf 1 (fun _ => 4) (mirrorCell (fun _ => 4) 0) (signed fun _ => 1) q q' ∧
      ¬ ImageOf 1 (fun _ => 4) (mirrorCell (fun _ => 4) 0) (signed fun _ => 1)
        (dqSerial (driftSharp 1 4 2 tvdWaveRing) (fun _ _ => 0) (1 / 2) 0 q).1
        (dqSerial (driftSharp (-1) 4 2 tvdWaveRing) (fun _ _ => 0) (1 / 2) 0 q').1 := by
  refine ⟨fun _ x => (((x 0 + 2) % 4 : Nat) : ℚ) ^ 2, fun _ x => (((4 - 1 - x 0 + 2) % 4 : Nat) : ℚ) ^ 2, fun x _ => ?_, fun h => ?_⟩
  · funext k
    simp [signed, mirrorCell]
  · have h0 := congrFun (h (fun _ => 0) (fun _ => by norm_num)) 0
    have h1 := congrFun (h (fun _ => 1) (fun _ => by norm_num)) 0
    have h2 := congrFun (h (fun _ => 2) (fun _ => by norm_num)) 0
    have h3 := congrFun (h (fun _ => 3) (fun _ => by norm_num)) 0
    have := And.intro h0 (And.intro h1 (And.intro h2 h3))
    revert this
    decide +kernel

/-! ### Problems that meet the hypotheses -/

/-- WENO5 for any number of equations and waves. -/
def wenoAny (m w : Nat) : ReconCfg ℚ m w where
  eps := 1 / 1000000
  tol := 0
  undef := 0
  first := 0
  limType := 2
  charDecomp := 0
  order := 5
  fwave := false
  limEqn := fun _ => 1
  limWave := fun _ => 1
  old := ⟨fun _ => 0, fun _ => 0⟩

theorem wenoAny_fits (m w : Nat) : (wenoAny m w).Fits 3 ∧ (wenoAny m w).Supported 3 ∧ EvenRecon (wenoAny m w) := by
  refine ⟨⟨by norm_num, ?_, ?_, ?_⟩, ?_, ?_⟩
  · simp [wenoAny]
  · simp [wenoAny]
  · simp [wenoAny]
  · simp [ReconCfg.Supported, reconRow, fRecon, wenoAny, wenoComp]
  · simp [EvenRecon, wenoAny]

/-- A grid with given ends and a source term that makes everything grow. -/
def exImage (d m : Nat) (n : Fin d → Nat) (lo up : Fin d → BCType) (step : IntKern (Fin d) ℚ m 0) : SharpGrid (Fin d) ℚ where
  bc := ⟨3, n, m, 0, lo, up, lo, up, fun a => a.val + 1, fun _ => true, fun _ => true, none, none, none, none⟩
  axes := List.finRange d
  kern := dqArrays m 0 3 step
  source := some fun dt _ _ q _ k => dt * q k
  before := fun _ _ q _ => q
  stage := fun _ _ q _ => q

theorem exSharp_problem (d m : Nat) (n : Fin d → Nat) (hn : ∀ a, 3 ≤ n a) (lo up : Fin d → BCType) (hl : ∀ a, BuiltInBC (lo a))
    (hu : ∀ a, BuiltInBC (up a)) (hm : d < m) (step : IntKern (Fin d) ℚ m 0) : SharpProblem (exImage d m n lo up step) 0 where
  admissible := ⟨fun a => ⟨lt_of_lt_of_le (by norm_num) (hn a), hn a⟩, hl, hu, fun h => by simp [exImage] at h, fun h => by simp [exImage] at h,
    fun a _ => show a.val + 1 < m by have := a.isLt; omega⟩
  serial := fun _ => ⟨rfl, rfl⟩
  axes := rfl
  numAux := rfl

theorem exSharp_actions (d m : Nat) (n n' : Fin d → Nat) (lo up lo' up' : Fin d → BCType) (step step' : IntKern (Fin d) ℚ m 0)
    (cell : (Fin d → Nat) → Fin d → Nat) (T : (Fin m → ℚ) → Fin m → ℚ) (hT : ∀ (x : ℚ) u, T (x • u) = x • T u) :
    SameActions m 0 cell T id (exImage d m n lo up step) (exImage d m n' lo' up' step') where
  source := Or.inr ⟨_, _, rfl, rfl, fun dt t x _ u u' a a' hu _ => (congrArg (dt • ·) hu).trans (hT dt fun k => u k.val).symm⟩
  before := fun t x _ u u' a a' hu _ => hu
  stage := fun t x _ u u' a a' hu _ => hu

/-- A run that begins with given values. -/
def exSharpStart {d : Nat} (q : GArr (Fin d) ℚ) : SharpRun ℚ (GArr (Fin d) ℚ) where
  st := ⟨1 / 8, none, 0, true, 0, 0, [(0, 0), (0, 0)], [], [], [], 1, false, 0, q⟩
  maxSteps := 100
  cflmax := none
  log := []

theorem exSharpStart_same {d m : Nat} (n : Fin d → Nat) (cell : (Fin d → Nat) → Fin d → Nat) (T : (Fin m → ℚ) → Fin m → ℚ)
    (hT : T 0 = 0) (q q' : GArr (Fin d) ℚ) (h : ImageOf m n cell T q q') : SameSharp (ImageOf m n cell T) (exSharpStart q) (exSharpStart q') := by
  have h0 : ImageOf m n cell T 0 0 := fun x _ => hT.symm
  exact ⟨rfl, rfl, rfl, rfl, rfl, rfl, rfl, rfl, rfl, rfl, rfl, rfl, h, h0, .cons ⟨h0, rfl⟩ (.cons ⟨h0, rfl⟩ .nil), .nil, .nil⟩

/-- Non-vacuity of `C108_mirror_flux1_partial`: sound between a wall on the left and an open end on the right, and in the mirror. The
theorem applies to all goals, time integrators and initial values. -/
example (cfg : SharpCfg ℚ) (goals : List (SharpGoal ℚ)) (q : GArr (Fin 1) ℚ) :=
  C108_mirror_flux1_partial true (wenoAny 2 2)
    (exImage 1 2 (fun _ => 4) (fun _ => .wall) (fun _ => .extrap)
      (intFlux1 true (wenoAny 2 2) (ignoreAux 0 acousticsRp) none 3 (1 / 4) none))
    (exImage 1 2 (fun _ => 4) (fun _ => .extrap) (fun _ => .wall)
      (intFlux1 true (wenoAny 2 2) (ignoreAux 0 acousticsRp) none 3 (1 / 4) none))
    (wenoAny_fits 2 2).1 (wenoAny_fits 2 2).2.2 none (Or.inl rfl) ![1, -1] (fun k => by fin_cases k <;> simp) id (fun _ h => by cases h)
    (Equiv.swap 0 1) (ignoreAux 0 acousticsRp) (ignoreAux 0 acousticsRp) (acoustics_image 0) none none trivial (1 / 4) rfl rfl
    (exSharp_problem 1 2 _ (fun _ => by norm_num) _ _ (fun _ => by simp [BuiltInBC]) (fun _ => by simp [BuiltInBC]) (by norm_num) _) rfl
    (by
      simp only [exImage, mirrorBC, BCConfig.mk.injEq, and_true, true_and]
      refine ⟨?_, ?_, ?_, ?_⟩ <;> funext a <;> fin_cases a <;> rfl)
    (exSharp_actions 1 2 _ _ _ _ _ _ _ _ _ _ fun x u => relabel_smul ![1, -1] 1 x u) (fun _ _ => 0) (fun _ _ => 0)
    (fun _ _ => funext fun k => k.elim0) cfg goals (exSharpStart q)
    (exSharpStart fun k x => (if k = 1 then -1 else 1) * q k (mirrorCell (fun _ => 4) 0 x))
    (exSharpStart_same _ _ _ (by funext k; simp [signed]) _ _ fun x _ => funext fun k => by fin_cases k <;> simp [signed, exImage])

/-- Acoustics in space is its own image with the axes in any other order. -/
theorem cube_turned_image (ρ : Equiv.Perm (Fin 3)) (a : Fin 3) : TurnedImage (K := K) (fun u k => u (cubeMoved ρ k)) id (Equiv.refl _)
    (cubeRp (naux := naux) (ρ a)) (cubeRp a) := by
  intro ql qr al ar
  have hd := (cube_moved ρ a (qr - ql)).1
  have hu := (cube_moved ρ a (qr - ql)).2
  refine ⟨fun p => rfl, fun p => ?_, ?_, ?_⟩
  · fin_cases p
    · exact hd
    · exact hu
  · exact congrArg Neg.neg hd
  · exact hu

/-- The three-dimensional example. -/
def exSharpCube (n : Fin 3 → Nat) (lo up : Fin 3 → BCType) (dx : Fin 3 → ℚ) : SharpGrid (Fin 3) ℚ :=
  exImage 3 4 n lo up (intFlux3 true (wenoAny 4 2) (cubeRp 0) (cubeRp 1) (cubeRp 2) none none none 3 (dx 0) (dx 1) (dx 2) none)

/-- Non-vacuity of `C108_mirror_flux3_partial`: sound in a box of 3 by 4 by 5 cells with a wall on the left, an open end on the right,
periodic in `y`, an open end below and a wall above, and in the mirror across `x`. -/
example (cfg : SharpCfg ℚ) (goals : List (SharpGoal ℚ)) (q : GArr (Fin 3) ℚ) :=
  C108_mirror_flux3_partial true (wenoAny 4 2)
    (exSharpCube ![3, 4, 5] ![.wall, .periodic, .extrap] ![.extrap, .periodic, .wall] ![1, 2, 3])
    (exSharpCube ![3, 4, 5] ![.extrap, .periodic, .extrap] ![.wall, .periodic, .wall] ![1, 2, 3])
    (wenoAny_fits 4 2).1 (wenoAny_fits 4 2).2.2 none (Or.inl rfl) 0 (cubeSign 0) (cubeSign_isSign 0) id (fun _ h => by cases h)
    (fun b => if b = 0 then Equiv.swap 0 1 else Equiv.refl _) cubeRp cubeRp (cube_mirror 0 false rfl).across (cube_mirror 0 false rfl).along
    (fun _ => none) (fun _ => none) trivial (fun _ _ => trivial) ![1, 2, 3] rfl rfl
    (exSharp_problem 3 4 _ (fun a => by fin_cases a <;> simp) _ _ (fun a => by fin_cases a <;> simp [BuiltInBC])
      (fun a => by fin_cases a <;> simp [BuiltInBC]) (by norm_num) _) rfl
    (by
      simp only [exSharpCube, exImage, mirrorBC, BCConfig.mk.injEq, and_true, true_and]
      refine ⟨?_, ?_, ?_, ?_⟩ <;> funext a <;> fin_cases a <;> rfl)
    (exSharp_actions 3 4 _ _ _ _ _ _ _ _ _ _ fun x u => relabel_smul (cubeSign 0) 1 x u) (fun _ _ => 0) (fun _ _ => 0)
    (fun _ _ => funext fun k => k.elim0) cfg goals (exSharpStart q)
    (exSharpStart fun k x => (if k = 1 then -1 else 1) * q k (mirrorCell ![3, 4, 5] 0 x))
    (exSharpStart_same _ _ _ (by funext k; simp [signed]) _ _ fun x _ => funext fun k => by
      fin_cases k <;> simp [signed, exSharpCube, exImage, cubeSign])

/-- Non-vacuity of `C108_axes_flux3_partial`: the same box with the axes in the order `(y, z, x)`. -/
example (cfg : SharpCfg ℚ) (goals : List (SharpGoal ℚ)) (q : GArr (Fin 3) ℚ) :=
  C108_axes_flux3_partial true (wenoAny 4 2)
    (exSharpCube ![3, 4, 5] ![.wall, .periodic, .extrap] ![.extrap, .periodic, .wall] ![1, 2, 3])
    (exSharpCube ![4, 5, 3] ![.periodic, .extrap, .wall] ![.periodic, .wall, .extrap] ![2, 3, 1])
    (wenoAny_fits 4 2).1 none (Or.inl rfl) (Equiv.addRight 1) (cubeMoved (Equiv.addRight 1)) id (fun _ h => by cases h)
    (fun _ => Equiv.refl _) cubeRp cubeRp (cube_turned_image (Equiv.addRight 1))
    (fun _ => none) (fun _ => none) (fun _ => trivial) ![1, 2, 3] rfl rfl
    (exSharp_problem 3 4 _ (fun a => by fin_cases a <;> simp) _ _ (fun a => by fin_cases a <;> simp [BuiltInBC])
      (fun a => by fin_cases a <;> simp [BuiltInBC]) (by norm_num) _) rfl rfl
    (by
      simp only [exSharpCube, exImage, permuteBC, BCConfig.mk.injEq, and_true, true_and]
      refine ⟨?_, ?_, ?_, ?_, ?_, ?_⟩ <;> funext a <;> fin_cases a <;> first | rfl | decide)
    (exSharp_actions 3 4 _ _ _ _ _ _ _ _ _ _ fun x u => rfl) (fun _ _ => 0) (fun _ _ => 0)
    (fun _ _ => funext fun k => k.elim0) cfg goals (exSharpStart q)
    (exSharpStart fun k x => q (if k = 1 then 2 else if k = 2 then 3 else if k = 3 then 1 else k) fun a => x (a - 1))
    (exSharpStart_same _ _ _ rfl _ _ fun x _ => funext fun k => by
      have e : ∀ a : Fin 3, (Equiv.addRight (1 : Fin 3)).symm a = a - 1 := by decide
      simp only [e]
      have e' : (if k.val = 1 then 2 else if k.val = 2 then 3 else if k.val = 3 then 1 else k.val) = (cubeMoved (Equiv.addRight 1) k).val := by
        revert k; decide
      rw [e'])

end PyClaw
