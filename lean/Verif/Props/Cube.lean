import Verif.Lemmas.Cube

/-!
C107: the six sides of the grid and the three axes are alike in runs of the unsplit three-dimensional method.
-/
set_option linter.unusedSectionVars false

namespace PyClaw
open Spec

variable {K : Type*} [Field K] [LinearOrder K] [IsStrictOrderedRing K] {m w naux : Nat}

theorem update_triple0 (i j k x : Int) : Function.update ![i, j, k] 0 x = ![x, j, k] := by
  funext a; fin_cases a <;> rfl

theorem update_triple1 (i j k x : Int) : Function.update ![i, j, k] 1 x = ![i, x, k] := by
  funext a; fin_cases a <;> rfl

theorem update_triple2 (i j k x : Int) : Function.update ![i, j, k] 2 x = ![i, j, x] := by
  funext a; fin_cases a <;> rfl

/-- The unsplit step with the solvers of the three axes in lists. -/
def Spec.unsplit3 (undef : K) (rp : Fin 3 → Riemann K (Fin naux → K) m w) (rt : Fin 3 → Transverse3 K (Fin naux → K) m)
    (rtt : Fin 3 → Transverse33 K (Fin naux → K) m) (c : Cfg3 K w) (capa : Option ((Fin naux → K) → K)) (stale : Int → Fin m → K) :
    IntKern (Fin 3) K m naux :=
  intUnsplit3 undef (rp 0) (rp 1) (rp 2) (rt 0) (rt 1) (rt 2) (rtt 0) (rtt 1) (rtt 2) c capa stale

section mirror
variable {σ : Fin m → K} {RA : (Fin naux → K) → Fin naux → K} {π : Fin 3 → Equiv.Perm (Fin w)} {rp rp' : Fin 3 → Riemann K (Fin naux → K) m w}
  {rt rt' : Fin 3 → Transverse3 K (Fin naux → K) m} {rtt rtt' : Fin 3 → Transverse33 K (Fin naux → K) m}

theorem mirror_image3 (undef : K) (a : Fin 3) (cfg : Cfg3 K w) (lim' : Fin w → Int) (hg : 2 ≤ cfg.g) (capa : Option ((Fin naux → K) → K))
    (stale stale' : Int → Fin m → K) (hσ : IsSign σ) (hM : MirrorImage3 a σ RA π cfg.fwave rp rp' rt rt' rtt rtt')
    (hl : ∀ b p, lim' (π b p) = cfg.limiter p) (hc : ∀ κ, capa = some κ → ∀ z, κ (RA z) = κ z)
    (hf : cfg.fwave = true → cfg.order ≠ 1 → ∀ ql qr al ar p, (rp a ql qr al ar).s p ≠ 0)
    (hst : cfg.order ≠ 1 ∨ cfg.trans / 10 ≠ 2) (n : Fin 3 → Nat) :
    ImageStep (unsplit3 undef rp rt rtt cfg capa stale) (unsplit3 undef rp' rt' rtt' { cfg with limiter := lim' } capa stale') n n
      (fun v => Function.update v a ((n a : Int) + 1 - v a)) (signed σ) RA := by
  intro dt A Q
  refine both_some (x := unsplit3 undef rp rt rtt cfg capa stale dt n A Q)
    (x' := unsplit3 undef rp' rt' rtt' { cfg with limiter := lim' } capa stale' dt n _ _)
    (P := fun (r r' : (Fin 3 → Int) → Fin m → K) => ∀ v : Fin 3 → Int, (∀ a, 1 ≤ v a ∧ v a ≤ n a) →
    r' v = signed σ (r (Function.update v a ((n a : Int) + 1 - v a)))) rfl rfl ?_ ?_
  all_goals
    fin_cases a
    · have key := mirror_step3 hσ undef { cfg with mx := n 0, my := n 1, mz := n 2, dt := dt } lim' (by dsimp only; omega) hM.across
        (hM.along 1 (by decide)) (hM.along 2 (by decide)) hM.transverse hM.after hM.before (hl 0) (hl 1) (hl 2) hf hst capa hc stale stale'
        (fun i j k => A ![i, j, k]) (fun i j k => Q ![i, j, k])
      simp only [Fin.zero_eta, update_triple0, Matrix.cons_val_zero]
      first
        | exact key.2
        | intro v hv
          exact key.1 (v 0) (v 1) (v 2) (hv 0).1 (hv 0).2 (hv 1).1 (hv 1).2 (hv 2).1 (hv 2).2
    · have key := mirror_step3_y hσ undef { cfg with mx := n 0, my := n 1, mz := n 2, dt := dt } lim' (by dsimp only; omega)
        (hM.along 0 (by decide)) hM.across (hM.along 2 (by decide)) hM.before hM.transverse hM.after (hl 0) (hl 1) (hl 2) hf hst capa hc stale stale'
        (fun i j k => A ![i, j, k]) (fun i j k => Q ![i, j, k])
      simp only [Fin.mk_one, update_triple1, Matrix.cons_val_one, Matrix.cons_val_zero]
      first
        | exact key.2
        | intro v hv
          exact key.1 (v 0) (v 1) (v 2) (hv 0).1 (hv 0).2 (hv 1).1 (hv 1).2 (hv 2).1 (hv 2).2
    · have key := mirror_step3_z hσ undef { cfg with mx := n 0, my := n 1, mz := n 2, dt := dt } lim' (by dsimp only; omega)
        (hM.along 0 (by decide)) (hM.along 1 (by decide)) hM.across hM.after hM.before hM.transverse (hl 0) (hl 1) (hl 2) hf hst capa hc stale stale'
        (fun i j k => A ![i, j, k]) (fun i j k => Q ![i, j, k])
      simp only [Fin.reduceFinMk, update_triple2, Matrix.cons_val]
      first
        | exact key.2
        | intro v hv
          exact key.1 (v 0) (v 1) (v 2) (hv 0).1 (hv 0).2 (hv 1).1 (hv 1).2 (hv 2).1 (hv 2).2

/-- C107: the two sides of every axis are alike. The problem in a mirror across axis `a`: `σ` changes the sign of the velocity along `a`.
With f-waves and second order no speed along `a` may be 0 (see `C91_fwave_violated`); `hst`: see `C72_determined_violated`. -/
theorem C107_mirror_partial [FloorRing K] (undef : K) (a : Fin 3) (cfg : Cfg3 K w) (lim' : Fin w → Int) (capa : Option ((Fin naux → K) → K))
    (stale stale' : Int → Fin m → K) (hσ : IsSign σ) (hM : MirrorImage3 a σ RA π cfg.fwave rp rp' rt rt' rtt rtt')
    (hl : ∀ b p, lim' (π b p) = cfg.limiter p) (hc : ∀ κ, capa = some κ → ∀ z, κ (RA z) = κ z)
    (hf : cfg.fwave = true → cfg.order ≠ 1 → ∀ ql qr al ar p, (rp a ql qr al ar).s p ≠ 0)
    (hst : cfg.order ≠ 1 ∨ cfg.trans / 10 ≠ 2)
    (c c' : ParCfg (Fin 3) K) (hr : ClassicRun c m naux (unsplit3 undef rp rt rtt cfg capa stale))
    (hr' : ClassicRun c' m naux (unsplit3 undef rp' rt' rtt' { cfg with limiter := lim' } capa stale'))
    (ha : Admissible c.bc) (hs : Serial c.bc) (hbc : c'.bc = mirrorBC a c.bc) (hg : cfg.g = c.bc.g) (rnd : K → K) (L : K)
    (ops : List (StepOp K (GArr (Fin 3) K) (GArr (Fin 3) K × BCArrays (Fin 3) K))) (hops : OnlyEvolves ops)
    (s s' : StepState K (GArr (Fin 3) K) (GArr (Fin 3) K × BCArrays (Fin 3) K))
    (h : InStep (Corresponds m naux c.bc.n (mirrorCell c.bc.n a) (signed σ) RA) s s') :
    InStep (Corresponds m naux c.bc.n (mirrorCell c.bc.n a) (signed σ) RA) (runSteps (serialEnv c rnd L) ops s)
      (runSteps (serialEnv c' rnd L) ops s') := by
  have hg2 : 2 ≤ cfg.g := by rw [hg]; exact hr.ghost
  refine mirror_run a c c' hr hr' ha hs hbc ?_ ?_ rnd L ops hops s s' h
  · rw [← hg]; exact unsplit3_localInt undef { cfg with limiter := lim' } hg2 capa stale'
  · exact mirror_image3 undef a cfg lim' hg2 capa stale stale' hσ hM hl hc hf hst c.bc.n

end mirror

/-! ### The axes in another order -/

section permute
variable {d : Nat}

theorem permuteBC_admissible (ρ : Equiv.Perm (Fin d)) (τ : Equiv.Perm (Fin m)) (bc : BCConfig (Fin d) K) (hm : bc.numEqn = m)
    (h : Admissible bc) : Admissible (permuteBC ρ τ bc) where
  cells a := h.cells (ρ a)
  lower a := h.lower (ρ a)
  upper a := h.upper (ρ a)
  auxLower hp a := h.auxLower hp (ρ a)
  auxUpper hp a := h.auxUpper hp (ρ a)
  reflect a hw := by
    have := h.reflect (ρ a) hw
    unfold permuteBC
    dsimp only
    rw [dif_pos (by omega), hm]
    exact (τ.symm _).isLt

theorem permute_sign (ρ : Equiv.Perm (Fin d)) (τ : Equiv.Perm (Fin m)) (bc : BCConfig (Fin d) K) (v : Fin d → Int) (k : Fin m) :
    ghostSign (permuteBC ρ τ bc) (List.finRange d) v k.val = ghostSign bc (List.finRange d) (fun a => v (ρ.symm a)) (τ k).val := by
  have hb : ∀ a, (some ((permuteBC ρ τ bc).reflect a) == some k.val) = (some (bc.reflect (ρ a)) == some (τ k).val) := by
    intro a
    rw [Bool.eq_iff_iff]
    simp only [beq_iff_eq, Option.some.injEq]
    exact reflect_transpose τ _ k
  unfold ghostSign
  rw [← Fin.prod_univ_def, ← Fin.prod_univ_def]
  refine (Finset.prod_congr rfl fun a _ => ?_).trans (Equiv.prod_comp ρ _)
  simp only [hb, Equiv.symm_apply_apply]
  rfl

theorem permute_fill (ρ : Equiv.Perm (Fin d)) (τ : Equiv.Perm (Fin m)) (bc : BCConfig (Fin d) K) (h : Admissible bc) (hx : bc.numAux = naux)
    {A A' : (Fin d → Int) → Fin naux → K} {Q Q' : (Fin d → Int) → Fin m → K} {q q' aux aux' : GArr (Fin d) K}
    (RA : (Fin naux → K) → Fin naux → K)
    (f : FilledBy bc (List.finRange d) m naux A Q q aux) (f' : FilledBy (permuteBC ρ τ bc) (List.finRange d) m naux A' Q' q' aux')
    (hq : ∀ x : Fin d → Nat, (∀ i, x i < bc.n (ρ i)) → (fun k : Fin m => q' k.val x) = fun k => q (τ k).val fun a => x (ρ.symm a))
    (ha : ∀ x : Fin d → Nat, (∀ i, x i < bc.n (ρ i)) → auxAt naux aux' x = RA (auxAt naux aux fun a => x (ρ.symm a)))
    (v : Fin d → Int) (hv : ∀ a, 1 - (bc.g : Int) ≤ v a ∧ v a ≤ bc.n (ρ a) + bc.g) :
    (Q' v = fun k => Q (fun a => v (ρ.symm a)) (τ k)) ∧ A' v = RA (A fun a => v (ρ.symm a)) := by
  have hv' : ∀ a, 1 - (bc.g : Int) ≤ v (ρ.symm a) ∧ v (ρ.symm a) ≤ bc.n a + bc.g := by
    intro a
    have := hv (ρ.symm a)
    rwa [Equiv.apply_symm_apply] at this
  obtain ⟨e1, e2⟩ := f (fun a => v (ρ.symm a)) hv'
  obtain ⟨e1', e2'⟩ := f' v hv
  constructor
  · have hlt : ∀ b, foldCell (bc.bcLower (ρ b)) (bc.bcUpper (ρ b)) (bc.n (ρ b)) (v b) < bc.n (ρ b) := fun b =>
      foldCell_lt _ _ (h.lower _) (h.upper _) _ bc.g (h.cells _).1 (h.cells _).2 _ (hv b).1 (hv b).2
    have := hq _ hlt
    rw [e1', e1]
    funext k
    dsimp only
    rw [permute_sign]
    congr 1
    refine (congrFun this k).trans ?_
    simp only [Equiv.apply_symm_apply]
  · by_cases hp : 0 < naux
    · have hp' : 0 < bc.numAux := hx ▸ hp
      have hlt : ∀ b, foldCell (bc.auxLower (ρ b)) (bc.auxUpper (ρ b)) (bc.n (ρ b)) (v b) < bc.n (ρ b) :=
        fun b => foldCell_lt _ _ (h.auxLower hp' _) (h.auxUpper hp' _) _ bc.g (h.cells _).1 (h.cells _).2 _ (hv b).1 (hv b).2
      rw [e2', e2]
      refine (ha _ hlt).trans ?_
      simp only [Equiv.apply_symm_apply]
    · funext k
      exact absurd k.isLt (by omega)

/-- Runs with the axes in another order, in any number of dimensions. -/
theorem permute_run [FloorRing K] {step step' : IntKern (Fin d) K m naux} (ρ : Equiv.Perm (Fin d)) (τ : Equiv.Perm (Fin m))
    {RA : (Fin naux → K) → Fin naux → K} (c c' : ParCfg (Fin d) K) (hr : ClassicRun c m naux step) (hr' : ClassicRun c' m naux step')
    (ha : Admissible c.bc) (hs : Serial c.bc) (hm : c.bc.numEqn = m) (hbc : c'.bc = permuteBC ρ τ c.bc)
    (hloc : LocalInt step' c.bc.g)
    (himg : ImageStep step step' c.bc.n (fun a => c.bc.n (ρ a)) (fun v a => v (ρ.symm a)) (fun u k => u (τ k)) RA) (rnd : K → K) (L : K)
    (ops : List (StepOp K (GArr (Fin d) K) (GArr (Fin d) K × BCArrays (Fin d) K))) (hops : OnlyEvolves ops)
    (s s' : StepState K (GArr (Fin d) K) (GArr (Fin d) K × BCArrays (Fin d) K))
    (h : InStep (Corresponds m naux (fun a => c.bc.n (ρ a)) (fun x a => x (ρ.symm a)) (fun u k => u (τ k)) RA) s s') :
    InStep (Corresponds m naux (fun a => c.bc.n (ρ a)) (fun x a => x (ρ.symm a)) (fun u k => u (τ k)) RA)
      (runSteps (serialEnv c rnd L) ops s) (runSteps (serialEnv c' rnd L) ops s') := by
  have hn : c'.bc.n = fun a => c.bc.n (ρ a) := by rw [hbc]; rfl
  have hgg : c'.bc.g = c.bc.g := by rw [hbc]; rfl
  have key := image_run (T := fun u k => u (τ k)) (RA := RA) c c' hr hr' ha hs (by rw [hbc]; exact permuteBC_admissible ρ τ c.bc hm ha)
    (by rw [hbc]; exact fun a => hs (ρ a)) (fun x a => x (ρ.symm a)) (fun v a => v (ρ.symm a)) (fun _ _ => rfl) ?_ (by rw [hgg]; exact hloc)
    (by rw [hn]; exact himg) rnd L ops hops s s' (by rw [hn]; exact h)
  · rwa [hn] at key
  · intro A A' Q Q' q q' aux aux' f f' hq haux v hv
    rw [hr.axes] at f
    rw [hr'.axes, hbc] at f'
    rw [hn] at hq haux
    rw [hn, hgg] at hv
    exact permute_fill ρ τ c.bc ha hr.numAux RA f f' hq haux v hv

end permute

section
variable {RA : (Fin naux → K) → Fin naux → K} {π : Fin 3 → Equiv.Perm (Fin w)} {rp rp' : Fin 3 → Riemann K (Fin naux → K) m w}
  {rt rt' : Fin 3 → Transverse3 K (Fin naux → K) m} {rtt rtt' : Fin 3 → Transverse33 K (Fin naux → K) m}

/-- C107: the axes `(y, z, x)` in place of `(x, y, z)`. Axis `a` of the second run is axis `a + 1` of the first, component `k` of its state
is component `τ k` of the first run, so that the velocities move with the axes. -/
theorem C107_rotate_partial [FloorRing K] (undef : K) (cfg : Cfg3 K w) (lim' : Fin w → Int) (capa : Option ((Fin naux → K) → K))
    (stale stale' : Int → Fin m → K) (τ : Equiv.Perm (Fin m)) (hM : ∀ a, TurnedImage (fun u k => u (τ k)) RA (π a) (rp (a + 1)) (rp' a))
    (hT : ∀ a, TurnedTransverse3 (fun u k => u (τ k)) RA (rt (a + 1)) (rt' a) (rtt (a + 1)) (rtt' a))
    (hl : ∀ b p, lim' (π b p) = cfg.limiter p) (hc : ∀ κ, capa = some κ → ∀ z, κ (RA z) = κ z)
    (hst : cfg.order ≠ 1 ∨ cfg.trans / 10 ≠ 2)
    (c c' : ParCfg (Fin 3) K) (hr : ClassicRun c m naux (unsplit3 undef rp rt rtt cfg capa stale))
    (hr' : ClassicRun c' m naux
      (unsplit3 undef rp' rt' rtt' { cfg with dx := cfg.dy, dy := cfg.dz, dz := cfg.dx, limiter := lim' } capa stale'))
    (ha : Admissible c.bc) (hs : Serial c.bc) (hm : c.bc.numEqn = m) (hbc : c'.bc = permuteBC (Equiv.addRight 1) τ c.bc) (hg : cfg.g = c.bc.g)
    (rnd : K → K) (L : K)
    (ops : List (StepOp K (GArr (Fin 3) K) (GArr (Fin 3) K × BCArrays (Fin 3) K))) (hops : OnlyEvolves ops)
    (s s' : StepState K (GArr (Fin 3) K) (GArr (Fin 3) K × BCArrays (Fin 3) K))
    (h : InStep (Corresponds m naux (fun a => c.bc.n (a + 1)) (fun x a => x (a - 1)) (fun u k => u (τ k)) RA) s s') :
    InStep (Corresponds m naux (fun a => c.bc.n (a + 1)) (fun x a => x (a - 1)) (fun u k => u (τ k)) RA)
      (runSteps (serialEnv c rnd L) ops s) (runSteps (serialEnv c' rnd L) ops s') := by
  have hg2 : 2 ≤ cfg.g := by rw [hg]; exact hr.ghost
  have es : ∀ a : Fin 3, (Equiv.addRight (1 : Fin 3)).symm a = a - 1 := fun a => by
    rw [Equiv.addRight_symm]; exact (sub_eq_add_neg a 1).symm
  have key := permute_run (Equiv.addRight (1 : Fin 3)) τ (RA := RA) c c' hr hr' ha hs hm hbc ?_ ?_ rnd L ops hops s s' ?_
  · simp only [es] at key; exact key
  · rw [← hg]; exact unsplit3_localInt undef { cfg with dx := cfg.dy, dy := cfg.dz, dz := cfg.dx, limiter := lim' } hg2 capa stale'
  · intro dt A Q
    have t := turn_step3 (perm_rigid (K := K) τ) undef ({ cfg with mx := c.bc.n 0, my := c.bc.n 1, mz := c.bc.n 2, dt := dt } : Cfg3 K w).rot
      lim' (by dsimp only [Cfg3.rot]; omega) (hM 0) (hM 1) (hM 2) (hT 0) (hT 1) (hT 2) (hl 0) (hl 1) (hl 2) hst capa hc stale stale'
      (rot3 fun i j k => A ![i, j, k]) (rot3 fun i j k => Q ![i, j, k])
    have r := rot_step3 (rpx := rp 0) (rpy := rp 1) (rpz := rp 2) (rtx := rt 0) (rty := rt 1) (rtz := rt 2) (rttx := rtt 0) (rtty := rtt 1)
      (rttz := rtt 2) undef { cfg with mx := c.bc.n 0, my := c.bc.n 1, mz := c.bc.n 2, dt := dt } (by dsimp only; omega) capa stale
      (fun i j k => A ![i, j, k]) (fun i j k => Q ![i, j, k])
    have ev : ∀ i j k : Int, (fun a => ![i, j, k] ((Equiv.addRight (1 : Fin 3)).symm a)) = ![k, i, j] := by
      intro i j k; funext a; fin_cases a <;> rfl
    refine both_some (x := unsplit3 undef rp rt rtt cfg capa stale dt c.bc.n A Q)
      (x' := unsplit3 undef rp' rt' rtt' { cfg with dx := cfg.dy, dy := cfg.dz, dz := cfg.dx, limiter := lim' } capa stale' dt _ _ _)
      (P := fun (r r' : (Fin 3 → Int) → Fin m → K) => ∀ v : Fin 3 → Int, (∀ a, 1 ≤ v a ∧ v a ≤ c.bc.n (Equiv.addRight (1 : Fin 3) a)) →
      r' v = fun k => r (fun a => v ((Equiv.addRight (1 : Fin 3)).symm a)) (τ k)) rfl rfl ?_ fun v hv => ?_
    · simp only [ev]
      exact t.2.trans r.2
    · simp only [ev]
      have h0 := hv 0
      have h1 := hv 1
      have h2 := hv 2
      refine (t.1 (v 0) (v 1) (v 2) h0.1 h0.2 h1.1 h1.2 h2.1 h2.2).trans ?_
      have := r.1 (v 2) (v 0) (v 1) h2.1 h2.2 h0.1 h0.2 h1.1 h1.2
      exact congrArg (fun u : Fin m → K => fun k => u (τ k)) this
  · simp only [es]; exact h

/-- C107: the axes `(x, z, y)` in place of `(x, y, z)`. -/
theorem C107_exchange_partial [FloorRing K] (undef : K) (cfg : Cfg3 K w) (lim' : Fin w → Int) (capa : Option ((Fin naux → K) → K))
    (stale stale' : Int → Fin m → K) (τ : Equiv.Perm (Fin m))
    (hM : ∀ a, TurnedImage (fun u k => u (τ k)) RA (π a) (rp (Equiv.swap 1 2 a)) (rp' a))
    (hT : ∀ a, TurnedTransverse3 (fun u k => u (τ k)) RA (exchanged (rt (Equiv.swap 1 2 a))) (rt' a) (exchanged₂ (rtt (Equiv.swap 1 2 a))) (rtt' a))
    (hl : ∀ b p, lim' (π b p) = cfg.limiter p) (hc : ∀ κ, capa = some κ → ∀ z, κ (RA z) = κ z)
    (hst : cfg.order ≠ 1 ∨ cfg.trans / 10 ≠ 2)
    (c c' : ParCfg (Fin 3) K) (hr : ClassicRun c m naux (unsplit3 undef rp rt rtt cfg capa stale))
    (hr' : ClassicRun c' m naux (unsplit3 undef rp' rt' rtt' { cfg with dy := cfg.dz, dz := cfg.dy, limiter := lim' } capa stale'))
    (ha : Admissible c.bc) (hs : Serial c.bc) (hm : c.bc.numEqn = m) (hbc : c'.bc = permuteBC (Equiv.swap 1 2) τ c.bc) (hg : cfg.g = c.bc.g)
    (rnd : K → K) (L : K)
    (ops : List (StepOp K (GArr (Fin 3) K) (GArr (Fin 3) K × BCArrays (Fin 3) K))) (hops : OnlyEvolves ops)
    (s s' : StepState K (GArr (Fin 3) K) (GArr (Fin 3) K × BCArrays (Fin 3) K))
    (h : InStep (Corresponds m naux (fun a => c.bc.n (Equiv.swap 1 2 a)) (fun x a => x (Equiv.swap 1 2 a)) (fun u k => u (τ k)) RA) s s') :
    InStep (Corresponds m naux (fun a => c.bc.n (Equiv.swap 1 2 a)) (fun x a => x (Equiv.swap 1 2 a)) (fun u k => u (τ k)) RA)
      (runSteps (serialEnv c rnd L) ops s) (runSteps (serialEnv c' rnd L) ops s') := by
  have hg2 : 2 ≤ cfg.g := by rw [hg]; exact hr.ghost
  have e0 : Equiv.swap (1 : Fin 3) 2 0 = 0 := by decide
  have e1 : Equiv.swap (1 : Fin 3) 2 1 = 2 := by decide
  have e2 : Equiv.swap (1 : Fin 3) 2 2 = 1 := by decide
  have m0 := hM 0
  have m1 := hM 1
  have m2 := hM 2
  have t0 := hT 0
  have t1 := hT 1
  have t2 := hT 2
  rw [e0] at m0 t0
  rw [e1] at m1 t1
  rw [e2] at m2 t2
  have key := permute_run (Equiv.swap (1 : Fin 3) 2) τ (RA := RA) c c' hr hr' ha hs hm hbc ?_ ?_ rnd L ops hops s s' ?_
  · simp only [Equiv.symm_swap] at key; exact key
  · rw [← hg]; exact unsplit3_localInt undef { cfg with dy := cfg.dz, dz := cfg.dy, limiter := lim' } hg2 capa stale'
  · have hn' : (fun a => c.bc.n (Equiv.swap 1 2 a)) = ![c.bc.n 0, c.bc.n 2, c.bc.n 1] := by
      funext a; fin_cases a <;> simp [e0, e1, e2]
    have hv' : (fun (v : Fin 3 → Int) a => v ((Equiv.swap (1 : Fin 3) 2).symm a)) = fun v => ![v 0, v 2, v 1] := by
      funext v a; rw [Equiv.symm_swap]; fin_cases a <;> simp [e0, e1, e2]
    rw [hn', hv']
    intro dt A Q
    have t := turn_step3 (perm_rigid (K := K) τ) undef ({ cfg with mx := c.bc.n 0, my := c.bc.n 1, mz := c.bc.n 2, dt := dt } : Cfg3 K w).exch
      lim' (by dsimp only [Cfg3.exch]; omega) m0 m1 m2 t0 t1 t2 (hl 0) (hl 1) (hl 2) hst capa hc stale stale'
      (fun i k j => A ![i, j, k]) (fun i k j => Q ![i, j, k])
    have r := exch_step3 (rpx := rp 0) (rpy := rp 1) (rpz := rp 2) (rtx := rt 0) (rty := rt 1) (rtz := rt 2) (rttx := rtt 0) (rtty := rtt 1)
      (rttz := rtt 2) undef { cfg with mx := c.bc.n 0, my := c.bc.n 1, mz := c.bc.n 2, dt := dt } (by dsimp only; omega) capa stale
      (fun i j k => A ![i, j, k]) (fun i j k => Q ![i, j, k])
    refine both_some (x := unsplit3 undef rp rt rtt cfg capa stale dt c.bc.n A Q)
      (x' := unsplit3 undef rp' rt' rtt' { cfg with dy := cfg.dz, dz := cfg.dy, limiter := lim' } capa stale' dt _ _ _)
      (P := fun (r r' : (Fin 3 → Int) → Fin m → K) => ∀ v : Fin 3 → Int, (∀ a, 1 ≤ v a ∧ v a ≤ ![c.bc.n 0, c.bc.n 2, c.bc.n 1] a) →
      r' v = fun k => r ![v 0, v 2, v 1] (τ k)) rfl rfl ?_ fun v hv => ?_
    · simp only [Matrix.cons_val_zero, Matrix.cons_val_one, Matrix.cons_val]
      exact t.2.trans r.2
    have h0 := hv 0
    have h1 := hv 1
    have h2 := hv 2
    simp only [Matrix.cons_val_zero, Matrix.cons_val_one, Matrix.cons_val] at h0 h1 h2 ⊢
    refine (t.1 (v 0) (v 1) (v 2) h0.1 h0.2 h1.1 h1.2 h2.1 h2.2).trans ?_
    have := r.1 (v 0) (v 2) (v 1) h0.1 h0.2 h2.1 h2.2 h1.1 h1.2
    exact congrArg (fun u : Fin m → K => fun k => u (τ k)) this
  · simp only [Equiv.symm_swap]; exact h

end

/-! ### Examples -/

/-- Acoustics with density and sound speed 1 (pressure, three velocities): the parts of `x` that move down and up along axis `a`. -/
def cubeDown (a : Fin 3) (x : Fin 4 → K) : Fin 4 → K := fun k =>
  if k = 0 then (x 0 - x a.succ) / 2 else if k = a.succ then -(x 0 - x a.succ) / 2 else 0

@[inherit_doc cubeDown]
def cubeUp (a : Fin 3) (x : Fin 4 → K) : Fin 4 → K := fun k => if k = 0 ∨ k = a.succ then (x 0 + x a.succ) / 2 else 0

/-- The Riemann solver along axis `a`. -/
def cubeRp (a : Fin 3) : Riemann K (Fin naux → K) 4 2 := fun ql qr _ _ =>
  ⟨![cubeDown a (qr - ql), cubeUp a (qr - ql)], ![-1, 1], -cubeDown a (qr - ql), cubeUp a (qr - ql)⟩

/-- The transverse solvers for the sweeps along axis `a`: direction 2 is axis `a + 1`, direction 3 is axis `a + 2`. -/
def cubeRt (a : Fin 3) : Transverse3 K (Fin naux → K) 4 := fun icoor _ _ _ _ _ x =>
  (-cubeDown (if icoor = 2 then a + 1 else a + 2) x, cubeUp (if icoor = 2 then a + 1 else a + 2) x)

@[inherit_doc cubeRt]
def cubeRtt (a : Fin 3) : Transverse33 K (Fin naux → K) 4 := fun icoor _ _ _ _ _ _ x =>
  (-cubeDown (if icoor = 2 then a + 1 else a + 2) x, cubeUp (if icoor = 2 then a + 1 else a + 2) x)

/-- The velocity along axis `a` changes its sign. -/
def cubeSign (a : Fin 3) : Fin 4 → K := fun k => if k = a.succ then -1 else 1

theorem cubeSign_isSign (a : Fin 3) : IsSign (cubeSign (K := K) a) := fun k => by
  unfold cubeSign; split <;> simp

theorem cube_same (a b : Fin 3) (h : b ≠ a) (x : Fin 4 → K) :
    cubeDown b (signed (cubeSign a) x) = signed (cubeSign a) (cubeDown b x) ∧ cubeUp b (signed (cubeSign a) x) = signed (cubeSign a) (cubeUp b x) := by
  have h0 : (0 : Fin 4) ≠ a.succ := (Fin.succ_ne_zero a).symm
  have hb : b.succ ≠ a.succ := fun e => h (Fin.succ_injective _ e)
  constructor <;> funext k <;> by_cases k0 : k = 0 <;> by_cases k1 : k = b.succ <;>
    simp_all [cubeDown, cubeUp, signed, cubeSign]

theorem cube_across (a : Fin 3) (x : Fin 4 → K) :
    cubeDown a (signed (cubeSign a) x) = signed (cubeSign a) (cubeUp a x) ∧ cubeUp a (signed (cubeSign a) x) = signed (cubeSign a) (cubeDown a x) := by
  have h0 : (0 : Fin 4) ≠ a.succ := (Fin.succ_ne_zero a).symm
  constructor <;> funext k <;> by_cases k0 : k = 0 <;> by_cases k1 : k = a.succ <;>
    simp_all [cubeDown, cubeUp, signed, cubeSign] <;> ring

theorem cube_neg (a : Fin 3) (x : Fin 4 → K) : cubeDown a (-x) = -cubeDown a x ∧ cubeUp a (-x) = -cubeUp a x := by
  constructor <;> funext k <;> simp only [cubeDown, cubeUp, Pi.neg_apply] <;> split <;> (try split) <;> ring

theorem signed_sub {σ : Fin m → K} (x y : Fin m → K) : signed σ x - signed σ y = signed σ (x - y) := by
  funext k; simp only [signed, Pi.sub_apply]; ring

/-- Non-vacuity of `C107_mirror_partial`: acoustics is its own image in the mirror across any axis. -/
theorem cube_mirror (a : Fin 3) (fwave : Bool) (hw : fwave = false) :
    MirrorImage3 (K := K) a (cubeSign a) id (fun b => if b = a then Equiv.swap 0 1 else Equiv.refl _) fwave (cubeRp (naux := naux)) cubeRp cubeRt
      cubeRt cubeRtt cubeRtt := by
  subst hw
  have hn : ∀ x : Fin 4 → K, signed (cubeSign a) (-x) = -signed (cubeSign a) x := fun x => by
    funext k; simp only [signed, Pi.neg_apply]; ring
  have dec : ∀ a : Fin 3, a + 1 ≠ a ∧ a + 2 ≠ a ∧ a + 2 + 1 = a ∧ a + 2 + 2 ≠ a ∧ a + 1 + 1 ≠ a ∧ a + 1 + 2 = a := by decide
  obtain ⟨a1, a2, a21, a22, a11, a12⟩ := dec a
  refine ⟨fun ql qr al ar => ?_, fun b hb ql qr al ar => ?_, fun imp imp' _ icoor hi ql qr al ar x => ?_, fun imp ql qr al ar x => ?_,
    fun imp ql qr al ar x => ?_⟩
  · have e : signed (cubeSign a) ql - signed (cubeSign a) qr = -signed (cubeSign a) (qr - ql) := by
      rw [signed_sub, ← hn, neg_sub]
    refine ⟨fun p => ?_, fun p => ?_, ?_, ?_⟩
    · fin_cases p <;> simp [cubeRp]
    · fin_cases p <;> simp [cubeRp, e, cube_neg, (cube_across a _).1, (cube_across a _).2]
    · simp [cubeRp, e, cube_neg, (cube_across a _).1]
    · simp [cubeRp, e, cube_neg, (cube_across a _).2, hn]
  · refine ⟨fun p => ?_, fun p => ?_, ?_, ?_⟩
    · simp [cubeRp, if_neg hb]
    · fin_cases p <;> simp [cubeRp, if_neg hb, signed_sub, (cube_same a b hb _).1, (cube_same a b hb _).2]
    · simp [cubeRp, signed_sub, (cube_same a b hb _).1, hn]
    · simp [cubeRp, signed_sub, (cube_same a b hb _).2]
  · have hd : (if icoor = 2 then a + 1 else a + 2) ≠ a := by split <;> assumption
    refine ⟨?_, ?_, fun impt _ => ?_⟩
    · simp only [cubeRt, (cube_same a _ hd _).1, (cube_same a _ hd _).2, hn]
    · simp only [cubeRt, (cube_neg _ _).1, (cube_neg _ _).2, (cube_same a _ hd _).1, (cube_same a _ hd _).2, hn]
    · simp only [cubeRtt, (cube_same a _ hd _).1, (cube_same a _ hd _).2, hn]
  · refine ⟨?_, ?_, fun impt _ => ?_, fun impt impt' _ => ?_⟩
    · simp only [cubeRt, if_true, a21, (cube_across a _).1, (cube_across a _).2, hn, neg_neg]
    · simp only [cubeRt, show ¬ (3 = 2) by decide, if_false, (cube_same a _ a22 _).1, (cube_same a _ a22 _).2, hn]
    · simp only [cubeRtt, if_true, a21, (cube_across a _).1, (cube_across a _).2, hn, neg_neg]
    · simp only [cubeRtt, show ¬ (3 = 2) by decide, if_false, (cube_neg _ _).1, (cube_neg _ _).2, (cube_same a _ a22 _).1,
        (cube_same a _ a22 _).2, hn]
  · refine ⟨?_, ?_, fun impt _ => ?_, fun impt impt' _ => ?_⟩
    · simp only [exchanged, cubeRt, if_true, show ¬ (3 = 2) by decide, if_false, a12, (cube_across a _).1, (cube_across a _).2, hn, neg_neg]
    · simp only [exchanged, cubeRt, show ¬ (3 = 2) by decide, if_false, if_true, (cube_same a _ a11 _).1, (cube_same a _ a11 _).2, hn]
    · simp only [exchanged₂, cubeRtt, if_true, show ¬ (3 = 2) by decide, if_false, a12, (cube_across a _).1, (cube_across a _).2, hn, neg_neg]
    · simp only [exchanged₂, cubeRtt, show ¬ (3 = 2) by decide, if_false, if_true, (cube_neg _ _).1, (cube_neg _ _).2, (cube_same a _ a11 _).1,
        (cube_same a _ a11 _).2, hn]

/-- The velocities move with the axes: `ρ` of the axes, `cubeMoved ρ` of the components. -/
def cubeMoved (ρ : Equiv.Perm (Fin 3)) : Equiv.Perm (Fin 4) where
  toFun := Fin.cases 0 fun a => (ρ a).succ
  invFun := Fin.cases 0 fun a => (ρ.symm a).succ
  left_inv k := by refine Fin.cases rfl (fun a => ?_) k; simp
  right_inv k := by refine Fin.cases rfl (fun a => ?_) k; simp

theorem cubeMoved_zero (ρ : Equiv.Perm (Fin 3)) : cubeMoved ρ 0 = 0 := rfl

theorem cubeMoved_succ (ρ : Equiv.Perm (Fin 3)) (a : Fin 3) : cubeMoved ρ a.succ = (ρ a).succ := rfl

theorem cube_moved (ρ : Equiv.Perm (Fin 3)) (a : Fin 3) (x : Fin 4 → K) :
    (cubeDown a fun k => x (cubeMoved ρ k)) = (fun k => cubeDown (ρ a) x (cubeMoved ρ k)) ∧
    (cubeUp a fun k => x (cubeMoved ρ k)) = fun k => cubeUp (ρ a) x (cubeMoved ρ k) := by
  have h0 : ∀ k, cubeMoved ρ k = 0 ↔ k = 0 := fun k => by
    constructor
    · intro e; exact (cubeMoved ρ).injective (e.trans (cubeMoved_zero ρ).symm)
    · rintro rfl; exact cubeMoved_zero ρ
  have h1 : ∀ k, cubeMoved ρ k = (ρ a).succ ↔ k = a.succ := fun k => by
    constructor
    · intro e; exact (cubeMoved ρ).injective (e.trans (cubeMoved_succ ρ a).symm)
    · rintro rfl; exact cubeMoved_succ ρ a
  constructor <;> funext k <;> simp only [cubeDown, cubeUp, h0, h1, cubeMoved_zero, cubeMoved_succ]

/-- Non-vacuity of `C107_rotate_partial` and `C107_exchange_partial`: acoustics is its own image with the axes in another order. -/
theorem cube_turned (a : Fin 3) :
    (TurnedImage (K := K) (fun u k => u (cubeMoved (Equiv.addRight 1) k)) id (Equiv.refl _) (cubeRp (naux := naux) (a + 1)) (cubeRp a) ∧
      TurnedTransverse3 (K := K) (fun u k => u (cubeMoved (Equiv.addRight 1) k)) id (cubeRt (naux := naux) (a + 1)) (cubeRt a) (cubeRtt (a + 1))
        (cubeRtt a)) ∧
    TurnedImage (K := K) (fun u k => u (cubeMoved (Equiv.swap 1 2) k)) id (Equiv.refl _) (cubeRp (naux := naux) (Equiv.swap 1 2 a)) (cubeRp a) ∧
      TurnedTransverse3 (K := K) (fun u k => u (cubeMoved (Equiv.swap 1 2) k)) id (exchanged (cubeRt (naux := naux) (Equiv.swap 1 2 a)))
        (cubeRt a) (exchanged₂ (cubeRtt (Equiv.swap 1 2 a))) (cubeRtt a) := by
  have key : ∀ ρ : Equiv.Perm (Fin 3), TurnedImage (K := K) (fun u k => u (cubeMoved ρ k)) id (Equiv.refl _) (cubeRp (naux := naux) (ρ a))
      (cubeRp a) := by
    intro ρ ql qr al ar
    have e : ((fun k => qr (cubeMoved ρ k)) - fun k => ql (cubeMoved ρ k)) = fun k => (qr - ql) (cubeMoved ρ k) := rfl
    have hd := (cube_moved ρ a (qr - ql)).1
    have hu := (cube_moved ρ a (qr - ql)).2
    refine ⟨fun p => rfl, fun p => ?_, ?_, ?_⟩
    · fin_cases p
      · exact hd
      · exact hu
    · exact congrArg Neg.neg hd
    · exact hu
  refine ⟨⟨key (Equiv.addRight 1), fun icoor hi imp ql qr al ar x => ?_⟩, key (Equiv.swap 1 2), fun icoor hi imp ql qr al ar x => ?_⟩
  · have e : Equiv.addRight (1 : Fin 3) (if icoor = 2 then a + 1 else a + 2) = if icoor = 2 then a + 1 + 1 else a + 1 + 2 := by
      split
      · rfl
      · show a + 2 + 1 = a + 1 + 2; exact add_right_comm _ _ _
    have hd := (cube_moved (Equiv.addRight 1) (if icoor = 2 then a + 1 else a + 2) x).1
    have hu := (cube_moved (Equiv.addRight 1) (if icoor = 2 then a + 1 else a + 2) x).2
    rw [e] at hd hu
    exact ⟨Prod.ext (congrArg Neg.neg hd) hu, fun _ _ => Prod.ext (congrArg Neg.neg hd) hu⟩
  · have e : Equiv.swap (1 : Fin 3) 2 (if icoor = 2 then a + 1 else a + 2) =
        if (if icoor = 2 then 3 else 2) = 2 then Equiv.swap 1 2 a + 1 else Equiv.swap 1 2 a + 2 := by
      clear key; rcases hi with rfl | rfl <;> revert a <;> decide
    have hd := (cube_moved (Equiv.swap 1 2) (if icoor = 2 then a + 1 else a + 2) x).1
    have hu := (cube_moved (Equiv.swap 1 2) (if icoor = 2 then a + 1 else a + 2) x).2
    rw [e] at hd hu
    exact ⟨Prod.ext (congrArg Neg.neg hd) hu, fun _ _ => Prod.ext (congrArg Neg.neg hd) hu⟩

/-- A box without aux values, four components. -/
def exCube (n : Fin 3 → Nat) (lo up : Fin 3 → BCType) (step : IntKern (Fin 3) ℚ 4 0) : ParCfg (Fin 3) ℚ where
  bc := ⟨2, n, 4, 0, lo, up, lo, up, ![1, 2, 3], fun _ => true, fun _ => true, none, none, none, none⟩
  axes := [0, 1, 2]
  kern := onArrays 4 0 2 step
  sourceSplit := 1
  source := none
  beforeQ := fun _ _ q _ => q
  beforeAux := fun _ _ _ a => a

theorem exCube_run (n : Fin 3 → Nat) (lo up : Fin 3 → BCType) (step : IntKern (Fin 3) ℚ 4 0) : ClassicRun (exCube n lo up step) 4 0 step where
  homogeneous := ⟨rfl, fun _ _ _ _ => rfl, fun _ _ _ _ => rfl⟩
  ghost := le_refl 2
  numAux := rfl
  axes := rfl
  kern := rfl

/-- Steps of `1/8`, given values. -/
def exInCube (q : Fin 4 → (Fin 3 → Nat) → ℚ) : StepState ℚ (GArr (Fin 3) ℚ) (GArr (Fin 3) ℚ × BCArrays (Fin 3) ℚ) where
  set := ⟨true, 1 / 8, none, 1, 1, 9 / 10, 100, 1 / 2⟩
  status := {}
  sol := ⟨0, fun k x => if h : k < 4 then q ⟨k, h⟩ x else 0, (fun _ _ => 0, ⟨fun _ _ => 0, fun _ _ => 0⟩)⟩
  log := []

/-- Non-vacuity of the three theorems, the runs: a box of 3 by 2 by 4 cells with a wall on the left and an open end on the right, periodic
in `y`, an open end below and a wall above; the same in the mirror across `x`, with the axes in the order `(y, z, x)` and in the order
`(x, z, y)`, from any initial values and their images. -/
example (step step' : IntKern (Fin 3) ℚ 4 0) (q : Fin 4 → (Fin 3 → Nat) → ℚ) :
    let c := exCube ![3, 2, 4] ![.wall, .periodic, .extrap] ![.extrap, .periodic, .wall] step
    ClassicRun c 4 0 step ∧ Admissible c.bc ∧ Serial c.bc ∧ c.bc.numEqn = 4 ∧
    (exCube ![3, 2, 4] ![.extrap, .periodic, .extrap] ![.wall, .periodic, .wall] step').bc = mirrorBC 0 c.bc ∧
    (exCube ![2, 4, 3] ![.periodic, .extrap, .wall] ![.periodic, .wall, .extrap] step').bc =
      permuteBC (Equiv.addRight 1) (cubeMoved (Equiv.addRight 1)) c.bc ∧
    (exCube ![3, 4, 2] ![.wall, .extrap, .periodic] ![.extrap, .wall, .periodic] step').bc =
      permuteBC (Equiv.swap 1 2) (cubeMoved (Equiv.swap 1 2)) c.bc ∧
    InStep (Corresponds 4 0 c.bc.n (mirrorCell c.bc.n 0) (signed (cubeSign 0)) id) (exInCube q)
      (exInCube fun k x => cubeSign 0 k * q k (mirrorCell c.bc.n 0 x)) ∧
    InStep (Corresponds 4 0 (fun a => c.bc.n (a + 1)) (fun x a => x (a - 1)) (fun u k => u (cubeMoved (Equiv.addRight 1) k)) id) (exInCube q)
      (exInCube fun k x => q (cubeMoved (Equiv.addRight 1) k) fun a => x (a - 1)) ∧
    InStep (Corresponds 4 0 (fun a => c.bc.n (Equiv.swap 1 2 a)) (fun x a => x (Equiv.swap 1 2 a))
      (fun u k => u (cubeMoved (Equiv.swap 1 2) k)) id) (exInCube q)
      (exInCube fun k x => q (cubeMoved (Equiv.swap 1 2) k) fun a => x (Equiv.swap 1 2 a)) := by
  refine ⟨exCube_run _ _ _ _, ⟨?_, ?_, ?_, ?_, ?_, ?_⟩, fun _ => ⟨rfl, rfl⟩, rfl, ?_, ?_, ?_, ⟨rfl, rfl, rfl, rfl, ?_⟩,
    ⟨rfl, rfl, rfl, rfl, ?_⟩, rfl, rfl, rfl, rfl, ?_⟩
  · intro a; fin_cases a <;> simp [exCube]
  · intro a; fin_cases a <;> simp [exCube, BuiltInBC]
  · intro a; fin_cases a <;> simp [exCube, BuiltInBC]
  · intro h; simp [exCube] at h
  · intro h; simp [exCube] at h
  · intro a; fin_cases a <;> simp [exCube]
  · simp only [exCube, mirrorBC, BCConfig.mk.injEq, and_true, true_and]
    refine ⟨?_, ?_, ?_, ?_⟩ <;> funext a <;> fin_cases a <;> rfl
  · simp only [exCube, permuteBC, BCConfig.mk.injEq, and_true, true_and]
    refine ⟨?_, ?_, ?_, ?_, ?_, ?_⟩ <;> funext a <;> fin_cases a <;> first | rfl | decide
  · simp only [exCube, permuteBC, BCConfig.mk.injEq, and_true, true_and]
    refine ⟨?_, ?_, ?_, ?_, ?_, ?_⟩ <;> funext a <;> fin_cases a <;> first | rfl | decide
  all_goals
    intro x hx
    refine ⟨funext fun k => ?_, funext fun k => k.elim0⟩
    simp only [exInCube, Fin.is_lt, dif_pos, signed, Fin.eta]

end PyClaw
