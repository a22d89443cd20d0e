import Verif.Lemmas.Square
import Verif.Lemmas.Simulation
import Verif.Props.RunExact
import Mathlib.Data.Rat.Floor

/-!
C94: the four sides of the grid and the two axes are alike in runs of the unsplit two-dimensional method. A run on the mirrored
problem gives the mirrored results, a run with the axes exchanged gives the results with the axes exchanged.
-/
set_option linter.unusedSectionVars false

namespace PyClaw
open Spec

variable {K : Type*} [Field K] [LinearOrder K] [IsStrictOrderedRing K] {m w naux : Nat}

section image
variable {d : Nat}

/-- The results in the cells of the grid depend on the ghosted grid only. -/
def LocalInt (step : IntKern (Fin d) K m naux) (g : Nat) : Prop :=
  ∀ dt n A A' Q Q', (∀ v : Fin d → Int, (∀ a, 1 - (g : Int) ≤ v a ∧ v a ≤ n a + g) → A' v = A v ∧ Q' v = Q v) →
    (step dt n A Q = none ∧ step dt n A' Q' = none) ∨
    ∃ r r' cfl, step dt n A Q = some (r, cfl) ∧ step dt n A' Q' = some (r', cfl) ∧
      ∀ v : Fin d → Int, (∀ a, 1 ≤ v a ∧ v a ≤ n a) → r' v = r v

/-- The step of `step'` on the image of the data is the image of the step of `step`. -/
def ImageStep (step step' : IntKern (Fin d) K m naux) (n n' : Fin d → Nat) (f : (Fin d → Int) → Fin d → Int)
    (T : (Fin m → K) → Fin m → K) (RA : (Fin naux → K) → Fin naux → K) : Prop :=
  ∀ dt A Q, (step dt n A Q = none ∧ step' dt n' (fun v => RA (A (f v))) (fun v => T (Q (f v))) = none) ∨
    ∃ r r' cfl, step dt n A Q = some (r, cfl) ∧ step' dt n' (fun v => RA (A (f v))) (fun v => T (Q (f v))) = some (r', cfl) ∧
      ∀ v : Fin d → Int, (∀ a, 1 ≤ v a ∧ v a ≤ n' a) → r' v = T (r (f v))

theorem both_some {F : Type*} {x x' : Option (F × K)} {r r' : F × K} (e : x = some r) (e' : x' = some r') (hc : r'.2 = r.2) {P : F → F → Prop}
    (h : P r.1 r'.1) : (x = none ∧ x' = none) ∨ ∃ f f' cfl, x = some (f, cfl) ∧ x' = some (f', cfl) ∧ P f f' :=
  Or.inr ⟨r.1, r'.1, r.2, e, by rw [e', ← hc], h⟩

theorem image_run [FloorRing K] {step step' : IntKern (Fin d) K m naux} {T : (Fin m → K) → Fin m → K}
    {RA : (Fin naux → K) → Fin naux → K} (c c' : ParCfg (Fin d) K) (hr : ClassicRun c m naux step) (hr' : ClassicRun c' m naux step')
    (ha : Admissible c.bc) (hs : Serial c.bc) (ha' : Admissible c'.bc) (hs' : Serial c'.bc)
    (cell : (Fin d → Nat) → Fin d → Nat) (f : (Fin d → Int) → Fin d → Int)
    (hcell : ∀ x : Fin d → Nat, (∀ a, x a < c'.bc.n a) → f (fun a => (x a : Int) + 1) = fun a => (cell x a : Int) + 1)
    (hfill : ∀ A A' Q Q' q q' aux aux', FilledBy c.bc c.axes m naux A Q q aux → FilledBy c'.bc c'.axes m naux A' Q' q' aux' →
      (∀ x : Fin d → Nat, (∀ i, x i < c'.bc.n i) → (fun k : Fin m => q' k.val x) = T fun k => q k.val (cell x)) →
      (∀ x : Fin d → Nat, (∀ i, x i < c'.bc.n i) → auxAt naux aux' x = RA (auxAt naux aux (cell x))) →
      ∀ v : Fin d → Int, (∀ a, 1 - (c'.bc.g : Int) ≤ v a ∧ v a ≤ c'.bc.n a + c'.bc.g) → Q' v = T (Q (f v)) ∧ A' v = RA (A (f v)))
    (hloc : LocalInt step' c'.bc.g) (himg : ImageStep step step' c.bc.n c'.bc.n f T RA) (rnd : K → K) (L : K)
    (ops : List (StepOp K (GArr (Fin d) K) (GArr (Fin d) K × BCArrays (Fin d) K))) (hops : OnlyEvolves ops)
    (s s' : StepState K (GArr (Fin d) K) (GArr (Fin d) K × BCArrays (Fin d) K))
    (h : InStep (Corresponds m naux c'.bc.n cell T RA) s s') :
    InStep (Corresponds m naux c'.bc.n cell T RA) (runSteps (serialEnv c rnd L) ops s) (runSteps (serialEnv c' rnd L) ops s') := by
  have nd : c.axes.Nodup := by rw [hr.axes]; exact List.nodup_finRange d
  have al : ∀ b, b ∈ c.axes := by rw [hr.axes]; exact List.mem_finRange
  have nd' : c'.axes.Nodup := by rw [hr'.axes]; exact List.nodup_finRange d
  have al' : ∀ b, b ∈ c'.axes := by rw [hr'.axes]; exact List.mem_finRange
  have E := kernel_sim m naux c c' step step' hr hr' cell (fun _ => T) (FilledBy c.bc c.axes m naux)
    (FilledBy c'.bc c'.axes m naux) (fun q aux old => serial_fill c.bc ha hs c.axes nd al m naux hr.numAux q aux old)
    (fun q aux old => serial_fill c'.bc ha' hs' c'.axes nd' al' m naux hr'.numAux q aux old)
    (fun a a' => ∀ x : Fin d → Nat, (∀ i, x i < c'.bc.n i) → auxAt naux a' x = RA (auxAt naux a (cell x))) ?_ rnd L L
  · have key := run_sim E ops hops s s' ⟨h.set, h.status, h.t, h.log, fun x hx => (h.data x hx).1, fun x hx => (h.data x hx).2⟩
    exact ⟨key.set, key.status, key.t, key.log, fun x hx => ⟨key.data.1 x hx, key.data.2 x hx⟩⟩
  · intro dt A A' Q Q' q q' aux aux' g g' haux hq
    have hF := hfill A A' Q Q' q q' aux aux' g g' hq haux
    have hl := hloc dt c'.bc.n (fun v => RA (A (f v))) A' (fun v => T (Q (f v))) Q' fun v hv => ⟨(hF v hv).2, (hF v hv).1⟩
    rcases himg dt A Q with ⟨h1, h2⟩ | ⟨r, r', cfl, h1, h2, h3⟩
    · rcases hl with ⟨h4, h5⟩ | ⟨r1, r2, cfl', h4, h5, h6⟩
      · exact Or.inl ⟨h1, h5⟩
      · rw [h2] at h4; exact absurd h4 (by simp)
    · rcases hl with ⟨h4, h5⟩ | ⟨r1, r2, cfl', h4, h5, h6⟩
      · rw [h2] at h4; exact absurd h4 (by simp)
      · rw [h2] at h4
        obtain ⟨rfl, rfl⟩ : r' = r1 ∧ cfl = cfl' := by simpa using h4
        refine Or.inr ⟨r, r2, cfl, h1, h5, fun x hx => ?_⟩
        have hv : ∀ a, 1 ≤ (x a : Int) + 1 ∧ (x a : Int) + 1 ≤ c'.bc.n a := fun a => by have := hx a; omega
        rw [h6 _ hv, h3 _ hv, hcell x hx]

/-- Mirrored runs, in any number of dimensions. -/
theorem mirror_run [FloorRing K] {step step' : IntKern (Fin d) K m naux} {σ : Fin m → K} {RA : (Fin naux → K) → Fin naux → K}
    (a : Fin d) (c c' : ParCfg (Fin d) K) (hr : ClassicRun c m naux step) (hr' : ClassicRun c' m naux step')
    (ha : Admissible c.bc) (hs : Serial c.bc) (hbc : c'.bc = mirrorBC a c.bc)
    (hloc : LocalInt step' c.bc.g)
    (himg : ImageStep step step' c.bc.n c.bc.n (fun v => Function.update v a ((c.bc.n a : Int) + 1 - v a)) (signed σ) RA) (rnd : K → K) (L : K)
    (ops : List (StepOp K (GArr (Fin d) K) (GArr (Fin d) K × BCArrays (Fin d) K))) (hops : OnlyEvolves ops)
    (s s' : StepState K (GArr (Fin d) K) (GArr (Fin d) K × BCArrays (Fin d) K))
    (h : InStep (Corresponds m naux c.bc.n (mirrorCell c.bc.n a) (signed σ) RA) s s') :
    InStep (Corresponds m naux c.bc.n (mirrorCell c.bc.n a) (signed σ) RA) (runSteps (serialEnv c rnd L) ops s)
      (runSteps (serialEnv c' rnd L) ops s') := by
  have hn : c'.bc.n = c.bc.n := by rw [hbc]; rfl
  have hg : c'.bc.g = c.bc.g := by rw [hbc]; rfl
  have hax : c'.axes = c.axes := by rw [hr.axes, hr'.axes]
  have key := image_run (T := signed σ) (RA := RA) c c' hr hr' ha hs (by rw [hbc]; exact mirrorBC_admissible c.bc ha a)
    (by rw [hbc]; exact hs) (mirrorCell c.bc.n a) (fun v => Function.update v a ((c.bc.n a : Int) + 1 - v a)) ?_ ?_
    (by rw [hg]; exact hloc) (by rw [hn]; exact himg) rnd L ops hops s s' (by rw [hn]; exact h)
  · rwa [hn] at key
  · intro x hx
    rw [hn] at hx
    funext b
    by_cases hb : b = a
    · subst hb
      have := hx b
      simp only [mirrorCell, Function.update_self]
      omega
    · simp only [mirrorCell, Function.update_of_ne hb]
  · intro A A' Q Q' q q' aux aux' f f' hq haux v hv
    rw [hax, hbc] at f'
    rw [hn] at hq haux
    rw [hn, hg] at hv
    have := mirror_fill c.bc ha a c.axes hr.numAux σ RA f f' hq haux (Function.update v a ((c.bc.n a : Int) + 1 - v a)) (by
      intro b
      by_cases hb : b = a
      · subst hb
        have := hv b
        rw [Function.update_self]
        omega
      · rw [Function.update_of_ne hb]; exact hv b)
    rw [Function.update_idem, Function.update_self, show (c.bc.n a : Int) + 1 - (c.bc.n a + 1 - v a) = v a by ring,
      Function.update_eq_self] at this
    exact this

end image

/-! ### The unsplit method -/

theorem unsplit2_localInt (undef : K) (rpx rpy : Riemann K (Fin naux → K) m w) (rtx rty : Transverse K (Fin naux → K) m) (c : Cfg2 K w)
    (hg : 2 ≤ c.g) (capa : Option ((Fin naux → K) → K)) : LocalInt (intUnsplit2 undef rpx rpy rtx rty c capa) c.g := by
  intro dt n A A' Q Q' h
  have hb : ∀ i j : Int, 1 - (c.g : Int) ≤ i → i ≤ n 0 + c.g → 1 - (c.g : Int) ≤ j → j ≤ n 1 + c.g →
      A' ![i, j] = A ![i, j] ∧ Q' ![i, j] = Q ![i, j] := fun i j i1 i2 j1 j2 =>
    h ![i, j] fun a => by fin_cases a <;> simp <;> omega
  refine both_some (x := intUnsplit2 undef rpx rpy rtx rty c capa dt n A Q) (x' := intUnsplit2 undef rpx rpy rtx rty c capa dt n A' Q')
    (P := fun (r r' : (Fin 2 → Int) → Fin m → K) => ∀ v : Fin 2 → Int, (∀ a, 1 ≤ v a ∧ v a ≤ n a) → r' v = r v) rfl rfl ?_ fun v hv => ?_
  · exact unsplit_cfl_local undef rpx rpy rtx rty { c with mx := n 0, my := n 1, dt := dt } capa (fun i j => A ![i, j])
      (fun i j => A' ![i, j]) (fun i j => Q ![i, j]) (fun i j => Q' ![i, j]) fun i j i1 i2 j1 j2 => by
        dsimp only at i2 j2
        exact hb i j (by omega) (by omega) (by omega) (by omega)
  · have h0 := hv 0
    have h1 := hv 1
    exact C40_unsplit2_local undef rpx rpy rtx rty { c with mx := n 0, my := n 1, dt := dt } (by dsimp only; omega) capa _ _ _ _ (v 0) (v 1)
      h0.1 h0.2 h1.1 h1.2 (fun k l k1 k2 l1 l2 => (hb k l (by omega) (by omega) (by omega) (by omega)).2)
      (fun k l k1 k2 l1 l2 => (hb k l (by omega) (by omega) (by omega) (by omega)).1)

section
variable {σ : Fin m → K} {RA : (Fin naux → K) → Fin naux → K} {πx πy : Equiv.Perm (Fin w)}
  {rpx rpx' rpy rpy' : Riemann K (Fin naux → K) m w} {rtx rtx' rty rty' : Transverse K (Fin naux → K) m}

theorem update_pair0 (i j x : Int) : Function.update ![i, j] 0 x = ![x, j] := by
  funext a; fin_cases a <;> rfl

theorem update_pair1 (i j x : Int) : Function.update ![i, j] 1 x = ![i, x] := by
  funext a; fin_cases a <;> rfl

/-- C94: left and right are alike. The problem in a mirror that exchanges left and right: `σ` changes the sign of the velocity in `x`.
With f-waves and second order no speed in `x` may be 0 (see `C91_fwave_violated`). -/
theorem C94_mirror_x_partial [FloorRing K] (undef : K) (cfg : Cfg2 K w) (lim' : Fin w → Int) (capa : Option ((Fin naux → K) → K))
    (hσ : IsSign σ) (hx : MirrorImage σ RA πx cfg.fwave rpx rpx') (hy : TurnedImage (signed σ) RA πy rpy rpy')
    (htx : MirrorTransverse σ RA rtx rtx') (hty : SidewaysTransverse σ RA rty rty')
    (hlx : ∀ p, lim' (πx p) = cfg.limiter p) (hly : ∀ p, lim' (πy p) = cfg.limiter p)
    (hc : ∀ κ, capa = some κ → ∀ z, κ (RA z) = κ z)
    (hf : cfg.fwave = true → cfg.order ≠ 1 → ∀ ql qr al ar p, (rpx ql qr al ar).s p ≠ 0)
    (c c' : ParCfg (Fin 2) K) (hr : ClassicRun c m naux (intUnsplit2 undef rpx rpy rtx rty cfg capa))
    (hr' : ClassicRun c' m naux (intUnsplit2 undef rpx' rpy' rtx' rty' { cfg with limiter := lim' } capa))
    (ha : Admissible c.bc) (hs : Serial c.bc) (hbc : c'.bc = mirrorBC 0 c.bc) (hg : cfg.g = c.bc.g) (rnd : K → K) (L : K)
    (ops : List (StepOp K (GArr (Fin 2) K) (GArr (Fin 2) K × BCArrays (Fin 2) K))) (hops : OnlyEvolves ops)
    (s s' : StepState K (GArr (Fin 2) K) (GArr (Fin 2) K × BCArrays (Fin 2) K))
    (h : InStep (Corresponds m naux c.bc.n (mirrorCell c.bc.n 0) (signed σ) RA) s s') :
    InStep (Corresponds m naux c.bc.n (mirrorCell c.bc.n 0) (signed σ) RA) (runSteps (serialEnv c rnd L) ops s)
      (runSteps (serialEnv c' rnd L) ops s') := by
  have hg2 : 2 ≤ cfg.g := by rw [hg]; exact hr.ghost
  refine mirror_run 0 c c' hr hr' ha hs hbc ?_ ?_ rnd L ops hops s s' h
  · rw [← hg]; exact unsplit2_localInt undef rpx' rpy' rtx' rty' { cfg with limiter := lim' } hg2 capa
  · intro dt A Q
    have key := mirrorX_step hσ undef { cfg with mx := c.bc.n 0, my := c.bc.n 1, dt := dt } lim' (by dsimp only; omega) hx hy htx hty hlx hly hf
      capa hc (fun i j => A ![i, j]) (fun i j => Q ![i, j])
    refine both_some (x := intUnsplit2 undef rpx rpy rtx rty cfg capa dt c.bc.n A Q)
      (x' := intUnsplit2 undef rpx' rpy' rtx' rty' { cfg with limiter := lim' } capa dt c.bc.n _ _) (P := fun (r r' : (Fin 2 → Int) → Fin m → K) => ∀ v : Fin 2 → Int, (∀ a, 1 ≤ v a ∧ v a ≤ c.bc.n a) →
      r' v = signed σ (r (Function.update v 0 ((c.bc.n 0 : Int) + 1 - v 0)))) rfl rfl ?_ fun v hv => ?_
    · simp only [update_pair0, Matrix.cons_val_zero]
      exact key.2
    · have h0 := hv 0
      have h1 := hv 1
      simp only [update_pair0, Matrix.cons_val_zero]
      refine (key.1 (v 0) (v 1) h0.1 h0.2 h1.1 h1.2).trans ?_
      simp

/-- C94: down and up are alike. -/
theorem C94_mirror_y_partial [FloorRing K] (undef : K) (cfg : Cfg2 K w) (lim' : Fin w → Int) (capa : Option ((Fin naux → K) → K))
    (hσ : IsSign σ) (hx : TurnedImage (signed σ) RA πx rpx rpx') (hy : MirrorImage σ RA πy cfg.fwave rpy rpy')
    (htx : SidewaysTransverse σ RA rtx rtx') (hty : MirrorTransverse σ RA rty rty')
    (hlx : ∀ p, lim' (πx p) = cfg.limiter p) (hly : ∀ p, lim' (πy p) = cfg.limiter p)
    (hc : ∀ κ, capa = some κ → ∀ z, κ (RA z) = κ z)
    (hf : cfg.fwave = true → cfg.order ≠ 1 → ∀ ql qr al ar p, (rpy ql qr al ar).s p ≠ 0)
    (c c' : ParCfg (Fin 2) K) (hr : ClassicRun c m naux (intUnsplit2 undef rpx rpy rtx rty cfg capa))
    (hr' : ClassicRun c' m naux (intUnsplit2 undef rpx' rpy' rtx' rty' { cfg with limiter := lim' } capa))
    (ha : Admissible c.bc) (hs : Serial c.bc) (hbc : c'.bc = mirrorBC 1 c.bc) (hg : cfg.g = c.bc.g) (rnd : K → K) (L : K)
    (ops : List (StepOp K (GArr (Fin 2) K) (GArr (Fin 2) K × BCArrays (Fin 2) K))) (hops : OnlyEvolves ops)
    (s s' : StepState K (GArr (Fin 2) K) (GArr (Fin 2) K × BCArrays (Fin 2) K))
    (h : InStep (Corresponds m naux c.bc.n (mirrorCell c.bc.n 1) (signed σ) RA) s s') :
    InStep (Corresponds m naux c.bc.n (mirrorCell c.bc.n 1) (signed σ) RA) (runSteps (serialEnv c rnd L) ops s)
      (runSteps (serialEnv c' rnd L) ops s') := by
  have hg2 : 2 ≤ cfg.g := by rw [hg]; exact hr.ghost
  refine mirror_run 1 c c' hr hr' ha hs hbc ?_ ?_ rnd L ops hops s s' h
  · rw [← hg]; exact unsplit2_localInt undef rpx' rpy' rtx' rty' { cfg with limiter := lim' } hg2 capa
  · intro dt A Q
    have key := mirrorY_step hσ undef { cfg with mx := c.bc.n 0, my := c.bc.n 1, dt := dt } lim' (by dsimp only; omega) hx hy htx hty hlx hly hf
      capa hc (fun i j => A ![i, j]) (fun i j => Q ![i, j])
    refine both_some (x := intUnsplit2 undef rpx rpy rtx rty cfg capa dt c.bc.n A Q)
      (x' := intUnsplit2 undef rpx' rpy' rtx' rty' { cfg with limiter := lim' } capa dt c.bc.n _ _) (P := fun (r r' : (Fin 2 → Int) → Fin m → K) => ∀ v : Fin 2 → Int, (∀ a, 1 ≤ v a ∧ v a ≤ c.bc.n a) →
      r' v = signed σ (r (Function.update v 1 ((c.bc.n 1 : Int) + 1 - v 1)))) rfl rfl ?_ fun v hv => ?_
    · simp only [update_pair1, Matrix.cons_val_one]
      exact key.2
    · have h0 := hv 0
      have h1 := hv 1
      simp only [update_pair1, Matrix.cons_val_one]
      refine (key.1 (v 0) (v 1) h0.1 h0.2 h1.1 h1.2).trans ?_
      simp

end

/-! ### The axes exchanged -/

theorem otherAxis_otherAxis (a : Fin 2) : otherAxis (otherAxis a) = a := by fin_cases a <;> rfl

theorem transposeBC_admissible (τ : Equiv.Perm (Fin m)) (bc : BCConfig (Fin 2) K) (hm : bc.numEqn = m) (h : Admissible bc) :
    Admissible (transposeBC τ bc) where
  cells a := h.cells (otherAxis a)
  lower a := h.lower (otherAxis a)
  upper a := h.upper (otherAxis a)
  auxLower hp a := h.auxLower hp (otherAxis a)
  auxUpper hp a := h.auxUpper hp (otherAxis a)
  reflect a hw := by
    have := h.reflect (otherAxis a) hw
    unfold transposeBC
    dsimp only
    rw [dif_pos (by omega), hm]
    exact (τ.symm _).isLt

theorem reflect_transpose (τ : Equiv.Perm (Fin m)) (r : Nat) (k : Fin m) :
    (if h : r < m then (τ.symm ⟨r, h⟩).val else r) = k.val ↔ r = (τ k).val := by
  by_cases h : r < m
  · rw [dif_pos h]
    constructor
    · intro e
      have : τ.symm ⟨r, h⟩ = k := Fin.ext e
      rw [← this, Equiv.apply_symm_apply]
    · intro e
      have : (⟨r, h⟩ : Fin m) = τ k := Fin.ext e
      rw [this, Equiv.symm_apply_apply]
  · rw [dif_neg h]
    constructor
    · intro e; have := k.isLt; omega
    · intro e; have := (τ k).isLt; omega

theorem transpose_sign (τ : Equiv.Perm (Fin m)) (bc : BCConfig (Fin 2) K) (v : Fin 2 → Int) (k : Fin m) :
    ghostSign (transposeBC τ bc) (List.finRange 2) v k.val = ghostSign bc (List.finRange 2) (fun a => v (otherAxis a)) (τ k).val := by
  have e : List.finRange 2 = [0, 1] := rfl
  have hb : ∀ a, (some ((transposeBC τ bc).reflect a) == some k.val) = (some (bc.reflect (otherAxis a)) == some (τ k).val) := by
    intro a
    rw [Bool.eq_iff_iff]
    simp only [beq_iff_eq, Option.some.injEq]
    exact reflect_transpose τ _ k
  unfold ghostSign
  rw [e]
  simp only [List.map_cons, List.map_nil, List.prod_cons, List.prod_nil, mul_one, hb]
  exact mul_comm _ _

theorem transpose_fill (τ : Equiv.Perm (Fin m)) (bc : BCConfig (Fin 2) K) (h : Admissible bc) (hx : bc.numAux = naux)
    {A A' : (Fin 2 → Int) → Fin naux → K} {Q Q' : (Fin 2 → Int) → Fin m → K} {q q' aux aux' : GArr (Fin 2) K}
    (RA : (Fin naux → K) → Fin naux → K)
    (f : FilledBy bc (List.finRange 2) m naux A Q q aux) (f' : FilledBy (transposeBC τ bc) (List.finRange 2) m naux A' Q' q' aux')
    (hq : ∀ x : Fin 2 → Nat, (∀ i, x i < bc.n (otherAxis i)) →
      (fun k : Fin m => q' k.val x) = fun k => q (τ k).val fun a => x (otherAxis a))
    (ha : ∀ x : Fin 2 → Nat, (∀ i, x i < bc.n (otherAxis i)) → auxAt naux aux' x = RA (auxAt naux aux fun a => x (otherAxis a)))
    (v : Fin 2 → Int) (hv : ∀ a, 1 - (bc.g : Int) ≤ v a ∧ v a ≤ bc.n (otherAxis a) + bc.g) :
    (Q' v = fun k => Q (fun a => v (otherAxis a)) (τ k)) ∧ A' v = RA (A fun a => v (otherAxis a)) := by
  have hv' : ∀ a, 1 - (bc.g : Int) ≤ v (otherAxis a) ∧ v (otherAxis a) ≤ bc.n a + bc.g := by
    intro a
    have := hv (otherAxis a)
    rwa [otherAxis_otherAxis] at this
  obtain ⟨e1, e2⟩ := f (fun a => v (otherAxis a)) hv'
  obtain ⟨e1', e2'⟩ := f' v hv
  constructor
  · have hlt : ∀ b, foldCell (bc.bcLower (otherAxis b)) (bc.bcUpper (otherAxis b)) (bc.n (otherAxis b)) (v b) < bc.n (otherAxis b) := fun b =>
      foldCell_lt _ _ (h.lower _) (h.upper _) _ bc.g (h.cells _).1 (h.cells _).2 _ (hv b).1 (hv b).2
    have := hq _ hlt
    rw [e1', e1]
    funext k
    dsimp only
    rw [transpose_sign]
    congr 1
    refine (congrFun this k).trans ?_
    simp only [otherAxis_otherAxis]
  · by_cases hp : 0 < naux
    · have hp' : 0 < bc.numAux := hx ▸ hp
      have hlt : ∀ b, foldCell (bc.auxLower (otherAxis b)) (bc.auxUpper (otherAxis b)) (bc.n (otherAxis b)) (v b) < bc.n (otherAxis b) :=
        fun b => foldCell_lt _ _ (h.auxLower hp' _) (h.auxUpper hp' _) _ bc.g (h.cells _).1 (h.cells _).2 _ (hv b).1 (hv b).2
      rw [e2', e2]
      refine (ha _ hlt).trans ?_
      simp only [otherAxis_otherAxis]
    · funext k
      exact absurd k.isLt (by omega)

section
variable {RA : (Fin naux → K) → Fin naux → K} {πx πy : Equiv.Perm (Fin w)}
  {rpx rpx' rpy rpy' : Riemann K (Fin naux → K) m w} {rtx rtx' rty rty' : Transverse K (Fin naux → K) m}

/-- C94: the axes are alike. In the second run the axes are exchanged and component `k` of the state is component `τ k` of the first
run, so that the velocities in `x` and `y` can be exchanged; the solvers for `x` are those for `y` in these components. -/
theorem C94_transpose [FloorRing K] (undef : K) (cfg : Cfg2 K w) (lim' : Fin w → Int) (capa : Option ((Fin naux → K) → K))
    (τ : Equiv.Perm (Fin m)) (hx : TurnedImage (fun u k => u (τ k)) RA πx rpx rpy') (hy : TurnedImage (fun u k => u (τ k)) RA πy rpy rpx')
    (htx : TurnedTransverse (fun u k => u (τ k)) RA rtx rty') (hty : TurnedTransverse (fun u k => u (τ k)) RA rty rtx')
    (hlx : ∀ p, lim' (πx p) = cfg.limiter p) (hly : ∀ p, lim' (πy p) = cfg.limiter p)
    (hc : ∀ κ, capa = some κ → ∀ z, κ (RA z) = κ z)
    (c c' : ParCfg (Fin 2) K) (hr : ClassicRun c m naux (intUnsplit2 undef rpx rpy rtx rty cfg capa))
    (hr' : ClassicRun c' m naux (intUnsplit2 undef rpx' rpy' rtx' rty' { cfg with dx := cfg.dy, dy := cfg.dx, limiter := lim' } capa))
    (ha : Admissible c.bc) (hs : Serial c.bc) (hm : c.bc.numEqn = m) (hbc : c'.bc = transposeBC τ c.bc) (hg : cfg.g = c.bc.g)
    (rnd : K → K) (L : K)
    (ops : List (StepOp K (GArr (Fin 2) K) (GArr (Fin 2) K × BCArrays (Fin 2) K))) (hops : OnlyEvolves ops)
    (s s' : StepState K (GArr (Fin 2) K) (GArr (Fin 2) K × BCArrays (Fin 2) K))
    (h : InStep (Corresponds m naux (fun a => c.bc.n (otherAxis a)) (fun x a => x (otherAxis a)) (fun u k => u (τ k)) RA) s s') :
    InStep (Corresponds m naux (fun a => c.bc.n (otherAxis a)) (fun x a => x (otherAxis a)) (fun u k => u (τ k)) RA)
      (runSteps (serialEnv c rnd L) ops s) (runSteps (serialEnv c' rnd L) ops s') := by
  have hg2 : 2 ≤ cfg.g := by rw [hg]; exact hr.ghost
  have hn : c'.bc.n = fun a => c.bc.n (otherAxis a) := by rw [hbc]; rfl
  have hgg : c'.bc.g = c.bc.g := by rw [hbc]; rfl
  have key := image_run (T := fun u k => u (τ k)) (RA := RA) c c' hr hr' ha hs (by rw [hbc]; exact transposeBC_admissible τ c.bc hm ha)
    (by rw [hbc]; exact fun a => hs (otherAxis a)) (fun x a => x (otherAxis a)) (fun v a => v (otherAxis a)) (fun _ _ => rfl) ?_ ?_ ?_
    rnd L ops hops s s' (by rw [hn]; exact h)
  · rwa [hn] at key
  · intro A A' Q Q' q q' aux aux' f f' hq haux v hv
    rw [hr.axes] at f
    rw [hr'.axes, hbc] at f'
    rw [hn] at hq haux
    rw [hn, hgg] at hv
    exact transpose_fill τ c.bc ha hr.numAux RA f f' hq haux v hv
  · rw [hgg, ← hg]
    exact unsplit2_localInt undef rpx' rpy' rtx' rty' { cfg with dx := cfg.dy, dy := cfg.dx, limiter := lim' } hg2 capa
  · intro dt A Q
    have key := transpose_step (perm_rigid (K := K) τ) undef { cfg with mx := c.bc.n 0, my := c.bc.n 1, dt := dt } lim' (by dsimp only; omega)
      hx hy htx hty hlx hly capa hc (fun i j => A ![i, j]) (fun i j => Q ![i, j])
    have ev : ∀ i j : Int, (fun a => ![i, j] (otherAxis a)) = ![j, i] := by
      intro i j; funext a; fin_cases a <;> rfl
    refine both_some (x := intUnsplit2 undef rpx rpy rtx rty cfg capa dt c.bc.n A Q)
      (x' := intUnsplit2 undef rpx' rpy' rtx' rty' { cfg with dx := cfg.dy, dy := cfg.dx, limiter := lim' } capa dt c'.bc.n _ _)
      (P := fun (r r' : (Fin 2 → Int) → Fin m → K) => ∀ v : Fin 2 → Int, (∀ a, 1 ≤ v a ∧ v a ≤ c'.bc.n a) →
      r' v = fun k => r (fun a => v (otherAxis a)) (τ k)) rfl rfl ?_ fun v hv => ?_
    · simp only [ev, hn]
      exact key.2
    · have h0 := hv 0
      have h1 := hv 1
      simp only [hn] at h0 h1 ⊢
      simp only [ev]
      exact key.1 (v 0) (v 1) h0.1 h0.2 h1.1 h1.2

/-- C94: data that are symmetric about the diagonal stay so, on a square grid with the same conditions on both axes. -/
theorem C94_diagonal [FloorRing K] (undef : K) (cfg : Cfg2 K w) (capa : Option ((Fin naux → K) → K)) (hd : cfg.dx = cfg.dy)
    (τ : Equiv.Perm (Fin m)) (hx : TurnedImage (fun u k => u (τ k)) RA πx rpx rpy) (hy : TurnedImage (fun u k => u (τ k)) RA πy rpy rpx)
    (htx : TurnedTransverse (fun u k => u (τ k)) RA rtx rty) (hty : TurnedTransverse (fun u k => u (τ k)) RA rty rtx)
    (hlx : ∀ p, cfg.limiter (πx p) = cfg.limiter p) (hly : ∀ p, cfg.limiter (πy p) = cfg.limiter p)
    (hc : ∀ κ, capa = some κ → ∀ z, κ (RA z) = κ z)
    (c : ParCfg (Fin 2) K) (hr : ClassicRun c m naux (intUnsplit2 undef rpx rpy rtx rty cfg capa))
    (ha : Admissible c.bc) (hs : Serial c.bc) (hm : c.bc.numEqn = m) (hbc : transposeBC τ c.bc = c.bc) (hg : cfg.g = c.bc.g)
    (rnd : K → K) (L : K)
    (ops : List (StepOp K (GArr (Fin 2) K) (GArr (Fin 2) K × BCArrays (Fin 2) K))) (hops : OnlyEvolves ops)
    (s : StepState K (GArr (Fin 2) K) (GArr (Fin 2) K × BCArrays (Fin 2) K))
    (h : ∀ i j : Nat, i < c.bc.n 0 → j < c.bc.n 0 → (∀ k : Fin m, s.sol.q k.val ![i, j] = s.sol.q (τ k).val ![j, i]) ∧
      auxAt naux s.sol.rest.1 ![i, j] = RA (auxAt naux s.sol.rest.1 ![j, i])) (i j : Nat) (hi : i < c.bc.n 0) (hj : j < c.bc.n 0)
    (k : Fin m) :
    (runSteps (serialEnv c rnd L) ops s).sol.q k.val ![i, j] = (runSteps (serialEnv c rnd L) ops s).sol.q (τ k).val ![j, i] := by
  have hn : c.bc.n 1 = c.bc.n 0 := congrFun (congrArg BCConfig.n hbc) 0
  have hcfg : { cfg with dx := cfg.dy, dy := cfg.dx, limiter := cfg.limiter } = cfg := by
    obtain ⟨mx, my, g, dt, dx, dy, o, t, fw, l⟩ := cfg
    dsimp only at hd ⊢
    rw [hd]
  have ev : ∀ i j : Nat, (fun a => ![i, j] (otherAxis a)) = ![j, i] := by
    intro i j; funext a; fin_cases a <;> rfl
  have key := C94_transpose undef cfg cfg.limiter capa τ hx hy htx hty hlx hly hc c c hr (by rw [hcfg]; exact hr) ha hs hm hbc.symm hg rnd L
    ops hops s s ⟨rfl, rfl, rfl, rfl, fun x hx => by
      obtain ⟨i, j, rfl⟩ : ∃ i j, x = ![i, j] := ⟨x 0, x 1, by funext a; fin_cases a <;> rfl⟩
      have h0 : i < c.bc.n 1 := hx 0
      have h1 : j < c.bc.n 0 := hx 1
      have := h i j (by omega) h1
      dsimp only
      rw [ev]
      exact ⟨funext this.1, this.2⟩⟩
  have := (key.data ![i, j] (fun a => by fin_cases a; exact lt_of_lt_of_eq hi hn.symm; exact hj)).1
  dsimp only at this
  rw [ev] at this
  exact congrFun this k

end

/-! ### Examples -/

/-- Acoustics with density and sound speed 1 (pressure, velocities in `x` and `y`): the Riemann solver for the direction of component `e`. -/
def squareAcousticsRp (e : Fin 3) : Riemann K Unit 3 2 := fun ql qr _ _ =>
  let d := qr - ql
  let l : Fin 3 → K := fun k => if k = 0 then (d 0 - d e) / 2 else if k = e then -(d 0 - d e) / 2 else 0
  let r : Fin 3 → K := fun k => if k = 0 then (d 0 + d e) / 2 else if k = e then (d 0 + d e) / 2 else 0
  { wave := ![l, r], s := ![-1, 1], amdq := -l, apdq := r }

/-- Its transverse solver: `e` is the transverse velocity. -/
def squareAcousticsRt (e : Fin 3) : Transverse K Unit 3 := fun _ _ _ _ _ a =>
  (fun k => -(if k = 0 then (a 0 - a e) / 2 else if k = e then -(a 0 - a e) / 2 else 0),
    fun k => if k = 0 then (a 0 + a e) / 2 else if k = e then (a 0 + a e) / 2 else 0)

/-- Non-vacuity of `C94_mirror_x_partial`, `C94_mirror_y_partial` and `C94_transpose`: acoustics is its own image in both mirrors, and
with the axes exchanged. -/
theorem acoustics2_images (naux : Nat) :
    (IsSign (K := K) ![1, -1, 1] ∧
      MirrorImage (K := K) ![1, -1, 1] id (Equiv.swap 0 1) false (ignoreAux naux (squareAcousticsRp 1)) (ignoreAux naux (squareAcousticsRp 1)) ∧
      TurnedImage (K := K) (signed ![1, -1, 1]) id (Equiv.refl _) (ignoreAux naux (squareAcousticsRp 2)) (ignoreAux naux (squareAcousticsRp 2)) ∧
      MirrorTransverse (K := K) ![1, -1, 1] id (ignoreAux2 naux (squareAcousticsRt 2)) (ignoreAux2 naux (squareAcousticsRt 2)) ∧
      SidewaysTransverse (K := K) ![1, -1, 1] id (ignoreAux2 naux (squareAcousticsRt 1)) (ignoreAux2 naux (squareAcousticsRt 1))) ∧
    (IsSign (K := K) ![1, 1, -1] ∧
      TurnedImage (K := K) (signed ![1, 1, -1]) id (Equiv.refl _) (ignoreAux naux (squareAcousticsRp 1)) (ignoreAux naux (squareAcousticsRp 1)) ∧
      MirrorImage (K := K) ![1, 1, -1] id (Equiv.swap 0 1) false (ignoreAux naux (squareAcousticsRp 2)) (ignoreAux naux (squareAcousticsRp 2)) ∧
      SidewaysTransverse (K := K) ![1, 1, -1] id (ignoreAux2 naux (squareAcousticsRt 2)) (ignoreAux2 naux (squareAcousticsRt 2)) ∧
      MirrorTransverse (K := K) ![1, 1, -1] id (ignoreAux2 naux (squareAcousticsRt 1)) (ignoreAux2 naux (squareAcousticsRt 1))) ∧
    (TurnedImage (K := K) (fun u k => u (Equiv.swap (1 : Fin 3) 2 k)) id (Equiv.refl _) (ignoreAux naux (squareAcousticsRp 1))
        (ignoreAux naux (squareAcousticsRp 2)) ∧
      TurnedImage (K := K) (fun u k => u (Equiv.swap (1 : Fin 3) 2 k)) id (Equiv.refl _) (ignoreAux naux (squareAcousticsRp 2))
        (ignoreAux naux (squareAcousticsRp 1)) ∧
      TurnedTransverse (K := K) (fun u k => u (Equiv.swap (1 : Fin 3) 2 k)) id (ignoreAux2 naux (squareAcousticsRt 2))
        (ignoreAux2 naux (squareAcousticsRt 1)) ∧
      TurnedTransverse (K := K) (fun u k => u (Equiv.swap (1 : Fin 3) 2 k)) id (ignoreAux2 naux (squareAcousticsRt 1))
        (ignoreAux2 naux (squareAcousticsRt 2))) := by
  have sw0 : Equiv.swap (1 : Fin 3) 2 0 = 0 := by decide
  have sw1 : Equiv.swap (1 : Fin 3) 2 1 = 2 := by decide
  have sw2 : Equiv.swap (1 : Fin 3) 2 2 = 1 := by decide
  refine ⟨⟨fun k => ?_, fun _ _ _ _ => ⟨fun p => ?_, fun p => funext fun k => ?_, funext fun k => ?_, funext fun k => ?_⟩,
    fun _ _ _ _ => ⟨fun p => ?_, fun p => funext fun k => ?_, funext fun k => ?_, funext fun k => ?_⟩,
    fun _ _ _ _ _ => ⟨Prod.ext (funext fun k => ?_) (funext fun k => ?_), Prod.ext (funext fun k => ?_) (funext fun k => ?_)⟩,
    fun _ _ _ _ _ _ => Prod.ext (funext fun k => ?_) (funext fun k => ?_)⟩,
    ⟨fun k => ?_, fun _ _ _ _ => ⟨fun p => ?_, fun p => funext fun k => ?_, funext fun k => ?_, funext fun k => ?_⟩,
    fun _ _ _ _ => ⟨fun p => ?_, fun p => funext fun k => ?_, funext fun k => ?_, funext fun k => ?_⟩,
    fun _ _ _ _ _ _ => Prod.ext (funext fun k => ?_) (funext fun k => ?_),
    fun _ _ _ _ _ => ⟨Prod.ext (funext fun k => ?_) (funext fun k => ?_), Prod.ext (funext fun k => ?_) (funext fun k => ?_)⟩⟩,
    fun _ _ _ _ => ⟨fun p => ?_, fun p => funext fun k => ?_, funext fun k => ?_, funext fun k => ?_⟩,
    fun _ _ _ _ => ⟨fun p => ?_, fun p => funext fun k => ?_, funext fun k => ?_, funext fun k => ?_⟩,
    fun _ _ _ _ _ _ => Prod.ext (funext fun k => ?_) (funext fun k => ?_),
    fun _ _ _ _ _ _ => Prod.ext (funext fun k => ?_) (funext fun k => ?_)⟩
  all_goals first
    | (fin_cases p <;> fin_cases k <;>
        simp [ignoreAux, ignoreAux2, squareAcousticsRp, squareAcousticsRt, signed, sw0, sw1, sw2] <;> ring)
    | (fin_cases p <;> simp [ignoreAux, ignoreAux2, squareAcousticsRp, squareAcousticsRt, signed])
    | (fin_cases k <;> simp [ignoreAux, ignoreAux2, squareAcousticsRp, squareAcousticsRt, signed, sw0, sw1, sw2] <;> ring)

/-- A grid without aux values. -/
def exPlane (m : Nat) (refl : Fin 2 → Nat) (n : Fin 2 → Nat) (lo up : Fin 2 → BCType) (step : IntKern (Fin 2) ℚ m 0) : ParCfg (Fin 2) ℚ where
  bc := ⟨2, n, m, 0, lo, up, lo, up, refl, fun _ => true, fun _ => true, none, none, none, none⟩
  axes := [0, 1]
  kern := onArrays m 0 2 step
  sourceSplit := 1
  source := none
  beforeQ := fun _ _ q _ => q
  beforeAux := fun _ _ _ a => a

theorem exPlane_run (m : Nat) (refl : Fin 2 → Nat) (n : Fin 2 → Nat) (lo up : Fin 2 → BCType) (step : IntKern (Fin 2) ℚ m 0) :
    ClassicRun (exPlane m refl n lo up step) m 0 step where
  homogeneous := ⟨rfl, fun _ _ _ _ => rfl, fun _ _ _ _ => rfl⟩
  ghost := le_refl 2
  numAux := rfl
  axes := rfl
  kern := rfl

/-- Steps of `1/8`, given values. -/
def exOnPlane (q : Nat → Nat → Nat → ℚ) : StepState ℚ (GArr (Fin 2) ℚ) (GArr (Fin 2) ℚ × BCArrays (Fin 2) ℚ) where
  set := ⟨true, 1 / 8, none, 1, 1, 9 / 10, 100, 1 / 2⟩
  status := {}
  sol := ⟨0, fun k x => q k (x 0) (x 1), (fun _ _ => 0, ⟨fun _ _ => 0, fun _ _ => 0⟩)⟩
  log := []

/-- Non-vacuity of `C94_transpose` and `C94_mirror_x_partial`: a wall on the left, an open end on the right, periodic in `y`; the same
with the axes exchanged, and in the mirror. The wall turns the component of the normal velocity around. -/
example (step step' : IntKern (Fin 2) ℚ 3 0) (q : Nat → Nat → Nat → ℚ) :
    Admissible (exPlane 3 ![1, 2] ![3, 2] ![.wall, .periodic] ![.extrap, .periodic] step).bc ∧
    Serial (exPlane 3 ![1, 2] ![3, 2] ![.wall, .periodic] ![.extrap, .periodic] step).bc ∧
    (exPlane 3 ![1, 2] ![2, 3] ![.periodic, .wall] ![.periodic, .extrap] step').bc =
      transposeBC (Equiv.swap (1 : Fin 3) 2) (exPlane 3 ![1, 2] ![3, 2] ![.wall, .periodic] ![.extrap, .periodic] step).bc ∧
    (exPlane 3 ![1, 2] ![3, 2] ![.extrap, .periodic] ![.wall, .periodic] step').bc =
      mirrorBC 0 (exPlane 3 ![1, 2] ![3, 2] ![.wall, .periodic] ![.extrap, .periodic] step).bc ∧
    InStep (Corresponds 3 0 (fun a => (exPlane 3 ![1, 2] ![3, 2] ![.wall, .periodic] ![.extrap, .periodic] step).bc.n (otherAxis a))
      (fun x a => x (otherAxis a)) (fun u k => u (Equiv.swap (1 : Fin 3) 2 k)) id) (exOnPlane q)
      (exOnPlane fun k i j => q (if k = 1 then 2 else if k = 2 then 1 else k) j i) := by
  refine ⟨⟨?_, ?_, ?_, ?_, ?_, ?_⟩, fun _ => ⟨rfl, rfl⟩, ?_, ?_, rfl, rfl, rfl, rfl, ?_⟩
  · intro a; fin_cases a <;> simp [exPlane]
  · intro a; fin_cases a <;> simp [exPlane, BuiltInBC]
  · intro a; fin_cases a <;> simp [exPlane, BuiltInBC]
  · intro h; simp [exPlane] at h
  · intro h; simp [exPlane] at h
  · intro a; fin_cases a <;> simp [exPlane]
  · simp only [exPlane, transposeBC, BCConfig.mk.injEq, and_true, true_and]
    refine ⟨?_, ?_, ?_, ?_, ?_, ?_⟩ <;> funext a <;> fin_cases a <;> first | rfl | decide
  · simp only [exPlane, mirrorBC, BCConfig.mk.injEq, and_true, true_and]
    refine ⟨?_, ?_, ?_, ?_⟩ <;> funext a <;> fin_cases a <;> rfl
  · intro x hx
    refine ⟨funext fun k => ?_, funext fun k => k.elim0⟩
    fin_cases k <;> rfl

/-! ### Dimensional splitting -/

/-- Advection with velocity 1 in both directions, second order with the minmod limiter, dimensional splitting. -/
def exSweeps : IntKern (Fin 2) ℚ 1 0 :=
  intSplit2 0 (ignoreAux 0 (advectionRp 1)) (ignoreAux 0 (advectionRp 1)) ⟨2, 2, 2, 1, 1 / 4, 1 / 4, 2, 0, false, fun _ => 1⟩ none

/-- C94 for dimensional splitting: the sweeps along `x` come first, so the axes are not alike. A scalar advected along the diagonal of a
square with open ends, by a solver that is its own image; the run and the run with the axes exchanged give different values. -/
theorem C94_transpose_split_violated :
    ∃ q : Nat → Nat → Nat → ℚ,
      (runSteps (serialEnv (exPlane 1 ![0, 0] (fun _ => 3) (fun _ => .extrap) (fun _ => .extrap) exSweeps) id 1) [.evolve (some (1 / 8))]
        (exOnPlane q)).sol.q 0 ![1, 1] ≠
      (runSteps (serialEnv (exPlane 1 ![0, 0] (fun _ => 3) (fun _ => .extrap) (fun _ => .extrap) exSweeps) id 1) [.evolve (some (1 / 8))]
        (exOnPlane fun k i j => q k j i)).sol.q 0 ![1, 1] := by
  refine ⟨fun _ i j => if i = 0 ∧ j = 0 then 2 else if i = 1 ∧ j = 1 then 1 else if i = 2 ∧ j = 1 then 3 else 0, ?_⟩
  decide +kernel

end PyClaw
