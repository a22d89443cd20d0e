import Verif.Lemmas.Walls
import Verif.Props.SecondOrder2

/-!
C102: between walls nothing is lost. Along every axis the grid is periodic or has a wall on both sides; the total of every component that
no wall reflects stays what it was. (The reflected components, the momentum across a wall, do change.)
-/
set_option linter.unusedSectionVars false

namespace PyClaw
open Spec

variable {K : Type*} [Field K] [LinearOrder K] [IsStrictOrderedRing K] {m w naux : Nat}

/-! ### One dimension -/

theorem vec1 (v : Fin 1 → Int) : v = fun _ => v 0 := funext fun b => by rw [Subsingleton.elim b 0]

theorem flip1 (N : Int) (v : Fin 1 → Int) : flipAt 0 N v = fun _ => N - v 0 := by
  funext b
  rw [Subsingleton.elim b 0]
  simp [flipAt]

section line
variable {step : IntKern (Fin 1) K m naux} {g : Nat} {a : K → K} {o : Prop} [Decidable o] {phi : Fin w → K → K → K}
  {rp : Riemann K (Fin naux → K) m w} {dx : K} {capa : Option ((Fin naux → K) → K)} {lo : Int} {ok : (Fin naux → K) → Prop}

theorem LineKernel.value (hk : LineKernel step g a o phi rp dx capa lo ok) {dt : K} {n : Fin 1 → Nat} {A : (Fin 1 → Int) → Fin naux → K}
    {Q r : (Fin 1 → Int) → Fin m → K} {cfl : K} (hs : step dt n A Q = some (r, cfl)) (v : Fin 1 → Int) (hv : ∀ a, 1 ≤ v a ∧ v a ≤ n a) :
    r v = lineStep a o phi rp dt dx capa (fun i => A fun _ => i) (fun i => Q fun _ => i) (v 0) := by
  by_cases hok : ∀ i : Int, 1 - (g : Int) ≤ i → i ≤ n 0 + g → ok (A fun _ => i)
  · obtain ⟨r', cfl', h1, h2, _⟩ := hk.runs dt n A Q hok
    rw [hs] at h1
    obtain ⟨rfl, rfl⟩ : r = r' ∧ cfl = cfl' := by simpa using h1
    have := h2 (v 0) (hv 0).1 (hv 0).2
    rwa [← vec1 v] at this
  · rw [hk.stops dt n A Q hok] at hs
    exact absurd hs (by simp)

theorem LineKernel.sized (hk : LineKernel step g a o phi rp dx capa lo ok) : SizedKernel step ok where
  runs dt n A Q _ h := by
    obtain ⟨r, cfl, h1, _⟩ := hk.runs dt n A Q fun i _ _ => h _
    exact ⟨r, cfl, h1⟩
  sized dt n n' A Q r cfl r' cfl' hle hs hs' v hv := by
    rw [hk.value hs v hv, hk.value hs' v fun a => by have := hv a; have := hle a; omega]

theorem LineKernel.local (hk : LineKernel step g a o phi rp dx capa lo ok) (hg : 2 ≤ g) : LocalResult step g := by
  intro dt n A A' Q Q' r cfl _ h hs
  have h' : ∀ i : Int, 1 - (g : Int) ≤ i → i ≤ n 0 + g → (A' fun _ => i) = (A fun _ => i) ∧ (Q' fun _ => i) = Q fun _ => i :=
    fun i i1 i2 => h _ fun b => by rw [Subsingleton.elim b 0]; exact ⟨i1, i2⟩
  by_cases hok : ∀ i : Int, 1 - (g : Int) ≤ i → i ≤ n 0 + g → ok (A fun _ => i)
  · obtain ⟨r', cfl', h1, h2, _⟩ := hk.runs dt n A' Q' fun i i1 i2 => by rw [(h' i i1 i2).1]; exact hok i i1 i2
    refine ⟨r', cfl', h1, fun v hv => ?_⟩
    rw [hk.value hs v hv, hk.value h1 v hv]
    have := hv 0
    exact lineStep_local a o phi rp dt dx capa _ _ _ _ _ (fun j j1 j2 => (h' j (by omega) (by omega)).1)
      (fun j j1 j2 => (h' j (by omega) (by omega)).2)
  · rw [hk.stops dt n A Q hok] at hs
    exact absurd hs (by simp)

theorem LineKernel.keeps (hk : LineKernel step g a o phi rp dx capa lo ok) {σ : Fin m → K} (hσ : IsSign σ) {π : Equiv.Perm (Fin w)} {fw : Bool}
    (hM : MirrorImage σ id π fw rp rp) (hphi : ∀ p, phi (π p) = phi p) (hfac : o → ∀ ql qr al ar p, MirrorFactor a fw ((rp ql qr al ar).s p)) :
    KeepsImage step 0 σ := by
  intro dt n A Q r cfl hA hQ hs v hv
  have hv' : ∀ b, 1 ≤ flipAt 0 (n 0 + 1) v b ∧ flipAt 0 (n 0 + 1) v b ≤ n b := by
    intro b
    rw [Subsingleton.elim b 0, flip1]
    have := hv 0
    dsimp only
    omega
  rw [hk.value hs v hv, hk.value hs _ hv', flip1]
  dsimp only
  have eA : (fun j : Int => id (A fun _ => (n 0 : Int) + 1 - j)) = fun j => A fun _ => j := by
    funext j
    have := hA fun _ => j
    rwa [flip1] at this
  have eQ : (fun j : Int => signed σ (Q fun _ => (n 0 : Int) + 1 - j)) = fun j => Q fun _ => j := by
    funext j
    have := hQ fun _ => j
    rw [flip1] at this
    rw [this, signed_signed hσ]
  have key := mirror_line hσ hM dt dx capa (fun _ _ _ => rfl) phi phi hphi a o (n 0 + 1) (fun j => A fun _ => j) (fun j => Q fun _ => j)
    (n 0 + 1 - v 0) (fun ho j p => hfac ho _ _ _ _ p)
  rw [eA, eQ, show (n 0 : Int) + 1 - (n 0 + 1 - v 0) = v 0 by ring] at key
  exact key

theorem LineKernel.conserves [FloorRing K] (hk : LineKernel step g a o phi rp dx capa lo ok)
    (fl : (Fin m → K) → (Fin naux → K) → Fin m → K) (hfl : FluxDifference rp fl) (hdx : dx ≠ 0) (hg : 2 ≤ g)
    (dt : K) (n : Fin 1 → Nat) (A : (Fin 1 → Int) → Fin naux → K) (Q r : (Fin 1 → Int) → Fin m → K) (cfl : K)
    (hA : ∀ v κ, capa = some κ → 0 < κ (A v)) (pQ : ∀ a v, Q (Function.update v a (v a + n a)) = Q v)
    (pA : ∀ a v, A (Function.update v a (v a + n a)) = A v) (hs : step dt n A Q = some (r, cfl)) (k : Fin m) :
    boxTotal n dx capa A r k = boxTotal n dx capa A Q k := by
  have up : ∀ i N : Int, Function.update (fun _ : Fin 1 => i) 0 N = fun _ => N := fun i N => by
    funext b; rw [Subsingleton.elim b 0, Function.update_self]
  have gQ : PeriodicGhost 1 g (n 0) fun i => Q fun _ => i := by
    intro i _ _
    have := pQ 0 fun _ => i
    rwa [up] at this
  have gA : PeriodicGhost 1 g (n 0) fun i => A fun _ => i := by
    intro i _ _
    have := pA 0 fun _ => i
    rwa [up] at this
  have bal := waveProp_balance 1 (n 0) (cellVolume dx capa fun i => A fun _ => i) (localRatio dt dx capa fun i => A fun _ => i) dt
    (interfaces rp (fun i => A fun _ => i) (fun i => Q fun _ => i))
    (if o then correctionFlux a (localRatio dt dx capa fun i => A fun _ => i) (interfaces rp (fun i => A fun _ => i) (fun i => Q fun _ => i))
      (limitedWave phi (localRatio dt dx capa fun i => A fun _ => i) (interfaces rp (fun i => A fun _ => i) (fun i => Q fun _ => i)))
      else fun _ => 0) (fun i => Q fun _ => i) (fun i => fl (Q fun _ => i) (A fun _ => i))
    (fun j _ => vol_mul_dtdx _ _ capa _ _ hdx fun κ hκ => (hA _ κ hκ).ne')
    (fun j _ => hfl _ _ _ _)
  have per := numericalFlux_periodic fl rp 1 g (n 0) hg dt dx capa (fun i => A fun _ => i) (fun i => Q fun _ => i) gQ gA a phi o
  dsimp only at per
  rw [per, sub_self, smul_zero, sub_zero] at bal
  have e : ∀ x : Fin 1 → Nat, (fun a => (x a : Int) + 1) = fun _ => (x 0 : Int) + 1 := by
    intro x; funext b; rw [Subsingleton.elim b 0]
  have e1 := total1 n dx capa (fun i => A fun _ => i) (fun i => Q fun _ => i) k
  have e2 := total1 n dx capa (fun i => A fun _ => i) (lineStep a o phi rp dt dx capa (fun i => A fun _ => i) (fun i => Q fun _ => i)) k
  have e3 := congrFun bal k
  unfold boxTotal
  simp only [e]
  rw [← e1, ← e3]
  refine Eq.trans ?_ e2.symm
  refine Finset.sum_congr rfl fun x hx => ?_
  have hx' : x 0 < n 0 := by simpa using Fintype.mem_piFinset.mp hx 0
  rw [hk.value hs (fun _ => (x 0 : Int) + 1) fun b => by rw [Subsingleton.elim b 0]; omega]

end line

theorem axisSign_one (bc : BCConfig (Fin 1) K) : axisSign bc 0 m = reflectSign bc m := rfl

/-- C102, the one-dimensional Fortran kernel, over any session of `evolve_to_time` calls and changes of settings, with rejected steps and
exceptions. Full statement: also for f-waves of speed 0 and second order. -/
theorem C102_fortran1_partial [FloorRing K] (undef : K) (rp : Riemann K (Fin naux → K) m w) (cfg : Cfg1 K w) (hdx : cfg.dx ≠ 0)
    (capa : Option ((Fin naux → K) → K)) (fl : (Fin m → K) → (Fin naux → K) → Fin m → K) (hfl : FluxDifference rp fl)
    (c : ParCfg (Fin 1) K) (hr : ClassicRun c m naux (intStep1 undef rp cfg capa)) (ha : Admissible c.bc) (hs : Serial c.bc)
    (he : Enclosed c.bc) (hg : cfg.g = c.bc.g)
    (hM : HasWall c.bc 0 → ∃ π, MirrorImage (reflectSign c.bc m) id π cfg.fwave rp rp ∧ ∀ p, cfg.limiter (π p) = cfg.limiter p)
    (hf : HasWall c.bc 0 → cfg.fwave = true → cfg.order ≠ 1 → ∀ ql qr al ar p, (rp ql qr al ar).s p ≠ 0)
    (rnd : K → K) (L : K) (ops : List (StepOp K (GArr (Fin 1) K) (GArr (Fin 1) K × BCArrays (Fin 1) K))) (hops : OnlyEvolves ops)
    (s : StepState K (GArr (Fin 1) K) (GArr (Fin 1) K × BCArrays (Fin 1) K)) (hcap : PositiveCapacity c.bc.n capa s.sol.rest.1) :
    let s' := runSteps (serialEnv c rnd L) ops s
    s'.sol.rest.1 = s.sol.rest.1 ∧ ∀ k, k < m → Unreflected c.bc k →
      gridTotal c.bc.n cfg.dx capa s'.sol.rest.1 s'.sol.q k = gridTotal c.bc.n cfg.dx capa s.sol.rest.1 s.sol.q k := by
  have hk := fortran1_line undef rp cfg capa
  have hg2 : 2 ≤ cfg.g := by rw [hg]; exact hr.ghost
  refine walls_run hk.sized c hr ha hs he (by rw [← hg]; exact hk.local hg2) ?_ cfg.dx capa ?_ rnd L ops hops s fun x hx κ hκ => hcap κ hκ x hx
  · intro a hw
    rw [Subsingleton.elim a 0] at hw ⊢
    obtain ⟨π, hM, hlim⟩ := hM hw
    refine hk.keeps (reflectSign_isSign c.bc m) hM (fun p => ?_) fun ho ql qr al ar p => ?_
    · unfold fPhi
      simp only [hlim]
    · cases hfw : cfg.fwave
      · simp only [Bool.false_eq_true, if_false]; exact abs_factor _
      · simp only [if_true]; exact dsign_factor _ (hf hw hfw ho _ _ _ _ _)
  · intro dt n A Q r cfl _ hA pQ pA hs k
    exact hk.conserves fl hfl hdx hg2 dt n A Q r cfl hA pQ pA hs k

/-- C102, the one-dimensional Python kernel. Full statement: for all its limiters. Missing: the limiters 17 to 23. -/
theorem C102_python1_partial [FloorRing K] (opq : Int → LimFun K) (rp : Riemann K (Fin naux → K) m w) (cfg : Cfg1 K w) (hdx : cfg.dx ≠ 0)
    (hlim : ∀ p, 0 ≤ cfg.limiter p ∧ cfg.limiter p ≤ 16)
    (capa : Option ((Fin naux → K) → K)) (fl : (Fin m → K) → (Fin naux → K) → Fin m → K) (hfl : FluxDifference rp fl)
    (c : ParCfg (Fin 1) K) (hr : ClassicRun c m naux (intPyStep1 (pyLimiterFun opq) rp cfg capa)) (ha : Admissible c.bc) (hs : Serial c.bc)
    (he : Enclosed c.bc) (hg : cfg.g = c.bc.g)
    (hM : HasWall c.bc 0 → ∃ π, MirrorImage (reflectSign c.bc m) id π cfg.fwave rp rp ∧ ∀ p, cfg.limiter (π p) = cfg.limiter p)
    (rnd : K → K) (L : K) (ops : List (StepOp K (GArr (Fin 1) K) (GArr (Fin 1) K × BCArrays (Fin 1) K))) (hops : OnlyEvolves ops)
    (s : StepState K (GArr (Fin 1) K) (GArr (Fin 1) K × BCArrays (Fin 1) K)) (hcap : PositiveCapacity c.bc.n capa s.sol.rest.1) :
    let s' := runSteps (serialEnv c rnd L) ops s
    s'.sol.rest.1 = s.sol.rest.1 ∧ ∀ k, k < m → Unreflected c.bc k →
      gridTotal c.bc.n cfg.dx capa s'.sol.rest.1 s'.sol.q k = gridTotal c.bc.n cfg.dx capa s.sol.rest.1 s.sol.q k := by
  have hg2 : 2 ≤ cfg.g := by rw [hg]; exact hr.ghost
  have hk := python1_line opq rp cfg hg2 hlim capa
  have hk' : SizedKernel (intPyStep1 (pyLimiterFun opq) rp cfg capa) (fun z => ∀ κ, capa = some κ → 0 < κ z) :=
    ⟨fun dt n A Q hn _ => hk.sized.runs dt n A Q hn fun _ => trivial, hk.sized.sized⟩
  refine walls_run hk' c hr ha hs he (by rw [← hg]; exact hk.local hg2) ?_ cfg.dx capa ?_ rnd L ops hops s fun x hx κ hκ => hcap κ hκ x hx
  · intro a hw
    rw [Subsingleton.elim a 0] at hw ⊢
    obtain ⟨π, hM, hlim⟩ := hM hw
    refine hk.keeps (reflectSign_isSign c.bc m) hM (fun p => ?_) fun ho ql qr al ar p => ?_
    · unfold localPhi
      simp only [hlim]
    · cases hfw : cfg.fwave
      · simp only [Bool.false_eq_true, if_false]; exact abs_factor _
      · simp only [if_true]; exact npSign_factor _
  · intro dt n A Q r cfl _ hA pQ pA hs k
    exact hk.conserves fl hfl hdx hg2 dt n A Q r cfl hA pQ pA hs k

/-! ### Two dimensions -/

theorem flip2x (N : Int) (v : Fin 2 → Int) : flipAt 0 N v = ![N - v 0, v 1] := by
  funext b; fin_cases b <;> simp [flipAt]

theorem flip2y (N : Int) (v : Fin 2 → Int) : flipAt 1 N v = ![v 0, N - v 1] := by
  funext b; fin_cases b <;> simp [flipAt]

theorem pair_eta (v : Fin 2 → Int) : ![v 0, v 1] = v := by
  funext b; fin_cases b <;> rfl

theorem periodic_lines2 {α : Type*} (n : Fin 2 → Nat) (A : (Fin 2 → Int) → α) (h : ∀ a v, A (Function.update v a (v a + n a)) = A v) (g : Nat) :
    (∀ j : Int, PeriodicGhost 1 g (n 0) fun i => A ![i, j]) ∧ ∀ i : Int, PeriodicGhost 1 g (n 1) fun j => A ![i, j] := by
  constructor
  · intro j i _ _
    have := h 0 ![i, j]
    rwa [update_pair0] at this
  · intro i j _ _
    have := h 1 ![i, j]
    rwa [update_pair1] at this

section plane
variable {rpx rpy : Riemann K (Fin naux → K) m w} {rtx rty : Transverse K (Fin naux → K) m}

theorem unsplit2_sized (undef : K) (c : Cfg2 K w) (hg : 1 ≤ c.g) (capa : Option ((Fin naux → K) → K)) (ok : (Fin naux → K) → Prop) :
    SizedKernel (intUnsplit2 undef rpx rpy rtx rty c capa) ok where
  runs dt n A Q _ _ := ⟨_, _, rfl⟩
  sized dt n n' A Q r cfl r' cfl' hle hs hs' v hv := by
    unfold intUnsplit2 at hs hs'
    simp only [Option.some.injEq, Prod.mk.injEq] at hs hs'
    rw [← hs.1, ← hs'.1]
    dsimp only
    have h0 := hv 0
    have h1 := hv 1
    have l0 := hle 0
    have l1 := hle 1
    rw [unsplitStep2_cell undef rpx rpy rtx rty { c with mx := n 0, my := n 1, dt := dt } hg capa _ _ _ _ h0.1 h0.2 h1.1 h1.2,
      unsplitStep2_cell undef rpx rpy rtx rty { c with mx := n' 0, my := n' 1, dt := dt } hg capa _ _ _ _ h0.1 (by dsimp only; omega) h1.1
        (by dsimp only; omega)]
    rfl

theorem split2_sized (undef : K) (c : Cfg2 K w) (hg : 2 ≤ c.g) (capa : Option ((Fin naux → K) → K)) (ok : (Fin naux → K) → Prop) :
    SizedKernel (intSplit2 undef rpx rpy c capa) ok where
  runs dt n A Q _ _ := ⟨_, _, rfl⟩
  sized dt n n' A Q r cfl r' cfl' hle hs hs' v hv := by
    unfold intSplit2 at hs hs'
    simp only [Option.some.injEq, Prod.mk.injEq] at hs hs'
    rw [← hs.1, ← hs'.1]
    dsimp only
    have h0 := hv 0
    have h1 := hv 1
    have l0 := hle 0
    have l1 := hle 1
    rw [splitStep2_after undef rpx rpy { c with mx := n 0, my := n 1, dt := dt } (by dsimp only; omega) capa _ _ _ _ h0.1 h0.2 h1.1 h1.2,
      splitStep2_after undef rpx rpy { c with mx := n' 0, my := n' 1, dt := dt } (by dsimp only; omega) capa _ _ _ _ h0.1 (by dsimp only; omega)
        h1.1 (by dsimp only; omega)]
    refine rowStep_local undef rpy _ capa _ _ _ _ _ (fun _ _ _ => rfl) fun l a b => ?_
    unfold afterX2
    dsimp only
    rw [if_pos (by omega), if_pos (by omega)]
    rfl

theorem unsplit2_keepsX (undef : K) (c : Cfg2 K w) (hg : 1 ≤ c.g) (capa : Option ((Fin naux → K) → K)) {σ : Fin m → K} (hσ : IsSign σ)
    (ho : OwnImage2 σ c.fwave c.order c.limiter rpx rpy)
    (ht : MirrorTransverse σ id rtx rtx ∧ SidewaysTransverse σ id rty rty) :
    KeepsImage (intUnsplit2 undef rpx rpy rtx rty c capa) 0 σ := by
  intro dt n A Q r cfl hA hQ hs v hv
  obtain ⟨π1, h1, l1⟩ := ho.mirror
  obtain ⟨π2, h2, l2⟩ := ho.turned
  have key := (mirrorX_step hσ undef { c with mx := n 0, my := n 1, dt := dt } c.limiter hg h1 h2 ht.1 ht.2 l1 l2 ho.speeds
    capa (fun _ _ _ => rfl) (fun i j => A ![i, j]) (fun i j => Q ![i, j])).1
  have eA : (fun i j : Int => id (A ![(n 0 : Int) + 1 - i, j])) = fun i j => A ![i, j] := by
    funext i j
    have := hA ![i, j]
    rwa [flip2x] at this
  have eQ : (fun i j : Int => signed σ (Q ![(n 0 : Int) + 1 - i, j])) = fun i j => Q ![i, j] := by
    funext i j
    have := hQ ![i, j]
    rw [flip2x] at this
    simp only [Matrix.cons_val_zero, Matrix.cons_val_one] at this
    rw [this, signed_signed hσ]
  dsimp only at key
  rw [eA, eQ] at key
  have v0 := hv 0
  have v1 := hv 1
  have := key ((n 0 : Int) + 1 - v 0) (v 1) (by omega) (by omega) (by omega) (by omega)
  rw [show (n 0 : Int) + 1 - (n 0 + 1 - v 0) = v 0 by ring] at this
  unfold intUnsplit2 at hs
  simp only [Option.some.injEq, Prod.mk.injEq] at hs
  rw [← hs.1, flip2x]
  exact this

theorem unsplit2_keepsY (undef : K) (c : Cfg2 K w) (hg : 1 ≤ c.g) (capa : Option ((Fin naux → K) → K)) {σ : Fin m → K} (hσ : IsSign σ)
    (ho : OwnImage2 σ c.fwave c.order c.limiter rpy rpx)
    (ht : MirrorTransverse σ id rty rty ∧ SidewaysTransverse σ id rtx rtx) :
    KeepsImage (intUnsplit2 undef rpx rpy rtx rty c capa) 1 σ := by
  intro dt n A Q r cfl hA hQ hs v hv
  obtain ⟨π1, h1, l1⟩ := ho.mirror
  obtain ⟨π2, h2, l2⟩ := ho.turned
  have key := (mirrorY_step hσ undef { c with mx := n 0, my := n 1, dt := dt } c.limiter hg h2 h1 ht.2 ht.1 l2 l1 ho.speeds
    capa (fun _ _ _ => rfl) (fun i j => A ![i, j]) (fun i j => Q ![i, j])).1
  have eA : (fun i j : Int => id (A ![i, (n 1 : Int) + 1 - j])) = fun i j => A ![i, j] := by
    funext i j
    have := hA ![i, j]
    rwa [flip2y] at this
  have eQ : (fun i j : Int => signed σ (Q ![i, (n 1 : Int) + 1 - j])) = fun i j => Q ![i, j] := by
    funext i j
    have := hQ ![i, j]
    rw [flip2y] at this
    simp only [Matrix.cons_val_zero, Matrix.cons_val_one] at this
    rw [this, signed_signed hσ]
  dsimp only at key
  rw [eA, eQ] at key
  have v0 := hv 0
  have v1 := hv 1
  have := key (v 0) ((n 1 : Int) + 1 - v 1) (by omega) (by omega) (by omega) (by omega)
  rw [show (n 1 : Int) + 1 - (n 1 + 1 - v 1) = v 1 by ring] at this
  unfold intUnsplit2 at hs
  simp only [Option.some.injEq, Prod.mk.injEq] at hs
  rw [← hs.1, flip2y]
  exact this

theorem split2_keepsX (undef : K) (c : Cfg2 K w) (hg : 1 ≤ c.g) (capa : Option ((Fin naux → K) → K)) {σ : Fin m → K} (hσ : IsSign σ)
    (ho : OwnImage2 σ c.fwave c.order c.limiter rpx rpy) :
    KeepsImage (intSplit2 undef rpx rpy c capa) 0 σ := by
  intro dt n A Q r cfl hA hQ hs v hv
  obtain ⟨π1, h1, l1⟩ := ho.mirror
  obtain ⟨π2, h2, l2⟩ := ho.turned
  have key := (mirrorX_split hσ undef { c with mx := n 0, my := n 1, dt := dt } c.limiter hg h1 h2 l1 l2 ho.speeds
    capa (fun _ _ _ => rfl) (fun i j => A ![i, j]) (fun i j => Q ![i, j])).1
  have eA : (fun i j : Int => id (A ![(n 0 : Int) + 1 - i, j])) = fun i j => A ![i, j] := by
    funext i j
    have := hA ![i, j]
    rwa [flip2x] at this
  have eQ : (fun i j : Int => signed σ (Q ![(n 0 : Int) + 1 - i, j])) = fun i j => Q ![i, j] := by
    funext i j
    have := hQ ![i, j]
    rw [flip2x] at this
    simp only [Matrix.cons_val_zero, Matrix.cons_val_one] at this
    rw [this, signed_signed hσ]
  dsimp only at key
  rw [eA, eQ] at key
  have v0 := hv 0
  have v1 := hv 1
  have := key ((n 0 : Int) + 1 - v 0) (v 1) (by omega) (by omega) (by omega) (by omega)
  rw [show (n 0 : Int) + 1 - (n 0 + 1 - v 0) = v 0 by ring] at this
  unfold intSplit2 at hs
  simp only [Option.some.injEq, Prod.mk.injEq] at hs
  rw [← hs.1, flip2x]
  exact this

theorem split2_keepsY (undef : K) (c : Cfg2 K w) (hg : 1 ≤ c.g) (capa : Option ((Fin naux → K) → K)) {σ : Fin m → K} (hσ : IsSign σ)
    (ho : OwnImage2 σ c.fwave c.order c.limiter rpy rpx) :
    KeepsImage (intSplit2 undef rpx rpy c capa) 1 σ := by
  intro dt n A Q r cfl hA hQ hs v hv
  obtain ⟨π1, h1, l1⟩ := ho.mirror
  obtain ⟨π2, h2, l2⟩ := ho.turned
  have key := (mirrorY_split hσ undef { c with mx := n 0, my := n 1, dt := dt } c.limiter hg h2 h1 l2 l1 ho.speeds
    capa (fun _ _ _ => rfl) (fun i j => A ![i, j]) (fun i j => Q ![i, j])).1
  have eA : (fun i j : Int => id (A ![i, (n 1 : Int) + 1 - j])) = fun i j => A ![i, j] := by
    funext i j
    have := hA ![i, j]
    rwa [flip2y] at this
  have eQ : (fun i j : Int => signed σ (Q ![i, (n 1 : Int) + 1 - j])) = fun i j => Q ![i, j] := by
    funext i j
    have := hQ ![i, j]
    rw [flip2y] at this
    simp only [Matrix.cons_val_zero, Matrix.cons_val_one] at this
    rw [this, signed_signed hσ]
  dsimp only at key
  rw [eA, eQ] at key
  have v0 := hv 0
  have v1 := hv 1
  have := key (v 0) ((n 1 : Int) + 1 - v 1) (by omega) (by omega) (by omega) (by omega)
  rw [show (n 1 : Int) + 1 - (n 1 + 1 - v 1) = v 1 by ring] at this
  unfold intSplit2 at hs
  simp only [Option.some.injEq, Prod.mk.injEq] at hs
  rw [← hs.1, flip2y]
  exact this

theorem unsplit2_conserves [FloorRing K] (undef : K) (c : Cfg2 K w) (hg : 2 ≤ c.g) (hdx : c.dx ≠ 0) (hdy : c.dy ≠ 0)
    (capa : Option ((Fin naux → K) → K)) (flx fly : (Fin m → K) → (Fin naux → K) → Fin m → K) (hfx : FluxDifference rpx flx)
    (hfy : FluxDifference rpy fly) (dt : K) (n : Fin 2 → Nat) (A : (Fin 2 → Int) → Fin naux → K) (Q r : (Fin 2 → Int) → Fin m → K) (cfl : K)
    (hA : ∀ v κ, capa = some κ → 0 < κ (A v)) (pQ : ∀ a v, Q (Function.update v a (v a + n a)) = Q v)
    (pA : ∀ a v, A (Function.update v a (v a + n a)) = A v) (hs : intUnsplit2 undef rpx rpy rtx rty c capa dt n A Q = some (r, cfl)) (k : Fin m) :
    boxTotal n (c.dx * c.dy) capa A r k = boxTotal n (c.dx * c.dy) capa A Q k := by
  have h2 := C43_conserves undef rpx rpy rtx rty flx fly hfx hfy { c with mx := n 0, my := n 1, dt := dt } hg hdx hdy capa
    (fun i j => A ![i, j]) (fun i j => Q ![i, j]) (fun κ hκ i j _ _ _ _ => (hA _ κ hκ).ne')
    (fun j _ _ => (periodic_lines2 n Q pQ c.g).1 j) (fun i _ _ => (periodic_lines2 n Q pQ c.g).2 i)
    (fun j _ _ => (periodic_lines2 n A pA c.g).1 j) (fun i _ _ => (periodic_lines2 n A pA c.g).2 i)
  unfold intUnsplit2 at hs
  simp only [Option.some.injEq, Prod.mk.injEq] at hs
  rw [← hs.1]
  unfold boxTotal
  simp only [vec2]
  have := congrFun h2 k
  rw [total2_grid n (c.dx * c.dy), total2_grid n (c.dx * c.dy)] at this
  exact this

theorem split2_conserves [FloorRing K] (undef : K) (c : Cfg2 K w) (hg : 2 ≤ c.g) (hdx : c.dx ≠ 0) (hdy : c.dy ≠ 0)
    (capa : Option ((Fin naux → K) → K)) (flx fly : (Fin m → K) → (Fin naux → K) → Fin m → K) (hfx : FluxDifference rpx flx)
    (hfy : FluxDifference rpy fly) (dt : K) (n : Fin 2 → Nat) (A : (Fin 2 → Int) → Fin naux → K) (Q r : (Fin 2 → Int) → Fin m → K) (cfl : K)
    (hA : ∀ v κ, capa = some κ → 0 < κ (A v)) (pQ : ∀ a v, Q (Function.update v a (v a + n a)) = Q v)
    (pA : ∀ a v, A (Function.update v a (v a + n a)) = A v) (hs : intSplit2 undef rpx rpy c capa dt n A Q = some (r, cfl)) (k : Fin m) :
    boxTotal n (c.dx * c.dy) capa A r k = boxTotal n (c.dx * c.dy) capa A Q k := by
  have h2 := C42_conserves undef rpx rpy flx fly hfx hfy { c with mx := n 0, my := n 1, dt := dt } hg hdx hdy capa
    (fun i j => A ![i, j]) (fun i j => Q ![i, j]) (fun κ hκ i j _ _ _ _ => (hA _ κ hκ).ne')
    (fun j _ _ => (periodic_lines2 n Q pQ c.g).1 j) (fun i _ _ => (periodic_lines2 n Q pQ c.g).2 i)
    (fun j _ _ => (periodic_lines2 n A pA c.g).1 j) (fun i _ _ => (periodic_lines2 n A pA c.g).2 i)
  unfold intSplit2 at hs
  simp only [Option.some.injEq, Prod.mk.injEq] at hs
  rw [← hs.1]
  unfold boxTotal
  simp only [vec2]
  have := congrFun h2 k
  rw [total2_grid n (c.dx * c.dy), total2_grid n (c.dx * c.dy)] at this
  exact this

end plane

/-- C102, the unsplit kernel in the plane: walls on both sides along one axis or along both, the other axis periodic. Full statement: also
for f-waves of speed 0 and second order. -/
theorem C102_unsplit2_partial [FloorRing K] (undef : K) (rpx rpy : Riemann K (Fin naux → K) m w) (rtx rty : Transverse K (Fin naux → K) m)
    (cfg : Cfg2 K w) (hdx : cfg.dx ≠ 0) (hdy : cfg.dy ≠ 0) (capa : Option ((Fin naux → K) → K))
    (flx fly : (Fin m → K) → (Fin naux → K) → Fin m → K) (hfx : FluxDifference rpx flx) (hfy : FluxDifference rpy fly)
    (c : ParCfg (Fin 2) K) (hr : ClassicRun c m naux (intUnsplit2 undef rpx rpy rtx rty cfg capa)) (ha : Admissible c.bc) (hs : Serial c.bc)
    (he : Enclosed c.bc) (hg : cfg.g = c.bc.g)
    (hx : HasWall c.bc 0 → OwnImage2 (axisSign c.bc 0 m) cfg.fwave cfg.order cfg.limiter rpx rpy)
    (hy : HasWall c.bc 1 → OwnImage2 (axisSign c.bc 1 m) cfg.fwave cfg.order cfg.limiter rpy rpx)
    (htx : HasWall c.bc 0 → MirrorTransverse (axisSign c.bc 0 m) id rtx rtx ∧ SidewaysTransverse (axisSign c.bc 0 m) id rty rty)
    (hty : HasWall c.bc 1 → MirrorTransverse (axisSign c.bc 1 m) id rty rty ∧ SidewaysTransverse (axisSign c.bc 1 m) id rtx rtx)
    (rnd : K → K) (L : K) (ops : List (StepOp K (GArr (Fin 2) K) (GArr (Fin 2) K × BCArrays (Fin 2) K))) (hops : OnlyEvolves ops)
    (s : StepState K (GArr (Fin 2) K) (GArr (Fin 2) K × BCArrays (Fin 2) K)) (hcap : PositiveCapacity c.bc.n capa s.sol.rest.1) :
    let s' := runSteps (serialEnv c rnd L) ops s
    s'.sol.rest.1 = s.sol.rest.1 ∧ ∀ k, k < m → Unreflected c.bc k →
      gridTotal c.bc.n (cfg.dx * cfg.dy) capa s'.sol.rest.1 s'.sol.q k =
        gridTotal c.bc.n (cfg.dx * cfg.dy) capa s.sol.rest.1 s.sol.q k := by
  have hg2 : 2 ≤ cfg.g := by rw [hg]; exact hr.ghost
  refine walls_run (ok := fun z => ∀ κ, capa = some κ → 0 < κ z) (unsplit2_sized undef cfg (by omega) capa _) c hr ha hs he
    (by rw [← hg]; exact (unsplit2_localInt undef rpx rpy rtx rty cfg hg2 capa).result) ?_ (cfg.dx * cfg.dy) capa ?_ rnd L ops hops s fun x hx κ hκ => hcap κ hκ x hx
  · intro a hw
    rcases (by fin_cases a <;> simp : a = 0 ∨ a = 1) with rfl | rfl
    · exact unsplit2_keepsX undef cfg (by omega) capa (axisSign_isSign c.bc 0) (hx hw) (htx hw)
    · exact unsplit2_keepsY undef cfg (by omega) capa (axisSign_isSign c.bc 1) (hy hw) (hty hw)
  · intro dt n A Q r cfl _ hA pQ pA hs k
    exact unsplit2_conserves undef cfg hg2 hdx hdy capa flx fly hfx hfy dt n A Q r cfl hA pQ pA hs k

/-- C102, the dimensionally split kernel in the plane. -/
theorem C102_split2_partial [FloorRing K] (undef : K) (rpx rpy : Riemann K (Fin naux → K) m w)
    (cfg : Cfg2 K w) (hdx : cfg.dx ≠ 0) (hdy : cfg.dy ≠ 0) (capa : Option ((Fin naux → K) → K))
    (flx fly : (Fin m → K) → (Fin naux → K) → Fin m → K) (hfx : FluxDifference rpx flx) (hfy : FluxDifference rpy fly)
    (c : ParCfg (Fin 2) K) (hr : ClassicRun c m naux (intSplit2 undef rpx rpy cfg capa)) (ha : Admissible c.bc) (hs : Serial c.bc)
    (he : Enclosed c.bc) (hg : cfg.g = c.bc.g)
    (hx : HasWall c.bc 0 → OwnImage2 (axisSign c.bc 0 m) cfg.fwave cfg.order cfg.limiter rpx rpy)
    (hy : HasWall c.bc 1 → OwnImage2 (axisSign c.bc 1 m) cfg.fwave cfg.order cfg.limiter rpy rpx)
    (rnd : K → K) (L : K) (ops : List (StepOp K (GArr (Fin 2) K) (GArr (Fin 2) K × BCArrays (Fin 2) K))) (hops : OnlyEvolves ops)
    (s : StepState K (GArr (Fin 2) K) (GArr (Fin 2) K × BCArrays (Fin 2) K)) (hcap : PositiveCapacity c.bc.n capa s.sol.rest.1) :
    let s' := runSteps (serialEnv c rnd L) ops s
    s'.sol.rest.1 = s.sol.rest.1 ∧ ∀ k, k < m → Unreflected c.bc k →
      gridTotal c.bc.n (cfg.dx * cfg.dy) capa s'.sol.rest.1 s'.sol.q k =
        gridTotal c.bc.n (cfg.dx * cfg.dy) capa s.sol.rest.1 s.sol.q k := by
  have hg2 : 2 ≤ cfg.g := by rw [hg]; exact hr.ghost
  refine walls_run (ok := fun z => ∀ κ, capa = some κ → 0 < κ z) (split2_sized undef cfg hg2 capa _) c hr ha hs he
    (by rw [← hg]; exact (split2_localInt undef rpx rpy cfg hg2 capa).result) ?_ (cfg.dx * cfg.dy) capa ?_ rnd L ops hops s fun x hx κ hκ => hcap κ hκ x hx
  · intro a hw
    rcases (by fin_cases a <;> simp : a = 0 ∨ a = 1) with rfl | rfl
    · exact split2_keepsX undef cfg (by omega) capa (axisSign_isSign c.bc 0) (hx hw)
    · exact split2_keepsY undef cfg (by omega) capa (axisSign_isSign c.bc 1) (hy hw)
  · intro dt n A Q r cfl _ hA pQ pA hs k
    exact split2_conserves undef cfg hg2 hdx hdy capa flx fly hfx hfy dt n A Q r cfl hA pQ pA hs k

/-! ### Concrete runs -/

/-- Non-vacuity of the one-dimensional theorems: acoustics between two walls. The wall reflects the velocity, not the pressure. -/
example (step : IntKern (Fin 1) ℚ 2 0) : let c := exAcoustics .wall .wall step
    ClassicRun c 2 0 step ∧ Admissible c.bc ∧ Serial c.bc ∧ Enclosed c.bc ∧ HasWall c.bc 0 ∧
    FluxDifference (ignoreAux 0 (acousticsRp (K := ℚ))) (fun q _ => ![q 1, q 0]) ∧
    MirrorImage (reflectSign c.bc 2) id (Equiv.swap 0 1) false (ignoreAux 0 (acousticsRp (K := ℚ))) (ignoreAux 0 acousticsRp) ∧
    (∀ p, (![4, 4] : Fin 2 → Int) ((Equiv.swap 0 1 : Equiv.Perm (Fin 2)) p) = ![4, 4] p) ∧
    Unreflected c.bc 0 ∧ ¬ Unreflected c.bc 1 := by
  have e : reflectSign (exAcoustics .wall .wall step).bc 2 = ![1, -1] := by
    funext k; fin_cases k <;> simp [reflectSign, exAcoustics]
  refine ⟨exAcoustics_run _ _ _, exAcoustics_admissible _ _ (Or.inr (Or.inr rfl)) (Or.inr (Or.inr rfl)) step, fun _ => ⟨rfl, rfl⟩,
    ⟨fun _ => Or.inl ⟨rfl, rfl⟩, fun _ _ => ⟨rfl, rfl⟩⟩, Or.inl rfl, ?_, ?_, ?_, ?_, ?_⟩
  · intro ql qr al ar
    funext k
    fin_cases k <;> simp [ignoreAux, acousticsRp] <;> ring
  · rw [e]; exact acoustics_image 0
  · intro p; fin_cases p <;> rfl
  · intro a _; simp [exAcoustics]
  · intro h; exact h 0 (Or.inl rfl) rfl

/-- A step of such a run: the pressure is redistributed, its total stays, and the total velocity changes. -/
example : let s := exSound ![0, 1, 3, 2] ![0, 1, 1, 0]
    let s' := runSteps (serialEnv (exAcoustics .wall .wall (exAcousticsPy ![4, 4])) id 1) [.evolve (some (1 / 8))] s
    s'.sol.q 0 (fun _ => 1) ≠ s.sol.q 0 (fun _ => 1) ∧
    (List.range 4).foldl (fun x i => x + s'.sol.q 0 fun _ => i) 0 = (List.range 4).foldl (fun x i => x + s.sol.q 0 fun _ => i) 0 ∧
    (List.range 4).foldl (fun x i => x + s'.sol.q 1 fun _ => i) 0 ≠ (List.range 4).foldl (fun x i => x + s.sol.q 1 fun _ => i) 0 := by
  decide +kernel

/-- Acoustics in the plane is its own image in a mirror across `x`. -/
theorem acoustics2_mirror (naux : Nat) : MirrorImage ![1, -1, 1] id (Equiv.swap 0 1) false (ignoreAux naux (acoustics2Rp (K := ℚ) 1))
    (ignoreAux naux (acoustics2Rp 1)) := by
  intro ql qr al ar
  refine ⟨fun p => ?_, fun p => ?_, ?_, ?_⟩
  · fin_cases p <;> simp [ignoreAux, acoustics2Rp]
  · funext k
    fin_cases p <;> fin_cases k <;> simp [ignoreAux, acoustics2Rp, signed] <;> ring
  · funext k
    fin_cases k <;> simp [ignoreAux, acoustics2Rp, acoustics2Part, signed] <;> ring
  · funext k
    fin_cases k <;> simp [ignoreAux, acoustics2Rp, acoustics2Part, signed] <;> ring

theorem acoustics2_turned (naux : Nat) : TurnedImage (signed ![1, -1, 1]) id 1 (ignoreAux naux (acoustics2Rp (K := ℚ) 2))
    (ignoreAux naux (acoustics2Rp 2)) := by
  intro ql qr al ar
  refine ⟨fun p => ?_, fun p => ?_, ?_, ?_⟩
  · fin_cases p <;> simp [ignoreAux, acoustics2Rp]
  · funext k
    fin_cases p <;> fin_cases k <;> simp [ignoreAux, acoustics2Rp, signed]
  · funext k
    fin_cases k <;> simp [ignoreAux, acoustics2Rp, acoustics2Part, signed]
  · funext k
    fin_cases k <;> simp [ignoreAux, acoustics2Rp, acoustics2Part, signed]

theorem acoustics2_own_transverse (naux : Nat) :
    MirrorTransverse ![1, -1, 1] id (ignoreAux2 naux (acoustics2Rt (K := ℚ) 2)) (ignoreAux2 naux (acoustics2Rt 2)) ∧
    SidewaysTransverse ![1, -1, 1] id (ignoreAux2 naux (acoustics2Rt (K := ℚ) 1)) (ignoreAux2 naux (acoustics2Rt 1)) := by
  constructor
  · intro ql qr al ar a
    constructor <;>
    · refine Prod.ext ?_ ?_ <;> funext k <;> fin_cases k <;> simp [ignoreAux2, acoustics2Rt, acoustics2Part, signed]
  · intro imp ql qr al ar a
    refine Prod.ext ?_ ?_ <;> funext k <;> fin_cases k <;> simp [ignoreAux2, acoustics2Rt, acoustics2Part, signed] <;> ring

/-- Acoustics in a channel of 3 by 4 cells: walls on the left and on the right, periodic in `y`, for any kernel. -/
def exChannel (step : IntKern (Fin 2) ℚ 3 0) : ParCfg (Fin 2) ℚ where
  bc := ⟨2, ![3, 4], 3, 0, ![.wall, .periodic], ![.wall, .periodic], ![.wall, .periodic], ![.wall, .periodic], ![1, 2],
    fun _ => true, fun _ => true, none, none, none, none⟩
  axes := [0, 1]
  kern := onArrays 3 0 2 step
  sourceSplit := 1
  source := none
  beforeQ := fun _ _ q _ => q
  beforeAux := fun _ _ _ a => a

/-- Non-vacuity of the theorems in the plane. -/
example (step : IntKern (Fin 2) ℚ 3 0) : let c := exChannel step
    ClassicRun c 3 0 step ∧ Admissible c.bc ∧ Serial c.bc ∧ Enclosed c.bc ∧ HasWall c.bc 0 ∧ ¬ HasWall c.bc 1 ∧
    FluxDifference (ignoreAux 0 (acoustics2Rp (K := ℚ) 1)) (fun q _ => acoustics2 1 q) ∧
    FluxDifference (ignoreAux 0 (acoustics2Rp (K := ℚ) 2)) (fun q _ => acoustics2 2 q) ∧
    OwnImage2 (axisSign c.bc 0 3) false 2 ![4, 4] (ignoreAux 0 (acoustics2Rp (K := ℚ) 1)) (ignoreAux 0 (acoustics2Rp 2)) ∧
    (MirrorTransverse (axisSign c.bc 0 3) id (ignoreAux2 0 (acoustics2Rt (K := ℚ) 2)) (ignoreAux2 0 (acoustics2Rt 2)) ∧
      SidewaysTransverse (axisSign c.bc 0 3) id (ignoreAux2 0 (acoustics2Rt (K := ℚ) 1)) (ignoreAux2 0 (acoustics2Rt 1))) ∧
    Unreflected c.bc 0 ∧ ¬ Unreflected c.bc 1 ∧ Unreflected c.bc 2 := by
  have e : axisSign (exChannel step).bc 0 3 = ![1, -1, 1] := by
    funext k; fin_cases k <;> simp [axisSign, exChannel]
  have hw : ¬ HasWall (exChannel step).bc 1 := by simp [HasWall, exChannel]
  refine ⟨⟨⟨rfl, fun _ _ _ _ => rfl, fun _ _ _ _ => rfl⟩, le_refl 2, rfl, rfl, rfl⟩, ⟨?_, ?_, ?_, ?_, ?_, ?_⟩, fun _ => ⟨rfl, rfl⟩,
    ⟨fun a => ?_, fun h => absurd h (by simp [exChannel])⟩, Or.inl rfl, hw, ?_, ?_, ?_, ⟨?_, ?_⟩, ?_, ?_, ?_⟩
  · intro a; fin_cases a <;> simp [exChannel]
  · intro a; fin_cases a <;> simp [exChannel, BuiltInBC]
  · intro a; fin_cases a <;> simp [exChannel, BuiltInBC]
  · intro h; exact absurd h (by simp [exChannel])
  · intro h; exact absurd h (by simp [exChannel])
  · intro a; fin_cases a <;> simp [exChannel]
  · fin_cases a
    · exact Or.inl ⟨rfl, rfl⟩
    · exact Or.inr ⟨rfl, rfl⟩
  · intro ql qr al ar
    funext k
    fin_cases k <;> simp [ignoreAux, acoustics2Rp, acoustics2, acoustics2Part] <;> ring
  · intro ql qr al ar
    funext k
    fin_cases k <;> simp [ignoreAux, acoustics2Rp, acoustics2, acoustics2Part] <;> ring
  · rw [e]
    refine ⟨⟨Equiv.swap 0 1, acoustics2_mirror 0, ?_⟩, ⟨1, acoustics2_turned 0, fun p => rfl⟩, fun h => absurd h (by simp)⟩
    intro p; fin_cases p <;> rfl
  · rw [e]; exact (acoustics2_own_transverse 0).1
  · rw [e]; exact (acoustics2_own_transverse 0).2
  · intro a h
    fin_cases a
    · simp [exChannel]
    · exact absurd h hw
  · intro h; exact h 0 (Or.inl rfl) rfl
  · intro a h
    fin_cases a
    · simp [exChannel]
    · exact absurd h hw

/-! ### Aux values continued otherwise -/

/-- Elasticity with density 1 and the sound speed `1 + |a|` in a cell with aux value `a`: strain and momentum, in f-waves. -/
def elasticRp : Riemann K (Fin 1 → K) 2 2 := fun ql qr al ar =>
  let cl := 1 + |al 0|
  let cr := 1 + |ar 0|
  let f0 := -(qr 1 - ql 1)
  let f1 := -(cr * cr * qr 0 - cl * cl * ql 0)
  let l : Fin 2 → K := ((cr * f0 + f1) / (cl + cr)) • ![1, cl]
  let r : Fin 2 → K := ((cl * f0 - f1) / (cl + cr)) • ![1, -cr]
  { wave := ![l, r], s := ![-cl, cr], amdq := l, apdq := r }

theorem elastic_flux : FluxDifference (elasticRp (K := K)) fun q a => ![-q 1, -((1 + |a 0|) * (1 + |a 0|) * q 0)] := by
  intro ql qr al ar
  have hl := abs_nonneg (al 0)
  have hr := abs_nonneg (ar 0)
  have h : 1 + |al 0| + (1 + |ar 0|) ≠ 0 := by linarith [hl, hr] |> ne_of_gt
  funext k
  fin_cases k <;> simp [elasticRp] <;> field_simp <;> ring

theorem elastic_image : MirrorImage (K := K) ![1, -1] id (Equiv.swap 0 1) true elasticRp elasticRp := by
  intro ql qr al ar
  refine ⟨fun p => ?_, fun p => ?_, ?_, ?_⟩
  · fin_cases p <;> simp [elasticRp]
  · funext k
    fin_cases p <;> fin_cases k <;> simp [elasticRp, signed] <;> ring
  · funext k
    fin_cases k <;> simp [elasticRp, signed] <;> ring
  · funext k
    fin_cases k <;> simp [elasticRp, signed] <;> ring

/-- Four cells between walls, second order with the minmod limiter; the aux values are continued as `aux` says. -/
noncomputable def exRod (aux : BCType) : ParCfg (Fin 1) ℚ where
  bc := ⟨2, fun _ => 4, 2, 1, fun _ => .wall, fun _ => .wall, fun _ => aux, fun _ => aux, fun _ => 1,
    fun _ => true, fun _ => true, none, none, none, none⟩
  axes := [0]
  kern := onArrays 2 1 2 (intStep1 0 elasticRp ⟨4, 2, 1, 1, 2, true, fun _ => 1⟩ none)
  sourceSplit := 1
  source := none
  beforeQ := fun _ _ q _ => q
  beforeAux := fun _ _ _ a => a

theorem exRod_run (aux : BCType) : ClassicRun (exRod aux) 2 1 (intStep1 0 elasticRp ⟨4, 2, 1, 1, 2, true, fun _ => 1⟩ none) where
  homogeneous := ⟨rfl, fun _ _ _ _ => rfl, fun _ _ _ _ => rfl⟩
  ghost := le_refl 2
  numAux := rfl
  axes := rfl
  kern := rfl

theorem exRod_admissible (aux : BCType) (h : BuiltInBC aux) : Admissible (exRod aux).bc where
  cells := fun _ => ⟨(by decide : 0 < 4), (by decide : 2 ≤ 4)⟩
  lower := fun _ => Or.inr (Or.inr rfl)
  upper := fun _ => Or.inr (Or.inr rfl)
  auxLower := fun _ _ => h
  auxUpper := fun _ _ => h
  reflect := fun _ _ => (by decide : 1 < 2)

/-- Strain in the second cell, momentum in the first two; the second cell is stiffer. -/
def exStrained : HypData (Fin 1) ℚ :=
  ⟨fun k x => if k = 0 then (if x 0 = 1 then 1 else 0) else if x 0 < 2 then 1 else 0, fun _ x => if x 0 = 1 then 1 else 0,
    ⟨fun _ _ => 0, fun _ _ => 0⟩⟩

/-- Its continuation into the ghost cells. -/
def exStrainedQ (j : Int) (k : Fin 2) : ℚ :=
  (if (j < 1 ∨ 4 < j) ∧ k = 1 then -1 else 1) * exStrained.q k.val fun _ => foldCell .wall .wall 4 j

theorem exRod_values (aux : BCType) (hb : BuiltInBC aux) (k : Fin 2) (i : Nat) (hi : i < 4) :
    (hypSerial (exRod aux) (1 / 4) exStrained).1.q k.val (fun _ => i) =
      lineStep dsign1 True (fPhi 0 fun _ => 1) elasticRp (1 / 4) 1 none (fun j => auxAt 1 exStrained.aux fun _ => foldCell aux aux 4 j)
        exStrainedQ ((i : Int) + 1) k := by
  obtain ⟨A, Q, f, h⟩ := hyp_line (fortran1_line 0 elasticRp ⟨4, 2, 1, 1, 2, true, fun _ => 1⟩ none) (exRod aux) (exRod_run aux)
    (exRod_admissible aux hb) (fun _ => ⟨rfl, rfl⟩) rfl (fun _ _ h => by cases h) (1 / 4) exStrained
  refine (h k i hi).trans ?_
  have hQ : ∀ j : Int, -1 ≤ j → j ≤ 6 → (Q fun _ => j) = exStrainedQ j := by
    intro j j1 j2
    rw [(f (fun _ => j) (fun b => ⟨by simp only [exRod]; omega, by simp only [exRod]; omega⟩)).1]
    funext k
    unfold exStrainedQ
    congr 1
    fin_cases k
    · simp [ghostSign, exRod, pastWall, List.finRange]
    · by_cases h1 : j < 1 <;> by_cases h4 : 4 < j <;> simp [ghostSign, exRod, pastWall, List.finRange, h1, h4]
  have hA : ∀ j : Int, -1 ≤ j → j ≤ 6 → (A fun _ => j) = auxAt 1 exStrained.aux fun _ => foldCell aux aux 4 j := by
    intro j j1 j2
    rw [(f (fun _ => j) (fun b => ⟨by simp only [exRod]; omega, by simp only [exRod]; omega⟩)).2]
    rfl
  rw [lineStep_local _ _ _ elasticRp _ _ none _ (fun j => auxAt 1 exStrained.aux fun _ => foldCell aux aux 4 j) _ exStrainedQ _
    (fun j j1 j2 => hA j (by omega) (by omega)) (fun j j1 j2 => hQ j (by omega) (by omega))]
  rfl

/-- C102 is false when the aux values are not continued like the solution: the user chooses `aux_bc` apart from `bc`
(examples/shallow_2d/sill.py, lines 53-59, has walls and `extrap`). Everything else is as in the theorems (`elastic_flux`, `elastic_image`), but strain is created at the wall: the
limiters of the two wave families there look at interfaces that are not images of each other. -/
theorem C102_aux_violated :
    ∑ i ∈ Finset.range 4, (hypSerial (exRod .extrap) (1 / 4) exStrained).1.q 0 (fun _ => i) ≠
      ∑ i ∈ Finset.range 4, exStrained.q 0 (fun _ => i) := by
  have v := exRod_values .extrap (Or.inl rfl) 0
  rw [show ((0 : Fin 2).val) = 0 from rfl] at v
  simp only [Finset.sum_range_succ, Finset.sum_range_zero]
  rw [v 0 (by decide), v 1 (by decide), v 2 (by decide), v 3 (by decide)]
  decide +kernel

end PyClaw
