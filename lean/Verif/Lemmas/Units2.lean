import Verif.Props.Units
import Verif.Props.SplitMirror

/-! One step of the two-dimensional methods in other units. -/
set_option linter.unusedSectionVars false

namespace PyClaw
open Spec

variable {K : Type*} [Field K] [LinearOrder K] [IsStrictOrderedRing K] {A : Type*} {m w : Nat}

section
variable {σ : Fin m → K} {v v' : K} {RA : A → A} {rp rp' : Riemann K A m w} {rt rt' : Transverse K A m}

theorem unit_allowed (undef : K) {order : Int} {lim : Fin w → Int} (h : UnitsAllowed σ order lim) (ho : order ≠ 1) :
    LimitsAlike σ (fPhi undef lim) := by
  rcases h with h | h | h
  · exact Or.inl h
  · exact absurd h ho
  · right
    intro p x y
    unfold fPhi
    rw [if_neg (fun hh => hh.2 (h p))]

theorem factor_unit {v : K} (hv : 0 < v) (fw : Bool) : UnitFactor (K := K) (if fw then dsign1 else abs) fw v := by
  cases fw
  · simp only [Bool.false_eq_true, if_false]; exact abs_unit hv
  · simp only [if_true]; exact dsign_unit hv

theorem unit_sliceFlux {fw : Bool} (hv : 0 < v) (hM : InUnits σ v RA fw rp rp') (undef : K) (order : Int) (lim : Fin w → Int)
    (hσ : UnitsAllowed σ order lim) (L L' : Int → K) (hL : ∀ j, L j = v * L' j) (aux : Int → A) (q : Int → Fin m → K) (j : Int) :
    sliceFlux undef order fw lim L' (interfaces rp' (fun j => RA (aux j)) fun j => signed σ (q j)) j =
      v • signed σ (sliceFlux undef order fw lim L (interfaces rp aux q) j) := by
  unfold sliceFlux
  by_cases ho : order = 1
  · simp only [if_pos ho]
    funext k
    simp [signed]
  · simp only [if_neg ho]
    exact unit_flux hv hM (unit_allowed undef hσ ho) (factor_unit hv fw) L L' hL aux q j

/-- A step on a row in other units. -/
theorem unit_row (hv : 0 < v) {b t : K} (hb : 0 < b) (hvt : v * t = b) (undef : K) (c c' : Cfg1 K w) (hM : InUnits σ v RA c.fwave rp rp')
    (hc' : c' = { c with dt := t * c.dt, dx := b * c.dx }) (hσ : UnitsAllowed σ c.order c.limiter)
    (capa : Option (A → K)) (hc : ∀ κ, capa = some κ → ∀ z, κ (RA z) = κ z) (aux : Int → A) (q : Int → Fin m → K) (i : Int) :
    rowStep undef rp' c' capa (fun j => RA (aux j)) (fun j => signed σ (q j)) i = signed σ (rowStep undef rp c capa aux q i) := by
  subst hc'
  have hL := ratio_in_units hb.ne' hvt c.dt c.dx capa hc aux
  unfold rowStep waveProp
  dsimp only
  rw [unit_sliceFlux hv hM undef _ _ hσ _ _ hL, unit_sliceFlux hv hM undef _ _ hσ _ _ hL, (unit_interface hM aux q i).2.2.2,
    (unit_interface hM aux q (i + 1)).2.2.1, hL i]
  funext k
  simp only [signed, Pi.smul_apply, Pi.sub_apply, Pi.add_apply, smul_eq_mul]
  ring

/-- What a row sends up and down, in other units. -/
theorem unit_transverse (hv : 0 < v) {b t : K} (hb : 0 < b) (hvt : v * t = b) (undef : K) (c c' : Cfg2 K w)
    (hM : InUnits σ v RA c.fwave rp rp') (hT : TransverseInUnits σ v v' RA rt rt') (b' : K)
    (hc' : c' = { c with dt := t * c.dt, dx := b * c.dx, dy := b' * c.dy }) (hσ : UnitsAllowed σ c.order c.limiter)
    (capa : Option (A → K)) (hc : ∀ κ, capa = some κ → ∀ z, κ (RA z) = κ z) (aux : Int → Int → A) (q : Int → Int → Fin m → K)
    (j i : Int) :
    rowTransverse undef rp' rt' c' capa (fun i j => RA (aux i j)) (fun i j => signed σ (q i j)) j i =
      (v' • signed σ (rowTransverse undef rp rt c capa aux q j i).1, v' • signed σ (rowTransverse undef rp rt c capa aux q j i).2) := by
  subst hc'
  unfold rowTransverse
  dsimp only
  by_cases h0 : c.trans ≤ 0
  · rw [if_pos h0, if_pos h0]
    refine Prod.ext ?_ ?_ <;> funext k <;> simp [signed]
  · rw [if_neg h0, if_neg h0]
    have hL := ratio_in_units hb.ne' hvt c.dt c.dx capa hc fun i => aux i j
    have hF := fun k => unit_sliceFlux hv hM undef _ _ hσ _ _ hL (fun i => aux i j) (fun i => q i j) k
    have hI := fun k => unit_interface hM (fun i => aux i j) (fun i => q i j) k
    unfold transversePair
    have hlp : ∀ k, leftPart (1 < c.order ∧ c.trans = 2) (interfaces rp' (fun i => RA (aux i j)) fun i => signed σ (q i j))
        (sliceFlux undef c.order c.fwave c.limiter (localRatio (t * c.dt) (b * c.dx) capa fun i => RA (aux i j))
          (interfaces rp' (fun i => RA (aux i j)) fun i => signed σ (q i j))) k =
        fun l => v * (σ l * leftPart (1 < c.order ∧ c.trans = 2) (interfaces rp (fun i => aux i j) fun i => q i j)
        (sliceFlux undef c.order c.fwave c.limiter (localRatio c.dt c.dx capa fun i => aux i j)
          (interfaces rp (fun i => aux i j) fun i => q i j)) k l) := by
      intro k
      unfold leftPart
      rw [hF, (hI k).2.2.1]
      split
      · funext l
        simp only [signed, Pi.add_apply, Pi.smul_apply, smul_eq_mul]
        ring
      · rfl
    have hrp : ∀ k, rightPart (1 < c.order ∧ c.trans = 2) (interfaces rp' (fun i => RA (aux i j)) fun i => signed σ (q i j))
        (sliceFlux undef c.order c.fwave c.limiter (localRatio (t * c.dt) (b * c.dx) capa fun i => RA (aux i j))
          (interfaces rp' (fun i => RA (aux i j)) fun i => signed σ (q i j))) k =
        fun l => v * (σ l * rightPart (1 < c.order ∧ c.trans = 2) (interfaces rp (fun i => aux i j) fun i => q i j)
        (sliceFlux undef c.order c.fwave c.limiter (localRatio c.dt c.dx capa fun i => aux i j)
          (interfaces rp (fun i => aux i j) fun i => q i j)) k l) := by
      intro k
      unfold rightPart
      rw [hF, (hI k).2.2.2]
      split
      · funext l
        simp only [signed, Pi.sub_apply, Pi.smul_apply, smul_eq_mul]
        ring
      · rfl
    rw [hlp, hrp]
    have ea : ∀ i, aux3 (fun i j => RA (aux i j)) j i = onThree RA (aux3 aux j i) := fun _ => rfl
    dsimp only
    simp only [ea, hT _ _ _ _ _ _, hL i]
    refine Prod.ext ?_ ?_ <;> funext k <;>
    simp only [Prod.fst_add, Prod.snd_add, Prod.smul_fst, Prod.smul_snd, signed, Pi.add_apply, Pi.smul_apply, smul_eq_mul] <;> ring

/-- The increment of a cell by the sweeps, in other units. -/
theorem unit_increment (hv : 0 < v) {b b' t : K} (hb : 0 < b) (hb' : 0 < b') (hvt : v * t = b) (hvt' : v' * t = b') (undef : K) (c c' : Cfg2 K w)
    (hM : InUnits σ v RA c.fwave rp rp') (hT : TransverseInUnits σ v v' RA rt rt')
    (hc' : c' = { c with dt := t * c.dt, dx := b * c.dx, dy := b' * c.dy }) (hσ : UnitsAllowed σ c.order c.limiter)
    (capa : Option (A → K)) (hc : ∀ κ, capa = some κ → ∀ z, κ (RA z) = κ z) (aux : Int → Int → A) (q : Int → Int → Fin m → K)
    (i j : Int) :
    xIncrement undef rp' rt' c' capa (fun i j => RA (aux i j)) (fun i j => signed σ (q i j)) i j =
      signed σ (xIncrement undef rp rt c capa aux q i j) := by
  have hrow := unit_row hv hb hvt undef c.row c'.row hM (by rw [hc']; rfl) hσ capa hc (fun i => aux i j) (fun i => q i j) i
  have htr := unit_transverse hv hb hvt undef c c' hM hT b' hc' hσ capa hc aux q
  have e1 : c'.dt = t * c.dt := by rw [hc']
  have e2 : c'.dy = b' * c.dy := by rw [hc']
  unfold xIncrement rowFlux
  simp only [htr, hrow, e1, e2, ratio_in_units hb'.ne' hvt' c.dt c.dy capa hc (fun j => aux i j) j]
  funext k
  simp only [signed, Pi.add_apply, Pi.sub_apply, Pi.smul_apply, smul_eq_mul]
  ring

end

section
variable {σ : Fin m → K} {RA : A → A} {rpx rpx' rpy rpy' : Riemann K A m w} {rtx rtx' rty rty' : Transverse K A m}

/-- A step of the unsplit method in other units. -/
theorem unit_unsplit2 {vx vy lx ly tx : K} (hvx : 0 < vx) (hvy : 0 < vy) (hlx : 0 < lx) (hly : 0 < ly) (hx : vx * tx = lx)
    (hy : vy * tx = ly) (undef : K) (c : Cfg2 K w) (hg : 1 ≤ c.g) (hMx : InUnits σ vx RA c.fwave rpx rpx')
    (hMy : InUnits σ vy RA c.fwave rpy rpy') (hTx : TransverseInUnits σ vx vy RA rtx rtx') (hTy : TransverseInUnits σ vy vx RA rty rty')
    (hσ : UnitsAllowed σ c.order c.limiter) (capa : Option (A → K)) (hc : ∀ κ, capa = some κ → ∀ z, κ (RA z) = κ z)
    (aux : Int → Int → A) (q : Int → Int → Fin m → K) :
    (∀ i j : Int, 1 ≤ i → i ≤ c.mx → 1 ≤ j → j ≤ c.my →
      (unsplitStep2 undef rpx' rpy' rtx' rty' { c with dt := tx * c.dt, dx := lx * c.dx, dy := ly * c.dy } capa
        (fun i j => RA (aux i j)) (fun i j => signed σ (q i j))).1 i j =
      signed σ ((unsplitStep2 undef rpx rpy rtx rty c capa aux q).1 i j)) ∧
    (unsplitStep2 undef rpx' rpy' rtx' rty' { c with dt := tx * c.dt, dx := lx * c.dx, dy := ly * c.dy } capa
        (fun i j => RA (aux i j)) (fun i j => signed σ (q i j))).2 = (unsplitStep2 undef rpx rpy rtx rty c capa aux q).2 := by
  constructor
  · intro i j i1 i2 j1 j2
    rw [unsplitStep2_cell undef rpx' rpy' rtx' rty' { c with dt := tx * c.dt, dx := lx * c.dx, dy := ly * c.dy } hg capa _ _ i j i1 i2 j1 j2,
      unsplitStep2_cell undef rpx rpy rtx rty c hg capa aux q i j i1 i2 j1 j2,
      unit_increment hvx hlx hly hx hy undef c _ hMx hTx rfl hσ capa hc aux q i j,
      unit_increment hvy hly hlx hy hx undef c.swap ({ c with dt := tx * c.dt, dx := lx * c.dx, dy := ly * c.dy } : Cfg2 K w).swap
        hMy hTy rfl hσ capa hc (fun j i => aux i j) (fun j i => q i j) j i]
    funext k
    simp only [signed, Pi.add_apply]
    ring
  · refine isMax_unique (unsplitStep2_isMax undef rpx' rpy' rtx' rty' { c with dt := tx * c.dt, dx := lx * c.dx, dy := ly * c.dy } capa _ _)
      (isMax_congr (fun x => or_congr ?_ ?_) (unsplitStep2_isMax undef rpx rpy rtx rty c capa aux q))
    · refine exists_congr fun i => exists_congr fun j => and_congr_right fun _ => and_congr_right fun _ => ?_
      exact (unit_number hlx hx hMx c.dt c.dx capa hc (fun i => aux i j) (fun i => q i j) i x).symm
    · refine exists_congr fun j => exists_congr fun i => and_congr_right fun _ => and_congr_right fun _ => ?_
      exact (unit_number hly hy hMy c.dt c.dy capa hc (fun j => aux i j) (fun j => q i j) j x).symm

/-- A step of dimensional splitting in other units. -/
theorem unit_split2 {vx vy lx ly tx : K} (hvx : 0 < vx) (hvy : 0 < vy) (hlx : 0 < lx) (hly : 0 < ly) (hx : vx * tx = lx)
    (hy : vy * tx = ly) (undef : K) (c : Cfg2 K w) (hg : 1 ≤ c.g) (hMx : InUnits σ vx RA c.fwave rpx rpx')
    (hMy : InUnits σ vy RA c.fwave rpy rpy')
    (hσ : UnitsAllowed σ c.order c.limiter) (capa : Option (A → K)) (hc : ∀ κ, capa = some κ → ∀ z, κ (RA z) = κ z)
    (aux : Int → Int → A) (q : Int → Int → Fin m → K) :
    (∀ i j : Int, 1 ≤ i → i ≤ c.mx → 1 ≤ j → j ≤ c.my →
      (splitStep2 undef rpx' rpy' { c with dt := tx * c.dt, dx := lx * c.dx, dy := ly * c.dy } capa
        (fun i j => RA (aux i j)) (fun i j => signed σ (q i j))).1 i j =
      signed σ ((splitStep2 undef rpx rpy c capa aux q).1 i j)) ∧
    (splitStep2 undef rpx' rpy' { c with dt := tx * c.dt, dx := lx * c.dx, dy := ly * c.dy } capa
        (fun i j => RA (aux i j)) (fun i j => signed σ (q i j))).2 = (splitStep2 undef rpx rpy c capa aux q).2 := by
  have hA : ∀ i j : Int, afterX2 undef rpx' { c with dt := tx * c.dt, dx := lx * c.dx, dy := ly * c.dy } capa (fun i j => RA (aux i j))
      (fun i j => signed σ (q i j)) i j = signed σ (afterX2 undef rpx c capa aux q i j) := by
    intro i j
    unfold afterX2
    dsimp only
    split
    · exact unit_row hvx hlx hx undef c.row ({ c with dt := tx * c.dt, dx := lx * c.dx, dy := ly * c.dy } : Cfg2 K w).row hMx rfl hσ
        capa hc (fun i => aux i j) (fun i => q i j) i
    · rfl
  constructor
  · intro i j i1 i2 j1 j2
    rw [splitStep2_after undef rpx' rpy' { c with dt := tx * c.dt, dx := lx * c.dx, dy := ly * c.dy } hg capa _ _ i j i1 i2 j1 j2,
      splitStep2_after undef rpx rpy c hg capa aux q i j i1 i2 j1 j2]
    simp only [hA]
    exact unit_row hvy hly hy undef c.swap.row ({ c with dt := tx * c.dt, dx := lx * c.dx, dy := ly * c.dy } : Cfg2 K w).swap.row hMy rfl hσ
      capa hc (fun j => aux i j) (fun j => afterX2 undef rpx c capa aux q i j) j
  · refine isMax_unique (splitStep2_isMax undef rpx' rpy' { c with dt := tx * c.dt, dx := lx * c.dx, dy := ly * c.dy } hg capa _ _)
      (isMax_congr (fun x => or_congr ?_ ?_) (splitStep2_isMax undef rpx rpy c hg capa aux q))
    · refine exists_congr fun i => exists_congr fun j => and_congr_right fun _ => and_congr_right fun _ => ?_
      exact (unit_number hlx hx hMx c.dt c.dx capa hc (fun i => aux i j) (fun i => q i j) i x).symm
    · simp only [hA]
      refine exists_congr fun i => exists_congr fun j => and_congr_right fun _ => and_congr_right fun _ => ?_
      exact (unit_number hly hy hMy c.dt c.dy capa hc (fun j => aux i j) (fun j => afterX2 undef rpx c capa aux q i j) j x).symm

end

/-- Serial runs in different units, from a step that is given the converted values on the whole plane. -/
theorem kernel_unit_of_local {d naux : Nat} (b : K) (hb : 0 < b)
    (c c' : ParCfg (Fin d) K) (step step' : IntKern (Fin d) K m naux) (hr : ClassicRun c m naux step)
    (hr' : ClassicRun c' m naux step') (ha : Admissible c.bc) (hs : Serial c.bc) (hbc : c'.bc = c.bc) (σ : Fin m → K)
    (RA : (Fin naux → K) → Fin naux → K) (hloc : LocalInt step' c.bc.g)
    (hstep : ∀ dt (A : (Fin d → Int) → Fin naux → K) (Q : (Fin d → Int) → Fin m → K),
      (step dt c.bc.n A Q = none ∧ step' (b * dt) c.bc.n (fun v => RA (A v)) (fun v => signed σ (Q v)) = none) ∨
      ∃ r r' cfl, step dt c.bc.n A Q = some (r, cfl) ∧
        step' (b * dt) c.bc.n (fun v => RA (A v)) (fun v => signed σ (Q v)) = some (r', cfl) ∧
        ∀ v : Fin d → Int, (∀ a, 1 ≤ v a ∧ v a ≤ c.bc.n a) → r' v = signed σ (r v))
    (rnd : K → K) (hrnd : ∀ x, rnd (b * x) = b * rnd x) (L L' : K) :
    UnitEnv b (Converted m naux c.bc.n σ RA) (serialEnv c rnd L) (serialEnv c' rnd L') := by
  refine kernel_unit m naux b hb c c' step step' hr hr' ha hs hbc σ RA ?_ rnd hrnd L L'
  intro dt A A' Q Q' key
  have h1 := hstep dt A Q
  have h2 := hloc (b * dt) c.bc.n (fun v => RA (A v)) A' (fun v => signed σ (Q v)) Q' fun v hv => ⟨(key v hv).2, (key v hv).1⟩
  rcases h1 with ⟨e1, e2⟩ | ⟨r, r', cfl, e1, e2, e3⟩
  · rcases h2 with ⟨_, e4⟩ | ⟨r2, r2', cfl2, e4, _⟩
    · exact Or.inl ⟨e1, e4⟩
    · rw [e2] at e4; cases e4
  · rcases h2 with ⟨e4, _⟩ | ⟨r2, r2', cfl2, e4, e5, e6⟩
    · rw [e2] at e4; cases e4
    · rw [e2] at e4
      cases e4
      refine Or.inr ⟨r, r2', cfl, e1, e5, fun x hx => ?_⟩
      have hv : ∀ a, (1 : Int) ≤ (x a : Int) + 1 ∧ (x a : Int) + 1 ≤ c.bc.n a := fun a => by
        have := hx a
        omega
      rw [e6 _ hv, e3 _ hv]

end PyClaw
