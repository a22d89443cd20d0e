import Verif.Lemmas.Turn
import Verif.Props.ParallelKernels

/-! One step of the unsplit two-dimensional method in mirrors and with the axes exchanged. -/
set_option linter.unusedSectionVars false

namespace PyClaw
open Spec

variable {K : Type*} [Field K] [LinearOrder K] [IsStrictOrderedRing K] {A : Type*} {m w : Nat}

theorem unsplitStep2_isMax (undef : K) (rpx rpy : Riemann K A m w) (rtx rty : Transverse K A m) (c : Cfg2 K w) (capa : Option (A → K))
    (aux : Int → Int → A) (q : Int → Int → Fin m → K) :
    IsMaxWithZero (fun v => (∃ i j : Int, (1 ≤ i ∧ i ≤ c.mx + 1) ∧ (0 ≤ j ∧ j ≤ c.my + 1) ∧
      WaveNumber (localRatio c.dt c.dx capa fun i => aux i j) (interfaces rpx (fun i => aux i j) (fun i => q i j)) i v) ∨
      ∃ j i : Int, (1 ≤ j ∧ j ≤ c.my + 1) ∧ (0 ≤ i ∧ i ≤ c.mx + 1) ∧
      WaveNumber (localRatio c.dt c.dy capa fun j => aux i j) (interfaces rpy (fun j => aux i j) (fun j => q i j)) j v)
      (unsplitStep2 undef rpx rpy rtx rty c capa aux q).2 :=
  isMax_max (step2X_isMax undef rpx rtx c capa aux q _) (step2X_isMax undef rpy rty c.swap capa (fun j i => aux i j) (fun j i => q i j) _)

theorem waveNumber_same (rp : Riemann K A m w) (dt dx : K) (capa : Option (A → K)) (aux aux' : Int → A) (q q' : Int → Fin m → K)
    (i : Int) (v : K) (h0 : aux' i = aux i) (h1 : aux' (i - 1) = aux (i - 1)) (h2 : q' i = q i) (h3 : q' (i - 1) = q (i - 1)) :
    WaveNumber (localRatio dt dx capa aux') (interfaces rp aux' q') i v ↔ WaveNumber (localRatio dt dx capa aux) (interfaces rp aux q) i v := by
  have := waveNumber_congr rp dt dx capa aux aux' q q' 0 i v (by rwa [add_zero]) (by rwa [add_zero]) (by rwa [add_zero]) (by rwa [add_zero])
  rwa [add_zero] at this

/-- The Courant number depends on the cells of the grid and one row around it. -/
theorem unsplit_cfl_local (undef : K) (rpx rpy : Riemann K A m w) (rtx rty : Transverse K A m) (c : Cfg2 K w) (capa : Option (A → K))
    (aux aux' : Int → Int → A) (q q' : Int → Int → Fin m → K)
    (h : ∀ i j : Int, 0 ≤ i → i ≤ c.mx + 1 → 0 ≤ j → j ≤ c.my + 1 → aux' i j = aux i j ∧ q' i j = q i j) :
    (unsplitStep2 undef rpx rpy rtx rty c capa aux' q').2 = (unsplitStep2 undef rpx rpy rtx rty c capa aux q).2 := by
  refine isMax_unique (unsplitStep2_isMax undef rpx rpy rtx rty c capa aux' q')
    (isMax_congr (fun v => or_congr ?_ ?_) (unsplitStep2_isMax undef rpx rpy rtx rty c capa aux q))
  · refine exists_congr fun i => exists_congr fun j => and_congr_right fun hi => and_congr_right fun hj => ?_
    have h0 := h i j (by omega) (by omega) hj.1 hj.2
    have h1 := h (i - 1) j (by omega) (by omega) hj.1 hj.2
    exact (waveNumber_same rpx c.dt c.dx capa (fun i => aux i j) (fun i => aux' i j) (fun i => q i j) (fun i => q' i j) i v h0.1 h1.1 h0.2
      h1.2).symm
  · refine exists_congr fun j => exists_congr fun i => and_congr_right fun hj => and_congr_right fun hi => ?_
    have h0 := h i j hi.1 hi.2 (by omega) (by omega)
    have h1 := h i (j - 1) hi.1 hi.2 (by omega) (by omega)
    exact (waveNumber_same rpy c.dt c.dy capa (fun j => aux i j) (fun j => aux' i j) (fun j => q i j) (fun j => q' i j) j v h0.1 h1.1 h0.2
      h1.2).symm


section
variable {σ : Fin m → K} {RA : A → A} {πx πy : Equiv.Perm (Fin w)} {rpx rpx' rpy rpy' : Riemann K A m w}
  {rtx rtx' rty rty' : Transverse K A m}

/-- Left and right exchanged. -/
theorem mirrorX_step (hσ : IsSign σ) (undef : K) (c : Cfg2 K w) (lim' : Fin w → Int) (hg : 1 ≤ c.g)
    (hx : MirrorImage σ RA πx c.fwave rpx rpx') (hy : TurnedImage (signed σ) RA πy rpy rpy')
    (htx : MirrorTransverse σ RA rtx rtx') (hty : SidewaysTransverse σ RA rty rty')
    (hlx : ∀ p, lim' (πx p) = c.limiter p) (hly : ∀ p, lim' (πy p) = c.limiter p)
    (hf : c.fwave = true → c.order ≠ 1 → ∀ ql qr al ar p, (rpx ql qr al ar).s p ≠ 0)
    (capa : Option (A → K)) (hc : ∀ κ, capa = some κ → ∀ z, κ (RA z) = κ z) (aux : Int → Int → A) (q : Int → Int → Fin m → K) :
    (∀ i j : Int, 1 ≤ i → i ≤ c.mx → 1 ≤ j → j ≤ c.my →
      (unsplitStep2 undef rpx' rpy' rtx' rty' { c with limiter := lim' } capa (fun i j => RA (aux (c.mx + 1 - i) j))
        (fun i j => signed σ (q (c.mx + 1 - i) j))).1 i j =
      signed σ ((unsplitStep2 undef rpx rpy rtx rty c capa aux q).1 (c.mx + 1 - i) j)) ∧
    (unsplitStep2 undef rpx' rpy' rtx' rty' { c with limiter := lim' } capa (fun i j => RA (aux (c.mx + 1 - i) j))
        (fun i j => signed σ (q (c.mx + 1 - i) j))).2 = (unsplitStep2 undef rpx rpy rtx rty c capa aux q).2 := by
  have hT := signed_rigid (K := K) hσ
  constructor
  · intro i j i1 i2 j1 j2
    rw [unsplitStep2_cell undef rpx' rpy' rtx' rty' { c with limiter := lim' } hg capa _ _ i j i1 i2 j1 j2,
      unsplitStep2_cell undef rpx rpy rtx rty c hg capa aux q (c.mx + 1 - i) j (by omega) (by omega) j1 j2, hT.add, hT.add,
      mirror_increment hσ undef c { c with limiter := lim' } hx htx rfl hlx hf capa hc aux q (c.mx + 1) i j]
    congr 1
    exact sideways_increment hσ hy hty undef c.swap ({ c with limiter := lim' } : Cfg2 K w).swap rfl hly capa hc (fun j i => aux i j)
      (fun j i => q i j) (c.mx + 1) j i
  · refine isMax_unique (unsplitStep2_isMax undef rpx' rpy' rtx' rty' { c with limiter := lim' } capa _ _)
      (isMax_congr (fun v => or_congr ?_ ?_) (unsplitStep2_isMax undef rpx rpy rtx rty c capa aux q))
    · have hn : ∀ i j : Int, _ := fun i j => mirror_number hx c.dt c.dx capa hc (c.mx + 1) (fun i => aux i j) (fun i => q i j) i v
      constructor
      · rintro ⟨i, j, hi, hj, h⟩
        refine ⟨c.mx + 1 + 1 - i, j, ⟨by omega, by dsimp only; omega⟩, hj, (hn _ j).mpr ?_⟩
        rwa [show (c.mx : Int) + 1 + 1 - (c.mx + 1 + 1 - i) = i by ring]
      · rintro ⟨i, j, hi, hj, h⟩
        dsimp only at hi
        exact ⟨c.mx + 1 + 1 - i, j, ⟨by omega, by omega⟩, hj, (hn i j).mp h⟩
    · have hn : ∀ i j : Int, _ := fun i j => turn_number hy c.dt c.dy capa hc (fun j => aux (c.mx + 1 - i) j) (fun j => q (c.mx + 1 - i) j) j v
      constructor
      · rintro ⟨j, i, hj, hi, h⟩
        refine ⟨j, c.mx + 1 - i, hj, ⟨by omega, by dsimp only; omega⟩, (hn _ j).mpr ?_⟩
        rwa [show (c.mx : Int) + 1 - (c.mx + 1 - i) = i by ring]
      · rintro ⟨j, i, hj, hi, h⟩
        dsimp only at hi
        exact ⟨j, c.mx + 1 - i, hj, ⟨by omega, by omega⟩, (hn i j).mp h⟩

/-- Down and up exchanged. -/
theorem mirrorY_step (hσ : IsSign σ) (undef : K) (c : Cfg2 K w) (lim' : Fin w → Int) (hg : 1 ≤ c.g)
    (hx : TurnedImage (signed σ) RA πx rpx rpx') (hy : MirrorImage σ RA πy c.fwave rpy rpy')
    (htx : SidewaysTransverse σ RA rtx rtx') (hty : MirrorTransverse σ RA rty rty')
    (hlx : ∀ p, lim' (πx p) = c.limiter p) (hly : ∀ p, lim' (πy p) = c.limiter p)
    (hf : c.fwave = true → c.order ≠ 1 → ∀ ql qr al ar p, (rpy ql qr al ar).s p ≠ 0)
    (capa : Option (A → K)) (hc : ∀ κ, capa = some κ → ∀ z, κ (RA z) = κ z) (aux : Int → Int → A) (q : Int → Int → Fin m → K) :
    (∀ i j : Int, 1 ≤ i → i ≤ c.mx → 1 ≤ j → j ≤ c.my →
      (unsplitStep2 undef rpx' rpy' rtx' rty' { c with limiter := lim' } capa (fun i j => RA (aux i (c.my + 1 - j)))
        (fun i j => signed σ (q i (c.my + 1 - j)))).1 i j =
      signed σ ((unsplitStep2 undef rpx rpy rtx rty c capa aux q).1 i (c.my + 1 - j))) ∧
    (unsplitStep2 undef rpx' rpy' rtx' rty' { c with limiter := lim' } capa (fun i j => RA (aux i (c.my + 1 - j)))
        (fun i j => signed σ (q i (c.my + 1 - j)))).2 = (unsplitStep2 undef rpx rpy rtx rty c capa aux q).2 := by
  have hT := signed_rigid (K := K) hσ
  constructor
  · intro i j i1 i2 j1 j2
    rw [unsplitStep2_cell undef rpx' rpy' rtx' rty' { c with limiter := lim' } hg capa _ _ i j i1 i2 j1 j2,
      unsplitStep2_cell undef rpx rpy rtx rty c hg capa aux q i (c.my + 1 - j) i1 i2 (by omega) (by omega), hT.add, hT.add,
      sideways_increment hσ hx htx undef c { c with limiter := lim' } rfl hlx capa hc aux q (c.my + 1) i j]
    congr 1
    exact mirror_increment hσ undef c.swap ({ c with limiter := lim' } : Cfg2 K w).swap hy hty rfl hly hf capa hc (fun j i => aux i j)
      (fun j i => q i j) (c.my + 1) j i
  · refine isMax_unique (unsplitStep2_isMax undef rpx' rpy' rtx' rty' { c with limiter := lim' } capa _ _)
      (isMax_congr (fun v => or_congr ?_ ?_) (unsplitStep2_isMax undef rpx rpy rtx rty c capa aux q))
    · have hn : ∀ i j : Int, _ := fun i j => turn_number hx c.dt c.dx capa hc (fun i => aux i (c.my + 1 - j)) (fun i => q i (c.my + 1 - j)) i v
      constructor
      · rintro ⟨i, j, hi, hj, h⟩
        refine ⟨i, c.my + 1 - j, hi, ⟨by omega, by dsimp only; omega⟩, (hn i _).mpr ?_⟩
        rwa [show (c.my : Int) + 1 - (c.my + 1 - j) = j by ring]
      · rintro ⟨i, j, hi, hj, h⟩
        dsimp only at hj
        exact ⟨i, c.my + 1 - j, hi, ⟨by omega, by omega⟩, (hn i j).mp h⟩
    · have hn : ∀ i j : Int, _ := fun i j => mirror_number hy c.dt c.dy capa hc (c.my + 1) (fun j => aux i j) (fun j => q i j) j v
      constructor
      · rintro ⟨j, i, hj, hi, h⟩
        refine ⟨c.my + 1 + 1 - j, i, ⟨by omega, by dsimp only; omega⟩, hi, (hn i _).mpr ?_⟩
        rwa [show (c.my : Int) + 1 + 1 - (c.my + 1 + 1 - j) = j by ring]
      · rintro ⟨j, i, hj, hi, h⟩
        dsimp only at hj
        exact ⟨c.my + 1 + 1 - j, i, ⟨by omega, by omega⟩, hi, (hn i j).mp h⟩

/-- The axes exchanged. -/
theorem transpose_step {T : (Fin m → K) → Fin m → K} (hT : Rigid T) (undef : K) (c : Cfg2 K w) (lim' : Fin w → Int) (hg : 1 ≤ c.g)
    (hx : TurnedImage T RA πx rpx rpy') (hy : TurnedImage T RA πy rpy rpx')
    (htx : TurnedTransverse T RA rtx rty') (hty : TurnedTransverse T RA rty rtx')
    (hlx : ∀ p, lim' (πx p) = c.limiter p) (hly : ∀ p, lim' (πy p) = c.limiter p)
    (capa : Option (A → K)) (hc : ∀ κ, capa = some κ → ∀ z, κ (RA z) = κ z) (aux : Int → Int → A) (q : Int → Int → Fin m → K) :
    (∀ i j : Int, 1 ≤ i → i ≤ c.my → 1 ≤ j → j ≤ c.mx →
      (unsplitStep2 undef rpx' rpy' rtx' rty' { c.swap with limiter := lim' } capa (fun i j => RA (aux j i)) (fun i j => T (q j i))).1 i j =
      T ((unsplitStep2 undef rpx rpy rtx rty c capa aux q).1 j i)) ∧
    (unsplitStep2 undef rpx' rpy' rtx' rty' { c.swap with limiter := lim' } capa (fun i j => RA (aux j i)) (fun i j => T (q j i))).2 =
      (unsplitStep2 undef rpx rpy rtx rty c capa aux q).2 := by
  constructor
  · intro i j i1 i2 j1 j2
    rw [unsplitStep2_cell undef rpx' rpy' rtx' rty' { c.swap with limiter := lim' } hg capa _ _ i j i1 i2 j1 j2,
      unsplitStep2_cell undef rpx rpy rtx rty c hg capa aux q j i j1 j2 i1 i2, hT.add, hT.add,
      turn_increment hT hy hty undef c.swap { c.swap with limiter := lim' } rfl hly capa hc (fun i j => aux j i) (fun i j => q j i) i j,
      add_right_comm]
    congr 2
    exact turn_increment hT hx htx undef c ({ c.swap with limiter := lim' } : Cfg2 K w).swap rfl hlx capa hc aux q j i
  · refine isMax_unique (unsplitStep2_isMax undef rpx' rpy' rtx' rty' { c.swap with limiter := lim' } capa _ _)
      (isMax_congr (fun v => ?_) (unsplitStep2_isMax undef rpx rpy rtx rty c capa aux q))
    refine Iff.trans or_comm (or_congr ?_ ?_)
    · refine exists_congr fun i => exists_congr fun j => and_congr_right fun _ => and_congr_right fun _ => ?_
      exact (turn_number hy c.dt c.dy capa hc (fun j' => aux j j') (fun j' => q j j') i v).symm
    · refine exists_congr fun i => exists_congr fun j => and_congr_right fun _ => and_congr_right fun _ => ?_
      exact (turn_number hx c.dt c.dx capa hc (fun i' => aux i' j) (fun i' => q i' j) i v).symm

end

end PyClaw
