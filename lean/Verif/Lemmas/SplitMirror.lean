import Verif.Lemmas.Square
import Verif.Props.ParallelSplit

/-! One step of dimensional splitting in two dimensions in mirrors. -/
set_option linter.unusedSectionVars false

namespace PyClaw
open Spec

variable {K : Type*} [Field K] [LinearOrder K] [IsStrictOrderedRing K] {A : Type*} {m w : Nat}

section
variable {σ : Fin m → K} {RA : A → A} {π πx πy : Equiv.Perm (Fin w)} {rp rp' rpx rpx' rpy rpy' : Riemann K A m w}

/-- The step on a row in a mirror that exchanges left and right. -/
theorem mirror_row (hσ : IsSign σ) (undef : K) (c c' : Cfg1 K w) (hM : MirrorImage σ RA π c.fwave rp rp')
    (hc' : c' = { c with limiter := c'.limiter }) (hl : ∀ p, c'.limiter (π p) = c.limiter p)
    (hf : c.fwave = true → c.order ≠ 1 → ∀ ql qr al ar p, (rp ql qr al ar).s p ≠ 0)
    (capa : Option (A → K)) (hc : ∀ κ, capa = some κ → ∀ z, κ (RA z) = κ z) (aux : Int → A) (q : Int → Fin m → K) (N i : Int) :
    rowStep undef rp' c' capa (fun j => RA (aux (N - j))) (fun j => signed σ (q (N - j))) i =
      signed σ (rowStep undef rp c capa aux q (N - i)) := by
  have hT := signed_rigid (K := K) hσ
  have e1 : c'.dt = c.dt := by rw [hc']
  have e3 : c'.dx = c.dx := by rw [hc']
  have e4 : c'.order = c.order := by rw [hc']
  have e5 : c'.fwave = c.fwave := by rw [hc']
  have hF := fun k => mirror_sliceFlux hσ hM undef c.order c.limiter c'.limiter hl c.dt c.dx capa hc N aux q k hf
  have hI := fun k => mirror_interface hM N aux q k
  have hr := mirror_ratio c.dt c.dx capa hc N aux i
  unfold rowStep waveProp
  dsimp only
  rw [e1, e3, e4, e5, hr, hF, hF, (hI i).2.2.2, (hI (i + 1)).2.2.1]
  rw [show N + 1 - (i + 1) = N - i by ring, show N + 1 - i = N - i + 1 by ring]
  simp only [hT.sub, hT.smul, hT.add]
  module

/-- The values after the sweeps in `x`, left and right exchanged. -/
theorem mirrorX_afterX2 (hσ : IsSign σ) (undef : K) (c : Cfg2 K w) (lim' : Fin w → Int) (hx : MirrorImage σ RA πx c.fwave rpx rpx')
    (hlx : ∀ p, lim' (πx p) = c.limiter p) (hf : c.fwave = true → c.order ≠ 1 → ∀ ql qr al ar p, (rpx ql qr al ar).s p ≠ 0)
    (capa : Option (A → K)) (hc : ∀ κ, capa = some κ → ∀ z, κ (RA z) = κ z) (aux : Int → Int → A) (q : Int → Int → Fin m → K) (i j : Int) :
    afterX2 undef rpx' { c with limiter := lim' } capa (fun i j => RA (aux (c.mx + 1 - i) j)) (fun i j => signed σ (q (c.mx + 1 - i) j)) i j =
      signed σ (afterX2 undef rpx c capa aux q (c.mx + 1 - i) j) := by
  unfold afterX2
  dsimp only
  by_cases h : (1 - (c.g : Int) ≤ j ∧ j ≤ c.my + c.g) ∧ 1 ≤ i ∧ i ≤ c.mx
  · rw [if_pos h, if_pos (by omega)]
    exact mirror_row hσ undef c.row ({ c with limiter := lim' } : Cfg2 K w).row hx rfl hlx hf capa hc (fun i => aux i j) (fun i => q i j)
      (c.mx + 1) i
  · rw [if_neg h, if_neg (by omega)]

/-- The values after the sweeps in `x`, down and up exchanged. -/
theorem mirrorY_afterX2 (hσ : IsSign σ) (undef : K) (c : Cfg2 K w) (lim' : Fin w → Int) (hx : TurnedImage (signed σ) RA πx rpx rpx')
    (hlx : ∀ p, lim' (πx p) = c.limiter p)
    (capa : Option (A → K)) (hc : ∀ κ, capa = some κ → ∀ z, κ (RA z) = κ z) (aux : Int → Int → A) (q : Int → Int → Fin m → K) (i j : Int) :
    afterX2 undef rpx' { c with limiter := lim' } capa (fun i j => RA (aux i (c.my + 1 - j))) (fun i j => signed σ (q i (c.my + 1 - j))) i j =
      signed σ (afterX2 undef rpx c capa aux q i (c.my + 1 - j)) := by
  unfold afterX2
  dsimp only
  by_cases h : (1 - (c.g : Int) ≤ j ∧ j ≤ c.my + c.g) ∧ 1 ≤ i ∧ i ≤ c.mx
  · rw [if_pos h, if_pos (by omega)]
    exact turn_row (signed_rigid hσ) hx undef c.row ({ c with limiter := lim' } : Cfg2 K w).row rfl hlx capa hc
      (fun i => aux i (c.my + 1 - j)) (fun i => q i (c.my + 1 - j)) i
  · rw [if_neg h, if_neg (by omega)]

theorem splitStep2_after (undef : K) (rpx rpy : Riemann K A m w) (c : Cfg2 K w) (hg : 1 ≤ c.g) (capa : Option (A → K))
    (aux : Int → Int → A) (q : Int → Int → Fin m → K) (i j : Int) (h1 : 1 ≤ i) (h2 : i ≤ c.mx) (h3 : 1 ≤ j) (h4 : j ≤ c.my) :
    (splitStep2 undef rpx rpy c capa aux q).1 i j =
      rowStep undef rpy c.swap.row capa (fun j => aux i j) (fun j => afterX2 undef rpx c capa aux q i j) j := by
  rw [splitStep2_eq undef rpx rpy c hg capa aux q i j h1 h2 h3 h4]
  congr 1
  funext j
  exact step2dsX_eq false undef rpx c hg capa aux q i j

/-- Left and right exchanged. -/
theorem mirrorX_split (hσ : IsSign σ) (undef : K) (c : Cfg2 K w) (lim' : Fin w → Int) (hg : 1 ≤ c.g)
    (hx : MirrorImage σ RA πx c.fwave rpx rpx') (hy : TurnedImage (signed σ) RA πy rpy rpy')
    (hlx : ∀ p, lim' (πx p) = c.limiter p) (hly : ∀ p, lim' (πy p) = c.limiter p)
    (hf : c.fwave = true → c.order ≠ 1 → ∀ ql qr al ar p, (rpx ql qr al ar).s p ≠ 0)
    (capa : Option (A → K)) (hc : ∀ κ, capa = some κ → ∀ z, κ (RA z) = κ z) (aux : Int → Int → A) (q : Int → Int → Fin m → K) :
    (∀ i j : Int, 1 ≤ i → i ≤ c.mx → 1 ≤ j → j ≤ c.my →
      (splitStep2 undef rpx' rpy' { c with limiter := lim' } capa (fun i j => RA (aux (c.mx + 1 - i) j))
        (fun i j => signed σ (q (c.mx + 1 - i) j))).1 i j =
      signed σ ((splitStep2 undef rpx rpy c capa aux q).1 (c.mx + 1 - i) j)) ∧
    (splitStep2 undef rpx' rpy' { c with limiter := lim' } capa (fun i j => RA (aux (c.mx + 1 - i) j))
        (fun i j => signed σ (q (c.mx + 1 - i) j))).2 = (splitStep2 undef rpx rpy c capa aux q).2 := by
  have hA := mirrorX_afterX2 hσ undef c lim' hx hlx hf capa hc aux q
  constructor
  · intro i j i1 i2 j1 j2
    rw [splitStep2_after undef rpx' rpy' { c with limiter := lim' } hg capa _ _ i j i1 i2 j1 j2,
      splitStep2_after undef rpx rpy c hg capa aux q (c.mx + 1 - i) j (by omega) (by omega) j1 j2]
    simp only [hA]
    exact turn_row (signed_rigid hσ) hy undef c.swap.row ({ c with limiter := lim' } : Cfg2 K w).swap.row rfl hly capa hc
      (fun j => aux (c.mx + 1 - i) j) (fun j => afterX2 undef rpx c capa aux q (c.mx + 1 - i) j) j
  · refine isMax_unique (splitStep2_isMax undef rpx' rpy' { c with limiter := lim' } hg capa _ _)
      (isMax_congr (fun v => or_congr ?_ ?_) (splitStep2_isMax undef rpx rpy c hg capa aux q))
    · have hn : ∀ i j : Int, _ := fun i j => mirror_number hx c.dt c.dx capa hc (c.mx + 1) (fun i => aux i j) (fun i => q i j) i v
      constructor
      · rintro ⟨i, j, hi, hj, h⟩
        refine ⟨c.mx + 1 + 1 - i, j, ⟨by omega, by dsimp only; omega⟩, hj, (hn _ j).mpr ?_⟩
        rwa [show (c.mx : Int) + 1 + 1 - (c.mx + 1 + 1 - i) = i by ring]
      · rintro ⟨i, j, hi, hj, h⟩
        dsimp only at hi
        exact ⟨c.mx + 1 + 1 - i, j, ⟨by omega, by omega⟩, hj, (hn i j).mp h⟩
    · have hn : ∀ i j : Int, _ := fun i j => turn_number hy c.dt c.dy capa hc (fun j => aux (c.mx + 1 - i) j)
        (fun j => afterX2 undef rpx c capa aux q (c.mx + 1 - i) j) j v
      simp only [hA]
      constructor
      · rintro ⟨i, j, hi, hj, h⟩
        refine ⟨c.mx + 1 - i, j, ⟨by omega, by omega⟩, hj, (hn _ j).mpr ?_⟩
        rwa [show (c.mx : Int) + 1 - (c.mx + 1 - i) = i by ring]
      · rintro ⟨i, j, hi, hj, h⟩
        exact ⟨c.mx + 1 - i, j, ⟨by omega, by omega⟩, hj, (hn i j).mp h⟩

/-- Down and up exchanged. -/
theorem mirrorY_split (hσ : IsSign σ) (undef : K) (c : Cfg2 K w) (lim' : Fin w → Int) (hg : 1 ≤ c.g)
    (hx : TurnedImage (signed σ) RA πx rpx rpx') (hy : MirrorImage σ RA πy c.fwave rpy rpy')
    (hlx : ∀ p, lim' (πx p) = c.limiter p) (hly : ∀ p, lim' (πy p) = c.limiter p)
    (hf : c.fwave = true → c.order ≠ 1 → ∀ ql qr al ar p, (rpy ql qr al ar).s p ≠ 0)
    (capa : Option (A → K)) (hc : ∀ κ, capa = some κ → ∀ z, κ (RA z) = κ z) (aux : Int → Int → A) (q : Int → Int → Fin m → K) :
    (∀ i j : Int, 1 ≤ i → i ≤ c.mx → 1 ≤ j → j ≤ c.my →
      (splitStep2 undef rpx' rpy' { c with limiter := lim' } capa (fun i j => RA (aux i (c.my + 1 - j)))
        (fun i j => signed σ (q i (c.my + 1 - j)))).1 i j =
      signed σ ((splitStep2 undef rpx rpy c capa aux q).1 i (c.my + 1 - j))) ∧
    (splitStep2 undef rpx' rpy' { c with limiter := lim' } capa (fun i j => RA (aux i (c.my + 1 - j)))
        (fun i j => signed σ (q i (c.my + 1 - j)))).2 = (splitStep2 undef rpx rpy c capa aux q).2 := by
  have hA := mirrorY_afterX2 hσ undef c lim' hx hlx capa hc aux q
  constructor
  · intro i j i1 i2 j1 j2
    rw [splitStep2_after undef rpx' rpy' { c with limiter := lim' } hg capa _ _ i j i1 i2 j1 j2,
      splitStep2_after undef rpx rpy c hg capa aux q i (c.my + 1 - j) i1 i2 (by omega) (by omega)]
    simp only [hA]
    exact mirror_row hσ undef c.swap.row ({ c with limiter := lim' } : Cfg2 K w).swap.row hy rfl hly hf capa hc
      (fun j => aux i j) (fun j => afterX2 undef rpx c capa aux q i j) (c.my + 1) j
  · refine isMax_unique (splitStep2_isMax undef rpx' rpy' { c with limiter := lim' } hg capa _ _)
      (isMax_congr (fun v => or_congr ?_ ?_) (splitStep2_isMax undef rpx rpy c hg capa aux q))
    · have hn : ∀ i j : Int, _ := fun i j => turn_number hx c.dt c.dx capa hc (fun i => aux i (c.my + 1 - j)) (fun i => q i (c.my + 1 - j)) i v
      constructor
      · rintro ⟨i, j, hi, hj, h⟩
        refine ⟨i, c.my + 1 - j, hi, ⟨by dsimp only; omega, by dsimp only; omega⟩, (hn i _).mpr ?_⟩
        rwa [show (c.my : Int) + 1 - (c.my + 1 - j) = j by ring]
      · rintro ⟨i, j, hi, hj, h⟩
        dsimp only at hj
        exact ⟨i, c.my + 1 - j, hi, ⟨by omega, by omega⟩, (hn i j).mp h⟩
    · have hn : ∀ i j : Int, _ := fun i j => mirror_number hy c.dt c.dy capa hc (c.my + 1) (fun j => aux i j)
        (fun j => afterX2 undef rpx c capa aux q i j) j v
      simp only [hA]
      constructor
      · rintro ⟨i, j, hi, hj, h⟩
        refine ⟨i, c.my + 1 + 1 - j, hi, ⟨by omega, by omega⟩, (hn i _).mpr ?_⟩
        rwa [show (c.my : Int) + 1 + 1 - (c.my + 1 + 1 - j) = j by ring]
      · rintro ⟨i, j, hi, hj, h⟩
        exact ⟨i, c.my + 1 + 1 - j, hi, ⟨by omega, by omega⟩, (hn i j).mp h⟩

/-- Results in the grid, and the Courant number, depend on the ghosted grid only. -/
theorem splitStep2_local (undef : K) (rpx rpy : Riemann K A m w) (c : Cfg2 K w) (hg : 2 ≤ c.g) (capa : Option (A → K))
    (aux aux' : Int → Int → A) (q q' : Int → Int → Fin m → K)
    (h : ∀ i j : Int, 1 - (c.g : Int) ≤ i → i ≤ c.mx + c.g → 1 - (c.g : Int) ≤ j → j ≤ c.my + c.g → aux' i j = aux i j ∧ q' i j = q i j) :
    (∀ i j : Int, 1 ≤ i → i ≤ c.mx → 1 ≤ j → j ≤ c.my →
      (splitStep2 undef rpx rpy c capa aux' q').1 i j = (splitStep2 undef rpx rpy c capa aux q).1 i j) ∧
    (splitStep2 undef rpx rpy c capa aux' q').2 = (splitStep2 undef rpx rpy c capa aux q).2 := by
  have hA : ∀ i j : Int, 1 - (c.g : Int) ≤ i → i ≤ c.mx + c.g → 1 - (c.g : Int) ≤ j → j ≤ c.my + c.g →
      afterX2 undef rpx c capa aux' q' i j = afterX2 undef rpx c capa aux q i j := by
    intro i j i1 i2 j1 j2
    unfold afterX2
    split
    · exact rowStep_local undef rpx c.row capa _ _ _ _ i (fun l a b => (h l j (by omega) (by omega) (by omega) (by omega)).1)
        (fun l a b => (h l j (by omega) (by omega) (by omega) (by omega)).2)
    · exact (h i j i1 i2 j1 j2).2
  constructor
  · intro i j i1 i2 j1 j2
    rw [splitStep2_after undef rpx rpy c (by omega) capa _ _ i j i1 i2 j1 j2,
      splitStep2_after undef rpx rpy c (by omega) capa _ _ i j i1 i2 j1 j2]
    exact rowStep_local undef rpy c.swap.row capa _ _ _ _ j (fun l a b => (h i l (by omega) (by omega) (by omega) (by omega)).1)
      (fun l a b => hA i l (by omega) (by omega) (by omega) (by omega))
  · refine isMax_unique (splitStep2_isMax undef rpx rpy c (by omega) capa aux' q')
      (isMax_congr (fun v => or_congr ?_ ?_) (splitStep2_isMax undef rpx rpy c (by omega) capa aux q))
    · refine exists_congr fun i => exists_congr fun j => and_congr_right fun hi => and_congr_right fun hj => ?_
      have h0 := h i j (by omega) (by omega) hj.1 hj.2
      have h1 := h (i - 1) j (by omega) (by omega) hj.1 hj.2
      exact (waveNumber_same rpx c.dt c.dx capa (fun i => aux i j) (fun i => aux' i j) (fun i => q i j) (fun i => q' i j) i v h0.1 h1.1 h0.2
        h1.2).symm
    · refine exists_congr fun i => exists_congr fun j => and_congr_right fun hi => and_congr_right fun hj => ?_
      have h0 := h i j hi.1 hi.2 (by omega) (by omega)
      have h1 := h i (j - 1) hi.1 hi.2 (by omega) (by omega)
      exact (waveNumber_same rpy c.dt c.dy capa (fun j => aux i j) (fun j => aux' i j) (fun j => afterX2 undef rpx c capa aux q i j)
        (fun j => afterX2 undef rpx c capa aux' q' i j) j v h0.1 h1.1 (hA i j hi.1 hi.2 (by omega) (by omega))
        (hA i (j - 1) hi.1 hi.2 (by omega) (by omega))).symm

end
end PyClaw
