import Verif.Lemmas.Cube

/-! One step of dimensional splitting in three dimensions in mirrors. -/
set_option linter.unusedSectionVars false

namespace PyClaw
open Spec

variable {K : Type*} [Field K] [LinearOrder K] [IsStrictOrderedRing K] {A : Type*} {m w : Nat}

section
variable {σ : Fin m → K} {RA : A → A} {π πx πy πz : Equiv.Perm (Fin w)} {rp rp' rpx rpx' rpy rpy' rpz rpz' : Riemann K A m w}

/-- The sweeps along an axis, the ends of this axis exchanged. -/
theorem sweep3_across (hσ : IsSign σ) (same : Bool) (undef : K) (c : Cfg3 K w) (lim' : Fin w → Int) (hg : 1 ≤ c.g)
    (hx : MirrorImage σ RA π c.fwave rp rp') (hl : ∀ p, lim' (π p) = c.limiter p)
    (hf : c.fwave = true → c.order ≠ 1 → ∀ ql qr al ar p, (rp ql qr al ar).s p ≠ 0)
    (capa : Option (A → K)) (hc : ∀ κ, capa = some κ → ∀ z, κ (RA z) = κ z) (aux : Int → Int → Int → A) (q : Int → Int → Int → Fin m → K) :
    step3dsX same undef rp' { c with limiter := lim' } capa (fun i j k => RA (aux (c.mx + 1 - i) j k))
      (fun i j k => signed σ (q (c.mx + 1 - i) j k)) (fun i j k => signed σ (q (c.mx + 1 - i) j k)) =
    (fun i j k => signed σ ((step3dsX same undef rp c capa aux q q).1 (c.mx + 1 - i) j k), (step3dsX same undef rp c capa aux q q).2) := by
  refine Prod.ext (funext fun i => funext fun j => funext fun k => ?_) ?_
  · rw [step3dsX_eq same undef rp' { c with limiter := lim' } hg]
    dsimp only
    rw [step3dsX_eq same undef rp c hg]
    by_cases h : ((0 ≤ j ∧ j ≤ c.my + 1) ∧ 0 ≤ k ∧ k ≤ c.mz + 1) ∧ 1 ≤ i ∧ i ≤ c.mx
    · rw [if_pos h, if_pos (by omega)]
      exact mirror_row hσ undef c.row ({ c with limiter := lim' } : Cfg3 K w).row hx rfl hl hf capa hc (fun i => aux i j k) (fun i => q i j k)
        (c.mx + 1) i
    · rw [if_neg h, if_neg (by omega)]
  · refine isMax_unique (step3dsX_isMax same undef rp' { c with limiter := lim' } hg capa _ _)
      (isMax_congr (fun v => ?_) (step3dsX_isMax same undef rp c hg capa aux q))
    have hn : ∀ i j k : Int, _ := fun i j k => mirror_number hx c.dt c.dx capa hc (c.mx + 1) (fun i => aux i j k) (fun i => q i j k) i v
    constructor
    · rintro ⟨i, j, k, hi, hj, hk, h⟩
      refine ⟨c.mx + 1 + 1 - i, j, k, ⟨by omega, by dsimp only; omega⟩, hj, hk, (hn _ j k).mpr ?_⟩
      rwa [show (c.mx : Int) + 1 + 1 - (c.mx + 1 + 1 - i) = i by ring]
    · rintro ⟨i, j, k, hi, hj, hk, h⟩
      dsimp only at hi
      exact ⟨c.mx + 1 + 1 - i, j, k, ⟨by omega, by omega⟩, hj, hk, (hn i j k).mp h⟩

/-- The sweeps along an axis, the rows in another order: `f` and `g` reverse the other two axes or leave them. -/
theorem sweep3_along (hσ : IsSign σ) (same : Bool) (undef : K) (c : Cfg3 K w) (lim' : Fin w → Int) (hg : 1 ≤ c.g)
    (hx : TurnedImage (signed σ) RA π rp rp') (hl : ∀ p, lim' (π p) = c.limiter p)
    (capa : Option (A → K)) (hc : ∀ κ, capa = some κ → ∀ z, κ (RA z) = κ z) (aux : Int → Int → Int → A) (q : Int → Int → Int → Fin m → K)
    (f g : Int → Int) (ff : ∀ j, f (f j) = j) (gg : ∀ k, g (g k) = k) (hf : ∀ j, (0 ≤ f j ∧ f j ≤ c.my + 1) ↔ (0 ≤ j ∧ j ≤ c.my + 1))
    (hgk : ∀ k, (0 ≤ g k ∧ g k ≤ c.mz + 1) ↔ (0 ≤ k ∧ k ≤ c.mz + 1)) :
    step3dsX same undef rp' { c with limiter := lim' } capa (fun i j k => RA (aux i (f j) (g k)))
      (fun i j k => signed σ (q i (f j) (g k))) (fun i j k => signed σ (q i (f j) (g k))) =
    (fun i j k => signed σ ((step3dsX same undef rp c capa aux q q).1 i (f j) (g k)), (step3dsX same undef rp c capa aux q q).2) := by
  refine Prod.ext (funext fun i => funext fun j => funext fun k => ?_) ?_
  · rw [step3dsX_eq same undef rp' { c with limiter := lim' } hg]
    dsimp only
    rw [step3dsX_eq same undef rp c hg]
    simp only [hf, hgk]
    split
    · exact turn_row (signed_rigid hσ) hx undef c.row ({ c with limiter := lim' } : Cfg3 K w).row rfl hl capa hc
        (fun i => aux i (f j) (g k)) (fun i => q i (f j) (g k)) i
    · rfl
  · refine isMax_unique (step3dsX_isMax same undef rp' { c with limiter := lim' } hg capa _ _)
      (isMax_congr (fun v => ?_) (step3dsX_isMax same undef rp c hg capa aux q))
    have hn : ∀ i j k : Int, _ := fun i j k => turn_number hx c.dt c.dx capa hc (fun i => aux i (f j) (g k)) (fun i => q i (f j) (g k)) i v
    constructor
    · rintro ⟨i, j, k, hi, hj, hk, h⟩
      refine ⟨i, f j, g k, hi, (hf j).mpr hj, (hgk k).mpr hk, (hn i (f j) (g k)).mpr ?_⟩
      simp only [ff, gg]
      exact h
    · rintro ⟨i, j, k, hi, hj, hk, h⟩
      exact ⟨i, f j, g k, hi, (hf j).mpr hj, (hgk k).mpr hk, (hn i j k).mp h⟩

theorem split3_compose (undef : K) (c c' : Cfg3 K w) (capa : Option (A → K)) (aux aux' : Int → Int → Int → A) (q q' : Int → Int → Int → Fin m → K)
    (G : (Int → Int → Int → Fin m → K) → Int → Int → Int → Fin m → K)
    (h1 : step3dsX false undef rpx' c' capa aux' q' q' = (G (step3dsX false undef rpx c capa aux q q).1, (step3dsX false undef rpx c capa aux q q).2))
    (h2 : ∀ X, step3dsX true undef rpy' c'.rot capa (rot3 aux') (rot3 (G X)) (rot3 (G X)) =
      (rot3 (G (unrot3 (step3dsX true undef rpy c.rot capa (rot3 aux) (rot3 X) (rot3 X)).1)),
        (step3dsX true undef rpy c.rot capa (rot3 aux) (rot3 X) (rot3 X)).2))
    (h3 : ∀ X, step3dsX true undef rpz' c'.rot.rot capa (rot3 (rot3 aux')) (rot3 (rot3 (G X))) (rot3 (rot3 (G X))) =
      (rot3 (rot3 (G (unrot3 (unrot3 (step3dsX true undef rpz c.rot.rot capa (rot3 (rot3 aux)) (rot3 (rot3 X)) (rot3 (rot3 X))).1)))),
        (step3dsX true undef rpz c.rot.rot capa (rot3 (rot3 aux)) (rot3 (rot3 X)) (rot3 (rot3 X))).2)) :
    splitStep3 undef rpx' rpy' rpz' c' capa aux' q' = (G (splitStep3 undef rpx rpy rpz c capa aux q).1, (splitStep3 undef rpx rpy rpz c capa aux q).2) := by
  simp only [splitStep3]
  rw [h1]
  dsimp only
  rw [h2]
  dsimp only
  rw [h3]
  rfl

variable (hσ : IsSign σ) (undef : K) (c : Cfg3 K w) (lim' : Fin w → Int) (hg : 1 ≤ c.g)
  (hlx : ∀ p, lim' (πx p) = c.limiter p) (hly : ∀ p, lim' (πy p) = c.limiter p) (hlz : ∀ p, lim' (πz p) = c.limiter p)
  (capa : Option (A → K)) (hc : ∀ κ, capa = some κ → ∀ z, κ (RA z) = κ z) (aux : Int → Int → Int → A) (q : Int → Int → Int → Fin m → K)

include hσ hg hlx hly hlz hc

/-- The mirror across `x`. -/
theorem mirror_split3 (hx : MirrorImage σ RA πx c.fwave rpx rpx') (hy : TurnedImage (signed σ) RA πy rpy rpy')
    (hz : TurnedImage (signed σ) RA πz rpz rpz') (hf : c.fwave = true → c.order ≠ 1 → ∀ ql qr al ar p, (rpx ql qr al ar).s p ≠ 0) :
    splitStep3 undef rpx' rpy' rpz' { c with limiter := lim' } capa (fun i j k => RA (aux (c.mx + 1 - i) j k))
      (fun i j k => signed σ (q (c.mx + 1 - i) j k)) =
    (fun i j k => signed σ ((splitStep3 undef rpx rpy rpz c capa aux q).1 (c.mx + 1 - i) j k), (splitStep3 undef rpx rpy rpz c capa aux q).2) :=
  split3_compose undef c _ capa aux _ q _ (fun X i j k => signed σ (X (c.mx + 1 - i) j k))
    (sweep3_across hσ false undef c lim' hg hx hlx hf capa hc aux q)
    (fun X => sweep3_along hσ true undef c.rot lim' hg hy hly capa hc (rot3 aux) (rot3 X) id
      (fun i => c.mx + 1 - i) (fun _ => rfl) (fun _ => by ring) (fun _ => Iff.rfl) (fun i => by simp only [Cfg3.rot]; omega))
    (fun X => sweep3_along hσ true undef c.rot.rot lim' hg hz hlz capa hc (rot3 (rot3 aux)) (rot3 (rot3 X))
      (fun i => c.mx + 1 - i) id (fun _ => by ring) (fun _ => rfl) (fun i => by simp only [Cfg3.rot]; omega) (fun _ => Iff.rfl))

/-- The mirror across `y`. -/
theorem mirror_split3_y (hx : TurnedImage (signed σ) RA πx rpx rpx') (hy : MirrorImage σ RA πy c.fwave rpy rpy')
    (hz : TurnedImage (signed σ) RA πz rpz rpz') (hf : c.fwave = true → c.order ≠ 1 → ∀ ql qr al ar p, (rpy ql qr al ar).s p ≠ 0) :
    splitStep3 undef rpx' rpy' rpz' { c with limiter := lim' } capa (fun i j k => RA (aux i (c.my + 1 - j) k))
      (fun i j k => signed σ (q i (c.my + 1 - j) k)) =
    (fun i j k => signed σ ((splitStep3 undef rpx rpy rpz c capa aux q).1 i (c.my + 1 - j) k), (splitStep3 undef rpx rpy rpz c capa aux q).2) :=
  split3_compose undef c _ capa aux _ q _ (fun X i j k => signed σ (X i (c.my + 1 - j) k))
    (sweep3_along hσ false undef c lim' hg hx hlx capa hc aux q (fun j => c.my + 1 - j) id
      (fun _ => by ring) (fun _ => rfl) (fun j => by omega) (fun _ => Iff.rfl))
    (fun X => sweep3_across hσ true undef c.rot lim' hg hy hly hf capa hc (rot3 aux) (rot3 X))
    (fun X => sweep3_along hσ true undef c.rot.rot lim' hg hz hlz capa hc (rot3 (rot3 aux)) (rot3 (rot3 X)) id
      (fun j => c.my + 1 - j) (fun _ => rfl) (fun _ => by ring) (fun _ => Iff.rfl) (fun j => by simp only [Cfg3.rot]; omega))

/-- The mirror across `z`. -/
theorem mirror_split3_z (hx : TurnedImage (signed σ) RA πx rpx rpx') (hy : TurnedImage (signed σ) RA πy rpy rpy')
    (hz : MirrorImage σ RA πz c.fwave rpz rpz') (hf : c.fwave = true → c.order ≠ 1 → ∀ ql qr al ar p, (rpz ql qr al ar).s p ≠ 0) :
    splitStep3 undef rpx' rpy' rpz' { c with limiter := lim' } capa (fun i j k => RA (aux i j (c.mz + 1 - k)))
      (fun i j k => signed σ (q i j (c.mz + 1 - k))) =
    (fun i j k => signed σ ((splitStep3 undef rpx rpy rpz c capa aux q).1 i j (c.mz + 1 - k)), (splitStep3 undef rpx rpy rpz c capa aux q).2) :=
  split3_compose undef c _ capa aux _ q _ (fun X i j k => signed σ (X i j (c.mz + 1 - k)))
    (sweep3_along hσ false undef c lim' hg hx hlx capa hc aux q id (fun k => c.mz + 1 - k)
      (fun _ => rfl) (fun _ => by ring) (fun _ => Iff.rfl) (fun k => by omega))
    (fun X => sweep3_along hσ true undef c.rot lim' hg hy hly capa hc (rot3 aux) (rot3 X) (fun k => c.mz + 1 - k) id
      (fun _ => by ring) (fun _ => rfl) (fun k => by simp only [Cfg3.rot]; omega) (fun _ => Iff.rfl))
    (fun X => sweep3_across hσ true undef c.rot.rot lim' hg hz hlz hf capa hc (rot3 (rot3 aux)) (rot3 (rot3 X)))

end
end PyClaw
