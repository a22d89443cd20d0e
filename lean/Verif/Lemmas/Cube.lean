import Verif.Lemmas.Turn3

/-! One step of the unsplit three-dimensional method in mirrors and with the axes in another order. -/
set_option linter.unusedSectionVars false

namespace PyClaw
open Spec

variable {K : Type*} [Field K] [LinearOrder K] [IsStrictOrderedRing K] {A : Type*} {m w : Nat}

section
variable {rpx rpy rpz rpx' rpy' rpz' : Riemann K A m w} {rtx rty rtz rtx' rty' rtz' : Transverse3 K A m}
  {rttx rtty rttz rttx' rtty' rttz' : Transverse33 K A m} {RA : A → A} {πx πy πz : Equiv.Perm (Fin w)}

/-- The axes in the order `(y, z, x)`. -/
theorem rot_step3 (undef : K) (c : Cfg3 K w) (hg : 1 ≤ c.g) (capa : Option (A → K)) (stale : Int → Fin m → K) (aux : Int → Int → Int → A)
    (q : Int → Int → Int → Fin m → K) :
    (∀ i j k : Int, 1 ≤ i → i ≤ c.mx → 1 ≤ j → j ≤ c.my → 1 ≤ k → k ≤ c.mz →
      (unsplitStep3 undef rpy rpz rpx rty rtz rtx rtty rttz rttx c.rot capa stale (rot3 aux) (rot3 q)).1 j k i =
        (unsplitStep3 undef rpx rpy rpz rtx rty rtz rttx rtty rttz c capa stale aux q).1 i j k) ∧
    (unsplitStep3 undef rpy rpz rpx rty rtz rtx rtty rttz rttx c.rot capa stale (rot3 aux) (rot3 q)).2 =
      (unsplitStep3 undef rpx rpy rpz rtx rty rtz rttx rtty rttz c capa stale aux q).2 := by
  constructor
  · intro i j k i1 i2 j1 j2 k1 k2
    rw [unsplitStep3_cell undef rpy rpz rpx rty rtz rtx rtty rttz rttx c.rot hg capa stale (rot3 aux) (rot3 q) j k i j1 j2 k1 k2 i1 i2,
      unsplitStep3_cell undef rpx rpy rpz rtx rty rtz rttx rtty rttz c hg capa stale aux q i j k i1 i2 j1 j2 k1 k2]
    have e1 : xIncrement3 undef rpx rtx rttx c.rot.rot.rot capa stale (rot3 (rot3 (rot3 aux))) (rot3 (rot3 (rot3 q))) i j k =
        xIncrement3 undef rpx rtx rttx c capa stale aux q i j k := rfl
    have e2 : rot3 q j k i = q i j k := rfl
    rw [e1, e2]
    abel
  · refine isMax_unique (unsplitStep3_isMax undef c.rot capa stale (rot3 aux) (rot3 q))
      (isMax_congr (fun v => ?_) (unsplitStep3_isMax undef c capa stale aux q))
    exact or_assoc.trans or_comm

/-- The axes in the order `(x, z, y)`. -/
theorem exch_step3 (undef : K) (c : Cfg3 K w) (hg : 1 ≤ c.g) (capa : Option (A → K)) (stale : Int → Fin m → K) (aux : Int → Int → Int → A)
    (q : Int → Int → Int → Fin m → K) :
    (∀ i j k : Int, 1 ≤ i → i ≤ c.mx → 1 ≤ j → j ≤ c.my → 1 ≤ k → k ≤ c.mz →
      (unsplitStep3 undef rpx rpz rpy (exchanged rtx) (exchanged rtz) (exchanged rty) (exchanged₂ rttx) (exchanged₂ rttz) (exchanged₂ rtty)
        c.exch capa stale (fun i k j => aux i j k) (fun i k j => q i j k)).1 i k j =
        (unsplitStep3 undef rpx rpy rpz rtx rty rtz rttx rtty rttz c capa stale aux q).1 i j k) ∧
    (unsplitStep3 undef rpx rpz rpy (exchanged rtx) (exchanged rtz) (exchanged rty) (exchanged₂ rttx) (exchanged₂ rttz) (exchanged₂ rtty)
        c.exch capa stale (fun i k j => aux i j k) (fun i k j => q i j k)).2 =
      (unsplitStep3 undef rpx rpy rpz rtx rty rtz rttx rtty rttz c capa stale aux q).2 := by
  constructor
  · intro i j k i1 i2 j1 j2 k1 k2
    rw [unsplitStep3_cell undef _ _ _ _ _ _ _ _ _ c.exch hg capa stale _ _ i k j i1 i2 k1 k2 j1 j2,
      unsplitStep3_cell undef rpx rpy rpz rtx rty rtz rttx rtty rttz c hg capa stale aux q i j k i1 i2 j1 j2 k1 k2]
    have ex := exchange_increment3 undef rpx rtx rttx c capa stale aux q i j k
    have ey := exchange_increment3 undef rpy rty rtty c.rot capa stale (rot3 aux) (rot3 q) j k i
    have ez := exchange_increment3 undef rpz rtz rttz c.rot.rot capa stale (rot3 (rot3 aux)) (rot3 (rot3 q)) k i j
    rw [← ex, ← ey, ← ez]
    exact add_right_comm _ _ _
  · refine isMax_unique (unsplitStep3_isMax undef c.exch capa stale _ _)
      (isMax_congr (fun v => ?_) (unsplitStep3_isMax undef c capa stale aux q))
    refine Iff.trans (or_congr (or_congr ?_ ?_) ?_) (Iff.trans or_assoc (Iff.trans (or_congr_right or_comm) or_assoc.symm))
    · exact exists_congr fun i => ⟨fun ⟨j, k, a, b, c, d⟩ => ⟨k, j, a, c, b, d⟩, fun ⟨j, k, a, b, c, d⟩ => ⟨k, j, a, c, b, d⟩⟩
    · exact exists_congr fun i => ⟨fun ⟨j, k, a, b, c, d⟩ => ⟨k, j, a, c, b, d⟩, fun ⟨j, k, a, b, c, d⟩ => ⟨k, j, a, c, b, d⟩⟩
    · exact exists_congr fun i => ⟨fun ⟨j, k, a, b, c, d⟩ => ⟨k, j, a, c, b, d⟩, fun ⟨j, k, a, b, c, d⟩ => ⟨k, j, a, c, b, d⟩⟩

/-- Other components. -/
theorem turn_step3 {R : (Fin m → K) → Fin m → K} (hR : Rigid R) (undef : K) (c : Cfg3 K w) (lim' : Fin w → Int) (hg : 1 ≤ c.g)
    (hx : TurnedImage R RA πx rpx rpx') (hy : TurnedImage R RA πy rpy rpy') (hz : TurnedImage R RA πz rpz rpz')
    (htx : TurnedTransverse3 R RA rtx rtx' rttx rttx') (hty : TurnedTransverse3 R RA rty rty' rtty rtty')
    (htz : TurnedTransverse3 R RA rtz rtz' rttz rttz')
    (hlx : ∀ p, lim' (πx p) = c.limiter p) (hly : ∀ p, lim' (πy p) = c.limiter p) (hlz : ∀ p, lim' (πz p) = c.limiter p)
    (hst : c.order ≠ 1 ∨ c.trans / 10 ≠ 2) (capa : Option (A → K)) (hc : ∀ κ, capa = some κ → ∀ z, κ (RA z) = κ z)
    (stale stale' : Int → Fin m → K) (aux : Int → Int → Int → A) (q : Int → Int → Int → Fin m → K) :
    (∀ i j k : Int, 1 ≤ i → i ≤ c.mx → 1 ≤ j → j ≤ c.my → 1 ≤ k → k ≤ c.mz →
      (unsplitStep3 undef rpx' rpy' rpz' rtx' rty' rtz' rttx' rtty' rttz' { c with limiter := lim' } capa stale' (fun i j k => RA (aux i j k))
        (fun i j k => R (q i j k))).1 i j k =
        R ((unsplitStep3 undef rpx rpy rpz rtx rty rtz rttx rtty rttz c capa stale aux q).1 i j k)) ∧
    (unsplitStep3 undef rpx' rpy' rpz' rtx' rty' rtz' rttx' rtty' rttz' { c with limiter := lim' } capa stale' (fun i j k => RA (aux i j k))
        (fun i j k => R (q i j k))).2 =
      (unsplitStep3 undef rpx rpy rpz rtx rty rtz rttx rtty rttz c capa stale aux q).2 := by
  constructor
  · intro i j k i1 i2 j1 j2 k1 k2
    rw [unsplitStep3_cell undef rpx' rpy' rpz' rtx' rty' rtz' rttx' rtty' rttz' { c with limiter := lim' } hg capa stale' _ _ i j k i1 i2 j1 j2
      k1 k2, unsplitStep3_cell undef rpx rpy rpz rtx rty rtz rttx rtty rttz c hg capa stale aux q i j k i1 i2 j1 j2 k1 k2]
    have ex := turn_increment3 hR hx htx undef c { c with limiter := lim' } rfl hlx hst capa hc stale stale' aux q i j k
    have ey := turn_increment3 hR hy hty undef c.rot ({ c with limiter := lim' } : Cfg3 K w).rot rfl hly hst capa hc stale stale' (rot3 aux)
      (rot3 q) j k i
    have ez := turn_increment3 hR hz htz undef c.rot.rot ({ c with limiter := lim' } : Cfg3 K w).rot.rot rfl hlz hst capa hc stale stale'
      (rot3 (rot3 aux)) (rot3 (rot3 q)) k i j
    rw [hR.add, hR.add, hR.add, ← ex, ← ey, ← ez]
    rfl
  · refine isMax_unique (unsplitStep3_isMax undef { c with limiter := lim' } capa stale' _ _)
      (isMax_congr (fun v => or_congr (or_congr ?_ ?_) ?_) (unsplitStep3_isMax undef c capa stale aux q))
    · exact exists_congr fun i => exists_congr fun j => exists_congr fun k => and_congr_right fun _ => and_congr_right fun _ =>
        and_congr_right fun _ => (turn_number hx c.dt c.dx capa hc (fun i => aux i j k) (fun i => q i j k) i v).symm
    · exact exists_congr fun j => exists_congr fun k => exists_congr fun i => and_congr_right fun _ => and_congr_right fun _ =>
        and_congr_right fun _ => (turn_number hy c.dt c.dy capa hc (fun j => aux i j k) (fun j => q i j k) j v).symm
    · exact exists_congr fun k => exists_congr fun i => exists_congr fun j => and_congr_right fun _ => and_congr_right fun _ =>
        and_congr_right fun _ => (turn_number hz c.dt c.dz capa hc (fun k => aux i j k) (fun k => q i j k) k v).symm

/-- Left and right exchanged. -/
theorem mirror_step3 {σ : Fin m → K} (hσ : IsSign σ) (undef : K) (c : Cfg3 K w) (lim' : Fin w → Int) (hg : 1 ≤ c.g)
    (hx : MirrorImage σ RA πx c.fwave rpx rpx') (hy : TurnedImage (signed σ) RA πy rpy rpy') (hz : TurnedImage (signed σ) RA πz rpz rpz')
    (htx : MirrorTransverse3 σ RA rtx rtx' rttx rttx')
    (hty : SidewaysTransverse3 σ RA (exchanged rty) (exchanged rty') (exchanged₂ rtty) (exchanged₂ rtty'))
    (htz : SidewaysTransverse3 σ RA rtz rtz' rttz rttz')
    (hlx : ∀ p, lim' (πx p) = c.limiter p) (hly : ∀ p, lim' (πy p) = c.limiter p) (hlz : ∀ p, lim' (πz p) = c.limiter p)
    (hf : c.fwave = true → c.order ≠ 1 → ∀ ql qr al ar p, (rpx ql qr al ar).s p ≠ 0)
    (hst : c.order ≠ 1 ∨ c.trans / 10 ≠ 2) (capa : Option (A → K)) (hc : ∀ κ, capa = some κ → ∀ z, κ (RA z) = κ z)
    (stale stale' : Int → Fin m → K) (aux : Int → Int → Int → A) (q : Int → Int → Int → Fin m → K) :
    (∀ i j k : Int, 1 ≤ i → i ≤ c.mx → 1 ≤ j → j ≤ c.my → 1 ≤ k → k ≤ c.mz →
      (unsplitStep3 undef rpx' rpy' rpz' rtx' rty' rtz' rttx' rtty' rttz' { c with limiter := lim' } capa stale'
        (fun i j k => RA (aux (c.mx + 1 - i) j k)) (fun i j k => signed σ (q (c.mx + 1 - i) j k))).1 i j k =
        signed σ ((unsplitStep3 undef rpx rpy rpz rtx rty rtz rttx rtty rttz c capa stale aux q).1 (c.mx + 1 - i) j k)) ∧
    (unsplitStep3 undef rpx' rpy' rpz' rtx' rty' rtz' rttx' rtty' rttz' { c with limiter := lim' } capa stale'
        (fun i j k => RA (aux (c.mx + 1 - i) j k)) (fun i j k => signed σ (q (c.mx + 1 - i) j k))).2 =
      (unsplitStep3 undef rpx rpy rpz rtx rty rtz rttx rtty rttz c capa stale aux q).2 := by
  have hR := signed_rigid (K := K) hσ
  constructor
  · intro i j k i1 i2 j1 j2 k1 k2
    rw [unsplitStep3_cell undef rpx' rpy' rpz' rtx' rty' rtz' rttx' rtty' rttz' { c with limiter := lim' } hg capa stale' _ _ i j k i1 i2 j1 j2
      k1 k2, unsplitStep3_cell undef rpx rpy rpz rtx rty rtz rttx rtty rttz c hg capa stale aux q (c.mx + 1 - i) j k (by omega) (by omega) j1 j2
      k1 k2]
    have ex := mirror_increment3 hσ undef c { c with limiter := lim' } hx htx rfl hlx hf hst capa hc stale stale' aux q (c.mx + 1) i j k
    have ey := sideways_increment3' hσ hy hty undef c.rot ({ c with limiter := lim' } : Cfg3 K w).rot rfl hly hst capa hc stale stale' (rot3 aux)
      (rot3 q) (c.mx + 1) j k i
    have ez := sideways_increment3 hσ hz htz undef c.rot.rot ({ c with limiter := lim' } : Cfg3 K w).rot.rot rfl hlz hst capa hc stale stale'
      (rot3 (rot3 aux)) (rot3 (rot3 q)) (c.mx + 1) k i j
    rw [hR.add, hR.add, hR.add, ← ex, ← ey, ← ez]
    rfl
  · refine isMax_unique (unsplitStep3_isMax undef { c with limiter := lim' } capa stale' _ _)
      (isMax_congr (fun v => or_congr (or_congr ?_ ?_) ?_) (unsplitStep3_isMax undef c capa stale aux q))
    · have hn : ∀ i j k : Int, _ := fun i j k =>
        mirror_number hx c.dt c.dx capa hc (c.mx + 1) (fun i => aux i j k) (fun i => q i j k) i v
      constructor
      · rintro ⟨i, j, k, hi, hj, hk, h⟩
        refine ⟨c.mx + 1 + 1 - i, j, k, ⟨by omega, by dsimp only; omega⟩, hj, hk, (hn _ j k).mpr ?_⟩
        rwa [show (c.mx : Int) + 1 + 1 - (c.mx + 1 + 1 - i) = i by ring]
      · rintro ⟨i, j, k, hi, hj, hk, h⟩
        dsimp only at hi
        exact ⟨c.mx + 1 + 1 - i, j, k, ⟨by omega, by omega⟩, hj, hk, (hn i j k).mp h⟩
    · have hn : ∀ i j k : Int, _ := fun i j k =>
        turn_number hy c.dt c.dy capa hc (fun j => aux (c.mx + 1 - i) j k) (fun j => q (c.mx + 1 - i) j k) j v
      constructor
      · rintro ⟨j, k, i, hj, hk, hi, h⟩
        refine ⟨j, k, c.mx + 1 - i, hj, hk, ⟨by omega, by dsimp only; omega⟩, (hn _ j k).mpr ?_⟩
        rwa [show (c.mx : Int) + 1 - (c.mx + 1 - i) = i by ring]
      · rintro ⟨j, k, i, hj, hk, hi, h⟩
        dsimp only at hi
        exact ⟨j, k, c.mx + 1 - i, hj, hk, ⟨by omega, by omega⟩, (hn i j k).mp h⟩
    · have hn : ∀ i j k : Int, _ := fun i j k =>
        turn_number hz c.dt c.dz capa hc (fun k => aux (c.mx + 1 - i) j k) (fun k => q (c.mx + 1 - i) j k) k v
      constructor
      · rintro ⟨k, i, j, hk, hi, hj, h⟩
        refine ⟨k, c.mx + 1 - i, j, hk, ⟨by omega, by dsimp only; omega⟩, hj, (hn _ j k).mpr ?_⟩
        rwa [show (c.mx : Int) + 1 - (c.mx + 1 - i) = i by ring]
      · rintro ⟨k, i, j, hk, hi, hj, h⟩
        dsimp only at hi
        exact ⟨k, c.mx + 1 - i, j, hk, ⟨by omega, by omega⟩, hj, (hn i j k).mp h⟩

/-- Front and back exchanged. -/
theorem mirror_step3_y {σ : Fin m → K} (hσ : IsSign σ) (undef : K) (c : Cfg3 K w) (lim' : Fin w → Int) (hg : 1 ≤ c.g)
    (hx : TurnedImage (signed σ) RA πx rpx rpx') (hy : MirrorImage σ RA πy c.fwave rpy rpy') (hz : TurnedImage (signed σ) RA πz rpz rpz')
    (htx : SidewaysTransverse3 σ RA rtx rtx' rttx rttx') (hty : MirrorTransverse3 σ RA rty rty' rtty rtty')
    (htz : SidewaysTransverse3 σ RA (exchanged rtz) (exchanged rtz') (exchanged₂ rttz) (exchanged₂ rttz'))
    (hlx : ∀ p, lim' (πx p) = c.limiter p) (hly : ∀ p, lim' (πy p) = c.limiter p) (hlz : ∀ p, lim' (πz p) = c.limiter p)
    (hf : c.fwave = true → c.order ≠ 1 → ∀ ql qr al ar p, (rpy ql qr al ar).s p ≠ 0)
    (hst : c.order ≠ 1 ∨ c.trans / 10 ≠ 2) (capa : Option (A → K)) (hc : ∀ κ, capa = some κ → ∀ z, κ (RA z) = κ z)
    (stale stale' : Int → Fin m → K) (aux : Int → Int → Int → A) (q : Int → Int → Int → Fin m → K) :
    (∀ i j k : Int, 1 ≤ i → i ≤ c.mx → 1 ≤ j → j ≤ c.my → 1 ≤ k → k ≤ c.mz →
      (unsplitStep3 undef rpx' rpy' rpz' rtx' rty' rtz' rttx' rtty' rttz' { c with limiter := lim' } capa stale'
        (fun i j k => RA (aux i (c.my + 1 - j) k)) (fun i j k => signed σ (q i (c.my + 1 - j) k))).1 i j k =
        signed σ ((unsplitStep3 undef rpx rpy rpz rtx rty rtz rttx rtty rttz c capa stale aux q).1 i (c.my + 1 - j) k)) ∧
    (unsplitStep3 undef rpx' rpy' rpz' rtx' rty' rtz' rttx' rtty' rttz' { c with limiter := lim' } capa stale'
        (fun i j k => RA (aux i (c.my + 1 - j) k)) (fun i j k => signed σ (q i (c.my + 1 - j) k))).2 =
      (unsplitStep3 undef rpx rpy rpz rtx rty rtz rttx rtty rttz c capa stale aux q).2 := by
  have key := mirror_step3 hσ undef c.rot lim' hg hy hz hx hty htz htx hly hlz hlx hf hst capa hc stale stale' (rot3 aux) (rot3 q)
  have r := rot_step3 (rpx := rpx) (rpy := rpy) (rpz := rpz) (rtx := rtx) (rty := rty) (rtz := rtz) (rttx := rttx) (rtty := rtty)
    (rttz := rttz) undef c hg capa stale aux q
  have r' := rot_step3 (rpx := rpx') (rpy := rpy') (rpz := rpz') (rtx := rtx') (rty := rty') (rtz := rtz') (rttx := rttx') (rtty := rtty')
    (rttz := rttz') undef { c with limiter := lim' } hg capa stale' (fun i j k => RA (aux i (c.my + 1 - j) k))
    (fun i j k => signed σ (q i (c.my + 1 - j) k))
  refine ⟨fun i j k i1 i2 j1 j2 k1 k2 => ?_, ?_⟩
  · rw [← r.1 i (c.my + 1 - j) k i1 i2 (by omega) (by omega) k1 k2, ← r'.1 i j k i1 i2 j1 j2 k1 k2]
    exact key.1 j k i j1 j2 k1 k2 i1 i2
  · rw [← r.2, ← r'.2]
    exact key.2

/-- Bottom and top exchanged. -/
theorem mirror_step3_z {σ : Fin m → K} (hσ : IsSign σ) (undef : K) (c : Cfg3 K w) (lim' : Fin w → Int) (hg : 1 ≤ c.g)
    (hx : TurnedImage (signed σ) RA πx rpx rpx') (hy : TurnedImage (signed σ) RA πy rpy rpy') (hz : MirrorImage σ RA πz c.fwave rpz rpz')
    (htx : SidewaysTransverse3 σ RA (exchanged rtx) (exchanged rtx') (exchanged₂ rttx) (exchanged₂ rttx'))
    (hty : SidewaysTransverse3 σ RA rty rty' rtty rtty') (htz : MirrorTransverse3 σ RA rtz rtz' rttz rttz')
    (hlx : ∀ p, lim' (πx p) = c.limiter p) (hly : ∀ p, lim' (πy p) = c.limiter p) (hlz : ∀ p, lim' (πz p) = c.limiter p)
    (hf : c.fwave = true → c.order ≠ 1 → ∀ ql qr al ar p, (rpz ql qr al ar).s p ≠ 0)
    (hst : c.order ≠ 1 ∨ c.trans / 10 ≠ 2) (capa : Option (A → K)) (hc : ∀ κ, capa = some κ → ∀ z, κ (RA z) = κ z)
    (stale stale' : Int → Fin m → K) (aux : Int → Int → Int → A) (q : Int → Int → Int → Fin m → K) :
    (∀ i j k : Int, 1 ≤ i → i ≤ c.mx → 1 ≤ j → j ≤ c.my → 1 ≤ k → k ≤ c.mz →
      (unsplitStep3 undef rpx' rpy' rpz' rtx' rty' rtz' rttx' rtty' rttz' { c with limiter := lim' } capa stale'
        (fun i j k => RA (aux i j (c.mz + 1 - k))) (fun i j k => signed σ (q i j (c.mz + 1 - k)))).1 i j k =
        signed σ ((unsplitStep3 undef rpx rpy rpz rtx rty rtz rttx rtty rttz c capa stale aux q).1 i j (c.mz + 1 - k))) ∧
    (unsplitStep3 undef rpx' rpy' rpz' rtx' rty' rtz' rttx' rtty' rttz' { c with limiter := lim' } capa stale'
        (fun i j k => RA (aux i j (c.mz + 1 - k))) (fun i j k => signed σ (q i j (c.mz + 1 - k)))).2 =
      (unsplitStep3 undef rpx rpy rpz rtx rty rtz rttx rtty rttz c capa stale aux q).2 := by
  have key := mirror_step3_y hσ undef c.rot lim' hg hy hz hx hty htz htx hly hlz hlx hf hst capa hc stale stale' (rot3 aux) (rot3 q)
  have r := rot_step3 (rpx := rpx) (rpy := rpy) (rpz := rpz) (rtx := rtx) (rty := rty) (rtz := rtz) (rttx := rttx) (rtty := rtty)
    (rttz := rttz) undef c hg capa stale aux q
  have r' := rot_step3 (rpx := rpx') (rpy := rpy') (rpz := rpz') (rtx := rtx') (rty := rty') (rtz := rtz') (rttx := rttx') (rtty := rtty')
    (rttz := rttz') undef { c with limiter := lim' } hg capa stale' (fun i j k => RA (aux i j (c.mz + 1 - k)))
    (fun i j k => signed σ (q i j (c.mz + 1 - k)))
  refine ⟨fun i j k i1 i2 j1 j2 k1 k2 => ?_, ?_⟩
  · rw [← r.1 i j (c.mz + 1 - k) i1 i2 j1 j2 (by omega) (by omega), ← r'.1 i j k i1 i2 j1 j2 k1 k2]
    exact key.1 j k i j1 j2 k1 k2 i1 i2
  · rw [← r.2, ← r'.2]
    exact key.2

end

end PyClaw
