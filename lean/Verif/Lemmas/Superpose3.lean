import Verif.Lemmas.Superpose
import Verif.Props.ParallelKernels

/-! One step of the methods in three dimensions on a combination of two solutions. -/
set_option linter.unusedSectionVars false

namespace PyClaw
open Spec

variable {K : Type*} [Field K] [LinearOrder K] [IsStrictOrderedRing K] {A : Type*} {m w naux : Nat} {α β : K}

theorem side_lin (u : Bool) (p p' : (Fin m → K) × (Fin m → K)) : side u (α • p + β • p') = α • side u p + β • side u p' := by
  cases u <;> rfl

/-- The parts of the transverse terms of a combination. -/
theorem part_lin (T₁ T₂ T : Trans3 K m) (icoor : Nat) (dtw : K) (imp : Nat) (u : Bool) (s : Int) (lam : K) (i : Int)
    (h3₁ : T₁.m3 = T.m3) (h3₂ : T₂.m3 = T.m3) (h4₁ : T₁.m4 = T.m4) (h4₂ : T₂.m4 = T.m4)
    (ha₁ : T₁.hasAux = T.hasAux) (ha₂ : T₂.hasAux = T.hasAux)
    (hs : T.asdq imp i = α • T₁.asdq imp i + β • T₂.asdq imp i)
    (hc : T.m3 = 2 → T.cqxx i = α • T₁.cqxx i + β • T₂.cqxx i)
    (ht : ∀ a b x y, T.t a b i (α • x + β • y) = α • T₁.t a b i x + β • T₂.t a b i y)
    (htt : ∀ a b e x y, T.tt a b e i (α • x + β • y) = α • T₁.tt a b e i x + β • T₂.tt a b e i y) :
    T.part icoor dtw imp u s lam i = α • T₁.part icoor dtw imp u s lam i + β • T₂.part icoor dtw imp u s lam i := by
  have e1 : ∀ ic, T.inc ic imp i = α • T₁.inc ic imp i + β • T₂.inc ic imp i := fun ic => by
    unfold Trans3.inc; rw [hs, ht]
  have e2 : ∀ ic im, T.cor ic im i = α • T₁.cor ic im i + β • T₂.cor ic im i := fun ic im => by
    unfold Trans3.cor
    rw [h3₁, h3₂, ha₁, ha₂]
    by_cases h : T.m3 = 2
    · simp only [if_pos h]
      rw [hc h, ht]
    · simp only [if_neg h]
      simp
  have e3 : ∀ ic, T.second ic imp i = α • T₁.second ic imp i + β • T₂.second ic imp i := fun ic => by
    unfold Trans3.second
    rw [h4₁, h4₂, e1, e2]
    split
    · split <;> module
    · rfl
  have e4 : ∀ ic it, T.double ic imp it i = α • T₁.double ic imp it i + β • T₂.double ic imp it i := fun ic it => by
    unfold Trans3.double; rw [e3, side_lin, htt]
  unfold Trans3.part
  dsimp only
  rw [h3₁, h3₂, h4₁, h4₂, e1, e2, e2, e4, e4]
  simp only [side_lin]
  split
  · split <;> split <;> (try split) <;> module
  · split
    · split <;> module
    · split
      · split <;> module
      · simp

section row
variable {rp : Riemann K A m w} {rt : Transverse3 K A m} {rtt : Transverse33 K A m}

theorem lin_sent3 (h : LinearRiemann α β rp) (hT : LinearSplitting3 α β rt rtt) (undef : K) (c : Cfg3 K w) (hu : Unlimited c.order c.limiter)
    (hst : c.order ≠ 1 ∨ c.trans / 10 ≠ 2) (capa : Option (A → K)) (stale : Int → Fin m → K) (aux : Int → Int → Int → A)
    (q₁ q₂ : Int → Int → Int → Fin m → K) (icoor : Nat) (dtw : K) (u : Bool) (s i j k : Int) :
    sent3 undef rp rt rtt c capa stale aux (fun i j k => α • q₁ i j k + β • q₂ i j k) icoor dtw u s i j k =
      α • sent3 undef rp rt rtt c capa stale aux q₁ icoor dtw u s i j k +
      β • sent3 undef rp rt rtt c capa stale aux q₂ icoor dtw u s i j k := by
  have key : ∀ (imp : Nat) (lam : K) (i : Int),
      (rowTrans3 undef rp rt rtt c capa stale aux (fun i j k => α • q₁ i j k + β • q₂ i j k) j k).part icoor dtw imp u s lam i =
      α • (rowTrans3 undef rp rt rtt c capa stale aux q₁ j k).part icoor dtw imp u s lam i +
      β • (rowTrans3 undef rp rt rtt c capa stale aux q₂ j k).part icoor dtw imp u s lam i := by
    intro imp lam i
    refine part_lin _ _ _ icoor dtw imp u s lam i rfl rfl rfl rfl rfl rfl ?_ (fun h3 => ?_) (fun a b x y => ?_) (fun a b e x y => ?_)
    · unfold rowTrans3
      dsimp only
      split
      · exact h.amdq _ _ _ _ _ _
      · exact h.apdq _ _ _ _ _ _
    · have ho : c.order ≠ 1 := hst.resolve_right fun hne => splitMethod3_ne hne h3
      unfold rowTrans3
      simp only [if_neg ho]
      exact lin_slice h undef c.order c.fwave c.limiter hu _ (fun i => aux i j k) (fun i => q₁ i j k) (fun i => q₂ i j k) i
    · exact hT.1 _ _ _ _ _ _ _ _ _ _ _ _
    · exact hT.2 _ _ _ _ _ _ _ _ _ _ _ _ _
  unfold sent3
  dsimp only
  rw [key, key]
  show (if (splitMethod3 c.trans).1 ≤ 0 then (0 : Fin m → K) else _) = α • (if (splitMethod3 c.trans).1 ≤ 0 then (0 : Fin m → K) else _) +
    β • (if (splitMethod3 c.trans).1 ≤ 0 then (0 : Fin m → K) else _)
  split
  · simp
  · module

theorem lin_increment3 (h : LinearRiemann α β rp) (hT : LinearSplitting3 α β rt rtt) (undef : K) (c : Cfg3 K w)
    (hu : Unlimited c.order c.limiter) (hst : c.order ≠ 1 ∨ c.trans / 10 ≠ 2) (capa : Option (A → K))
    (stale : Int → Fin m → K) (aux : Int → Int → Int → A) (q₁ q₂ : Int → Int → Int → Fin m → K) (i j k : Int) :
    xIncrement3 undef rp rt rtt c capa stale aux (fun i j k => α • q₁ i j k + β • q₂ i j k) i j k =
      α • xIncrement3 undef rp rt rtt c capa stale aux q₁ i j k + β • xIncrement3 undef rp rt rtt c capa stale aux q₂ i j k := by
  have hrow := lin_row h undef c.row hu capa (fun i => aux i j k) (fun i => q₁ i j k) (fun i => q₂ i j k) i
  have hs := lin_sent3 h hT undef c hu hst capa stale aux q₁ q₂
  unfold xIncrement3 flux2of3 flux3of3
  simp only [hs, hrow]
  generalize sent3 undef rp rt rtt c capa stale aux q₁ = a
  generalize sent3 undef rp rt rtt c capa stale aux q₂ = b
  module

end row

section space
variable {rpx rpy rpz : Riemann K A m w} {rtx rty rtz : Transverse3 K A m} {rttx rtty rttz : Transverse33 K A m}

theorem lin_unsplit3 (hx : LinearRiemann α β rpx) (hy : LinearRiemann α β rpy) (hz : LinearRiemann α β rpz)
    (htx : LinearSplitting3 α β rtx rttx) (hty : LinearSplitting3 α β rty rtty) (htz : LinearSplitting3 α β rtz rttz)
    (undef : K) (c : Cfg3 K w) (hg : 1 ≤ c.g) (hu : Unlimited c.order c.limiter)
    (hst : c.order ≠ 1 ∨ c.trans / 10 ≠ 2) (capa : Option (A → K)) (stale : Int → Fin m → K) (aux : Int → Int → Int → A)
    (q₁ q₂ : Int → Int → Int → Fin m → K) (i j k : Int) (i1 : 1 ≤ i) (i2 : i ≤ c.mx) (j1 : 1 ≤ j) (j2 : j ≤ c.my) (k1 : 1 ≤ k) (k2 : k ≤ c.mz) :
    (unsplitStep3 undef rpx rpy rpz rtx rty rtz rttx rtty rttz c capa stale aux fun i j k => α • q₁ i j k + β • q₂ i j k).1 i j k =
      α • (unsplitStep3 undef rpx rpy rpz rtx rty rtz rttx rtty rttz c capa stale aux q₁).1 i j k +
      β • (unsplitStep3 undef rpx rpy rpz rtx rty rtz rttx rtty rttz c capa stale aux q₂).1 i j k := by
  rw [unsplitStep3_cell undef rpx rpy rpz rtx rty rtz rttx rtty rttz c hg capa stale aux _ i j k i1 i2 j1 j2 k1 k2,
    unsplitStep3_cell undef rpx rpy rpz rtx rty rtz rttx rtty rttz c hg capa stale aux q₁ i j k i1 i2 j1 j2 k1 k2,
    unsplitStep3_cell undef rpx rpy rpz rtx rty rtz rttx rtty rttz c hg capa stale aux q₂ i j k i1 i2 j1 j2 k1 k2,
    lin_increment3 hx htx undef c hu hst capa stale aux q₁ q₂ i j k]
  have ey : xIncrement3 undef rpy rty rtty c.rot capa stale (rot3 aux) (rot3 fun i j k => α • q₁ i j k + β • q₂ i j k) j k i = _ :=
    lin_increment3 hy hty undef c.rot hu hst capa stale (rot3 aux) (rot3 q₁) (rot3 q₂) j k i
  have ez : xIncrement3 undef rpz rtz rttz c.rot.rot capa stale (rot3 (rot3 aux))
      (rot3 (rot3 fun i j k => α • q₁ i j k + β • q₂ i j k)) k i j = _ :=
    lin_increment3 hz htz undef c.rot.rot hu hst capa stale (rot3 (rot3 aux)) (rot3 (rot3 q₁)) (rot3 (rot3 q₂)) k i j
  rw [ey, ez]
  module

theorem unsplitStep3_isMax (undef : K) (c : Cfg3 K w) (capa : Option (A → K)) (stale : Int → Fin m → K) (aux : Int → Int → Int → A)
    (q : Int → Int → Int → Fin m → K) :
    IsMaxWithZero (fun v =>
      ((∃ i j k : Int, (1 ≤ i ∧ i ≤ c.mx + 1) ∧ (0 ≤ j ∧ j ≤ c.my + 1) ∧ (0 ≤ k ∧ k ≤ c.mz + 1) ∧
        WaveNumber (localRatio c.dt c.dx capa fun i => aux i j k) (interfaces rpx (fun i => aux i j k) (fun i => q i j k)) i v) ∨
      (∃ j k i : Int, (1 ≤ j ∧ j ≤ c.my + 1) ∧ (0 ≤ k ∧ k ≤ c.mz + 1) ∧ (0 ≤ i ∧ i ≤ c.mx + 1) ∧
        WaveNumber (localRatio c.dt c.dy capa fun j => aux i j k) (interfaces rpy (fun j => aux i j k) (fun j => q i j k)) j v)) ∨
      (∃ k i j : Int, (1 ≤ k ∧ k ≤ c.mz + 1) ∧ (0 ≤ i ∧ i ≤ c.mx + 1) ∧ (0 ≤ j ∧ j ≤ c.my + 1) ∧
        WaveNumber (localRatio c.dt c.dz capa fun k => aux i j k) (interfaces rpz (fun k => aux i j k) (fun k => q i j k)) k v))
      (unsplitStep3 undef rpx rpy rpz rtx rty rtz rttx rtty rttz c capa stale aux q).2 :=
  isMax_max (isMax_max (step3X_isMax undef rpx rtx rttx c capa stale aux q q)
    (step3X_isMax undef rpy rty rtty c.rot capa stale (rot3 aux) (rot3 q) _))
    (step3X_isMax undef rpz rtz rttz c.rot.rot capa stale (rot3 (rot3 aux)) (rot3 (rot3 q)) _)

theorem lin_unsplit3_cfl (hx : LinearRiemann α β rpx) (hy : LinearRiemann α β rpy) (hz : LinearRiemann α β rpz) (undef : K) (c : Cfg3 K w)
    (capa : Option (A → K)) (stale : Int → Fin m → K) (aux : Int → Int → Int → A) (q q' : Int → Int → Int → Fin m → K) :
    (unsplitStep3 undef rpx rpy rpz rtx rty rtz rttx rtty rttz c capa stale aux q').2 =
      (unsplitStep3 undef rpx rpy rpz rtx rty rtz rttx rtty rttz c capa stale aux q).2 := by
  refine isMax_unique (unsplitStep3_isMax undef c capa stale aux q')
    (isMax_congr (fun x => or_congr (or_congr ?_ ?_) ?_) (unsplitStep3_isMax undef c capa stale aux q)) <;>
  · refine exists_congr fun i => exists_congr fun j => exists_congr fun k => and_congr_right fun _ => and_congr_right fun _ =>
      and_congr_right fun _ => ?_
    first
      | exact lin_number hx _ _ _ _ _ _
      | exact lin_number hy _ _ _ _ _ _
      | exact lin_number hz _ _ _ _ _ _

theorem step3dsX_isMax (same : Bool) (undef : K) (rp : Riemann K A m w) (c : Cfg3 K w) (hg : 1 ≤ c.g)
    (capa : Option (A → K)) (aux : Int → Int → Int → A) (q : Int → Int → Int → Fin m → K) :
    IsMaxWithZero (fun v => ∃ i j k : Int, (1 ≤ i ∧ i ≤ c.mx + 1) ∧ (0 ≤ j ∧ j ≤ c.my + 1) ∧ (0 ≤ k ∧ k ≤ c.mz + 1) ∧
      WaveNumber (localRatio c.dt c.dx capa fun i => aux i j k) (interfaces rp (fun i => aux i j k) (fun i => q i j k)) i v)
      (step3dsX same undef rp c capa aux q q).2 := by
  rw [(step3dsX_both same undef rp c hg capa aux q 0 0 0).2]
  refine isMax_congr (fun v => ?_) (isMax_rows _ _ _ fun y _ => fCfl_isMax c.mx _ _)
  constructor
  · rintro ⟨y, hy, i, i1, i2, h⟩
    have hy := (mem_pairs _ _ _ _ _).mp hy
    exact ⟨i, y.1, y.2, ⟨i1, i2⟩, ⟨by omega, by omega⟩, ⟨by omega, by omega⟩, h⟩
  · rintro ⟨i, j, k, hi, hj, hk, h⟩
    exact ⟨(j, k), (mem_pairs _ _ _ _ _).mpr (by dsimp only; omega), i, hi.1, hi.2, h⟩

theorem splitStep3_isMax (undef : K) (c : Cfg3 K w) (hg : 1 ≤ c.g) (capa : Option (A → K)) (aux : Int → Int → Int → A)
    (q : Int → Int → Int → Fin m → K) :
    IsMaxWithZero (fun v =>
      ((∃ i j k : Int, (1 ≤ i ∧ i ≤ c.mx + 1) ∧ (0 ≤ j ∧ j ≤ c.my + 1) ∧ (0 ≤ k ∧ k ≤ c.mz + 1) ∧
        WaveNumber (localRatio c.dt c.dx capa fun i => aux i j k) (interfaces rpx (fun i => aux i j k) (fun i => q i j k)) i v) ∨
      (∃ j k i : Int, (1 ≤ j ∧ j ≤ c.my + 1) ∧ (0 ≤ k ∧ k ≤ c.mz + 1) ∧ (0 ≤ i ∧ i ≤ c.mx + 1) ∧
        WaveNumber (localRatio c.dt c.dy capa fun j => aux i j k)
          (interfaces rpy (fun j => aux i j k) (fun j => afterX undef rpx c capa aux q i j k)) j v)) ∨
      (∃ k i j : Int, (1 ≤ k ∧ k ≤ c.mz + 1) ∧ (0 ≤ i ∧ i ≤ c.mx + 1) ∧ (0 ≤ j ∧ j ≤ c.my + 1) ∧
        WaveNumber (localRatio c.dt c.dz capa fun k => aux i j k)
          (interfaces rpz (fun k => aux i j k) (fun k => afterY undef rpx rpy c capa aux q i j k)) k v))
      (splitStep3 undef rpx rpy rpz c capa aux q).2 := by
  have e1 : (step3dsX false undef rpx c capa aux q q).1 = afterX undef rpx c capa aux q := by
    funext i j k
    exact step3dsX_eq false undef rpx c hg capa aux q i j k
  have e2 : (step3dsX true undef rpy c.rot capa (rot3 aux) (rot3 (afterX undef rpx c capa aux q))
      (rot3 (afterX undef rpx c capa aux q))).1 = rot3 (afterY undef rpx rpy c capa aux q) := by
    funext j k i
    exact step3dsX_eq true undef rpy c.rot hg capa (rot3 aux) _ j k i
  simp only [splitStep3, e1, e2]
  exact isMax_max (isMax_max (step3dsX_isMax false undef rpx c hg capa aux q)
    (step3dsX_isMax true undef rpy c.rot hg capa (rot3 aux) (rot3 (afterX undef rpx c capa aux q))))
    (step3dsX_isMax true undef rpz c.rot.rot hg capa (rot3 (rot3 aux)) (rot3 (rot3 (afterY undef rpx rpy c capa aux q))))

theorem lin_split3 (hx : LinearRiemann α β rpx) (hy : LinearRiemann α β rpy) (hz : LinearRiemann α β rpz) (undef : K) (c : Cfg3 K w)
    (hg : 1 ≤ c.g) (hu : Unlimited c.order c.limiter) (capa : Option (A → K)) (aux : Int → Int → Int → A)
    (q₁ q₂ : Int → Int → Int → Fin m → K) (i j k : Int) :
    (splitStep3 undef rpx rpy rpz c capa aux fun i j k => α • q₁ i j k + β • q₂ i j k).1 i j k =
      α • (splitStep3 undef rpx rpy rpz c capa aux q₁).1 i j k + β • (splitStep3 undef rpx rpy rpz c capa aux q₂).1 i j k := by
  have hX : ∀ i j k : Int, afterX undef rpx c capa aux (fun i j k => α • q₁ i j k + β • q₂ i j k) i j k =
      α • afterX undef rpx c capa aux q₁ i j k + β • afterX undef rpx c capa aux q₂ i j k := by
    intro i j k
    unfold afterX
    split
    · exact lin_row hx undef c.row hu capa (fun i => aux i j k) (fun i => q₁ i j k) (fun i => q₂ i j k) i
    · rfl
  have hY : ∀ i j k : Int, afterY undef rpx rpy c capa aux (fun i j k => α • q₁ i j k + β • q₂ i j k) i j k =
      α • afterY undef rpx rpy c capa aux q₁ i j k + β • afterY undef rpx rpy c capa aux q₂ i j k := by
    intro i j k
    unfold afterY
    simp only [hX]
    split
    · exact lin_row hy undef c.rot.row hu capa (fun j => aux i j k) (fun j => afterX undef rpx c capa aux q₁ i j k)
        (fun j => afterX undef rpx c capa aux q₂ i j k) j
    · rfl
  simp only [splitStep3_eq undef rpx rpy rpz c hg, hY]
  split
  · exact lin_row hz undef c.rot.rot.row hu capa (fun k => aux i j k) (fun k => afterY undef rpx rpy c capa aux q₁ i j k)
      (fun k => afterY undef rpx rpy c capa aux q₂ i j k) k
  · rfl

theorem lin_split3_cfl (hx : LinearRiemann α β rpx) (hy : LinearRiemann α β rpy) (hz : LinearRiemann α β rpz) (undef : K) (c : Cfg3 K w)
    (hg : 1 ≤ c.g) (capa : Option (A → K)) (aux : Int → Int → Int → A) (q q' : Int → Int → Int → Fin m → K) :
    (splitStep3 undef rpx rpy rpz c capa aux q').2 = (splitStep3 undef rpx rpy rpz c capa aux q).2 := by
  refine isMax_unique (splitStep3_isMax undef c hg capa aux q')
    (isMax_congr (fun x => or_congr (or_congr ?_ ?_) ?_) (splitStep3_isMax undef c hg capa aux q)) <;>
  · refine exists_congr fun i => exists_congr fun j => exists_congr fun k => and_congr_right fun _ => and_congr_right fun _ =>
      and_congr_right fun _ => ?_
    first
      | exact lin_number hx _ _ _ _ _ _
      | exact lin_number hy _ _ _ _ _ _
      | exact lin_number hz _ _ _ _ _ _

end space

/-! ### Kernels -/

section kernels
variable {rpx rpy rpz : Riemann K (Fin naux → K) m w} {rtx rty rtz : Transverse3 K (Fin naux → K) m}
  {rttx rtty rttz : Transverse33 K (Fin naux → K) m}

theorem unsplit3_linear (hx : LinearRiemann α β rpx) (hy : LinearRiemann α β rpy) (hz : LinearRiemann α β rpz)
    (htx : LinearSplitting3 α β rtx rttx) (hty : LinearSplitting3 α β rty rtty) (htz : LinearSplitting3 α β rtz rttz)
    (undef : K) (c : Cfg3 K w) (hg : 1 ≤ c.g) (hu : Unlimited c.order c.limiter)
    (hst : c.order ≠ 1 ∨ c.trans / 10 ≠ 2) (capa : Option ((Fin naux → K) → K)) (stale : Int → Fin m → K) :
    LinearInt α β (intUnsplit3 undef rpx rpy rpz rtx rty rtz rttx rtty rttz c capa stale) := by
  intro dt n A Q₁ Q₂
  have e := lin_unsplit3_cfl (rtx := rtx) (rty := rty) (rtz := rtz) (rttx := rttx) (rtty := rtty) (rttz := rttz) hx hy hz undef
    { c with mx := n 0, my := n 1, mz := n 2, dt := dt } capa stale (fun i j k => A ![i, j, k])
    (fun i j k => α • Q₁ ![i, j, k] + β • Q₂ ![i, j, k])
  refine three_some (x₁ := intUnsplit3 undef rpx rpy rpz rtx rty rtz rttx rtty rttz c capa stale dt n A Q₁)
    (x₂ := intUnsplit3 undef rpx rpy rpz rtx rty rtz rttx rtty rttz c capa stale dt n A Q₂)
    (x := intUnsplit3 undef rpx rpy rpz rtx rty rtz rttx rtty rttz c capa stale dt n A fun v => α • Q₁ v + β • Q₂ v)
    (P := fun (r₁ r₂ r : (Fin 3 → Int) → Fin m → K) => ∀ v : Fin 3 → Int, (∀ a, 1 ≤ v a ∧ v a ≤ n a) → r v = α • r₁ v + β • r₂ v)
    rfl rfl rfl (e fun i j k => Q₁ ![i, j, k]) (e fun i j k => Q₂ ![i, j, k]) fun v hv => ?_
  exact lin_unsplit3 hx hy hz htx hty htz undef { c with mx := n 0, my := n 1, mz := n 2, dt := dt } hg hu hst capa stale
    (fun i j k => A ![i, j, k]) (fun i j k => Q₁ ![i, j, k]) (fun i j k => Q₂ ![i, j, k]) (v 0) (v 1) (v 2) (hv 0).1 (hv 0).2 (hv 1).1 (hv 1).2
    (hv 2).1 (hv 2).2

theorem split3_linear (hx : LinearRiemann α β rpx) (hy : LinearRiemann α β rpy) (hz : LinearRiemann α β rpz)
    (undef : K) (c : Cfg3 K w) (hg : 1 ≤ c.g) (hu : Unlimited c.order c.limiter) (capa : Option ((Fin naux → K) → K)) :
    LinearInt α β (intSplit3 undef rpx rpy rpz c capa) := by
  intro dt n A Q₁ Q₂
  have e := lin_split3_cfl hx hy hz undef { c with mx := n 0, my := n 1, mz := n 2, dt := dt } hg capa (fun i j k => A ![i, j, k])
    (fun i j k => α • Q₁ ![i, j, k] + β • Q₂ ![i, j, k])
  refine three_some (x₁ := intSplit3 undef rpx rpy rpz c capa dt n A Q₁) (x₂ := intSplit3 undef rpx rpy rpz c capa dt n A Q₂)
    (x := intSplit3 undef rpx rpy rpz c capa dt n A fun v => α • Q₁ v + β • Q₂ v)
    (P := fun (r₁ r₂ r : (Fin 3 → Int) → Fin m → K) => ∀ v : Fin 3 → Int, (∀ a, 1 ≤ v a ∧ v a ≤ n a) → r v = α • r₁ v + β • r₂ v)
    rfl rfl rfl (e fun i j k => Q₁ ![i, j, k]) (e fun i j k => Q₂ ![i, j, k]) fun v _ => ?_
  exact lin_split3 hx hy hz undef { c with mx := n 0, my := n 1, mz := n 2, dt := dt } hg hu capa
    (fun i j k => A ![i, j, k]) (fun i j k => Q₁ ![i, j, k]) (fun i j k => Q₂ ![i, j, k]) (v 0) (v 1) (v 2)

/-- In the ghosted grid the unsplit kernel sees, nothing outside matters. -/
theorem unsplit3_localInt (undef : K) (c : Cfg3 K w) (hg : 2 ≤ c.g) (capa : Option ((Fin naux → K) → K)) (stale : Int → Fin m → K) :
    LocalInt (intUnsplit3 undef rpx rpy rpz rtx rty rtz rttx rtty rttz c capa stale) c.g := by
  intro dt n A A' Q Q' h
  have hb : ∀ i j k : Int, 1 - (c.g : Int) ≤ i → i ≤ n 0 + c.g → 1 - (c.g : Int) ≤ j → j ≤ n 1 + c.g → 1 - (c.g : Int) ≤ k → k ≤ n 2 + c.g →
      A' ![i, j, k] = A ![i, j, k] ∧ Q' ![i, j, k] = Q ![i, j, k] := fun i j k i1 i2 j1 j2 k1 k2 =>
    h ![i, j, k] fun a => by fin_cases a <;> simp <;> omega
  refine both_some (x := intUnsplit3 undef rpx rpy rpz rtx rty rtz rttx rtty rttz c capa stale dt n A Q)
    (x' := intUnsplit3 undef rpx rpy rpz rtx rty rtz rttx rtty rttz c capa stale dt n A' Q')
    (P := fun (r r' : (Fin 3 → Int) → Fin m → K) => ∀ v : Fin 3 → Int, (∀ a, 1 ≤ v a ∧ v a ≤ n a) → r' v = r v) rfl rfl ?_ fun v hv => ?_
  · refine isMax_unique (unsplitStep3_isMax (rtx := rtx) (rty := rty) (rtz := rtz) (rttx := rttx) (rtty := rtty) (rttz := rttz) undef
      { c with mx := n 0, my := n 1, mz := n 2, dt := dt } capa stale (fun i j k => A' ![i, j, k]) fun i j k => Q' ![i, j, k])
      (isMax_congr (fun x => or_congr (or_congr ?_ ?_) ?_) (unsplitStep3_isMax undef
        { c with mx := n 0, my := n 1, mz := n 2, dt := dt } capa stale (fun i j k => A ![i, j, k]) fun i j k => Q ![i, j, k]))
    · refine exists_congr fun i => exists_congr fun j => exists_congr fun k => and_congr_right fun hi => and_congr_right fun hj =>
        and_congr_right fun hk => ?_
      dsimp only at hi hj hk
      have h0 := hb i j k (by omega) (by omega) (by omega) (by omega) (by omega) (by omega)
      have h1 := hb (i - 1) j k (by omega) (by omega) (by omega) (by omega) (by omega) (by omega)
      exact (waveNumber_same rpx dt c.dx capa (fun i => A ![i, j, k]) (fun i => A' ![i, j, k]) (fun i => Q ![i, j, k])
        (fun i => Q' ![i, j, k]) i x h0.1 h1.1 h0.2 h1.2).symm
    · refine exists_congr fun j => exists_congr fun k => exists_congr fun i => and_congr_right fun hj => and_congr_right fun hk =>
        and_congr_right fun hi => ?_
      dsimp only at hi hj hk
      have h0 := hb i j k (by omega) (by omega) (by omega) (by omega) (by omega) (by omega)
      have h1 := hb i (j - 1) k (by omega) (by omega) (by omega) (by omega) (by omega) (by omega)
      exact (waveNumber_same rpy dt c.dy capa (fun j => A ![i, j, k]) (fun j => A' ![i, j, k]) (fun j => Q ![i, j, k])
        (fun j => Q' ![i, j, k]) j x h0.1 h1.1 h0.2 h1.2).symm
    · refine exists_congr fun k => exists_congr fun i => exists_congr fun j => and_congr_right fun hk => and_congr_right fun hi =>
        and_congr_right fun hj => ?_
      dsimp only at hi hj hk
      have h0 := hb i j k (by omega) (by omega) (by omega) (by omega) (by omega) (by omega)
      have h1 := hb i j (k - 1) (by omega) (by omega) (by omega) (by omega) (by omega) (by omega)
      exact (waveNumber_same rpz dt c.dz capa (fun k => A ![i, j, k]) (fun k => A' ![i, j, k]) (fun k => Q ![i, j, k])
        (fun k => Q' ![i, j, k]) k x h0.1 h1.1 h0.2 h1.2).symm
  · have h0 := hv 0
    have h1 := hv 1
    have h2 := hv 2
    exact (C40_unsplit3_local undef rpx rpy rpz rtx rty rtz rttx rtty rttz { c with mx := n 0, my := n 1, mz := n 2, dt := dt }
      (by dsimp only; omega) capa stale (fun i j k => A' ![i, j, k]) (fun i j k => A ![i, j, k]) (fun i j k => Q' ![i, j, k])
      (fun i j k => Q ![i, j, k]) (v 0) (v 1) (v 2)
      h0.1 h0.2 h1.1 h1.2 h2.1 h2.2
      (fun a b e a1 a2 b1 b2 e1 e2 => (hb a b e (by omega) (by omega) (by omega) (by omega) (by omega) (by omega)).2)
      (fun a b e a1 a2 b1 b2 e1 e2 => (hb a b e (by omega) (by omega) (by omega) (by omega) (by omega) (by omega)).1))

theorem split3_localInt (undef : K) (c : Cfg3 K w) (hg : 2 ≤ c.g) (capa : Option ((Fin naux → K) → K)) :
    LocalInt (intSplit3 undef rpx rpy rpz c capa) c.g := by
  intro dt n A A' Q Q' h
  have hb : ∀ i j k : Int, 1 - (c.g : Int) ≤ i → i ≤ n 0 + c.g → 1 - (c.g : Int) ≤ j → j ≤ n 1 + c.g → 1 - (c.g : Int) ≤ k → k ≤ n 2 + c.g →
      A' ![i, j, k] = A ![i, j, k] ∧ Q' ![i, j, k] = Q ![i, j, k] := fun i j k i1 i2 j1 j2 k1 k2 =>
    h ![i, j, k] fun a => by fin_cases a <;> simp <;> omega
  let C : Cfg3 K w := { c with mx := n 0, my := n 1, mz := n 2, dt := dt }
  have hX : ∀ i j k : Int, 1 - (c.g : Int) ≤ i → i ≤ n 0 + c.g → 1 - (c.g : Int) ≤ j → j ≤ n 1 + c.g → 1 - (c.g : Int) ≤ k → k ≤ n 2 + c.g →
      afterX undef rpx C capa (fun i j k => A' ![i, j, k]) (fun i j k => Q' ![i, j, k]) i j k =
      afterX undef rpx C capa (fun i j k => A ![i, j, k]) (fun i j k => Q ![i, j, k]) i j k := by
    intro i j k i1 i2 j1 j2 k1 k2
    unfold afterX
    dsimp only [C]
    split
    · rename_i hh
      exact rowStep_local undef rpx C.row capa _ _ _ _ i (fun l a b => (hb l j k (by omega) (by omega) j1 j2 k1 k2).1)
        (fun l a b => (hb l j k (by omega) (by omega) j1 j2 k1 k2).2)
    · exact (hb i j k i1 i2 j1 j2 k1 k2).2
  have hY : ∀ i j k : Int, 1 - (c.g : Int) ≤ i → i ≤ n 0 + c.g → 1 - (c.g : Int) ≤ j → j ≤ n 1 + c.g → 1 - (c.g : Int) ≤ k → k ≤ n 2 + c.g →
      afterY undef rpx rpy C capa (fun i j k => A' ![i, j, k]) (fun i j k => Q' ![i, j, k]) i j k =
      afterY undef rpx rpy C capa (fun i j k => A ![i, j, k]) (fun i j k => Q ![i, j, k]) i j k := by
    intro i j k i1 i2 j1 j2 k1 k2
    unfold afterY
    dsimp only [C]
    split
    · rename_i hh
      exact rowStep_local undef rpy C.rot.row capa _ _ _ _ j (fun l a b => (hb i l k i1 i2 (by omega) (by omega) k1 k2).1)
        (fun l a b => hX i l k i1 i2 (by omega) (by omega) k1 k2)
    · exact hX i j k i1 i2 j1 j2 k1 k2
  refine both_some (x := intSplit3 undef rpx rpy rpz c capa dt n A Q) (x' := intSplit3 undef rpx rpy rpz c capa dt n A' Q')
    (P := fun (r r' : (Fin 3 → Int) → Fin m → K) => ∀ v : Fin 3 → Int, (∀ a, 1 ≤ v a ∧ v a ≤ n a) → r' v = r v) rfl rfl ?_ fun v hv => ?_
  · refine isMax_unique (splitStep3_isMax undef C (by dsimp only [C]; omega) capa (fun i j k => A' ![i, j, k]) fun i j k => Q' ![i, j, k])
      (isMax_congr (fun x => or_congr (or_congr ?_ ?_) ?_) (splitStep3_isMax undef C (by dsimp only [C]; omega) capa
        (fun i j k => A ![i, j, k]) fun i j k => Q ![i, j, k]))
    · refine exists_congr fun i => exists_congr fun j => exists_congr fun k => and_congr_right fun hi => and_congr_right fun hj =>
        and_congr_right fun hk => ?_
      dsimp only [C] at hi hj hk
      have h0 := hb i j k (by omega) (by omega) (by omega) (by omega) (by omega) (by omega)
      have h1 := hb (i - 1) j k (by omega) (by omega) (by omega) (by omega) (by omega) (by omega)
      exact (waveNumber_same rpx dt c.dx capa (fun i => A ![i, j, k]) (fun i => A' ![i, j, k]) (fun i => Q ![i, j, k])
        (fun i => Q' ![i, j, k]) i x h0.1 h1.1 h0.2 h1.2).symm
    · refine exists_congr fun j => exists_congr fun k => exists_congr fun i => and_congr_right fun hj => and_congr_right fun hk =>
        and_congr_right fun hi => ?_
      dsimp only [C] at hi hj hk
      have h0 := hb i j k (by omega) (by omega) (by omega) (by omega) (by omega) (by omega)
      have h1 := hb i (j - 1) k (by omega) (by omega) (by omega) (by omega) (by omega) (by omega)
      exact (waveNumber_same rpy dt c.dy capa (fun j => A ![i, j, k]) (fun j => A' ![i, j, k])
        (fun j => afterX undef rpx C capa (fun i j k => A ![i, j, k]) (fun i j k => Q ![i, j, k]) i j k)
        (fun j => afterX undef rpx C capa (fun i j k => A' ![i, j, k]) (fun i j k => Q' ![i, j, k]) i j k) j x h0.1 h1.1
        (hX i j k (by omega) (by omega) (by omega) (by omega) (by omega) (by omega))
        (hX i (j - 1) k (by omega) (by omega) (by omega) (by omega) (by omega) (by omega))).symm
    · refine exists_congr fun k => exists_congr fun i => exists_congr fun j => and_congr_right fun hk => and_congr_right fun hi =>
        and_congr_right fun hj => ?_
      dsimp only [C] at hi hj hk
      have h0 := hb i j k (by omega) (by omega) (by omega) (by omega) (by omega) (by omega)
      have h1 := hb i j (k - 1) (by omega) (by omega) (by omega) (by omega) (by omega) (by omega)
      exact (waveNumber_same rpz dt c.dz capa (fun k => A ![i, j, k]) (fun k => A' ![i, j, k])
        (fun k => afterY undef rpx rpy C capa (fun i j k => A ![i, j, k]) (fun i j k => Q ![i, j, k]) i j k)
        (fun k => afterY undef rpx rpy C capa (fun i j k => A' ![i, j, k]) (fun i j k => Q' ![i, j, k]) i j k) k x h0.1 h1.1
        (hY i j k (by omega) (by omega) (by omega) (by omega) (by omega) (by omega))
        (hY i j (k - 1) (by omega) (by omega) (by omega) (by omega) (by omega) (by omega))).symm
  · have h0 := hv 0
    have h1 := hv 1
    have h2 := hv 2
    exact C40_split3_local undef rpx rpy rpz C (by dsimp only [C]; omega) capa (fun i j k => A' ![i, j, k]) (fun i j k => A ![i, j, k])
      (fun i j k => Q' ![i, j, k]) (fun i j k => Q ![i, j, k]) (v 0) (v 1) (v 2)
      (fun a b e a1 a2 b1 b2 e1 e2 => (hb a b e (by omega) (by omega) (by omega) (by omega) (by omega) (by omega)).2)
      (fun a b e a1 a2 b1 b2 e1 e2 => (hb a b e (by omega) (by omega) (by omega) (by omega) (by omega) (by omega)).1)

end kernels
end PyClaw
