import Verif.Props.UnfoldSplit
import Verif.Props.CubeSplit
import Verif.Props.TranslationSplit3

set_option linter.unusedSectionVars false

/-!
C92 with dimensional splitting in three dimensions.
-/
namespace PyClaw
open Spec

variable {K : Type*} [Field K] [LinearOrder K] [IsStrictOrderedRing K] {m w naux : Nat}

/-- Courant numbers of the sweeps along `x` and `y` in the plane `k`. -/
def splitNumsXY (undef : K) (rpx rpy : Riemann K (Fin naux → K) m w) (c : Cfg3 K w) (capa : Option ((Fin naux → K) → K)) (dt : K)
    (mx my : Nat) (A : (Fin 3 → Int) → Fin naux → K) (Q : (Fin 3 → Int) → Fin m → K) (k : Int) (x : K) : Prop :=
  (∃ i j : Int, (1 ≤ i ∧ i ≤ mx + 1) ∧ (0 ≤ j ∧ j ≤ my + 1) ∧
    WaveNumber (localRatio dt c.dx capa fun i => A ![i, j, k]) (interfaces rpx (fun i => A ![i, j, k]) (fun i => Q ![i, j, k])) i x) ∨
  (∃ i j : Int, (0 ≤ i ∧ i ≤ mx + 1) ∧ (1 ≤ j ∧ j ≤ my + 1) ∧
    WaveNumber (localRatio dt c.dy capa fun j => A ![i, j, k])
      (interfaces rpy (fun j => A ![i, j, k]) (fun j => allRows3 undef rpx c capa dt mx A Q i j k)) j x)

/-- Courant numbers of the sweeps along `z` at the interfaces below the plane `k`. -/
def splitNumsZ (undef : K) (rpx rpy rpz : Riemann K (Fin naux → K) m w) (c : Cfg3 K w) (capa : Option ((Fin naux → K) → K)) (dt : K)
    (mx my : Nat) (A : (Fin 3 → Int) → Fin naux → K) (Q : (Fin 3 → Int) → Fin m → K) (k : Int) (x : K) : Prop :=
  ∃ i j : Int, (0 ≤ i ∧ i ≤ mx + 1) ∧ (0 ≤ j ∧ j ≤ my + 1) ∧
    WaveNumber (localRatio dt c.dz capa fun k => A ![i, j, k])
      (interfaces rpz (fun k => A ![i, j, k]) (fun k => allPlanes3 undef rpx rpy c capa dt mx my A Q i j k)) k x

theorem split3_form (undef : K) (rpx rpy rpz : Riemann K (Fin naux → K) m w) (c : Cfg3 K w) (hg : 2 ≤ c.g) (hN : Narrow c.order c.limiter)
    (capa : Option ((Fin naux → K) → K)) (n : Fin 3 → Nat) (dt : K) (A : (Fin 3 → Int) → Fin naux → K) (Q : (Fin 3 → Int) → Fin m → K) :
    ∃ r cfl, intSplit3 undef rpx rpy rpz c capa dt n A Q = some (r, cfl) ∧
      (∀ v : Fin 3 → Int, (∀ a, 1 ≤ v a ∧ v a ≤ n a) → r v = splitNew3 undef rpx rpy rpz c capa dt A Q v) ∧
      IsMaxWithZero (fun x => (∃ k : Int, (0 ≤ k ∧ k ≤ (n 2 : Int) + 1) ∧ splitNumsXY undef rpx rpy c capa dt (n 0) (n 1) A Q k x) ∨
        ∃ k : Int, (1 ≤ k ∧ k ≤ (n 2 : Int) + 1) ∧ splitNumsZ undef rpx rpy rpz c capa dt (n 0) (n 1) A Q k x) cfl := by
  let c' : Cfg3 K w := { c with mx := n 0, my := n 1, mz := n 2, dt := dt }
  let X := afterX undef rpx c' capa (fun i j k => A ![i, j, k]) (fun i j k => Q ![i, j, k])
  let Y := afterY undef rpx rpy c' capa (fun i j k => A ![i, j, k]) (fun i j k => Q ![i, j, k])
  have hX : ∀ i j k : Int, 0 ≤ j → j ≤ n 1 + 1 → 0 ≤ k → k ≤ n 2 + 1 →
      X i j k = allRows3 undef rpx c capa dt (n 0) A Q i j k := by
    intro i j k j1 j2 k1 k2
    dsimp only [X]
    unfold afterX allRows3
    by_cases h : 1 ≤ i ∧ i ≤ (n 0 : Int)
    · rw [if_pos ⟨⟨⟨j1, j2⟩, k1, k2⟩, h⟩, if_pos h]
      rfl
    · rw [if_neg (fun hh => h hh.2), if_neg h]
  have hY : ∀ i j k : Int, 0 ≤ i → i ≤ n 0 + 1 → 0 ≤ j → j ≤ n 1 + 1 → 0 ≤ k → k ≤ n 2 + 1 →
      Y i j k = allPlanes3 undef rpx rpy c capa dt (n 0) (n 1) A Q i j k := by
    intro i j k i1 i2 j1 j2 k1 k2
    dsimp only [Y]
    unfold afterY allPlanes3
    by_cases h : 1 ≤ j ∧ j ≤ (n 1 : Int)
    · rw [if_pos ⟨⟨⟨k1, k2⟩, i1, i2⟩, h⟩, if_pos h]
      exact rowStep_narrow undef rpy c'.rot.row hN capa _ _ _ _ j (fun l a b => rfl)
        (fun l a b => hX i l k (by omega) (by omega) k1 k2)
    · rw [if_neg (fun hh => h hh.2), if_neg h]
      exact hX i j k j1 j2 k1 k2
  refine ⟨_, _, rfl, fun v hv => ?_, isMax_congr (fun x => ?_) (splitStep3_isMax undef c' (by show 1 ≤ c.g; omega) capa _ _)⟩
  · have h0 := hv 0
    have h1 := hv 1
    have h2 := hv 2
    show (splitStep3 undef rpx rpy rpz c' capa _ _).1 _ _ _ = _
    rw [splitStep3_eq undef rpx rpy rpz c' (by show 1 ≤ c.g; omega) capa]
    rw [if_pos (by show ((0 ≤ v 0 ∧ v 0 ≤ (n 0 : Int) + 1) ∧ 0 ≤ v 1 ∧ v 1 ≤ (n 1 : Int) + 1) ∧ 1 ≤ v 2 ∧ v 2 ≤ (n 2 : Int); omega)]
    unfold splitNew3
    refine rowStep_narrow undef rpz c'.rot.rot.row hN capa _ _ _ _ _ (fun k a b => rfl) (fun k a b => ?_)
    refine (hY (v 0) (v 1) k (by omega) (by omega) (by omega) (by omega) (by omega) (by omega)).trans ?_
    unfold allPlanes3 allRows3
    simp only [if_pos (show 1 ≤ v 0 ∧ v 0 ≤ (n 0 : Int) by omega), if_pos (show 1 ≤ v 1 ∧ v 1 ≤ (n 1 : Int) by omega)]
  · have ny : ∀ i j k : Int, (1 ≤ j ∧ j ≤ (n 1 : Int) + 1) → (0 ≤ k ∧ k ≤ (n 2 : Int) + 1) →
        (WaveNumber (localRatio dt c.dy capa fun j => A ![i, j, k]) (interfaces rpy (fun j => A ![i, j, k]) (fun j => X i j k)) j x ↔
        WaveNumber (localRatio dt c.dy capa fun j => A ![i, j, k]) (interfaces rpy (fun j => A ![i, j, k])
          (fun j => allRows3 undef rpx c capa dt (n 0) A Q i j k)) j x) := by
      intro i j k hj hk
      have := waveNumber_congr rpy dt c.dy capa (fun j => A ![i, j, k]) (fun j => A ![i, j, k])
        (fun j => allRows3 undef rpx c capa dt (n 0) A Q i j k) (fun j => X i j k) 0 j x
        (by rw [add_zero]) (by rw [add_zero])
        (by rw [add_zero]; exact hX _ _ _ (by omega) (by omega) (by omega) (by omega))
        (by rw [add_zero]; exact hX _ _ _ (by omega) (by omega) (by omega) (by omega))
      rwa [add_zero] at this
    have nz : ∀ i j k : Int, (0 ≤ i ∧ i ≤ (n 0 : Int) + 1) → (0 ≤ j ∧ j ≤ (n 1 : Int) + 1) → (1 ≤ k ∧ k ≤ (n 2 : Int) + 1) →
        (WaveNumber (localRatio dt c.dz capa fun k => A ![i, j, k]) (interfaces rpz (fun k => A ![i, j, k]) (fun k => Y i j k)) k x ↔
        WaveNumber (localRatio dt c.dz capa fun k => A ![i, j, k]) (interfaces rpz (fun k => A ![i, j, k])
          (fun k => allPlanes3 undef rpx rpy c capa dt (n 0) (n 1) A Q i j k)) k x) := by
      intro i j k hi hj hk
      have := waveNumber_congr rpz dt c.dz capa (fun k => A ![i, j, k]) (fun k => A ![i, j, k])
        (fun k => allPlanes3 undef rpx rpy c capa dt (n 0) (n 1) A Q i j k) (fun k => Y i j k) 0 k x
        (by rw [add_zero]) (by rw [add_zero])
        (by rw [add_zero]; exact hY _ _ _ (by omega) (by omega) (by omega) (by omega) (by omega) (by omega))
        (by rw [add_zero]; exact hY _ _ _ (by omega) (by omega) (by omega) (by omega) (by omega) (by omega))
      rwa [add_zero] at this
    constructor
    · rintro ((⟨i, j, k, hi, hj, hk, h⟩ | ⟨j, k, i, hj, hk, hi, h⟩) | ⟨k, i, j, hk, hi, hj, h⟩)
      · exact Or.inl ⟨k, hk, Or.inl ⟨i, j, hi, hj, h⟩⟩
      · exact Or.inl ⟨k, hk, Or.inr ⟨i, j, hi, hj, (ny i j k hj hk).mp h⟩⟩
      · exact Or.inr ⟨k, hk, i, j, hi, hj, (nz i j k hi hj hk).mp h⟩
    · rintro (⟨k, hk, (⟨i, j, hi, hj, h⟩ | ⟨i, j, hi, hj, h⟩)⟩ | ⟨k, hk, i, j, hi, hj, h⟩)
      · exact Or.inl (Or.inl ⟨i, j, k, hi, hj, hk, h⟩)
      · exact Or.inl (Or.inr ⟨j, k, i, hj, hk, hi, (ny i j k hj hk).mpr h⟩)
      · exact Or.inr ⟨k, i, j, hk, hi, hj, (nz i j k hi hj hk).mpr h⟩

section shift
variable {undef : K} {rpx rpy rpz : Riemann K (Fin naux → K) m w} {c : Cfg3 K w} {capa : Option ((Fin naux → K) → K)} {dt : K}
  {A A' : (Fin 3 → Int) → Fin naux → K} {Q Q' : (Fin 3 → Int) → Fin m → K} {mx my : Nat} {s : Int}

/-- The plane `k` of the one array is the plane `k + s` of the other. -/
def SamePlane (c : Cfg3 K w) (mx my : Nat) (s : Int) (A A' : (Fin 3 → Int) → Fin naux → K) (Q Q' : (Fin 3 → Int) → Fin m → K) (k : Int) : Prop :=
  ∀ i j : Int, 1 - (c.g : Int) ≤ i → i ≤ mx + c.g → 1 - (c.g : Int) ≤ j → j ≤ my + c.g →
    A ![i, j, k] = A' ![i, j, k + s] ∧ Q ![i, j, k] = Q' ![i, j, k + s]

theorem allRows3_plane (hg : 2 ≤ c.g) {k : Int} (h : SamePlane c mx my s A A' Q Q' k) (i j : Int) (i1 : 0 ≤ i) (i2 : i ≤ mx + 1)
    (j1 : 0 ≤ j) (j2 : j ≤ my + 1) :
    allRows3 undef rpx c capa dt mx A Q i j k = allRows3 undef rpx c capa dt mx A' Q' i j (k + s) := by
  unfold allRows3
  split_ifs with hi
  · exact rowStep_local undef rpx _ capa _ _ _ _ i (fun l a b => (h l j (by omega) (by omega) (by omega) (by omega)).1)
      (fun l a b => (h l j (by omega) (by omega) (by omega) (by omega)).2)
  · exact (h i j (by omega) (by omega) (by omega) (by omega)).2

theorem allPlanes3_plane (hg : 2 ≤ c.g) (hN : Narrow c.order c.limiter) {k : Int} (h : SamePlane c mx my s A A' Q Q' k) (i j : Int)
    (i1 : 0 ≤ i) (i2 : i ≤ mx + 1) (j1 : 0 ≤ j) (j2 : j ≤ my + 1) :
    allPlanes3 undef rpx rpy c capa dt mx my A Q i j k = allPlanes3 undef rpx rpy c capa dt mx my A' Q' i j (k + s) := by
  unfold allPlanes3
  split_ifs with hj
  · exact rowStep_narrow undef rpy _ hN capa _ _ _ _ j (fun l a b => (h i l (by omega) (by omega) (by omega) (by omega)).1)
      (fun l a b => allRows3_plane hg h i l i1 i2 (by omega) (by omega))
  · exact allRows3_plane hg h i j i1 i2 j1 j2

theorem splitNew3_planes (hg : 2 ≤ c.g) (hN : Narrow c.order c.limiter) (v : Fin 3 → Int) (v1 : 1 ≤ v 0) (v2 : v 0 ≤ mx) (u1 : 1 ≤ v 1)
    (u2 : v 1 ≤ my) (h : ∀ k, v 2 - 1 ≤ k → k ≤ v 2 + 1 → SamePlane c mx my s A A' Q Q' k) :
    splitNew3 undef rpx rpy rpz c capa dt A Q v = splitNew3 undef rpx rpy rpz c capa dt A' Q' ![v 0, v 1, v 2 + s] := by
  unfold splitNew3
  simp only [Matrix.cons_val_zero, Matrix.cons_val_one, Matrix.cons_val]
  rw [← rowStep_shift]
  refine rowStep_narrow undef rpz _ hN capa _ _ _ _ _ (fun k a b => (h k a b (v 0) (v 1) (by omega) (by omega) (by omega) (by omega)).1)
    (fun k a b => ?_)
  have := allPlanes3_plane (undef := undef) (rpx := rpx) (rpy := rpy) (capa := capa) (dt := dt) hg hN (h k a b) (v 0) (v 1) (by omega) (by omega)
    (by omega) (by omega)
  unfold allPlanes3 allRows3 at this
  simpa only [if_pos (And.intro v1 v2), if_pos (And.intro u1 u2)] using this

theorem splitNumsXY_plane (hg : 2 ≤ c.g) {k : Int} (h : SamePlane c mx my s A A' Q Q' k) (x : K) :
    splitNumsXY undef rpx rpy c capa dt mx my A Q k x ↔ splitNumsXY undef rpx rpy c capa dt mx my A' Q' (k + s) x := by
  unfold splitNumsXY
  refine or_congr ?_ ?_ <;>
    refine exists_congr fun i => exists_congr fun j => and_congr_right fun hi => and_congr_right fun hj => ?_
  · have := waveNumber_congr rpx dt c.dx capa (fun i => A' ![i, j, k + s]) (fun i => A ![i, j, k]) (fun i => Q' ![i, j, k + s])
      (fun i => Q ![i, j, k]) 0 i x
      (by rw [add_zero]; exact (h _ _ (by omega) (by omega) (by omega) (by omega)).1)
      (by rw [add_zero]; exact (h _ _ (by omega) (by omega) (by omega) (by omega)).1)
      (by rw [add_zero]; exact (h _ _ (by omega) (by omega) (by omega) (by omega)).2)
      (by rw [add_zero]; exact (h _ _ (by omega) (by omega) (by omega) (by omega)).2)
    rwa [add_zero] at this
  · have := waveNumber_congr rpy dt c.dy capa (fun j => A' ![i, j, k + s]) (fun j => A ![i, j, k])
      (fun j => allRows3 undef rpx c capa dt mx A' Q' i j (k + s)) (fun j => allRows3 undef rpx c capa dt mx A Q i j k) 0 j x
      (by rw [add_zero]; exact (h _ _ (by omega) (by omega) (by omega) (by omega)).1)
      (by rw [add_zero]; exact (h _ _ (by omega) (by omega) (by omega) (by omega)).1)
      (by rw [add_zero]; exact allRows3_plane hg h _ _ (by omega) (by omega) (by omega) (by omega))
      (by rw [add_zero]; exact allRows3_plane hg h _ _ (by omega) (by omega) (by omega) (by omega))
    rwa [add_zero] at this

theorem splitNumsZ_plane (hg : 2 ≤ c.g) (hN : Narrow c.order c.limiter) {k : Int} (h : SamePlane c mx my s A A' Q Q' k)
    (h' : SamePlane c mx my s A A' Q Q' (k - 1)) (x : K) :
    splitNumsZ undef rpx rpy rpz c capa dt mx my A Q k x ↔ splitNumsZ undef rpx rpy rpz c capa dt mx my A' Q' (k + s) x := by
  unfold splitNumsZ
  refine exists_congr fun i => exists_congr fun j => and_congr_right fun hi => and_congr_right fun hj => ?_
  exact waveNumber_congr rpz dt c.dz capa (fun k => A' ![i, j, k]) (fun k => A ![i, j, k])
    (fun k => allPlanes3 undef rpx rpy c capa dt mx my A' Q' i j k) (fun k => allPlanes3 undef rpx rpy c capa dt mx my A Q i j k) s k x
    (h i j (by omega) (by omega) (by omega) (by omega)).1 (h' i j (by omega) (by omega) (by omega) (by omega)).1
    (allPlanes3_plane hg hN h i j hi.1 hi.2 hj.1 hj.2) (allPlanes3_plane hg hN h' i j hi.1 hi.2 hj.1 hj.2)

end shift

theorem triple_eta (v : Fin 3 → Int) : ![v 0, v 1, v 2] = v := by
  funext a; fin_cases a <;> rfl

/-- A split step on a grid and its image behind the upper end of the third axis. -/
theorem split3_unfolds (undef : K) (rpx rpy rpz : Riemann K (Fin naux → K) m w) (c : Cfg3 K w) (hg : 2 ≤ c.g) (hN : Narrow c.order c.limiter)
    (capa : Option ((Fin naux → K) → K)) (n : Fin 3 → Nat) (hn : 0 < n 2) (T : (Fin m → K) → Fin m → K)
    (himg : ImageStep (intSplit3 undef rpx rpy rpz c capa) (intSplit3 undef rpx rpy rpz c capa) n n
      (fun v => Function.update v 2 ((n 2 : Int) + 1 - v 2)) T id) :
    UnfoldsStep (intSplit3 undef rpx rpy rpz c capa) c.g n 2 T := by
  intro dt A A' Q Q' left right
  right
  have n0 : Function.update n 2 (2 * n 2) 0 = n 0 := rfl
  have n1 : Function.update n 2 (2 * n 2) 1 = n 1 := rfl
  have n2 : Function.update n 2 (2 * n 2) 2 = 2 * n 2 := rfl
  let AI : (Fin 3 → Int) → Fin naux → K := fun v => id (A (Function.update v 2 ((n 2 : Int) + 1 - v 2)))
  let QI : (Fin 3 → Int) → Fin m → K := fun v => T (Q (Function.update v 2 ((n 2 : Int) + 1 - v 2)))
  have L : ∀ k : Int, 1 - (c.g : Int) ≤ k → k ≤ n 2 + c.g → SamePlane c (n 0) (n 1) 0 A A' Q Q' k := by
    intro k k1 k2 i j i1 i2 j1 j2
    have := left ![i, j, k] fun b => by fin_cases b <;> simp <;> omega
    rw [add_zero]
    exact ⟨this.2.symm, this.1.symm⟩
  have R : ∀ k : Int, 1 - (c.g : Int) ≤ k → k ≤ n 2 + c.g → SamePlane c (n 0) (n 1) (n 2) AI A' QI Q' k := by
    intro k k1 k2 i j i1 i2 j1 j2
    have := right ![i, j, (n 2 : Int) + 1 - k] fun b => by fin_cases b <;> simp <;> omega
    simp only [update_triple2, Matrix.cons_val_zero, Matrix.cons_val_one, Matrix.cons_val] at this
    rw [show 2 * (n 2 : Int) + 1 - ((n 2 : Int) + 1 - k) = k + n 2 by ring] at this
    simp only [AI, QI, update_triple2, Matrix.cons_val, id]
    exact ⟨this.2.symm, this.1.symm⟩
  obtain ⟨r, cfl, e1, e2, e3⟩ := split3_form undef rpx rpy rpz c hg hN capa n dt A Q
  obtain ⟨ri, cfli, f1, f2, f3⟩ := split3_form undef rpx rpy rpz c hg hN capa n dt AI QI
  obtain ⟨r', cfl', g1, g2, g3⟩ := split3_form undef rpx rpy rpz c hg hN capa (Function.update n 2 (2 * n 2)) dt A' Q'
  rcases himg dt A Q with ⟨h, _⟩ | ⟨r0, ri0, cfl0, h1, h2, h3⟩
  · rw [e1] at h; cases h
  rw [e1] at h1
  obtain ⟨rfl, rfl⟩ := Prod.mk.inj (Option.some.inj h1)
  have h2' : intSplit3 undef rpx rpy rpz c capa dt n AI QI = some (ri0, cfl) := h2
  rw [f1] at h2'
  obtain ⟨rfl, rfl⟩ := Prod.mk.inj (Option.some.inj h2')
  have hcfl : cfl' = cfli := by
    have hm := isMax_max e3 f3
    rw [max_self] at hm
    refine isMax_unique g3 (isMax_congr (fun x => ?_) hm)
    rw [n0, n1, n2]
    push_cast
    constructor
    · rintro ((⟨k, hk, h⟩ | ⟨k, hk, h⟩) | (⟨k, hk, h⟩ | ⟨k, hk, h⟩))
      · refine Or.inl ⟨k, by omega, ?_⟩
        have := (splitNumsXY_plane hg (L k (by omega) (by omega)) x).mp h
        rwa [add_zero] at this
      · refine Or.inr ⟨k, by omega, ?_⟩
        have := (splitNumsZ_plane hg hN (L k (by omega) (by omega)) (L (k - 1) (by omega) (by omega)) x).mp h
        rwa [add_zero] at this
      · exact Or.inl ⟨k + n 2, by omega, (splitNumsXY_plane hg (R k (by omega) (by omega)) x).mp h⟩
      · exact Or.inr ⟨k + n 2, by omega, (splitNumsZ_plane hg hN (R k (by omega) (by omega)) (R (k - 1) (by omega) (by omega)) x).mp h⟩
    · rintro (⟨k, hk, h⟩ | ⟨k, hk, h⟩)
      · by_cases hc : k ≤ n 2 + 1
        · refine Or.inl (Or.inl ⟨k, ⟨hk.1, hc⟩, (splitNumsXY_plane hg (L k (by omega) (by omega)) x).mpr ?_⟩)
          rwa [add_zero]
        · refine Or.inr (Or.inl ⟨k - n 2, by omega, (splitNumsXY_plane hg (R (k - n 2) (by omega) (by omega)) x).mpr ?_⟩)
          rwa [sub_add_cancel]
      · by_cases hc : k ≤ n 2 + 1
        · refine Or.inl (Or.inr ⟨k, ⟨hk.1, hc⟩, (splitNumsZ_plane hg hN (L k (by omega) (by omega)) (L (k - 1) (by omega) (by omega)) x).mpr ?_⟩)
          rwa [add_zero]
        · refine Or.inr (Or.inr ⟨k - n 2, by omega, (splitNumsZ_plane hg hN (R (k - n 2) (by omega) (by omega))
            (R (k - n 2 - 1) (by omega) (by omega)) x).mpr ?_⟩)
          rwa [sub_add_cancel]
  subst hcfl
  refine ⟨r, r', _, e1, g1, fun v hv => ?_⟩
  have v0 := hv 0
  have v1 := hv 1
  have v2 := hv 2
  constructor
  · rw [e2 v hv, g2 v fun b => by fin_cases b <;> simp [n0, n1, n2] <;> omega]
    have := splitNew3_planes (undef := undef) (rpx := rpx) (rpy := rpy) (rpz := rpz) (capa := capa) (dt := dt) hg hN v v0.1 v0.2 v1.1 v1.2
      (fun k a b => L k (by omega) (by omega))
    rw [add_zero, triple_eta] at this
    exact this.symm
  · have hi := h3 (Function.update v 2 ((n 2 : Int) + 1 - v 2)) fun b => by fin_cases b <;> simp <;> omega
    beta_reduce at hi
    rw [Function.update_idem, Function.update_self, sub_sub_cancel, Function.update_eq_self] at hi
    rw [← hi, f2 _ fun b => by fin_cases b <;> simp <;> omega]
    have := splitNew3_planes (undef := undef) (rpx := rpx) (rpy := rpy) (rpz := rpz) (capa := capa) (dt := dt) hg hN
      (Function.update v 2 ((n 2 : Int) + 1 - v 2)) (mx := n 0) (my := n 1) (s := n 2) (A := AI) (A' := A') (Q := QI) (Q' := Q')
      (by simpa using v0.1) (by simpa using v0.2) (by simpa using v1.1) (by simpa using v1.2)
      (fun k a b => R k (by simp at a; omega) (by simp at b; omega))
    rw [this, g2 _ fun b => by fin_cases b <;> simp [n0, n1, n2] <;> omega]
    congr 1
    funext b
    fin_cases b
    · simp
    · simp
    · simp; ring

/-- C92 with dimensional splitting in space: a wall at the upper end of the third axis, at its lower end an open end or another wall, a scheme
without a limiter. Full statement: for all walls and schemes. On the other axes it is false as in the plane (`C92_split2_violated`), and with a
limiter it is false on the third axis too (`C92_split3_violated`). f-waves as in `C92_unsplit2_partial`. -/
theorem C92_split3_partial [FloorRing K] (undef : K) (cfg : Cfg3 K w) (hN : Narrow cfg.order cfg.limiter) (capa : Option ((Fin naux → K) → K))
    (rp : Fin 3 → Riemann K (Fin naux → K) m w) (π : Fin 3 → Equiv.Perm (Fin w)) (c c' : ParCfg (Fin 3) K)
    (hM : MirrorImage (axisSign c.bc 2 m) id (π 2) cfg.fwave (rp 2) (rp 2))
    (hT : ∀ b, b ≠ 2 → TurnedImage (signed (axisSign c.bc 2 m)) id (π b) (rp b) (rp b))
    (hl : ∀ b p, cfg.limiter (π b p) = cfg.limiter p)
    (hf : cfg.fwave = true → cfg.order ≠ 1 → ∀ ql qr al ar p, (rp 2 ql qr al ar).s p ≠ 0)
    (hr : ClassicRun c m naux (split3 undef rp cfg capa)) (hr' : ClassicRun c' m naux (split3 undef rp cfg capa))
    (ha : Admissible c.bc) (hs : Serial c.bc) (hg : cfg.g = c.bc.g)
    (hw : c.bc.bcUpper 2 = .wall) (hwx : 0 < naux → c.bc.auxUpper 2 = .wall)
    (hp : c.bc.bcLower 2 ≠ .periodic) (hpx : 0 < naux → c.bc.auxLower 2 ≠ .periodic)
    (hbc : c'.bc = unfoldAxis 2 c.bc) (rnd : K → K) (L L' : K)
    (ops : List (StepOp K (GArr (Fin 3) K) (GArr (Fin 3) K × BCArrays (Fin 3) K))) (hops : OnlyEvolves ops)
    (s s' : StepState K (GArr (Fin 3) K) (GArr (Fin 3) K × BCArrays (Fin 3) K))
    (h : InStep (UnfoldedAlong m naux c.bc.n 2 (axisSign c.bc 2 m)) s s') :
    InStep (UnfoldedAlong m naux c.bc.n 2 (axisSign c.bc 2 m)) (runSteps (serialEnv c rnd L) ops s)
      (runSteps (serialEnv c' rnd L') ops s') := by
  have hg2 : 2 ≤ cfg.g := by rw [hg]; exact hr.ghost
  refine unfoldsStep_run (agree_refl _) c c' hr hr' ha hs 2 hbc ?_ hw hwx hp hpx rnd L L' ops hops s s' h
  rw [← hg]
  exact split3_unfolds undef (rp 0) (rp 1) (rp 2) cfg hg2 hN capa c.bc.n (ha.cells 2).1 _
    (mirror_split_image3 undef 2 cfg cfg.limiter hg2 capa (axisSign_isSign c.bc 2) hM hT hl (fun _ _ _ => rfl) hf c.bc.n)

/-- Non-vacuity of `C92_split3_partial`: sound on 3 by 2 by 4 cells with a wall below and above, second order without a limiter, and on 3 by 2 by 8
cells with a wall below and its image above; a wall on the left, periodic in `y`. -/
example (undef : ℚ) (q : Fin 4 → (Fin 3 → Nat) → ℚ)
    (ops : List (StepOp ℚ (GArr (Fin 3) ℚ) (GArr (Fin 3) ℚ × BCArrays (Fin 3) ℚ))) (hops : OnlyEvolves ops) (rnd : ℚ → ℚ) (L L' : ℚ) :=
  let cfg : Cfg3 ℚ 2 := ⟨0, 0, 0, 2, 0, 1 / 3, 1 / 2, 1 / 4, 2, 22, false, false, fun _ => 0⟩
  let c := exCube ![3, 2, 4] ![.wall, .periodic, .wall] ![.extrap, .periodic, .wall] (split3 undef cubeRp cfg none)
  have e : axisSign c.bc 2 4 = cubeSign 2 := by funext k; fin_cases k <;> simp [axisSign, c, exCube, cubeSign]
  have M := cube_mirror (K := ℚ) (naux := 0) 2 false rfl
  C92_split3_partial undef cfg (Or.inr fun _ => le_refl 0) none cubeRp (fun b => if b = 2 then Equiv.swap 0 1 else Equiv.refl _) c
    (exCube ![3, 2, 8] ![.wall, .periodic, .wall] ![.extrap, .periodic, .wall] (split3 undef cubeRp cfg none))
    (by rw [e]; exact M.across) (by rw [e]; exact M.along) (fun _ _ => rfl) (fun h => absurd h (by simp [cfg]))
    (exCube_run _ _ _ _) (exCube_run _ _ _ _)
    (by
      refine ⟨?_, ?_, ?_, ?_, ?_, ?_⟩
      · intro a; fin_cases a <;> simp [c, exCube]
      · intro a; fin_cases a <;> simp [c, exCube, BuiltInBC]
      · intro a; fin_cases a <;> simp [c, exCube, BuiltInBC]
      · intro h; simp [c, exCube] at h
      · intro h; simp [c, exCube] at h
      · intro a; fin_cases a <;> simp [c, exCube])
    (fun _ => ⟨rfl, rfl⟩) rfl rfl (fun h => absurd h (by norm_num)) (by simp [c, exCube]) (fun h => absurd h (by norm_num))
    (by
      simp only [c, exCube, unfoldAxis, BCConfig.mk.injEq, and_true, true_and]
      refine ⟨?_, ?_, ?_⟩ <;> funext b <;> fin_cases b <;> rfl)
    rnd L L' ops hops (exInCube q) (exInCube (withImage c.bc.n 2 (cubeSign 2) q))
    ⟨rfl, rfl, rfl, rfl, fun x hx k => by
      rw [e]
      simpa only [exInCube, Fin.is_lt, dif_pos, Fin.eta] using withImage_spec c.bc.n 2 (cubeSign 2) q x hx k, fun _ _ k => k.elim0⟩

/-- Two waves with half the jump each, to both sides. -/
def exBothRp : Riemann ℚ (Fin 0 → ℚ) 1 2 := fun ql qr _ _ =>
  { wave := fun _ k => (qr k - ql k) / 2, s := ![-1, 1], amdq := fun k => -(qr k - ql k) / 2, apdq := fun k => (qr k - ql k) / 2 }

/-- One moving wave, to the right. -/
def exRightRp : Riemann ℚ (Fin 0 → ℚ) 1 2 := fun ql qr _ _ =>
  { wave := ![0, fun k => qr k - ql k], s := ![0, 1], amdq := 0, apdq := fun k => qr k - ql k }

/-- No waves. -/
def exNoneRp : Riemann ℚ (Fin 0 → ℚ) 1 2 := fun _ _ _ _ => { wave := fun _ => 0, s := fun _ => 0, amdq := 0, apdq := 0 }

/-- Second order with the minmod limiter. -/
def exWall3 : Cfg3 ℚ 2 := ⟨2, 2, 2, 2, 1 / 2, 1, 1, 1, 2, 22, false, false, fun _ => 1⟩

/-- A component that a wall reverses, on both sides of a wall above the plane 2. -/
def exReversed : (Fin 3 → Int) → Fin 1 → ℚ := fun v _ =>
  (if v 0 % 2 = 0 then 9 else 0) * (if v 2 = 0 then 2 else if v 2 = 1 then 8 else if v 2 = 2 then 3 else if v 2 = 3 then -3 else
    if v 2 = 4 then -8 else if v 2 = 5 then -2 else 0)

/-- With splitting and a limiter a wall on the third axis is no mirror: two planes below a wall, with ghost cells that are the image of the
grid, and the same planes with their image give different values next to the wall, because the outer of the two ghost planes is not
swept along `x`, and the limiter reads it. -/
theorem C92_split3_violated : MirrorImage (fun _ => -1) id (Equiv.swap 0 1) false exBothRp exBothRp ∧
    TurnedImage (signed fun _ => -1) id (Equiv.refl _) exRightRp exRightRp ∧
    TurnedImage (signed fun _ => -1) id (Equiv.refl _) exNoneRp exNoneRp ∧
    (∀ v : Fin 3 → Int, exReversed (Function.update v 2 (2 * 2 + 1 - v 2)) = signed (fun _ => -1) (exReversed v)) ∧
    (intSplit3 0 exRightRp exNoneRp exBothRp exWall3 none (1 / 2) ![2, 2, 2] (fun _ => default) exReversed).map (fun r => r.1 ![1, 1, 2] 0) =
      some (99 / 8) ∧
    (intSplit3 0 exRightRp exNoneRp exBothRp exWall3 none (1 / 2) ![2, 2, 4] (fun _ => default) exReversed).map (fun r => r.1 ![1, 1, 2] 0) =
      some (441 / 32) := by
  refine ⟨fun ql qr al ar => ⟨fun p => ?_, fun p => ?_, ?_, ?_⟩, fun ql qr al ar => ⟨fun p => ?_, fun p => ?_, ?_, ?_⟩,
    fun ql qr al ar => ⟨fun p => ?_, fun p => ?_, ?_, ?_⟩, ?_, ?_, ?_⟩
  · fin_cases p <;> simp [exBothRp]
  · funext k
    fin_cases p <;> simp [exBothRp, signed] <;> ring
  · funext k
    simp [exBothRp, signed]; ring
  · funext k
    simp [exBothRp, signed]; ring
  · fin_cases p <;> simp [exRightRp]
  · funext k
    fin_cases p <;> simp [exRightRp, signed]; ring
  · funext k
    simp [exRightRp, signed]
  · funext k
    simp [exRightRp, signed]; ring
  · fin_cases p <;> simp [exNoneRp]
  · funext k
    simp [exNoneRp, signed]
  · funext k
    simp [exNoneRp, signed]
  · funext k
    simp [exNoneRp, signed]
  · intro v
    funext k
    have h0 : Function.update v 2 (2 * 2 + 1 - v 2) 0 = v 0 := rfl
    simp only [exReversed, signed, h0, Function.update_self]
    have hv : v 2 = 0 ∨ v 2 = 1 ∨ v 2 = 2 ∨ v 2 = 3 ∨ v 2 = 4 ∨ v 2 = 5 ∨ (v 2 < 0 ∨ 5 < v 2) := by omega
    rcases hv with h | h | h | h | h | h | h
    iterate 6
      by_cases hp : v 0 % 2 = 0 <;> simp [h, hp]
    have e : ∀ x : Int, x < 0 ∨ 5 < x → (if x = 0 then 2 else if x = 1 then 8 else if x = 2 then 3 else if x = 3 then -3 else
        if x = 4 then -8 else if x = 5 then -2 else (0 : ℚ)) = 0 := by
      intro x hx
      rw [if_neg (by omega), if_neg (by omega), if_neg (by omega), if_neg (by omega), if_neg (by omega), if_neg (by omega)]
    rw [e _ h, e _ (by omega)]
    simp
  all_goals
    simp only [intSplit3, Option.map_some, Matrix.cons_val_zero, Matrix.cons_val_one, Matrix.cons_val, Option.some.injEq]
    rw [splitStep3_eq _ _ _ _ _ (by decide), if_pos (by decide)]
    decide +kernel

end PyClaw
