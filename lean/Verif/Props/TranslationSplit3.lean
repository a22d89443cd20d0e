import Verif.Props.Translation
import Verif.Lemmas.Superpose3
import Mathlib.Data.Rat.Floor

/-!
C90 for the dimensionally split kernel in three dimensions.

Its sweeps update one ring of ghost rows beside the interior. A scheme that reads one neighbour in each direction sees updated rows
only, one with a limiter also reads rows that are still old.
-/
set_option linter.unusedSectionVars false

namespace PyClaw
open Spec

variable {K : Type*} [Field K] [LinearOrder K] [IsStrictOrderedRing K] {m w naux : Nat}

/-- The array after the sweeps in `x`, for all rows. -/
def allRows3 (undef : K) (rpx : Riemann K (Fin naux → K) m w) (c : Cfg3 K w) (capa : Option ((Fin naux → K) → K)) (dt : K) (mx : Nat)
    (A : (Fin 3 → Int) → Fin naux → K) (Q : (Fin 3 → Int) → Fin m → K) (i j k : Int) : Fin m → K :=
  if 1 ≤ i ∧ i ≤ (mx : Int) then
    rowStep undef rpx ({ c with dt := dt } : Cfg3 K w).row capa (fun i => A ![i, j, k]) (fun i => Q ![i, j, k]) i
  else Q ![i, j, k]

/-- The array after the sweeps in `x` and `y`, for all rows. -/
def allPlanes3 (undef : K) (rpx rpy : Riemann K (Fin naux → K) m w) (c : Cfg3 K w) (capa : Option ((Fin naux → K) → K)) (dt : K)
    (mx my : Nat) (A : (Fin 3 → Int) → Fin naux → K) (Q : (Fin 3 → Int) → Fin m → K) (i j k : Int) : Fin m → K :=
  if 1 ≤ j ∧ j ≤ (my : Int) then
    rowStep undef rpy ({ c with dt := dt } : Cfg3 K w).rot.row capa (fun j => A ![i, j, k])
      (fun j => allRows3 undef rpx c capa dt mx A Q i j k) j
  else allRows3 undef rpx c capa dt mx A Q i j k

/-- The formula of the split step. -/
def splitNew3 (undef : K) (rpx rpy rpz : Riemann K (Fin naux → K) m w) (c : Cfg3 K w) (capa : Option ((Fin naux → K) → K)) (dt : K)
    (A : (Fin 3 → Int) → Fin naux → K) (Q : (Fin 3 → Int) → Fin m → K) (v : Fin 3 → Int) : Fin m → K :=
  rowStep undef rpz ({ c with dt := dt } : Cfg3 K w).rot.rot.row capa (fun k => A ![v 0, v 1, k])
    (fun k => rowStep undef rpy ({ c with dt := dt } : Cfg3 K w).rot.row capa (fun j => A ![v 0, j, k])
      (fun j => rowStep undef rpx ({ c with dt := dt } : Cfg3 K w).row capa (fun i => A ![i, j, k]) (fun i => Q ![i, j, k]) (v 0)) (v 1)) (v 2)

/-- The Courant numbers of the split step on a grid with infinitely many planes. -/
def splitNums3 (undef : K) (rpx rpy rpz : Riemann K (Fin naux → K) m w) (c : Cfg3 K w) (capa : Option ((Fin naux → K) → K)) (dt : K)
    (mx my : Nat) (A : (Fin 3 → Int) → Fin naux → K) (Q : (Fin 3 → Int) → Fin m → K) (k : Int) (x : K) : Prop :=
  ((∃ i j : Int, (1 ≤ i ∧ i ≤ mx + 1) ∧ (0 ≤ j ∧ j ≤ my + 1) ∧
    WaveNumber (localRatio dt c.dx capa fun i => A ![i, j, k]) (interfaces rpx (fun i => A ![i, j, k]) (fun i => Q ![i, j, k])) i x) ∨
  (∃ i j : Int, (0 ≤ i ∧ i ≤ mx + 1) ∧ (1 ≤ j ∧ j ≤ my + 1) ∧
    WaveNumber (localRatio dt c.dy capa fun j => A ![i, j, k])
      (interfaces rpy (fun j => A ![i, j, k]) (fun j => allRows3 undef rpx c capa dt mx A Q i j k)) j x)) ∨
  (∃ i j : Int, (0 ≤ i ∧ i ≤ mx + 1) ∧ (0 ≤ j ∧ j ≤ my + 1) ∧
    WaveNumber (localRatio dt c.dz capa fun k => A ![i, j, k])
      (interfaces rpz (fun k => A ![i, j, k]) (fun k => allPlanes3 undef rpx rpy c capa dt mx my A Q i j k)) k x)

theorem split3_periodic (undef : K) (rpx rpy rpz : Riemann K (Fin naux → K) m w) (c : Cfg3 K w) (hg : 2 ≤ c.g)
    (hN : Narrow c.order c.limiter)
    (capa : Option ((Fin naux → K) → K)) (n : Fin 3 → Nat) (hn : ∀ a, 0 < n a) (dt : K)
    (A : (Fin 3 → Int) → Fin naux → K) (Q : (Fin 3 → Int) → Fin m → K)
    (EA : (Fin 3 → Int) → Fin naux → K) (EQ : (Fin 3 → Int) → Fin m → K)
    (hE : ∀ v : Fin 3 → Int, (∀ a, 1 - (c.g : Int) ≤ v a ∧ v a ≤ n a + c.g) → A v = EA v ∧ Q v = EQ v)
    (hP : ∀ v s : Fin 3 → Int, (∀ a, s a % (n a : Int) = 0) → EA (fun a => v a + s a) = EA v ∧ EQ (fun a => v a + s a) = EQ v) :
    ∃ r cfl, intSplit3 undef rpx rpy rpz c capa dt n A Q = some (r, cfl) ∧
      (∀ v : Fin 3 → Int, (∀ a, 1 ≤ v a ∧ v a ≤ n a) → r v = splitNew3 undef rpx rpy rpz c capa dt EA EQ v) ∧
      IsMaxWithZero (fun x => ∃ k, splitNums3 undef rpx rpy rpz c capa dt (n 0) (n 1) EA EQ k x) cfl := by
  let c' : Cfg3 K w := { c with mx := n 0, my := n 1, mz := n 2, dt := dt }
  have hb : ∀ i j k : Int, 1 - (c.g : Int) ≤ i → i ≤ n 0 + c.g → 1 - (c.g : Int) ≤ j → j ≤ n 1 + c.g →
      1 - (c.g : Int) ≤ k → k ≤ n 2 + c.g → A ![i, j, k] = EA ![i, j, k] ∧ Q ![i, j, k] = EQ ![i, j, k] := by
    intro i j k i1 i2 j1 j2 k1 k2
    refine hE _ fun a => ?_
    fin_cases a <;> simp <;> omega
  have hpz : ∀ i j k s : Int, s % (n 2 : Int) = 0 → EA ![i, j, k + s] = EA ![i, j, k] ∧ EQ ![i, j, k + s] = EQ ![i, j, k] := by
    intro i j k s hs
    have := hP ![i, j, k] ![0, 0, s] (fun a => by fin_cases a <;> simp [hs])
    rwa [show (fun a => ![i, j, k] a + ![0, 0, s] a) = ![i, j, k + s] by funext a; fin_cases a <;> simp] at this
  let X := afterX undef rpx c' capa (fun i j k => A ![i, j, k]) (fun i j k => Q ![i, j, k])
  let Y := afterY undef rpx rpy c' capa (fun i j k => A ![i, j, k]) (fun i j k => Q ![i, j, k])
  have hX : ∀ i j k : Int, 0 ≤ i → i ≤ n 0 + 1 → 0 ≤ j → j ≤ n 1 + 1 → 0 ≤ k → k ≤ n 2 + 1 →
      X i j k = allRows3 undef rpx c capa dt (n 0) EA EQ i j k := by
    intro i j k i1 i2 j1 j2 k1 k2
    dsimp only [X]
    unfold afterX allRows3
    by_cases h : 1 ≤ i ∧ i ≤ (n 0 : Int)
    · rw [if_pos ⟨⟨⟨j1, j2⟩, k1, k2⟩, h⟩, if_pos h]
      exact rowStep_narrow undef rpx c'.row hN capa _ _ _ _ i
        (fun l a b => (hb l j k (by omega) (by omega) (by omega) (by omega) (by omega) (by omega)).1)
        (fun l a b => (hb l j k (by omega) (by omega) (by omega) (by omega) (by omega) (by omega)).2)
    · rw [if_neg (fun hh => h hh.2), if_neg h]
      exact (hb i j k (by omega) (by omega) (by omega) (by omega) (by omega) (by omega)).2
  have hY : ∀ i j k : Int, 0 ≤ i → i ≤ n 0 + 1 → 0 ≤ j → j ≤ n 1 + 1 → 0 ≤ k → k ≤ n 2 + 1 →
      Y i j k = allPlanes3 undef rpx rpy c capa dt (n 0) (n 1) EA EQ i j k := by
    intro i j k i1 i2 j1 j2 k1 k2
    dsimp only [Y]
    unfold afterY allPlanes3
    by_cases h : 1 ≤ j ∧ j ≤ (n 1 : Int)
    · rw [if_pos ⟨⟨⟨k1, k2⟩, i1, i2⟩, h⟩, if_pos h]
      exact rowStep_narrow undef rpy c'.rot.row hN capa _ _ _ _ j
        (fun l a b => (hb i l k (by omega) (by omega) (by omega) (by omega) (by omega) (by omega)).1)
        (fun l a b => hX i l k i1 i2 (by omega) (by omega) k1 k2)
    · rw [if_neg (fun hh => h hh.2), if_neg h]
      exact hX i j k i1 i2 j1 j2 k1 k2
  refine ⟨_, _, rfl, fun v hv => ?_, isMax_congr (fun x => ?_) (splitStep3_isMax undef c' (by show 1 ≤ c.g; omega) capa _ _)⟩
  · have h0 := hv 0
    have h1 := hv 1
    have h2 := hv 2
    show (splitStep3 undef rpx rpy rpz c' capa _ _).1 _ _ _ = _
    rw [splitStep3_eq undef rpx rpy rpz c' (by show 1 ≤ c.g; omega) capa]
    rw [if_pos (by show ((0 ≤ v 0 ∧ v 0 ≤ (n 0 : Int) + 1) ∧ 0 ≤ v 1 ∧ v 1 ≤ (n 1 : Int) + 1) ∧ 1 ≤ v 2 ∧ v 2 ≤ (n 2 : Int); omega)]
    unfold splitNew3
    refine rowStep_narrow undef rpz c'.rot.rot.row hN capa _ _ _ _ _
      (fun k a b => (hb _ _ _ (by omega) (by omega) (by omega) (by omega) (by omega) (by omega)).1) (fun k a b => ?_)
    refine (hY (v 0) (v 1) k (by omega) (by omega) (by omega) (by omega) (by omega) (by omega)).trans ?_
    unfold allPlanes3 allRows3
    simp only [if_pos (show 1 ≤ v 0 ∧ v 0 ≤ (n 0 : Int) by omega), if_pos (show 1 ≤ v 1 ∧ v 1 ≤ (n 1 : Int) by omega)]
  · have nx : ∀ i j k : Int, (1 ≤ i ∧ i ≤ (n 0 : Int) + 1) → (0 ≤ j ∧ j ≤ (n 1 : Int) + 1) → (0 ≤ k ∧ k ≤ (n 2 : Int) + 1) →
        (WaveNumber (localRatio dt c.dx capa fun i => A ![i, j, k])
          (interfaces rpx (fun i => A ![i, j, k]) (fun i => Q ![i, j, k])) i x ↔
        WaveNumber (localRatio dt c.dx capa fun i => EA ![i, j, k])
          (interfaces rpx (fun i => EA ![i, j, k]) (fun i => EQ ![i, j, k])) i x) := by
      intro i j k hi hj hk
      have := waveNumber_congr rpx dt c.dx capa (fun i => EA ![i, j, k]) (fun i => A ![i, j, k]) (fun i => EQ ![i, j, k])
        (fun i => Q ![i, j, k]) 0 i x
        (by rw [add_zero]; exact (hb _ _ _ (by omega) (by omega) (by omega) (by omega) (by omega) (by omega)).1)
        (by rw [add_zero]; exact (hb _ _ _ (by omega) (by omega) (by omega) (by omega) (by omega) (by omega)).1)
        (by rw [add_zero]; exact (hb _ _ _ (by omega) (by omega) (by omega) (by omega) (by omega) (by omega)).2)
        (by rw [add_zero]; exact (hb _ _ _ (by omega) (by omega) (by omega) (by omega) (by omega) (by omega)).2)
      rwa [add_zero] at this
    have ny : ∀ i j k : Int, (0 ≤ i ∧ i ≤ (n 0 : Int) + 1) → (1 ≤ j ∧ j ≤ (n 1 : Int) + 1) → (0 ≤ k ∧ k ≤ (n 2 : Int) + 1) →
        (WaveNumber (localRatio dt c.dy capa fun j => A ![i, j, k]) (interfaces rpy (fun j => A ![i, j, k]) (fun j => X i j k)) j x ↔
        WaveNumber (localRatio dt c.dy capa fun j => EA ![i, j, k]) (interfaces rpy (fun j => EA ![i, j, k])
          (fun j => allRows3 undef rpx c capa dt (n 0) EA EQ i j k)) j x) := by
      intro i j k hi hj hk
      have := waveNumber_congr rpy dt c.dy capa (fun j => EA ![i, j, k]) (fun j => A ![i, j, k])
        (fun j => allRows3 undef rpx c capa dt (n 0) EA EQ i j k) (fun j => X i j k) 0 j x
        (by rw [add_zero]; exact (hb _ _ _ (by omega) (by omega) (by omega) (by omega) (by omega) (by omega)).1)
        (by rw [add_zero]; exact (hb _ _ _ (by omega) (by omega) (by omega) (by omega) (by omega) (by omega)).1)
        (by rw [add_zero]; exact hX _ _ _ (by omega) (by omega) (by omega) (by omega) (by omega) (by omega))
        (by rw [add_zero]; exact hX _ _ _ (by omega) (by omega) (by omega) (by omega) (by omega) (by omega))
      rwa [add_zero] at this
    have nz : ∀ i j k : Int, (0 ≤ i ∧ i ≤ (n 0 : Int) + 1) → (0 ≤ j ∧ j ≤ (n 1 : Int) + 1) → (1 ≤ k ∧ k ≤ (n 2 : Int) + 1) →
        (WaveNumber (localRatio dt c.dz capa fun k => A ![i, j, k]) (interfaces rpz (fun k => A ![i, j, k]) (fun k => Y i j k)) k x ↔
        WaveNumber (localRatio dt c.dz capa fun k => EA ![i, j, k]) (interfaces rpz (fun k => EA ![i, j, k])
          (fun k => allPlanes3 undef rpx rpy c capa dt (n 0) (n 1) EA EQ i j k)) k x) := by
      intro i j k hi hj hk
      have := waveNumber_congr rpz dt c.dz capa (fun k => EA ![i, j, k]) (fun k => A ![i, j, k])
        (fun k => allPlanes3 undef rpx rpy c capa dt (n 0) (n 1) EA EQ i j k) (fun k => Y i j k) 0 k x
        (by rw [add_zero]; exact (hb _ _ _ (by omega) (by omega) (by omega) (by omega) (by omega) (by omega)).1)
        (by rw [add_zero]; exact (hb _ _ _ (by omega) (by omega) (by omega) (by omega) (by omega) (by omega)).1)
        (by rw [add_zero]; exact hY _ _ _ (by omega) (by omega) (by omega) (by omega) (by omega) (by omega))
        (by rw [add_zero]; exact hY _ _ _ (by omega) (by omega) (by omega) (by omega) (by omega) (by omega))
      rwa [add_zero] at this
    have per : ∀ k s : Int, s % (n 2 : Int) = 0 →
        (splitNums3 undef rpx rpy rpz c capa dt (n 0) (n 1) EA EQ k x ↔
          splitNums3 undef rpx rpy rpz c capa dt (n 0) (n 1) EA EQ (k + s) x) := by
      intro k s hs
      have e1 : ∀ i j k : Int, EA ![i, j, k + s] = EA ![i, j, k] := fun i j k => (hpz i j k s hs).1
      have e2 : ∀ i j k : Int, EQ ![i, j, k + s] = EQ ![i, j, k] := fun i j k => (hpz i j k s hs).2
      have e3 : ∀ i j k : Int, allRows3 undef rpx c capa dt (n 0) EA EQ i j (k + s) = allRows3 undef rpx c capa dt (n 0) EA EQ i j k := by
        intro i j k
        unfold allRows3
        simp only [e1, e2]
      have e4 : ∀ i j k : Int, allPlanes3 undef rpx rpy c capa dt (n 0) (n 1) EA EQ i j (k + s) =
          allPlanes3 undef rpx rpy c capa dt (n 0) (n 1) EA EQ i j k := by
        intro i j k
        unfold allPlanes3
        simp only [e1, e3]
      unfold splitNums3
      refine or_congr (or_congr ?_ ?_) (exists_congr fun i => exists_congr fun j => and_congr Iff.rfl (and_congr Iff.rfl ?_))
      · simp only [e1, e2]
      · simp only [e1, e3]
      · exact waveNumber_congr rpz dt c.dz capa (fun k => EA ![i, j, k]) (fun k => EA ![i, j, k])
          (fun k => allPlanes3 undef rpx rpy c capa dt (n 0) (n 1) EA EQ i j k)
          (fun k => allPlanes3 undef rpx rpy c capa dt (n 0) (n 1) EA EQ i j k) s k x
          (e1 i j k).symm (e1 i j (k - 1)).symm (e4 i j k).symm (e4 i j (k - 1)).symm
    have hn2 := hn 2
    constructor
    · rintro ((⟨i, j, k, hi, hj, hk, h⟩ | ⟨j, k, i, hj, hk, hi, h⟩) | ⟨k, i, j, hk, hi, hj, h⟩)
      · exact ⟨k, Or.inl (Or.inl ⟨i, j, hi, hj, (nx i j k hi hj hk).mp h⟩)⟩
      · exact ⟨k, Or.inl (Or.inr ⟨i, j, hi, hj, (ny i j k hi hj hk).mp h⟩)⟩
      · exact ⟨k, Or.inr ⟨i, j, hi, hj, (nz i j k hi hj hk).mp h⟩⟩
    · rintro ⟨k, h⟩
      have hm := wrapCell_rep (fun _ : Fin 1 => n 2) (fun _ => hn2) (fun _ => k) 0
      have hl := wrapCell_lt (fun _ : Fin 1 => n 2) (fun _ => hn2) (fun _ => k) 0
      generalize wrapCell (fun _ : Fin 1 => n 2) (fun _ => k) 0 = z at hm hl
      rw [per k _ hm, show k + ((z : Int) + 1 - k) = z + 1 by ring] at h
      have hz1 : (0 : Int) ≤ (z : Int) + 1 ∧ (z : Int) + 1 ≤ (n 2 : Int) + 1 := by omega
      have hz2 : (1 : Int) ≤ (z : Int) + 1 ∧ (z : Int) + 1 ≤ (n 2 : Int) + 1 := by omega
      rcases h with (⟨i, j, hi, hj, h⟩ | ⟨i, j, hi, hj, h⟩) | ⟨i, j, hi, hj, h⟩
      · exact Or.inl (Or.inl ⟨i, j, z + 1, hi, hj, hz1, (nx i j _ hi hj hz1).mpr h⟩)
      · exact Or.inl (Or.inr ⟨j, z + 1, i, hj, hz1, hi, (ny i j _ hi hj hz1).mpr h⟩)
      · exact Or.inr ⟨z + 1, i, j, hz2, hi, hj, (nz i j _ hi hj hz2).mpr h⟩

/-- What one split step does to translated data. -/
theorem split3_translate (undef : K) (rpx rpy rpz : Riemann K (Fin naux → K) m w) (cfg : Cfg3 K w) (hN : Narrow cfg.order cfg.limiter)
    (capa : Option ((Fin naux → K) → K))
    (g : Nat) (n : Fin 3 → Nat) (hn : ∀ a, 0 < n a) (hg : cfg.g = g) (hg2 : 2 ≤ g) (k : Fin 3 → Int) (dt : K)
    (A A' : (Fin 3 → Int) → Fin naux → K) (Q Q' : (Fin 3 → Int) → Fin m → K) (q q' a a' : GArr (Fin 3) K)
    (f : ∀ v : Fin 3 → Int, (∀ i, 1 - (g : Int) ≤ v i ∧ v i ≤ n i + g) →
      (Q v = fun k => q k.val (wrapCell n v)) ∧ A v = auxAt naux a (wrapCell n v))
    (f' : ∀ v : Fin 3 → Int, (∀ i, 1 - (g : Int) ≤ v i ∧ v i ≤ n i + g) →
      (Q' v = fun k => q' k.val (wrapCell n v)) ∧ A' v = auxAt naux a' (wrapCell n v))
    (ha : ∀ x : Fin 3 → Nat, (∀ i, x i < n i) → auxAt naux a' x = auxAt naux a (cellBefore n k x))
    (hq : ∀ x : Fin 3 → Nat, (∀ i, x i < n i) → (fun j : Fin m => q' j.val x) = fun j => q j.val (cellBefore n k x)) :
    ∃ r r' cfl cfl', intSplit3 undef rpx rpy rpz cfg capa dt n A Q = some (r, cfl) ∧
      intSplit3 undef rpx rpy rpz cfg capa dt n A' Q' = some (r', cfl') ∧
      (∀ x : Fin 3 → Nat, (∀ i, x i < n i) → r' (fun i => (x i : Int) + 1) = r fun i => (cellBefore n k x i : Int) + 1) ∧
      (k 0 = 0 → k 1 = 0 → cfl' = cfl) := by
  subst hg
  let EA : GArr (Fin 3) K → (Fin 3 → Int) → Fin naux → K := fun a v => auxAt naux a (wrapCell n v)
  let EQ : GArr (Fin 3) K → (Fin 3 → Int) → Fin m → K := fun q v => fun k => q k.val (wrapCell n v)
  have hP : ∀ (a q : GArr (Fin 3) K) (v s : Fin 3 → Int), (∀ i, s i % (n i : Int) = 0) →
      EA a (fun i => v i + s i) = EA a v ∧ EQ q (fun i => v i + s i) = EQ q v := by
    intro a q v s hs
    simp only [EA, EQ, wrapCell_add n v s hs, and_self]
  have hA : ∀ v, EA a' v = EA a fun i => v i + -k i := by
    intro v
    simp only [EA]
    rw [ha _ (wrapCell_lt _ hn v), cellBefore_wrapCell n hn k v]
    rfl
  have hQ : ∀ v, EQ q' v = EQ q fun i => v i + -k i := by
    intro v
    simp only [EQ]
    have := hq _ (wrapCell_lt _ hn v)
    rw [cellBefore_wrapCell n hn k v] at this
    exact this
  have hv3 : ∀ (i j l : Int) (s : Fin 3 → Int), (fun a => ![i, j, l] a + s a) = ![i + s 0, j + s 1, l + s 2] := by
    intro i j l s; funext a; fin_cases a <;> rfl
  have shift : ∀ (B B' : (Fin 3 → Int) → Fin naux → K) (P P' : (Fin 3 → Int) → Fin m → K) (s v : Fin 3 → Int),
      (∀ u, B' u = B fun i => u i + s i) → (∀ u, P' u = P fun i => u i + s i) →
      splitNew3 undef rpx rpy rpz cfg capa dt B' P' v = splitNew3 undef rpx rpy rpz cfg capa dt B P fun i => v i + s i := by
    intro B B' P P' s v hB hPP
    unfold splitNew3
    simp only [hB, hPP, hv3]
    rw [← rowStep_shift]
    congr 1
    funext l
    rw [← rowStep_shift]
    congr 1
    funext j
    exact rowStep_shift undef rpx _ capa (fun i => B ![i, j + s 1, l + s 2]) (fun i => P ![i, j + s 1, l + s 2]) (s 0) (v 0)
  obtain ⟨r, cfl, h1, h2, h3⟩ := split3_periodic undef rpx rpy rpz cfg hg2 hN capa n hn dt A Q (EA a) (EQ q)
    (fun v hv => ⟨(f v hv).2, (f v hv).1⟩) (hP a q)
  obtain ⟨r', cfl', h1', h2', h3'⟩ := split3_periodic undef rpx rpy rpz cfg hg2 hN capa n hn dt A' Q' (EA a') (EQ q')
    (fun v hv => ⟨(f' v hv).2, (f' v hv).1⟩) (hP a' q')
  refine ⟨r, r', cfl, cfl', h1, h1', fun x hx => ?_, fun hk0 hk1 => ?_⟩
  · rw [h2' _ (fun i => by have := hx i; omega), h2 _ (fun i => by have := cellBefore_lt n hn k x i; omega)]
    rw [shift (EA a) (EA a') (EQ q) (EQ q') (fun i => -k i) _ hA hQ]
    have hs : ∀ i, ((cellBefore n k x i : Int) + 1 - ((x i : Int) + 1 + -k i)) % (n i : Int) = 0 := by
      intro i
      have := wrapCell_rep n hn (fun i => (x i : Int) + 1 + -k i) i
      have e := congrFun (cellBefore_wrapCell n hn k (fun i => (x i : Int) + 1)) i
      rw [wrapCell_interior n x hx] at e
      rw [e]
      exact this
    rw [shift (EA a) (EA a) (EQ q) (EQ q) (fun i => (cellBefore n k x i : Int) + 1 - ((x i : Int) + 1 + -k i)) _
      (fun u => ((hP a q u _ hs).1).symm) (fun u => ((hP a q u _ hs).2).symm)]
    simp
  · refine isMax_unique h3' (isMax_congr (fun x => ?_) h3)
    have e1 : ∀ i j l : Int, EA a' ![i, j, l] = EA a ![i, j, l + -k 2] := fun i j l => by rw [hA, hv3, hk0, hk1]; simp
    have e2 : ∀ i j l : Int, EQ q' ![i, j, l] = EQ q ![i, j, l + -k 2] := fun i j l => by rw [hQ, hv3, hk0, hk1]; simp
    have e3 : ∀ i j l : Int, allRows3 undef rpx cfg capa dt (n 0) (EA a') (EQ q') i j l =
        allRows3 undef rpx cfg capa dt (n 0) (EA a) (EQ q) i j (l + -k 2) := by
      intro i j l
      unfold allRows3
      simp only [e1, e2]
    have e4 : ∀ i j l : Int, allPlanes3 undef rpx rpy cfg capa dt (n 0) (n 1) (EA a') (EQ q') i j l =
        allPlanes3 undef rpx rpy cfg capa dt (n 0) (n 1) (EA a) (EQ q) i j (l + -k 2) := by
      intro i j l
      unfold allPlanes3
      simp only [e1, e3]
    have num : ∀ l, splitNums3 undef rpx rpy rpz cfg capa dt (n 0) (n 1) (EA a') (EQ q') l x ↔
        splitNums3 undef rpx rpy rpz cfg capa dt (n 0) (n 1) (EA a) (EQ q) (l + -k 2) x := by
      intro l
      unfold splitNums3
      refine or_congr (or_congr ?_ ?_) (exists_congr fun i => exists_congr fun j => and_congr Iff.rfl (and_congr Iff.rfl ?_))
      · simp only [e1, e2]
      · simp only [e1, e3]
      · exact waveNumber_congr rpz dt cfg.dz capa (fun l => EA a ![i, j, l]) (fun l => EA a' ![i, j, l])
          (fun l => allPlanes3 undef rpx rpy cfg capa dt (n 0) (n 1) (EA a) (EQ q) i j l)
          (fun l => allPlanes3 undef rpx rpy cfg capa dt (n 0) (n 1) (EA a') (EQ q') i j l) (-k 2) l x
          (e1 i j l) (e1 i j (l - 1)) (e4 i j l) (e4 i j (l - 1))
    constructor
    · rintro ⟨l, h⟩
      refine ⟨l + k 2, (num _).mpr ?_⟩
      simpa using h
    · rintro ⟨l, h⟩
      exact ⟨_, (num l).mp h⟩

variable [FloorRing K]

/-- C90, the three-dimensional split kernel without a limiter, translations along the third axis. Full statement: for all schemes
and all translations. Missing: along the first two axes, where the Courant number depends on the position, and schemes with a
limiter, for which it is false, see `C90_split3_violated`. -/
theorem C90_split3_partial (undef : K) (rpx rpy rpz : Riemann K (Fin naux → K) m w) (cfg : Cfg3 K w)
    (hN : Narrow cfg.order cfg.limiter) (capa : Option ((Fin naux → K) → K))
    (c : ParCfg (Fin 3) K) (hr : ClassicRun c m naux (intSplit3 undef rpx rpy rpz cfg capa)) (hp : PeriodicGrid c.bc)
    (hg : cfg.g = c.bc.g) (k : Fin 3 → Int) (hk0 : k 0 = 0) (hk1 : k 1 = 0) (rnd : K → K) (L : K)
    (ops : List (StepOp K (GArr (Fin 3) K) (GArr (Fin 3) K × BCArrays (Fin 3) K))) (hops : OnlyEvolves ops)
    (s s' : StepState K (GArr (Fin 3) K) (GArr (Fin 3) K × BCArrays (Fin 3) K))
    (h : InStep (Corresponds m naux c.bc.n (cellBefore c.bc.n k) id id) s s') :
    InStep (Corresponds m naux c.bc.n (cellBefore c.bc.n k) id id) (runSteps (serialEnv c rnd L) ops s)
      (runSteps (serialEnv c rnd L) ops s') := by
  have hn : ∀ a, 0 < c.bc.n a := fun a => (hp.cells a).1
  have E := kernel_sim m naux c c _ _ hr hr (cellBefore c.bc.n k) (fun _ => id)
    (fun A Q q aux => ∀ v : Fin 3 → Int, (∀ a, 1 - (c.bc.g : Int) ≤ v a ∧ v a ≤ c.bc.n a + c.bc.g) →
        (Q v = fun k => q k.val (wrapCell c.bc.n v)) ∧ A v = auxAt naux aux (wrapCell c.bc.n v))
    (fun A Q q aux => ∀ v : Fin 3 → Int, (∀ a, 1 - (c.bc.g : Int) ≤ v a ∧ v a ≤ c.bc.n a + c.bc.g) →
        (Q v = fun k => q k.val (wrapCell c.bc.n v)) ∧ A v = auxAt naux aux (wrapCell c.bc.n v))
    (fun q aux old => periodic_fill c.bc hp c.axes (by rw [hr.axes]; exact List.nodup_finRange 3)
      (by rw [hr.axes]; exact List.mem_finRange) m naux hr.numAux q aux old)
    (fun q aux old => periodic_fill c.bc hp c.axes (by rw [hr.axes]; exact List.nodup_finRange 3)
      (by rw [hr.axes]; exact List.mem_finRange) m naux hr.numAux q aux old)
    (fun a a' => ∀ x : Fin 3 → Nat, (∀ i, x i < c.bc.n i) → auxAt naux a' x = auxAt naux a (cellBefore c.bc.n k x)) ?_ rnd L L
  · have key := run_sim E ops hops s s' ⟨h.set, h.status, h.t, h.log, fun x hx => (h.data x hx).1, fun x hx => (h.data x hx).2⟩
    exact ⟨key.set, key.status, key.t, key.log, fun x hx => ⟨key.data.1 x hx, key.data.2 x hx⟩⟩
  · intro dt A A' Q Q' q q' a a' f f' ha hq
    obtain ⟨r, r', cfl, cfl', h1, h2, h3, h4⟩ := split3_translate undef rpx rpy rpz cfg hN capa c.bc.g c.bc.n hn hg hr.ghost k dt A A' Q Q'
      q q' a a' f f' ha hq
    exact Or.inr ⟨r, r', cfl, h1, h4 hk0 hk1 ▸ h2, h3⟩

/-- C90, the three-dimensional split kernel without a limiter: the values after one step of given size from translated data are the
translated values, for translations along all axes. Full statement: whole runs, for all schemes. Missing: equality of the Courant
numbers, and schemes with a limiter, see `C90_split3_violated`. -/
theorem C90_split3_values_partial (undef : K) (rpx rpy rpz : Riemann K (Fin naux → K) m w) (cfg : Cfg3 K w)
    (hN : Narrow cfg.order cfg.limiter) (capa : Option ((Fin naux → K) → K))
    (c : ParCfg (Fin 3) K) (hr : ClassicRun c m naux (intSplit3 undef rpx rpy rpz cfg capa)) (hp : PeriodicGrid c.bc)
    (hg : cfg.g = c.bc.g) (k : Fin 3 → Int) (dt : K) (d d' : HypData (Fin 3) K)
    (h : Corresponds m naux c.bc.n (cellBefore c.bc.n k) id id (d.q, d.aux, d.work) (d'.q, d'.aux, d'.work)) :
    ∃ r r' cfl cfl', hypSerial c dt d = (r, .ok cfl) ∧ hypSerial c dt d' = (r', .ok cfl') ∧
      Corresponds m naux c.bc.n (cellBefore c.bc.n k) id id (r.q, r.aux, r.work) (r'.q, r'.aux, r'.work) := by
  have hn : ∀ a, 0 < c.bc.n a := fun a => (hp.cells a).1
  have hfill := fun q aux old => periodic_fill c.bc hp c.axes (by rw [hr.axes]; exact List.nodup_finRange 3)
      (by rw [hr.axes]; exact List.mem_finRange) m naux hr.numAux q aux old
  obtain ⟨v, e, f⟩ := hfill d.q d.aux d.work
  obtain ⟨v', e', f'⟩ := hfill d'.q d'.aux d'.work
  obtain ⟨r, r', cfl, cfl', h1, h2, h3, h4⟩ := split3_translate undef rpx rpy rpz cfg hN capa c.bc.g c.bc.n hn hg hr.ghost k dt _ _ _ _
      d.q d'.q d.aux d'.aux f f' (fun x hx => (h x hx).2) (fun x hx => (h x hx).1)
  unfold hypSerial
  simp only [e, e', hr.kern, onArrays, h1, h2, Option.map_some]
  refine ⟨_, _, cfl, cfl', rfl, rfl, fun x hx => ⟨?_, (h x hx).2⟩⟩
  have := h3 x hx
  simp only [putBack, Fin.is_lt, dite_true]
  have e1 : ∀ (g : Nat) (y : Fin 3 → Nat), (fun i => (((y i + g : Nat)) : Int) + 1 - g) = fun i => (y i : Int) + 1 := by
    intro g y; funext i; push_cast; ring
  rw [e1, e1]
  exact this

/-! ### Where it fails -/

/-- What one split step on a periodic grid does, in terms of the kernel on the periodic extension of the data. -/
theorem split3_fill (undef : K) (rpx rpy rpz : Riemann K (Fin naux → K) m w) (cfg : Cfg3 K w) (capa : Option ((Fin naux → K) → K))
    (c : ParCfg (Fin 3) K) (hr : ClassicRun c m naux (intSplit3 undef rpx rpy rpz cfg capa)) (hp : PeriodicGrid c.bc)
    (hg : cfg.g = c.bc.g) (dt : K) (d : HypData (Fin 3) K) :
    let S := splitStep3 undef rpx rpy rpz { cfg with mx := c.bc.n 0, my := c.bc.n 1, mz := c.bc.n 2, dt := dt } capa
      (fun i j k => auxAt naux d.aux (wrapCell c.bc.n ![i, j, k])) (fun i j k e => d.q e.val (wrapCell c.bc.n ![i, j, k]))
    ∃ r, hypSerial c dt d = (r, .ok S.2) ∧ ∀ x : Fin 3 → Nat, (∀ i, x i < c.bc.n i) →
      (fun e : Fin m => r.q e.val x) = S.1 (x 0 + 1) (x 1 + 1) (x 2 + 1) := by
  obtain ⟨v, e, f⟩ := periodic_fill c.bc hp c.axes (by rw [hr.axes]; exact List.nodup_finRange 3)
      (by rw [hr.axes]; exact List.mem_finRange) m naux hr.numAux d.q d.aux d.work
  have hl := split3_localInt (rpx := rpx) (rpy := rpy) (rpz := rpz) undef cfg (hg ▸ hr.ghost) capa dt c.bc.n
    (fun v => auxAt naux d.aux (wrapCell c.bc.n v)) (fieldOf naux c.bc.g v.aux) (fun v e => d.q e.val (wrapCell c.bc.n v))
    (fieldOf m c.bc.g v.q) (fun u hu => ⟨(f u (hg ▸ hu)).2, (f u (hg ▸ hu)).1⟩)
  rcases hl with ⟨h, -⟩ | ⟨r, r', cfl, h1, h2, h3⟩
  · exact absurd h (by simp [intSplit3])
  have h1' := h1
  simp only [intSplit3, Option.some.injEq, Prod.mk.injEq] at h1'
  obtain ⟨rfl, rfl⟩ := h1'
  intro S
  unfold hypSerial
  simp only [e, hr.kern, onArrays, h2, Option.map_some]
  refine ⟨_, rfl, fun x hx => ?_⟩
  simp only [putBack, Fin.is_lt, dite_true]
  have e1 : (fun i => (((x i + c.bc.g : Nat)) : Int) + 1 - c.bc.g) = fun i => (x i : Int) + 1 := by
    funext i; push_cast; ring
  rw [e1]
  exact h3 _ fun a => by have := hx a; omega

/-- The Courant number of the split step. -/
theorem splitStep3_cfl (undef : K) (rpx rpy rpz : Riemann K (Fin naux → K) m w) (c : Cfg3 K w) (hg : 1 ≤ c.g)
    (capa : Option ((Fin naux → K) → K)) (aux : Int → Int → Int → Fin naux → K) (q : Int → Int → Int → Fin m → K) :
    (splitStep3 undef rpx rpy rpz c capa aux q).2 =
      max (max ((pairs 0 (c.my + 2) 0 (c.mz + 2)).foldl
        (fun x y => max x (fCfl c.mx (localRatio c.dt c.dx capa fun i => aux i y.1 y.2)
          (interfaces rpx (fun i => aux i y.1 y.2) (fun i => q i y.1 y.2)))) 0)
      ((pairs 0 (c.mz + 2) 0 (c.mx + 2)).foldl
        (fun x y => max x (fCfl c.my (localRatio c.dt c.dy capa fun j => aux y.2 j y.1)
          (interfaces rpy (fun j => aux y.2 j y.1) (fun j => afterX undef rpx c capa aux q y.2 j y.1)))) 0))
      ((pairs 0 (c.mx + 2) 0 (c.my + 2)).foldl
        (fun x y => max x (fCfl c.mz (localRatio c.dt c.dz capa fun k => aux y.1 y.2 k)
          (interfaces rpz (fun k => aux y.1 y.2 k) (fun k => afterY undef rpx rpy c capa aux q y.1 y.2 k)))) 0) := by
  have e1 : (step3dsX false undef rpx c capa aux q q).1 = afterX undef rpx c capa aux q := by
    funext i j k
    exact step3dsX_eq false undef rpx c hg capa aux q i j k
  have e2 : (step3dsX true undef rpy c.rot capa (rot3 aux) (rot3 (afterX undef rpx c capa aux q))
      (rot3 (afterX undef rpx c capa aux q))).1 = rot3 (afterY undef rpx rpy c capa aux q) := by
    funext j k i
    exact step3dsX_eq true undef rpy c.rot hg capa (rot3 aux) _ j k i
  simp only [splitStep3, e1, e2]
  rw [(step3dsX_both false undef rpx c hg capa aux q 0 0 0).2,
    (step3dsX_both true undef rpy c.rot hg capa (rot3 aux) (rot3 (afterX undef rpx c capa aux q)) 0 0 0).2,
    (step3dsX_both true undef rpz c.rot.rot hg capa (rot3 (rot3 aux)) (rot3 (rot3 (afterY undef rpx rpy c capa aux q))) 0 0 0).2]
  rfl

/-- A periodic box of `n` cells with one equation and no aux values. -/
def exTorus (n : Fin 3 → Nat) (step : IntKern (Fin 3) ℚ 1 0) : ParCfg (Fin 3) ℚ where
  bc := ⟨2, n, 1, 0, fun _ => .periodic, fun _ => .periodic, fun _ => .periodic, fun _ => .periodic, fun _ => 0,
    fun _ => true, fun _ => true, none, none, none, none⟩
  axes := [0, 1, 2]
  kern := onArrays 1 0 2 step
  sourceSplit := 1
  source := none
  beforeQ := fun _ _ q _ => q
  beforeAux := fun _ _ _ a => a

theorem exTorus_run (n : Fin 3 → Nat) (step : IntKern (Fin 3) ℚ 1 0) : ClassicRun (exTorus n step) 1 0 step where
  homogeneous := ⟨rfl, fun _ _ _ _ => rfl, fun _ _ _ _ => rfl⟩
  ghost := le_refl 2
  numAux := rfl
  axes := rfl
  kern := rfl

theorem exTorus_grid (n : Fin 3 → Nat) (hn : ∀ a, 2 ≤ n a) (step : IntKern (Fin 3) ℚ 1 0) : PeriodicGrid (exTorus n step).bc where
  cells := fun a => ⟨by have := hn a; show 0 < n a; omega, hn a⟩
  serial := fun _ => ⟨rfl, rfl⟩
  q := fun _ => ⟨rfl, rfl⟩
  aux := fun _ => ⟨rfl, rfl⟩

/-- Data given by the values of the cells. -/
def exData3 (f : Nat → Nat → Nat → ℚ) : HypData (Fin 3) ℚ := ⟨fun _ x => f (x 0) (x 1) (x 2), fun _ _ => 0, ⟨fun _ _ => 0, fun _ _ => 0⟩⟩

/-- Second order with the minmod limiter: the defaults of `ClawSolver3D`. -/
def exLimited3 : Cfg3 ℚ 1 := ⟨2, 2, 4, 2, 1 / 2, 1, 1, 1, 2, 22, false, false, fun _ => 1⟩

/-- Advection with velocity `(1, 0, 1)`. -/
def exSlant : IntKern (Fin 3) ℚ 1 0 :=
  intSplit3 0 (ignoreAux 0 (advectionRp 1)) (ignoreAux 0 (advectionRp 0)) (ignoreAux 0 (advectionRp 1)) exLimited3 none

/-- The factors along the third axis. -/
def exProfile (k : Nat) : ℚ := if k = 0 then 8 else if k = 1 then 0 else if k = 2 then 2 else 3

/-- C90 fails for the split kernel in three dimensions with a limiter, also along the third axis: advection of a scalar with the
default scheme on a periodic grid of 2 by 2 by 4 cells. The sweeps in `x` leave the outer ghost rows as they were, and the limiter of
the sweeps in `z` compares with them in the cells next to the boundary. -/
theorem C90_split3_violated : ¬ ∀ (k : Fin 3 → Int), k 0 = 0 → k 1 = 0 → ∀ (r r' : HypData (Fin 3) ℚ) (cfl cfl' : ℚ) (d d' : HypData (Fin 3) ℚ),
    Corresponds 1 0 ![2, 2, 4] (cellBefore ![2, 2, 4] k) id id (d.q, d.aux, d.work) (d'.q, d'.aux, d'.work) →
    hypSerial (exTorus ![2, 2, 4] exSlant) (1 / 2) d = (r, .ok cfl) → hypSerial (exTorus ![2, 2, 4] exSlant) (1 / 2) d' = (r', .ok cfl') →
    Corresponds 1 0 ![2, 2, 4] (cellBefore ![2, 2, 4] k) id id (r.q, r.aux, r.work) (r'.q, r'.aux, r'.work) := by
  intro H
  let d := exData3 fun i _ k => if i = 1 then 9 * exProfile k else 0
  let d' := exData3 fun i _ k => if i = 1 then 9 * exProfile ((k + 3) % 4) else 0
  have hd : Corresponds 1 0 ![2, 2, 4] (cellBefore ![2, 2, 4] ![0, 0, 1]) id id (d.q, d.aux, d.work) (d'.q, d'.aux, d'.work) := by
    intro x hx
    have h0 : x 0 < 2 := hx 0
    have h2 : x 2 < 4 := hx 2
    refine ⟨funext fun _ => ?_, rfl⟩
    have e0 : cellBefore ![2, 2, 4] ![0, 0, 1] x 0 = x 0 := by
      show (((x 0 : Int) - 0) % ((2 : Nat) : Int)).toNat = x 0
      omega
    have e2 : cellBefore ![2, 2, 4] ![0, 0, 1] x 2 = (x 2 + 3) % 4 := by
      show (((x 2 : Int) - 1) % ((4 : Nat) : Int)).toNat = (x 2 + 3) % 4
      omega
    simp only [d, d', exData3, id, e0, e2]
  have hg : ∀ a, 2 ≤ (![2, 2, 4] : Fin 3 → Nat) a := by decide
  obtain ⟨r, h1, h2⟩ := split3_fill 0 _ _ _ exLimited3 none (exTorus ![2, 2, 4] exSlant) (exTorus_run _ _) (exTorus_grid _ hg _) rfl (1 / 2) d
  obtain ⟨r', h1', h2'⟩ := split3_fill 0 _ _ _ exLimited3 none (exTorus ![2, 2, 4] exSlant) (exTorus_run _ _) (exTorus_grid _ hg _) rfl (1 / 2) d'
  have key := (H ![0, 0, 1] rfl rfl r r' _ _ d d' hd h1 h1' ![0, 0, 1] (by decide)).1
  have c0 : cellBefore ![2, 2, 4] ![0, 0, 1] ![0, 0, 1] = ![0, 0, 0] := by decide
  simp only [id, c0] at key
  rw [h2 ![0, 0, 0] (by decide), h2' ![0, 0, 1] (by decide)] at key
  rw [splitStep3_eq _ _ _ _ _ (by decide), splitStep3_eq _ _ _ _ _ (by decide), if_pos (by decide), if_pos (by decide)] at key
  have key0 := congrFun key 0
  revert key0
  decide +kernel

/-- First order, no limiter. -/
def exPlain3 : Cfg3 ℚ 1 := ⟨5, 2, 2, 2, 1, 1, 1, 1, 1, 0, false, false, fun _ => 0⟩

/-- No fluctuations and speed 0. -/
def stillRp : Riemann ℚ (Fin 0 → ℚ) 1 1 := fun _ _ _ _ => { wave := fun _ => 0, s := fun _ => 0, amdq := 0, apdq := 0 }

/-- Without a limiter C90 still fails for the Courant number of the split kernel in three dimensions, along the first and the second
axis: the later sweeps include ghost rows that the earlier ones left as they were. -/
theorem C90_split3_cfl_violated :
    (¬ ∀ (k : Fin 3 → Int), k 1 = 0 → k 2 = 0 → ∀ (r r' : HypData (Fin 3) ℚ) (cfl cfl' : ℚ) (d d' : HypData (Fin 3) ℚ),
      Corresponds 1 0 ![5, 2, 2] (cellBefore ![5, 2, 2] k) id id (d.q, d.aux, d.work) (d'.q, d'.aux, d'.work) →
      hypSerial (exTorus ![5, 2, 2] (intSplit3 0 sinkRp speedRp stillRp exPlain3 none)) 1 d = (r, .ok cfl) →
      hypSerial (exTorus ![5, 2, 2] (intSplit3 0 sinkRp speedRp stillRp exPlain3 none)) 1 d' = (r', .ok cfl') → cfl = cfl') ∧
    ¬ ∀ (k : Fin 3 → Int), k 0 = 0 → k 2 = 0 → ∀ (r r' : HypData (Fin 3) ℚ) (cfl cfl' : ℚ) (d d' : HypData (Fin 3) ℚ),
      Corresponds 1 0 ![2, 5, 2] (cellBefore ![2, 5, 2] k) id id (d.q, d.aux, d.work) (d'.q, d'.aux, d'.work) →
      hypSerial (exTorus ![2, 5, 2] (intSplit3 0 stillRp sinkRp speedRp exPlain3 none)) 1 d = (r, .ok cfl) →
      hypSerial (exTorus ![2, 5, 2] (intSplit3 0 stillRp sinkRp speedRp exPlain3 none)) 1 d' = (r', .ok cfl') → cfl = cfl' := by
  constructor
  · intro H
    let d := exData3 fun i _ _ => if i = 2 then 1 else 0
    let d' := exData3 fun i _ _ => if i = 0 then 1 else 0
    have hd : Corresponds 1 0 ![5, 2, 2] (cellBefore ![5, 2, 2] ![-2, 0, 0]) id id (d.q, d.aux, d.work) (d'.q, d'.aux, d'.work) := by
      intro x hx
      have h0 : x 0 < 5 := hx 0
      refine ⟨funext fun _ => ?_, rfl⟩
      have e0 : cellBefore ![5, 2, 2] ![-2, 0, 0] x 0 = 2 ↔ x 0 = 0 := by
        show (((x 0 : Int) - -2) % ((5 : Nat) : Int)).toNat = 2 ↔ x 0 = 0
        omega
      simp only [d, d', exData3, id, e0]
    have hg : ∀ a, 2 ≤ (![5, 2, 2] : Fin 3 → Nat) a := by decide
    obtain ⟨r, h1, -⟩ := split3_fill 0 _ _ _ exPlain3 none (exTorus ![5, 2, 2] (intSplit3 0 sinkRp speedRp stillRp exPlain3 none))
      (exTorus_run _ _) (exTorus_grid _ hg _) rfl 1 d
    obtain ⟨r', h1', -⟩ := split3_fill 0 _ _ _ exPlain3 none (exTorus ![5, 2, 2] (intSplit3 0 sinkRp speedRp stillRp exPlain3 none))
      (exTorus_run _ _) (exTorus_grid _ hg _) rfl 1 d'
    have key := H ![-2, 0, 0] rfl rfl r r' _ _ d d' hd h1 h1'
    rw [splitStep3_cfl _ _ _ _ _ (by decide), splitStep3_cfl _ _ _ _ _ (by decide)] at key
    revert key
    decide +kernel
  · intro H
    let d := exData3 fun _ j _ => if j = 2 then 1 else 0
    let d' := exData3 fun _ j _ => if j = 0 then 1 else 0
    have hd : Corresponds 1 0 ![2, 5, 2] (cellBefore ![2, 5, 2] ![0, -2, 0]) id id (d.q, d.aux, d.work) (d'.q, d'.aux, d'.work) := by
      intro x hx
      have h0 : x 1 < 5 := hx 1
      refine ⟨funext fun _ => ?_, rfl⟩
      have e0 : cellBefore ![2, 5, 2] ![0, -2, 0] x 1 = 2 ↔ x 1 = 0 := by
        show (((x 1 : Int) - -2) % ((5 : Nat) : Int)).toNat = 2 ↔ x 1 = 0
        omega
      simp only [d, d', exData3, id, e0]
    have hg : ∀ a, 2 ≤ (![2, 5, 2] : Fin 3 → Nat) a := by decide
    obtain ⟨r, h1, -⟩ := split3_fill 0 _ _ _ exPlain3 none (exTorus ![2, 5, 2] (intSplit3 0 stillRp sinkRp speedRp exPlain3 none))
      (exTorus_run _ _) (exTorus_grid _ hg _) rfl 1 d
    obtain ⟨r', h1', -⟩ := split3_fill 0 _ _ _ exPlain3 none (exTorus ![2, 5, 2] (intSplit3 0 stillRp sinkRp speedRp exPlain3 none))
      (exTorus_run _ _) (exTorus_grid _ hg _) rfl 1 d'
    have key := H ![0, -2, 0] rfl rfl r r' _ _ d d' hd h1 h1'
    rw [splitStep3_cfl _ _ _ _ _ (by decide), splitStep3_cfl _ _ _ _ _ (by decide)] at key
    revert key
    decide +kernel

/-! ### The hypotheses are met -/

/-- A start from given values, fixed steps of 1/2. -/
def exTorusStart (f : Nat → Nat → Nat → ℚ) : StepState ℚ (GArr (Fin 3) ℚ) (GArr (Fin 3) ℚ × BCArrays (Fin 3) ℚ) where
  set := ⟨false, 1 / 2, none, 1, 1, 9 / 10, 100, 1 / 2⟩
  status := {}
  sol := ⟨0, fun _ x => f (x 0) (x 1) (x 2), (fun _ _ => 0, ⟨fun _ _ => 0, fun _ _ => 0⟩)⟩
  log := []

/-- Non-vacuity of `C90_split3_partial`: advection with velocity `(1, 0, 1)`, second order without a limiter, and data moved by one
cell along the third axis. -/
example : Narrow (w := 1) 2 (fun _ => 0) ∧ PeriodicGrid (exTorus ![2, 2, 4] exSlant).bc ∧
    InStep (Corresponds 1 0 ![2, 2, 4] (cellBefore ![2, 2, 4] ![0, 0, 1]) id id)
      (exTorusStart fun i _ k => if i = 1 then 9 * exProfile k else 0)
      (exTorusStart fun i _ k => if i = 1 then 9 * exProfile ((k + 3) % 4) else 0) := by
  refine ⟨Or.inr fun _ => le_refl 0, exTorus_grid _ (by decide) _, rfl, rfl, rfl, rfl, fun x hx => ⟨funext fun _ => ?_, rfl⟩⟩
  have h0 : x 0 < 2 := hx 0
  have h2 : x 2 < 4 := hx 2
  have e0 : cellBefore ![2, 2, 4] ![0, 0, 1] x 0 = x 0 := by
    show (((x 0 : Int) - 0) % ((2 : Nat) : Int)).toNat = x 0
    omega
  have e2 : cellBefore ![2, 2, 4] ![0, 0, 1] x 2 = (x 2 + 3) % 4 := by
    show (((x 2 : Int) - 1) % ((4 : Nat) : Int)).toNat = (x 2 + 3) % 4
    omega
  simp only [exTorusStart, id, e0, e2]

end PyClaw
