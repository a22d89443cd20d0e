import Verif.Props.Classic2

/-!
C43 (unsplit two-dimensional method), with the two-dimensional parts of C35 and C40 for it, and C37 in two dimensions.
-/
set_option linter.unusedSectionVars false

namespace PyClaw
open Spec

variable {K A : Type*} [Field K] [LinearOrder K] [IsStrictOrderedRing K] {m w : Nat}

/-- The aux values of the cells `(i, j-1)`, `(i, j)`, `(i, j+1)`. -/
def Spec.aux3 (aux : Int → Int → A) (j i : Int) : A × A × A := (aux i (j - 1), aux i j, aux i (j + 1))

/-- What the sweep along row `j` sends from cell `(i,j)` down (first) and up (second). -/
def Spec.rowTransverse (undef : K) (rp : Riemann K A m w) (rt : Transverse K A m) (c : Cfg2 K w) (capa : Option (A → K))
    (aux : Int → Int → A) (q : Int → Int → Fin m → K) (j i : Int) : (Fin m → K) × (Fin m → K) :=
  if c.trans ≤ 0 then 0
  else
    let lam := localRatio c.dt c.dx capa fun i => aux i j
    let d := interfaces rp (fun i => aux i j) (fun i => q i j)
    transversePair (1 < c.order ∧ c.trans = 2) lam d (sliceFlux undef c.order c.fwave c.limiter lam d)
      (fun imp i a => rt imp (q (i - 1) j) (q i j) (aux3 aux j (i - 1)) (aux3 aux j i) a) i

/-- The transverse correction flux through the interface between `(i, j-1)` and `(i, j)`: what comes up from below and
what goes down from above. -/
def Spec.rowFlux (undef : K) (rp : Riemann K A m w) (rt : Transverse K A m) (c : Cfg2 K w) (capa : Option (A → K))
    (aux : Int → Int → A) (q : Int → Int → Fin m → K) (i j : Int) : Fin m → K :=
  (rowTransverse undef rp rt c capa aux q (j - 1) i).2 + (rowTransverse undef rp rt c capa aux q j i).1

/-- The increment of cell `(i,j)` by the sweeps in `x`: the one-dimensional step along the row and the difference of
the transverse correction fluxes. -/
def Spec.xIncrement (undef : K) (rp : Riemann K A m w) (rt : Transverse K A m) (c : Cfg2 K w) (capa : Option (A → K))
    (aux : Int → Int → A) (q : Int → Int → Fin m → K) (i j : Int) : Fin m → K :=
  rowStep undef rp c.row capa (fun i => aux i j) (fun i => q i j) i - q i j -
    localRatio c.dt c.dy capa (fun j => aux i j) j •
      (rowFlux undef rp rt c capa aux q i (j + 1) - rowFlux undef rp rt c capa aux q i j)

theorem unsplitSlice_gadd (undef : K) (rp : Riemann K A m w) (rt : Transverse K A m) (c : Cfg2 K w) (hg : 1 ≤ c.g)
    (capa : Option (A → K)) (aux : Int → Int → A) (q : Int → Int → Fin m → K) (j i : Int) (h1 : 1 ≤ i)
    (h2 : i ≤ c.mx) :
    ((unsplitSlice undef rp rt c capa aux q j).gadd1 i, (unsplitSlice undef rp rt c capa aux q j).gadd2 i) =
      rowTransverse undef rp rt c capa aux q j i := by
  unfold unsplitSlice rowTransverse
  split
  · exact flux2Slice_gadd_none undef _ _ _ _ (by assumption) _ _ _ _ _ i
  · rw [sliceRatio_eq]
    exact flux2Slice_gadd undef _ _ hg _ _ (by omega) _ _ _ _ _ i h1 h2

/-- The sweeps in `x`, on the interior. -/
theorem step2X_eq (undef : K) (rp : Riemann K A m w) (rt : Transverse K A m) (c : Cfg2 K w) (hg : 1 ≤ c.g)
    (capa : Option (A → K)) (aux : Int → Int → A) (q qn : Int → Int → Fin m → K) (i j : Int) (h1 : 1 ≤ i)
    (h2 : i ≤ c.mx) (h3 : 1 ≤ j) (h4 : j ≤ c.my) :
    (step2X undef rp rt c capa aux q qn).1 i j = qn i j + xIncrement undef rp rt c capa aux q i j := by
  let S := fun k => unsplitSlice undef rp rt c capa aux q k
  have e : (step2X undef rp rt c capa aux q qn).1 =
      (irange 0 (c.my + 2)).foldl (fun v k => unsplitUpdate c capa aux k (S k) v) qn := by
    unfold step2X
    rw [foldl_max_prod (fun v k => unsplitUpdate c capa aux k (unsplitSlice undef rp rt c capa aux q k) v)
      (fun _ k => (unsplitSlice undef rp rt c capa aux q k).cfl)]
  have e2 : (step2X undef rp rt c capa aux q qn).1 i j =
      (irange 0 (c.my + 2)).foldl
        (fun (v : Int × Int → Fin m → K) k => fun x => unsplitUpdate c capa aux k (S k) (fun i j => v (i, j)) x.1 x.2)
        (fun x => qn x.1 x.2) (i, j) := by
    rw [e]
    generalize irange 0 ((c.my : Int) + 2) = l
    induction l generalizing qn with
    | nil => rfl
    | cons a l ih =>
      rw [List.foldl_cons, List.foldl_cons]
      have := ih (unsplitUpdate c capa aux a (S a) qn) (by
        unfold step2X
        rw [foldl_max_prod (fun v k => unsplitUpdate c capa aux k (unsplitSlice undef rp rt c capa aux q k) v)
          (fun _ k => (unsplitSlice undef rp rt c capa aux q k).cfl)])
      exact this
  rw [e2, foldl_additive _ (fun k x =>
    if 1 ≤ x.1 ∧ x.1 ≤ (c.mx : Int) then
      if x.2 = k then (S k).qadd x.1 - capDiv capa (aux x.1 k)
        ((c.dt / c.dx) • ((S k).fadd (x.1 + 1) - (S k).fadd x.1) + (c.dt / c.dy) • ((S k).gadd2 x.1 - (S k).gadd1 x.1))
      else if x.2 = k - 1 then - capDiv capa (aux x.1 (k - 1)) ((c.dt / c.dy) • (S k).gadd1 x.1)
      else if x.2 = k + 1 then capDiv capa (aux x.1 (k + 1)) ((c.dt / c.dy) • (S k).gadd2 x.1)
      else 0
    else 0) (by
      intro q k x
      unfold unsplitUpdate
      split
      · split
        · rw [add_sub_assoc]
        · split
          · rw [sub_eq_add_neg]
          · split
            · rfl
            · rw [add_zero]
      · rw [add_zero])]
  congr 1
  simp only [if_pos (show 1 ≤ i ∧ i ≤ (c.mx : Int) from ⟨h1, h2⟩)]
  rw [rows_sum c.my (fun k => (S k).qadd i - capDiv capa (aux i k)
        ((c.dt / c.dx) • ((S k).fadd (i + 1) - (S k).fadd i) + (c.dt / c.dy) • ((S k).gadd2 i - (S k).gadd1 i)))
      (fun k => - capDiv capa (aux i (k - 1)) ((c.dt / c.dy) • (S k).gadd1 i))
      (fun k => capDiv capa (aux i (k + 1)) ((c.dt / c.dy) • (S k).gadd2 i)) j h3 h4]
  have hs := slice_update undef c.mx c.g hg c.order c.trans c.fwave c.limiter c.dt c.dx capa (fun i => aux i j) rp
    (fun imp i a => rt imp (q (i - 1) j) (q i j) (aux3 aux j (i - 1)) (aux3 aux j i) a) (fun i => q i j) i h1 h2
  change q i j + (S j).qadd i - capDiv capa (aux i j) ((c.dt / c.dx) • ((S j).fadd (i + 1) - (S j).fadd i)) = _ at hs
  have g0 := unsplitSlice_gadd undef rp rt c hg capa aux q j i h1 h2
  have g1 := unsplitSlice_gadd undef rp rt c hg capa aux q (j + 1) i h1 h2
  have g2 := unsplitSlice_gadd undef rp rt c hg capa aux q (j - 1) i h1 h2
  have ey := fun x : Fin m → K => capDiv_smul c.dt c.dy capa (fun j => aux i j) j x
  rw [show j + 1 - 1 = j by ring, show j - 1 + 1 = j by ring, capDiv_add]
  unfold xIncrement rowFlux
  rw [show j + 1 - 1 = j by ring, ey, ey, ey, ← g0, ← g1, ← g2]
  have hs' : (S j).qadd i = rowStep undef rp c.row capa (fun i => aux i j) (fun i => q i j) i - q i j +
      capDiv capa (aux i j) ((c.dt / c.dx) • ((S j).fadd (i + 1) - (S j).fadd i)) := by
    have h : rowStep undef rp c.row capa (fun i => aux i j) (fun i => q i j) i = _ := hs.symm
    rw [h]; abel
  rw [hs']
  module

theorem unsplitStep2_cell (undef : K) (rpx rpy : Riemann K A m w) (rtx rty : Transverse K A m) (c : Cfg2 K w) (hg : 1 ≤ c.g)
    (capa : Option (A → K)) (aux : Int → Int → A) (q : Int → Int → Fin m → K) (i j : Int) (h1 : 1 ≤ i)
    (h2 : i ≤ c.mx) (h3 : 1 ≤ j) (h4 : j ≤ c.my) :
    (unsplitStep2 undef rpx rpy rtx rty c capa aux q).1 i j =
      q i j + xIncrement undef rpx rtx c capa aux q i j +
        xIncrement undef rpy rty c.swap capa (fun j i => aux i j) (fun j i => q i j) j i := by
  unfold unsplitStep2 step2Y
  simp only
  rw [step2X_eq undef rpy rty c.swap hg capa (fun j i => aux i j) (fun j i => q i j) _ j i h3 h4 h1 h2,
    step2X_eq undef rpx rtx c hg capa aux q q i j h1 h2 h3 h4]

/-- C43: a cell of the unsplit step. The one-dimensional increments along the row and the column, and the differences
of the transverse correction fluxes through its four sides. -/
theorem C43_update (undef : K) (rpx rpy : Riemann K A m w) (rtx rty : Transverse K A m) (c : Cfg2 K w) (hg : 1 ≤ c.g)
    (capa : Option (A → K)) (aux : Int → Int → A) (q : Int → Int → Fin m → K) (i j : Int) (h1 : 1 ≤ i)
    (h2 : i ≤ c.mx) (h3 : 1 ≤ j) (h4 : j ≤ c.my) :
    (unsplitStep2 undef rpx rpy rtx rty c capa aux q).1 i j =
      q i j + xIncrement undef rpx rtx c capa aux q i j +
        xIncrement undef rpy rty { c with mx := c.my, my := c.mx, dx := c.dy, dy := c.dx } capa (fun j i => aux i j) (fun j i => q i j) j i :=
  unsplitStep2_cell undef rpx rpy rtx rty c hg capa aux q i j h1 h2 h3 h4

/-- What a row sends up and down depends on the ghosted rows `j-1`, `j`, `j+1` only. -/
theorem rowTransverse_congr (undef : K) (rp : Riemann K A m w) (rt : Transverse K A m) (c : Cfg2 K w)
    (capa : Option (A → K)) (aux aux' : Int → Int → A) (q q' : Int → Int → Fin m → K) (j j' i : Int)
    (hq : ∀ k : Int, i - 2 ≤ k → k ≤ i + 2 → q k j = q' k j')
    (ha : ∀ k : Int, i - 2 ≤ k → k ≤ i + 2 → aux3 aux j k = aux3 aux' j' k) :
    rowTransverse undef rp rt c capa aux q j i = rowTransverse undef rp rt c capa aux' q' j' i := by
  have ha' : ∀ k : Int, i - 2 ≤ k → k ≤ i + 2 → aux k j = aux' k j' := by
    intro k a b
    have := ha k a b
    unfold aux3 at this
    exact (Prod.mk.inj (Prod.mk.inj this).2).1
  unfold rowTransverse
  split
  · rfl
  dsimp only
  have hd : ∀ k : Int, i - 1 ≤ k → k ≤ i + 2 → interfaces rp (fun i => aux i j) (fun i => q i j) k =
      interfaces rp (fun i => aux' i j') (fun i => q' i j') k := by
    intro k a b
    unfold interfaces
    dsimp only
    rw [hq (k - 1) (by omega) (by omega), hq k (by omega) (by omega), ha' (k - 1) (by omega) (by omega),
      ha' k (by omega) (by omega)]
  have hl : ∀ k : Int, i - 1 ≤ k → k ≤ i + 1 →
      localRatio c.dt c.dx capa (fun i => aux i j) k = localRatio c.dt c.dx capa (fun i => aux' i j') k := by
    intro k a b
    unfold localRatio
    dsimp only
    rw [ha' k (by omega) (by omega)]
  have hF : ∀ k : Int, i ≤ k → k ≤ i + 1 →
      sliceFlux undef c.order c.fwave c.limiter (localRatio c.dt c.dx capa fun i => aux i j)
        (interfaces rp (fun i => aux i j) (fun i => q i j)) k =
      sliceFlux undef c.order c.fwave c.limiter (localRatio c.dt c.dx capa fun i => aux' i j')
        (interfaces rp (fun i => aux' i j') (fun i => q' i j')) k := by
    intro k a b
    unfold sliceFlux
    split
    · rfl
    · simp only [correctionFlux, limitedWave]
      rw [hd k (by omega) (by omega), hd (k - 1) (by omega) (by omega), hd (k + 1) (by omega) (by omega),
        hl k (by omega) (by omega), hl (k - 1) (by omega) (by omega)]
  unfold transversePair leftPart rightPart
  dsimp only
  rw [hF i (by omega) (by omega), hF (i + 1) (by omega) (by omega), hd i (by omega) (by omega),
    hd (i + 1) (by omega) (by omega), hl i (by omega) (by omega), show i + 1 - 1 = i by ring, hq i (by omega) (by omega),
    hq (i - 1) (by omega) (by omega), hq (i + 1) (by omega) (by omega), ha i (by omega) (by omega),
    ha (i - 1) (by omega) (by omega), ha (i + 1) (by omega) (by omega)]

/-- The increments by the sweeps in `x` have total zero for periodic data. -/
theorem xIncrement_total (undef : K) (rp : Riemann K A m w) (rt : Transverse K A m) (fl : (Fin m → K) → A → Fin m → K)
    (hf : FluxDifference rp fl) (c : Cfg2 K w) (hg : 2 ≤ c.g) (hdx : c.dx ≠ 0)
    (hdy : c.dy ≠ 0) (capa : Option (A → K)) (aux : Int → Int → A) (q : Int → Int → Fin m → K)
    (hk : ∀ κ, capa = some κ → ∀ i j : Int, 1 ≤ i → i ≤ c.mx → 1 ≤ j → j ≤ c.my → κ (aux i j) ≠ 0)
    (hqx : ∀ j : Int, 1 ≤ j → j ≤ c.my → PeriodicGhost 1 c.g c.mx (fun i => q i j))
    (hqy : ∀ i : Int, 1 - (c.g : Int) ≤ i → i ≤ c.mx + c.g → PeriodicGhost 1 c.g c.my (fun j => q i j))
    (hax : ∀ j : Int, 1 ≤ j → j ≤ c.my → PeriodicGhost 1 c.g c.mx (fun i => aux i j))
    (hay : ∀ i : Int, 1 - (c.g : Int) ≤ i → i ≤ c.mx + c.g → PeriodicGhost 1 c.g c.my (fun j => aux i j)) :
    total2 c.mx c.my (fun i j => c.dx * c.dy * capacity capa (aux i j)) (xIncrement undef rp rt c capa aux q) = 0 := by
  have hgg : (2 : Int) ≤ c.g := by exact_mod_cast hg
  have vx : ∀ i j, c.dx * c.dy * capacity capa (aux i j) = c.dy * cellVolume c.dx capa (fun i => aux i j) i := by
    intro i j
    unfold capacity cellVolume
    cases capa <;> ring
  have vy : ∀ i j, c.dx * c.dy * capacity capa (aux i j) = c.dx * cellVolume c.dy capa (fun j => aux i j) j := by
    intro i j
    unfold capacity cellVolume
    cases capa <;> ring
  -- one-dimensional part
  have s1 : (∑ i ∈ Finset.range c.mx, ∑ j ∈ Finset.range c.my, (c.dx * c.dy * capacity capa (aux (1 + i) (1 + j))) •
      (rowStep undef rp c.row capa (fun i => aux i (1 + j)) (fun i => q i (1 + j)) (1 + i) - q (1 + i) (1 + j))) = 0 := by
    rw [Finset.sum_comm]
    refine Finset.sum_eq_zero fun j hj => ?_
    have := Finset.mem_range.mp hj
    have hr := rowStep_conserves undef rp c.row capa (fun i => aux i (1 + j)) (fun i => q i (1 + j)) fl hf hg hdx
      (fun κ h i a b => hk κ h i _ a b (by omega) (by omega)) (hqx _ (by omega) (by omega)) (hax _ (by omega) (by omega))
    unfold total at hr
    rw [← sub_eq_zero, ← Finset.sum_sub_distrib] at hr
    have hr' := congrArg (fun x => c.dy • x) hr
    simp only [Finset.smul_sum, smul_zero] at hr'
    refine Eq.trans (Finset.sum_congr rfl fun i hi => ?_) hr'
    rw [vx, ← smul_sub, smul_smul]
    rfl
  -- transverse part
  have s2 : (∑ i ∈ Finset.range c.mx, ∑ j ∈ Finset.range c.my, (c.dx * c.dy * capacity capa (aux (1 + i) (1 + j))) •
      (localRatio c.dt c.dy capa (fun j => aux (1 + i) j) (1 + j) •
      (rowFlux undef rp rt c capa aux q (1 + i) (1 + j + 1) - rowFlux undef rp rt c capa aux q (1 + i) (1 + j)))) = 0 := by
    refine Finset.sum_eq_zero fun i hi => ?_
    have hi' := Finset.mem_range.mp hi
    have hv : ∀ j ∈ Finset.range c.my, (c.dx * c.dy * capacity capa (aux (1 + i) (1 + j))) •
      (localRatio c.dt c.dy capa (fun j => aux (1 + i) j) (1 + j) •
      (rowFlux undef rp rt c capa aux q (1 + i) (1 + j + 1) - rowFlux undef rp rt c capa aux q (1 + i) (1 + j))) =
      (c.dx * c.dt) • ((fun k : Nat => rowFlux undef rp rt c capa aux q (1 + i) (1 + k)) (j + 1) -
        (fun k : Nat => rowFlux undef rp rt c capa aux q (1 + i) (1 + k)) j) := by
      intro j hj
      have hj' := Finset.mem_range.mp hj
      rw [vy, smul_smul, mul_assoc, vol_mul_dtdx _ _ capa (fun j => aux (1 + i) j) _ hdy
        (fun κ h => hk κ h _ _ (by omega) (by omega) (by omega) (by omega))]
      simp only
      rw [show (1 : Int) + ((j + 1 : Nat) : Int) = 1 + j + 1 by push_cast; ring]
    rw [Finset.sum_congr rfl hv, ← Finset.smul_sum,
      Finset.sum_range_sub (fun k : Nat => rowFlux undef rp rt c capa aux q (1 + i) (1 + k))]
    unfold rowFlux
    have r1 := rowTransverse_congr undef rp rt c capa aux aux q q (1 + c.my) 1 (1 + i)
      (fun i a b => by have := hqy i (by omega) (by omega) 1 (by omega) (by omega); exact this)
      (fun i a b => by
        unfold aux3
        have e1 := hay i (by omega) (by omega) 0 (by omega) (by omega)
        have e2 := hay i (by omega) (by omega) 1 (by omega) (by omega)
        have e3 := hay i (by omega) (by omega) 2 (by omega) (by omega)
        simp only at e1 e2 e3
        rw [show (1 : Int) + c.my - 1 = 0 + c.my by ring, show (1 : Int) + c.my + 1 = 2 + c.my by ring, e1, e3, e2]
        rfl)
    have r0 := rowTransverse_congr undef rp rt c capa aux aux q q (1 + c.my - 1) (1 - 1) (1 + i)
      (fun i a b => by
        have := hqy i (by omega) (by omega) 0 (by omega) (by omega)
        simp only at this
        rw [show (1 : Int) + c.my - 1 = 0 + c.my by ring, this]; rfl)
      (fun i a b => by
        unfold aux3
        have e1 := hay i (by omega) (by omega) (-1) (by omega) (by omega)
        have e2 := hay i (by omega) (by omega) 0 (by omega) (by omega)
        have e3 := hay i (by omega) (by omega) 1 (by omega) (by omega)
        simp only at e1 e2 e3
        rw [show (1 : Int) + c.my - 1 - 1 = -1 + c.my by ring, show (1 : Int) + c.my - 1 + 1 = 1 + c.my by ring,
          show (1 : Int) + c.my - 1 = 0 + c.my by ring, e1, e3, e2]
        rfl)
    rw [r1, r0]
    simp
  unfold total2
  refine Eq.trans ?_ ((congrArg₂ (fun x y => x - y) s1 s2).trans (sub_zero 0))
  rw [← Finset.sum_sub_distrib]
  refine Finset.sum_congr rfl fun i _ => ?_
  rw [← Finset.sum_sub_distrib]
  refine Finset.sum_congr rfl fun j _ => ?_
  rw [← smul_sub]
  rfl

theorem total2_add (mx my : Nat) (vol : Int → Int → K) (a b : Int → Int → Fin m → K) :
    total2 mx my vol (fun i j => a i j + b i j) = total2 mx my vol a + total2 mx my vol b := by
  unfold total2
  rw [← Finset.sum_add_distrib]
  refine Finset.sum_congr rfl fun i _ => ?_
  rw [← Finset.sum_add_distrib]
  refine Finset.sum_congr rfl fun j _ => ?_
  rw [smul_add]

theorem total2_congr (mx my : Nat) (vol : Int → Int → K) (a b : Int → Int → Fin m → K)
    (h : ∀ i j : Int, 1 ≤ i → i ≤ mx → 1 ≤ j → j ≤ my → a i j = b i j) : total2 mx my vol a = total2 mx my vol b := by
  unfold total2
  refine Finset.sum_congr rfl fun i hi => ?_
  refine Finset.sum_congr rfl fun j hj => ?_
  have := Finset.mem_range.mp hi
  have := Finset.mem_range.mp hj
  rw [h _ _ (by omega) (by omega) (by omega) (by omega)]

theorem total2_swap (mx my : Nat) (vol : Int → Int → K) (a : Int → Int → Fin m → K) :
    total2 mx my vol a = total2 my mx (fun j i => vol i j) (fun j i => a i j) := by
  unfold total2
  rw [Finset.sum_comm]

/-- C43: for doubly periodic data with periodic aux values the unsplit step preserves the total of every component,
weighted with the cell volumes, for every `transverse_waves`, order and limiter. The transverse solvers are arbitrary.
Periodic ghost values are required in the ghosted array only. -/
theorem C43_conserves (undef : K) (rpx rpy : Riemann K A m w) (rtx rty : Transverse K A m)
    (flx fly : (Fin m → K) → A → Fin m → K) (hfx : FluxDifference rpx flx) (hfy : FluxDifference rpy fly) (c : Cfg2 K w)
    (hg : 2 ≤ c.g) (hdx : c.dx ≠ 0) (hdy : c.dy ≠ 0) (capa : Option (A → K)) (aux : Int → Int → A)
    (q : Int → Int → Fin m → K)
    (hk : ∀ κ, capa = some κ → ∀ i j : Int, 1 ≤ i → i ≤ c.mx → 1 ≤ j → j ≤ c.my → κ (aux i j) ≠ 0)
    (hqx : ∀ j : Int, 1 - (c.g : Int) ≤ j → j ≤ c.my + c.g → PeriodicGhost 1 c.g c.mx (fun i => q i j))
    (hqy : ∀ i : Int, 1 - (c.g : Int) ≤ i → i ≤ c.mx + c.g → PeriodicGhost 1 c.g c.my (fun j => q i j))
    (hax : ∀ j : Int, 1 - (c.g : Int) ≤ j → j ≤ c.my + c.g → PeriodicGhost 1 c.g c.mx (fun i => aux i j))
    (hay : ∀ i : Int, 1 - (c.g : Int) ≤ i → i ≤ c.mx + c.g → PeriodicGhost 1 c.g c.my (fun j => aux i j)) :
    total2 c.mx c.my (fun i j => c.dx * c.dy * capacity capa (aux i j))
      (unsplitStep2 undef rpx rpy rtx rty c capa aux q).1 =
      total2 c.mx c.my (fun i j => c.dx * c.dy * capacity capa (aux i j)) q := by
  have hx := xIncrement_total undef rpx rtx flx hfx c hg hdx hdy capa aux q hk
    (fun j a b => hqx j (by omega) (by omega)) hqy (fun j a b => hax j (by omega) (by omega)) hay
  have hy := xIncrement_total undef rpy rty fly hfy c.swap hg hdy hdx capa (fun j i => aux i j) (fun j i => q i j)
    (fun κ h j i a b e f => hk κ h i j e f a b) (fun i a b => hqy i (by omega) (by simp only [Cfg2.swap] at *; omega)) hqx
    (fun i a b => hay i (by omega) (by simp only [Cfg2.swap] at *; omega)) hax
  rw [total2_congr c.mx c.my _ _ _ fun i j a b e f =>
    unsplitStep2_cell undef rpx rpy rtx rty c (by omega) capa aux q i j a b e f, total2_add, total2_add, hx, add_zero]
  have hy' : total2 c.my c.mx (fun j i => c.dx * c.dy * capacity capa (aux i j))
      (xIncrement undef rpy rty c.swap capa (fun j i => aux i j) (fun j i => q i j)) = 0 := by
    refine Eq.trans ?_ hy
    simp only [Cfg2.swap, mul_comm c.dy c.dx]
  rw [total2_swap c.mx c.my _ (fun i j => xIncrement undef rpy rty c.swap capa (fun j i => aux i j) (fun j i => q i j) j i),
    hy', add_zero]

/-- A transverse solver that splits nothing into nothing. -/
def Spec.QuietTransverse (rt : Transverse K A m) : Prop := ∀ imp ql qr al ar, rt imp ql qr al ar 0 = (0, 0)

theorem rowTransverse_quiet (undef : K) (rp : Riemann K A m w) (hr : Quiet rp) (rt : Transverse K A m)
    (ht : QuietTransverse rt) (c : Cfg2 K w) (capa : Option (A → K)) (aux : Int → Int → A) (q : Int → Int → Fin m → K)
    (v : Fin m → K) (j i : Int) (hq : ∀ k, i - 1 ≤ k → k ≤ i + 1 → q k j = v) :
    rowTransverse undef rp rt c capa aux q j i = 0 := by
  unfold rowTransverse
  split
  · rfl
  dsimp only
  have hd : ∀ k : Int, i ≤ k → k ≤ i + 1 → ∃ al ar, interfaces rp (fun i => aux i j) (fun i => q i j) k = rp v v al ar := by
    intro k a b
    refine ⟨aux (k - 1) j, aux k j, ?_⟩
    unfold interfaces
    dsimp only
    rw [hq k (by omega) (by omega), hq (k - 1) (by omega) (by omega)]
  have hF : ∀ k : Int, i ≤ k → k ≤ i + 1 →
      sliceFlux undef c.order c.fwave c.limiter (localRatio c.dt c.dx capa fun i => aux i j)
        (interfaces rp (fun i => aux i j) (fun i => q i j)) k = 0 := by
    intro k a b
    obtain ⟨al, ar, e⟩ := hd k a b
    unfold sliceFlux
    split
    · rfl
    · simp only [correctionFlux, limitedWave]
      rw [e]
      simp [(hr v al ar).1]
  obtain ⟨al, ar, e⟩ := hd i (by omega) (by omega)
  obtain ⟨al', ar', e'⟩ := hd (i + 1) (by omega) (by omega)
  unfold transversePair leftPart rightPart
  rw [hF i (by omega) (by omega), hF (i + 1) (by omega) (by omega), e, e', (hr v al ar).2.2, (hr v al' ar').2.1]
  simp only [smul_zero, add_zero, sub_zero, ite_self]
  rw [ht, ht]
  simp

theorem xIncrement_quiet (undef : K) (rp : Riemann K A m w) (hr : Quiet rp) (rt : Transverse K A m)
    (ht : QuietTransverse rt) (c : Cfg2 K w) (capa : Option (A → K)) (aux : Int → Int → A) (q : Int → Int → Fin m → K)
    (v : Fin m → K) (i j : Int)
    (hq : ∀ k l, i - 1 ≤ k → k ≤ i + 1 → j - 1 ≤ l → l ≤ j + 1 → q k l = v) :
    xIncrement undef rp rt c capa aux q i j = 0 := by
  have h : ∀ l, j - 1 ≤ l → l ≤ j + 1 → rowTransverse undef rp rt c capa aux q l i = 0 := fun l a b =>
    rowTransverse_quiet undef rp hr rt ht c capa aux q v l i (fun k e f => hq k l e f a b)
  unfold xIncrement rowFlux
  rw [rowStep_quiet undef rp hr c.row capa _ _ v i (fun k a b => hq k j a b (by omega) (by omega)),
    hq i j (by omega) (by omega) (by omega) (by omega), h (j + 1 - 1) (by omega) (by omega),
    h (j + 1) (by omega) (by omega), h (j - 1) (by omega) (by omega), h j (by omega) (by omega)]
  simp

/-- C35 in two dimensions: the unsplit step leaves a uniform state unchanged, next to any aux values and capacities, for
every `transverse_waves`, if the transverse solver splits nothing into nothing. -/
theorem C35_unsplit2_uniform (undef : K) (rpx rpy : Riemann K A m w) (hx : Quiet rpx) (hy : Quiet rpy)
    (rtx rty : Transverse K A m) (htx : QuietTransverse rtx) (hty : QuietTransverse rty) (c : Cfg2 K w)
    (hg : 2 ≤ c.g) (capa : Option (A → K)) (aux : Int → Int → A) (q : Int → Int → Fin m → K) (v : Fin m → K)
    (hq : ∀ i j : Int, 1 - (c.g : Int) ≤ i → i ≤ c.mx + c.g → 1 - (c.g : Int) ≤ j → j ≤ c.my + c.g → q i j = v)
    (i j : Int) (h1 : 1 ≤ i) (h2 : i ≤ c.mx) (h3 : 1 ≤ j) (h4 : j ≤ c.my) :
    (unsplitStep2 undef rpx rpy rtx rty c capa aux q).1 i j = v := by
  rw [unsplitStep2_cell undef rpx rpy rtx rty c (by omega) capa aux q i j h1 h2 h3 h4]
  have hx0 := xIncrement_quiet undef rpx hx rtx htx c capa aux q v i j
    (fun k l a b e f => hq k l (by omega) (by omega) (by omega) (by omega))
  have hy0 := xIncrement_quiet undef rpy hy rty hty c.swap capa (fun j i => aux i j) (fun j i => q i j) v j i
    (fun l k a b e f => hq k l (by omega) (by omega) (by omega) (by omega))
  rw [hx0, hy0, hq i j (by omega) (by omega) (by omega) (by omega)]
  simp

/-- The increment depends on the cells at distance at most two in each direction only. -/
theorem xIncrement_congr (undef : K) (rp : Riemann K A m w) (rt : Transverse K A m) (c : Cfg2 K w)
    (capa : Option (A → K)) (aux aux' : Int → Int → A) (q q' : Int → Int → Fin m → K) (i j j' : Int)
    (hq : ∀ k l : Int, i - 2 ≤ k → k ≤ i + 2 → -1 ≤ l → l ≤ 1 → q k (j + l) = q' k (j' + l))
    (ha : ∀ k l : Int, i - 2 ≤ k → k ≤ i + 2 → -2 ≤ l → l ≤ 2 → aux k (j + l) = aux' k (j' + l)) :
    xIncrement undef rp rt c capa aux q i j = xIncrement undef rp rt c capa aux' q' i j' := by
  have h : ∀ l : Int, -1 ≤ l → l ≤ 1 → rowTransverse undef rp rt c capa aux q (j + l) i =
      rowTransverse undef rp rt c capa aux' q' (j' + l) i := by
    intro l a b
    refine rowTransverse_congr undef rp rt c capa aux aux' q q' _ _ i (fun k e f => hq k l e f a b) (fun k e f => ?_)
    unfold aux3
    rw [show j + l - 1 = j + (l - 1) by ring, show j' + l - 1 = j' + (l - 1) by ring,
      show j + l + 1 = j + (l + 1) by ring, show j' + l + 1 = j' + (l + 1) by ring,
      ha k l e f (by omega) (by omega), ha k (l - 1) e f (by omega) (by omega), ha k (l + 1) e f (by omega) (by omega)]
  have hq0 : ∀ k : Int, i - 2 ≤ k → k ≤ i + 2 → q k j = q' k j' := by
    intro k a b
    have := hq k 0 a b (by omega) (by omega)
    simpa using this
  have ha0 : ∀ k : Int, i - 2 ≤ k → k ≤ i + 2 → aux k j = aux' k j' := by
    intro k a b
    have := ha k 0 a b (by omega) (by omega)
    simpa using this
  have h0 := h 0 (by omega) (by omega)
  have h1 := h 1 (by omega) (by omega)
  have h2 := h (-1) (by omega) (by omega)
  rw [add_zero, add_zero] at h0
  rw [← sub_eq_add_neg, ← sub_eq_add_neg] at h2
  have hr : rowStep undef rp c.row capa (fun i => aux i j) (fun i => q i j) i =
      rowStep undef rp c.row capa (fun i => aux' i j') (fun i => q' i j') i :=
    rowStep_local undef rp c.row capa _ _ _ _ i (fun k a b => ha0 k a b) (fun k a b => hq0 k a b)
  have hl : localRatio c.dt c.dy capa (fun j => aux i j) j = localRatio c.dt c.dy capa (fun j => aux' i j) j' := by
    unfold localRatio
    dsimp only
    rw [ha0 i (by omega) (by omega)]
  unfold xIncrement rowFlux
  rw [hr, hl, add_sub_cancel_right, add_sub_cancel_right, h0, h1, h2, hq0 i (by omega) (by omega)]

/-- C40 in two dimensions: a new value of the unsplit step depends only on the data and aux values of the cells at
distance at most two in each direction, so two ghost cells suffice. -/
theorem C40_unsplit2_local (undef : K) (rpx rpy : Riemann K A m w) (rtx rty : Transverse K A m) (c : Cfg2 K w)
    (hg : 1 ≤ c.g) (capa : Option (A → K)) (aux aux' : Int → Int → A) (q q' : Int → Int → Fin m → K) (i j : Int)
    (h1 : 1 ≤ i) (h2 : i ≤ c.mx) (h3 : 1 ≤ j) (h4 : j ≤ c.my)
    (hq : ∀ k l : Int, i - 2 ≤ k → k ≤ i + 2 → j - 2 ≤ l → l ≤ j + 2 → q k l = q' k l)
    (ha : ∀ k l : Int, i - 2 ≤ k → k ≤ i + 2 → j - 2 ≤ l → l ≤ j + 2 → aux k l = aux' k l) :
    (unsplitStep2 undef rpx rpy rtx rty c capa aux q).1 i j =
      (unsplitStep2 undef rpx rpy rtx rty c capa aux' q').1 i j := by
  rw [unsplitStep2_cell undef rpx rpy rtx rty c hg capa aux q i j h1 h2 h3 h4,
    unsplitStep2_cell undef rpx rpy rtx rty c hg capa aux' q' i j h1 h2 h3 h4,
    xIncrement_congr undef rpx rtx c capa aux aux' q q' i j j (fun k l a b e f => hq k _ a b (by omega) (by omega))
      (fun k l a b e f => ha k _ a b (by omega) (by omega)),
    xIncrement_congr undef rpy rty c.swap capa (fun j i => aux i j) (fun j i => aux' i j) (fun j i => q i j)
      (fun j i => q' i j) j i i (fun k l a b e f => hq _ k (by omega) (by omega) a b)
      (fun k l a b e f => ha _ k (by omega) (by omega) a b), hq i j (by omega) (by omega) (by omega) (by omega)]

/-- C40 in two dimensions, split step. -/
theorem C40_split2_local (undef : K) (rpx rpy : Riemann K A m w) (c : Cfg2 K w) (hg : 2 ≤ c.g) (capa : Option (A → K))
    (aux aux' : Int → Int → A) (q q' : Int → Int → Fin m → K) (i j : Int) (h1 : 1 ≤ i) (h2 : i ≤ c.mx) (h3 : 1 ≤ j)
    (h4 : j ≤ c.my) (hq : ∀ k l : Int, i - 2 ≤ k → k ≤ i + 2 → j - 2 ≤ l → l ≤ j + 2 → q k l = q' k l)
    (ha : ∀ k l : Int, i - 2 ≤ k → k ≤ i + 2 → j - 2 ≤ l → l ≤ j + 2 → aux k l = aux' k l) :
    (splitStep2 undef rpx rpy c capa aux q).1 i j = (splitStep2 undef rpx rpy c capa aux' q').1 i j := by
  have hg1 : 1 ≤ c.g := by omega
  rw [splitStep2_eq undef rpx rpy c hg1 capa aux q i j h1 h2 h3 h4,
    splitStep2_eq undef rpx rpy c hg1 capa aux' q' i j h1 h2 h3 h4]
  refine rowStep_local undef rpy c.swap.row capa _ _ _ _ j (fun l a b => ha i l (by omega) (by omega) a b)
    (fun l a b => ?_)
  rw [step2dsX_eq false undef rpx c hg1, step2dsX_eq false undef rpx c hg1, if_pos (by omega), if_pos (by omega)]
  exact rowStep_local undef rpx c.row capa _ _ _ _ i (fun k e f => ha k l e f a b) (fun k e f => hq k l e f a b)

/-- C43: if the data and the aux values vary in `x` only, the unsplit step is the one-dimensional step in every row
(the transverse corrections of neighbouring rows cancel), whatever the transverse solver in `x` does. -/
theorem C43_one_dimensional_data (undef : K) (rpx rpy : Riemann K A m w) (hy : Quiet rpy) (rtx rty : Transverse K A m)
    (hty : QuietTransverse rty) (c : Cfg2 K w) (hg : 2 ≤ c.g) (capa : Option (A → K)) (aux : Int → Int → A)
    (q : Int → Int → Fin m → K) (a1 : Int → A) (q1 : Int → Fin m → K)
    (ha : ∀ i j : Int, 1 - (c.g : Int) ≤ i → i ≤ c.mx + c.g → 1 - (c.g : Int) ≤ j → j ≤ c.my + c.g → aux i j = a1 i)
    (hq : ∀ i j : Int, 1 - (c.g : Int) ≤ i → i ≤ c.mx + c.g → 1 - (c.g : Int) ≤ j → j ≤ c.my + c.g → q i j = q1 i)
    (hk : ∀ κ, capa = some κ → ∀ i : Int, 1 - (c.g : Int) ≤ i → i ≤ c.mx + c.g → 0 < κ (a1 i)) :
    ∃ r cfl, fStep1 undef rpx ⟨c.mx, c.g, c.dt, c.dx, c.order, c.fwave, c.limiter⟩ capa a1 q1 = some (r, cfl) ∧
      ∀ i j : Int, 1 ≤ i → i ≤ c.mx → 1 ≤ j → j ≤ c.my →
        (unsplitStep2 undef rpx rpy rtx rty c capa aux q).1 i j = r i := by
  obtain ⟨r, cfl, e, h⟩ := fStep1_rowStep undef rpx c.row capa a1 q1 hk
  refine ⟨r, cfl, e, fun i j h1 h2 h3 h4 => ?_⟩
  -- the arrays may be replaced by their continuation
  rw [C40_unsplit2_local undef rpx rpy rtx rty c (by omega) capa aux (fun i _ => a1 i) q (fun i _ => q1 i) i j h1 h2 h3 h4
    (fun k l a b e f => hq k l (by omega) (by omega) (by omega) (by omega))
    (fun k l a b e f => ha k l (by omega) (by omega) (by omega) (by omega)),
    unsplitStep2_cell undef rpx rpy rtx rty c (by omega) capa _ _ i j h1 h2 h3 h4, h i h1 h2]
  have hyq : rowStep undef rpy c.swap.row capa (fun _ => a1 i) (fun _ => q1 i) j = q1 i :=
    rowStep_quiet undef rpy hy c.swap.row capa _ _ (q1 i) j (fun _ _ _ => rfl)
  have hyt : ∀ k, rowTransverse undef rpy rty c.swap capa (fun _ i => a1 i) (fun _ i => q1 i) k j = 0 := fun k =>
    rowTransverse_quiet undef rpy hy rty hty c.swap capa _ _ (q1 k) k j (fun _ _ _ => rfl)
  have hxt : ∀ k l, rowTransverse undef rpx rtx c capa (fun i _ => a1 i) (fun i _ => q1 i) k i =
      rowTransverse undef rpx rtx c capa (fun i _ => a1 i) (fun i _ => q1 i) l i := fun k l => rfl
  unfold xIncrement rowFlux
  rw [hyq, hyt, hyt, hyt, hyt, hxt (j + 1) j, hxt (j + 1 - 1) (j - 1)]
  simp

/-! ### Courant numbers -/

/-- The Courant numbers of the waves at the interfaces `1 … n+1` of the rows `lo … hi`. -/
def Spec.rowCourants (rp : Riemann K A m w) (dt dx : K) (capa : Option (A → K)) (aux : Int → Int → A)
    (q : Int → Int → Fin m → K) (n : Nat) (lo hi : Int) : Set K :=
  {y | ∃ (i j : Int) (p : Fin w), 1 ≤ i ∧ i ≤ n + 1 ∧ lo ≤ j ∧ j ≤ hi ∧
    y = courant (localRatio dt dx capa fun i => aux i j) i
      ((interfaces rp (fun i => aux i j) (fun i => q i j) i).s p)}

/-- `x` is the largest of the numbers in `S`, or 0. -/
def Spec.IsLargest (S : Set K) (x : K) : Prop := 0 ≤ x ∧ (∀ y ∈ S, y ≤ x) ∧ (x = 0 ∨ x ∈ S)

theorem isLargest_max (S T : Set K) (x y : K) (hx : IsLargest S x) (hy : IsLargest T y) : IsLargest (S ∪ T) (max x y) := by
  obtain ⟨x0, x1, x2⟩ := hx
  obtain ⟨y0, y1, y2⟩ := hy
  refine ⟨le_max_of_le_left x0, ?_, ?_⟩
  · rintro z (hz | hz)
    · exact (x1 z hz).trans (le_max_left _ _)
    · exact (y1 z hz).trans (le_max_right _ _)
  · rcases le_total x y with h | h
    · rw [max_eq_right h]; rcases y2 with h | h
      · exact Or.inl h
      · exact Or.inr (Or.inr h)
    · rw [max_eq_left h]; rcases x2 with h | h
      · exact Or.inl h
      · exact Or.inr (Or.inl h)

/-- The largest value over a loop of rows. -/
theorem rows_max (rp : Riemann K A m w) (dt dx : K) (hdt : 0 ≤ dt) (hdx : 0 < dx) (capa : Option (A → K))
    (aux : Int → Int → A) (q : Int → Int → Fin m → K) (n : Nat) (lo hi : Int)
    (hk : ∀ κ, capa = some κ → ∀ i j : Int, 0 ≤ i → i ≤ n + 1 → lo ≤ j → j ≤ hi → 0 < κ (aux i j)) :
    IsLargest (rowCourants rp dt dx capa aux q n lo hi) ((irange lo (hi + 1)).foldl
      (fun x j => max x (fCfl n (localRatio dt dx capa fun i => aux i j)
        (interfaces rp (fun i => aux i j) (fun i => q i j)))) 0) := by
  have key : ∀ (l : List Int) (x : K) (S : Set K), (∀ j ∈ l, lo ≤ j ∧ j ≤ hi) → IsLargest S x →
      IsLargest (S ∪ {y | ∃ (i j : Int) (p : Fin w), 1 ≤ i ∧ i ≤ n + 1 ∧ j ∈ l ∧
        y = courant (localRatio dt dx capa fun i => aux i j) i
          ((interfaces rp (fun i => aux i j) (fun i => q i j) i).s p)})
      (l.foldl (fun x j => max x (fCfl n (localRatio dt dx capa fun i => aux i j)
        (interfaces rp (fun i => aux i j) (fun i => q i j)))) x) := by
    intro l
    induction l with
    | nil =>
      intro x S _ hS
      have : {y | ∃ (i j : Int) (p : Fin w), 1 ≤ i ∧ i ≤ n + 1 ∧ j ∈ ([] : List Int) ∧
        y = courant (localRatio dt dx capa fun i => aux i j) i
          ((interfaces rp (fun i => aux i j) (fun i => q i j) i).s p)} = ∅ := by
        ext y; simp
      rw [this, Set.union_empty]
      exact hS
    | cons a l ih =>
      intro x S hl hS
      rw [List.foldl_cons]
      obtain ⟨c0, c1, c2⟩ := fCfl_spec n (localRatio dt dx capa fun i => aux i a) (fun i hi1 hi2 =>
        localRatio_nonneg _ _ hdt hdx capa (fun i => aux i a) i
          fun κ h => hk κ h i a hi1 (by omega) (hl a (by simp)).1 (hl a (by simp)).2)
        (interfaces rp (fun i => aux i a) (fun i => q i a))
      have := ih _ _ (fun j hj => hl j (by simp [hj])) (isLargest_max S {y | ∃ (i : Int) (p : Fin w), 1 ≤ i ∧ i ≤ n + 1 ∧
        y = courant (localRatio dt dx capa fun i => aux i a) i
          ((interfaces rp (fun i => aux i a) (fun i => q i a) i).s p)} x _ hS ⟨c0, ?_, ?_⟩)
      · refine Eq.mp (congrArg (fun s => IsLargest s _) ?_) this
        ext y
        constructor
        · rintro ((h | ⟨i, p, h1, h2, h3⟩) | ⟨i, j, p, h1, h2, h3, h4⟩)
          · exact Or.inl h
          · exact Or.inr ⟨i, a, p, h1, h2, by simp, h3⟩
          · exact Or.inr ⟨i, j, p, h1, h2, by simp [h3], h4⟩
        · rintro (h | ⟨i, j, p, h1, h2, h3, h4⟩)
          · exact Or.inl (Or.inl h)
          · rcases List.mem_cons.mp h3 with h | h
            · subst h; exact Or.inl (Or.inr ⟨i, p, h1, h2, h4⟩)
            · exact Or.inr ⟨i, j, p, h1, h2, h, h4⟩
      · rintro y ⟨i, p, h1, h2, h3⟩
        rw [h3]
        exact c1 i p h1 (by omega)
      · rcases c2 with h | ⟨i, p, h1, h2, h3⟩
        · exact Or.inl h
        · exact Or.inr ⟨i, p, h1, by omega, h3⟩
  have := key (irange lo (hi + 1)) 0 ∅ (fun j hj => by rw [mem_irange] at hj; omega) ⟨le_refl _, by simp, Or.inl rfl⟩
  refine Eq.mp (congrArg (fun s => IsLargest s _) ?_) this
  rw [Set.empty_union]
  unfold rowCourants
  ext y
  constructor
  · rintro ⟨i, j, p, h1, h2, h3, h4⟩
    rw [mem_irange] at h3
    exact ⟨i, j, p, h1, h2, h3.1, by omega, h4⟩
  · rintro ⟨i, j, p, h1, h2, h3, h4, h5⟩
    exact ⟨i, j, p, h1, h2, by rw [mem_irange]; omega, h5⟩

theorem foldl_max_snd {α V : Type*} (f : V → α → V) (e : α → K) (l : List α) (v : V) (x : K) :
    (l.foldl (fun st a => (f st.1 a, max st.2 (e a))) (v, x)).2 = l.foldl (fun x a => max x (e a)) x := by
  induction l generalizing v x with
  | nil => rfl
  | cons a l ih => rw [List.foldl_cons, List.foldl_cons, ih]

theorem step2X_cfl (undef : K) (rp : Riemann K A m w) (rt : Transverse K A m) (c : Cfg2 K w) (hdt : 0 ≤ c.dt)
    (hdx : 0 < c.dx) (capa : Option (A → K)) (aux : Int → Int → A) (q qn : Int → Int → Fin m → K)
    (hk : ∀ κ, capa = some κ → ∀ i j : Int, 0 ≤ i → i ≤ c.mx + 1 → 0 ≤ j → j ≤ c.my + 1 → 0 < κ (aux i j)) :
    IsLargest (rowCourants rp c.dt c.dx capa aux q c.mx 0 (c.my + 1)) (step2X undef rp rt c capa aux q qn).2 := by
  have h := rows_max rp c.dt c.dx hdt hdx capa aux q c.mx 0 (c.my + 1) hk
  have e : (step2X undef rp rt c capa aux q qn).2 = (irange 0 ((c.my : Int) + 1 + 1)).foldl
      (fun x j => max x (fCfl c.mx (localRatio c.dt c.dx capa fun i => aux i j)
        (interfaces rp (fun i => aux i j) (fun i => q i j)))) 0 := by
    unfold step2X
    rw [foldl_max_snd (fun v k => unsplitUpdate c capa aux k (unsplitSlice undef rp rt c capa aux q k) v)
      (fun k => (unsplitSlice undef rp rt c capa aux q k).cfl), show (c.my : Int) + 2 = c.my + 1 + 1 by ring]
    simp only [unsplitSlice, flux2Slice_cfl, sliceRatio_eq]
    rfl
  rw [e]
  exact h

/-- C37 in two dimensions: the Courant number reported by the unsplit step is the largest over the waves at the
interfaces in `x` of the rows `0 … my+1` and in `y` of the columns `0 … mx+1` (one row and column of ghost cells on each
side), or 0. -/
theorem C37_unsplit2_cfl (undef : K) (rpx rpy : Riemann K A m w) (rtx rty : Transverse K A m) (c : Cfg2 K w)
    (hdt : 0 ≤ c.dt) (hdx : 0 < c.dx) (hdy : 0 < c.dy) (capa : Option (A → K)) (aux : Int → Int → A)
    (q : Int → Int → Fin m → K)
    (hk : ∀ κ, capa = some κ → ∀ i j : Int, 0 ≤ i → i ≤ c.mx + 1 → 0 ≤ j → j ≤ c.my + 1 → 0 < κ (aux i j)) :
    IsLargest (rowCourants rpx c.dt c.dx capa aux q c.mx 0 (c.my + 1) ∪
      rowCourants rpy c.dt c.dy capa (fun j i => aux i j) (fun j i => q i j) c.my 0 (c.mx + 1))
      (unsplitStep2 undef rpx rpy rtx rty c capa aux q).2 :=
  isLargest_max _ _ _ _ (step2X_cfl undef rpx rtx c hdt hdx capa aux q q hk)
    (step2X_cfl undef rpy rty c.swap hdt hdy capa (fun j i => aux i j) (fun j i => q i j) _
      (fun κ h j i a b e f => hk κ h i j e f a b))

theorem step2dsX_cfl (same : Bool) (undef : K) (rp : Riemann K A m w) (c : Cfg2 K w) (hg : 1 ≤ c.g) (hdt : 0 ≤ c.dt)
    (hdx : 0 < c.dx) (capa : Option (A → K)) (aux : Int → Int → A) (q : Int → Int → Fin m → K)
    (hk : ∀ κ, capa = some κ → ∀ i j : Int, 0 ≤ i → i ≤ c.mx + 1 → 1 - (c.g : Int) ≤ j → j ≤ c.my + c.g →
      0 < κ (aux i j)) :
    IsLargest (rowCourants rp c.dt c.dx capa aux q c.mx (1 - c.g) (c.my + c.g))
      (step2dsX same undef rp c capa aux q q).2 := by
  have h := rows_max rp c.dt c.dx hdt hdx capa aux q c.mx (1 - c.g) (c.my + c.g) hk
  rw [step2dsX_max same undef rp c hg]
  exact h

/-- C37 in two dimensions: the Courant number reported by the split step is the largest over the waves at the
interfaces in `x` of all rows of the initial data and in `y` of all columns of the data after the sweep in `x`, ghost
rows and columns included, or 0. -/
theorem C37_split2_cfl (undef : K) (rpx rpy : Riemann K A m w) (c : Cfg2 K w) (hg : 1 ≤ c.g)
    (hdt : 0 ≤ c.dt) (hdx : 0 < c.dx) (hdy : 0 < c.dy) (capa : Option (A → K)) (aux : Int → Int → A)
    (q : Int → Int → Fin m → K)
    (hk : ∀ κ, capa = some κ → ∀ i j : Int, 1 - (c.g : Int) ≤ i → i ≤ c.mx + c.g → 1 - (c.g : Int) ≤ j →
      j ≤ c.my + c.g → 0 < κ (aux i j)) :
    IsLargest (rowCourants rpx c.dt c.dx capa aux q c.mx (1 - c.g) (c.my + c.g) ∪
      rowCourants rpy c.dt c.dy capa (fun j i => aux i j)
        (fun j i => (step2dsX false undef rpx c capa aux q q).1 i j) c.my (1 - c.g) (c.mx + c.g))
      (splitStep2 undef rpx rpy c capa aux q).2 :=
  isLargest_max _ _ _ _ (step2dsX_cfl false undef rpx c hg hdt hdx capa aux q
      (fun κ h i j a b e f => hk κ h i j (by omega) (by omega) e f))
    (step2dsX_cfl true undef rpy c.swap hg hdt hdy capa (fun j i => aux i j) _
      (fun κ h j i a b e f => hk κ h i j e f (by omega) (by simp only [Cfg2.swap] at *; omega)))

/-! ### The hypotheses are met -/

/-- A 4 by 3 grid with two ghost cells, second order, full transverse corrections, MC limiter. -/
def ex2Cfg : Cfg2 ℚ 1 := ⟨4, 3, 2, 1 / 4, 1, 1 / 2, 2, 2, false, fun _ => 4⟩

/-- Doubly periodic data. -/
def ex2Q : Int → Int → Fin 1 → ℚ := fun i j _ => (i % 4 : Int) + 10 * (j % 3 : Int) * (j % 3 : Int)

/-- A transverse solver that depends on everything it can. -/
def ex2Rt : Transverse ℚ Unit 1 := fun imp ql qr _ _ a => if imp = 1 then (ql 0 • a, (3 : ℚ) • a) else (a, qr 0 • a)

example : FluxDifference (advectionRp (2 : ℚ)) (fun q _ => (2 : ℚ) • q) ∧ Quiet (advectionRp (2 : ℚ)) ∧
    QuietTransverse ex2Rt ∧ (∀ j, PeriodicGhost 1 ex2Cfg.g ex2Cfg.mx (fun i => ex2Q i j)) ∧
    (∀ i, PeriodicGhost 1 ex2Cfg.g ex2Cfg.my (fun j => ex2Q i j)) := by
  refine ⟨advectionRp_flux 2, advectionRp_quiet 2, ?_, ?_, ?_⟩
  · intro imp ql qr al ar
    unfold ex2Rt
    split <;> simp
  · intro j i _ _
    funext k
    simp [ex2Q, ex2Cfg]
  · intro i j _ _
    funext k
    simp [ex2Q, ex2Cfg]

/-- The step is not trivial on these data: the transverse corrections change the result. -/
theorem ex2_nontrivial :
    (unsplitStep2 0 (advectionRp 2) (advectionRp (-1)) ex2Rt ex2Rt ex2Cfg none (fun _ _ => ()) ex2Q).1 2 2 0 ≠
      (unsplitStep2 0 (advectionRp 2) (advectionRp (-1)) ex2Rt ex2Rt { ex2Cfg with trans := 0 } none (fun _ _ => ())
        ex2Q).1 2 2 0 ∧
    (unsplitStep2 0 (advectionRp 2) (advectionRp (-1)) ex2Rt ex2Rt ex2Cfg none (fun _ _ => ()) ex2Q).1 2 2 0 ≠
      (unsplitStep2 0 (advectionRp 2) (advectionRp (-1)) ex2Rt ex2Rt { ex2Cfg with trans := 1 } none (fun _ _ => ())
        ex2Q).1 2 2 0 := by
  constructor <;> decide +kernel

end PyClaw
