import Verif.Lemmas.Classic2
import Verif.Props.SharpFlux

/-!
C42 (dimensional splitting), with the two-dimensional parts of C35 and C37 for the split method.
-/
set_option linter.unusedSectionVars false

namespace PyClaw
open Spec

variable {K A : Type*} [Field K] [LinearOrder K] [IsStrictOrderedRing K] {m w : Nat}

/-- The parameters of the one-dimensional kernel for the rows. -/
def Cfg2.row (c : Cfg2 K w) : Cfg1 K w := ⟨c.mx, c.g, c.dt, c.dx, c.order, c.fwave, c.limiter⟩

/-- The wave propagation formula in a row. -/
def Spec.rowStep (undef : K) (rp : Riemann K A m w) (c : Cfg1 K w) (capa : Option (A → K)) (aux : Int → A)
    (q : Int → Fin m → K) (i : Int) : Fin m → K :=
  waveProp (localRatio c.dt c.dx capa aux) (interfaces rp aux q)
    (sliceFlux undef c.order c.fwave c.limiter (localRatio c.dt c.dx capa aux) (interfaces rp aux q)) q i

theorem step2dsX_both (same : Bool) (undef : K) (rp : Riemann K A m w) (c : Cfg2 K w) (hg : 1 ≤ c.g)
    (capa : Option (A → K)) (aux : Int → Int → A) (q : Int → Int → Fin m → K) (i j : Int) :
    (step2dsX same undef rp c capa aux q q).1 i j =
      (if (1 - (c.g : Int) ≤ j ∧ j ≤ c.my + c.g) ∧ 1 ≤ i ∧ i ≤ c.mx then
        rowStep undef rp c.row capa (fun i => aux i j) (fun i => q i j) i
      else q i j) ∧
    (step2dsX same undef rp c capa aux q q).2 = (irange (1 - c.g) (c.my + c.g + 1)).foldl
      (fun x j => max x (fCfl c.mx (localRatio c.dt c.dx capa fun i => aux i j)
        (interfaces rp (fun i => aux i j) (fun i => q i j)))) 0 := by
  -- the loop as a fold on rows; the slice is read either from the current array or from the initial one
  have main : ∀ (l : List Int), l.Nodup → ∀ (cur : Int → Int → Fin m → K) (x : K),
      (∀ j ∈ l, ∀ i, cur i j = q i j) → ∀ i j : Int,
      let R := l.foldl (fun (st : (Int → Int → Fin m → K) × K) j =>
        let cur := st.1
        let q1d : Int → Fin m → K := fun i => if same then cur i j else q i j
        let S := splitSlice undef rp c capa (fun i => aux i j) q1d
        (fun (i j' : Int) =>
          if j' = j then
            if 1 ≤ i ∧ i ≤ c.mx then
              cur i j + S.qadd i - capDiv capa (aux i j) ((c.dt / c.dx) • (S.fadd (i + 1) - S.fadd i))
            else cur i j
          else cur i j',
         max st.2 S.cfl)) (cur, x)
      R.1 i j = (if j ∈ l ∧ 1 ≤ i ∧ i ≤ c.mx then
        rowStep undef rp c.row capa (fun i => aux i j) (fun i => q i j) i
      else cur i j) ∧ R.2 = l.foldl (fun x j => max x (fCfl c.mx (localRatio c.dt c.dx capa fun i => aux i j)
        (interfaces rp (fun i => aux i j) (fun i => q i j)))) x := by
    intro l hl
    induction l with
    | nil => intro cur x _ i j; simp
    | cons a l ih =>
      intro cur x hcur i j
      obtain ⟨ha, hl'⟩ := List.nodup_cons.mp hl
      rw [List.foldl_cons]
      have hrow : (fun i => if same = true then cur i a else q i a) = fun i => q i a := by
        funext i; rw [hcur a (by simp) i]; simp
      simp only [hrow]
      have hcfl : (splitSlice undef rp c capa (fun i => aux i a) (fun i => q i a)).cfl =
          fCfl c.mx (localRatio c.dt c.dx capa fun i => aux i a)
            (interfaces rp (fun i => aux i a) (fun i => q i a)) := by
        unfold splitSlice
        rw [flux2Slice_cfl, sliceRatio_eq]
        rfl
      refine ⟨((ih hl' _ _ ?_ i j).1).trans ?_, ((ih hl' _ _ ?_ i j).2).trans ?_⟩
      rotate_left
      · by_cases hja : j = a
        · subst hja
          rw [if_neg (fun h => ha h.1)]
          simp only [if_true]
          by_cases hi : 1 ≤ i ∧ i ≤ (c.mx : Int)
          · rw [if_pos hi, if_pos ⟨by simp, hi⟩, hcur j (by simp) i]
            exact slice_update undef c.mx c.g hg c.order (-1) c.fwave c.limiter c.dt c.dx capa (fun i => aux i j) rp
              (fun _ _ _ => (0, 0)) (fun i => q i j) i hi.1 hi.2
          · rw [if_neg hi, if_neg (fun h => hi h.2)]
        · rw [if_neg hja]
          simp [hja]
      rotate_left
      · rw [List.foldl_cons, hcfl]
      all_goals
        intro j' hj' i'
        have : j' ≠ a := fun h => ha (h ▸ hj')
        rw [if_neg this]
        exact hcur j' (by simp [hj']) i'
  obtain ⟨m1, m2⟩ := main _ (irange_nodup (1 - (c.g : Int)) (c.my + c.g + 1)) q 0 (fun _ _ _ => rfl) i j
  refine ⟨m1.trans ?_, m2⟩
  simp only [mem_irange]
  refine if_congr ?_ rfl rfl
  constructor <;> rintro ⟨⟨h1, h2⟩, h3⟩ <;> exact ⟨⟨h1, by omega⟩, h3⟩

theorem step2dsX_eq (same : Bool) (undef : K) (rp : Riemann K A m w) (c : Cfg2 K w) (hg : 1 ≤ c.g)
    (capa : Option (A → K)) (aux : Int → Int → A) (q : Int → Int → Fin m → K) (i j : Int) :
    (step2dsX same undef rp c capa aux q q).1 i j =
      if (1 - (c.g : Int) ≤ j ∧ j ≤ c.my + c.g) ∧ 1 ≤ i ∧ i ≤ c.mx then
        rowStep undef rp c.row capa (fun i => aux i j) (fun i => q i j) i
      else q i j := (step2dsX_both same undef rp c hg capa aux q i j).1

theorem step2dsX_max (same : Bool) (undef : K) (rp : Riemann K A m w) (c : Cfg2 K w) (hg : 1 ≤ c.g)
    (capa : Option (A → K)) (aux : Int → Int → A) (q : Int → Int → Fin m → K) :
    (step2dsX same undef rp c capa aux q q).2 = (irange (1 - c.g) (c.my + c.g + 1)).foldl
      (fun x j => max x (fCfl c.mx (localRatio c.dt c.dx capa fun i => aux i j)
        (interfaces rp (fun i => aux i j) (fun i => q i j)))) 0 := (step2dsX_both same undef rp c hg capa aux q 0 0).2

/-- The one-dimensional Fortran step computes `rowStep` on the interior. -/
theorem fStep1_rowStep (undef : K) (rp : Riemann K A m w) (c : Cfg1 K w) (capa : Option (A → K)) (aux : Int → A)
    (q : Int → Fin m → K)
    (hk : ∀ κ, capa = some κ → ∀ i : Int, 1 - (c.g : Int) ≤ i → i ≤ c.n + c.g → 0 < κ (aux i)) :
    ∃ q' cfl, fStep1 undef rp c capa aux q = some (q', cfl) ∧
      ∀ i : Int, 1 ≤ i → i ≤ c.n → q' i = rowStep undef rp c capa aux q i := by
  obtain ⟨q', cfl, h1, _, h3⟩ := fStep1_interior undef rp c capa aux q hk
  refine ⟨q', cfl, h1, fun i hi1 hi2 => ?_⟩
  rw [h3 i hi1 (by omega)]
  rfl

/-- C42: the split step updates every row, ghost rows included, with the one-dimensional step in `x`, and then every
column of the intermediate values with the one-dimensional step in `y`. `X` is the intermediate array. -/
theorem C42_sweeps (undef : K) (rpx rpy : Riemann K A m w) (c : Cfg2 K w) (hg : 1 ≤ c.g) (capa : Option (A → K))
    (aux : Int → Int → A) (q : Int → Int → Fin m → K)
    (hk : ∀ κ, capa = some κ → ∀ i j : Int, 1 - (c.g : Int) ≤ i → i ≤ c.mx + c.g → 1 - (c.g : Int) ≤ j →
      j ≤ c.my + c.g → 0 < κ (aux i j)) :
    ∃ X : Int → Int → Fin m → K,
      (∀ j : Int, 1 - (c.g : Int) ≤ j → j ≤ c.my + c.g → ∃ r cfl,
        fStep1 undef rpx ⟨c.mx, c.g, c.dt, c.dx, c.order, c.fwave, c.limiter⟩ capa (fun i => aux i j) (fun i => q i j) =
          some (r, cfl) ∧ ∀ i : Int, 1 ≤ i → i ≤ c.mx → X i j = r i) ∧
      (∀ i j, ¬ (1 ≤ i ∧ i ≤ (c.mx : Int)) → X i j = q i j) ∧
      ∀ i : Int, 1 ≤ i → i ≤ c.mx → ∃ r cfl,
        fStep1 undef rpy ⟨c.my, c.g, c.dt, c.dy, c.order, c.fwave, c.limiter⟩ capa (fun j => aux i j) (fun j => X i j) =
          some (r, cfl) ∧ ∀ j : Int, 1 ≤ j → j ≤ c.my → (splitStep2 undef rpx rpy c capa aux q).1 i j = r j := by
  refine ⟨(step2dsX false undef rpx c capa aux q q).1, fun j h1 h2 => ?_, fun i j h => ?_, fun i h1 h2 => ?_⟩
  · obtain ⟨r, cfl, e, h⟩ := fStep1_rowStep undef rpx c.row capa (fun i => aux i j) (fun i => q i j)
      (fun κ hκ i a b => hk κ hκ i j a b h1 h2)
    refine ⟨r, cfl, e, fun i a b => ?_⟩
    rw [step2dsX_eq false undef rpx c hg, if_pos ⟨⟨h1, h2⟩, a, b⟩, h i a b]
  · rw [step2dsX_eq false undef rpx c hg, if_neg (fun h' => h h'.2)]
  · obtain ⟨r, cfl, e, h⟩ := fStep1_rowStep undef rpy c.swap.row capa (fun j => aux i j)
      (fun j => (step2dsX false undef rpx c capa aux q q).1 i j)
      (fun κ hκ j a b => hk κ hκ i j (by omega) (by omega) a b)
    refine ⟨r, cfl, e, fun j a b => ?_⟩
    rw [h j a b]
    simp only [splitStep2, step2dsY]
    rw [step2dsX_eq true undef rpy c.swap hg capa (fun j i => aux i j)
      (fun j i => (step2dsX false undef rpx c capa aux q q).1 i j) j i]
    have hi : (1 - (c.swap.g : Int) ≤ i ∧ i ≤ c.swap.my + c.swap.g) ∧ 1 ≤ j ∧ j ≤ (c.swap.mx : Int) := by
      simp only [Cfg2.swap]; omega
    rw [if_pos hi]

/-- The interior of the split step in the specification's terms. -/
theorem splitStep2_eq (undef : K) (rpx rpy : Riemann K A m w) (c : Cfg2 K w) (hg : 1 ≤ c.g) (capa : Option (A → K))
    (aux : Int → Int → A) (q : Int → Int → Fin m → K) (i j : Int) (h1 : 1 ≤ i) (h2 : i ≤ c.mx) (h3 : 1 ≤ j)
    (h4 : j ≤ c.my) :
    (splitStep2 undef rpx rpy c capa aux q).1 i j =
      rowStep undef rpy c.swap.row capa (fun j => aux i j)
        (fun j => (step2dsX false undef rpx c capa aux q q).1 i j) j := by
  simp only [splitStep2, step2dsY]
  rw [step2dsX_eq true undef rpy c.swap hg capa (fun j i => aux i j)
    (fun j i => (step2dsX false undef rpx c capa aux q q).1 i j) j i]
  have hi : (1 - (c.swap.g : Int) ≤ i ∧ i ≤ c.swap.my + c.swap.g) ∧ 1 ≤ j ∧ j ≤ (c.swap.mx : Int) := by
    simp only [Cfg2.swap]; omega
  rw [if_pos hi]

/-- The row step keeps the total of periodic data. -/
theorem rowStep_conserves (undef : K) (rp : Riemann K A m w) (c : Cfg1 K w)
    (capa : Option (A → K)) (aux : Int → A) (q : Int → Fin m → K) (fl : (Fin m → K) → A → Fin m → K)
    (hfl : FluxDifference rp fl) (hg : 2 ≤ c.g) (hdx : c.dx ≠ 0)
    (hk : ∀ κ, capa = some κ → ∀ i : Int, 1 ≤ i → i ≤ c.n → κ (aux i) ≠ 0)
    (hq : PeriodicGhost 1 c.g c.n q) (ha : PeriodicGhost 1 c.g c.n aux) :
    total 1 c.n (cellVolume c.dx capa aux) (rowStep undef rp c capa aux q) =
      total 1 c.n (cellVolume c.dx capa aux) q := by
  have hb := waveProp_balance 1 c.n (cellVolume c.dx capa aux) (localRatio c.dt c.dx capa aux) c.dt
    (interfaces rp aux q)
    (sliceFlux undef c.order c.fwave c.limiter (localRatio c.dt c.dx capa aux) (interfaces rp aux q)) q
    (fun i => fl (q i) (aux i))
    (fun k hk' => vol_mul_dtdx _ _ capa aux _ hdx (fun κ h => hk κ h _ (by omega) (by omega)))
    (fun k _ => hfl _ _ _ _)
  have hp := numericalFlux_periodic fl rp 1 c.g c.n hg c.dt c.dx capa aux q hq ha
    (if c.fwave then dsign1 else abs) (fPhi undef c.limiter) (¬ c.order = 1)
  simp only [ite_not] at hp
  unfold rowStep sliceFlux
  unfold sliceFlux at hb
  refine hb.trans ?_
  rw [hp, sub_self, smul_zero, sub_zero]

theorem rowStep_local (undef : K) (rp : Riemann K A m w) (c : Cfg1 K w) (capa : Option (A → K)) (aux aux' : Int → A)
    (q q' : Int → Fin m → K) (i : Int) (ha : ∀ k : Int, i - 2 ≤ k → k ≤ i + 2 → aux k = aux' k)
    (hq : ∀ k : Int, i - 2 ≤ k → k ≤ i + 2 → q k = q' k) :
    rowStep undef rp c capa aux q i = rowStep undef rp c capa aux' q' i := by
  have hd : ∀ j : Int, i - 1 ≤ j → j ≤ i + 2 → interfaces rp aux q j = interfaces rp aux' q' j := by
    intro j a b
    unfold interfaces
    rw [hq (j - 1) (by omega) (by omega), hq j (by omega) (by omega), ha (j - 1) (by omega) (by omega),
      ha j (by omega) (by omega)]
  have hl : ∀ j : Int, i - 1 ≤ j → j ≤ i + 1 → localRatio c.dt c.dx capa aux j = localRatio c.dt c.dx capa aux' j := by
    intro j a b
    unfold localRatio
    rw [ha j (by omega) (by omega)]
  have hF : ∀ j : Int, i ≤ j → j ≤ i + 1 →
      sliceFlux undef c.order c.fwave c.limiter (localRatio c.dt c.dx capa aux) (interfaces rp aux q) j =
      sliceFlux undef c.order c.fwave c.limiter (localRatio c.dt c.dx capa aux') (interfaces rp aux' q') j := by
    intro j a b
    unfold sliceFlux
    split
    · rfl
    · simp only [correctionFlux, limitedWave]
      rw [hd j (by omega) (by omega), hd (j - 1) (by omega) (by omega), hd (j + 1) (by omega) (by omega),
        hl j (by omega) (by omega), hl (j - 1) (by omega) (by omega)]
  unfold rowStep waveProp
  rw [hF i (by omega) (by omega), hF (i + 1) (by omega) (by omega), hd i (by omega) (by omega),
    hd (i + 1) (by omega) (by omega), hl i (by omega) (by omega), hq i (by omega) (by omega)]

theorem rowStep_congr (undef : K) (rp : Riemann K A m w) (c : Cfg1 K w) (capa : Option (A → K)) (aux aux' : Int → A)
    (q q' : Int → Fin m → K) (hg : 2 ≤ c.g)
    (ha : ∀ i : Int, 1 - (c.g : Int) ≤ i → i ≤ c.n + c.g → aux i = aux' i)
    (hq : ∀ i : Int, 1 - (c.g : Int) ≤ i → i ≤ c.n + c.g → q i = q' i) (i : Int) (h1 : 1 ≤ i) (h2 : i ≤ c.n) :
    rowStep undef rp c capa aux q i = rowStep undef rp c capa aux' q' i :=
  rowStep_local undef rp c capa aux aux' q q' i (fun k a b => ha k (by omega) (by omega))
    (fun k a b => hq k (by omega) (by omega))

/-- C42: for doubly periodic data with periodic aux values the split step preserves the total of every component,
weighted with the cell volumes `dx dy κ`. -/
theorem C42_conserves (undef : K) (rpx rpy : Riemann K A m w) (flx fly : (Fin m → K) → A → Fin m → K)
    (hfx : FluxDifference rpx flx) (hfy : FluxDifference rpy fly) (c : Cfg2 K w) (hg : 2 ≤ c.g) (hdx : c.dx ≠ 0)
    (hdy : c.dy ≠ 0) (capa : Option (A → K)) (aux : Int → Int → A) (q : Int → Int → Fin m → K)
    (hk : ∀ κ, capa = some κ → ∀ i j : Int, 1 ≤ i → i ≤ c.mx → 1 ≤ j → j ≤ c.my → κ (aux i j) ≠ 0)
    (hqx : ∀ j : Int, 1 - (c.g : Int) ≤ j → j ≤ c.my + c.g → PeriodicGhost 1 c.g c.mx (fun i => q i j))
    (hqy : ∀ i : Int, 1 - (c.g : Int) ≤ i → i ≤ c.mx + c.g → PeriodicGhost 1 c.g c.my (fun j => q i j))
    (hax : ∀ j : Int, 1 - (c.g : Int) ≤ j → j ≤ c.my + c.g → PeriodicGhost 1 c.g c.mx (fun i => aux i j))
    (hay : ∀ i : Int, 1 - (c.g : Int) ≤ i → i ≤ c.mx + c.g → PeriodicGhost 1 c.g c.my (fun j => aux i j)) :
    total2 c.mx c.my (fun i j => c.dx * c.dy * capacity capa (aux i j)) (splitStep2 undef rpx rpy c capa aux q).1 =
      total2 c.mx c.my (fun i j => c.dx * c.dy * capacity capa (aux i j)) q := by
  have hg1 : 1 ≤ c.g := by omega
  have vx : ∀ i j, c.dx * c.dy * capacity capa (aux i j) = c.dy * cellVolume c.dx capa (fun i => aux i j) i := by
    intro i j
    unfold capacity cellVolume
    cases capa <;> ring
  have vy : ∀ i j, c.dx * c.dy * capacity capa (aux i j) = c.dx * cellVolume c.dy capa (fun j => aux i j) j := by
    intro i j
    unfold capacity cellVolume
    cases capa <;> ring
  set X := (step2dsX false undef rpx c capa aux q q).1 with hX
  -- the intermediate array is periodic in `y`
  have hXper : ∀ i : Int, 1 ≤ i → i ≤ c.mx → PeriodicGhost 1 c.g c.my (fun j => X i j) := by
    intro i h1 h2 j h3 h4
    simp only
    rw [hX, step2dsX_eq false undef rpx c hg1, step2dsX_eq false undef rpx c hg1, if_pos (by omega), if_pos (by omega)]
    exact rowStep_congr undef rpx c.row capa _ _ _ _ hg (fun i a b => hay i a b j h3 h4)
      (fun i a b => hqy i a b j h3 h4) i h1 h2
  -- sweep in `x`
  have sx : total2 c.mx c.my (fun i j => c.dx * c.dy * capacity capa (aux i j)) X =
      total2 c.mx c.my (fun i j => c.dx * c.dy * capacity capa (aux i j)) q := by
    unfold total2
    rw [Finset.sum_comm]
    conv_rhs => rw [Finset.sum_comm]
    refine Finset.sum_congr rfl fun j hj => ?_
    have := Finset.mem_range.mp hj
    have hr := rowStep_conserves undef rpx c.row capa (fun i => aux i (1 + j)) (fun i => q i (1 + j)) flx hfx hg hdx
      (fun κ h i a b => hk κ h i _ a b (by omega) (by omega)) (hqx _ (by omega) (by omega)) (hax _ (by omega) (by omega))
    unfold total at hr
    have hr' := congrArg (fun x => c.dy • x) hr
    simp only [Finset.smul_sum, smul_smul] at hr'
    refine Eq.trans ?_ (hr'.trans ?_)
    · refine Finset.sum_congr rfl fun i hi => ?_
      have hi' : i < c.mx := Finset.mem_range.mp hi
      dsimp only
      rw [vx, hX, step2dsX_eq false undef rpx c hg1, if_pos (by omega)]
      rfl
    · refine Finset.sum_congr rfl fun i hi => ?_
      dsimp only
      rw [vx]
      rfl
  -- sweep in `y`
  rw [← sx]
  unfold total2
  refine Finset.sum_congr rfl fun i hi => ?_
  have := Finset.mem_range.mp hi
  have hr := rowStep_conserves undef rpy c.swap.row capa (fun j => aux (1 + i) j) (fun j => X (1 + i) j) fly hfy hg hdy
    (fun κ h j a b => hk κ h _ j (by omega) (by omega) a b) (hXper _ (by omega) (by omega)) (hay _ (by omega) (by omega))
  unfold total at hr
  have hr' := congrArg (fun x => c.dx • x) hr
  simp only [Finset.smul_sum, smul_smul] at hr'
  refine Eq.trans ?_ (hr'.trans ?_)
  · refine Finset.sum_congr rfl fun j hj => ?_
    have hj' : j < c.my := Finset.mem_range.mp hj
    dsimp only
    rw [vy, splitStep2_eq undef rpx rpy c hg1 capa aux q _ _ (by omega) (by omega) (by omega) (by omega)]
    rfl
  · refine Finset.sum_congr rfl fun j hj => ?_
    dsimp only
    rw [vy]
    rfl

theorem rowStep_quiet (undef : K) (rp : Riemann K A m w) (hq : Quiet rp) (c : Cfg1 K w) (capa : Option (A → K))
    (aux : Int → A) (q : Int → Fin m → K) (v : Fin m → K) (i : Int) (h : ∀ j, i - 1 ≤ j → j ≤ i + 1 → q j = v) :
    rowStep undef rp c capa aux q i = v := by
  have := waveProp_quiet rp hq aux v (if c.fwave then dsign1 else abs) (localRatio c.dt c.dx capa aux)
    (fPhi undef c.limiter) q (¬ c.order = 1) i h
  simp only [ite_not] at this
  exact this

/-- C42: if the data and the aux values vary in `x` only and the solver in `y` sends no waves between equal states, the
split step is the one-dimensional step in every row. -/
theorem C42_one_dimensional_data (undef : K) (rpx rpy : Riemann K A m w) (hy : Quiet rpy) (c : Cfg2 K w) (hg : 2 ≤ c.g)
    (capa : Option (A → K)) (aux : Int → Int → A) (q : Int → Int → Fin m → K) (a1 : Int → A) (q1 : Int → Fin m → K)
    (ha : ∀ i j : Int, 1 - (c.g : Int) ≤ i → i ≤ c.mx + c.g → 1 - (c.g : Int) ≤ j → j ≤ c.my + c.g → aux i j = a1 i)
    (hq : ∀ i j : Int, 1 - (c.g : Int) ≤ i → i ≤ c.mx + c.g → 1 - (c.g : Int) ≤ j → j ≤ c.my + c.g → q i j = q1 i)
    (hk : ∀ κ, capa = some κ → ∀ i : Int, 1 - (c.g : Int) ≤ i → i ≤ c.mx + c.g → 0 < κ (a1 i)) :
    ∃ r cfl, fStep1 undef rpx ⟨c.mx, c.g, c.dt, c.dx, c.order, c.fwave, c.limiter⟩ capa a1 q1 = some (r, cfl) ∧
      ∀ i j : Int, 1 ≤ i → i ≤ c.mx → 1 ≤ j → j ≤ c.my → (splitStep2 undef rpx rpy c capa aux q).1 i j = r i := by
  have hg1 : 1 ≤ c.g := by omega
  obtain ⟨r, cfl, e, h⟩ := fStep1_rowStep undef rpx c.row capa a1 q1 hk
  refine ⟨r, cfl, e, fun i j h1 h2 h3 h4 => ?_⟩
  rw [h i h1 h2, splitStep2_eq undef rpx rpy c hg1 capa aux q i j h1 h2 h3 h4]
  refine rowStep_quiet undef rpy hy c.swap.row capa _ _ _ j fun k k1 k2 => ?_
  rw [step2dsX_eq false undef rpx c hg1, if_pos (by omega)]
  exact rowStep_congr undef rpx c.row capa _ _ _ _ hg (fun i a b => ha i k a b (by omega) (by omega))
    (fun i a b => hq i k a b (by omega) (by omega)) i h1 h2

/-- C35 in two dimensions: the split step leaves a uniform state unchanged, next to any aux values and capacities. -/
theorem C35_split2_uniform (undef : K) (rpx rpy : Riemann K A m w) (hx : Quiet rpx) (hy : Quiet rpy) (c : Cfg2 K w)
    (hg : 2 ≤ c.g) (capa : Option (A → K)) (aux : Int → Int → A) (q : Int → Int → Fin m → K) (v : Fin m → K)
    (hq : ∀ i j : Int, 1 - (c.g : Int) ≤ i → i ≤ c.mx + c.g → 1 - (c.g : Int) ≤ j → j ≤ c.my + c.g → q i j = v)
    (i j : Int) (h1 : 1 ≤ i) (h2 : i ≤ c.mx) (h3 : 1 ≤ j) (h4 : j ≤ c.my) :
    (splitStep2 undef rpx rpy c capa aux q).1 i j = v := by
  have hg1 : 1 ≤ c.g := by omega
  rw [splitStep2_eq undef rpx rpy c hg1 capa aux q i j h1 h2 h3 h4]
  refine rowStep_quiet undef rpy hy c.swap.row capa _ _ _ j fun k k1 k2 => ?_
  rw [step2dsX_eq false undef rpx c hg1, if_pos (by omega)]
  exact rowStep_quiet undef rpx hx c.row capa _ _ _ i fun l l1 l2 => hq l k (by omega) (by omega) (by omega) (by omega)

end PyClaw
