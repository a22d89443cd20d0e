import Verif.Lemmas.Classic3

/-!
C71 (three-dimensional dimensional splitting), with the three-dimensional parts of C35, C37 and C40 for the split method.
-/
set_option linter.unusedSectionVars false

namespace PyClaw
open Spec

variable {K A : Type*} [Field K] [LinearOrder K] [IsStrictOrderedRing K] {m w : Nat}

/-- The parameters of the one-dimensional kernel for the rows. -/
def Cfg3.row (c : Cfg3 K w) : Cfg1 K w := ⟨c.mx, c.g, c.dt, c.dx, c.order, c.fwave, c.limiter⟩

theorem step3dsX_both (same : Bool) (undef : K) (rp : Riemann K A m w) (c : Cfg3 K w) (hg : 1 ≤ c.g)
    (capa : Option (A → K)) (aux : Int → Int → Int → A) (q : Int → Int → Int → Fin m → K) (i j k : Int) :
    (step3dsX same undef rp c capa aux q q).1 i j k =
      (if ((0 ≤ j ∧ j ≤ c.my + 1) ∧ 0 ≤ k ∧ k ≤ c.mz + 1) ∧ 1 ≤ i ∧ i ≤ c.mx then
        rowStep undef rp c.row capa (fun i => aux i j k) (fun i => q i j k) i
      else q i j k) ∧
    (step3dsX same undef rp c capa aux q q).2 = (pairs 0 (c.my + 2) 0 (c.mz + 2)).foldl
      (fun x y => max x (fCfl c.mx (localRatio c.dt c.dx capa fun i => aux i y.1 y.2)
        (interfaces rp (fun i => aux i y.1 y.2) (fun i => q i y.1 y.2)))) 0 := by
  have main : ∀ (l : List (Int × Int)), l.Nodup → ∀ (cur : Int → Int → Int → Fin m → K) (x : K),
      (∀ y ∈ l, ∀ i, cur i y.1 y.2 = q i y.1 y.2) → ∀ i j k : Int,
      let R := l.foldl (fun (st : (Int → Int → Int → Fin m → K) × K) (y : Int × Int) =>
        let cur := st.1
        let q1d : Int → Fin m → K := fun i => if same then cur i y.1 y.2 else q i y.1 y.2
        let S := splitSlice3 undef rp c capa (fun i => aux i y.1 y.2) q1d
        (fun (i j' k' : Int) =>
          if j' = y.1 ∧ k' = y.2 then
            if 1 ≤ i ∧ i ≤ c.mx then
              cur i y.1 y.2 + S.qadd i - capDiv capa (aux i y.1 y.2) ((c.dt / c.dx) • (S.fadd (i + 1) - S.fadd i))
            else cur i y.1 y.2
          else cur i j' k',
         max st.2 S.cfl)) (cur, x)
      R.1 i j k = (if (j, k) ∈ l ∧ 1 ≤ i ∧ i ≤ c.mx then
        rowStep undef rp c.row capa (fun i => aux i j k) (fun i => q i j k) i
      else cur i j k) ∧ R.2 = l.foldl (fun x y => max x (fCfl c.mx (localRatio c.dt c.dx capa fun i => aux i y.1 y.2)
        (interfaces rp (fun i => aux i y.1 y.2) (fun i => q i y.1 y.2)))) x := by
    intro l hl
    induction l with
    | nil => intro cur x _ i j k; simp
    | cons a l ih =>
      intro cur x hcur i j k
      obtain ⟨ha, hl'⟩ := List.nodup_cons.mp hl
      rw [List.foldl_cons]
      have hrow : (fun i => if same = true then cur i a.1 a.2 else q i a.1 a.2) = fun i => q i a.1 a.2 := by
        funext i; rw [hcur a (by simp) i]; simp
      simp only [hrow]
      have hcfl : (splitSlice3 undef rp c capa (fun i => aux i a.1 a.2) (fun i => q i a.1 a.2)).cfl =
          fCfl c.mx (localRatio c.dt c.dx capa fun i => aux i a.1 a.2)
            (interfaces rp (fun i => aux i a.1 a.2) (fun i => q i a.1 a.2)) := by
        unfold splitSlice3
        rw [flux3Slice_cfl, sliceRatio_eq]
        rfl
      refine ⟨((ih hl' _ _ ?_ i j k).1).trans ?_, ((ih hl' _ _ ?_ i j k).2).trans ?_⟩
      rotate_left
      · by_cases hja : (j, k) = a
        · subst hja
          rw [if_neg (fun h => ha h.1)]
          dsimp only
          rw [if_pos ⟨rfl, rfl⟩]
          by_cases hi : 1 ≤ i ∧ i ≤ (c.mx : Int)
          · rw [if_pos hi, if_pos ⟨by simp, hi⟩, hcur (j, k) (by simp) i]
            exact slice_update3 undef c.mx c.g hg c.order (-1) c.hasAux c.fwave c.limiter c.dt c.dx _ _ capa
              (fun i => aux i j k) rp (fun _ _ _ _ => 0) (fun _ _ _ _ _ => 0) (fun _ => 0) (fun i => q i j k) i hi.1 hi.2
          · rw [if_neg hi, if_neg (fun h => hi h.2)]
        · have hne : ¬ (j = a.1 ∧ k = a.2) := fun h => hja (Prod.ext h.1 h.2)
          rw [if_neg hne]
          simp [hja]
      rotate_left
      · rw [List.foldl_cons, hcfl]
      all_goals
        intro y hy i'
        have : ¬ (y.1 = a.1 ∧ y.2 = a.2) := fun h => ha (by rw [← Prod.ext h.1 h.2]; exact hy)
        rw [if_neg this]
        exact hcur y (by simp [hy]) i'
  obtain ⟨m1, m2⟩ := main _ (pairs_nodup 0 ((c.my : Int) + 2) 0 (c.mz + 2)) q 0 (fun _ _ _ => rfl) i j k
  rw [← foldl_pairs] at m1 m2
  refine ⟨(Eq.trans ?_ m1).trans ?_, Eq.trans ?_ m2⟩
  · rfl
  · simp only [mem_pairs]
    refine if_congr ?_ rfl rfl
    constructor <;> rintro ⟨h, h3⟩ <;> exact ⟨by omega, h3⟩
  · rfl

theorem step3dsX_eq (same : Bool) (undef : K) (rp : Riemann K A m w) (c : Cfg3 K w) (hg : 1 ≤ c.g)
    (capa : Option (A → K)) (aux : Int → Int → Int → A) (q : Int → Int → Int → Fin m → K) (i j k : Int) :
    (step3dsX same undef rp c capa aux q q).1 i j k =
      if ((0 ≤ j ∧ j ≤ c.my + 1) ∧ 0 ≤ k ∧ k ≤ c.mz + 1) ∧ 1 ≤ i ∧ i ≤ c.mx then
        rowStep undef rp c.row capa (fun i => aux i j k) (fun i => q i j k) i
      else q i j k := (step3dsX_both same undef rp c hg capa aux q i j k).1

/-- The array after the sweeps in `x`. -/
def Spec.afterX (undef : K) (rpx : Riemann K A m w) (c : Cfg3 K w) (capa : Option (A → K)) (aux : Int → Int → Int → A)
    (q : Int → Int → Int → Fin m → K) (i j k : Int) : Fin m → K :=
  if ((0 ≤ j ∧ j ≤ c.my + 1) ∧ 0 ≤ k ∧ k ≤ c.mz + 1) ∧ 1 ≤ i ∧ i ≤ c.mx then
    rowStep undef rpx c.row capa (fun i => aux i j k) (fun i => q i j k) i
  else q i j k

/-- The array after the sweeps in `x` and `y`. -/
def Spec.afterY (undef : K) (rpx rpy : Riemann K A m w) (c : Cfg3 K w) (capa : Option (A → K))
    (aux : Int → Int → Int → A) (q : Int → Int → Int → Fin m → K) (i j k : Int) : Fin m → K :=
  if ((0 ≤ k ∧ k ≤ c.mz + 1) ∧ 0 ≤ i ∧ i ≤ c.mx + 1) ∧ 1 ≤ j ∧ j ≤ c.my then
    rowStep undef rpy c.rot.row capa (fun j => aux i j k) (fun j => afterX undef rpx c capa aux q i j k) j
  else afterX undef rpx c capa aux q i j k

theorem splitStep3_eq (undef : K) (rpx rpy rpz : Riemann K A m w) (c : Cfg3 K w) (hg : 1 ≤ c.g) (capa : Option (A → K))
    (aux : Int → Int → Int → A) (q : Int → Int → Int → Fin m → K) (i j k : Int) :
    (splitStep3 undef rpx rpy rpz c capa aux q).1 i j k =
      if ((0 ≤ i ∧ i ≤ c.mx + 1) ∧ 0 ≤ j ∧ j ≤ c.my + 1) ∧ 1 ≤ k ∧ k ≤ c.mz then
        rowStep undef rpz c.rot.rot.row capa (fun k => aux i j k) (fun k => afterY undef rpx rpy c capa aux q i j k) k
      else afterY undef rpx rpy c capa aux q i j k := by
  have e1 : (step3dsX false undef rpx c capa aux q q).1 = afterX undef rpx c capa aux q := by
    funext i j k
    exact step3dsX_eq false undef rpx c hg capa aux q i j k
  have e2 : (step3dsX true undef rpy c.rot capa (rot3 aux) (rot3 (afterX undef rpx c capa aux q))
      (rot3 (afterX undef rpx c capa aux q))).1 = rot3 (afterY undef rpx rpy c capa aux q) := by
    funext j k i
    exact step3dsX_eq true undef rpy c.rot hg capa (rot3 aux) _ j k i
  simp only [splitStep3, e1, e2]
  exact step3dsX_eq true undef rpz c.rot.rot hg capa (rot3 (rot3 aux)) _ k i j

/-- C71: the split step updates the rows `j = 0 … my+1`, `k = 0 … mz+1` with the one-dimensional step in `x`, then the
rows `k = 0 … mz+1` of every interior `i` with the one-dimensional step in `y`, and then the interior columns with the
one-dimensional step in `z`. `X` and `Y` are the intermediate arrays; outside these rows they keep the old values. -/
theorem C71_sweeps (undef : K) (rpx rpy rpz : Riemann K A m w) (c : Cfg3 K w) (hg : 1 ≤ c.g) (capa : Option (A → K))
    (aux : Int → Int → Int → A) (q : Int → Int → Int → Fin m → K)
    (hk : ∀ κ, capa = some κ → ∀ i j k : Int, 1 - (c.g : Int) ≤ i → i ≤ c.mx + c.g → 1 - (c.g : Int) ≤ j →
      j ≤ c.my + c.g → 1 - (c.g : Int) ≤ k → k ≤ c.mz + c.g → 0 < κ (aux i j k)) :
    ∃ X Y : Int → Int → Int → Fin m → K,
      (∀ j k : Int, 0 ≤ j → j ≤ c.my + 1 → 0 ≤ k → k ≤ c.mz + 1 → ∃ r cfl,
        fStep1 undef rpx ⟨c.mx, c.g, c.dt, c.dx, c.order, c.fwave, c.limiter⟩ capa (fun i => aux i j k)
          (fun i => q i j k) = some (r, cfl) ∧ ∀ i : Int, 1 ≤ i → i ≤ c.mx → X i j k = r i) ∧
      (∀ i j k : Int, ¬ ((0 ≤ j ∧ j ≤ c.my + 1) ∧ 0 ≤ k ∧ k ≤ c.mz + 1) → X i j k = q i j k) ∧
      (∀ i k : Int, 1 ≤ i → i ≤ c.mx → 0 ≤ k → k ≤ c.mz + 1 → ∃ r cfl,
        fStep1 undef rpy ⟨c.my, c.g, c.dt, c.dy, c.order, c.fwave, c.limiter⟩ capa (fun j => aux i j k)
          (fun j => X i j k) = some (r, cfl) ∧ ∀ j : Int, 1 ≤ j → j ≤ c.my → Y i j k = r j) ∧
      (∀ i j k : Int, ¬ (0 ≤ k ∧ k ≤ (c.mz : Int) + 1) → Y i j k = X i j k) ∧
      ∀ i j : Int, 1 ≤ i → i ≤ c.mx → 1 ≤ j → j ≤ c.my → ∃ r cfl,
        fStep1 undef rpz ⟨c.mz, c.g, c.dt, c.dz, c.order, c.fwave, c.limiter⟩ capa (fun k => aux i j k)
          (fun k => Y i j k) = some (r, cfl) ∧
        ∀ k : Int, 1 ≤ k → k ≤ c.mz → (splitStep3 undef rpx rpy rpz c capa aux q).1 i j k = r k := by
  refine ⟨afterX undef rpx c capa aux q, afterY undef rpx rpy c capa aux q, fun j k h1 h2 h3 h4 => ?_,
    fun i j k h => ?_, fun i k h1 h2 h3 h4 => ?_, fun i j k h => ?_, fun i j h1 h2 h3 h4 => ?_⟩
  · obtain ⟨r, cfl, e, h⟩ := fStep1_rowStep undef rpx c.row capa (fun i => aux i j k) (fun i => q i j k)
      (fun κ hκ i a b => hk κ hκ i j k a b (by omega) (by omega) (by omega) (by omega))
    refine ⟨r, cfl, e, fun i a b => ?_⟩
    rw [h i a b]
    unfold afterX
    rw [if_pos ⟨⟨⟨h1, h2⟩, h3, h4⟩, a, b⟩]
  · unfold afterX
    rw [if_neg (fun h' => h h'.1)]
  · obtain ⟨r, cfl, e, h⟩ := fStep1_rowStep undef rpy c.rot.row capa (fun j => aux i j k)
      (fun j => afterX undef rpx c capa aux q i j k)
      (fun κ hκ j a b => hk κ hκ i j k (by omega) (by omega) a b (by omega) (by omega))
    refine ⟨r, cfl, e, fun j a b => ?_⟩
    rw [h j a b]
    unfold afterY
    rw [if_pos ⟨⟨⟨h3, h4⟩, by omega, by omega⟩, a, b⟩]
  · unfold afterY
    rw [if_neg (fun h' => h h'.1.1)]
  · obtain ⟨r, cfl, e, h⟩ := fStep1_rowStep undef rpz c.rot.rot.row capa (fun k => aux i j k)
      (fun k => afterY undef rpx rpy c capa aux q i j k)
      (fun κ hκ k a b => hk κ hκ i j k (by omega) (by omega) (by omega) (by omega) a b)
    refine ⟨r, cfl, e, fun k a b => ?_⟩
    rw [h k a b, splitStep3_eq undef rpx rpy rpz c hg]
    rw [if_pos ⟨⟨⟨by omega, by omega⟩, by omega, by omega⟩, a, b⟩]

/-! ### Conservation -/

theorem total3_congr (mx my mz : Nat) (vol : Int → Int → Int → K) (a b : Int → Int → Int → Fin m → K)
    (h : ∀ i j k : Int, 1 ≤ i → i ≤ mx → 1 ≤ j → j ≤ my → 1 ≤ k → k ≤ mz → a i j k = b i j k) :
    total3 mx my mz vol a = total3 mx my mz vol b := by
  unfold total3
  refine Finset.sum_congr rfl fun i hi => ?_
  refine Finset.sum_congr rfl fun j hj => ?_
  refine Finset.sum_congr rfl fun k hk => ?_
  have := Finset.mem_range.mp hi
  have := Finset.mem_range.mp hj
  have := Finset.mem_range.mp hk
  rw [h _ _ _ (by omega) (by omega) (by omega) (by omega) (by omega) (by omega)]

theorem total3_rot (mx my mz : Nat) (vol : Int → Int → Int → K) (a : Int → Int → Int → Fin m → K) :
    total3 my mz mx (rot3 vol) (rot3 a) = total3 mx my mz vol a := by
  unfold total3 rot3
  conv_rhs => rw [Finset.sum_comm]
  refine Finset.sum_congr rfl fun j _ => ?_
  conv_rhs => rw [Finset.sum_comm]

/-- The second-order corrections look at the two neighbours of an interface only: first order, or no limiter. -/
def Spec.Narrow (order : Int) (limiter : Fin w → Int) : Prop := order = 1 ∨ ∀ p, limiter p ≤ 0

theorem sliceFlux_narrow (undef : K) (order : Int) (fwave : Bool) (limiter : Fin w → Int) (hn : Narrow order limiter)
    (lam lam' : Int → K) (d d' : Int → Rp K m w) (i i' : Int) (hd : d i = d' i') (h0 : lam i = lam' i')
    (h1 : lam (i - 1) = lam' (i' - 1)) :
    sliceFlux undef order fwave limiter lam d i = sliceFlux undef order fwave limiter lam' d' i' := by
  unfold sliceFlux
  by_cases ho : order = 1
  · rw [if_pos ho, if_pos ho]
  · have hl : ∀ p, limiter p ≤ 0 := by rcases hn with h | h; exact absurd h ho; exact h
    have hno : ¬ ∃ p, 0 < limiter p := fun ⟨p, hp⟩ => absurd (hl p) (by omega)
    rw [if_neg ho, if_neg ho]
    simp only [correctionFlux, limitedWave, fPhi, hno, false_and, if_false, one_smul, ite_self, hd, h0, h1]

theorem rowStep_narrow (undef : K) (rp : Riemann K A m w) (c : Cfg1 K w) (hn : Narrow c.order c.limiter)
    (capa : Option (A → K)) (aux aux' : Int → A) (q q' : Int → Fin m → K) (i : Int)
    (ha : ∀ k : Int, i - 1 ≤ k → k ≤ i + 1 → aux k = aux' k) (hq : ∀ k : Int, i - 1 ≤ k → k ≤ i + 1 → q k = q' k) :
    rowStep undef rp c capa aux q i = rowStep undef rp c capa aux' q' i := by
  have hd : ∀ j : Int, i ≤ j → j ≤ i + 1 → interfaces rp aux q j = interfaces rp aux' q' j := by
    intro j a b
    unfold interfaces
    rw [hq (j - 1) (by omega) (by omega), hq j (by omega) (by omega), ha (j - 1) (by omega) (by omega),
      ha j (by omega) (by omega)]
  have hl : ∀ j : Int, i - 1 ≤ j → j ≤ i + 1 → localRatio c.dt c.dx capa aux j = localRatio c.dt c.dx capa aux' j := by
    intro j a b
    unfold localRatio
    rw [ha j (by omega) (by omega)]
  have hF : ∀ j : Int, i ≤ j → j ≤ i + 1 →
      sliceFlux undef c.order c.fwave c.limiter (localRatio c.dt c.dx capa aux) (interfaces rp aux q) j =
      sliceFlux undef c.order c.fwave c.limiter (localRatio c.dt c.dx capa aux') (interfaces rp aux' q') j :=
    fun j a b => sliceFlux_narrow undef _ _ _ hn _ _ _ _ j j (hd j a b) (hl j (by omega) b)
      (hl (j - 1) (by omega) (by omega))
  unfold rowStep waveProp
  rw [hF i (by omega) (by omega), hF (i + 1) (by omega) (by omega), hd i (by omega) (by omega),
    hd (i + 1) (by omega) (by omega), hl i (by omega) (by omega), hq i (by omega) (by omega)]

theorem rowStep_conserves_narrow (undef : K) (rp : Riemann K A m w) (c : Cfg1 K w) (hn : Narrow c.order c.limiter)
    (capa : Option (A → K)) (aux : Int → A) (q : Int → Fin m → K) (fl : (Fin m → K) → A → Fin m → K)
    (hfl : FluxDifference rp fl) (hdx : c.dx ≠ 0)
    (hk : ∀ κ, capa = some κ → ∀ i : Int, 1 ≤ i → i ≤ c.n → κ (aux i) ≠ 0)
    (hq : PeriodicGhost 1 1 c.n q) (ha : PeriodicGhost 1 1 c.n aux) :
    total 1 c.n (cellVolume c.dx capa aux) (rowStep undef rp c capa aux q) =
      total 1 c.n (cellVolume c.dx capa aux) q := by
  have hb := waveProp_balance 1 c.n (cellVolume c.dx capa aux) (localRatio c.dt c.dx capa aux) c.dt
    (interfaces rp aux q)
    (sliceFlux undef c.order c.fwave c.limiter (localRatio c.dt c.dx capa aux) (interfaces rp aux q)) q
    (fun i => fl (q i) (aux i))
    (fun k hk' => vol_mul_dtdx _ _ capa aux _ hdx (fun κ h => hk κ h _ (by omega) (by omega)))
    (fun k _ => hfl _ _ _ _)
  refine hb.trans ?_
  have e0 : q (1 + c.n) = q 1 := hq 1 (by omega) (by omega)
  have e1 : q (1 + c.n - 1) = q (1 - 1) := by
    have := hq 0 (by omega) (by omega)
    rw [show (1 : Int) + c.n - 1 = 0 + c.n by ring, this]; rfl
  have a0 : aux (1 + c.n) = aux 1 := ha 1 (by omega) (by omega)
  have a1 : aux (1 + c.n - 1) = aux (1 - 1) := by
    have := ha 0 (by omega) (by omega)
    rw [show (1 : Int) + c.n - 1 = 0 + c.n by ring, this]; rfl
  have d0 : interfaces rp aux q (1 + c.n) = interfaces rp aux q 1 := by
    simp only [interfaces, e0, e1, a0, a1]
  have hF := sliceFlux_narrow undef c.order c.fwave c.limiter hn (localRatio c.dt c.dx capa aux)
    (localRatio c.dt c.dx capa aux) (interfaces rp aux q) (interfaces rp aux q) (1 + c.n) 1 d0
    (by simp only [localRatio, a0]) (by simp only [localRatio, a1])
  simp only [numericalFlux]
  rw [d0, hF, e1, a1, sub_self, smul_zero, sub_zero]

theorem periodic_weaken {α : Type*} {g n : Nat} {v : Int → α} (hg : 1 ≤ g) (h : PeriodicGhost 1 g n v) :
    PeriodicGhost 1 1 n v := fun i a b => h i (by omega) (by omega)

/-- A sweep that conserves in every row conserves in total. -/
theorem sweep_total (mx my mz : Nat) (dx z : K) (capa : Option (A → K)) (aux : Int → Int → Int → A)
    (q X : Int → Int → Int → Fin m → K)
    (h : ∀ j k : Int, 1 ≤ j → j ≤ my → 1 ≤ k → k ≤ mz →
      total 1 mx (cellVolume dx capa fun i => aux i j k) (fun i => X i j k) =
        total 1 mx (cellVolume dx capa fun i => aux i j k) (fun i => q i j k)) :
    total3 mx my mz (fun i j k => z * (dx * capacity capa (aux i j k))) X =
      total3 mx my mz (fun i j k => z * (dx * capacity capa (aux i j k))) q := by
  rw [← total3_rot mx my mz _ X, ← total3_rot mx my mz _ q]
  unfold total3
  refine Finset.sum_congr rfl fun j hj => ?_
  refine Finset.sum_congr rfl fun k hk => ?_
  have := Finset.mem_range.mp hj
  have := Finset.mem_range.mp hk
  have hr := h (1 + j) (1 + k) (by omega) (by omega) (by omega) (by omega)
  unfold total at hr
  have hr' := congrArg (fun x => z • x) hr
  simp only [Finset.smul_sum, smul_smul] at hr'
  have hv : ∀ i : Int, z * (dx * capacity capa (aux i (1 + j) (1 + k))) =
      z * cellVolume dx capa (fun i => aux i (1 + j) (1 + k)) i := by
    intro i
    unfold capacity cellVolume
    cases capa <;> simp
  simp only [rot3, hv]
  exact hr'

/-- C71, conservation. Full statement: for triply periodic data with periodic aux values the split step preserves the
total of every component, weighted with the cell volumes, for every order and limiter. Missing: the second-order step
with a limiter, for which it is false (`C71_split3_conserves_violated`). -/
theorem C71_split3_conserves_partial (undef : K) (rpx rpy rpz : Riemann K A m w)
    (flx fly flz : (Fin m → K) → A → Fin m → K) (hfx : FluxDifference rpx flx) (hfy : FluxDifference rpy fly)
    (hfz : FluxDifference rpz flz) (c : Cfg3 K w) (hn : Narrow c.order c.limiter) (hg : 1 ≤ c.g)
    (hdx : c.dx ≠ 0) (hdy : c.dy ≠ 0) (hdz : c.dz ≠ 0) (capa : Option (A → K)) (aux : Int → Int → Int → A)
    (q : Int → Int → Int → Fin m → K)
    (hk : ∀ κ, capa = some κ → ∀ i j k : Int, 1 ≤ i → i ≤ c.mx → 1 ≤ j → j ≤ c.my → 1 ≤ k → k ≤ c.mz →
      κ (aux i j k) ≠ 0)
    (hqx : ∀ j k : Int, 1 - (c.g : Int) ≤ j → j ≤ c.my + c.g → 1 - (c.g : Int) ≤ k → k ≤ c.mz + c.g →
      PeriodicGhost 1 c.g c.mx (fun i => q i j k))
    (hqy : ∀ i k : Int, 1 - (c.g : Int) ≤ i → i ≤ c.mx + c.g → 1 - (c.g : Int) ≤ k → k ≤ c.mz + c.g →
      PeriodicGhost 1 c.g c.my (fun j => q i j k))
    (hqz : ∀ i j : Int, 1 - (c.g : Int) ≤ i → i ≤ c.mx + c.g → 1 - (c.g : Int) ≤ j → j ≤ c.my + c.g →
      PeriodicGhost 1 c.g c.mz (fun k => q i j k))
    (hax : ∀ j k : Int, 1 - (c.g : Int) ≤ j → j ≤ c.my + c.g → 1 - (c.g : Int) ≤ k → k ≤ c.mz + c.g →
      PeriodicGhost 1 c.g c.mx (fun i => aux i j k))
    (hay : ∀ i k : Int, 1 - (c.g : Int) ≤ i → i ≤ c.mx + c.g → 1 - (c.g : Int) ≤ k → k ≤ c.mz + c.g →
      PeriodicGhost 1 c.g c.my (fun j => aux i j k))
    (haz : ∀ i j : Int, 1 - (c.g : Int) ≤ i → i ≤ c.mx + c.g → 1 - (c.g : Int) ≤ j → j ≤ c.my + c.g →
      PeriodicGhost 1 c.g c.mz (fun k => aux i j k)) :
    total3 c.mx c.my c.mz (fun i j k => c.dx * c.dy * c.dz * capacity capa (aux i j k))
      (splitStep3 undef rpx rpy rpz c capa aux q).1 =
      total3 c.mx c.my c.mz (fun i j k => c.dx * c.dy * c.dz * capacity capa (aux i j k)) q := by
  set X := afterX undef rpx c capa aux q with hX
  set Y := afterY undef rpx rpy c capa aux q with hY
  have hn' : Narrow c.row.order c.row.limiter := hn
  have X_in : ∀ i j k : Int, 1 ≤ i → i ≤ c.mx → 0 ≤ j → j ≤ c.my + 1 → 0 ≤ k → k ≤ c.mz + 1 →
      X i j k = rowStep undef rpx c.row capa (fun i => aux i j k) (fun i => q i j k) i := by
    intro i j k a1 a2 b1 b2 c1 c2
    rw [hX]; unfold afterX; rw [if_pos ⟨⟨⟨b1, b2⟩, c1, c2⟩, a1, a2⟩]
  have Y_in : ∀ i j k : Int, 1 ≤ i → i ≤ c.mx → 1 ≤ j → j ≤ c.my → 0 ≤ k → k ≤ c.mz + 1 →
      Y i j k = rowStep undef rpy c.rot.row capa (fun j => aux i j k) (fun j => X i j k) j := by
    intro i j k a1 a2 b1 b2 c1 c2
    rw [hY]; unfold afterY; rw [if_pos ⟨⟨⟨c1, c2⟩, by omega, by omega⟩, b1, b2⟩]
  have Xy : ∀ i k : Int, 1 ≤ i → i ≤ c.mx → 1 ≤ k → k ≤ c.mz → PeriodicGhost 1 1 c.my (fun j => X i j k) := by
    intro i k a1 a2 b1 b2 j c1 c2
    simp only
    rw [X_in i (j + c.my) k a1 a2 (by omega) (by omega) (by omega) (by omega),
      X_in i j k a1 a2 (by omega) (by omega) (by omega) (by omega)]
    exact rowStep_narrow undef rpx c.row hn' capa _ _ _ _ i
      (fun l d1 d2 => hay l k (by omega) (by omega) (by omega) (by omega) j (by omega) (by omega))
      (fun l d1 d2 => hqy l k (by omega) (by omega) (by omega) (by omega) j (by omega) (by omega))
  have Yz : ∀ i j : Int, 1 ≤ i → i ≤ c.mx → 1 ≤ j → j ≤ c.my → PeriodicGhost 1 1 c.mz (fun k => Y i j k) := by
    intro i j a1 a2 b1 b2 k c1 c2
    simp only
    rw [Y_in i j (k + c.mz) a1 a2 b1 b2 (by omega) (by omega), Y_in i j k a1 a2 b1 b2 (by omega) (by omega)]
    refine rowStep_narrow undef rpy c.rot.row hn' capa _ _ _ _ j
      (fun l d1 d2 => haz i l (by omega) (by omega) (by omega) (by omega) k (by omega) (by omega)) (fun l d1 d2 => ?_)
    rw [X_in i l (k + c.mz) a1 a2 (by omega) (by omega) (by omega) (by omega),
      X_in i l k a1 a2 (by omega) (by omega) (by omega) (by omega)]
    exact rowStep_narrow undef rpx c.row hn' capa _ _ _ _ i
      (fun n d1 d2 => haz n l (by omega) (by omega) (by omega) (by omega) k (by omega) (by omega))
      (fun n d1 d2 => hqz n l (by omega) (by omega) (by omega) (by omega) k (by omega) (by omega))
  -- sweep in `x`
  have s1 : total3 c.mx c.my c.mz (fun i j k => c.dy * c.dz * (c.dx * capacity capa (aux i j k))) X =
      total3 c.mx c.my c.mz (fun i j k => c.dy * c.dz * (c.dx * capacity capa (aux i j k))) q := by
    refine sweep_total c.mx c.my c.mz c.dx (c.dy * c.dz) capa aux q X fun j k a1 a2 b1 b2 => ?_
    have hr := rowStep_conserves_narrow undef rpx c.row hn' capa (fun i => aux i j k) (fun i => q i j k) flx hfx hdx
      (fun κ h i e f => hk κ h i j k e f a1 a2 b1 b2)
      (periodic_weaken hg (hqx j k (by omega) (by omega) (by omega) (by omega)))
      (periodic_weaken hg (hax j k (by omega) (by omega) (by omega) (by omega)))
    refine Eq.trans (total_congr _ _ _ _ _ fun i e f => ?_) hr
    exact X_in i j k e (by omega) (by omega) (by omega) (by omega) (by omega)
  have s2 : total3 c.my c.mz c.mx (fun j k i => c.dx * c.dz * (c.dy * capacity capa (rot3 aux j k i))) (rot3 Y) =
      total3 c.my c.mz c.mx (fun j k i => c.dx * c.dz * (c.dy * capacity capa (rot3 aux j k i))) (rot3 X) := by
    refine sweep_total c.my c.mz c.mx c.dy (c.dx * c.dz) capa (rot3 aux) (rot3 X) (rot3 Y) fun k i a1 a2 b1 b2 => ?_
    have hr := rowStep_conserves_narrow undef rpy c.rot.row hn' capa (fun j => aux i j k) (fun j => X i j k) fly hfy hdy
      (fun κ h j e f => hk κ h i j k b1 b2 e f a1 a2) (Xy i k b1 b2 a1 a2)
      (periodic_weaken hg (hay i k (by omega) (by omega) (by omega) (by omega)))
    refine Eq.trans (total_congr _ _ _ _ _ fun j e f => ?_) hr
    exact Y_in i j k b1 b2 e (by omega) (by omega) (by omega)
  have s3 : total3 c.mz c.mx c.my (fun k i j => c.dx * c.dy * (c.dz * capacity capa (rot3 (rot3 aux) k i j)))
        (rot3 (rot3 (splitStep3 undef rpx rpy rpz c capa aux q).1)) =
      total3 c.mz c.mx c.my (fun k i j => c.dx * c.dy * (c.dz * capacity capa (rot3 (rot3 aux) k i j)))
        (rot3 (rot3 Y)) := by
    refine sweep_total c.mz c.mx c.my c.dz (c.dx * c.dy) capa (rot3 (rot3 aux)) (rot3 (rot3 Y)) _
      fun i j a1 a2 b1 b2 => ?_
    have hr := rowStep_conserves_narrow undef rpz c.rot.rot.row hn' capa (fun k => aux i j k) (fun k => Y i j k) flz hfz
      hdz (fun κ h k e f => hk κ h i j k a1 a2 b1 b2 e f) (Yz i j a1 a2 b1 b2)
      (periodic_weaken hg (haz i j (by omega) (by omega) (by omega) (by omega)))
    refine Eq.trans (total_congr _ _ _ _ _ fun k e f => ?_) hr
    refine (splitStep3_eq undef rpx rpy rpz c hg capa aux q i j k).trans ?_
    rw [if_pos ⟨⟨⟨by omega, by omega⟩, by omega, by omega⟩, e, by omega⟩]
  have v1 : (fun i j k => c.dx * c.dy * c.dz * capacity capa (aux i j k)) =
      fun i j k => c.dy * c.dz * (c.dx * capacity capa (aux i j k)) := by funext i j k; ring
  have v2 : rot3 (fun i j k => c.dx * c.dy * c.dz * capacity capa (aux i j k)) =
      fun j k i => c.dx * c.dz * (c.dy * capacity capa (rot3 aux j k i)) := by funext i j k; simp only [rot3]; ring
  have v3 : rot3 (rot3 (fun i j k => c.dx * c.dy * c.dz * capacity capa (aux i j k))) =
      fun k i j => c.dx * c.dy * (c.dz * capacity capa (rot3 (rot3 aux) k i j)) := by
    funext i j k; simp only [rot3]; ring
  rw [← v1] at s1
  rw [← v2, total3_rot, total3_rot] at s2
  rw [← v3, total3_rot, total3_rot, total3_rot, total3_rot] at s3
  exact s3.trans (s2.trans s1)

/-- A 2 by 4 by 1 grid, second order, minmod: the defaults of `ClawSolver3D`. -/
def ex3Cfg : Cfg3 ℚ 1 := ⟨2, 4, 1, 2, 1 / 2, 1, 1, 1, 2, 22, false, false, fun _ => 1⟩

/-- Triply periodic data. -/
def ex3Q : Int → Int → Int → Fin 1 → ℚ := fun i j _ _ =>
  (if i % 2 = 0 then 9 else 0) * (if j % 4 = 0 then 3 else if j % 4 = 1 then 8 else if j % 4 = 3 then 2 else 0)

theorem ex3_periodic : (∀ j k, PeriodicGhost 1 ex3Cfg.g ex3Cfg.mx (fun i => ex3Q i j k)) ∧
    (∀ i k, PeriodicGhost 1 ex3Cfg.g ex3Cfg.my (fun j => ex3Q i j k)) ∧
    (∀ i j, PeriodicGhost 1 ex3Cfg.g ex3Cfg.mz (fun k => ex3Q i j k)) := by
  refine ⟨fun j k i _ _ => ?_, fun i k j _ _ => ?_, fun i j k _ _ => ?_⟩ <;> funext n <;> simp [ex3Q, ex3Cfg]

/-- C71, conservation, is false for the second-order step with a limiter: advection with speeds 1, 1, 0, triply periodic
data, minmod limiter, no aux values. The sweeps in `x` leave the outer ghost row old, and the limiter of the sweeps in
`y` compares with it at the lower boundary and not at the upper one. -/
theorem C71_split3_conserves_violated :
    total3 2 4 1 (fun _ _ _ => ex3Cfg.dx * ex3Cfg.dy * ex3Cfg.dz)
      (splitStep3 0 (advectionRp 1) (advectionRp 1) (advectionRp 0) ex3Cfg none (fun _ _ _ => ()) ex3Q).1 ≠
      total3 2 4 1 (fun _ _ _ => ex3Cfg.dx * ex3Cfg.dy * ex3Cfg.dz) ex3Q := by
  rw [total3_congr 2 4 1 _ _ (fun i j k => rowStep 0 (advectionRp 0) ex3Cfg.rot.rot.row none (fun _ => ())
    (fun k => afterY 0 (advectionRp 1) (advectionRp 1) ex3Cfg none (fun _ _ _ => ()) ex3Q i j k) k) (by
      intro i j k a1 a2 b1 b2 c1 c2
      rw [splitStep3_eq 0 _ _ _ ex3Cfg (by decide), if_pos (by simp only [ex3Cfg]; omega)])]
  intro h
  have h0 := congrFun h 0
  revert h0
  decide +kernel

/-! ### Uniform states, locality, Courant numbers -/

/-- C35 in three dimensions: the split step leaves a uniform state unchanged, next to any aux values and capacities. -/
theorem C35_split3_uniform (undef : K) (rpx rpy rpz : Riemann K A m w) (hx : Quiet rpx) (hy : Quiet rpy)
    (hz : Quiet rpz) (c : Cfg3 K w) (hg : 1 ≤ c.g) (capa : Option (A → K)) (aux : Int → Int → Int → A)
    (q : Int → Int → Int → Fin m → K) (v : Fin m → K)
    (hq : ∀ i j k : Int, 1 - (c.g : Int) ≤ i → i ≤ c.mx + c.g → 1 - (c.g : Int) ≤ j → j ≤ c.my + c.g →
      1 - (c.g : Int) ≤ k → k ≤ c.mz + c.g → q i j k = v)
    (i j k : Int) (h1 : 1 ≤ i) (h2 : i ≤ c.mx) (h3 : 1 ≤ j) (h4 : j ≤ c.my) (h5 : 1 ≤ k) (h6 : k ≤ c.mz) :
    (splitStep3 undef rpx rpy rpz c capa aux q).1 i j k = v := by
  have hX : ∀ j k : Int, 0 ≤ j → j ≤ c.my + 1 → 0 ≤ k → k ≤ c.mz + 1 → afterX undef rpx c capa aux q i j k = v := by
    intro j k b1 b2 c1 c2
    unfold afterX
    rw [if_pos ⟨⟨⟨b1, b2⟩, c1, c2⟩, h1, h2⟩]
    exact rowStep_quiet undef rpx hx c.row capa _ _ v i fun l a b =>
      hq l j k (by omega) (by omega) (by omega) (by omega) (by omega) (by omega)
  have hY : ∀ k : Int, 0 ≤ k → k ≤ c.mz + 1 → afterY undef rpx rpy c capa aux q i j k = v := by
    intro k c1 c2
    unfold afterY
    rw [if_pos ⟨⟨⟨c1, c2⟩, by omega, by omega⟩, h3, h4⟩]
    exact rowStep_quiet undef rpy hy c.rot.row capa _ _ v j fun l a b => hX l k (by omega) (by omega) c1 c2
  rw [splitStep3_eq undef rpx rpy rpz c hg, if_pos ⟨⟨⟨by omega, by omega⟩, by omega, by omega⟩, h5, h6⟩]
  exact rowStep_quiet undef rpz hz c.rot.rot.row capa _ _ v k fun l a b => hY l (by omega) (by omega)

/-- C40 in three dimensions, split step: a new value depends only on the data and aux values of the cells at distance at
most two in each direction. -/
theorem C40_split3_local (undef : K) (rpx rpy rpz : Riemann K A m w) (c : Cfg3 K w) (hg : 1 ≤ c.g)
    (capa : Option (A → K)) (aux aux' : Int → Int → Int → A) (q q' : Int → Int → Int → Fin m → K) (i j k : Int)
    (hq : ∀ a b e : Int, i - 2 ≤ a → a ≤ i + 2 → j - 2 ≤ b → b ≤ j + 2 → k - 2 ≤ e → e ≤ k + 2 → q a b e = q' a b e)
    (ha : ∀ a b e : Int, i - 2 ≤ a → a ≤ i + 2 → j - 2 ≤ b → b ≤ j + 2 → k - 2 ≤ e → e ≤ k + 2 →
      aux a b e = aux' a b e) :
    (splitStep3 undef rpx rpy rpz c capa aux q).1 i j k = (splitStep3 undef rpx rpy rpz c capa aux' q').1 i j k := by
  have hX : ∀ b e : Int, j - 2 ≤ b → b ≤ j + 2 → k - 2 ≤ e → e ≤ k + 2 →
      afterX undef rpx c capa aux q i b e = afterX undef rpx c capa aux' q' i b e := by
    intro b e b1 b2 e1 e2
    unfold afterX
    refine if_congr Iff.rfl ?_ (hq i b e (by omega) (by omega) b1 b2 e1 e2)
    exact rowStep_local undef rpx c.row capa _ _ _ _ i (fun a a1 a2 => ha a b e a1 a2 b1 b2 e1 e2)
      (fun a a1 a2 => hq a b e a1 a2 b1 b2 e1 e2)
  have hY : ∀ e : Int, k - 2 ≤ e → e ≤ k + 2 →
      afterY undef rpx rpy c capa aux q i j e = afterY undef rpx rpy c capa aux' q' i j e := by
    intro e e1 e2
    unfold afterY
    refine if_congr Iff.rfl ?_ (hX j e (by omega) (by omega) e1 e2)
    exact rowStep_local undef rpy c.rot.row capa _ _ _ _ j
      (fun b b1 b2 => ha i b e (by omega) (by omega) b1 b2 e1 e2) (fun b b1 b2 => hX b e b1 b2 e1 e2)
  rw [splitStep3_eq undef rpx rpy rpz c hg, splitStep3_eq undef rpx rpy rpz c hg]
  refine if_congr Iff.rfl ?_ (hY k (by omega) (by omega))
  exact rowStep_local undef rpz c.rot.rot.row capa _ _ _ _ k
    (fun e e1 e2 => ha i j e (by omega) (by omega) (by omega) (by omega) e1 e2) (fun e e1 e2 => hY e e1 e2)

/-- The Courant numbers of the waves at the interfaces `1 … n+1` in `x` of the rows `j = 0 … hj`, `k = 0 … hk`. -/
def Spec.rowCourants3 (rp : Riemann K A m w) (dt dx : K) (capa : Option (A → K)) (aux : Int → Int → Int → A)
    (q : Int → Int → Int → Fin m → K) (n : Nat) (hj hk : Int) : Set K :=
  {y | ∃ (i j k : Int) (p : Fin w), 1 ≤ i ∧ i ≤ n + 1 ∧ 0 ≤ j ∧ j ≤ hj ∧ 0 ≤ k ∧ k ≤ hk ∧
    y = courant (localRatio dt dx capa fun i => aux i j k) i
      ((interfaces rp (fun i => aux i j k) (fun i => q i j k) i).s p)}

theorem rows_max3 (rp : Riemann K A m w) (dt dx : K) (hdt : 0 ≤ dt) (hdx : 0 < dx) (capa : Option (A → K))
    (aux : Int → Int → Int → A) (q : Int → Int → Int → Fin m → K) (n my mz : Nat)
    (hk : ∀ κ, capa = some κ → ∀ i j k : Int, 0 ≤ i → i ≤ n + 1 → 0 ≤ j → j ≤ my + 1 → 0 ≤ k → k ≤ mz + 1 →
      0 < κ (aux i j k)) :
    IsLargest (rowCourants3 rp dt dx capa aux q n (my + 1) (mz + 1)) ((pairs 0 (my + 2) 0 (mz + 2)).foldl
      (fun x y => max x (fCfl n (localRatio dt dx capa fun i => aux i y.1 y.2)
        (interfaces rp (fun i => aux i y.1 y.2) (fun i => q i y.1 y.2)))) 0) := by
  have key : ∀ (l : List (Int × Int)) (x : K) (S : Set K),
      (∀ y ∈ l, 0 ≤ y.1 ∧ y.1 ≤ my + 1 ∧ 0 ≤ y.2 ∧ y.2 ≤ mz + 1) → IsLargest S x →
      IsLargest (S ∪ {y | ∃ (i : Int) (z : Int × Int) (p : Fin w), 1 ≤ i ∧ i ≤ n + 1 ∧ z ∈ l ∧
        y = courant (localRatio dt dx capa fun i => aux i z.1 z.2) i
          ((interfaces rp (fun i => aux i z.1 z.2) (fun i => q i z.1 z.2) i).s p)})
      (l.foldl (fun x y => max x (fCfl n (localRatio dt dx capa fun i => aux i y.1 y.2)
        (interfaces rp (fun i => aux i y.1 y.2) (fun i => q i y.1 y.2)))) x) := by
    intro l
    induction l with
    | nil =>
      intro x S _ hS
      have : {y | ∃ (i : Int) (z : Int × Int) (p : Fin w), 1 ≤ i ∧ i ≤ n + 1 ∧ z ∈ ([] : List (Int × Int)) ∧
        y = courant (localRatio dt dx capa fun i => aux i z.1 z.2) i
          ((interfaces rp (fun i => aux i z.1 z.2) (fun i => q i z.1 z.2) i).s p)} = ∅ := by
        ext y; simp
      rw [this, Set.union_empty]
      exact hS
    | cons a l ih =>
      intro x S hl hS
      rw [List.foldl_cons]
      have hb := hl a (by simp)
      obtain ⟨c0, c1, c2⟩ := fCfl_spec n (localRatio dt dx capa fun i => aux i a.1 a.2) (fun i hi1 hi2 =>
        localRatio_nonneg _ _ hdt hdx capa (fun i => aux i a.1 a.2) i
          fun κ h => hk κ h i a.1 a.2 hi1 (by omega) hb.1 hb.2.1 hb.2.2.1 hb.2.2.2)
        (interfaces rp (fun i => aux i a.1 a.2) (fun i => q i a.1 a.2))
      have := ih _ _ (fun j hj => hl j (by simp [hj])) (isLargest_max S {y | ∃ (i : Int) (p : Fin w), 1 ≤ i ∧ i ≤ n + 1 ∧
        y = courant (localRatio dt dx capa fun i => aux i a.1 a.2) i
          ((interfaces rp (fun i => aux i a.1 a.2) (fun i => q i a.1 a.2) i).s p)} x _ hS ⟨c0, ?_, ?_⟩)
      · refine Eq.mp (congrArg (fun s => IsLargest s _) ?_) this
        ext y
        constructor
        · rintro ((h | ⟨i, p, h1, h2, h3⟩) | ⟨i, j, p, h1, h2, h3, h4⟩)
          · exact Or.inl h
          · exact Or.inr ⟨i, a, p, h1, h2, by simp, h3⟩
          · exact Or.inr ⟨i, j, p, h1, h2, by simp [h3], h4⟩
        · rintro (h | ⟨i, j, p, h1, h2, h3, h4⟩)
          · exact Or.inl (Or.inl h)
          · rcases List.mem_cons.mp h3 with h | h
            · subst h; exact Or.inl (Or.inr ⟨i, p, h1, h2, h4⟩)
            · exact Or.inr ⟨i, j, p, h1, h2, h, h4⟩
      · rintro y ⟨i, p, h1, h2, h3⟩
        rw [h3]
        exact c1 i p h1 (by omega)
      · rcases c2 with h | ⟨i, p, h1, h2, h3⟩
        · exact Or.inl h
        · exact Or.inr ⟨i, p, h1, by omega, h3⟩
  have := key (pairs 0 (my + 2) 0 (mz + 2)) 0 ∅ (fun y hy => by rw [mem_pairs] at hy; omega)
    ⟨le_refl _, by simp, Or.inl rfl⟩
  refine Eq.mp (congrArg (fun s => IsLargest s _) ?_) this
  rw [Set.empty_union]
  unfold rowCourants3
  ext y
  constructor
  · rintro ⟨i, z, p, h1, h2, h3, h4⟩
    rw [mem_pairs] at h3
    exact ⟨i, z.1, z.2, p, h1, h2, h3.1.1, by omega, h3.2.1, by omega, h4⟩
  · rintro ⟨i, j, k, p, h1, h2, h3, h4, h5, h6, h7⟩
    exact ⟨i, (j, k), p, h1, h2, by rw [mem_pairs]; dsimp only; omega, h7⟩

theorem step3dsX_cfl (same : Bool) (undef : K) (rp : Riemann K A m w) (c : Cfg3 K w) (hg : 1 ≤ c.g) (hdt : 0 ≤ c.dt)
    (hdx : 0 < c.dx) (capa : Option (A → K)) (aux : Int → Int → Int → A) (q : Int → Int → Int → Fin m → K)
    (hk : ∀ κ, capa = some κ → ∀ i j k : Int, 0 ≤ i → i ≤ c.mx + 1 → 0 ≤ j → j ≤ c.my + 1 → 0 ≤ k → k ≤ c.mz + 1 →
      0 < κ (aux i j k)) :
    IsLargest (rowCourants3 rp c.dt c.dx capa aux q c.mx (c.my + 1) (c.mz + 1))
      (step3dsX same undef rp c capa aux q q).2 := by
  rw [(step3dsX_both same undef rp c hg capa aux q 0 0 0).2]
  exact rows_max3 rp c.dt c.dx hdt hdx capa aux q c.mx c.my c.mz hk

/-- C37 in three dimensions: the Courant number reported by the split step is the largest over the waves at the
interfaces in `x` of the initial data, in `y` of the data after the sweeps in `x` and in `z` of the data after both, in
the interior rows and one row of ghost cells on each side, or 0. -/
theorem C37_split3_cfl (undef : K) (rpx rpy rpz : Riemann K A m w) (c : Cfg3 K w) (hg : 1 ≤ c.g) (hdt : 0 ≤ c.dt)
    (hdx : 0 < c.dx) (hdy : 0 < c.dy) (hdz : 0 < c.dz) (capa : Option (A → K)) (aux : Int → Int → Int → A)
    (q : Int → Int → Int → Fin m → K)
    (hk : ∀ κ, capa = some κ → ∀ i j k : Int, 0 ≤ i → i ≤ c.mx + 1 → 0 ≤ j → j ≤ c.my + 1 → 0 ≤ k → k ≤ c.mz + 1 →
      0 < κ (aux i j k)) :
    IsLargest (rowCourants3 rpx c.dt c.dx capa aux q c.mx (c.my + 1) (c.mz + 1) ∪
      rowCourants3 rpy c.dt c.dy capa (fun j k i => aux i j k) (fun j k i => afterX undef rpx c capa aux q i j k) c.my (c.mz + 1) (c.mx + 1) ∪
      rowCourants3 rpz c.dt c.dz capa (fun k i j => aux i j k) (fun k i j => afterY undef rpx rpy c capa aux q i j k) c.mz
        (c.mx + 1) (c.my + 1))
      (splitStep3 undef rpx rpy rpz c capa aux q).2 := by
  have e1 : (step3dsX false undef rpx c capa aux q q).1 = afterX undef rpx c capa aux q := by
    funext i j k
    exact step3dsX_eq false undef rpx c hg capa aux q i j k
  have e2 : (step3dsX true undef rpy c.rot capa (rot3 aux) (rot3 (afterX undef rpx c capa aux q))
      (rot3 (afterX undef rpx c capa aux q))).1 = rot3 (afterY undef rpx rpy c capa aux q) := by
    funext j k i
    exact step3dsX_eq true undef rpy c.rot hg capa (rot3 aux) _ j k i
  simp only [splitStep3, e1, e2]
  refine isLargest_max _ _ _ _ (isLargest_max _ _ _ _ (step3dsX_cfl false undef rpx c hg hdt hdx capa aux q hk)
    (step3dsX_cfl true undef rpy c.rot hg hdt hdy capa (rot3 aux) _ fun κ h j k i a1 a2 b1 b2 c1 c2 => ?_))
    (step3dsX_cfl true undef rpz c.rot.rot hg hdt hdz capa (rot3 (rot3 aux)) _ fun κ h k i j a1 a2 b1 b2 c1 c2 => ?_)
  · exact hk κ h i j k c1 c2 a1 a2 b1 b2
  · exact hk κ h i j k b1 b2 c1 c2 a1 a2

end PyClaw
