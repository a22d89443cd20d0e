import Verif.Model.Sweeps2
import Verif.Props.Unsplit2
import Verif.Spec.Upwind
import Mathlib.Data.Rat.Floor

/-!
C43: the two directions of the two-dimensional methods, written out line by line, compute what the shorter model computes. The theorems
about `unsplitStep2` and `splitStep2` hold for the text of the code.
-/
set_option linter.unusedSectionVars false

namespace PyClaw
open Spec

variable {K : Type*} [Field K] [LinearOrder K] [IsStrictOrderedRing K] {m w : Nat} {A : Type*}

/-- A loop whose pass `i` changes cells with first index `i` only, depending on these cells. -/
theorem foldl_cells {V : Type*} (f : (Int → Int → V) → Int → Int → Int → V) (F : Int → (Int → V) → Int → V)
    (h : ∀ q i i' j', f q i i' j' = if i' = i then F i (q i) j' else q i' j') (l : List Int) (hl : l.Nodup) (q : Int → Int → V) (i' j' : Int) :
    l.foldl f q i' j' = if i' ∈ l then F i' (q i') j' else q i' j' := by
  induction l generalizing q with
  | nil => simp
  | cons a l ih =>
    rw [List.foldl_cons, ih (List.nodup_cons.mp hl).2]
    have ha := (List.nodup_cons.mp hl).1
    by_cases e : i' = a
    · subst e
      rw [if_neg ha, if_pos List.mem_cons_self, h, if_pos rfl]
    · have e' : ∀ j, f q a i' j = q i' j := fun j => by rw [h, if_neg e]
      have e'' : f q a i' = q i' := funext e'
      simp only [List.mem_cons, e, false_or, e'']

/-- One row of the sweeps in `x`. -/
theorem xCells_eq (c : Cfg2 K w) (capa : Option (A → K)) (aux : Int → Int → A) (j : Int) (S : Slice K m) (qn : Int → Int → Fin m → K) :
    (irange 1 (c.mx + 1)).foldl (xCell c capa aux j S) qn = unsplitUpdate c capa aux j S qn := by
  funext i' j'
  rw [foldl_cells (xCell c capa aux j S) (fun i r j' =>
    if j' = j then r j' + S.qadd i - capDiv capa (aux i j)
        ((c.dt / c.dx) • (S.fadd (i + 1) - S.fadd i) + (c.dt / c.dy) • (S.gadd2 i - S.gadd1 i))
    else if j' = j - 1 then r j' - capDiv capa (aux i (j - 1)) ((c.dt / c.dy) • S.gadd1 i)
    else if j' = j + 1 then r j' + capDiv capa (aux i (j + 1)) ((c.dt / c.dy) • S.gadd2 i)
    else r j') ?_ _ (irange_nodup _ _)]
  · unfold unsplitUpdate
    have : i' ∈ irange 1 ((c.mx : Int) + 1) ↔ 1 ≤ i' ∧ i' ≤ c.mx := by rw [mem_irange]; omega
    simp only [this]
  · intro q i i' j'
    have n1 : ¬ (j - 1 = j) := by omega
    have n2 : ¬ (j + 1 = j) := by omega
    have n3 : ¬ (j + 1 = j - 1) := by omega
    by_cases hi : i' = i
    · subst hi
      rw [if_pos rfl]
      by_cases h1 : j' = j
      · subst h1
        cases capa <;> simp only [xCell, assign2, capDiv, true_and, if_pos, show ¬ (j' = j' - 1) by omega, show ¬ (j' = j' + 1) by omega, if_false]
        module
      · by_cases h2 : j' = j - 1
        · subst h2
          cases capa <;> simp only [xCell, assign2, capDiv, true_and, if_pos, if_false, n1, show ¬ (j - 1 = j + 1) by omega]
        · by_cases h3 : j' = j + 1
          · subst h3
            cases capa <;> simp only [xCell, assign2, capDiv, true_and, if_pos, if_false, n2, n3]
          · cases capa <;> simp only [xCell, assign2, true_and, if_false, h1, h2, h3]
    · cases capa <;> simp only [xCell, assign2, hi, false_and, if_false]

/-- One column of the sweeps in `y`. -/
theorem yCells_eq (c : Cfg2 K w) (capa : Option (A → K)) (aux : Int → Int → A) (i : Int) (S : Slice K m) (qn : Int → Int → Fin m → K) :
    (irange 1 (c.my + 1)).foldl (yCell c capa aux i S) qn =
      fun i' j' => unsplitUpdate c.swap capa (fun j i => aux i j) i S (fun j i => qn i j) j' i' := by
  rw [← xCells_eq c.swap capa (fun j i => aux i j) i S fun j i => qn i j]
  have h : ∀ (l : List Int) (q : Int → Int → Fin m → K),
      l.foldl (yCell c capa aux i S) q = fun i' j' => l.foldl (xCell c.swap capa (fun j i => aux i j) i S) (fun j i => q i j) j' i' := by
    intro l
    induction l with
    | nil => intro q; rfl
    | cons a l ih =>
      intro q
      rw [List.foldl_cons, ih]
      have e : (fun j i' => yCell c capa aux i S q a i' j) = xCell c.swap capa (fun j i => aux i j) i S (fun j i => q i j) a := by
        funext j i'
        cases capa <;> simp only [xCell, yCell, assign2, and_comm, Cfg2.swap, add_sub_assoc]
      simp only [e]
      rfl
  exact h _ _

theorem ySlice_eq (undef : K) (rp : Riemann K A m w) (rt : Transverse K A m) (c : Cfg2 K w) (capa : Option (A → K)) (aux : Int → Int → A)
    (q : Int → Int → Fin m → K) (i : Int) :
    ySlice undef rp rt c capa aux q i = unsplitSlice undef rp rt c.swap capa (fun j i => aux i j) (fun j i => q i j) i := by
  cases capa <;> rfl

/-- C43: the text of `step2`. Whatever is proved about `unsplitStep2` holds for the sweeps as they are written. -/
theorem C43_text (undef : K) (rpx rpy : Riemann K A m w) (rtx rty : Transverse K A m) (c : Cfg2 K w) (capa : Option (A → K))
    (aux : Int → Int → A) (q : Int → Int → Fin m → K) :
    step2Text undef rpx rpy rtx rty c capa aux q q = unsplitStep2 undef rpx rpy rtx rty c capa aux q := by
  unfold step2Text unsplitStep2 step2Y
  dsimp only
  have hX : (irange 0 ((c.my : Int) + 2)).foldl (fun (st : (Int → Int → Fin m → K) × K) j =>
      let S := unsplitSlice undef rpx rtx c capa aux q j
      ((irange 1 ((c.mx : Int) + 1)).foldl (xCell c capa aux j S) st.1, max st.2 S.cfl)) (q, 0) = step2X undef rpx rtx c capa aux q q := by
    unfold step2X
    simp only [xCells_eq]
  rw [hX]
  have h0 : 0 ≤ (step2X undef rpx rtx c capa aux q q).2 := by
    unfold step2X
    have : ∀ (l : List Int) (st : (Int → Int → Fin m → K) × K), 0 ≤ st.2 → 0 ≤ (l.foldl (fun st j =>
        (unsplitUpdate c capa aux j (unsplitSlice undef rpx rtx c capa aux q j) st.1,
          max st.2 (unsplitSlice undef rpx rtx c capa aux q j).cfl)) st).2 := by
      intro l
      induction l with
      | nil => intro st h; exact h
      | cons a l ih => intro st h; exact ih _ (le_max_of_le_left h)
    exact this _ _ (le_refl 0)
  generalize step2X undef rpx rtx c capa aux q q = r1 at h0
  obtain ⟨q1, x⟩ := r1
  dsimp only at h0 ⊢
  simp only [yCells_eq, ySlice_eq]
  have hT : ∀ (l : List Int) (q' : Int → Int → Fin m → K) (y : K),
      l.foldl (fun (st : (Int → Int → Fin m → K) × K) i => (fun i' j' => unsplitUpdate c.swap capa (fun j i => aux i j) i
        (unsplitSlice undef rpy rty c.swap capa (fun j i => aux i j) (fun j i => q i j) i) (fun j i => st.1 i j) j' i',
        max st.2 (unsplitSlice undef rpy rty c.swap capa (fun j i => aux i j) (fun j i => q i j) i).cfl)) (q', max x y) =
      (fun i j => (l.foldl (fun (st : (Int → Int → Fin m → K) × K) j => (unsplitUpdate c.swap capa (fun j i => aux i j) j
        (unsplitSlice undef rpy rty c.swap capa (fun j i => aux i j) (fun j i => q i j) j) st.1,
        max st.2 (unsplitSlice undef rpy rty c.swap capa (fun j i => aux i j) (fun j i => q i j) j).cfl)) (fun j i => q' i j, y)).1 j i,
       max x (l.foldl (fun (st : (Int → Int → Fin m → K) × K) j => (unsplitUpdate c.swap capa (fun j i => aux i j) j
        (unsplitSlice undef rpy rty c.swap capa (fun j i => aux i j) (fun j i => q i j) j) st.1,
        max st.2 (unsplitSlice undef rpy rty c.swap capa (fun j i => aux i j) (fun j i => q i j) j).cfl)) (fun j i => q' i j, y)).2) := by
    intro l
    induction l with
    | nil => intro q' y; rfl
    | cons a l ih =>
      intro q' y
      simp only [List.foldl_cons]
      rw [max_assoc]
      exact ih _ _
  have e := hT (irange 0 ((c.mx : Int) + 2)) q1 0
  rw [max_eq_left h0] at e
  exact e

theorem foldl_through {S S' α : Type*} (tr : S → S') (F : S → α → S) (G : S' → α → S') (h : ∀ s a, tr (F s a) = G (tr s) a) (l : List α) (s : S) :
    tr (l.foldl F s) = l.foldl G (tr s) := by
  induction l generalizing s with
  | nil => rfl
  | cons a l ih => rw [List.foldl_cons, List.foldl_cons, ih, h]

/-- C43: the text of the second call of `step2ds`. -/
theorem C43_split_text (undef : K) (rpx rpy : Riemann K A m w) (c : Cfg2 K w) (capa : Option (A → K)) (aux : Int → Int → A)
    (q : Int → Int → Fin m → K) :
    splitStep2 undef rpx rpy c capa aux q =
      ((step2dsYText undef rpy c capa aux (step2dsX false undef rpx c capa aux q q).1).1,
        max (step2dsX false undef rpx c capa aux q q).2 (step2dsYText undef rpy c capa aux (step2dsX false undef rpx c capa aux q q).1).2) := by
  unfold splitStep2
  dsimp only
  have h : ∀ q : Int → Int → Fin m → K, step2dsY true undef rpy c capa aux q q = step2dsYText undef rpy c capa aux q := by
    intro q
    unfold step2dsY step2dsYText step2dsX
    dsimp only
    refine foldl_through (fun (r : (Int → Int → Fin m → K) × K) => ((fun i j => r.1 j i : Int → Int → Fin m → K), r.2)) _ _ ?_ _ _
    rintro ⟨q', y⟩ a
    have hs : splitSlice undef rpy c.swap capa (fun i => aux a i) (fun i => q' i a) =
        ySplitSlice undef rpy c capa aux (fun i j => q' j i) a := by
      cases capa <;> rfl
    simp only [if_true, hs]
    refine Prod.ext ?_ rfl
    funext i j
    dsimp only
    by_cases h1 : i = a
    · subst h1
      by_cases h2 : 1 ≤ j ∧ j ≤ c.my
      · cases capa <;> simp only [Cfg2.swap, h2, and_self, if_true, capDiv]
      · simp only [Cfg2.swap, h2, and_false, if_false, if_true]
    · simp only [h1, false_and, if_false]
  rw [h]

/-- Non-vacuity: both theorems have no hypotheses; here a step of the text on two by two cells, with a transverse flux from the lower left cell
to the upper right one. -/
example : (step2Text (0 : ℚ) (advectionRp 1) (advectionRp 1) (advectionRt 1) (advectionRt 1)
    ⟨2, 2, 2, 1 / 2, 1, 1, 1, 2, false, fun _ => 0⟩ none (fun _ _ => ()) (fun i j _ => if i = 1 ∧ j = 1 then 1 else 0)
    fun i j _ => if i = 1 ∧ j = 1 then 1 else 0).1 2 2 0 = 1 / 4 := by
  decide +kernel

end PyClaw
