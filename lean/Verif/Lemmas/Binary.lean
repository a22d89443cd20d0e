import Verif.Spec.Binary
import Mathlib.Algebra.BigOperators.Group.List.Basic
import Mathlib.Tactic.Ring

set_option linter.unusedSectionVars false

/-! Fortran order: the offset of an entry. -/
namespace PyClaw

/-- An index within the extents. -/
def Within (ns is : List Nat) : Prop := List.Forall₂ (fun i n => i < n) is ns

theorem fOffset_append (ns is : List Nat) (n j : Nat) (h : ns.length = is.length) :
    fOffset (ns ++ [n]) (is ++ [j]) = fOffset ns is + ns.prod * j := by
  induction ns generalizing is with
  | nil =>
    obtain rfl := List.length_eq_zero_iff.mp h.symm
    simp [fOffset]
  | cons a ns ih =>
    cases is with
    | nil => simp at h
    | cons i is =>
      simp only [List.cons_append, fOffset, List.prod_cons]
      rw [ih is (by simpa using h)]
      ring

theorem fOffset_lt (ns is : List Nat) (h : Within ns is) : fOffset ns is < ns.prod := by
  induction h with
  | nil => simp [fOffset]
  | @cons i n is ns hin _ ih =>
    simp only [fOffset, List.prod_cons]
    have : n * (fOffset ns is + 1) ≤ n * ns.prod := Nat.mul_le_mul_left _ ih
    rw [mul_add, mul_one] at this
    omega

theorem flatMap_length_const {α β : Type*} (l : List α) (f : α → List β) (L : Nat) (h : ∀ i ∈ l, (f i).length = L) :
    (l.flatMap f).length = l.length * L := by
  induction l with
  | nil => simp
  | cons a l ih =>
    rw [List.flatMap_cons, List.length_append, h a (by simp), ih fun i hi => h i (by simp [hi]), List.length_cons]
    ring

theorem nth_append_right {α : Type} (d : α) (a b : List α) (i : Nat) : nth d (a ++ b) (a.length + i) = nth d b i := by
  simp [nth, List.getElem?_append_right]

theorem nth_append_left {α : Type} (d : α) (a b : List α) (i : Nat) (h : i < a.length) : nth d (a ++ b) i = nth d a i := by
  simp [nth, List.getElem?_append_left h]

theorem nth_flatMap {α : Type} (d : α) (f : Nat → List α) (L N j r : Nat) (h : ∀ i, (f i).length = L) (hj : j < N)
    (hr : r < L) : nth d ((List.range N).flatMap f) (L * j + r) = nth d (f j) r := by
  induction N with
  | zero => omega
  | succ N ih =>
    have hlen : ((List.range N).flatMap f).length = N * L := by
      rw [flatMap_length_const _ _ L fun i _ => h i, List.length_range]
    rw [List.range_succ, List.flatMap_append]
    by_cases hjn : j < N
    · rw [nth_append_left, ih hjn]
      rw [hlen]
      have : L * (j + 1) ≤ L * N := Nat.mul_le_mul_left _ hjn
      rw [mul_add, mul_one] at this
      rw [mul_comm N L]
      omega
    · obtain rfl : j = N := by omega
      have e : L * j + r = ((List.range j).flatMap f).length + r := by rw [hlen]; ring
      rw [e, nth_append_right]
      simp

theorem fortranOrder_length (meqn : Nat) (dims : List Nat) (v : Nat → List Nat → Num) :
    (Spec.fortranOrder meqn dims v).length = meqn * dims.prod := by
  induction dims generalizing v with
  | nil => simp [Spec.fortranOrder]
  | cons N dims ih =>
    unfold Spec.fortranOrder
    rw [flatMap_length_const _ _ (meqn * dims.prod) fun i _ => ih _, List.length_range, List.prod_cons]
    ring

/-- The entry at the Fortran offset. -/
theorem nth_fortranOrder (d : Num) (meqn : Nat) (dims : List Nat) (v : Nat → List Nat → Num) (m : Nat) (hm : m < meqn)
    (idx : List Nat) (h : Within dims.reverse idx) :
    nth d (Spec.fortranOrder meqn dims v) (fOffset (meqn :: dims.reverse) (m :: idx)) = v m idx := by
  induction dims generalizing v idx with
  | nil =>
    have : idx = [] := by
      unfold Within at h
      simpa using h
    subst this
    have e : fOffset (meqn :: ([] : List Nat).reverse) [m] = m := by simp [fOffset]
    rw [e]
    unfold Spec.fortranOrder nth
    simp [hm]
  | cons N dims ih =>
    rw [List.reverse_cons] at h ⊢
    obtain ⟨is, js, hi, hj, rfl⟩ : ∃ is js, Within dims.reverse is ∧ Within [N] js ∧ idx = is ++ js := by
      unfold Within at h
      have hlen := h.length_eq
      refine ⟨idx.take dims.length, idx.drop dims.length, ?_, ?_, (List.take_append_drop _ _).symm⟩
      · have := List.forall₂_take dims.length h
        rwa [List.take_left' (by simp)] at this
      · have := List.forall₂_drop dims.length h
        rwa [List.drop_left' (by simp)] at this
    obtain ⟨j, rfl, hjN⟩ : ∃ j, js = [j] ∧ j < N := by
      unfold Within at hj
      cases hj with
      | cons h1 h2 => cases h2; exact ⟨_, rfl, h1⟩
    have hoff : fOffset (meqn :: (dims.reverse ++ [N])) (m :: (is ++ [j])) =
        (meqn * dims.prod) * j + fOffset (meqn :: dims.reverse) (m :: is) := by
      have := fOffset_append (meqn :: dims.reverse) (m :: is) N j (by
        have := hi.length_eq
        simp only [List.length_cons, this])
      rw [List.cons_append, List.cons_append] at this
      rw [this, List.prod_cons, List.prod_reverse]
      ring
    have hlt : fOffset (meqn :: dims.reverse) (m :: is) < meqn * dims.prod := by
      have := fOffset_lt (meqn :: dims.reverse) (m :: is) (.cons hm hi)
      rwa [List.prod_cons, List.prod_reverse] at this
    unfold Spec.fortranOrder
    rw [hoff, nth_flatMap d _ _ _ _ _ (fun i => fortranOrder_length _ _ _) hjN hlt]
    exact ih _ is hi

end PyClaw
