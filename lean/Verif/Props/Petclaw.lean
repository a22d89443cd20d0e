import Verif.Spec.Petclaw
import Mathlib.Tactic.FieldSimp
import Mathlib.Tactic.Ring
import Mathlib.Tactic.Linarith
import Mathlib.Algebra.Order.Ring.Rat

set_option linter.unusedSectionVars false

/-!
C63: the local grids of a parallel patch tile the global patch.
-/
namespace PyClaw

open Spec

variable {K : Type*} [Field K] [LinearOrder K] [IsStrictOrderedRing K]

theorem partition_mono {n p : Nat} {cut : Nat → Nat} (h : IsPartition n p cut) {i j : Nat} (hij : i ≤ j) (hj : j ≤ p) :
    cut i ≤ cut j := by
  induction hij with
  | refl => exact le_refl _
  | step hij ih => exact le_trans (ih (by omega)) (h.nonempty _ (by omega)).le

theorem partition_strict {n p : Nat} {cut : Nat → Nat} (h : IsPartition n p cut) {i j : Nat} (hij : i < j) (hj : j ≤ p) :
    cut i < cut j := lt_of_lt_of_le (h.nonempty i (by omega)) (partition_mono h (by omega : i + 1 ≤ j) hj)

/-- C63, one direction: every process gets a grid; it has the owned number of cells and the global cell width, its bounds lie on the
global cell edges, and exactly the outermost processes are marked as lying on the boundary. -/
theorem C63_local_part (d : Dim K) (hd : d.valid = true) (n p : Nat) (hn : d.numCells = n) (cut : Nat → Nat)
    (h : IsPartition n p cut) (k : Nat) (hk : k < p) :
    ∃ g, localDim d (ownRange cut k) = .ok g ∧ IsLocalPart d p cut k g := by
  unfold Dim.valid at hd
  simp only [Bool.and_eq_true, decide_eq_true_eq] at hd
  obtain ⟨hc, hlu⟩ := hd
  have hn0 : (0 : K) < n := by
    have : 0 < n := by omega
    exact_mod_cast this
  have hdelta : d.delta = .ok ((d.upper - d.lower) / (n : K)) := by
    unfold Dim.delta
    rw [if_neg (by omega), hn]
    simp
  have hpos : (0 : K) < (d.upper - d.lower) / (n : K) := div_pos (by linarith) hn0
  have hcut := h.nonempty k hk
  have hcutK : (cut k : K) < cut (k + 1) := by exact_mod_cast hcut
  unfold localDim ownRange
  rw [hdelta]
  dsimp only
  generalize hh : (d.upper - d.lower) / (n : K) = w at *
  have hvalid : (⟨d.lower + ((cut k : Int) : K) * w, d.lower + ((cut (k + 1) : Int) : K) * w,
      (cut (k + 1) : Int) - (cut k : Int), d.name, none, none, none, none⟩ : Dim K).valid = true := by
    unfold Dim.valid
    simp only [Bool.and_eq_true, decide_eq_true_eq]
    refine ⟨by omega, ?_⟩
    have := mul_lt_mul_of_pos_right hcutK hpos
    push_cast
    linarith
  unfold Dim.new Dim.checkValidity
  dsimp only
  rw [if_pos hvalid]
  have hwn : w * n = d.upper - d.lower := by
    rw [← hh]; field_simp
  refine ⟨_, rfl, ⟨rfl, rfl, ?_, ?_, ?_, ?_, ?_, ?_, ?_⟩⟩
  · unfold Dim.delta
    dsimp only
    rw [if_neg (by omega), if_neg (by omega)]
    congr 1
    rw [hn]
    have hne : ((cut (k + 1) : K) - cut k) ≠ 0 := by linarith
    push_cast
    rw [show d.lower + (cut (k + 1) : K) * w - (d.lower + cut k * w) = ((cut (k + 1) : K) - cut k) * w by ring, mul_comm,
      mul_div_assoc, div_self hne, mul_one, ← hh]
  · intro x hx; rw [hdelta] at hx; cases hx; push_cast; rfl
  · intro x hx; rw [hdelta] at hx; cases hx; push_cast; rfl
  · rintro rfl; simp [h.first]
  · intro hkp
    rw [hkp, h.last]
    push_cast
    rw [mul_comm, hwn]; ring
  · dsimp only
    congr 1
    rw [decide_eq_decide]
    constructor
    · intro h0
      by_contra hne
      have := partition_strict h (show 0 < k by omega) hk.le
      rw [h.first] at this
      omega
    · rintro rfl; simp [h.first]
  · dsimp only
    congr 1
    rw [decide_eq_decide, hn]
    constructor
    · intro h0
      by_contra hne
      have := partition_strict h (show k + 1 < p by omega) (le_refl p)
      rw [h.last] at this
      omega
    · intro hkp; rw [hkp, h.last]

/-- C63: neighbouring processes share their common bound. -/
theorem C63_contiguous (d : Dim K) (hd : d.valid = true) (n p : Nat) (hn : d.numCells = n) (cut : Nat → Nat)
    (h : IsPartition n p cut) (k : Nat) (hk : k + 1 < p) :
    ∃ g g', localDim d (ownRange cut k) = .ok g ∧ localDim d (ownRange cut (k + 1)) = .ok g' ∧ g.upper = g'.lower := by
  obtain ⟨g, h1, h2⟩ := C63_local_part d hd n p hn cut h k (by omega)
  obtain ⟨g', h1', h2'⟩ := C63_local_part d hd n p hn cut h (k + 1) hk
  refine ⟨g, g', h1, h1', ?_⟩
  obtain ⟨w, hw⟩ : ∃ w, d.delta = .ok w := by
    have h0 := hd
    unfold Dim.valid at h0
    simp only [Bool.and_eq_true, decide_eq_true_eq] at h0
    exact ⟨_, if_neg (by omega)⟩
  rw [h2.upper w hw, h2'.lower w hw]

/-- C63: the cells of the processes, listed process after process, are the cells of the global patch. -/
theorem C63_centers (d : Dim K) (hd : d.valid = true) (n p : Nat) (hn : d.numCells = n) (cut : Nat → Nat)
    (h : IsPartition n p cut) :
    ∃ gs cs c, gs.length = p ∧ (∀ k, k < p → ∃ g, gs[k]? = some g ∧ localDim d (ownRange cut k) = .ok g) ∧
      List.Forall₂ (fun g c => Dim.computeCenters g = .ok c) gs cs ∧ d.computeCenters = .ok c ∧ cs.flatten = c := by
  have h0 := hd
  unfold Dim.valid at h0
  simp only [Bool.and_eq_true, decide_eq_true_eq] at h0
  obtain ⟨hc, hlu⟩ := h0
  obtain ⟨w, hw⟩ : ∃ w, d.delta = .ok w := ⟨_, if_neg (by omega)⟩
  have hcen : d.computeCenters = .ok ((List.range n).map fun i : Nat => d.lower + ((i : K) + 1 / 2) * w) := by
    unfold Dim.computeCenters
    rw [if_neg (by omega), if_neg (by omega), hw, hn]
    simp
  have key : ∀ j, j ≤ p → ∃ gs cs, gs.length = j ∧
      (∀ k, k < j → ∃ g, gs[k]? = some g ∧ localDim d (ownRange cut k) = .ok g) ∧
      List.Forall₂ (fun g c => Dim.computeCenters g = .ok c) gs cs ∧
      cs.flatten = (List.range (cut j)).map fun i : Nat => d.lower + ((i : K) + 1 / 2) * w := by
    intro j
    induction j with
    | zero => intro _; exact ⟨[], [], rfl, fun k hk => absurd hk (by omega), .nil, by simp [h.first]⟩
    | succ j ih =>
      intro hj
      obtain ⟨gs, cs, a1, a2, a3, a4⟩ := ih (by omega)
      obtain ⟨g, b1, b2⟩ := C63_local_part d hd n p hn cut h j (by omega)
      have hlt := h.nonempty j (by omega)
      have hg : g.computeCenters = .ok ((List.range (cut (j + 1) - cut j)).map fun i : Nat =>
          g.lower + ((i : K) + 1 / 2) * w) := by
        have := b2.cells
        unfold Dim.computeCenters
        rw [if_neg (by omega), if_neg (by omega), b2.width, hw]
        dsimp only
        rw [show g.numCells.toNat = cut (j + 1) - cut j by omega]
      refine ⟨gs ++ [g], cs ++ [_], by simp [a1], ?_, List.rel_append a3 (.cons hg .nil), ?_⟩
      · intro k hk
        by_cases hkj : k < j
        · obtain ⟨x, x1, x2⟩ := a2 k hkj
          exact ⟨x, by rw [List.getElem?_append_left (by omega)]; exact x1, x2⟩
        · have : k = j := by omega
          subst this
          exact ⟨g, by rw [List.getElem?_append_right (by omega)]; simp [a1], b1⟩
      · rw [List.flatten_append, a4, show cut (j + 1) = cut j + (cut (j + 1) - cut j) by omega, List.range_add, List.map_append]
        simp only [List.flatten_cons, List.flatten_nil, List.append_nil, Nat.add_sub_cancel_left, List.map_map]
        congr 1
        apply List.map_congr_left
        intro i _
        simp only [Function.comp]
        rw [b2.lower w hw]
        push_cast
        ring
  obtain ⟨gs, cs, a1, a2, a3, a4⟩ := key p (le_refl p)
  exact ⟨gs, cs, _, a1, a2, a3, hcen, by rw [a4, h.last]⟩

/-- In one direction every cell has exactly one owner. -/
theorem owner_exists {n p : Nat} {cut : Nat → Nat} (h : IsPartition n p cut) (i : Nat) (hi : i < n) :
    ∃ k, k < p ∧ cut k ≤ i ∧ i < cut (k + 1) := by
  have key : ∀ j, j ≤ p → i < cut j → ∃ k, k < j ∧ cut k ≤ i ∧ i < cut (k + 1) := by
    intro j
    induction j with
    | zero => intro _ hc; rw [h.first] at hc; omega
    | succ j ih =>
      intro hj hc
      by_cases hij : i < cut j
      · obtain ⟨k, a, b, c⟩ := ih (by omega) hij
        exact ⟨k, by omega, b, c⟩
      · exact ⟨j, by omega, by omega, hc⟩
  exact key p (le_refl p) (by rw [h.last]; exact hi)

theorem owner_unique {n p : Nat} {cut : Nat → Nat} (h : IsPartition n p cut) (i k k' : Nat) (hk : k < p) (hk' : k' < p)
    (h1 : cut k ≤ i) (h2 : i < cut (k + 1)) (h1' : cut k' ≤ i) (h2' : i < cut (k' + 1)) : k = k' := by
  rcases lt_trichotomy k k' with hlt | heq | hgt
  · have := partition_mono h (show k + 1 ≤ k' by omega) hk'.le
    omega
  · exact heq
  · have := partition_mono h (show k' + 1 ≤ k by omega) hk.le
    omega

/-- C63, any number of directions: every cell of the patch belongs to exactly one process of the process grid. -/
theorem C63_owner {ι : Type*} (n p : ι → Nat) (cut : ι → Nat → Nat) (h : ∀ a, IsPartition (n a) (p a) (cut a)) (idx : ι → Nat)
    (hi : ∀ a, idx a < n a) :
    ∃! k : ι → Nat, ∀ a, k a < p a ∧ cut a (k a) ≤ idx a ∧ idx a < cut a (k a + 1) := by
  choose k hk using fun a => owner_exists (h a) (idx a) (hi a)
  refine ⟨k, hk, fun k' hk' => funext fun a => ?_⟩
  exact owner_unique (h a) (idx a) _ _ (hk' a).1 (hk a).1 (hk' a).2.1 (hk' a).2.2 (hk a).2.1 (hk a).2.2

/-- C63: the local grid of a process in any number of directions consists of its parts in each direction. -/
theorem C63_local_grid (ds : List (Dim K)) (parts : List (Nat × Nat × (Nat → Nat) × Nat))
    (h : List.Forall₂ (fun (d : Dim K) (x : Nat × Nat × (Nat → Nat) × Nat) =>
      d.valid = true ∧ d.numCells = (x.1 : Int) ∧ IsPartition x.1 x.2.1 x.2.2.1 ∧ x.2.2.2 < x.2.1) ds parts) :
    ∃ gs, localGrid ds (parts.map fun x => ownRange x.2.2.1 x.2.2.2) = .ok gs ∧
      List.Forall₂ (fun (dx : Dim K × (Nat × Nat × (Nat → Nat) × Nat)) g =>
        IsLocalPart dx.1 dx.2.2.1 dx.2.2.2.1 dx.2.2.2.2 g) (ds.zip parts) gs := by
  induction h with
  | nil => exact ⟨[], rfl, .nil⟩
  | @cons d x ds parts h0 _ ih =>
    obtain ⟨g, hg1, hg2⟩ := C63_local_part d h0.1 x.1 x.2.1 h0.2.1 x.2.2.1 h0.2.2.1 x.2.2.2 h0.2.2.2
    obtain ⟨gs, h1, h2⟩ := ih
    refine ⟨g :: gs, ?_, .cons hg2 h2⟩
    simp only [List.map_cons, localGrid]
    rw [hg1]
    dsimp only
    rw [h1]

/-- Non-vacuity: ten cells among three processes. -/
def exCut : Nat → Nat := fun k => if k = 0 then 0 else if k = 1 then 4 else if k = 2 then 7 else 10

example : IsPartition 10 3 exCut := by
  refine ⟨rfl, rfl, ?_⟩
  decide

example : (⟨-1, 4, 10, "x", none, none, none, none⟩ : Dim ℚ).valid = true ∧
    (localDim (⟨-1, 4, 10, "x", none, none, none, none⟩ : Dim ℚ) (ownRange exCut 1)).toOption.map
      (fun g => (g.lower, g.upper, g.numCells, g.onLower, g.onUpper)) = some (1, 5 / 2, 3, some false, some false) := by
  decide +kernel

end PyClaw
