import Verif.Spec.Vtk
import Mathlib.Tactic.FieldSimp
import Mathlib.Tactic.Ring
import Mathlib.Tactic.Linarith
import Mathlib.Data.Rat.Floor
import Mathlib.Data.List.Induction

set_option linter.unusedSectionVars false

/-!
C65 and C74: VTK frames.
-/
namespace PyClaw

open Spec

variable {K : Type*} [Field K] [LinearOrder K] [IsStrictOrderedRing K] [FloorRing K]

theorem pyRound_int (n : Int) : pyRound (n : K) = n := by
  unfold pyRound
  simp

/-- The marked cells in one direction, for a fine patch from edge `k` to edge `k+w`. -/
theorem marked_range (lower dx : K) (hdx : 0 < dx) (k w : Int) (n : Nat) :
    idxLower (lower + k * dx) lower dx = max k 0 ∧
    idxUpper (lower + k * dx) (lower + (k + w) * dx) dx (max k 0) n = min (w + max k 0) n := by
  unfold idxLower idxUpper
  constructor
  · rw [show (lower + k * dx - lower) / dx = (k : K) by field_simp; ring, pyRound_int]
  · rw [show (lower + (k + w) * dx - (lower + k * dx)) / dx = (w : K) by field_simp; ring, pyRound_int]

/-- Coverage in one direction in terms of indices. -/
theorem covered_range (lower dx : K) (hdx : 0 < dx) (k w : Int) (i : Nat) :
    (lower + k * dx ≤ lower + (i : K) * dx ∧ lower + ((i + 1 : Nat) : K) * dx ≤ lower + (k + w) * dx) ↔
      k ≤ i ∧ (i : Int) + 1 ≤ k + w := by
  have h1 : lower + k * dx ≤ lower + (i : K) * dx ↔ (k : K) ≤ ((i : Int) : K) := by
    rw [add_le_add_iff_left, mul_le_mul_iff_of_pos_right hdx]; simp
  have h2 : lower + ((i + 1 : Nat) : K) * dx ≤ lower + (k + w) * dx ↔ (((i : Int) + 1 : Int) : K) ≤ ((k + w : Int) : K) := by
    rw [add_le_add_iff_left, mul_le_mul_iff_of_pos_right hdx]; push_cast; rfl
  rw [h1, h2, Int.cast_le, Int.cast_le]

theorem fold_overlap (patches : List (VtkPatch K)) (p : VtkPatch K) (i j : Nat) (st : Nat → Nat → K) :
    (patches.foldl (fun status f => if f.level - 1 = p.level - 1 + 1 then fillOverlap p f status else status) st) i j =
      if ∃ f ∈ patches, f.level = p.level + 1 ∧ fillOverlap p f (fun _ _ => 0) i j = 8 then 8 else st i j := by
  induction patches generalizing st with
  | nil => simp
  | cons f l ih =>
    rw [List.foldl_cons, ih]
    by_cases hl : ∃ f ∈ l, f.level = p.level + 1 ∧ fillOverlap p f (fun _ _ => 0) i j = 8
    · rw [if_pos hl, if_pos]
      obtain ⟨g, hg, h⟩ := hl
      exact ⟨g, by simp [hg], h⟩
    · rw [if_neg hl]
      by_cases hf : f.level = p.level + 1
      · rw [if_pos (by omega)]
        unfold fillOverlap
        dsimp only
        by_cases hin : (idxLower f.xlower p.xlower p.dx ≤ (i : Int) ∧ (i : Int) < idxUpper f.xlower f.xupper p.dx
            (idxLower f.xlower p.xlower p.dx) p.nx) ∧ (idxLower f.ylower p.ylower p.dy ≤ (j : Int) ∧
            (j : Int) < idxUpper f.ylower f.yupper p.dy (idxLower f.ylower p.ylower p.dy) p.ny)
        · rw [if_pos hin, if_pos]
          exact ⟨f, by simp, hf, if_pos hin⟩
        · rw [if_neg hin, if_neg]
          rintro ⟨g, hg, h1, h2⟩
          rcases List.mem_cons.mp hg with rfl | hg
          · rw [if_neg hin] at h2
            exact absurd h2.symm (by norm_num)
          · exact hl ⟨g, hg, h1, h2⟩
      · rw [if_neg (by omega), if_neg]
        rintro ⟨g, hg, h1, h2⟩
        rcases List.mem_cons.mp hg with rfl | hg
        · exact hf h1
        · exact hl ⟨g, hg, h1, h2⟩

/-- Which cells a fine patch marks. -/
theorem fill_marks (p f : VtkPatch K) (hp : ProperPatch p) (i j : Nat) (kx wx ky wy : Int)
    (hx1 : f.xlower = p.xlower + kx * ((p.xupper - p.xlower) / p.nx))
    (hx2 : f.xupper = p.xlower + (kx + wx) * ((p.xupper - p.xlower) / p.nx))
    (hy1 : f.ylower = p.ylower + ky * ((p.yupper - p.ylower) / p.ny))
    (hy2 : f.yupper = p.ylower + (ky + wy) * ((p.yupper - p.ylower) / p.ny)) :
    fillOverlap p f (fun _ _ => 0) i j = 8 ↔
      (max kx 0 ≤ i ∧ (i : Int) < min (wx + max kx 0) p.nx) ∧ (max ky 0 ≤ j ∧ (j : Int) < min (wy + max ky 0) p.ny) := by
  have hdx : 0 < (p.xupper - p.xlower) / (p.nx : K) := div_pos (by linarith [hp.x]) (by exact_mod_cast hp.nx)
  have hdy : 0 < (p.yupper - p.ylower) / (p.ny : K) := div_pos (by linarith [hp.y]) (by exact_mod_cast hp.ny)
  obtain ⟨a1, a2⟩ := marked_range p.xlower _ hdx kx wx p.nx
  obtain ⟨b1, b2⟩ := marked_range p.ylower _ hdy ky wy p.ny
  unfold fillOverlap VtkPatch.dx VtkPatch.dy
  dsimp only
  rw [hx1, hx2, hy1, hy2, a1, a2, b1, b2]
  split
  · rename_i h; exact ⟨fun _ => h, fun _ => rfl⟩
  · rename_i h; exact ⟨fun h0 => absurd h0.symm (by norm_num), fun h0 => absurd h0 h⟩

/-- C65: the bounds of a fine patch go to the nearest edge of the coarse one, and half way between two edges to the one with the
even number (which matters for patches that are not aligned only). -/
theorem C65_nearest_edge [IsStrictOrderedRing K] (x : K) :
    |x - pyRound x| ≤ 1 / 2 ∧ (|x - pyRound x| = 1 / 2 → Even (pyRound x)) := by
  have h1 := Int.floor_le x
  have h2 := Int.lt_floor_add_one x
  unfold pyRound
  dsimp only
  split
  · rename_i h
    rw [abs_of_nonneg (by linarith)]
    exact ⟨h.le, fun e => absurd e h.ne⟩
  · split
    · rename_i h
      push_cast
      rw [abs_of_nonpos (by linarith)]
      exact ⟨by linarith, fun e => by linarith⟩
    · rename_i h3 h4
      have e : x - ⌊x⌋ = 1 / 2 := le_antisymm (not_lt.mp h4) (not_lt.mp h3)
      split
      · rename_i h5
        rw [e, abs_of_nonneg (by norm_num)]
        exact ⟨le_rfl, fun _ => Int.even_iff.mpr h5⟩
      · rename_i h5
        push_cast
        rw [show x - (↑⌊x⌋ + 1) = -(1 / 2) by linarith, abs_neg, abs_of_nonneg (by norm_num)]
        exact ⟨le_rfl, fun _ => Int.even_iff.mpr (by omega)⟩

/-- C65, first half: every cell of a patch that is covered by an aligned patch one level finer is marked as hidden. -/
theorem C65_covered_cells_are_hidden (patches : List (VtkPatch K)) (p : VtkPatch K) (hp : ProperPatch p) (i j : Nat)
    (hi : i < p.nx) (hj : j < p.ny) (f : VtkPatch K) (hf : f ∈ patches) (hl : f.level = p.level + 1) (ha : Aligned f p)
    (hc : Covers f p i j) : overlapStatus patches p i j = 8 := by
  unfold overlapStatus
  rw [fold_overlap, if_pos]
  obtain ⟨⟨kx, wx, hx1, hx2⟩, ⟨ky, wy, hy1, hy2⟩⟩ := ha
  refine ⟨f, hf, hl, (fill_marks p f hp i j kx wx ky wy hx1 hx2 hy1 hy2).mpr ?_⟩
  have hdx : 0 < (p.xupper - p.xlower) / (p.nx : K) := div_pos (by linarith [hp.x]) (by exact_mod_cast hp.nx)
  have hdy : 0 < (p.yupper - p.ylower) / (p.ny : K) := div_pos (by linarith [hp.y]) (by exact_mod_cast hp.ny)
  unfold Covers xEdge yEdge at hc
  rw [hx1, hx2, hy1, hy2] at hc
  have cx := (covered_range p.xlower _ hdx kx wx i).mp ⟨hc.1, hc.2.1⟩
  have cy := (covered_range p.ylower _ hdy ky wy j).mp ⟨hc.2.2.1, hc.2.2.2⟩
  omega

/-- C65 (`_partial`: no finer patch may begin left of or below the patch): a cell is hidden iff a patch one level finer covers it.
All other cells hold 0. -/
theorem C65_hidden_iff_covered_partial (patches : List (VtkPatch K)) (p : VtkPatch K) (hp : ProperPatch p)
    (ha : ∀ f ∈ patches, f.level = p.level + 1 → Aligned f p ∧ p.xlower ≤ f.xlower ∧ p.ylower ≤ f.ylower) (i j : Nat)
    (hi : i < p.nx) (hj : j < p.ny) :
    (overlapStatus patches p i j = 8 ↔ ∃ f ∈ patches, f.level = p.level + 1 ∧ Covers f p i j) ∧
      (overlapStatus patches p i j = 8 ∨ overlapStatus patches p i j = 0) := by
  have hdx : 0 < (p.xupper - p.xlower) / (p.nx : K) := div_pos (by linarith [hp.x]) (by exact_mod_cast hp.nx)
  have hdy : 0 < (p.yupper - p.ylower) / (p.ny : K) := div_pos (by linarith [hp.y]) (by exact_mod_cast hp.ny)
  have hiff : (∃ f ∈ patches, f.level = p.level + 1 ∧ fillOverlap p f (fun _ _ => 0) i j = 8) ↔
      ∃ f ∈ patches, f.level = p.level + 1 ∧ Covers f p i j := by
    apply exists_congr; intro f
    apply and_congr_right; intro hf
    apply and_congr_right; intro hl
    obtain ⟨⟨⟨kx, wx, hx1, hx2⟩, ⟨ky, wy, hy1, hy2⟩⟩, hlx, hly⟩ := ha f hf hl
    rw [fill_marks p f hp i j kx wx ky wy hx1 hx2 hy1 hy2]
    unfold Covers xEdge yEdge
    rw [hx1, hx2, hy1, hy2]
    have cx := covered_range p.xlower _ hdx kx wx i
    have cy := covered_range p.ylower _ hdy ky wy j
    have hkx : 0 ≤ kx := by
      rw [hx1] at hlx
      by_contra hneg
      have h1 : (kx : K) < 0 := by exact_mod_cast not_le.mp hneg
      have := mul_neg_of_neg_of_pos h1 hdx
      linarith
    have hky : 0 ≤ ky := by
      rw [hy1] at hly
      by_contra hneg
      have h1 : (ky : K) < 0 := by exact_mod_cast not_le.mp hneg
      have := mul_neg_of_neg_of_pos h1 hdy
      linarith
    constructor
    · intro h
      have c1 := cx.mpr (by omega)
      have c2 := cy.mpr (by omega)
      exact ⟨c1.1, c1.2, c2.1, c2.2⟩
    · rintro ⟨c1, c2, c3, c4⟩
      have d1 := cx.mp ⟨c1, c2⟩
      have d2 := cy.mp ⟨c3, c4⟩
      omega
  unfold overlapStatus
  rw [fold_overlap]
  by_cases h : ∃ f ∈ patches, f.level = p.level + 1 ∧ fillOverlap p f (fun _ _ => 0) i j = 8
  · rw [if_pos h]; exact ⟨⟨fun _ => hiff.mp h, fun _ => rfl⟩, .inl rfl⟩
  · rw [if_neg h]
    exact ⟨⟨fun h0 => absurd h0.symm (by norm_num), fun h0 => absurd (hiff.mpr h0) h⟩, .inr rfl⟩

/-- C65 is false when a finer patch begins left of a patch: with two coarse patches of 4 by 1 cells and one fine patch above the
left one only, all cells of the right one are hidden as well, although nothing covers them. -/
theorem C65_patch_to_the_left_violated :
    let left : VtkPatch ℚ := ⟨1, 0, 4, 0, 1, 4, 1⟩
    let right : VtkPatch ℚ := ⟨1, 4, 8, 0, 1, 4, 1⟩
    let fine : VtkPatch ℚ := ⟨2, 0, 4, 0, 1, 8, 2⟩
    ProperPatch right ∧ Aligned fine right ∧
      ∀ i : Nat, i < 4 → overlapStatus [left, right, fine] right i 0 = 8 ∧ ¬ Covers fine right i 0 := by
  refine ⟨⟨by decide, by decide, by norm_num, by norm_num⟩, ⟨⟨-4, 4, by norm_num, by norm_num⟩, ⟨0, 1, by norm_num, by norm_num⟩⟩,
    ?_⟩
  intro i hi
  constructor
  · have : i = 0 ∨ i = 1 ∨ i = 2 ∨ i = 3 := by omega
    rcases this with rfl | rfl | rfl | rfl <;> decide +kernel
  · rintro ⟨_, h, _⟩
    unfold xEdge at h
    norm_num at h
    have : (0 : ℚ) ≤ i := by positivity
    linarith

/-! ### C74 -/

/-- The dictionary of level counts when new levels appear in order. -/
theorem levelCount_prefix (levels : List Int) (L : Nat)
    (hfirst : ∀ l : Nat, l < L → ∃ pre post, levels = pre ++ (l : Int) :: post ∧ ∀ t ∈ pre, t < l)
    (hall : ∀ x ∈ levels, 0 ≤ x ∧ x < L) (a : List Int) :
    ∀ b, levels = a ++ b → ∃ M : Nat, M ≤ L ∧ (∀ x ∈ a, x < M) ∧ (∀ l : Nat, l < M → (l : Int) ∈ a) ∧
      levelCount a = (List.range M).map fun l : Nat => ((l : Int), a.count (l : Int)) := by
  induction a using List.reverseRecOn with
  | nil => intro b _; exact ⟨0, by omega, by simp, fun l hl => absurd hl (by omega), rfl⟩
  | append_singleton a x ih =>
    intro b hb
    obtain ⟨M, hM, h1, h2, h3⟩ := ih (x :: b) (by simp [hb])
    have hx := hall x (by rw [hb]; simp)
    have hxM : x ≤ M := by
      by_contra hlt
      obtain ⟨pre, post, hp, hpre⟩ := hfirst M (by omega)
      -- the first `M` comes after `a`, but not at `x`
      have hlen : a.length < pre.length := by
        by_contra hle
        have hmem : (M : Int) ∈ a ++ [x] := by
          have e : (a ++ [x] ++ b)[pre.length]? = some (M : Int) := by rw [← hb, hp]; simp
          rw [List.getElem?_append_left (by simp; omega)] at e
          exact List.mem_of_getElem? e
        rcases List.mem_append.mp hmem with h | h
        · exact absurd (h1 _ h) (lt_irrefl _)
        · have := List.mem_singleton.mp h; omega
      have e : pre[a.length]? = some x := by
        have : (pre ++ (M : Int) :: post)[a.length]? = some x := by rw [← hp, hb]; simp
        rwa [List.getElem?_append_left hlen] at this
      have := hpre x (List.mem_of_getElem? e)
      omega
    have hstep : levelCount (a ++ [x]) = bumpLevel (levelCount a) x := by
      unfold levelCount; rw [List.foldl_append]; rfl
    rw [hstep, h3]
    obtain ⟨l0, rfl⟩ : ∃ l0 : Nat, x = l0 := ⟨x.toNat, by omega⟩
    by_cases hlt : l0 < M
    · refine ⟨M, hM, ?_, fun l hl => by simp [h2 l hl], ?_⟩
      · intro y hy
        rcases List.mem_append.mp hy with hy | hy
        · exact h1 y hy
        · rw [List.mem_singleton.mp hy]; exact_mod_cast hlt
      · unfold bumpLevel
        rw [if_pos (by simp; exact hlt), List.map_map]
        apply List.map_congr_left
        intro l _
        simp only [Function.comp]
        by_cases hl : l = l0
        · subst hl; simp
        · rw [if_neg (by exact_mod_cast hl), List.count_append, List.count_singleton]
          simp [Ne.symm hl]
    · have hl0 : l0 = M := by omega
      subst hl0
      refine ⟨l0 + 1, by omega, ?_, ?_, ?_⟩
      · intro y hy
        rcases List.mem_append.mp hy with hy | hy
        · have := h1 y hy; push_cast; omega
        · rw [List.mem_singleton.mp hy]; push_cast; omega
      · intro l hl
        by_cases h : l < l0
        · simp [h2 l h]
        · simp [show l = l0 by omega]
      · unfold bumpLevel
        rw [if_neg (by simp)]
        rw [List.range_succ, List.map_append]
        congr 1
        · apply List.map_congr_left
          intro l hl
          have : l < l0 := List.mem_range.mp hl
          rw [List.count_append, List.count_singleton]
          simp [show ¬ l0 = l by omega]
        · have : a.count (l0 : Int) = 0 := List.count_eq_zero.mpr fun h => absurd (h1 _ h) (lt_irrefl _)
          simp [this]

theorem levelCount_eq (levels : List Int) (L : Nat)
    (hfirst : ∀ l : Nat, l < L → ∃ pre post, levels = pre ++ (l : Int) :: post ∧ ∀ t ∈ pre, t < l)
    (hall : ∀ x ∈ levels, 0 ≤ x ∧ x < L) :
    levelCount levels = (List.range L).map fun l : Nat => ((l : Int), levels.count (l : Int)) := by
  obtain ⟨M, hM, h1, h2, h3⟩ := levelCount_prefix levels L hfirst hall levels [] (by simp)
  have : M = L := by
    by_contra hne
    obtain ⟨pre, post, hp, _⟩ := hfirst M (by omega)
    have := h1 M (by rw [hp]; simp)
    omega
  rw [h3, this]

/-- A list sorted by a key splits at a key. -/
theorem sorted_split {α : Type*} (key : α → Int) (l : List α) (h : l.Pairwise fun a b => key a ≤ key b) (k : Int) :
    l = l.filter (fun a => key a < k) ++ (l.filter (fun a => key a = k) ++ l.filter fun a => k < key a) := by
  induction l with
  | nil => rfl
  | cons a l ih =>
    rw [List.pairwise_cons] at h
    rcases lt_trichotomy (key a) k with hlt | heq | hgt
    · simp only [List.filter_cons, hlt, decide_true, if_true, show ¬ key a = k by omega, show ¬ k < key a by omega, decide_false,
        Bool.false_eq_true, if_false, List.cons_append]
      rw [← ih h.2]
    · have h1 : l.filter (fun a => key a < k) = [] := by
        rw [List.filter_eq_nil_iff]; intro b hb; have := h.1 b hb; simp; omega
      have := ih h.2
      rw [h1, List.nil_append] at this
      simp only [List.filter_cons, heq, lt_irrefl, decide_true, if_true, decide_false, Bool.false_eq_true, if_false,
        List.cons_append]
      rw [h1, List.nil_append, ← this]
    · have h1 : l.filter (fun a => key a < k) = [] := by
        rw [List.filter_eq_nil_iff]; intro b hb; have := h.1 b hb; simp; omega
      have h2 : l.filter (fun a => key a = k) = [] := by
        rw [List.filter_eq_nil_iff]; intro b hb; have := h.1 b hb; simp; omega
      have h3 : l.filter (fun a => k < key a) = l := by
        rw [List.filter_eq_self]; intro b hb; have := h.1 b hb; simp; omega
      simp only [List.filter_cons, hgt, decide_true, if_true, show ¬ key a = k by omega, show ¬ key a < k by omega, decide_false,
        Bool.false_eq_true, if_false]
      rw [h1, h2, h3]; rfl

theorem take_level {α : Type*} (key : α → Int) (l : List α) (h : l.Pairwise fun a b => key a ≤ key b) (k : Int) :
    (l.drop (l.filter fun a => key a < k).length).take (l.filter fun a => key a = k).length = l.filter fun a => key a = k := by
  conv_lhs => enter [2, 2]; rw [sorted_split key l h k]
  rw [List.drop_left, List.take_left]

theorem mapIdx_map_const {α β γ : Type*} (f : Nat → α → β) (g : β → γ) (h : α → γ) (l : List α) (hl : ∀ i, ∀ s ∈ l, g (f i s) = h s) :
    (l.mapIdx f).map g = l.map h := by
  apply List.ext_getElem
  · simp
  · intro i h1 h2
    simp only [List.getElem_map, List.getElem_mapIdx]
    exact hl i _ (List.getElem_mem _)

/-- The blocks of one level. -/
def blocksOf (S : List (VtkState K)) (sp : Int → K × K) (l : Int) : List (VtkBlock K) :=
  (S.filter fun s => s.patch.level - 1 = l).mapIdx fun i s => ⟨l, i, sp l, s.patch, s.q.dropLast, s.q.getLast?⟩

theorem filter_lt_succ (S : List (VtkState K)) (l : Int) :
    (S.filter fun s => decide (s.patch.level - 1 < l + 1)).length =
      (S.filter fun s => decide (s.patch.level - 1 < l)).length + (S.filter fun s => decide (s.patch.level - 1 = l)).length := by
  induction S with
  | nil => rfl
  | cons s S ih =>
    simp only [List.filter_cons]
    rcases lt_trichotomy (s.patch.level - 1) l with h | h | h
    · simp [h, show s.patch.level - 1 < l + 1 by omega, show ¬ s.patch.level - 1 = l by omega, ih]; omega
    · simp [h, ih]; omega
    · simp [show ¬ s.patch.level - 1 < l by omega, show ¬ s.patch.level - 1 < l + 1 by omega, show ¬ s.patch.level - 1 = l by omega,
        ih]

theorem vtkLoop_ok (states S : List (VtkState K)) (perLevel : List Nat) (sp : Int → K × K) (L : Nat)
    (hS : S.Pairwise fun a b => a.patch.level - 1 ≤ b.patch.level - 1)
    (hper : ∀ l : Nat, l < L → perLevel[l]? = some (S.filter fun s => s.patch.level - 1 = (l : Int)).length)
    (hsp : ∀ l : Nat, l < L → levelSpacing states l = some (sp l)) (k : Nat) :
    ∀ l : Nat, l + k = L → vtkLoop states S perLevel ((List.range' l k).map fun x : Nat => (x : Int))
      (S.filter fun s => s.patch.level - 1 < (l : Int)).length =
        .ok ((List.range' l k).flatMap fun x : Nat => blocksOf S sp x) := by
  induction k with
  | zero => intro l _; rfl
  | succ k ih =>
    intro l hl
    rw [List.range'_succ, List.map_cons]
    unfold vtkLoop
    have e1 : pyIndex perLevel (l : Int) = some (S.filter fun s => s.patch.level - 1 = (l : Int)).length := by
      unfold pyIndex
      rw [if_pos (by omega)]
      simpa using hper l (by omega)
    rw [e1, hsp l (by omega)]
    dsimp only
    have hlen : (S.filter fun s => decide (s.patch.level - 1 < (l : Int))).length +
        (S.filter fun s => decide (s.patch.level - 1 = (l : Int))).length ≤ S.length := by
      rw [← filter_lt_succ]; exact List.length_filter_le _ _
    have e2 : levelBlocks S (l : Int) (sp l) (S.filter fun s => decide (s.patch.level - 1 < (l : Int))).length
        (S.filter fun s => decide (s.patch.level - 1 = (l : Int))).length = .ok (blocksOf S sp l) := by
      unfold levelBlocks
      rw [if_pos hlen, take_level (fun s => s.patch.level - 1) S hS]
      rfl
    rw [e2]
    dsimp only
    rw [← filter_lt_succ, show ((l : Int) + 1) = ((l + 1 : Nat) : Int) by push_cast; rfl, ih (l + 1) (by omega)]
    rfl

theorem flatMap_levels (S : List (VtkState K)) (hS : S.Pairwise fun a b => a.patch.level - 1 ≤ b.patch.level - 1) (L : Nat)
    (hall : ∀ s ∈ S, 0 ≤ s.patch.level - 1) :
    ((List.range L).flatMap fun l : Nat => S.filter fun s => s.patch.level - 1 = (l : Int)) =
      S.filter fun s => s.patch.level - 1 < (L : Int) := by
  induction L with
  | zero =>
    symm
    rw [List.range_zero, List.flatMap_nil, List.filter_eq_nil_iff]
    intro s hs
    have := hall s hs
    simp; omega
  | succ L ih =>
    rw [List.range_succ, List.flatMap_append, ih]
    simp only [List.flatMap_cons, List.flatMap_nil, List.append_nil]
    have h := sorted_split (fun s : VtkState K => s.patch.level - 1) (S.filter fun s => s.patch.level - 1 < ((L + 1 : Nat) : Int))
      (hS.filter _) L
    rw [h]
    simp only [List.filter_filter]
    have e3 : (S.filter fun a => decide ((L : Int) < a.patch.level - 1) && decide (a.patch.level - 1 < ((L + 1 : Nat) : Int))) = [] := by
      rw [List.filter_eq_nil_iff]; intro s _; simp; omega
    rw [e3, List.append_nil]
    congr 1
    · apply List.filter_congr; intro s _
      rw [Bool.eq_iff_iff]; simp; omega
    · apply List.filter_congr; intro s _
      rw [Bool.eq_iff_iff]; simp; omega

/-- C74 (`_partial`: the levels must appear in order, and see the `_violated` theorems): the frame contains every state exactly once,
at its level, with its spacing, all its components and the mask of hidden cells; within a level the blocks are numbered from 0. -/
theorem C74_frame_partial (states : List (VtkState K)) (L : Nat) (ho : LevelsInOrder states L) (hs : SameSpacing states) :
    ∃ bs, (vtkWrite states).2 = .ok bs ∧ (bs.map shownBlock).Perm (states.map (shownState states)) ∧
      ∀ l : Int, (bs.filter fun b => b.level = l).map (·.index) = List.range (states.filter fun s => s.patch.level - 1 = l).length := by
  obtain ⟨hall, hfirst⟩ := ho
  have hlevels : (setOverlapped states).map (fun s => s.patch.level - 1) = states.map fun s => s.patch.level - 1 := by
    unfold setOverlapped; rw [List.map_map]; rfl
  have hcount := levelCount_eq (states.map fun s => s.patch.level - 1) L (by
      intro l hl
      obtain ⟨pre, s, post, e, e1, e2⟩ := hfirst (l + 1) (by omega) (by omega)
      refine ⟨pre.map fun s => s.patch.level - 1, post.map fun s => s.patch.level - 1, ?_, ?_⟩
      · rw [e]; simp [e1]
      · intro t ht
        obtain ⟨x, hx, rfl⟩ := List.mem_map.mp ht
        have := e2 x hx
        push_cast at this
        omega) (by
      intro x hx
      obtain ⟨s, hs', rfl⟩ := List.mem_map.mp hx
      have := hall s hs'
      omega)
  unfold vtkWrite
  dsimp only
  rw [hlevels, hcount]
  generalize hSdef : (setOverlapped states).insertionSort (fun a b => a.patch.level ≤ b.patch.level) = S
  have hSperm : S.Perm (setOverlapped states) := by rw [← hSdef]; exact List.perm_insertionSort _ _
  have : Std.Total (fun a b : VtkState K => a.patch.level ≤ b.patch.level) := ⟨fun a b => le_total _ _⟩
  have : IsTrans (VtkState K) (fun a b => a.patch.level ≤ b.patch.level) := ⟨fun a b c => le_trans⟩
  have hSsort : S.Pairwise fun a b => a.patch.level - 1 ≤ b.patch.level - 1 := by
    have := List.pairwise_insertionSort (fun a b : VtkState K => a.patch.level ≤ b.patch.level) (setOverlapped states)
    rw [hSdef] at this
    exact this.imp fun h => by omega
  have hSmem : ∀ s ∈ S, ∃ s0 ∈ states, s = { s0 with q := s0.q ++ [overlapStatus (states.map (·.patch)) s0.patch] } := by
    intro s hs'
    have := hSperm.mem_iff.mp hs'
    unfold setOverlapped at this
    obtain ⟨s0, h0, rfl⟩ := List.mem_map.mp this
    exact ⟨s0, h0, rfl⟩
  have hperLen : ∀ l : Int, (S.filter fun s => s.patch.level - 1 = l).length = (states.map fun s => s.patch.level - 1).count l := by
    intro l
    rw [(hSperm.filter _).length_eq, ← hlevels, List.count_eq_length_filter, List.filter_map, List.length_map]
    congr 1
  have hsortCount : (((List.range L).map fun l : Nat => ((l : Int), (states.map fun s => s.patch.level - 1).count (l : Int))).insertionSort
      fun a b => a.1 ≤ b.1) = (List.range L).map fun l : Nat => ((l : Int), (states.map fun s => s.patch.level - 1).count (l : Int)) := by
    apply List.Pairwise.insertionSort_eq
    rw [List.pairwise_map]
    exact (List.pairwise_lt_range (n := L)).imp fun h => by dsimp only; omega
  rw [hsortCount]
  let sp : Int → K × K := fun l => (levelSpacing (setOverlapped states) l).getD (0, 0)
  have hsp : ∀ l : Nat, l < L → levelSpacing (setOverlapped states) l = some (sp l) := by
    intro l hl
    obtain ⟨pre, s, post, e, e1, e2⟩ := hfirst (l + 1) (by omega) (by omega)
    have : (levelSpacing (setOverlapped states) (l : Int)).isSome = true := by
      unfold levelSpacing
      rw [Option.isSome_map, List.find?_isSome]
      refine ⟨{ s with q := s.q ++ [overlapStatus (states.map (·.patch)) s.patch] }, ?_, ?_⟩
      · unfold setOverlapped
        exact List.mem_map.mpr ⟨s, by rw [e]; simp, rfl⟩
      · simp [e1]
    obtain ⟨x, hx⟩ := Option.isSome_iff_exists.mp this
    simp [sp, hx]
  have hloop := vtkLoop_ok (setOverlapped states) S
    (((List.range L).map fun l : Nat => ((l : Int), (states.map fun s => s.patch.level - 1).count (l : Int))).map (·.2)) sp L hSsort
    (by
      intro l hl
      rw [hperLen]
      simp [hl]) hsp L 0 (by omega)
  have hzero : (S.filter fun s => decide (s.patch.level - 1 < ((0 : Nat) : Int))) = [] := by
    rw [List.filter_eq_nil_iff]
    intro s hs'
    obtain ⟨s0, h0, rfl⟩ := hSmem s hs'
    have := hall s0 h0
    simp; omega
  rw [hzero] at hloop
  rw [show (((List.range L).map fun l : Nat => ((l : Int), (states.map fun s => s.patch.level - 1).count (l : Int))).map (·.1)) =
    ((List.range' 0 L).map fun x : Nat => (x : Int)) by rw [List.map_map, List.range_eq_range']; rfl]
  refine ⟨_, hloop, ?_, ?_⟩
  · rw [← List.range_eq_range', List.map_flatMap]
    have hspacing : ∀ s ∈ S, sp (s.patch.level - 1) = (s.patch.dx, s.patch.dy) := by
      intro s hs'
      obtain ⟨s0, h0, rfl⟩ := hSmem s hs'
      have hb := hall s0 h0
      have h1 := hsp (s0.patch.level - 1).toNat (by omega)
      rw [show (((s0.patch.level - 1).toNat : Nat) : Int) = s0.patch.level - 1 by omega] at h1
      dsimp only
      unfold levelSpacing at h1
      rw [Option.map_eq_some_iff] at h1
      obtain ⟨x, hx, hx'⟩ := h1
      have hm := List.mem_of_find?_eq_some hx
      have hl := List.find?_some hx
      unfold setOverlapped at hm
      obtain ⟨x0, hx0, rfl⟩ := List.mem_map.mp hm
      simp only [decide_eq_true_eq] at hl
      have := hs x0 hx0 s0 h0 (by omega)
      rw [← hx']
      unfold VtkPatch.dx VtkPatch.dy
      dsimp only
      rw [this.1, this.2]
    have hblk : ∀ l : Nat, (blocksOf S sp l).map shownBlock = (S.filter fun s => s.patch.level - 1 = (l : Int)).map fun s =>
        (s.patch.level - 1, s.patch, s.q.dropLast, s.q.getLast?, (s.patch.dx, s.patch.dy)) := by
      intro l
      unfold blocksOf
      apply mapIdx_map_const
      intro i s hs'
      have hs2 := List.mem_filter.mp hs'
      have hlev : s.patch.level - 1 = (l : Int) := by simpa using hs2.2
      unfold shownBlock
      dsimp only
      rw [← hspacing s hs2.1, hlev]
    simp only [hblk]
    rw [← List.map_flatMap, flatMap_levels S hSsort L (by
      intro s hs'
      obtain ⟨s0, h0, rfl⟩ := hSmem s hs'
      have := hall s0 h0
      dsimp only; omega), List.filter_eq_self.mpr (by
      intro s hs'
      obtain ⟨s0, h0, rfl⟩ := hSmem s hs'
      have := hall s0 h0
      simp; omega)]
    refine (hSperm.map _).trans ?_
    unfold setOverlapped
    rw [List.map_map]
    apply List.Perm.of_eq
    apply List.map_congr_left
    intro s _
    simp [shownState, VtkPatch.dx, VtkPatch.dy]
  · intro l
    have hidx : ∀ x : Nat, ((blocksOf S sp x).filter fun b => b.level = l).map (·.index) =
        if (x : Int) = l then List.range (states.filter fun s => s.patch.level - 1 = l).length else [] := by
      intro x
      have hlev : ∀ b ∈ blocksOf S sp x, b.level = (x : Int) := by
        intro b hb
        unfold blocksOf at hb
        obtain ⟨i, hi, rfl⟩ := List.mem_mapIdx.mp hb
        rfl
      by_cases hx : (x : Int) = l
      · rw [if_pos hx, List.filter_eq_self.mpr (by intro b hb; simp [hlev b hb, hx])]
        have hlen : (S.filter fun s => decide (s.patch.level - 1 = (x : Int))).length =
            (states.filter fun s => decide (s.patch.level - 1 = l)).length := by
          rw [hperLen, hx, List.count_eq_length_filter, List.filter_map, List.length_map]
          congr 1
        rw [← hlen]
        unfold blocksOf
        apply List.ext_getElem
        · simp
        · intro i h1 h2; simp
      · rw [if_neg hx, List.filter_eq_nil_iff.mpr (by intro b hb; simp [hlev b hb, hx])]
        rfl
    rw [List.filter_flatMap, List.map_flatMap]
    simp only [hidx]
    by_cases hl : 0 ≤ l ∧ l < L
    · obtain ⟨l0, rfl⟩ : ∃ l0 : Nat, l = l0 := ⟨l.toNat, by omega⟩
      rw [← List.range_eq_range', show L = l0 + (1 + (L - l0 - 1)) by omega, List.range_add, List.flatMap_append, List.range_add,
        List.map_append, List.flatMap_append]
      have z1 : ((List.range l0).flatMap fun x : Nat => if (x : Int) = (l0 : Int) then
          List.range (states.filter fun s => decide (s.patch.level - 1 = (l0 : Int))).length else []) = [] := by
        rw [List.flatMap_eq_nil_iff]
        intro x hx
        have := List.mem_range.mp hx
        rw [if_neg (by omega)]
      have z2 : ((((List.range (L - l0 - 1)).map (1 + ·)).map (l0 + ·)).flatMap fun x : Nat => if (x : Int) = (l0 : Int) then
          List.range (states.filter fun s => decide (s.patch.level - 1 = (l0 : Int))).length else []) = [] := by
        rw [List.flatMap_eq_nil_iff]
        intro x hx
        simp only [List.mem_map] at hx
        obtain ⟨_, ⟨y, _, rfl⟩, rfl⟩ := hx
        rw [if_neg (by push_cast; omega)]
      rw [z1, z2]
      simp
    · have z : (states.filter fun s => decide (s.patch.level - 1 = l)) = [] := by
        rw [List.filter_eq_nil_iff]
        intro s hs'
        have := hall s hs'
        simp; omega
      rw [z]
      show _ = []
      rw [List.flatMap_eq_nil_iff]
      intro x hx
      split <;> rfl

/-- What writing does to the solution: writing a frame changes no patch, and adds one component to every state. -/
theorem C74_states_after_partial (states : List (VtkState K)) :
    (vtkWrite states).1.length = states.length ∧
    ∀ (i : Nat) (s s' : VtkState K), states[i]? = some s → (vtkWrite states).1[i]? = some s' →
      s'.patch = s.patch ∧ s'.q.take s.q.length = s.q ∧ s'.q.length = s.q.length + 1 := by
  unfold vtkWrite setOverlapped
  refine ⟨by simp, ?_⟩
  intro i s s' h1 h2
  simp only [List.getElem?_map, h1, Option.map_some, Option.some.injEq] at h2
  subst h2
  simp

/-- C74 is false about the solution: writing a frame changes it, whatever it is, because the mask stays in `q`. -/
theorem C74_writing_changes_the_solution_violated (states : List (VtkState K)) (hne : states ≠ []) : (vtkWrite states).1 ≠ states := by
  obtain ⟨s, rest, rfl⟩ := List.exists_cons_of_ne_nil hne
  intro h
  have h1 : ((vtkWrite (s :: rest)).1.map fun s => s.q.length) = (s :: rest).map fun s => s.q.length := by rw [h]
  unfold vtkWrite setOverlapped at h1
  simp at h1

/-- Therefore a second frame of the same solution shows one field more. -/
theorem C74_second_frame_violated :
    let st : VtkState ℚ := ⟨⟨1, 0, 1, 0, 1, 1, 1⟩, [fun _ _ => 7]⟩
    ((vtkWrite [st]).2.toOption.map fun bs => bs.map fun b => b.fields.length) = some [1] ∧
    ((vtkWrite (vtkWrite [st]).1).2.toOption.map fun bs => bs.map fun b => b.fields.length) = some [2] := by
  decide +kernel

/-- C74 is false when a finer level is listed first: the coarse patch goes to the finer level and the fine patch to the coarser. -/
theorem C74_level_order_violated :
    let fine : VtkState ℚ := ⟨⟨2, 0, 1, 0, 1, 2, 2⟩, [fun _ _ => 7]⟩
    let coarse : VtkState ℚ := ⟨⟨1, 0, 2, 0, 2, 2, 2⟩, [fun _ _ => 7]⟩
    SameSpacing [fine, coarse] ∧
    ((vtkWrite [fine, coarse]).2.toOption.map fun bs => bs.map fun b => (b.level, b.patch.level)) = some [(1, 1), (0, 2)] := by
  constructor
  · intro s hs t ht h
    simp only [List.mem_cons, List.not_mem_nil, or_false] at hs ht
    rcases hs with rfl | rfl <;> rcases ht with rfl | rfl <;> simp at h ⊢
  · decide +kernel

/-- The hypotheses are met: two coarse patches and a fine one between them in the list. -/
example :
    let a : VtkState ℚ := ⟨⟨1, 0, 4, 0, 1, 4, 1⟩, [fun _ _ => 7]⟩
    let b : VtkState ℚ := ⟨⟨1, 4, 8, 0, 1, 4, 1⟩, [fun _ _ => 8]⟩
    let f : VtkState ℚ := ⟨⟨2, 1, 3, 0, 1, 4, 2⟩, [fun _ _ => 9]⟩
    LevelsInOrder [a, f, b] 2 ∧ SameSpacing [a, f, b] ∧
      ((vtkWrite [a, f, b]).2.toOption.map fun bs => bs.map fun x => (x.level, x.index, x.patch.xlower, x.fields.map fun q => q 0 0)) =
        some [(0, 0, 0, [7]), (0, 1, 4, [8]), (1, 0, 1, [9])] := by
  intro a b f
  refine ⟨⟨?_, ?_⟩, ?_, by decide +kernel⟩
  · intro s hs
    simp only [List.mem_cons, List.not_mem_nil, or_false] at hs
    rcases hs with rfl | rfl | rfl <;> simp [a, b, f]
  · intro l h1 h2
    have : l = 1 ∨ l = 2 := by omega
    rcases this with rfl | rfl
    · exact ⟨[], a, [f, b], rfl, rfl, by simp⟩
    · refine ⟨[a], f, [b], rfl, rfl, ?_⟩
      intro t ht
      rw [List.mem_singleton.mp ht]; simp [a]
  · intro s hs t ht h
    simp only [List.mem_cons, List.not_mem_nil, or_false] at hs ht
    rcases hs with rfl | rfl | rfl <;> rcases ht with rfl | rfl | rfl <;> simp [a, b, f] at h ⊢ <;> norm_num

end PyClaw
