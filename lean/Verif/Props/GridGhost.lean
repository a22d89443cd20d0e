import Verif.Model.GridGhost
import Verif.Lemmas.GridRun
import Verif.Props.Grid
import Mathlib.Data.Rat.Floor

/-!
Property C93: coordinates with ghost cells continue the grid, after every history.
-/
set_option linter.unusedSectionVars false

namespace PyClaw

variable {K : Type*} [Field K] [LinearOrder K] [IsStrictOrderedRing K]

open Spec

theorem Dim.readGhost_spec (junk : K) (k : Kind) (n : Nat) (d : Dim K) (h : d.Good) :
    ∃ l, (d.readGhost junk k n).2 = .ok l ∧ (d.readGhost junk k n).1.Good ∧
      (d.readGhost junk k n).1.ext = d.ext ∧
      Progression l (d.numCells.toNat + (k.extra + 2 * n))
        (d.lower + (k.off - (n : K)) * ((d.upper - d.lower) / (d.numCells : K)))
        ((d.upper - d.lower) / (d.numCells : K)) := by
  cases k with
  | centers =>
    obtain ⟨c, l, _, h2, _, h4⟩ := d.centersWithGhost_spec h.2 h.1 n
    refine ⟨l, h2, ?_, ?_, ?_⟩
    · show (d.centersWithGhost n).1.Good
      rw [d.centersWithGhost_fst]; exact d.read_good junk .centers h
    · show (d.centersWithGhost n).1.ext = _
      rw [d.centersWithGhost_fst]; exact d.read_ext junk .centers
    · simpa [Kind.extra, Kind.off] using h4
  | nodes =>
    obtain ⟨c, l, _, h2, _, h4⟩ := d.nodesWithGhost_spec junk h.2 h.1 n
    refine ⟨l, h2, ?_, ?_, ?_⟩
    · show (d.nodesWithGhost junk n).1.Good
      rw [d.nodesWithGhost_fst]; exact d.read_good junk .nodes h
    · show (d.nodesWithGhost junk n).1.ext = _
      rw [d.nodesWithGhost_fst]; exact d.read_ext junk .nodes
    · have e1 : d.numCells.toNat + (Kind.nodes.extra + 2 * n) = d.numCells.toNat + 1 + 2 * n := by
        simp only [Kind.extra]; omega
      have e2 : d.lower + ((Kind.nodes.off : K) - (n : K)) * ((d.upper - d.lower) / (d.numCells : K)) =
          d.lower - (n : K) * ((d.upper - d.lower) / (d.numCells : K)) := by
        simp only [Kind.off]; ring
      rw [e1, e2]; exact h4

theorem Grid.readAllGhost_spec (junk : K) (k : Kind) (n : Nat) (ds : List (Dim K))
    (h : ∀ d ∈ ds, d.Good) :
    ∃ ds' arrs, readAllGhost junk k n ds = (ds', .ok arrs) ∧ (∀ d ∈ ds', d.Good) ∧
      ds'.map Dim.ext = ds.map Dim.ext ∧
      List.Forall₂ (fun d l => Progression l (d.numCells.toNat + (k.extra + 2 * n))
        (d.lower + (k.off - (n : K)) * ((d.upper - d.lower) / (d.numCells : K)))
        ((d.upper - d.lower) / (d.numCells : K))) ds arrs := by
  induction ds with
  | nil => exact ⟨[], [], rfl, by simp, rfl, .nil⟩
  | cons d ds ih =>
    obtain ⟨ds', arrs, e1, e2, e3, e4⟩ := ih (fun x hx => h x (by simp [hx]))
    obtain ⟨l, hl, hg, hx, hp⟩ := d.readGhost_spec junk k n (h d (by simp))
    rcases hr : d.readGhost junk k n with ⟨d', r⟩
    rw [hr] at hl hg hx
    simp only at hl hg hx
    subst hl
    refine ⟨d' :: ds', l :: arrs, by simp [readAllGhost, hr, e1], ?_, by simp [hx, e3], .cons hp e4⟩
    intro x hx'
    rcases List.mem_cons.1 hx' with rfl | hx'
    · exact hg
    · exact e2 x hx'

/-- A tensor of progressions is the coordinate array of the specification. -/
theorem Grid.tensor_coords (off : K) (extra : Nat) (ds : List (Dim K)) (arrs : List (List K))
    (h : List.Forall₂ (fun (d : Dim K) l => Progression l (d.numCells.toNat + extra)
        (d.lower + off * ((d.upper - d.lower) / (d.numCells : K)))
        ((d.upper - d.lower) / (d.numCells : K))) ds arrs) :
    tensor (ds.map fun d => d.numCells.toNat + extra) arrs = gridCoords off extra (ds.map Dim.ext) := by
  unfold tensor gridCoords
  rw [List.length_map, h.length_eq]
  apply List.map_congr_left
  intro i hi
  have hi' : i < arrs.length := by simpa using hi
  funext idx
  have hiff : List.Forall₂ (· < ·) idx (ds.map fun d => d.numCells.toNat + extra) ↔
      List.Forall₂ (fun j (e : K × K × Int) => j < e.2.2.toNat + extra) idx (ds.map Dim.ext) := by
    rw [List.forall₂_map_right_iff, List.forall₂_map_right_iff]; rfl
  by_cases hb : List.Forall₂ (· < ·) idx (ds.map fun d => d.numCells.toNat + extra)
  · rw [if_pos hb, if_pos (hiff.1 hb)]
    have hl := h.length_eq
    have hli := hb.length_eq
    have hids : i < ds.length := by omega
    have hii : i < idx.length := by simp at hli; omega
    have hp := h.get (i := i) hids hi'
    have hlt := hb.get (i := i) hii (by simpa using hids)
    simp only [List.get_eq_getElem, List.getElem_map] at hp hlt
    rw [List.getElem?_eq_getElem hi', List.getElem?_eq_getElem hii,
      List.getElem?_eq_getElem (by simpa using hids)]
    simp only [List.getElem_map, Dim.ext]
    have hlen : idx[i] < (arrs[i]).length := by rw [hp.1]; exact hlt
    rw [List.getElem?_eq_getElem hlen, hp.2 _ hlen]
    congr 1; ring
  · rw [if_neg hb, if_neg (fun h' => hb (hiff.2 h'))]

theorem Grid.cGhost_spec (junk : K) (k : Kind) (n : Nat) (g : Grid K) (hg : ∀ d ∈ g.dims, d.Good) :
    (g.cGhost junk k n).2 =
        .ok (gridCoords ((k.off : K) - (n : K)) (k.extra + 2 * n) (g.dims.map Dim.ext)) ∧
      (∀ d ∈ (g.cGhost junk k n).1.dims, d.Good) ∧
      (g.cGhost junk k n).1.dims.map Dim.ext = g.dims.map Dim.ext ∧
      (g.cGhost junk k n).1.mapc2p = g.mapc2p := by
  have hno : (g.dims.any fun d => decide (d.extent k + 2 * (n : Int) < 0)) = false := by
    rw [List.any_eq_false]
    intro d hd
    have := (hg d hd).1
    intro hx
    have hx := of_decide_eq_true hx
    cases k <;> simp only [Dim.extent] at hx <;> omega
  obtain ⟨ds', arrs, e1, e2, e3, e4⟩ := Grid.readAllGhost_spec junk k n g.dims hg
  have hs : (g.dims.map fun d => (d.extent k + 2 * (n : Int)).toNat) =
      g.dims.map fun d => d.numCells.toNat + (k.extra + 2 * n) := by
    apply List.map_congr_left
    intro d hd
    have := (hg d hd).1
    cases k <;> simp only [Dim.extent, Kind.extra] <;> omega
  have ht := Grid.tensor_coords ((k.off : K) - (n : K)) (k.extra + 2 * n) g.dims arrs e4
  have hc : g.cGhost junk k n = ({ g with dims := ds' },
      .ok (gridCoords ((k.off : K) - (n : K)) (k.extra + 2 * n) (g.dims.map Dim.ext))) := by
    simp only [cGhost, hno, Bool.false_eq_true, if_false, e1, hs, ht]
  rw [hc]
  exact ⟨rfl, e2, e3, rfl⟩

theorem Grid.readAll_step_good (junk : K) (k : Kind) (ds : List (Dim K)) (h : ∀ d ∈ ds, d.Good) :
    ∀ d ∈ (readAll junk k ds).1, d.Good := by
  obtain ⟨ds', arrs, e1, e2, _⟩ := Grid.readAll_good junk k ds h
  rw [e1]; exact e2

theorem Grid.computeC_good (junk : K) (k : Kind) (g : Grid K) (h : ∀ d ∈ g.dims, d.Good) :
    ∀ d ∈ (g.computeC junk k).1.dims, d.Good := by
  have := Grid.readAll_step_good junk k g.dims h
  unfold computeC
  split
  · split
    · exact h
    · obtain ⟨ds', arrs, e1, e2, _⟩ := Grid.readAll_good junk k g.dims h
      rw [e1]; exact e2
  · exact h

theorem Grid.computeP_good (junk : K) (k : Kind) (g : Grid K) (h : ∀ d ∈ g.dims, d.Good) :
    ∀ d ∈ (g.computeP junk k).1.dims, d.Good := by
  have hc := g.computeC_good junk k h
  unfold computeP
  split
  · rcases hr : g.computeC junk k with ⟨g', _ | _⟩ <;> rw [hr] at hc <;> exact hc
  · exact h

theorem Grid.stepG_good (junk : K) (g : Grid K) (op : GridOp K) (hs : op.sane)
    (h : ∀ d ∈ g.dims, d.Good) : ∀ d ∈ (g.stepG junk op).dims, d.Good := by
  cases op with
  | dim i op =>
    intro d hd'
    rcases modify_mem _ _ _ _ hd' with h' | ⟨y, hy, rfl⟩
    · exact h d h'
    · exact y.step_good junk op (h y hy) (by cases op <;> exact hs)
  | setMap f => exact h
  | addDimension x =>
    have hx : ∀ y ∈ g.dims ++ [x], y.Good := by
      intro y hy
      rcases List.mem_append.1 hy with hy | hy
      · exact h y hy
      · obtain ⟨l, u, n, s, h'⟩ := hs
        rw [List.mem_singleton.1 hy]
        exact Grid.new_dim_good h'
    simp only [stepG, addDimension]
    split
    · exact h
    · split <;> exact hx
  | readC k =>
    have hc := g.computeC_good junk k h
    simp only [stepG, readC]
    rcases hr : g.computeC junk k with ⟨g', _ | _⟩ <;> rw [hr] at hc <;> exact hc
  | readP k =>
    have hc := g.computeP_good junk k h
    simp only [stepG, readP]
    rcases hr : g.computeP junk k with ⟨g', _ | _⟩ <;> rw [hr] at hc <;> exact hc

/-- Assignments of `num_cells` give a positive number, added dimensions are valid. -/
def GhostOp.sane : GhostOp K → Prop
  | .base op => op.sane
  | _ => True

theorem Grid.runH_good (junk : K) (g : Grid K) (ops : List (GhostOp K)) (hs : ∀ op ∈ ops, op.sane)
    (h : ∀ d ∈ g.dims, d.Good) : ∀ d ∈ (g.runH junk ops).dims, d.Good := by
  induction ops generalizing g with
  | nil => exact h
  | cons op ops ih =>
    refine ih (g.stepH junk op) (fun o ho => hs o (by simp [ho])) ?_
    have h0 := hs op (by simp)
    cases op with
    | base op => exact g.stepG_good junk op h0 h
    | cGhost k n => exact (g.cGhost_spec junk k n h).2.1
    | pGhost k n =>
      have := (g.cGhost_spec junk k n h).2.1
      simp only [stepH, pGhost]
      rcases hr : g.cGhost junk k n with ⟨g', _ | _⟩ <;> rw [hr] at this <;> exact this
    | dimArrays k => exact Grid.readAll_step_good junk k g.dims h

/-- **C93**. Coordinates with ghost cells are those of the current grid, after every history: for every
grid built from valid dimensions and every sequence of assignments to the extents of its dimensions, to
`mapc2p`, added dimensions and evaluations of any coordinate array in any order (no discipline as in
C05 is needed), and every number `n` of ghost cell layers, the next evaluation of

* `c_centers_with_ghost(n)` is the tensor product array of `num_cells + 2n` points along each axis whose
  value at index `j` is `lower + (j - n + 1/2) delta` of the *current* extents,
* `c_nodes_with_ghost(n)` the one of `num_cells + 1 + 2n` points `lower + (j - n) delta`,
* `p_centers_with_ghost(n)`, `p_nodes_with_ghost(n)` the current mapping of these arrays,

and none of them changes an extent or the mapping. -/
theorem C93_ghost_coordinates (junk : K) (ds : List (Dim K)) (g₀ : Grid K)
    (hds : ∀ d ∈ ds, ∃ l u n s, Dim.new l u n s = .ok d) (hnew : Grid.new ds = .ok g₀)
    (ops : List (GhostOp K)) (hs : ∀ op ∈ ops, op.sane) (n : Nat) :
    let g := g₀.runH junk ops
    let ext := fun g : Grid K => g.dims.map fun d => (d.lower, d.upper, d.numCells)
    (g.cGhost junk .centers n).2 = .ok (gridCoords (1 / 2 - (n : K)) (2 * n) (ext g)) ∧
    (g.cGhost junk .nodes n).2 = .ok (gridCoords (-(n : K)) (1 + 2 * n) (ext g)) ∧
    (g.pGhost junk .centers n).2 = .ok (g.mapc2p (gridCoords (1 / 2 - (n : K)) (2 * n) (ext g))) ∧
    (g.pGhost junk .nodes n).2 = .ok (g.mapc2p (gridCoords (-(n : K)) (1 + 2 * n) (ext g))) ∧
    ∀ k, ext (g.cGhost junk k n).1 = ext g ∧ (g.cGhost junk k n).1.mapc2p = g.mapc2p ∧
      ext (g.pGhost junk k n).1 = ext g ∧ (g.pGhost junk k n).1.mapc2p = g.mapc2p := by
  intro g ext
  have hg₀ : ∀ d ∈ g₀.dims, d.Good := by
    rw [(Grid.new_ok ds g₀ hnew).1]; intro d hd
    obtain ⟨l, u, n, s, h⟩ := hds d hd
    exact Grid.new_dim_good h
  have hg : ∀ d ∈ g.dims, d.Good := Grid.runH_good junk g₀ ops hs hg₀
  have hc := fun k => g.cGhost_spec junk k n hg
  have h1 := hc .centers
  have h2 := hc .nodes
  simp only [Kind.off, Kind.extra, zero_sub, zero_add] at h1 h2
  have hp : ∀ k, ∃ g' c, g.cGhost junk k n = (g', .ok c) ∧ g.pGhost junk k n = (g', .ok (g'.mapc2p c)) := by
    intro k
    rcases hr : g.cGhost junk k n with ⟨g', e | c⟩
    · have := (hc k).1; rw [hr] at this; cases this
    · exact ⟨g', c, rfl, by simp only [Grid.pGhost, hr]⟩
  refine ⟨h1.1, h2.1, ?_, ?_, ?_⟩
  · obtain ⟨g', c, e1, e2⟩ := hp .centers
    rw [e1] at h1
    obtain ⟨x1, _, _, x4⟩ := h1
    simp only [Except.ok.injEq] at x1
    rw [e2, x1, x4]; rfl
  · obtain ⟨g', c, e1, e2⟩ := hp .nodes
    rw [e1] at h2
    obtain ⟨x1, _, _, x4⟩ := h2
    simp only [Except.ok.injEq] at x1
    rw [e2, x1, x4]; rfl
  · intro k
    obtain ⟨g', c, e1, e2⟩ := hp k
    obtain ⟨_, _, x3, x4⟩ := hc k
    refine ⟨x3, x4, ?_, ?_⟩
    · rw [e2]; rw [e1] at x3; exact x3
    · rw [e2]; rw [e1] at x4; exact x4

/-- **C93**. The coordinates with ghost cells extend the ones without: at the indices shifted by `n`
along every axis they are the coordinates of the same extents without ghost cells. (Both sides are the
arrays of the specification, which the grid returns by `C93_ghost_coordinates` and by C05.) -/
theorem C93_ghost_interior (off : K) (extra n : Nat) (ext : List (K × K × Int)) (a : Nat) (idx : List Nat)
    (hb : List.Forall₂ (fun j (e : K × K × Int) => j < e.2.2.toNat + extra) idx ext) :
    ((gridCoords (off - (n : K)) (extra + 2 * n) ext)[a]?.bind fun f => f (idx.map (· + n))) =
      (gridCoords off extra ext)[a]?.bind fun f => f idx := by
  have hb' : List.Forall₂ (fun j (e : K × K × Int) => j < e.2.2.toNat + (extra + 2 * n))
      (idx.map (· + n)) ext := by
    rw [List.forall₂_map_left_iff]
    refine hb.imp ?_
    intro j e h
    omega
  unfold gridCoords
  by_cases ha : a < ext.length
  · simp only [List.getElem?_map, List.getElem?_range ha, Option.map_some, Option.bind_some, if_pos hb,
      if_pos hb']
    have hi : a < idx.length := by rw [hb.length_eq]; exact ha
    rw [List.getElem?_eq_getElem ha, List.getElem?_eq_getElem hi]
    simp only [Option.map_some]
    congr 1
    push_cast
    ring
  · have : (List.range ext.length)[a]? = none := by simpa using Nat.le_of_not_lt ha
    simp only [List.getElem?_map, this, Option.map_none, Option.bind_none]

/-- A history that is not disciplined, on the grid of the examples of C05: after it `c_centers` is out
of date (next theorem) and the coordinates with ghost cells are up to date. -/
def exGhostOps : List (GhostOp ℚ) :=
  [.base (.readC .centers), .base (.dim 0 (.setUpper 2)), .cGhost .centers 1]

example : ∀ op ∈ exGhostOps, op.sane := by simp [exGhostOps, GhostOp.sane, GridOp.sane]

example : Grid.new [exDim] = .ok exGrid ∧ Dim.new (0 : ℚ) 1 2 "x" = .ok exDim := by
  constructor
  · simp [Grid.new, Grid.addAll, Grid.addDimension, exGrid, Grid.setMap, Grid.clear]
  · rw [Dim.new_ok_iff]; simp [exDim]

/-- The centres of `[0,2]` with two cells and one ghost cell on each side: -1/2, 1/2, 3/2, 5/2. -/
example : ((gridCoords (1 / 2 - 1 : ℚ) 2 [(0, 2, 2)]).map fun f => (List.range 5).map fun j => f [j]) =
    [[some (-1 / 2), some (1 / 2), some (3 / 2), some (5 / 2), none]] := by
  decide +kernel

/-- **C05** fails in general, a third way. Evaluate `grid.c_centers`, change `upper` of the dimension,
evaluate `grid.c_centers_with_ghost(1)` (up to date by C93), and `grid.c_centers` still returns the
coordinates of the old extent: the two methods of the same grid contradict each other. -/
theorem C05_stale_after_ghost_read_violated (junk : ℚ) :
    let g := exGrid.runH junk exGhostOps
    ∃ a, (g.readC junk .centers).2 = .ok a ∧
      a ≠ gridCoords (1 / 2 : ℚ) 0 (g.dims.map fun d => (d.lower, d.upper, d.numCells)) := by
  refine ⟨_, rfl, ?_⟩
  intro h
  have h1 := congrArg (fun l : List (NdArr ℚ) => l.map (fun a => a [0])) h
  simp [exGhostOps, exGrid, exDim, Grid.runH, Grid.stepH, Grid.stepG, Grid.cGhost, Grid.readAllGhost,
    Dim.readGhost, Dim.centersWithGhost, Grid.readC, Grid.computeC, Grid.readAll, Dim.read,
    Dim.readCenters, Dim.computeCenters, Dim.delta, Dim.cache, Dim.extent, Dim.step, Dim.setUpper,
    Dim.clear, Dim.checkValidity, Dim.valid, Grid.tensor, gridCoords, List.range_succ] at h1

/-- **C93**, `c_center` (part). For a grid of one dimension whose cached centres are up to date,
`c_center([j])` of an existing cell `j` contains the centre of that cell, and no other number; it is
an array of shape `(1, 1)` and not `(1,)`.

Missing for the full property: the value is nested one level deeper than a point, and grids of more
dimensions, for which it fails, see the next theorem. -/
theorem C93_c_center_one_dimension_partial (junk : K) (g g' : Grid K) (l u : K) (m : Int) (j : Nat)
    (hj : (j : Int) < m)
    (hc : g.readC junk .centers = (g', .ok (gridCoords (1 / 2 : K) 0 [(l, u, m)])))
    (hd : g.dims.length = 1) :
    ∃ a, (g.cCenter junk [j]).2 = .ok a ∧ a [0, 0] = some (l + ((j : K) + 1 / 2) * ((u - l) / (m : K))) ∧
      ∀ idx, idx ≠ [0, 0] → a idx = none := by
  have hm : j < m.toNat := by omega
  have hone : gridCoords (1 / 2 : K) 0 [(l, u, m)] = [fun idx =>
      if List.Forall₂ (fun j (e : K × K × Int) => j < e.2.2.toNat + 0) idx [(l, u, m)] then
        match idx[0]? with
        | some (j : Nat) => some (l + ((j : K) + 1 / 2) * ((u - l) / (m : K)))
        | none => none
      else none] := by
    simp only [gridCoords, List.length_singleton, List.range_one, List.map_cons, List.map_nil]
    congr 1
    funext idx
    simp only [List.getElem?_cons_zero]
    split
    · cases idx[0]? <;> rfl
    · rfl
  rw [hone] at hc
  have hin : List.Forall₂ (fun j (e : K × K × Int) => j < e.2.2.toNat + 0) [j] [(l, u, m)] :=
    .cons hm .nil
  simp only [Grid.cCenter, hc, Grid.takeAll, Grid.takeFirst, hd, Nat.sub_self, List.replicate_zero,
    List.all_cons, List.all_nil, Bool.and_true, if_pos hin, List.getElem?_cons_zero,
    Option.isSome_some, if_true]
  refine ⟨_, rfl, ?_, ?_⟩
  · simp only [Grid.stack, List.getElem?_cons_zero, if_pos hin]
  · intro idx hne
    match idx with
    | [] => rfl
    | [0] => rfl
    | 0 :: 0 :: [] => exact absurd rfl hne
    | 0 :: 0 :: r :: rs =>
      simp only [Grid.stack, List.getElem?_cons_zero]
      rw [if_neg]
      intro h
      have := h.length_eq
      simp at this
    | 0 :: (k + 1) :: rs => simp [Grid.stack]
    | (i + 1) :: rs => simp [Grid.stack]

/-- A grid of two by three cells. -/
def exGrid23 : Grid ℚ :=
  { dims := [{ lower := 0, upper := 1, numCells := 2, name := "x" },
      { lower := 0, upper := 1, numCells := 3, name := "y" }] }

/-- **C93**, `c_center`, fails for grids of more than one dimension (with NumPy from version 1.23 on,
where a list index is an integer array): on the grid of two by three cells `c_center([0,2])` raises
`IndexError` although the cell `(0,2)` exists, and `c_center([0,1])` has no number at index `[0]`,
where the first coordinate of the centre should be, but one at `[0,1,2]`. -/
theorem C93_c_center_violated (junk : ℚ) :
    (∃ c, (exGrid23.readC junk .centers).2 = .ok c ∧ (c.map fun f => f [0, 2]) = [some (1 / 4), some (5 / 6)]) ∧
    (exGrid23.cCenter junk [0, 2]).2 = .error .indexError ∧
    ∃ a, (exGrid23.cCenter junk [0, 1]).2 = .ok a ∧ a [0] = none ∧ a [0, 1, 2] = some (3 / 4) := by
  refine ⟨⟨_, rfl, ?_⟩, ?_, _, rfl, ?_, ?_⟩ <;>
  simp [exGrid23, Grid.cCenter, Grid.takeAll, Grid.takeFirst, Grid.stack, Grid.readC, Grid.computeC,
    Grid.readAll, Dim.read, Dim.readCenters, Dim.computeCenters, Dim.delta, Dim.cache, Dim.extent,
    Grid.tensor, List.range_succ]
  all_goals norm_num

/-- The hypotheses of the one-dimensional theorem are met by the grid of the examples. -/
example (junk : ℚ) : ∃ g', exGrid.readC junk .centers =
    (g', .ok (gridCoords (1 / 2 : ℚ) 0 [(0, 1, 2)])) := by
  obtain ⟨g', e1, _, _, e4, _⟩ := exGrid.computeC_spec junk .centers
    (by intro d hd
        rw [List.mem_singleton.1 hd]
        exact ⟨by norm_num [exDim], by simp [Dim.CacheInv, exDim]⟩) (.inl rfl)
  refine ⟨g', ?_⟩
  simp only [Grid.readC, e1, e4, Option.getD_some]
  rfl

end PyClaw
