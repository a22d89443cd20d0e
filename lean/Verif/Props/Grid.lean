import Verif.Lemmas.GridRun
import Mathlib.Data.Rat.Floor
import Mathlib.Algebra.Order.Floor.Ring

/-!
Properties C05 (grid coordinate caches), C06 (gauges), C07 (unique dimension names) and
C08 (domains from bounds).
-/
set_option linter.unusedSectionVars false

namespace PyClaw

variable {K : Type*} [Field K] [LinearOrder K] [IsStrictOrderedRing K]

open Spec

/-! ### C05 -/

/-- **C05** (part). Grid coordinate arrays are up to date after every disciplined history: for every
grid built from valid dimensions and every sequence of assignments to the extents of its dimensions,
to `mapc2p`, added dimensions and evaluations of any coordinate array, in which the order of
operations is `disciplined`, the next evaluation of `c_centers`/`c_nodes` returns the tensor product
coordinates of the *current* extents and the next evaluation of `p_centers`/`p_nodes` returns the
current mapping applied to them.

Missing for the full property: histories that are not disciplined, for which it fails, see the two
theorems below. -/
theorem C05_grid_coordinates_coherent_partial (junk : K) (k : Kind) (ds : List (Dim K)) (g₀ : Grid K)
    (hds : ∀ d ∈ ds, ∃ l u n s, Dim.new l u n s = .ok d) (hnew : Grid.new ds = .ok g₀)
    (ops : List (GridOp K)) (hs : ∀ op ∈ ops, op.sane) :
    let g := g₀.runG junk ops
    let coords := gridCoords (match k with | .centers => (1 / 2 : K) | .nodes => 0)
      (match k with | .centers => 0 | .nodes => 1) (g.dims.map fun d => (d.lower, d.upper, d.numCells))
    (disciplined k {} (ops ++ [.readC k]) → (g.readC junk k).2 = .ok coords) ∧
    (disciplined k {} (ops ++ [.readP k]) → (g.readP junk k).2 = .ok (g.mapc2p coords)) := by
  intro g coords
  obtain ⟨n1, n2, n3, _⟩ := Grid.new_ok ds g₀ hnew
  have hgood : ∀ d ∈ g₀.dims, d.Good := by
    rw [n1]; intro d hd
    obtain ⟨l, u, n, s, h⟩ := hds d hd
    exact Grid.new_dim_good h
  have hinv : g₀.Inv k false false false :=
    Grid.inv_of_cleared k g₀ _ _ _ (by simp) hgood (by rw [n2]) (by rw [n3])
  have hfresh : coords = g.fresh k := by
    simp only [coords, Grid.fresh]
    cases k <;> rfl
  constructor
  · intro hd
    obtain ⟨u, hu, ht⟩ := Grid.run_disciplined junk k g₀ {} ops hinv hs (disciplined_prefix _ _ _ _ hd)
    have hu : g.Inv k u.dirty u.cUsed u.pUsed := hu
    obtain ⟨g', e1, _, _, e4, _⟩ := g.computeC_spec junk k hu.good
      (by rcases hu.cok with h | h | h
          · exact .inl h
          · exact .inr (.inl h)
          · exact .inr (.inr h.2))
    rw [hfresh]
    simp [Grid.readC, e1, e4]
  · intro hd
    obtain ⟨u, hu, ht⟩ := Grid.run_disciplined junk k g₀ {} ops hinv hs (disciplined_prefix _ _ _ _ hd)
    have hu : g.Inv k u.dirty u.cUsed u.pUsed := hu
    obtain ⟨g', e1, _, _, _, e5, _⟩ := g.computeP_spec junk k hu.good
      (by rcases hu.cok with h | h | h
          · exact .inl h
          · exact .inr (.inl h)
          · exact .inr (.inr h.2))
      (by rcases hu.pok with h | h | h
          · exact .inl h
          · exact .inr (.inl h)
          · exact .inr (.inr h.2))
    rw [hfresh]
    simp [Grid.readP, e1, e5]

/-- The concrete grid of the examples below: one dimension, `[0,1]` with 2 cells. -/
def exDim : Dim ℚ := { lower := 0, upper := 1, numCells := 2, name := "x" }

def exGrid : Grid ℚ := { dims := [exDim] }

example : Grid.new [exDim] = .ok exGrid := by
  simp [Grid.new, Grid.addAll, Grid.addDimension, exGrid, Grid.setMap, Grid.clear]

/-- The hypotheses of the theorem are met: evaluate the physical centres, extend the dimension, read
the dimension's nodes, evaluate again. -/
example : disciplined .centers {}
      ([.readP .centers, .dim 0 (.setUpper 2), .dim 0 .readNodes] ++ [.readP .centers] :
        List (GridOp ℚ)) ∧
    ∀ op ∈ ([.readP .centers, .dim 0 (.setUpper 2), .dim 0 .readNodes] : List (GridOp ℚ)), op.sane := by
  simp [disciplined, DimOp.effect, GridOp.sane]

/-- **C05** fails in general. Evaluate `grid.c_centers`, change `upper` of the dimension, evaluate
`dimension.centers`, and `grid.c_centers` still returns the coordinates of the old extent. -/
theorem C05_stale_after_dimension_read_violated (junk : ℚ) :
    ∃ ops : List (GridOp ℚ), (∀ op ∈ ops, op.sane) ∧
      let g := exGrid.runG junk ops
      ∃ a, (g.readC junk .centers).2 = .ok a ∧
        a ≠ gridCoords (1 / 2 : ℚ) 0 (g.dims.map fun d => (d.lower, d.upper, d.numCells)) := by
  refine ⟨[.readC .centers, .dim 0 (.setUpper 2), .dim 0 .readCenters], by simp [GridOp.sane], ?_⟩
  simp only
  refine ⟨_, rfl, ?_⟩
  intro h
  have h1 := congrArg (fun l : List (NdArr ℚ) => l.map (fun a => a [0])) h
  simp [exGrid, exDim, Grid.runG, Grid.stepG, Grid.readC, Grid.computeC, Grid.readAll, Dim.read,
    Dim.readCenters, Dim.computeCenters, Dim.delta, Dim.cache, Dim.extent, Dim.step, Dim.setUpper,
    Dim.clear, Dim.checkValidity, Dim.valid, Grid.tensor, gridCoords, List.range_succ] at h1

/-- **C05** fails in general. Evaluate `grid.p_centers`, change `upper`, evaluate `grid.c_centers`
(up to date), and `grid.p_centers` still returns the old coordinates. -/
theorem C05_stale_after_c_read_violated (junk : ℚ) :
    ∃ ops : List (GridOp ℚ), (∀ op ∈ ops, op.sane) ∧
      let g := exGrid.runG junk ops
      ∃ a, (g.readP junk .centers).2 = .ok a ∧
        a ≠ g.mapc2p (gridCoords (1 / 2 : ℚ) 0
          (g.dims.map fun d => (d.lower, d.upper, d.numCells))) := by
  refine ⟨[.readP .centers, .dim 0 (.setUpper 2), .readC .centers], by simp [GridOp.sane], ?_⟩
  simp only
  refine ⟨_, rfl, ?_⟩
  intro h
  have h1 := congrArg (fun l : List (NdArr ℚ) => l.map (fun a => a [0])) h
  simp [exGrid, exDim, Grid.runG, Grid.stepG, Grid.readC, Grid.computeC, Grid.readP, Grid.computeP,
    Grid.readAll, Dim.read,
    Dim.readCenters, Dim.computeCenters, Dim.delta, Dim.cache, Dim.extent, Dim.step, Dim.setUpper,
    Dim.clear, Dim.checkValidity, Dim.valid, Grid.tensor, gridCoords, List.range_succ] at h1

end PyClaw
