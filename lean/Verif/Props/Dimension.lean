import Verif.Lemmas.Dimension
import Mathlib.Algebra.Order.Field.Rat

set_option linter.unusedSectionVars false

/-!
Properties C01-C04: coordinates, validation and caches of `pyclaw.Dimension`.
`junk` is the content of uninitialised memory (`np.empty`).
-/
namespace PyClaw

variable {K : Type*} [Field K] [LinearOrder K] [IsStrictOrderedRing K]

open Spec

/-- C01. A freshly built `Dimension(lower, upper, n)` with `n > 0`, `lower < upper`: `nodes` has `n+1`
entries from `lower` to `upper` in steps of `delta > 0`; `centers` has `n` entries, each the midpoint
of the two neighbouring nodes; `n*delta = upper - lower`. -/
theorem C01_dimension_coordinates (junk lower upper : K) (n : Int) (name : String)
    (hn : 0 < n) (hlu : lower < upper) :
    ∃ (d : Dim K) (δ : K) (nodes centers : List K),
      Dim.new lower upper n name = .ok d ∧ d.delta = .ok δ ∧
      (d.readNodes junk).2 = .ok nodes ∧ d.readCenters.2 = .ok centers ∧
      0 < δ ∧ (n : K) * δ = upper - lower ∧
      nodes.length = n.toNat + 1 ∧ centers.length = n.toNat ∧
      nodes.head? = some lower ∧ nodes.getLast? = some upper ∧
      (∀ (i : Nat) (h : i + 1 < nodes.length), nodes[i + 1] - nodes[i] = δ) ∧
      (∀ (i : Nat) (h : i < centers.length) (h' : i + 1 < nodes.length),
        centers[i] = (nodes[i] + nodes[i + 1]) / 2) := by
  let d : Dim K := { lower := lower, upper := upper, numCells := n, name := name }
  have hd : Dim.new lower upper n name = .ok d := (Dim.new_ok_iff ..).2 ⟨⟨hn, hlu⟩, rfl⟩
  have hinv := Dim.new_inv hd
  have hpos : (0 : K) < (n : K) := by exact_mod_cast hn
  obtain ⟨nodes, h1, p1⟩ := d.readNodes_spec junk hinv hn
  obtain ⟨centers, h2, p2⟩ := d.readCenters_spec hinv hn
  have hcast : ((n.toNat : Nat) : K) = (n : K) := d.cast_toNat hn
  refine ⟨d, (upper - lower) / (n : K), nodes, centers, hd, d.delta_pos hn, h1, h2,
    div_pos (by linarith) hpos, by field_simp, p1.1, p2.1, ?_, ?_, ?_, ?_⟩
  · have hl : 0 < nodes.length := by rw [p1.1]; omega
    rw [List.head?_eq_getElem?, List.getElem?_eq_getElem hl, p1.2 0 hl]; simp [d]
  · have hl : nodes.length - 1 < nodes.length := by rw [p1.1]; omega
    rw [List.getLast?_eq_getElem?, List.getElem?_eq_getElem hl, p1.2 _ hl]
    have : nodes.length - 1 = n.toNat := by rw [p1.1]; rfl
    rw [this, hcast]
    simp only [d]
    congr 1; field_simp; ring
  · intro i h
    rw [p1.2 _ h, p1.2 i (by omega)]; push_cast; ring
  · intro i h h'
    rw [p1.2 _ h', p1.2 i (by omega), p2.2 i h]; push_cast; ring

/-- The hypotheses of C01 are met by `Dimension(0, 1, 100)`. -/
example : (0 : Int) < 100 ∧ (0 : ℚ) < 1 := by norm_num

/-- C02. Coordinates with `g` ghost cells, on a new `Dimension`: `centers_with_ghost(g)` has `n+2g`
entries, `nodes_with_ghost(g)` has `n+1+2g`; both are uniform with spacing `delta`; dropping the `g`
ghost entries at each end gives exactly `centers` resp. `nodes`. -/
theorem C02_ghost_coordinates (junk lower upper : K) (n : Int) (name : String) (g : Nat)
    (hn : 0 < n) (hlu : lower < upper) :
    ∃ (d : Dim K) (δ : K) (nodes centers nodesG centersG : List K),
      Dim.new lower upper n name = .ok d ∧ d.delta = .ok δ ∧
      (d.readNodes junk).2 = .ok nodes ∧ d.readCenters.2 = .ok centers ∧
      (d.nodesWithGhost junk g).2 = .ok nodesG ∧ (d.centersWithGhost g).2 = .ok centersG ∧
      nodesG.length = n.toNat + 1 + 2 * g ∧ centersG.length = n.toNat + 2 * g ∧
      (nodesG.drop g).take nodes.length = nodes ∧ (centersG.drop g).take centers.length = centers ∧
      (∀ (k : Nat) (h : k < nodesG.length), nodesG[k] = lower + ((k : K) - (g : K)) * δ) ∧
      (∀ (k : Nat) (h : k < centersG.length),
        centersG[k] = lower + ((k : K) - (g : K) + 1 / 2) * δ) := by
  let d : Dim K := { lower := lower, upper := upper, numCells := n, name := name }
  have hd : Dim.new lower upper n name = .ok d := (Dim.new_ok_iff ..).2 ⟨⟨hn, hlu⟩, rfl⟩
  have hinv := Dim.new_inv hd
  obtain ⟨nodes, nodesG, h1, h1', e1, p1⟩ := d.nodesWithGhost_spec junk hinv hn g
  obtain ⟨centers, centersG, h2, h2', e2, p2⟩ := d.centersWithGhost_spec hinv hn g
  refine ⟨d, (upper - lower) / (n : K), nodes, centers, nodesG, centersG, hd, d.delta_pos hn, h1, h2,
    h1', h2', p1.1, p2.1, e1, e2, ?_, ?_⟩
  · intro k h; rw [p1.2 k h]; simp only [d]; ring
  · intro k h; rw [p2.2 k h]; simp only [d]; ring

/-- Whether an operation is an assignment. -/
def DimOp.isSetter : DimOp K → Prop
  | .setLower _ | .setUpper _ | .setNumCells _ => True
  | _ => False

/-- C03 (the part that holds). For every state the object can be in (whatever the history, including
earlier assignments that raised), an assignment stores the requested value; it is accepted exactly
when the resulting `Dimension` has `num_cells > 0` and `lower < upper`, and raises `AssertionError`
otherwise. Missing from the full property: that a rejected assignment leaves the object unchanged,
which is false (`C03_rejected_assignment_persists_violated`). -/
theorem C03_setters_validate_partial (junk : K) (d₀ : Dim K) (ops : List (DimOp K)) (op : DimOp K)
    (hop : op.isSetter) :
    let d := d₀.run junk ops
    let r := d.step junk op
    (match op with
      | .setLower x => r.1.lower = x ∧ r.1.upper = d.upper ∧ r.1.numCells = d.numCells
      | .setUpper x => r.1.upper = x ∧ r.1.lower = d.lower ∧ r.1.numCells = d.numCells
      | .setNumCells n => r.1.numCells = n ∧ r.1.lower = d.lower ∧ r.1.upper = d.upper
      | _ => True) ∧
    ((r.2 = .ok [] ∧ 0 < r.1.numCells ∧ r.1.lower < r.1.upper) ∨
     (r.2 = .error .assertion ∧ ¬ (0 < r.1.numCells ∧ r.1.lower < r.1.upper))) := by
  intro d r
  cases op with
  | setLower x =>
    refine ⟨⟨rfl, rfl, rfl⟩, ?_⟩
    by_cases h1 : 0 < d.numCells <;> by_cases h2 : x < d.upper <;>
      simp [r, Dim.step, Dim.setLower, Dim.checkValidity, Dim.valid, Dim.clear, h1, h2, Except.map]
  | setUpper x =>
    refine ⟨⟨rfl, rfl, rfl⟩, ?_⟩
    by_cases h1 : 0 < d.numCells <;> by_cases h2 : d.lower < x <;>
      simp [r, Dim.step, Dim.setUpper, Dim.checkValidity, Dim.valid, Dim.clear, h1, h2, Except.map]
  | setNumCells n =>
    refine ⟨⟨rfl, rfl, rfl⟩, ?_⟩
    by_cases h1 : 0 < n <;> by_cases h2 : d.lower < d.upper <;>
      simp [r, Dim.step, Dim.setNumCells, Dim.checkValidity, Dim.valid, Dim.clear, h1, h2, Except.map]
  | readNodes => exact absurd hop (by simp [DimOp.isSetter])
  | readCenters => exact absurd hop (by simp [DimOp.isSetter])
  | readCentersWithGhost g => exact absurd hop (by simp [DimOp.isSetter])
  | readNodesWithGhost g => exact absurd hop (by simp [DimOp.isSetter])

example : (DimOp.setUpper (-1 : ℚ)).isSetter := trivial

/-- C03, construction: `Dimension(lower, upper, n)` succeeds exactly for `n > 0` and `lower < upper`. -/
theorem C03_construction_validates (lower upper : K) (n : Int) (name : String) :
    (0 < n ∧ lower < upper ∧ ∃ d, Dim.new lower upper n name = .ok d ∧ d.lower = lower ∧
        d.upper = upper ∧ d.numCells = n ∧ d.name = name) ∨
    (¬ (0 < n ∧ lower < upper) ∧ Dim.new lower upper n name = .error .assertion) := by
  by_cases h : 0 < n ∧ lower < upper
  · left
    exact ⟨h.1, h.2, _, (Dim.new_ok_iff ..).2 ⟨h, rfl⟩, rfl, rfl, rfl, rfl⟩
  · right
    refine ⟨h, ?_⟩
    unfold Dim.new Dim.checkValidity Dim.valid
    by_cases h1 : 0 < n <;> by_cases h2 : lower < upper
    · exact absurd ⟨h1, h2⟩ h
    all_goals simp [h1, h2]

/-- C03, violation: on the valid `Dimension(0, 1, 10)` the assignment `upper = -1` raises
`AssertionError`, yet afterwards the object has `upper = -1 < lower`: the rejected value persists. -/
theorem C03_rejected_assignment_persists_violated :
    ∃ (d : Dim ℚ), Dim.new 0 1 10 = .ok d ∧
      (d.setUpper (-1)).2 = .error .assertion ∧
      (d.setUpper (-1)).1.upper = -1 ∧ (d.setUpper (-1)).1.lower = 0 := by
  refine ⟨_, (Dim.new_ok_iff ..).2 ⟨⟨by norm_num, by norm_num⟩, rfl⟩, ?_, rfl, rfl⟩
  norm_num [Dim.setUpper, Dim.checkValidity, Dim.valid, Dim.clear]

/-- C04 (the part that holds). After any history of assignments and reads on a constructed
`Dimension`, if it currently has `num_cells > 0`, then `nodes` and `centers` are the coordinates of the
current `lower`, `upper`, `num_cells`. The extent may even be reversed (`upper < lower`, after a caught
rejected assignment). Missing: `num_cells = 0` (only reachable through a caught AssertionError). -/
theorem C04_dimension_cache_coherent_partial (junk lower upper : K) (n : Int) (name : String)
    (d₀ : Dim K) (h₀ : Dim.new lower upper n name = .ok d₀) (ops : List (DimOp K)) :
    let d := d₀.run junk ops
    0 < d.numCells →
    ∃ nodes centers, (d.readNodes junk).2 = .ok nodes ∧ d.readCenters.2 = .ok centers ∧
      nodes.length = d.numCells.toNat + 1 ∧ centers.length = d.numCells.toNat ∧
      (∀ (k : Nat) (h : k < nodes.length),
        nodes[k] = d.lower + (k : K) * ((d.upper - d.lower) / (d.numCells : K))) ∧
      (∀ (k : Nat) (h : k < centers.length),
        centers[k] = d.lower + ((k : K) + 1 / 2) * ((d.upper - d.lower) / (d.numCells : K))) := by
  intro d hn
  have hinv : d.CacheInv := Dim.run_inv junk d₀ ops (Dim.new_inv h₀)
  obtain ⟨nodes, h1, p1⟩ := d.readNodes_spec junk hinv hn
  obtain ⟨centers, h2, p2⟩ := d.readCenters_spec hinv hn
  refine ⟨nodes, centers, h1, h2, p1.1, p2.1, p1.2, ?_⟩
  intro k h
  rw [p2.2 k h]; ring

/-- A history that meets the hypotheses: read, change `upper`, read again, change `num_cells`. -/
example : ∃ d₀ : Dim ℚ, Dim.new 0 1 10 = .ok d₀ ∧
    0 < (d₀.run 7 [.readNodes, .setUpper 2, .readCenters, .setNumCells 4]).numCells := by
  refine ⟨_, (Dim.new_ok_iff ..).2 ⟨⟨by norm_num, by norm_num⟩, rfl⟩, ?_⟩
  simp [Dim.run, Dim.step, Dim.setNumCells, Dim.clear]

/-- C04, violation: `num_cells = 0` raises, the first read of `nodes` raises `ZeroDivisionError` but
caches the uninitialised array, and the second read returns it, whatever it contains. -/
theorem C04_junk_cached_violated (junk : ℚ) :
    ∃ d₀ : Dim ℚ, Dim.new 0 1 10 = .ok d₀ ∧
      let d := d₀.run junk [.setNumCells 0]
      (d.readNodes junk).2 = .error .zeroDivision ∧
      ((d.readNodes junk).1.readNodes junk).2 = .ok [junk] := by
  refine ⟨_, (Dim.new_ok_iff ..).2 ⟨⟨by norm_num, by norm_num⟩, rfl⟩, ?_, ?_⟩ <;>
  simp [Dim.run, Dim.step, Dim.setNumCells, Dim.clear, Dim.readNodes, Dim.computeNodes, Dim.delta]

end PyClaw
