import Verif.Lemmas.GridRun
import Verif.Spec.Gauge
import Mathlib.Data.Rat.Floor
import Mathlib.Algebra.Order.Floor.Ring

/-!
Properties C06 (gauges), C07 (unique dimension names) and C08 (domains from bounds).
-/
set_option linter.unusedSectionVars false

namespace PyClaw

variable {K : Type*} [Field K] [LinearOrder K] [IsStrictOrderedRing K]

open Spec

/-! ### C06 -/

theorem Grid.gaugeInside_iff (ds : List (Dim K)) (x : List K) (h : x.length = ds.length) :
    ∃ b, gaugeInside ds x = .ok b ∧ (b = true ↔ InBox (ds.map Dim.ext) x) := by
  induction ds generalizing x with
  | nil =>
    have : x = [] := by simpa using h
    subst this
    exact ⟨true, rfl, by simp [InBox]⟩
  | cons d ds ih =>
    cases x with
    | nil => simp at h
    | cons c cs =>
      obtain ⟨b, hb, hbi⟩ := ih cs (by simpa using h)
      by_cases hc : d.lower ≤ c ∧ c < d.upper
      · refine ⟨b, by simp [gaugeInside, hc, hb], ?_⟩
        rw [hbi]
        simp [InBox, Dim.ext, hc]
      · refine ⟨false, by simp [gaugeInside, hc], ?_⟩
        simp only [Bool.false_eq_true, false_iff]
        intro hh
        simp only [InBox, List.map_cons, List.forall₂_cons, Dim.ext] at hh
        exact hc hh.1

theorem Grid.gaugeIndex_spec [FloorRing K] (ds : List (Dim K)) (x : List K)
    (hv : ∀ d ∈ ds, d.valid = true) (hb : InBox (ds.map Dim.ext) x) :
    ∃ idx, gaugeIndex ds x = .ok idx ∧ InCells (ds.map Dim.ext) idx x := by
  induction ds generalizing x with
  | nil =>
    cases hb
    exact ⟨[], rfl, trivial⟩
  | cons d ds ih =>
    cases x with
    | nil => simp [InBox] at hb
    | cons c cs =>
      simp only [InBox, List.map_cons, List.forall₂_cons] at hb
      obtain ⟨idx, hi, hc⟩ := ih cs (fun d hd => hv d (by simp [hd])) hb.2
      have hd := hv d (by simp)
      simp only [Dim.valid, Bool.and_eq_true, decide_eq_true_eq] at hd
      obtain ⟨hn, hlu⟩ := hd
      have hnK := d.cast_numCells_pos hn
      have hδ : (0 : K) < (d.upper - d.lower) / (d.numCells : K) := div_pos (sub_pos.2 hlu) hnK
      refine ⟨⌊(c - d.lower) / ((d.upper - d.lower) / (d.numCells : K))⌋ :: idx,
        by simp [gaugeIndex, Dim.delta_pos d hn, hi], ?_⟩
      show InCell _ _ _ ∧ InCells _ _ _
      refine ⟨?_, hc⟩
      obtain ⟨h1, h2⟩ : d.lower ≤ c ∧ c < d.upper := hb.1
      simp only [Dim.ext]
      have f1 := Int.floor_le ((c - d.lower) / ((d.upper - d.lower) / (d.numCells : K)))
      have f2 := Int.lt_floor_add_one ((c - d.lower) / ((d.upper - d.lower) / (d.numCells : K)))
      rw [le_div_iff₀ hδ] at f1
      rw [div_lt_iff₀ hδ] at f2
      refine ⟨?_, ?_, ?_, ?_⟩
      · exact Int.floor_nonneg.2 (div_nonneg (sub_nonneg.2 h1) hδ.le)
      · rw [Int.floor_lt, div_lt_iff₀ hδ]
        rw [mul_div_cancel₀ _ hnK.ne']
        linarith
      · show d.lower + _ ≤ c
        linarith
      · show c < d.lower + _
        linarith

/-- **C06**. Gauges are placed in the cells that contain them. For every grid with valid dimensions,
whatever gauges it already has, and every list of gauge coordinates with one coordinate per dimension,
`add_gauges` succeeds and records, in order and after the existing ones, exactly the gauges in the
half-open box (their file names and their indices); each index lies in the grid and the cell it
denotes contains the gauge, in every dimension. Nothing else about the grid changes. -/
theorem C06_gauges_in_their_cells [FloorRing K] (g : Grid K) (hv : ∀ d ∈ g.dims, d.valid = true)
    (coords : List (List K)) (hlen : ∀ x ∈ coords, x.length = g.dims.length) :
    ∃ g' kept idxs, g.addGauges coords = (g', .ok ()) ∧
      g' = { g with gaugeNames := g.gaugeNames ++ kept, gauges := g.gauges ++ idxs } ∧
      kept = coords.filter
        (fun x => decide (InBox (g.dims.map fun d => (d.lower, d.upper, d.numCells)) x)) ∧
      List.Forall₂ (fun idx x => InCells (g.dims.map fun d => (d.lower, d.upper, d.numCells)) idx x)
        idxs kept := by
  show ∃ g' kept idxs, _ ∧ _ ∧ kept = coords.filter (fun x => decide (InBox (g.dims.map Dim.ext) x)) ∧
    List.Forall₂ (fun idx x => InCells (g.dims.map Dim.ext) idx x) idxs kept
  induction coords generalizing g with
  | nil => exact ⟨g, [], [], rfl, by simp, by simp, .nil⟩
  | cons x xs ih =>
    obtain ⟨b, hb, hbi⟩ := Grid.gaugeInside_iff g.dims x (hlen x (by simp))
    cases b with
    | false =>
      have hx : ¬ InBox (g.dims.map Dim.ext) x := by
        intro h; have := hbi.2 h; simp at this
      obtain ⟨g', kept, idxs, e1, e2, e3, e5⟩ := ih g hv (fun y hy => hlen y (by simp [hy]))
      refine ⟨g', kept, idxs, by simp [Grid.addGauges, Grid.addGauge, hb, e1], e2, ?_, e5⟩
      rw [e3, List.filter_cons_of_neg (by simpa using hx)]
    | true =>
      have hx : InBox (g.dims.map Dim.ext) x := hbi.1 rfl
      obtain ⟨idx, hi, hc⟩ := Grid.gaugeIndex_spec g.dims x hv hx
      let g1 : Grid K := { g with gaugeNames := g.gaugeNames ++ [x], gauges := g.gauges ++ [idx] }
      obtain ⟨g', kept, idxs, e1, e2, e3, e5⟩ :=
        ih g1 hv (fun y hy => hlen y (by simp [hy]))
      refine ⟨g', x :: kept, idx :: idxs, ?_, ?_, ?_, .cons hc e5⟩
      · simp only [Grid.addGauges, Grid.addGauge, hb, hi]
        exact e1
      · rw [e2]; simp [g1]
      · rw [e3, List.filter_cons_of_pos (by simpa using hx)]

/-- Non-vacuity: a 2-d grid and three gauges, one of them on the upper boundary (dropped). -/
def exGrid2 : Grid ℚ :=
  { dims := [{ lower := 0, upper := 1, numCells := 4, name := "x" },
             { lower := -1, upper := 1, numCells := 2, name := "y" }] }

example : (∀ d ∈ exGrid2.dims, d.valid = true) ∧
    (exGrid2.addGauges [[1/2, 0], [1, 0], [1/3, -1]]).1.gauges = [[2, 1], [1, 0]] := by
  constructor
  · simp [exGrid2, Dim.valid]
  · simp [exGrid2, Grid.addGauges, Grid.addGauge, Grid.gaugeInside, Grid.gaugeIndex, Dim.delta]
    norm_num [Int.floor_eq_iff, Grid.gaugeInside, Grid.gaugeIndex, Dim.delta]

/-! ### C07 -/

/-- **C07**. Dimension names are unique. After any history of operations on a grid built by the
constructor (with any list of dimensions), the names are pairwise distinct; adding a dimension whose
name is present raises and changes nothing; adding one with a new name appends it; and each dimension
is the only one with its name. The same for the `Patch` constructor: it succeeds iff the names are
distinct and there are at most three dimensions. -/
theorem C07_dimension_names_unique (junk : K) (ds : List (Dim K)) (g₀ : Grid K)
    (hnew : Grid.new ds = .ok g₀) (ops : List (GridOp K)) (d : Dim K) :
    let g := g₀.runG junk ops
    (g.dims.map (·.name)).Nodup ∧
    (d.name ∈ g.dims.map (·.name) → (g.addDimension d).1 = g ∧ ∃ m, (g.addDimension d).2 = .error m) ∧
    (d.name ∉ g.dims.map (·.name) → (g.addDimension d).1.dims = g.dims ++ [d]) ∧
    (∀ (i j : Nat) (hi : i < g.dims.length) (hj : j < g.dims.length),
      (g.dims[i]).name = (g.dims[j]).name → i = j) := by
  intro g
  have hread : ∀ (k : Kind) (d : Dim K), (d.read junk k).1.name = d.name := by
    intro k d
    cases k with
    | centers =>
      simp only [Dim.read, Dim.readCenters]
      cases d.centersC with
      | some a => rfl
      | none => cases d.computeCenters <;> rfl
    | nodes =>
      simp only [Dim.read, Dim.readNodes]
      cases d.nodesC with
      | some a => rfl
      | none =>
        cases d.computeNodes with
        | ok a => rfl
        | error e => simp only; split <;> rfl
  have hall : ∀ (k : Kind) (ds : List (Dim K)),
      (Grid.readAll junk k ds).1.map (·.name) = ds.map (·.name) := by
    intro k ds
    induction ds with
    | nil => rfl
    | cons d ds ih =>
      have h0 := hread k d
      simp only [Grid.readAll]
      rcases hr : d.read junk k with ⟨d', r⟩
      rw [hr] at h0
      cases r with
      | error e => simpa using h0
      | ok a =>
        simp only
        rcases hr2 : Grid.readAll junk k ds with ⟨ds', r2⟩
        rw [hr2] at ih
        simp only at ih
        cases r2 <;> simp [ih] <;> exact h0
  have hstepname : ∀ (d : Dim K) (op : DimOp K), (d.step junk op).1.name = d.name := by
    intro d op
    cases he : op.effect with
    | change => cases op <;> simp [DimOp.effect] at he <;> rfl
    | reads k => rw [Dim.step_reads junk d op k he]; exact hread k d
  have hC : ∀ (k : Kind) (g : Grid K), (g.computeC junk k).1.dims.map (·.name) = g.dims.map (·.name) := by
    intro k g
    unfold Grid.computeC
    split
    · split
      · rfl
      · have := hall k g.dims
        rcases hr : Grid.readAll junk k g.dims with ⟨ds', r⟩
        rw [hr] at this
        cases r <;> exact this
    · rfl
  have hnd : ∀ (ops : List (GridOp K)) (g : Grid K), (g.dims.map (·.name)).Nodup →
      ((g.runG junk ops).dims.map (·.name)).Nodup := by
    intro ops
    induction ops with
    | nil => intro g h; exact h
    | cons op ops ih =>
      intro g h
      apply ih (g.stepG junk op)
      cases op with
      | dim i op =>
        simp only [Grid.stepG]
        rw [modify_map_eq]
        · exact h
        · intro d _; exact hstepname d op
      | setMap f => exact h
      | addDimension d =>
        simp only [Grid.stepG, Grid.addDimension]
        split
        · exact h
        · rename_i hn
          have : (List.map (fun x => x.name) (g.dims ++ [d])).Nodup := by
            rw [List.map_append, List.nodup_append]
            refine ⟨h, by simp, ?_⟩
            intro x hx y hy
            simp only [List.map_cons, List.map_nil, List.mem_singleton] at hy
            subst hy
            rintro rfl
            exact hn hx
          split <;> exact this
      | readC k =>
        have hc := hC k g
        simp only [Grid.stepG, Grid.readC]
        rcases hr : g.computeC junk k with ⟨g', r⟩
        rw [hr] at hc
        simp only at hc
        cases r <;> simp only [hc] <;> exact h
      | readP k =>
        have hc := hC k g
        simp only [Grid.stepG, Grid.readP, Grid.computeP]
        split
        · rename_i heq
          split at heq
          · rcases hr : g.computeC junk k with ⟨g2, r⟩
            rw [hr] at hc heq
            cases r with
            | error e => simp only [Prod.mk.injEq] at heq; rw [← heq.1, hc]; exact h
            | ok a => simp only [Prod.mk.injEq, reduceCtorEq, and_false] at heq
          · cases heq
        · rename_i heq
          split at heq
          · rcases hr : g.computeC junk k with ⟨g2, r⟩
            rw [hr] at hc heq
            cases r with
            | error e => simp only [Prod.mk.injEq, reduceCtorEq, and_false] at heq
            | ok a => simp only [Prod.mk.injEq] at heq; rw [← heq.1]; simp only [hc]; exact h
          · cases heq; exact h
  have hg : (g.dims.map (·.name)).Nodup := by
    obtain ⟨n1, _, _, _, _, _, n7, _⟩ := Grid.new_ok ds g₀ hnew
    exact hnd ops g₀ (by rw [n1]; exact n7)
  refine ⟨hg, ?_, ?_, ?_⟩
  · intro h
    refine ⟨?_, .exception "Unable to add dimension.", ?_⟩ <;> simp only [Grid.addDimension, if_pos h]
  · intro h
    simp only [Grid.addDimension, if_neg h]
    split <;> rfl
  · intro i j hi hj h
    have := (List.Nodup.getElem_inj_iff hg (i := i) (j := j) (hi := by simpa using hi)
      (hj := by simpa using hj)).1 (by simpa using h)
    exact this

/-- Non-vacuity for C07: the constructor accepts three dimensions with distinct names. -/
example : ∃ g, Grid.new ([{ lower := 0, upper := 1, numCells := 4, name := "x" },
    { lower := 0, upper := 1, numCells := 4, name := "y" },
    { lower := 0, upper := 1, numCells := 4, name := "z" }] : List (Dim ℚ)) = .ok g := by
  simp [Grid.new, Grid.addAll, Grid.addDimension, Grid.clear, Grid.setMap]

theorem Patch.addAll_ok_iff (ds : List (Dim K)) (p : Patch K) (hp : (p.dims.map (·.name)).Nodup) :
    (∃ p', p.addAll ds = .ok p') ↔ ((p.dims ++ ds).map (·.name)).Nodup := by
  induction ds generalizing p with
  | nil => simp [Patch.addAll]; simpa using hp
  | cons d ds ih =>
    simp only [Patch.addAll, Patch.addDimension]
    by_cases hm : d.name ∈ p.dims.map (·.name)
    · rw [if_pos hm]
      simp only [reduceCtorEq, exists_false, false_iff]
      intro h
      rw [List.map_append, List.nodup_append] at h
      exact h.2.2 _ hm _ (by simp) rfl
    · rw [if_neg hm]
      simp only
      rw [ih]
      · simp
      · simp only [List.map_append, List.map_cons, List.map_nil]
        rw [List.nodup_append]
        refine ⟨hp, by simp, ?_⟩
        intro x hx y hy
        simp only [List.mem_singleton] at hy
        subst hy
        rintro rfl
        exact hm hx

theorem Patch.addAll_dims (ds : List (Dim K)) (p p' : Patch K) (h : p.addAll ds = .ok p') :
    p'.dims = p.dims ++ ds.map fun d => { d with onLower := some true, onUpper := some true } := by
  induction ds generalizing p with
  | nil => simp only [Patch.addAll, Except.ok.injEq] at h; subst h; simp
  | cons d ds ih =>
    simp only [Patch.addAll, Patch.addDimension] at h
    split at h
    · rename_i heq; split at heq <;> cases heq; cases h
    · rename_i heq
      split at heq
      · cases heq
      · cases heq
        rw [ih _ h]; simp

theorem Grid.addAll_ok_of (ds : List (Dim K)) (g : Grid K)
    (h1 : ((g.dims ++ ds).map (·.name)).Nodup) (h2 : (g.dims ++ ds).length ≤ 3) :
    ∃ g', g.addAll ds = .ok g' := by
  induction ds generalizing g with
  | nil => exact ⟨g, rfl⟩
  | cons d ds ih =>
    have hm : d.name ∉ g.dims.map (·.name) := by
      intro hm
      rw [List.map_append, List.nodup_append] at h1
      exact h1.2.2 _ hm _ (by simp) rfl
    have hl : (g.dims ++ [d]).length ≤ 3 := by simp at h2 ⊢; omega
    simp only [Grid.addAll, Grid.addDimension, if_neg hm]
    rw [if_pos (show (({ g with dims := g.dims ++ [d] } : Grid K).clear).dims.length ≤ 3 from hl)]
    simp only
    apply ih
    · simpa [Grid.setMap, Grid.clear] using h1
    · simpa [Grid.setMap, Grid.clear] using h2

/-- **C07**, constructor of `Patch`. -/
theorem C07_patch_construction (ds : List (Dim K)) :
    (∃ p, Patch.new ds = .ok p) ↔ ((ds.map (·.name)).Nodup ∧ ds.length ≤ 3) := by
  constructor
  · rintro ⟨p, hp⟩
    unfold Patch.new at hp
    split at hp
    · cases hp
    · rename_i p1 hp1
      split at hp
      · cases hp
      · rename_i g hg
        have hd := Patch.addAll_dims ds {} p1 hp1
        obtain ⟨_, _, _, _, _, _, n7, n8⟩ := Grid.new_ok _ g hg
        simp only [List.nil_append] at hd
        rw [hd] at n7 n8
        simp only [List.map_map, List.length_map] at n7 n8
        exact ⟨n7, n8⟩
  · rintro ⟨h1, h2⟩
    obtain ⟨p1, hp1⟩ := (Patch.addAll_ok_iff ds {} (by simp)).2 (by simpa using h1)
    have hd := Patch.addAll_dims ds {} p1 hp1
    simp only [List.nil_append] at hd
    obtain ⟨g, hg⟩ := Grid.addAll_ok_of p1.dims {} (by
      rw [hd]; simpa [Function.comp_def] using h1) (by rw [hd]; simpa using h2)
    refine ⟨{ p1 with grid := g }, ?_⟩
    have hg' : Grid.new p1.dims = .ok g := hg
    simp [Patch.new, hp1, hg']

/-! ### C08 -/

theorem Domain.zipDims_ok (lower upper : List K) (n : List Int) (names : List String)
    (h1 : lower.length = n.length) (h2 : upper.length = n.length) (h3 : n.length ≤ names.length) :
    (∀ ds, Domain.zipDims lower upper n names = .ok ds →
      (∀ i (hi : i < n.length), 0 < n[i] ∧ lower[i] < upper[i]) ∧
      ds.map (·.name) = names.take n.length ∧ ds.map (·.lower) = lower ∧ ds.map (·.upper) = upper ∧
      ds.map (·.numCells) = n) ∧
    ((∀ i (hi : i < n.length), 0 < n[i] ∧ lower[i] < upper[i]) →
      ∃ ds, Domain.zipDims lower upper n names = .ok ds) := by
  induction n generalizing lower upper names with
  | nil =>
    have e1 : lower = [] := by simpa using h1
    have e2 : upper = [] := by simpa using h2
    subst e1 e2
    refine ⟨?_, fun _ => ⟨[], rfl⟩⟩
    intro ds hds
    simp only [Domain.zipDims, Except.ok.injEq] at hds
    subst hds
    simp
  | cons n ns ih =>
    obtain ⟨l, ls, rfl⟩ : ∃ l ls, lower = l :: ls := by
      cases lower with
      | nil => simp at h1
      | cons a b => exact ⟨a, b, rfl⟩
    obtain ⟨u, us, rfl⟩ : ∃ l ls, upper = l :: ls := by
      cases upper with
      | nil => simp at h2
      | cons a b => exact ⟨a, b, rfl⟩
    obtain ⟨s, ss, rfl⟩ : ∃ l ls, names = l :: ls := by
      cases names with
      | nil => simp at h3
      | cons a b => exact ⟨a, b, rfl⟩
    obtain ⟨ih1, ih2⟩ := ih ls us ss (by simpa using h1) (by simpa using h2) (by simpa using h3)
    constructor
    · intro ds hds
      simp only [Domain.zipDims] at hds
      split at hds
      · cases hds
      · rename_i d hd
        split at hds
        · cases hds
        · rename_i ds' hds'
          cases hds
          obtain ⟨a1, a2, a3, a4, a5⟩ := ih1 _ hds'
          obtain ⟨b1, rfl⟩ := (Dim.new_ok_iff ..).1 hd
          refine ⟨?_, by simp [a2], by simp [a3], by simp [a4], by simp [a5]⟩
          intro i hi
          cases i with
          | zero => exact b1
          | succ i => simpa using a1 i (by simpa using hi)
    · intro h
      obtain ⟨ds', hds'⟩ := ih2 (fun i hi => by
        have := h (i + 1) (by simpa using hi)
        simpa using this)
      have h0 := h 0 (by simp)
      have : Dim.new l u n s = .ok { lower := l, upper := u, numCells := n, name := s } :=
        (Dim.new_ok_iff ..).2 ⟨h0, rfl⟩
      exact ⟨{ lower := l, upper := u, numCells := n, name := s } :: ds',
        by simp only [Domain.zipDims, this, hds']⟩

theorem take_nodup (m : Nat) : (["x", "y", "z"].take m).Nodup :=
  List.Nodup.sublist (List.take_sublist _ _) (by decide)

/-- **C08**. `Domain(lower, upper, n)` with one to three bounds succeeds iff every dimension is valid
(`n > 0`, `lower < upper`), and then consists of one patch whose dimensions, and whose grid's
dimensions, are named `x`, `y`, `z` in order, have exactly the given bounds and cell counts and are
flagged as being on both boundaries. -/
theorem C08_domain_from_bounds (lower upper : List K) (n : List Int)
    (h1 : lower.length = n.length) (h2 : upper.length = n.length) (h3 : n.length ≤ 3) :
    ((∃ ps, Domain.new3 lower upper n = .ok ps) ↔
      ∀ i (hi : i < n.length), 0 < n[i] ∧ lower[i] < upper[i]) ∧
    (∀ ps, Domain.new3 lower upper n = .ok ps →
      ∃ p, ps = [p] ∧ p.grid.dims = p.dims ∧
        p.dims.map (·.name) = ["x", "y", "z"].take n.length ∧
        p.dims.map (·.lower) = lower ∧ p.dims.map (·.upper) = upper ∧ p.dims.map (·.numCells) = n ∧
        ∀ d ∈ p.dims, d.onLower = some true ∧ d.onUpper = some true) := by
  have h3' : n.length ≤ (["x", "y", "z"].take (n.length + 1)).length := by simp; omega
  obtain ⟨z1, z2⟩ := Domain.zipDims_ok lower upper n (["x", "y", "z"].take (n.length + 1)) h1 h2 h3'
  have htake : (["x", "y", "z"].take (n.length + 1)).take n.length = ["x", "y", "z"].take n.length := by
    rw [List.take_take, min_eq_left (Nat.le_succ _)]
  have hfin : ∀ ps, Domain.new3 lower upper n = .ok ps →
      (∀ i (hi : i < n.length), 0 < n[i] ∧ lower[i] < upper[i]) ∧
      ∃ p, ps = [p] ∧ p.grid.dims = p.dims ∧
        p.dims.map (·.name) = ["x", "y", "z"].take n.length ∧
        p.dims.map (·.lower) = lower ∧ p.dims.map (·.upper) = upper ∧ p.dims.map (·.numCells) = n ∧
        ∀ d ∈ p.dims, d.onLower = some true ∧ d.onUpper = some true := by
    intro ps hps
    unfold Domain.new3 at hps
    split at hps
    · cases hps
    · rename_i ds hds
      obtain ⟨a1, a2, a3, a4, a5⟩ := z1 ds hds
      split at hps
      · cases hps
      · rename_i p hp
        cases hps
        refine ⟨a1, p, rfl, ?_⟩
        unfold Patch.new at hp
        split at hp
        · cases hp
        · rename_i p1 hp1
          split at hp
          · cases hp
          · rename_i g hg
            cases hp
            have hd := Patch.addAll_dims ds {} p1 hp1
            simp only [List.nil_append] at hd
            obtain ⟨n1, _⟩ := Grid.new_ok _ g hg
            refine ⟨n1, ?_, ?_, ?_, ?_, ?_⟩
            · rw [hd, List.map_map, ← htake, ← a2]; rfl
            · rw [hd, List.map_map]; exact a3
            · rw [hd, List.map_map]; exact a4
            · rw [hd, List.map_map]; exact a5
            · intro d hd'
              simp only [hd, List.mem_map] at hd'
              obtain ⟨y, _, rfl⟩ := hd'
              exact ⟨rfl, rfl⟩
  refine ⟨⟨fun ⟨ps, hps⟩ => (hfin ps hps).1, ?_⟩, fun ps hps => (hfin ps hps).2⟩
  intro h
  obtain ⟨ds, hds⟩ := z2 h
  obtain ⟨a1, a2, a3, a4, a5⟩ := z1 ds hds
  have hlen : ds.length = n.length := by rw [← a5]; simp
  obtain ⟨p, hp⟩ := (C07_patch_construction ds).2 ⟨by
    rw [a2, htake]; exact take_nodup _, by omega⟩
  exact ⟨[p], by simp only [Domain.new3, hds, hp]⟩

/-- Non-vacuity: a valid two-dimensional domain, and an invalid one. -/
example : (∃ ps, Domain.new3 ([0, 0] : List ℚ) [1, 2] [10, 20] = .ok ps) ∧
    ¬ ∃ ps, Domain.new3 ([0, 3] : List ℚ) [1, 2] [10, 20] = .ok ps := by
  constructor
  · rw [(C08_domain_from_bounds ([0, 0] : List ℚ) [1, 2] [10, 20] rfl rfl (by simp)).1]
    intro i hi
    have : i = 0 ∨ i = 1 := by simp at hi; omega
    rcases this with rfl | rfl <;> norm_num
  · rw [(C08_domain_from_bounds ([0, 3] : List ℚ) [1, 2] [10, 20] rfl rfl (by simp)).1]
    intro h
    have := h 1 (by simp)
    norm_num at this

/-- **C08**, the case the property excludes: with four bounds the fourth dimension is silently
dropped, no error is raised. -/
theorem C08_fourth_bound_dropped :
    ∃ p, Domain.new3 ([0, 0, 0, 0] : List ℚ) [1, 1, 1, 1] [2, 2, 2, 2] = .ok [p] ∧ p.dims.length = 3 := by
  have e : Domain.new3 ([0, 0, 0, 0] : List ℚ) [1, 1, 1, 1] [2, 2, 2, 2] =
      Domain.new3 ([0, 0, 0] : List ℚ) [1, 1, 1] [2, 2, 2] := by
    simp [Domain.new3, Domain.zipDims, Dim.new, Dim.checkValidity, Dim.valid]
  rw [e]
  obtain ⟨h1, h2⟩ := C08_domain_from_bounds ([0, 0, 0] : List ℚ) [1, 1, 1] [2, 2, 2] rfl rfl (by simp)
  obtain ⟨ps, hps⟩ := h1.2 (by
    intro i hi
    have : i = 0 ∨ i = 1 ∨ i = 2 := by simp at hi; omega
    rcases this with rfl | rfl | rfl <;> norm_num)
  obtain ⟨p, rfl, _, _, _, _, hn, _⟩ := h2 ps hps
  refine ⟨p, hps, ?_⟩
  have := congrArg List.length hn
  simpa using this

end PyClaw
