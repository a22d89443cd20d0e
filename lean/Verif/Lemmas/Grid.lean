import Verif.Model.Grid
import Verif.Lemmas.Dimension

/-! Helper lemmas about the `Grid` model. -/
set_option linter.unusedSectionVars false

namespace PyClaw

variable {K : Type*} [Field K] [LinearOrder K] [IsStrictOrderedRing K]

open Spec

def Kind.off : Kind → K
  | .centers => 1 / 2
  | .nodes => 0

def Kind.extra : Kind → Nat
  | .centers => 0
  | .nodes => 1

/-- The extents of a dimension. -/
def Dim.ext (d : Dim K) : K × K × Int := (d.lower, d.upper, d.numCells)

def Dim.Good (d : Dim K) : Prop := 0 < d.numCells ∧ d.CacheInv

theorem Dim.step_numCells (junk : K) (d : Dim K) (op : DimOp K) :
    (d.step junk op).1.numCells = match op with | .setNumCells n => n | _ => d.numCells := by
  cases op with
  | setLower x => rfl
  | setUpper x => rfl
  | setNumCells n => rfl
  | readNodes => exact (d.readNodes_attrs junk).2.2
  | readCenters => exact d.readCenters_attrs.2.2
  | readCentersWithGhost g => simp only [step]; rw [centersWithGhost_fst]; exact d.readCenters_attrs.2.2
  | readNodesWithGhost g =>
    simp only [step]; rw [nodesWithGhost_fst]; exact (d.readNodes_attrs junk).2.2

theorem Dim.read_ext (junk : K) (k : Kind) (d : Dim K) : (d.read junk k).1.ext = d.ext := by
  cases k with
  | centers =>
    obtain ⟨h1, h2, h3⟩ := d.readCenters_attrs
    simp [read, ext, h1, h2, h3]
  | nodes =>
    obtain ⟨h1, h2, h3⟩ := d.readNodes_attrs junk
    simp [read, ext, h1, h2, h3]

theorem Dim.read_good (junk : K) (k : Kind) (d : Dim K) (h : d.Good) : (d.read junk k).1.Good := by
  have he := d.read_ext junk k
  simp only [ext, Prod.mk.injEq] at he
  refine ⟨by rw [he.2.2]; exact h.1, ?_⟩
  cases k with
  | centers => exact d.readCenters_inv h.2
  | nodes => exact d.readNodes_inv junk h.2

theorem Dim.read_spec (junk : K) (k : Kind) (d : Dim K) (h : d.Good) :
    ∃ l, (d.read junk k).2 = .ok l ∧
      Progression l (d.numCells.toNat + k.extra)
        (d.lower + k.off * ((d.upper - d.lower) / (d.numCells : K)))
        ((d.upper - d.lower) / (d.numCells : K)) := by
  cases k with
  | centers => exact d.readCenters_spec h.2 h.1
  | nodes =>
    obtain ⟨l, h1, h2⟩ := d.readNodes_spec junk h.2 h.1
    exact ⟨l, h1, by simpa [Kind.off, Kind.extra] using h2⟩

theorem Dim.readCenters_nodesC (d : Dim K) : d.readCenters.1.nodesC = d.nodesC := by
  unfold readCenters
  cases d.centersC with
  | some a => rfl
  | none => cases d.computeCenters <;> rfl

theorem Dim.readNodes_centersC (junk : K) (d : Dim K) : (d.readNodes junk).1.centersC = d.centersC := by
  unfold readNodes
  cases d.nodesC with
  | some a => rfl
  | none =>
    cases d.computeNodes with
    | ok a => rfl
    | error e => simp only; split <;> rfl

theorem Dim.read_cache_ne (junk : K) (k k' : Kind) (d : Dim K) (h : k ≠ k') :
    (d.read junk k).1.cache k' = d.cache k' := by
  cases k <;> cases k' <;> first | exact absurd rfl h | skip
  · exact d.readCenters_nodesC
  · exact d.readNodes_centersC junk

theorem Grid.readAll_good (junk : K) (k : Kind) (ds : List (Dim K)) (h : ∀ d ∈ ds, d.Good) :
    ∃ ds' arrs, readAll junk k ds = (ds', .ok arrs) ∧ (∀ d ∈ ds', d.Good) ∧
      ds'.map Dim.ext = ds.map Dim.ext ∧
      (∀ k', k ≠ k' → ds'.map (Dim.cache k') = ds.map (Dim.cache k')) ∧
      List.Forall₂ (fun d l => Progression l (d.numCells.toNat + k.extra)
        (d.lower + k.off * ((d.upper - d.lower) / (d.numCells : K)))
        ((d.upper - d.lower) / (d.numCells : K))) ds arrs := by
  induction ds with
  | nil => exact ⟨[], [], rfl, by simp, rfl, by simp, .nil⟩
  | cons d ds ih =>
    obtain ⟨ds', arrs, e1, e2, e3, e4, e5⟩ := ih (fun x hx => h x (by simp [hx]))
    have hd := h d (by simp)
    obtain ⟨l, hl, hp⟩ := d.read_spec junk k hd
    have hg := d.read_good junk k hd
    have hx := d.read_ext junk k
    have hc := d.read_cache_ne junk k
    rcases hr : d.read junk k with ⟨d', r⟩
    rw [hr] at hl hg hx hc
    simp only at hl hg hx hc
    subst hl
    refine ⟨d' :: ds', l :: arrs, ?_, ?_, ?_, ?_, .cons hp e5⟩
    · simp [readAll, hr, e1]
    · intro x hx'
      rcases List.mem_cons.1 hx' with rfl | hx'
      · exact hg
      · exact e2 x hx'
    · simp [hx, e3]
    · intro k' hk
      simp [hc k' hk, e4 k' hk]

theorem Dim.extent_toNat (k : Kind) (d : Dim K) (h : 0 < d.numCells) :
    (d.extent k).toNat = d.numCells.toNat + k.extra := by
  cases k with
  | centers => rfl
  | nodes => simp only [extent, Kind.extra]; omega

theorem Grid.tensor_spec (k : Kind) (ds : List (Dim K)) (arrs : List (List K))
    (hg : ∀ d ∈ ds, d.Good)
    (h : List.Forall₂ (fun (d : Dim K) l => Progression l (d.numCells.toNat + k.extra)
        (d.lower + k.off * ((d.upper - d.lower) / (d.numCells : K)))
        ((d.upper - d.lower) / (d.numCells : K))) ds arrs) :
    tensor (ds.map fun d => (d.extent k).toNat) arrs =
      gridCoords (k.off : K) k.extra (ds.map Dim.ext) := by
  unfold tensor gridCoords
  rw [List.length_map, h.length_eq]
  apply List.map_congr_left
  intro i hi
  have hi' : i < arrs.length := by simpa using hi
  funext idx
  have hs : (ds.map fun d => (d.extent k).toNat) = ds.map fun d => d.numCells.toNat + k.extra := by
    apply List.map_congr_left
    intro d hd; exact d.extent_toNat k (hg d hd).1
  rw [hs]
  have hiff : List.Forall₂ (· < ·) idx (ds.map fun d => d.numCells.toNat + k.extra) ↔
      List.Forall₂ (fun j (e : K × K × Int) => j < e.2.2.toNat + k.extra) idx (ds.map Dim.ext) := by
    rw [List.forall₂_map_right_iff, List.forall₂_map_right_iff]; rfl
  by_cases hb : List.Forall₂ (· < ·) idx (ds.map fun d => d.numCells.toNat + k.extra)
  · rw [if_pos hb, if_pos (hiff.1 hb)]
    have hl := h.length_eq
    have hli := hb.length_eq
    have hids : i < ds.length := by omega
    have hii : i < idx.length := by simp at hli; omega
    have hp := h.get (i := i) hids hi'
    have hlt := hb.get (i := i) hii (by simpa using hids)
    simp only [List.get_eq_getElem, List.getElem_map] at hp hlt
    rw [List.getElem?_eq_getElem hi', List.getElem?_eq_getElem hii,
      List.getElem?_eq_getElem (by simpa using hids)]
    simp only [List.getElem_map, Dim.ext]
    have hlen : idx[i] < (arrs[i]).length := by rw [hp.1]; exact hlt
    rw [List.getElem?_eq_getElem hlen, hp.2 _ hlen]
    congr 1; ring
  · rw [if_neg hb, if_neg (fun h' => hb (hiff.2 h'))]

/-- Some dimension of the grid has no cached array of kind `k`. -/
def Grid.Detect (k : Kind) (g : Grid K) : Prop := (g.dims.any fun d => (d.cache k).isNone) = true

/-- The arrays a fresh computation would give. -/
def Grid.fresh (k : Kind) (g : Grid K) : List (NdArr K) :=
  gridCoords (k.off : K) k.extra (g.dims.map Dim.ext)

structure Grid.Inv (k : Kind) (dirty cUsed pUsed : Bool) (g : Grid K) : Prop where
  good : ∀ d ∈ g.dims, d.Good
  cu : cUsed = false → g.c k = none
  pu : pUsed = false → g.p k = none
  pc : pUsed = true → cUsed = true
  cok : g.c k = none ∨ g.c k = some (g.fresh k) ∨ (dirty = true ∧ g.Detect k)
  pok : g.p k = none ∨ g.p k = some (g.mapc2p (g.fresh k)) ∨ (dirty = true ∧ g.Detect k)

theorem Grid.computeC_spec (junk : K) (k : Kind) (g : Grid K) (hg : ∀ d ∈ g.dims, d.Good)
    (hc : g.c k = none ∨ g.c k = some (g.fresh k) ∨ g.Detect k) :
    ∃ g', g.computeC junk k = (g', .ok ()) ∧ (∀ d ∈ g'.dims, d.Good) ∧
      g'.dims.map Dim.ext = g.dims.map Dim.ext ∧ g'.c k = some (g.fresh k) ∧ g'.p = g.p ∧
      g'.mapc2p = g.mapc2p ∧
      (∀ k', k ≠ k' → g'.c k' = g.c k' ∧ g'.dims.map (Dim.cache k') = g.dims.map (Dim.cache k')) := by
  unfold computeC
  by_cases hcond : ((g.c k).isNone || g.dims.any fun d => (d.cache k).isNone) = true
  · rw [if_pos hcond]
    have hneg : ¬ (g.dims.any fun d => decide (d.extent k < 0)) = true := by
      simp only [List.any_eq_true, decide_eq_true_eq, not_exists, not_and, not_lt]
      intro d hd
      have := (hg d hd).1
      cases k <;> simp only [Dim.extent] <;> omega
    rw [if_neg hneg]
    obtain ⟨ds', arrs, e1, e2, e3, e4, e5⟩ := readAll_good junk k g.dims hg
    rw [e1]
    refine ⟨_, rfl, e2, e3, ?_, rfl, rfl, ?_⟩
    · simp only [Function.update_self]
      rw [tensor_spec k g.dims arrs hg e5]; rfl
    · intro k' hk
      exact ⟨by simp [Function.update_of_ne (Ne.symm hk)], e4 k' hk⟩
  · rw [if_neg hcond]
    refine ⟨g, rfl, hg, rfl, ?_, rfl, rfl, fun k' _ => ⟨rfl, rfl⟩⟩
    simp only [Bool.or_eq_true, not_or] at hcond
    rcases hc with hc | hc | hc
    · simp [hc] at hcond
    · exact hc
    · exact absurd hc hcond.2

theorem Grid.fresh_congr {k : Kind} {g g' : Grid K} (h : g'.dims.map Dim.ext = g.dims.map Dim.ext) :
    g'.fresh k = g.fresh k := by simp [fresh, h]

theorem Grid.detect_congr {k : Kind} {g g' : Grid K}
    (h : g'.dims.map (Dim.cache k) = g.dims.map (Dim.cache k)) : g'.Detect k ↔ g.Detect k := by
  have e : ∀ g : Grid K, g.Detect k ↔ ((g.dims.map (Dim.cache k)).any Option.isNone) = true := by
    intro g; simp [Detect]
  rw [e, e, h]

theorem Grid.computeP_spec (junk : K) (k : Kind) (g : Grid K) (hg : ∀ d ∈ g.dims, d.Good)
    (hc : g.c k = none ∨ g.c k = some (g.fresh k) ∨ g.Detect k)
    (hp : g.p k = none ∨ g.p k = some (g.mapc2p (g.fresh k)) ∨ g.Detect k) :
    ∃ g', g.computeP junk k = (g', .ok ()) ∧ (∀ d ∈ g'.dims, d.Good) ∧
      g'.dims.map Dim.ext = g.dims.map Dim.ext ∧
      (g'.c k = none ∨ g'.c k = some (g.fresh k)) ∧
      g'.p k = some (g.mapc2p (g.fresh k)) ∧
      g'.mapc2p = g.mapc2p ∧
      (∀ k', k ≠ k' → g'.c k' = g.c k' ∧ g'.p k' = g.p k' ∧
        g'.dims.map (Dim.cache k') = g.dims.map (Dim.cache k')) := by
  unfold computeP
  by_cases hcond : ((g.p k).isNone || g.dims.any fun d => (d.cache k).isNone) = true
  · rw [if_pos hcond]
    obtain ⟨g', e1, e2, e3, e4, e5, e6, e7⟩ := g.computeC_spec junk k hg hc
    rw [e1]
    refine ⟨_, rfl, e2, e3, .inr e4, ?_, e6, ?_⟩
    · simp [e4, e6]
    · intro k' hk
      exact ⟨(e7 k' hk).1, by simp [Function.update_of_ne (Ne.symm hk), e5], (e7 k' hk).2⟩
  · rw [if_neg hcond]
    simp only [Bool.or_eq_true, not_or] at hcond
    refine ⟨g, rfl, hg, rfl, ?_, ?_, rfl, fun k' _ => ⟨rfl, rfl, rfl⟩⟩
    · rcases hc with hc | hc | hc
      · exact .inl hc
      · exact .inr hc
      · exact absurd hc hcond.2
    · rcases hp with hp | hp | hp
      · simp [hp] at hcond
      · exact hp
      · exact absurd hp hcond.2

end PyClaw
