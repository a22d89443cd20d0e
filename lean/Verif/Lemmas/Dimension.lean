import Verif.Model.Dimension
import Verif.Spec.Geometry
import Mathlib.Tactic.Ring
import Mathlib.Tactic.FieldSimp
import Mathlib.Tactic.Linarith
import Mathlib.Tactic.NormNum
import Mathlib.Tactic.Positivity

/-! Helper lemmas about the `Dimension` model. -/
set_option linter.unusedSectionVars false

namespace PyClaw

variable {K : Type*} [Field K] [LinearOrder K] [IsStrictOrderedRing K]

open Spec

theorem Spec.Progression.unique {l l' : List K} {n : Nat} {s h : K}
    (a : Progression l n s h) (b : Progression l' n s h) : l = l' := by
  apply List.ext_getElem
  · rw [a.1, b.1]
  · intro i h1 h2
    rw [a.2 i h1, b.2 i h2]

theorem Spec.progression_map (n : Nat) (s h : K) :
    Progression ((List.range n).map fun (i : Nat) => s + (i : K) * h) n s h := by
  constructor
  · simp
  · intro k hk; simp

theorem Spec.Progression.append {l l' : List K} {n m : Nat} {s s' h : K}
    (a : Progression l n s h) (b : Progression l' m s' h) (hs : s' = s + (n : K) * h) :
    Progression (l ++ l') (n + m) s h := by
  constructor
  · simp [a.1, b.1]
  · intro k hk
    rw [List.getElem_append]
    split
    · rename_i hk'; rw [a.2 k hk']
    · rename_i hk'
      rw [b.2, hs, a.1]
      have : n ≤ k := by rw [a.1] at hk'; omega
      rw [Nat.cast_sub this]; ring

theorem Dim.computeNodes_pos (d : Dim K) (hn : 0 < d.numCells) :
    ∃ l, d.computeNodes = .ok l ∧
      Progression l (d.numCells.toNat + 1) d.lower ((d.upper - d.lower) / (d.numCells : K)) := by
  refine ⟨_, ?_, Spec.progression_map _ _ _⟩
  unfold computeNodes delta
  have h1 : ¬ d.numCells + 1 < 0 := by omega
  have h2 : ¬ d.numCells + 1 = 0 := by omega
  have h3 : ¬ d.numCells = 0 := by omega
  have h4 : (d.numCells + 1).toNat = d.numCells.toNat + 1 := by omega
  simp [h1, h2, h3, h4]

theorem Dim.computeCenters_pos (d : Dim K) (hn : 0 < d.numCells) :
    ∃ l, d.computeCenters = .ok l ∧
      Progression l d.numCells.toNat (d.lower + (1 / 2) * ((d.upper - d.lower) / (d.numCells : K)))
        ((d.upper - d.lower) / (d.numCells : K)) := by
  refine ⟨_, ?_, Spec.progression_map _ _ _⟩
  unfold computeCenters delta
  have h1 : ¬ d.numCells < 0 := by omega
  have h3 : ¬ d.numCells = 0 := by omega
  simp only [h1, h3, if_false]
  congr 1
  apply List.map_congr_left
  intro i _; ring

theorem Dim.delta_pos (d : Dim K) (hn : 0 < d.numCells) :
    d.delta = .ok ((d.upper - d.lower) / (d.numCells : K)) := by
  have h3 : ¬ d.numCells = 0 := by omega
  simp [delta, h3]

theorem Dim.cast_numCells_pos (d : Dim K) (hn : 0 < d.numCells) : (0 : K) < (d.numCells : K) := by
  exact_mod_cast hn

theorem Dim.cast_toNat (d : Dim K) (hn : 0 < d.numCells) :
    ((d.numCells.toNat : Nat) : K) = (d.numCells : K) := by
  have : ((d.numCells.toNat : Nat) : Int) = d.numCells := by omega
  calc ((d.numCells.toNat : Nat) : K) = (((d.numCells.toNat : Nat) : Int) : K) :=
        (Int.cast_natCast _).symm
    _ = _ := by rw [this]

/-- What the caches may contain: nothing, or what would be computed now (with the exception of the
junk array left behind by a failed read at `num_cells = 0`). -/
def Dim.CacheInv (d : Dim K) : Prop :=
  (∀ a, d.nodesC = some a → d.numCells ≠ 0 → d.computeNodes = .ok a) ∧
  (∀ a, d.centersC = some a → d.computeCenters = .ok a)

theorem Dim.computeNodes_error (d : Dim K) (e : PyErr) (h : d.computeNodes = .error e) :
    d.numCells + 1 < 0 ∨ d.numCells = 0 := by
  unfold computeNodes delta at h
  split_ifs at h with h1 h2 h3 <;> simp_all

theorem Dim.readNodes_inv (junk : K) (d : Dim K) (h : d.CacheInv) : (d.readNodes junk).1.CacheInv := by
  unfold readNodes
  cases hc : d.nodesC with
  | some a => exact h
  | none =>
    cases hn : d.computeNodes with
    | ok a =>
      refine ⟨?_, ?_⟩
      · intro b hb _
        simp only [Option.some.injEq] at hb
        subst hb
        simpa [computeNodes, delta] using hn
      · intro b hb
        have := h.2 b hb
        simpa [computeCenters, delta] using this
    | error e =>
      simp only
      split
      · exact h
      · rename_i h1
        refine ⟨?_, ?_⟩
        · intro b hb h0
          rcases d.computeNodes_error e hn with h2 | h2
          · exact absurd h2 h1
          · exact absurd h2 h0
        · intro b hb
          have := h.2 b hb
          simpa [computeCenters, delta] using this

theorem Dim.readCenters_inv (d : Dim K) (h : d.CacheInv) : d.readCenters.1.CacheInv := by
  unfold readCenters
  cases hc : d.centersC with
  | some a => exact h
  | none =>
    cases hn : d.computeCenters with
    | ok a =>
      refine ⟨?_, ?_⟩
      · intro b hb h0
        have := h.1 b hb h0
        simpa [computeNodes, delta] using this
      · intro b hb
        simp only [Option.some.injEq] at hb
        subst hb
        simpa [computeCenters, delta] using hn
    | error e => exact h

theorem Dim.clear_inv (d : Dim K) : d.clear.CacheInv := by
  constructor <;> intro a h <;> simp [clear] at h

theorem Dim.centersWithGhost_fst (d : Dim K) (g : Nat) :
    (d.centersWithGhost g).1 = d.readCenters.1 := by
  unfold centersWithGhost
  rcases hr : d.readCenters with ⟨d', r⟩
  cases r with
  | error e => rfl
  | ok c => simp only; cases d'.delta <;> rfl

theorem Dim.nodesWithGhost_fst (junk : K) (d : Dim K) (g : Nat) :
    (d.nodesWithGhost junk g).1 = (d.readNodes junk).1 := by
  unfold nodesWithGhost
  rcases hr : d.readNodes junk with ⟨d', r⟩
  cases r with
  | error e => rfl
  | ok c => simp only; cases d'.delta <;> rfl

theorem Dim.step_inv (junk : K) (d : Dim K) (op : DimOp K) (h : d.CacheInv) :
    (d.step junk op).1.CacheInv := by
  cases op with
  | setLower x => exact Dim.clear_inv _
  | setUpper x => exact Dim.clear_inv _
  | setNumCells n => exact Dim.clear_inv _
  | readNodes => exact d.readNodes_inv junk h
  | readCenters => exact d.readCenters_inv h
  | readCentersWithGhost g => simp only [step]; rw [centersWithGhost_fst]; exact d.readCenters_inv h
  | readNodesWithGhost g => simp only [step]; rw [nodesWithGhost_fst]; exact d.readNodes_inv junk h

theorem Dim.run_inv (junk : K) (d : Dim K) (ops : List (DimOp K)) (h : d.CacheInv) :
    (d.run junk ops).CacheInv := by
  induction ops generalizing d with
  | nil => exact h
  | cons op ops ih => exact ih _ (d.step_inv junk op h)

theorem Dim.new_ok_iff (lower upper : K) (n : Int) (name : String) (d : Dim K) :
    Dim.new lower upper n name = .ok d ↔
      (0 < n ∧ lower < upper) ∧ d = { lower := lower, upper := upper, numCells := n, name := name } := by
  unfold Dim.new checkValidity valid
  by_cases h1 : 0 < n <;> by_cases h2 : lower < upper <;> simp [h1, h2, eq_comm]

theorem Dim.new_inv {lower upper : K} {n : Int} {name : String} {d : Dim K}
    (h : Dim.new lower upper n name = .ok d) : d.CacheInv := by
  obtain ⟨_, rfl⟩ := (Dim.new_ok_iff ..).1 h
  constructor <;> intro a h <;> simp at h

/-- Reads with a coherent cache, on a dimension with at least one cell. -/
theorem Dim.readNodes_spec (junk : K) (d : Dim K) (h : d.CacheInv) (hn : 0 < d.numCells) :
    ∃ l, (d.readNodes junk).2 = .ok l ∧
      Progression l (d.numCells.toNat + 1) d.lower ((d.upper - d.lower) / (d.numCells : K)) := by
  obtain ⟨l, hl, hp⟩ := d.computeNodes_pos hn
  refine ⟨l, ?_, hp⟩
  unfold readNodes
  cases hc : d.nodesC with
  | some a =>
    have := h.1 a hc (by omega)
    simp [hl] at this; simp [this]
  | none => simp [hl]

theorem Dim.readCenters_spec (d : Dim K) (h : d.CacheInv) (hn : 0 < d.numCells) :
    ∃ l, d.readCenters.2 = .ok l ∧
      Progression l d.numCells.toNat (d.lower + (1 / 2) * ((d.upper - d.lower) / (d.numCells : K)))
        ((d.upper - d.lower) / (d.numCells : K)) := by
  obtain ⟨l, hl, hp⟩ := d.computeCenters_pos hn
  refine ⟨l, ?_, hp⟩
  unfold readCenters
  cases hc : d.centersC with
  | some a =>
    have := h.2 a hc
    simp [hl] at this; simp [this]
  | none => simp [hl]

/-- Reads never change the extent attributes. -/
theorem Dim.readNodes_attrs (junk : K) (d : Dim K) :
    (d.readNodes junk).1.lower = d.lower ∧ (d.readNodes junk).1.upper = d.upper ∧
      (d.readNodes junk).1.numCells = d.numCells := by
  unfold readNodes
  cases d.nodesC with
  | some a => exact ⟨rfl, rfl, rfl⟩
  | none =>
    cases d.computeNodes with
    | ok a => exact ⟨rfl, rfl, rfl⟩
    | error e => simp only; split <;> exact ⟨rfl, rfl, rfl⟩

theorem Dim.readCenters_attrs (d : Dim K) :
    d.readCenters.1.lower = d.lower ∧ d.readCenters.1.upper = d.upper ∧
      d.readCenters.1.numCells = d.numCells := by
  unfold readCenters
  cases d.centersC with
  | some a => exact ⟨rfl, rfl, rfl⟩
  | none => cases d.computeCenters <;> exact ⟨rfl, rfl, rfl⟩

theorem Dim.linspace_progression (s h : K) (g : Nat) :
    Progression (Dim.linspace s (s + ((g : K) - 1) * h) g) g s h := by
  unfold Dim.linspace
  split
  · rename_i h1; subst h1
    constructor
    · simp
    · intro k hk
      have : k = 0 := by simpa using hk
      subst this; simp
  · rename_i h1
    constructor
    · simp
    · intro k hk
      simp only [List.getElem_map, List.getElem_range]
      have hk' : k < g := by simpa using hk
      by_cases hg : g = 0
      · omega
      · have : ((g : K) - 1) ≠ 0 := by
          intro h0
          have : (g : K) = 1 := by linarith
          exact h1 (by exact_mod_cast this)
        have h2 : (s + ((g : K) - 1) * h - s) / ((g : K) - 1) = h := by
          rw [add_sub_cancel_left, mul_div_cancel_left₀ _ this]
        rw [h2]

theorem Dim.centersWithGhost_spec (d : Dim K) (h : d.CacheInv) (hn : 0 < d.numCells) (g : Nat) :
    ∃ c l, d.readCenters.2 = .ok c ∧ (d.centersWithGhost g).2 = .ok l ∧
      (l.drop g).take c.length = c ∧
      Progression l (d.numCells.toNat + 2 * g)
        (d.lower + (1 / 2 - (g : K)) * ((d.upper - d.lower) / (d.numCells : K)))
        ((d.upper - d.lower) / (d.numCells : K)) := by
  obtain ⟨c, hc, hp⟩ := d.readCenters_spec h hn
  obtain ⟨a1, a2, a3⟩ := d.readCenters_attrs
  have hd : d.readCenters.1.delta = .ok ((d.upper - d.lower) / (d.numCells : K)) := by
    rw [Dim.delta_pos _ (by rw [a3]; exact hn), a1, a2, a3]
  have hcast := d.cast_toNat hn
  have hpos := d.cast_numCells_pos hn
  unfold centersWithGhost
  rcases hr : d.readCenters with ⟨d', r⟩
  rw [hr] at hc hd a1 a2
  simp only at hc a1 a2
  subst hc
  simp only [hd]
  refine ⟨c, _, rfl, rfl, ?_, ?_⟩
  · rw [List.append_assoc, List.drop_left' (by simp)]
    simp
  · have p1 := Spec.progression_map (K := K) g
      (d.lower + (1 / 2 - (g : K)) * ((d.upper - d.lower) / (d.numCells : K)))
      ((d.upper - d.lower) / (d.numCells : K))
    have p3 := Spec.progression_map (K := K) g
      (d.upper + (1 / 2) * ((d.upper - d.lower) / (d.numCells : K)))
      ((d.upper - d.lower) / (d.numCells : K))
    have p12 := p1.append hp (by ring)
    have p123 := p12.append p3 (by
      push_cast
      rw [hcast]
      field_simp
      ring)
    have e : g + d.numCells.toNat + g = d.numCells.toNat + 2 * g := by omega
    rw [e] at p123
    have q1 : (List.range g).map (fun (i : Nat) => d'.lower + ((-(g : K) + (i : K)) + 1 / 2) *
        ((d.upper - d.lower) / (d.numCells : K))) = (List.range g).map (fun (i : Nat) =>
        d.lower + (1 / 2 - (g : K)) * ((d.upper - d.lower) / (d.numCells : K)) +
        (i : K) * ((d.upper - d.lower) / (d.numCells : K))) := by
      apply List.map_congr_left; intro i _; rw [a1]; ring
    have q2 : (List.range g).map (fun (i : Nat) => d'.upper +
        ((d.upper - d.lower) / (d.numCells : K)) * ((i : K) + 1 / 2)) =
        (List.range g).map (fun (i : Nat) =>
        d.upper + (1 / 2) * ((d.upper - d.lower) / (d.numCells : K)) +
        (i : K) * ((d.upper - d.lower) / (d.numCells : K))) := by
      apply List.map_congr_left; intro i _; rw [a2]; ring
    rw [q1, q2]
    exact p123

theorem Dim.nodesWithGhost_spec (junk : K) (d : Dim K) (h : d.CacheInv) (hn : 0 < d.numCells) (g : Nat) :
    ∃ c l, (d.readNodes junk).2 = .ok c ∧ (d.nodesWithGhost junk g).2 = .ok l ∧
      (l.drop g).take c.length = c ∧
      Progression l (d.numCells.toNat + 1 + 2 * g)
        (d.lower - (g : K) * ((d.upper - d.lower) / (d.numCells : K)))
        ((d.upper - d.lower) / (d.numCells : K)) := by
  obtain ⟨c, hc, hp⟩ := d.readNodes_spec junk h hn
  obtain ⟨a1, a2, a3⟩ := d.readNodes_attrs junk
  have hd : (d.readNodes junk).1.delta = .ok ((d.upper - d.lower) / (d.numCells : K)) := by
    rw [Dim.delta_pos _ (by rw [a3]; exact hn), a1, a2, a3]
  have hcast := d.cast_toNat hn
  have hpos := d.cast_numCells_pos hn
  unfold nodesWithGhost
  rcases hr : d.readNodes junk with ⟨d', r⟩
  rw [hr] at hc hd a1 a2
  simp only at hc a1 a2
  subst hc
  simp only [hd]
  set δ := (d.upper - d.lower) / (d.numCells : K) with hδ
  have p1 := Dim.linspace_progression (K := K) (d.lower - (g : K) * δ) δ g
  have p3 := Dim.linspace_progression (K := K) (d.upper + δ) δ g
  have e1 : d.lower - (g : K) * δ + ((g : K) - 1) * δ = d.lower - δ := by ring
  have e2 : d.upper + δ + ((g : K) - 1) * δ = d.upper + (g : K) * δ := by ring
  rw [e1] at p1
  rw [e2] at p3
  refine ⟨c, _, rfl, rfl, ?_, ?_⟩
  · rw [a1, a2, List.append_assoc, List.drop_append_of_le_length (by rw [p1.1])]
    have : List.drop g (linspace (d.lower - (g : K) * δ) (d.lower - δ) g) = [] := by
      apply List.drop_eq_nil_of_le; rw [p1.1]
    rw [this]; simp
  · rw [a1, a2]
    have p12 := p1.append hp (by ring)
    have p123 := p12.append p3 (by
      push_cast
      rw [hcast, hδ]
      field_simp
      ring)
    have e : g + (d.numCells.toNat + 1) + g = d.numCells.toNat + 1 + 2 * g := by omega
    rw [e] at p123
    exact p123

end PyClaw
