import Mathlib.Algebra.Order.Field.Basic
import Mathlib.Tactic.Linarith
import Mathlib.Tactic.Positivity
import Mathlib.Tactic.NormNum
import Mathlib.Tactic.FieldSimp
import Mathlib.Tactic.Ring

/-!
Step-size sequences of the third-order multistep methods.
-/
namespace PyClaw

variable {K : Type*} [Field K] [LinearOrder K] [IsStrictOrderedRing K]

/-- The step chosen from a span `H ≤ 2.7 M` is at most `0.575 M`. -/
theorem chosen_step_le {H M h : K} (hH : 0 < H) (hM : 0 < M) (hHM : H ≤ 27 / 10 * M)
    (hh : h ≤ H * M / (H + (3 - 1) * M)) : h ≤ 575 / 1000 * M := by
  have hd : 0 < H + (3 - 1) * M := by linarith
  refine hh.trans ?_
  rw [div_le_iff₀ hd]
  nlinarith

/-- With four steps: the span stays below `2.7` times the smallest forward Euler step. -/
theorem steps4 (mu h M : Nat → K) (N : Nat) (hmu : ∀ i ≤ N, 0 < mu i)
    (hr : ∀ i < N, 9 / 10 * mu i ≤ mu (i + 1) ∧ 9 / 10 * mu (i + 1) ≤ mu i)
    (hst : ∀ i < N, i < 3 → h i ≤ 6 / 10 * mu (i + 1)) (hpos : ∀ i < N, 0 < h i)
    (hM : ∀ i, i + 3 ≤ N → M (i + 3) = mu (i + 3) ∨ M (i + 3) = mu (i + 2) ∨ M (i + 3) = mu (i + 1) ∨ M (i + 3) = mu i)
    (hM' : ∀ i, i + 3 ≤ N → M (i + 3) ≤ mu (i + 3))
    (hl : ∀ i, i + 3 < N → h (i + 3) ≤
      (h i + h (i + 1) + h (i + 2)) * M (i + 3) / ((h i + h (i + 1) + h (i + 2)) + (3 - 1) * M (i + 3))) :
    (∀ i < N, h i ≤ 64 / 100 * mu (i + 1)) ∧
    ∀ i, i + 3 ≤ N → h i + h (i + 1) + h (i + 2) ≤ 27 / 10 * M (i + 3) := by
  have span : ∀ i, i + 3 ≤ N → (∀ j < i + 3, h j ≤ 64 / 100 * mu (j + 1)) →
      h i + h (i + 1) + h (i + 2) ≤ 27 / 10 * M (i + 3) := by
    intro i hi hj
    have a0 := hj i (by omega)
    have a1 := hj (i + 1) (by omega)
    have a2 := hj (i + 2) (by omega)
    have r0 := hr i (by omega)
    have r1 := hr (i + 1) (by omega)
    have r2 := hr (i + 2) (by omega)
    have m0 := hmu i (by omega)
    have m1 := hmu (i + 1) (by omega)
    have m2 := hmu (i + 2) (by omega)
    have m3 := hmu (i + 3) hi
    simp only [show i + 1 + 1 = i + 2 from rfl, show i + 2 + 1 = i + 3 from rfl] at a1 a2 r1 r2
    obtain ⟨r0, r0'⟩ := r0
    obtain ⟨r1, r1'⟩ := r1
    obtain ⟨r2, r2'⟩ := r2
    rcases hM i hi with e | e | e | e <;> rw [e] <;> linarith
  have key : ∀ i < N, h i ≤ 64 / 100 * mu (i + 1) := by
    intro i
    induction i using Nat.strong_induction_on with
    | _ i ih =>
      intro hi
      by_cases h3 : i < 3
      · have := hst i hi h3
        have := hmu (i + 1) hi
        linarith
      · obtain ⟨j, rfl⟩ : ∃ j, i = j + 3 := ⟨i - 3, by omega⟩
        have hs := span j (by omega) (fun l hl => ih l hl (by omega))
        have p0 := hpos j (by omega)
        have p1 := hpos (j + 1) (by omega)
        have p2 := hpos (j + 2) (by omega)
        have hMp : 0 < M (j + 3) := by
          by_contra hc
          push Not at hc
          linarith
        have := chosen_step_le (by linarith) hMp hs (hl j hi)
        have h1 := hM' j (by omega)
        have h2 := hr (j + 3) hi
        have := hmu (j + 3 + 1) hi
        linarith [h2.1]
  exact ⟨key, fun i hi => span i hi fun j hj => key j (by omega)⟩

/-- With five steps. -/
theorem steps5 (mu h M : Nat → K) (N : Nat) (hmu : ∀ i ≤ N, 0 < mu i)
    (hr : ∀ i < N, 962 / 1000 * mu i ≤ mu (i + 1) ∧ 962 / 1000 * mu (i + 1) ≤ mu i)
    (hst : ∀ i < N, i < 4 → h i ≤ 57 / 100 * mu (i + 1)) (hpos : ∀ i < N, 0 < h i)
    (hM : ∀ i, i + 4 ≤ N → M (i + 4) = mu (i + 4) ∨ M (i + 4) = mu (i + 3) ∨ M (i + 4) = mu (i + 2) ∨
      M (i + 4) = mu (i + 1) ∨ M (i + 4) = mu i)
    (hM' : ∀ i, i + 4 ≤ N → M (i + 4) ≤ mu (i + 4))
    (hl : ∀ i, i + 4 < N → h (i + 4) ≤
      (h i + h (i + 1) + h (i + 2) + h (i + 3)) * M (i + 4) /
        ((h i + h (i + 1) + h (i + 2) + h (i + 3)) + (3 - 1) * M (i + 4))) :
    (∀ i < N, h i ≤ 598 / 1000 * mu (i + 1)) ∧
    ∀ i, i + 4 ≤ N → h i + h (i + 1) + h (i + 2) + h (i + 3) ≤ 27 / 10 * M (i + 4) := by
  have span : ∀ i, i + 4 ≤ N → (∀ j < i + 4, h j ≤ 598 / 1000 * mu (j + 1)) →
      h i + h (i + 1) + h (i + 2) + h (i + 3) ≤ 27 / 10 * M (i + 4) := by
    intro i hi hj
    have a0 := hj i (by omega)
    have a1 := hj (i + 1) (by omega)
    have a2 := hj (i + 2) (by omega)
    have a3 := hj (i + 3) (by omega)
    have r0 := hr i (by omega)
    have r1 := hr (i + 1) (by omega)
    have r2 := hr (i + 2) (by omega)
    have r3 := hr (i + 3) (by omega)
    have m0 := hmu i (by omega)
    have m1 := hmu (i + 1) (by omega)
    have m2 := hmu (i + 2) (by omega)
    have m3 := hmu (i + 3) (by omega)
    have m4 := hmu (i + 4) hi
    simp only [show i + 1 + 1 = i + 2 from rfl, show i + 2 + 1 = i + 3 from rfl,
      show i + 3 + 1 = i + 4 from rfl] at a1 a2 a3 r1 r2 r3
    obtain ⟨r0, r0'⟩ := r0
    obtain ⟨r1, r1'⟩ := r1
    obtain ⟨r2, r2'⟩ := r2
    obtain ⟨r3, r3'⟩ := r3
    rcases hM i hi with e | e | e | e | e <;> rw [e] <;> linarith
  have key : ∀ i < N, h i ≤ 598 / 1000 * mu (i + 1) := by
    intro i
    induction i using Nat.strong_induction_on with
    | _ i ih =>
      intro hi
      by_cases h3 : i < 4
      · have := hst i hi h3
        have := hmu (i + 1) hi
        linarith
      · obtain ⟨j, rfl⟩ : ∃ j, i = j + 4 := ⟨i - 4, by omega⟩
        have hs := span j (by omega) (fun l hl => ih l hl (by omega))
        have p0 := hpos j (by omega)
        have p1 := hpos (j + 1) (by omega)
        have p2 := hpos (j + 2) (by omega)
        have p3 := hpos (j + 3) (by omega)
        have hMp : 0 < M (j + 4) := by
          by_contra hc
          push Not at hc
          linarith
        have := chosen_step_le (by linarith) hMp hs (hl j hi)
        have h1 := hM' j (by omega)
        have h2 := hr (j + 4) hi
        have := hmu (j + 4 + 1) hi
        linarith [h2.1]
  exact ⟨key, fun i hi => span i hi fun j hj => key j (by omega)⟩

end PyClaw
