import Verif.Lemmas.WenoTables
import Mathlib.Algebra.BigOperators.Group.Finset.Basic

/-!
The stencils of the WENO kernels.
-/
namespace PyClaw

/-! ### The seven tables -/

theorem wenoComp_cases {order : Int} {T : WenoTable} (h : wenoComp order = some T) :
    order = 2 * (T.k : Int) - 1 ∧ 3 ≤ T.k ∧ T.k ≤ 9 ∧ T.FrOk ∧ T.OmegaOk ∧ T.SigmaOk := by
  unfold wenoComp at h
  by_cases h5 : order = 5
  · rw [if_pos h5] at h; cases h
    exact ⟨h5, by decide, by decide, weno5_fr, weno5_omega, weno5_sigma⟩
  rw [if_neg h5] at h
  by_cases h7 : order = 7
  · rw [if_pos h7] at h; cases h
    exact ⟨h7, by decide, by decide, weno7_fr, weno7_omega, weno7_sigma⟩
  rw [if_neg h7] at h
  by_cases h9 : order = 9
  · rw [if_pos h9] at h; cases h
    exact ⟨h9, by decide, by decide, weno9_fr, weno9_omega, weno9_sigma⟩
  rw [if_neg h9] at h
  by_cases h11 : order = 11
  · rw [if_pos h11] at h; cases h
    exact ⟨h11, by decide, by decide, weno11_fr, weno11_omega, weno11_sigma⟩
  rw [if_neg h11] at h
  by_cases h13 : order = 13
  · rw [if_pos h13] at h; cases h
    exact ⟨h13, by decide, by decide, weno13_fr, weno13_omega, weno13_sigma⟩
  rw [if_neg h13] at h
  by_cases h15 : order = 15
  · rw [if_pos h15] at h; cases h
    exact ⟨h15, by decide, by decide, weno15_fr, weno15_omega, weno15_sigma⟩
  rw [if_neg h15] at h
  by_cases h17 : order = 17
  · rw [if_pos h17] at h; cases h
    exact ⟨h17, by decide, by decide, weno17_fr, weno17_omega, weno17_sigma⟩
  rw [if_neg h17] at h
  exact absurd h (by simp)

variable {K : Type*} [Field K]

theorem stencil_congr {T : WenoTable} (hF : T.FrOk) (hO : T.OmegaOk) (hS : T.SigmaOk) (eps : K) {q q' : Int → K} {i : Int}
    (hq : ∀ j, i - T.k < j → j < i + T.k → q j = q' j) : T.left eps q i = T.left eps q' i ∧ T.right eps q i = T.right eps q' i := by
  have hf : ∀ r, r < T.k → T.frAt q i r = T.frAt q' i r ∧ T.frAt q i (T.k + r) = T.frAt q' i (T.k + r) := by
    intro r hr
    obtain ⟨⟨h1, _⟩, h2, _⟩ := hF r hr
    unfold WenoTable.frAt
    constructor
    · congr 1
      refine List.map_congr_left fun e he => ?_
      have := h1 e he
      unfold stencilOk at this
      rw [hq _ (by omega) (by omega)]
    · congr 1
      refine List.map_congr_left fun e he => ?_
      have := h2 e he
      unfold stencilOk at this
      rw [hq _ (by omega) (by omega)]
  have hs : ∀ r, r < T.k → T.sigmaAt q i r = T.sigmaAt q' i r := by
    intro r hr
    obtain ⟨h1, _⟩ := hS r hr
    unfold WenoTable.sigmaAt
    congr 1
    refine List.map_congr_left fun e he => ?_
    obtain ⟨a, b⟩ := h1 e he
    unfold stencilOk at a b
    rw [hq _ (by omega) (by omega), hq (i + e.2.1) (by omega) (by omega)]
  have ho : ∀ r, r < T.k → T.omegaAt eps q i r = T.omegaAt eps q' i r ∧ T.omegaAt eps q i (T.k + r) = T.omegaAt eps q' i (T.k + r) := by
    intro r hr
    unfold WenoTable.omegaAt
    simp only
    rw [((hO.1 r hr).1).2, ((hO.1 r hr).2).2, hs r hr]
    exact ⟨rfl, rfl⟩
  unfold WenoTable.left WenoTable.right
  constructor
  · rw [Finset.sum_congr rfl fun r hr => (ho r (Finset.mem_range.mp hr)).1, Finset.sum_congr rfl fun r hr => by
      rw [(hf r (Finset.mem_range.mp hr)).1, (ho r (Finset.mem_range.mp hr)).1]]
  · rw [Finset.sum_congr rfl fun r hr => (ho r (Finset.mem_range.mp hr)).2, Finset.sum_congr rfl fun r hr => by
      rw [(hf r (Finset.mem_range.mp hr)).2, (ho r (Finset.mem_range.mp hr)).2]]

theorem table_shift (T : WenoTable) (eps : K) (q : Int → K) (i n : Int) :
    T.left eps q (i + n) = T.left eps (fun j => q (j + n)) i ∧ T.right eps q (i + n) = T.right eps (fun j => q (j + n)) i := by
  have e : ∀ a : Int, i + n + a = i + a + n := fun a => by ring
  have hf : T.frAt q (i + n) = T.frAt (fun j => q (j + n)) i := by
    funext r; simp only [WenoTable.frAt, e]
  have hs : T.sigmaAt q (i + n) = T.sigmaAt (fun j => q (j + n)) i := by
    funext r; simp only [WenoTable.sigmaAt, e]
  have ho : T.omegaAt eps q (i + n) = T.omegaAt eps (fun j => q (j + n)) i := by
    funext r; simp only [WenoTable.omegaAt, hs]
  unfold WenoTable.left WenoTable.right
  rw [hf, ho]
  exact ⟨rfl, rfl⟩

theorem table_congr {order : Int} {T : WenoTable} (h : wenoComp order = some T) (eps : K) {q q' : Int → K} {i : Int}
    (hq : ∀ j, 2 * (i - j) < order → 2 * (j - i) < order → q j = q' j) :
    T.left eps q i = T.left eps q' i ∧ T.right eps q i = T.right eps q' i := by
  obtain ⟨ho, _, _, hF, hO, hS⟩ := wenoComp_cases h
  exact stencil_congr hF hO hS eps fun j h1 h2 => hq j (by omega) (by omega)

theorem table_periodic {order : Int} {T : WenoTable} (h : wenoComp order = some T) (eps : K) {q : Int → K} {i n : Int}
    (hq : ∀ j, 2 * (i - j) < order → 2 * (j - i) < order → q (j + n) = q j) :
    T.left eps q (i + n) = T.left eps q i ∧ T.right eps q (i + n) = T.right eps q i := by
  rw [(table_shift T eps q i n).1, (table_shift T eps q i n).2]
  exact table_congr h eps hq

end PyClaw
