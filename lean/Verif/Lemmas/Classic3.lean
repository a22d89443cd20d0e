import Verif.Model.Classic3
import Verif.Props.Unsplit2

/-! Lemmas on the three-dimensional classic kernels. -/
set_option linter.unusedSectionVars false

namespace PyClaw
open Spec

variable {K A : Type*} [Field K] [LinearOrder K] [IsStrictOrderedRing K] {m w : Nat}

theorem cqxx3_eq (undef : K) (n g : Nat) (hg : 1 ≤ g) (order : Int) (ho : order ≠ 1) (fwave : Bool)
    (mthlim : Fin w → Int) (lam : Int → K) (d : Int → Rp K m w) (stale : Int → Fin m → K) (i : Int) (h1 : 1 ≤ i)
    (h2 : i ≤ n + 1) :
    cqxx3 undef n g order fwave mthlim lam d stale i = sliceFlux undef order fwave mthlim lam d i := by
  have hin : 2 - (g : Int) ≤ i ∧ i ≤ n + g := by omega
  simp only [cqxx3, if_neg ho, if_pos hin, sliceFlux]
  set wave : Waves K m w := if ∃ p, 0 < mthlim p then fLimiter undef n mthlim (fun i => (d i).s)
      (fun i => (d i).wave) else fun i => (d i).wave with hw
  have h : (fun (f : Fin m → K) (mw : Fin w) =>
      if fwave then f + (1 / 2 * dsign1 ((d i).s mw) * (1 - |(d i).s mw| * (1 / 2 * (lam (i - 1) + lam i)))) • wave i mw
        else f + (1 / 2 * |(d i).s mw| * (1 - |(d i).s mw| * (1 / 2 * (lam (i - 1) + lam i)))) • wave i mw) =
      fun f mw => f + (1 / 2 * (if fwave then dsign1 else abs) ((d i).s mw) *
        (1 - |(d i).s mw| * (1 / 2 * (lam (i - 1) + lam i)))) • wave i mw := by
    funext f mw
    cases fwave <;> rfl
  rw [h, foldl_add_sum, finRange_sum, zero_add,
    ← correctionFlux_congr (if fwave then dsign1 else abs) lam d wave _ _
      (fun p => fLimited_eq undef n mthlim lam d i p h1 h2)]
  unfold correctionFlux
  refine Finset.sum_congr rfl fun p _ => ?_
  congr 1

theorem flux3Slice_qadd (undef : K) (n g : Nat) (order trans : Int) (hasAux fwave : Bool) (mthlim : Fin w → Int)
    (lam : Int → K) (dtdy dtdz : K) (d : Int → Rp K m w)
    (t : Nat → Nat → Int → (Fin m → K) → (Fin m → K) × (Fin m → K))
    (tt : Nat → Nat → Nat → Int → (Fin m → K) → (Fin m → K) × (Fin m → K)) (stale : Int → Fin m → K) (i : Int)
    (h1 : 1 ≤ i) (h2 : i ≤ n) :
    (flux3Slice undef n g order trans hasAux fwave mthlim lam dtdy dtdz d t tt stale).qadd i =
      -(lam i • ((d i).apdq + (d (i + 1)).amdq)) := by
  simp only [flux3Slice]
  rw [if_pos (by omega), if_pos (by omega)]
  module

theorem flux3Slice_cfl (undef : K) (n g : Nat) (order trans : Int) (hasAux fwave : Bool) (mthlim : Fin w → Int)
    (lam : Int → K) (dtdy dtdz : K) (d : Int → Rp K m w)
    (t : Nat → Nat → Int → (Fin m → K) → (Fin m → K) × (Fin m → K))
    (tt : Nat → Nat → Nat → Int → (Fin m → K) → (Fin m → K) × (Fin m → K)) (stale : Int → Fin m → K) :
    (flux3Slice undef n g order trans hasAux fwave mthlim lam dtdy dtdz d t tt stale).cfl = fCfl n lam d := rfl

theorem flux3Slice_fadd (undef : K) (n g : Nat) (hg : 1 ≤ g) (order trans : Int) (hasAux fwave : Bool)
    (mthlim : Fin w → Int) (lam : Int → K) (dtdy dtdz : K) (d : Int → Rp K m w)
    (t : Nat → Nat → Int → (Fin m → K) → (Fin m → K) × (Fin m → K))
    (tt : Nat → Nat → Nat → Int → (Fin m → K) → (Fin m → K) × (Fin m → K)) (stale : Int → Fin m → K) (i : Int)
    (h1 : 1 ≤ i) (h2 : i ≤ n + 1) :
    (flux3Slice undef n g order trans hasAux fwave mthlim lam dtdy dtdz d t tt stale).fadd i =
      sliceFlux undef order fwave mthlim lam d i := by
  by_cases ho : order = 1
  · simp only [flux3Slice, if_pos ho, sliceFlux]
  · have hin : 2 - (g : Int) ≤ i ∧ i ≤ n + g := by omega
    simp only [flux3Slice, if_neg ho, if_pos hin, zero_add]
    exact cqxx3_eq undef n g hg order ho fwave mthlim lam d stale i h1 h2

/-- One row of a sweep is the one-dimensional wave propagation formula. -/
theorem slice_update3 (undef : K) (n g : Nat) (hg : 1 ≤ g) (order trans : Int) (hasAux fwave : Bool)
    (mthlim : Fin w → Int) (dt dx dtdy dtdz : K) (capa : Option (A → K)) (aux : Int → A) (rp : Riemann K A m w)
    (t : Nat → Nat → Int → (Fin m → K) → (Fin m → K) × (Fin m → K))
    (tt : Nat → Nat → Nat → Int → (Fin m → K) → (Fin m → K) × (Fin m → K)) (stale : Int → Fin m → K)
    (q : Int → Fin m → K) (i : Int) (h1 : 1 ≤ i) (h2 : i ≤ n) :
    let S := flux3Slice undef n g order trans hasAux fwave mthlim (sliceRatio dt dx capa aux) dtdy dtdz
      (fun i => rp (q (i - 1)) (q i) (aux (i - 1)) (aux i)) t tt stale
    q i + S.qadd i - capDiv capa (aux i) ((dt / dx) • (S.fadd (i + 1) - S.fadd i)) =
      waveProp (localRatio dt dx capa aux) (interfaces rp aux q)
        (sliceFlux undef order fwave mthlim (localRatio dt dx capa aux) (interfaces rp aux q)) q i := by
  intro S
  have e1 := flux3Slice_qadd undef n g order trans hasAux fwave mthlim (sliceRatio dt dx capa aux) dtdy dtdz
      (fun i => rp (q (i - 1)) (q i) (aux (i - 1)) (aux i)) t tt stale i h1 h2
  have e2 := flux3Slice_fadd undef n g hg order trans hasAux fwave mthlim (sliceRatio dt dx capa aux) dtdy dtdz
      (fun i => rp (q (i - 1)) (q i) (aux (i - 1)) (aux i)) t tt stale i h1 (by omega)
  have e3 := flux3Slice_fadd undef n g hg order trans hasAux fwave mthlim (sliceRatio dt dx capa aux) dtdy dtdz
      (fun i => rp (q (i - 1)) (q i) (aux (i - 1)) (aux i)) t tt stale (i + 1) (by omega) (by omega)
  rw [capDiv_smul dt dx capa aux i]
  change q i + S.qadd i - _ • (S.fadd (i + 1) - S.fadd i) = _
  rw [show S.qadd i = _ from e1, show S.fadd i = _ from e2, show S.fadd (i + 1) = _ from e3, sliceRatio_eq]
  unfold waveProp
  change _ + -(_ • ((interfaces rp aux q i).apdq + (interfaces rp aux q (i + 1)).amdq)) - _ = _
  rw [← sub_eq_add_neg]
  rfl

/-! ### Loops over two indices -/

/-- The pairs `(j,k)` in the order of the loops of `step3ds` and `step3`. -/
def pairs (lo1 hi1 lo2 hi2 : Int) : List (Int × Int) :=
  (irange lo2 hi2).flatMap fun k => (irange lo1 hi1).map fun j => (j, k)

theorem foldl_pairs {σ : Type*} (f : σ → Int × Int → σ) (lo1 hi1 lo2 hi2 : Int) (s : σ) :
    (irange lo2 hi2).foldl (fun st k => (irange lo1 hi1).foldl (fun st j => f st (j, k)) st) s =
      (pairs lo1 hi1 lo2 hi2).foldl f s := by
  unfold pairs
  rw [List.foldl_flatMap]
  congr 1
  funext st k
  rw [List.foldl_map]

theorem mem_pairs (lo1 hi1 lo2 hi2 : Int) (x : Int × Int) :
    x ∈ pairs lo1 hi1 lo2 hi2 ↔ (lo1 ≤ x.1 ∧ x.1 < hi1) ∧ lo2 ≤ x.2 ∧ x.2 < hi2 := by
  unfold pairs
  simp only [List.mem_flatMap, List.mem_map, mem_irange]
  constructor
  · rintro ⟨k, hk, j, hj, rfl⟩; exact ⟨hj, hk⟩
  · rintro ⟨h1, h2⟩; exact ⟨x.2, h2, x.1, h1, rfl⟩

theorem pairs_nodup (lo1 hi1 lo2 hi2 : Int) : (pairs lo1 hi1 lo2 hi2).Nodup := by
  unfold pairs
  rw [List.nodup_flatMap]
  refine ⟨fun k _ => (irange_nodup _ _).map (fun a b h => (Prod.mk.inj h).1), ?_⟩
  refine (irange_nodup lo2 hi2).pairwise_of_forall_ne fun a _ b _ hab => ?_
  intro x hx hx'
  simp only [List.mem_map] at hx hx'
  obtain ⟨j, _, rfl⟩ := hx
  obtain ⟨j', _, h⟩ := hx'
  exact hab (Prod.mk.inj h).2.symm

theorem splitMethod3_ne {t : Int} (h : t / 10 ≠ 2) : (splitMethod3 t).1 ≠ 2 := by
  unfold splitMethod3
  split_ifs
  · decide
  · exact h

end PyClaw
