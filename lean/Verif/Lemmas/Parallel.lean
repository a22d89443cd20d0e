import Verif.Spec.Parallel
import Verif.Props.BC
import Verif.Props.Petclaw

set_option linter.unusedSectionVars false

/-!
Lemmas for parallel runs (C64): owners, exchange and boundary filling.
-/
namespace PyClaw
open Spec

variable {ι K : Type*}

theorem range_filter_lt (p k : Nat) (h : k ≤ p) : ((List.range p).filter fun j => j < k).length = k := by
  induction p with
  | zero => have : k = 0 := by omega
            subst this; rfl
  | succ p ih =>
    rw [List.range_succ, List.filter_append, List.length_append]
    by_cases hk : k ≤ p
    · rw [ih hk]
      simp [show ¬ p < k by omega]
    · have : k = p + 1 := by omega
      subst this
      rw [List.filter_eq_self.mpr (by intro a ha; have := List.mem_range.mp ha; simp; omega)]
      simp

theorem owner_eq {D : Decomp ι} {a : ι} {n : Nat} (h : IsPartition n (D.p a) (D.cut a)) {x k : Nat} (hk : k < D.p a)
    (h1 : D.cut a k ≤ x) (h2 : x < D.cut a (k + 1)) : D.owner a x = k := by
  unfold Decomp.owner
  rw [List.filter_congr (q := fun j => decide (j < k)), range_filter_lt _ _ hk.le]
  intro j hj
  have hj := List.mem_range.mp hj
  rw [Bool.eq_iff_iff]
  simp only [decide_eq_true_eq]
  constructor
  · intro hle
    by_contra hge
    have := partition_mono h (show k + 1 ≤ j + 1 by omega) (by omega)
    omega
  · intro hlt
    exact le_trans (partition_mono h (show j + 1 ≤ k by omega) hk.le) h1

theorem owner_spec {D : Decomp ι} {a : ι} {n : Nat} (h : IsPartition n (D.p a) (D.cut a)) {x : Nat} (hx : x < n) :
    D.owner a x < D.p a ∧ D.cut a (D.owner a x) ≤ x ∧ x < D.cut a (D.owner a x + 1) := by
  obtain ⟨k, hk, h1, h2⟩ := owner_exists h x hx
  rw [owner_eq h hk h1 h2]
  exact ⟨hk, h1, h2⟩

theorem exchange_eq {D : Decomp ι} {n : ι → Nat} {g : Nat} (hD : GoodDecomp D n g) (hn : ∀ a, 0 < n a) {G : GArr ι K}
    {pieces : Proc ι → GArr ι K} (h : ∀ P, ValidProc D P → IsPart D P G (pieces P)) (P : Proc ι) (c : Nat) (idx : ι → Nat) :
    exchange D g pieces P c idx = G c fun a => (D.lo P a + idx a + n a - g) % n a := by
  unfold exchange
  simp only [hD.cells]
  have hx : ∀ a, (D.lo P a + idx a + n a - g) % n a < n a := fun a => Nat.mod_lt _ (hn a)
  have ho := fun a => owner_spec (hD.parts a) (hx a)
  rw [h (fun a => D.owner a ((D.lo P a + idx a + n a - g) % n a)) (fun a => (ho a).1) c _ (by
    intro a
    have := ho a
    unfold Decomp.size Decomp.lo
    unfold Decomp.lo at this
    dsimp only
    omega)]
  congr 1
  funext a
  have := ho a
  unfold Decomp.lo
  unfold Decomp.lo at this
  dsimp only
  omega

/-- The range of a process lies in the grid; the first begins at 0, the others at least `g` cells later, and so at the end. -/
theorem range_spec {D : Decomp ι} {n : ι → Nat} {g : Nat} (hD : GoodDecomp D n g) {P : Proc ι} (hP : ValidProc D P) (a : ι) :
    D.lo P a + D.size P a ≤ n a ∧ 0 < D.size P a ∧ (D.lo P a = 0 ∨ g ≤ D.lo P a) ∧
      (D.lo P a + D.size P a = n a ∨ D.lo P a + D.size P a + g ≤ n a) := by
  have hp := hD.parts a
  have hlt := hp.nonempty (P a) (hP a)
  unfold Decomp.lo Decomp.size
  have hmono := partition_mono hp (show P a + 1 ≤ D.p a from hP a) le_rfl
  rw [hp.last] at hmono
  refine ⟨by omega, by omega, ?_, ?_⟩
  · by_cases h0 : P a = 0
    · left; rw [h0]; exact hp.first
    · right
      classical
      have hv : ValidProc D (Function.update P a 0) := by
        intro b
        by_cases hb : b = a
        · subst hb; rw [Function.update_self]; have := hP b; omega
        · rw [Function.update_of_ne hb]; exact hP b
      have hw := hD.wide _ hv a
      unfold Decomp.size at hw
      rw [Function.update_self, hp.first] at hw
      have := partition_mono hp (show 0 + 1 ≤ P a by omega) (hP a).le
      omega
  · by_cases h0 : P a + 1 = D.p a
    · left; rw [h0, hp.last]; omega
    · right
      classical
      have hlast : D.p a - 1 + 1 = D.p a := by have := hP a; omega
      have hv : ValidProc D (Function.update P a (D.p a - 1)) := by
        intro b
        by_cases hb : b = a
        · subst hb; rw [Function.update_self]; have := hP b; omega
        · rw [Function.update_of_ne hb]; exact hP b
      have hw := hD.wide _ hv a
      unfold Decomp.size at hw
      rw [Function.update_self, hlast, hp.last] at hw
      have := hP a
      have := partition_mono hp (show P a + 1 ≤ D.p a - 1 by omega) (by omega)
      omega

theorem mod_wrap {x n : Nat} (h : x < n) : (x + n) % n = x := by rw [Nat.add_mod_right, Nat.mod_eq_of_lt h]

/-- Folding a ghost coordinate on a process, then wrapping it, gives the serial folding. -/
theorem fold_agrees {g n lo m : Nat} (hg : g ≤ n) (hn : 0 < n) (hm : 0 < m) (hgm : g ≤ m) (hle : lo + m ≤ n) (hlo : lo = 0 ∨ g ≤ lo)
    (hhi : lo + m = n ∨ lo + m + g ≤ n) (tl tu : BCType) (htl : BuiltInBC tl) (htu : BuiltInBC tu) (k : Nat) (hk : k < m + 2 * g) :
    ((lo + (if k < g then
        match (if lo = 0 ∧ ¬(tl = .periodic ∧ ¬ lo + m = n) then some tl else none) with
        | some t => lowerSrc t g m k
        | none => k
      else if g + m ≤ k then
        match (if lo + m = n ∧ ¬(tu = .periodic ∧ ¬ lo = 0) then some tu else none) with
        | some t => upperSrc t g m k
        | none => k
      else k) + n - g) % n) + g =
    (if lo + k < g then lowerSrc tl g n (lo + k) else if g + n ≤ lo + k then upperSrc tu g n (lo + k) else lo + k) := by
  have key : ∀ s y : Nat, g ≤ y → y < n + g → (lo + s = y ∨ lo + s = y + n ∨ lo + s + n = y) → (lo + s + n - g) % n + g = y := by
    intro s y h1 h2 h3
    rcases h3 with h3 | h3 | h3
    · rw [Nat.mod_eq_sub_mod (by omega), Nat.mod_eq_of_lt (by omega)]; omega
    · rw [Nat.mod_eq_sub_mod (by omega), Nat.mod_eq_sub_mod (by omega), Nat.mod_eq_of_lt (by omega)]; omega
    · rw [Nat.mod_eq_of_lt (by omega)]; omega
  by_cases h1 : k < g
  · rw [if_pos h1]
    by_cases h0 : lo = 0
    · have e0 : lo + k < g := by omega
      rw [if_pos e0]
      rcases htl with rfl | rfl | rfl
      · rw [if_pos (by simp [h0])]
        exact key g g (by omega) (by omega) (by omega)
      · by_cases hfull : lo + m = n
        · rw [if_pos ⟨h0, fun hh => hh.2 hfull⟩]
          exact key (k + m) (lo + k + n) (by omega) (by omega) (by omega)
        · rw [if_neg (by simp [hfull])]
          exact key k (lo + k + n) (by omega) (by omega) (by omega)
      · rw [if_pos (by simp [h0])]
        exact key (2 * g - 1 - k) (2 * g - 1 - (lo + k)) (by omega) (by omega) (by omega)
    · rw [if_neg (by simp [h0]), if_neg (by omega), if_neg (by omega)]
      exact key k (lo + k) (by omega) (by omega) (by omega)
  · rw [if_neg h1]
    by_cases h2 : g + m ≤ k
    · rw [if_pos h2]
      by_cases hfull : lo + m = n
      · have e1 : ¬ lo + k < g := by omega
        have e2 : g + n ≤ lo + k := by omega
        rw [if_neg e1, if_pos e2]
        rcases htu with rfl | rfl | rfl
        · rw [if_pos (by simp [hfull])]
          exact key (g + m - 1) (g + n - 1) (by omega) (by omega) (by omega)
        · by_cases h0 : lo = 0
          · rw [if_pos (by simp [h0, ← hfull])]
            exact key (k - m) (lo + k - n) (by omega) (by omega) (by omega)
          · rw [if_neg (by simp [h0])]
            exact key k (lo + k - n) (by omega) (by omega) (by omega)
        · rw [if_pos (by simp [hfull])]
          exact key (2 * (g + m) - 1 - k) (2 * (g + n) - 1 - (lo + k)) (by omega) (by omega) (by omega)
      · have e1 : ¬ lo + k < g := by omega
        have e2 : ¬ g + n ≤ lo + k := by omega
        rw [if_neg (by simp [hfull]), if_neg e1, if_neg e2]
        exact key k (lo + k) (by omega) (by omega) (by omega)
    · have e1 : ¬ lo + k < g := by omega
      have e2 : ¬ g + n ≤ lo + k := by omega
      rw [if_neg h2, if_neg e1, if_neg e2]
      exact key k (lo + k) (by omega) (by omega) (by omega)

variable [DecidableEq ι]

theorem mem_procs (D : Decomp ι) (axes : List ι) (hnd : axes.Nodup) (P : Proc ι) :
    P ∈ D.procs axes ↔ (∀ a ∈ axes, P a < D.p a) ∧ ∀ a, a ∉ axes → P a = 0 := by
  induction axes generalizing P with
  | nil =>
    simp only [Decomp.procs, List.mem_singleton, List.not_mem_nil, false_imp_iff, implies_true, true_and, not_false_eq_true, true_imp_iff]
    constructor
    · rintro rfl; intro a; rfl
    · intro h; funext a; exact h a
  | cons a as ih =>
    rw [List.nodup_cons] at hnd
    simp only [Decomp.procs, List.mem_flatMap, List.mem_map, List.mem_range]
    constructor
    · rintro ⟨Q, hQ, k, hk, rfl⟩
      obtain ⟨h1, h2⟩ := (ih hnd.2 Q).mp hQ
      refine ⟨?_, ?_⟩
      · intro b hb
        by_cases hba : b = a
        · subst hba; rw [Function.update_self]; exact hk
        · rw [Function.update_of_ne hba]
          exact h1 b ((List.mem_cons.mp hb).resolve_left hba)
      · intro b hb
        rw [List.mem_cons, not_or] at hb
        rw [Function.update_of_ne hb.1]
        exact h2 b hb.2
    · rintro ⟨h1, h2⟩
      refine ⟨Function.update P a 0, (ih hnd.2 _).mpr ⟨?_, ?_⟩, P a, h1 a (by simp), by simp⟩
      · intro b hb
        have : b ≠ a := fun e => hnd.1 (e ▸ hb)
        rw [Function.update_of_ne this]
        exact h1 b (by simp [hb])
      · intro b hb
        by_cases hba : b = a
        · subst hba; simp
        · rw [Function.update_of_ne hba]
          exact h2 b (by simp [hba, hb])

theorem mem_procs_valid (D : Decomp ι) (axes : List ι) (hnd : axes.Nodup) (hall : ∀ a, a ∈ axes) (P : Proc ι) :
    P ∈ D.procs axes ↔ ValidProc D P := by
  rw [mem_procs D axes hnd]
  exact ⟨fun h a => h.1 a (hall a), fun h => ⟨fun a _ => h a, fun a ha => absurd (hall a) ha⟩⟩

/-- The boundary conditions of a process meet the requirements if those of the whole grid do. -/
theorem localCfg_admissible (bc : BCConfig ι K) (h : Admissible bc) {D : Decomp ι} (hD : GoodDecomp D bc.n bc.g) {P : Proc ι}
    (hP : ValidProc D P) : Admissible (localCfg bc D P) where
  cells a := ⟨(range_spec hD hP a).2.1, hD.wide P hP a⟩
  lower := h.lower
  upper := h.upper
  auxLower := h.auxLower
  auxUpper := h.auxUpper
  reflect := h.reflect

variable [Ring K]

/-- After the exchange, filling the boundaries on each process gives its part of the ghosted arrays of the serial run. -/
theorem fill_agrees (bc : BCConfig ι K) (h : Admissible bc) (hs : Serial bc) (axes : List ι) (hnd : axes.Nodup)
    (hall : ∀ a, a ∈ axes) {D : Decomp ι} (hD : GoodDecomp D bc.n bc.g) (q aux : GArr ι K) (old : BCArrays ι K)
    (pq pa : Proc ι → GArr ι K) (hq : ∀ P, ValidProc D P → IsPart D P q (pq P)) (ha : ∀ P, ValidProc D P → IsPart D P aux (pa P))
    (aux0 : Proc ι → GArr ι K) :
    ∃ W, applyBcs bc axes q aux old = (W, .ok ()) ∧ ∀ P, ValidProc D P → ∃ w,
      applyDims (localCfg bc D P) axes
        { q := exchange D bc.g pq P, aux := if 0 < bc.numAux then exchange D bc.g pa P else aux0 P } = (w, .ok ()) ∧
      IsGhostedPart D bc.g P W.q w.q ∧ (0 < bc.numAux → IsGhostedPart D bc.g P W.aux w.aux) := by
  obtain ⟨W, hW, hval⟩ := C17_serial_fill bc h hs axes hnd hall q aux old
  refine ⟨W, hW, fun P hP => ?_⟩
  obtain ⟨w, hw, hvalL⟩ := C17_fill_is_fold (localCfg bc D P) (localCfg_admissible bc h hD hP) axes hnd hall
    { q := exchange D bc.g pq P, aux := if 0 < bc.numAux then exchange D bc.g pa P else aux0 P }
  have hn : ∀ a, 0 < bc.n a := fun a => (h.cells a).1
  have hIn : ∀ idx : ι → Nat, (∀ a, idx a < D.size P a + 2 * bc.g) → InGhosted bc fun a => D.lo P a + idx a := by
    intro idx hidx a
    have := range_spec hD hP a
    have := hidx a
    dsimp only
    omega
  refine ⟨w, hw, ?_, ?_⟩
  · intro c idx hidx
    rw [(hvalL c idx hidx).1, (hval c _ (hIn idx hidx)).1]
    dsimp only
    rw [exchange_eq hD hn hq]
    congr 1
    · unfold Sides.sign
      congr 1
      apply List.map_congr_left
      intro a _
      have hr := range_spec hD hP a
      have hi := hidx a
      have hgn := h.cells a
      have hS := hs a
      have e : (qSides (localCfg bc D P)).behindWall a (idx a) = (qSides bc).behindWall a (D.lo P a + idx a) := by
        unfold Sides.behindWall qSides localCfg
        simp only [hS.1, hS.2, hD.cells, decide_eq_true_eq, decide_eq_false_iff_not, Bool.true_eq_false, and_false, not_false_iff,
          and_self, if_true]
        congr 1
        · rw [Bool.eq_iff_iff]
          simp only [Bool.and_eq_true, decide_eq_true_eq, beq_iff_eq, Option.some.injEq]
          constructor
          · rintro ⟨h1, h2⟩
            split at h2
            · rename_i h3; rw [Option.some.injEq] at h2; exact ⟨by omega, h2⟩
            · exact absurd h2 (by simp)
          · rintro ⟨h1, h2⟩
            refine ⟨by omega, ?_⟩
            rw [if_pos ⟨by omega, by rw [h2]; simp⟩, h2]
        · rw [Bool.eq_iff_iff]
          simp only [Bool.and_eq_true, decide_eq_true_eq, beq_iff_eq, Option.some.injEq]
          constructor
          · rintro ⟨h1, h2⟩
            split at h2
            · rename_i h3; rw [Option.some.injEq] at h2; exact ⟨by omega, h2⟩
            · exact absurd h2 (by simp)
          · rintro ⟨h1, h2⟩
            refine ⟨by omega, ?_⟩
            rw [if_pos ⟨by omega, by rw [h2]; simp⟩, h2]
      rw [e]
      rfl
    · congr 1
      funext a
      have hr := range_spec hD hP a
      have hgn := h.cells a
      have hS := hs a
      have key := fold_agrees hgn.2 hgn.1 hr.2.1 (hD.wide P hP a) hr.1 hr.2.2.1 hr.2.2.2 (bc.bcLower a) (bc.bcUpper a)
        (h.lower a) (h.upper a) (idx a) (hidx a)
      simp only [Sides.fold, Sides.src, qSides, localCfg, hS.1, hS.2, hD.cells, decide_eq_true_eq, decide_eq_false_iff_not,
        Bool.true_eq_false, and_false, not_false_iff, and_self, if_true]
      rw [← key]
      exact (Nat.add_sub_cancel ..).symm
  · intro hx c idx hidx
    rw [(hvalL c idx hidx).2, (hval c _ (hIn idx hidx)).2 hx]
    dsimp only
    rw [if_pos hx, exchange_eq hD hn ha]
    congr 1
    funext a
    have hr := range_spec hD hP a
    have hgn := h.cells a
    have hS := hs a
    have key := fold_agrees hgn.2 hgn.1 hr.2.1 (hD.wide P hP a) hr.1 hr.2.2.1 hr.2.2.2 (bc.auxLower a) (bc.auxUpper a)
      (h.auxLower hx a) (h.auxUpper hx a) (idx a) (hidx a)
    simp only [Sides.fold, Sides.src, auxSides, localCfg, hx, hS.1, hS.2, hD.cells, decide_eq_true_eq, decide_eq_false_iff_not,
      Bool.true_eq_false, and_false, not_false_iff, and_self, true_and, if_true]
    rw [← key]
    exact (Nat.add_sub_cancel ..).symm

end PyClaw
