import Verif.Lemmas.BC
import Mathlib.Data.Rat.Defs
import Mathlib.Algebra.Order.Ring.Rat
import Mathlib.Tactic.FinCases
import Mathlib.Data.Fintype.Basic
import Mathlib.Data.Fintype.OfMap
import Mathlib.Data.Int.ModEq
set_option linter.unusedSectionVars false

/-!
# Boundary conditions (C13–C18)
-/
namespace PyClaw
open Spec

variable {ι K : Type*} [DecidableEq ι] [Ring K]

/-- Entry `idx` lies in the ghosted array. -/
def Spec.InGhosted (cfg : BCConfig ι K) (idx : ι → Nat) : Prop := ∀ a, idx a < cfg.n a + 2 * cfg.g

/-- Entry `idx` is an interior cell. -/
def Spec.InInterior (cfg : BCConfig ι K) (idx : ι → Nat) : Prop :=
  ∀ a, cfg.g ≤ idx a ∧ idx a < cfg.g + cfg.n a

/-- The grid touches all domain boundaries (a serial run). -/
def Spec.Serial (cfg : BCConfig ι K) : Prop := ∀ a, cfg.onLower a = true ∧ cfg.onUpper a = true

/-- A configuration with two axes that meets the hypotheses of all theorems below: axis 0 reflects at
the lower and extrapolates at the upper end, axis 1 is periodic. -/
def exampleBC : BCConfig (Fin 2) ℚ where
  g := 2
  n a := if a = 0 then 3 else 2
  numEqn := 3
  numAux := 1
  bcLower a := if a = 0 then .wall else .periodic
  bcUpper a := if a = 0 then .extrap else .periodic
  auxLower _ := .extrap
  auxUpper _ := .extrap
  reflect a := if a = 0 then 1 else 2
  onLower _ := true
  onUpper _ := true

theorem exampleBC_admissible : Admissible exampleBC ∧ Serial exampleBC := by
  refine ⟨⟨?_, ?_, ?_, ?_, ?_, ?_⟩, ?_⟩
  · intro a; fin_cases a <;> simp [exampleBC]
  · intro a; fin_cases a <;> simp [exampleBC, BuiltInBC]
  · intro a; fin_cases a <;> simp [exampleBC, BuiltInBC]
  · intro _ a; simp [exampleBC, BuiltInBC]
  · intro _ a; simp [exampleBC, BuiltInBC]
  · intro a; fin_cases a <;> simp [exampleBC]
  · intro a; simp [exampleBC]

/-- Everything at once, for any process of a (possibly distributed) run and any initial content `s` of
the ghosted arrays: each entry is the signed value of the entry its coordinates fold back to. -/
theorem C17_fill_is_fold (cfg : BCConfig ι K) (h : Admissible cfg) (axes : List ι) (hnd : axes.Nodup)
    (hall : ∀ a, a ∈ axes) (s : BCArrays ι K) :
    ∃ s', applyDims cfg axes s = (s', .ok ()) ∧ ∀ c idx, InGhosted cfg idx →
      s'.q c idx = (qSides cfg).sign (fun a => some (cfg.reflect a)) axes c idx *
        s.q c ((qSides cfg).fold idx) ∧
      s'.aux c idx = s.aux c ((auxSides cfg).fold idx) := by
  refine ⟨_, applyDims_eq cfg h axes s, ?_⟩
  intro c idx hin
  have hf : ∀ b : Sides ι, foldOn b axes idx = b.fold idx := by
    intro b; funext a; simp [foldOn, hall, Sides.fold]
  constructor
  · simp only
    rw [fillAxes_eq _ (qSides_good cfg h) _ axes hnd _ c idx hin, hf]
  · simp only
    rw [fillAxes_eq _ (auxSides_good cfg h) _ axes hnd _ c idx hin, hf]
    have : (auxSides cfg).sign (K := K) (fun _ => none) axes c idx = 1 := by
      simp [Sides.sign]
    rw [this, one_mul]

theorem fold_interior (cfg : BCConfig ι K) (h : Admissible cfg) (hs : Serial cfg) (idx : ι → Nat)
    (hin : InGhosted cfg idx) : InInterior cfg ((qSides cfg).fold idx) := by
  intro a
  have hc := h.cells a
  have hi := hin a
  have hl := hs a
  simp only [Sides.fold, Sides.src, qSides, hl.1, hl.2, Bool.true_eq_false, and_false, not_false_eq_true, and_self, if_true]
  split_ifs with h1 h2
  · rcases h.lower a with e | e | e <;> rw [e] <;> simp only [lowerSrc] <;> omega
  · rcases h.upper a with e | e | e <;> rw [e] <;> simp only [upperSrc] <;> omega
  · omega

theorem fold_interior_aux (cfg : BCConfig ι K) (h : Admissible cfg) (hs : Serial cfg)
    (hx : 0 < cfg.numAux) (idx : ι → Nat)
    (hin : InGhosted cfg idx) : InInterior cfg ((auxSides cfg).fold idx) := by
  intro a
  have hc := h.cells a
  have hi := hin a
  have hl := hs a
  simp only [Sides.fold, Sides.src, auxSides, hl.1, hl.2, hx, Bool.true_eq_false, and_false, not_false_eq_true, and_self, if_true]
  split_ifs with h1 h2
  · rcases h.auxLower hx a with e | e | e <;> rw [e] <;> simp only [lowerSrc] <;> omega
  · rcases h.auxUpper hx a with e | e | e <;> rw [e] <;> simp only [upperSrc] <;> omega
  · omega

theorem embed_interior (cfg : BCConfig ι K) (axes : List ι) (q old : GArr ι K) (c : Nat) (idx : ι → Nat)
    (hi : InInterior cfg idx) : embedInterior cfg axes q old c idx = q c (fun a => idx a - cfg.g) := by
  unfold embedInterior
  rw [if_pos]
  simp only [List.all_eq_true, decide_eq_true_eq]
  exact fun a _ => hi a

/-- C17. In a serial run every entry of the ghosted arrays, edges and corners included, holds the signed
value of the interior cell obtained by folding each coordinate separately; nothing of the work array's
old content is left. -/
theorem C17_serial_fill (cfg : BCConfig ι K) (h : Admissible cfg) (hs : Serial cfg) (axes : List ι)
    (hnd : axes.Nodup) (hall : ∀ a, a ∈ axes) (q aux : GArr ι K) (old : BCArrays ι K) :
    ∃ s', applyBcs cfg axes q aux old = (s', .ok ()) ∧ ∀ c idx, InGhosted cfg idx →
      s'.q c idx = (qSides cfg).sign (fun a => some (cfg.reflect a)) axes c idx *
        q c (fun a => (qSides cfg).fold idx a - cfg.g) ∧
      (0 < cfg.numAux → s'.aux c idx = aux c (fun a => (auxSides cfg).fold idx a - cfg.g)) := by
  obtain ⟨s', he, hv⟩ := C17_fill_is_fold cfg h axes hnd hall
    { q := embedInterior cfg axes q old.q
      aux := if 0 < cfg.numAux then embedInterior cfg axes aux old.aux else old.aux }
  refine ⟨s', he, fun c idx hin => ⟨?_, fun hx => ?_⟩⟩
  · rw [(hv c idx hin).1]
    simp only
    rw [embed_interior cfg axes q old.q c _ (fold_interior cfg h hs idx hin)]
  · rw [(hv c idx hin).2]
    simp only [hx, if_true]
    rw [embed_interior cfg axes aux old.aux c _ (fold_interior_aux cfg h hs hx idx hin)]

/-- C13. Boundary filling leaves every interior cell equal to the state's `q` and `aux`, on every process
of a run (any combination of domain and inter-process boundaries). -/
theorem C13_interior_untouched (cfg : BCConfig ι K) (h : Admissible cfg) (axes : List ι)
    (hnd : axes.Nodup) (hall : ∀ a, a ∈ axes) (q aux : GArr ι K) (old : BCArrays ι K) :
    ∃ s', applyBcs cfg axes q aux old = (s', .ok ()) ∧ ∀ c idx, InInterior cfg idx →
      s'.q c idx = q c (fun a => idx a - cfg.g) ∧
      (0 < cfg.numAux → s'.aux c idx = aux c (fun a => idx a - cfg.g)) := by
  obtain ⟨s', he, hv⟩ := C17_fill_is_fold cfg h axes hnd hall
    { q := embedInterior cfg axes q old.q
      aux := if 0 < cfg.numAux then embedInterior cfg axes aux old.aux else old.aux }
  refine ⟨s', he, fun c idx hi => ?_⟩
  have hin : InGhosted cfg idx := fun a => by have := hi a; omega
  have hfold : ∀ b : Sides ι, b.g = cfg.g → b.n = cfg.n → b.fold idx = idx := by
    intro b hg hn
    funext a
    have := hi a
    simp only [Sides.fold, Sides.src, hg, hn]
    rw [if_neg (by omega), if_neg (by omega)]
  have hsign : (qSides cfg).sign (K := K) (fun a => some (cfg.reflect a)) axes c idx = 1 := by
    unfold Sides.sign
    apply List.prod_eq_one
    intro x hx
    obtain ⟨a, _, rfl⟩ := List.mem_map.mp hx
    have := hi a
    have hb : (qSides cfg).behindWall a (idx a) = false := by
      have h1 : ¬ idx a < cfg.g := by omega
      have h2 : ¬ cfg.g + cfg.n a ≤ idx a := by omega
      simp [Sides.behindWall, qSides, h1, h2]
    simp [hb]
  refine ⟨?_, fun hx => ?_⟩
  · rw [(hv c idx hin).1, hsign, one_mul, hfold _ rfl rfl]
    exact embed_interior cfg axes q old.q c _ hi
  · rw [(hv c idx hin).2, hfold _ rfl rfl]
    simp only [hx, if_true]
    exact embed_interior cfg axes aux old.aux c _ hi

/-- Two entries that differ only along axis `a` hold values in the ratio of their signs there, if they
fold to the same coordinate. -/
theorem sign_update (b : Sides ι) (flip : ι → Option Nat) (axes : List ι) (hnd : axes.Nodup) (a : ι)
    (c : Nat) (idx : ι → Nat) (k : Nat) (hw : b.behindWall a k = false) (hm : a ∈ axes) :
    b.sign (K := K) flip axes c idx =
      (if b.behindWall a (idx a) && flip a == some c then -1 else 1) *
        b.sign flip axes c (Function.update idx a k) := by
  induction axes with
  | nil => simp at hm
  | cons x xs ih =>
    have hx := List.nodup_cons.mp hnd
    simp only [Sides.sign, List.map_cons, List.prod_cons]
    by_cases hxa : x = a
    · subst hxa
      have htl : xs.map (fun y => if b.behindWall y (idx y) && flip y == some c then (-1 : K) else 1) =
          xs.map (fun y => if b.behindWall y (Function.update idx x k y) && flip y == some c
            then (-1 : K) else 1) := by
        apply List.map_congr_left
        intro y hy
        have : y ≠ x := fun e => hx.1 (e ▸ hy)
        rw [Function.update_of_ne this]
      rw [htl, Function.update_self, hw]
      simp
    · have hm' : a ∈ xs := by
        rcases List.mem_cons.mp hm with e | e
        · exact absurd e.symm hxa
        · exact e
      have := ih hx.2 hm'
      simp only [Sides.sign] at this
      rw [this, Function.update_of_ne hxa]
      split_ifs <;> simp

theorem ratio (cfg : BCConfig ι K) (h : Admissible cfg) (axes : List ι) (hnd : axes.Nodup)
    (hall : ∀ a, a ∈ axes) (s s' : BCArrays ι K) (he : applyDims cfg axes s = (s', .ok ())) (a : ι)
    (c : Nat) (idx : ι → Nat) (k : Nat) (hin : InGhosted cfg idx) (hk : k < cfg.n a + 2 * cfg.g)
    (hsrc : (qSides cfg).src a k = (qSides cfg).src a (idx a))
    (hw : (qSides cfg).behindWall a k = false) :
    s'.q c idx = (if (qSides cfg).behindWall a (idx a) && cfg.reflect a == c then -1 else 1) *
      s'.q c (Function.update idx a k) := by
  obtain ⟨s2, he2, hv⟩ := C17_fill_is_fold cfg h axes hnd hall s
  rw [he] at he2
  obtain rfl : s' = s2 := (Prod.mk.injEq _ _ _ _ ▸ he2).1
  have hin' : InGhosted cfg (Function.update idx a k) := by
    intro x
    by_cases hx : x = a
    · subst hx; rw [Function.update_self]; exact hk
    · rw [Function.update_of_ne hx]; exact hin x
  rw [(hv c idx hin).1, (hv c _ hin').1,
    sign_update (qSides cfg) _ axes hnd a c idx k hw (hall a)]
  have hfold : (qSides cfg).fold (Function.update idx a k) = (qSides cfg).fold idx := by
    funext x
    by_cases hx : x = a
    · subst hx; simp only [Sides.fold, Function.update_self]; exact hsrc
    · simp [Sides.fold, Function.update_of_ne hx]
  rw [hfold, mul_assoc]
  congr 1

theorem not_behindWall (cfg : BCConfig ι K) (a : ι) (k : Nat) (h1 : cfg.g ≤ k) (h2 : k < cfg.g + cfg.n a) :
    (qSides cfg).behindWall a k = false := by
  have h1 : ¬ k < cfg.g := by omega
  have h2 : ¬ cfg.g + cfg.n a ≤ k := by omega
  simp [Sides.behindWall, qSides, h1, h2]

/-- C14. Extrapolation: on a domain boundary with zero-order extrapolation every ghost entry equals the
entry of the nearest interior cell along that axis (for `q`; corners included, since the other
coordinates are arbitrary). -/
theorem C14_extrapolation (cfg : BCConfig ι K) (h : Admissible cfg) (axes : List ι) (hnd : axes.Nodup)
    (hall : ∀ a, a ∈ axes) (q aux : GArr ι K) (old : BCArrays ι K) :
    ∃ s', applyBcs cfg axes q aux old = (s', .ok ()) ∧ ∀ c idx, InGhosted cfg idx → ∀ a,
      (cfg.onLower a = true → cfg.bcLower a = .extrap → idx a < cfg.g →
        s'.q c idx = s'.q c (Function.update idx a cfg.g)) ∧
      (cfg.onUpper a = true → cfg.bcUpper a = .extrap → cfg.g + cfg.n a ≤ idx a →
        s'.q c idx = s'.q c (Function.update idx a (cfg.g + cfg.n a - 1))) := by
  refine ⟨_, applyDims_eq cfg h axes _, fun c idx hin a => ⟨fun hl ht hg => ?_, fun hl ht hg => ?_⟩⟩
  · have hc := h.cells a
    have h2 : ¬ cfg.g + cfg.n a ≤ idx a := by omega
    have h3 : ¬ cfg.g + cfg.n a ≤ cfg.g := by omega
    rw [ratio cfg h axes hnd hall _ _ (applyDims_eq cfg h axes _) a c idx cfg.g hin (by omega)
      (by simp [Sides.src, qSides, hg, hl, ht, lowerSrc, h3])
      (not_behindWall cfg a _ le_rfl (by omega))]
    simp [Sides.behindWall, qSides, ht, h2]
  · have hc := h.cells a
    have h1 : ¬ idx a < cfg.g := by omega
    have h3 : ¬ cfg.g + cfg.n a - 1 < cfg.g := by omega
    have h4 : ¬ cfg.g + cfg.n a ≤ cfg.g + cfg.n a - 1 := by omega
    rw [ratio cfg h axes hnd hall _ _ (applyDims_eq cfg h axes _) a c idx (cfg.g + cfg.n a - 1) hin
      (by omega) (by simp [Sides.src, qSides, hg, hl, ht, upperSrc, h1, h3, h4])
      (not_behindWall cfg a _ (by omega) (by omega))]
    simp [Sides.behindWall, qSides, ht, h1]

/-- C15. Periodic axes: along an axis with both boundaries periodic on this process, entries whose
coordinates differ by a multiple of the number of cells are equal, so the ghosted array is the periodic
extension of the interior. -/
theorem C15_periodic (cfg : BCConfig ι K) (h : Admissible cfg) (axes : List ι) (hnd : axes.Nodup)
    (hall : ∀ a, a ∈ axes) (q aux : GArr ι K) (old : BCArrays ι K) :
    ∃ s', applyBcs cfg axes q aux old = (s', .ok ()) ∧ ∀ a,
      cfg.onLower a = true → cfg.onUpper a = true → cfg.bcLower a = .periodic → cfg.bcUpper a = .periodic →
      ∀ c idx, InGhosted cfg idx → ∀ k, k < cfg.n a + 2 * cfg.g →
        (k : Int) ≡ idx a [ZMOD cfg.n a] → s'.q c (Function.update idx a k) = s'.q c idx := by
  refine ⟨_, applyDims_eq cfg h axes _, fun a hl hu tl tu c idx hin k hk hmod => ?_⟩
  have hc := h.cells a
  -- every entry equals the one at its interior representative
  have hnw : ∀ k, (qSides cfg).behindWall a k = false := by
    intro k; simp [Sides.behindWall, qSides, tl, tu]
  have hsrcI : ∀ k, k < cfg.n a + 2 * cfg.g → (qSides cfg).src a k = cfg.g + (k + cfg.n a - cfg.g) % cfg.n a := by
    intro k hk
    simp only [Sides.src, qSides, hl, hu, tl, tu, Bool.true_eq_false, and_false, not_false_eq_true, and_self,
      if_true, lowerSrc, upperSrc]
    split_ifs with h1 h2
    · rw [Nat.mod_eq_of_lt (by omega)]; omega
    · have : k + cfg.n a - cfg.g = (k - cfg.n a - cfg.g) + cfg.n a + cfg.n a := by omega
      rw [this, Nat.add_mod_right, Nat.add_mod_right, Nat.mod_eq_of_lt (by omega)]; omega
    · have : k + cfg.n a - cfg.g = (k - cfg.g) + cfg.n a := by omega
      rw [this, Nat.add_mod_right, Nat.mod_eq_of_lt (by omega)]; omega
  have hmod' : (k + cfg.n a - cfg.g) % cfg.n a = (idx a + cfg.n a - cfg.g) % cfg.n a := by
    have h3 : ((k + cfg.n a - cfg.g : Nat) : Int) ≡ (idx a + cfg.n a - cfg.g : Nat) [ZMOD cfg.n a] := by
      rw [Nat.cast_sub (by omega), Nat.cast_sub (by omega), Nat.cast_add, Nat.cast_add]
      exact ((hmod.add_right _).sub_right _)
    exact_mod_cast h3
  symm
  rw [ratio cfg h axes hnd hall _ _ (applyDims_eq cfg h axes _) a c idx k hin hk
    (by rw [hsrcI _ hk, hsrcI _ (hin a), hmod']) (hnw k), hnw]
  simp

/-- C16. Reflecting walls: every ghost entry equals the entry mirrored at the boundary, with the sign of
component `reflect_index[a]`, and of no other component, reversed. -/
theorem C16_wall (cfg : BCConfig ι K) (h : Admissible cfg) (axes : List ι) (hnd : axes.Nodup)
    (hall : ∀ a, a ∈ axes) (q aux : GArr ι K) (old : BCArrays ι K) :
    ∃ s', applyBcs cfg axes q aux old = (s', .ok ()) ∧ ∀ c idx, InGhosted cfg idx → ∀ a,
      (cfg.onLower a = true → cfg.bcLower a = .wall → idx a < cfg.g →
        s'.q c idx = (if c = cfg.reflect a then -1 else 1) *
          s'.q c (Function.update idx a (2 * cfg.g - 1 - idx a))) ∧
      (cfg.onUpper a = true → cfg.bcUpper a = .wall → cfg.g + cfg.n a ≤ idx a →
        s'.q c idx = (if c = cfg.reflect a then -1 else 1) *
          s'.q c (Function.update idx a (2 * (cfg.g + cfg.n a) - 1 - idx a))) := by
  refine ⟨_, applyDims_eq cfg h axes _, fun c idx hin a => ⟨fun hl ht hg => ?_, fun hl ht hg => ?_⟩⟩
  · have hc := h.cells a
    have h2 : ¬ cfg.g + cfg.n a ≤ idx a := by omega
    have h3 : ¬ cfg.g + cfg.n a ≤ 2 * cfg.g - 1 - idx a := by omega
    have h4 : ¬ 2 * cfg.g - 1 - idx a < cfg.g := by omega
    rw [ratio cfg h axes hnd hall _ _ (applyDims_eq cfg h axes _) a c idx (2 * cfg.g - 1 - idx a) hin
      (by omega) (by simp [Sides.src, qSides, hg, hl, ht, lowerSrc, h3, h4])
      (not_behindWall cfg a _ (by omega) (by omega))]
    simp [Sides.behindWall, qSides, ht, h2, hl, hg, @eq_comm _ c]
  · have hc := h.cells a
    have hi := hin a
    have h1 : ¬ idx a < cfg.g := by omega
    have h3 : ¬ 2 * (cfg.g + cfg.n a) - 1 - idx a < cfg.g := by omega
    have h4 : ¬ cfg.g + cfg.n a ≤ 2 * (cfg.g + cfg.n a) - 1 - idx a := by omega
    rw [ratio cfg h axes hnd hall _ _ (applyDims_eq cfg h axes _) a c idx (2 * (cfg.g + cfg.n a) - 1 - idx a)
      hin (by omega) (by simp [Sides.src, qSides, hg, hl, ht, upperSrc, h1, h3, h4])
      (not_behindWall cfg a _ (by omega) (by omega))]
    simp [Sides.behindWall, qSides, ht, h1, hl, hg, @eq_comm _ c]

/-- The hypotheses of C13–C17 hold of the two-dimensional example, and the fill is not trivial there: in
the corner behind the wall of axis 0 the component 1 is the reflected, periodically shifted value. -/
example (q aux : GArr (Fin 2) ℚ) (old : BCArrays (Fin 2) ℚ) :
    ∃ s', applyBcs exampleBC [0, 1] q aux old = (s', .ok ()) ∧
      s'.q 1 (fun _ => 0) = -q 1 (fun a => if a = 0 then 1 else 0) := by
  obtain ⟨s', he, hv⟩ := C17_serial_fill exampleBC exampleBC_admissible.1 exampleBC_admissible.2 [0, 1]
    (by decide) (by decide) q aux old
  refine ⟨s', he, ?_⟩
  rw [(hv 1 (fun _ => 0) (by intro a; fin_cases a <;> decide)).1]
  have : (fun a => (qSides exampleBC).fold (fun _ => 0) a - exampleBC.g) =
      (fun a : Fin 2 => if a = 0 then 1 else 0) := by
    funext a; fin_cases a <;> decide
  rw [this]
  have hs : (qSides exampleBC).sign (K := ℚ) (fun a => some (exampleBC.reflect a)) [0, 1] 1 (fun _ => 0) = -1 := by
    simp [Sides.sign, Sides.behindWall, qSides, exampleBC]
  rw [hs, neg_one_mul]

/-- C15, the limit of validity: with fewer cells than ghost cells the first ghost entry is the *old*
content of another ghost entry, not a value of the state. -/
theorem C15_few_cells_stale (cfg : BCConfig Unit K) (hn : 0 < cfg.n ()) (hg : cfg.n () < cfg.g)
    (hx : cfg.numAux = 0)
    (hs : Serial cfg) (hl : cfg.bcLower () = .periodic) (hu : cfg.bcUpper () = .periodic)
    (q aux : GArr Unit K) (old : BCArrays Unit K) :
    ∃ s', applyBcs cfg [()] q aux old = (s', .ok ()) ∧
      ∀ c, s'.q c (fun _ => 0) = old.q c (fun _ => cfg.n ()) := by
  have h1 := (hs ()).1
  have h2 := (hs ()).2
  simp only [applyBcs, applyDims, applySide, h1, h2, hx, Nat.lt_irrefl, if_false, if_true, andThen,
    Bool.false_eq_true, applyOne, hl, hu, reduceCtorEq, Bool.true_eq_false, and_false, bcLowerArr, bcUpperArr]
  refine ⟨_, rfl, fun c => ?_⟩
  have h3 : ¬ (cfg.n () + 2 * cfg.g - cfg.g ≤ 0) := by omega
  have h4 : 0 < cfg.g := by omega
  simp only [h3, false_and, if_false, h4, if_true, zero_add]
  have : Function.update (fun _ : Unit => 0) () (cfg.n ()) = fun _ => cfg.n () := by
    funext x; simp
  rw [this]
  unfold embedInterior
  rw [if_neg]
  simp
  omega

/-- C16, the limit of validity: with fewer cells than ghost cells a wall, too, mirrors old ghost
content into the outermost ghost entry. -/
theorem C16_few_cells_stale (cfg : BCConfig Unit K) (hn : 0 < cfg.n ()) (hg : cfg.n () < cfg.g)
    (hx : cfg.numAux = 0) (hr : cfg.reflect () < cfg.numEqn)
    (hs : Serial cfg) (hl : cfg.bcLower () = .wall) (hu : cfg.bcUpper () = .wall)
    (q aux : GArr Unit K) (old : BCArrays Unit K) :
    ∃ s', applyBcs cfg [()] q aux old = (s', .ok ()) ∧
      ∀ c, c ≠ cfg.reflect () → s'.q c (fun _ => 0) = old.q c (fun _ => 2 * cfg.g - 1) := by
  have h1 := (hs ()).1
  have h2 := (hs ()).2
  simp only [applyBcs, applyDims, applySide, h1, h2, hx, Nat.lt_irrefl, if_false, if_true, andThen,
    Bool.false_eq_true, applyOne, hl, hu, reduceCtorEq, false_and]
  rw [bcLowerArr_eq _ _ _ _ _ (Or.inr (Or.inr rfl)) (fun _ _ => hr)]
  simp only
  rw [bcUpperArr_eq _ _ _ _ _ (Or.inr (Or.inr rfl)) (fun _ _ => hr) hn]
  refine ⟨_, rfl, fun c hc => ?_⟩
  have h3 : ¬ (cfg.g + cfg.n () ≤ 0) := by omega
  have h4 : 0 < cfg.g := by omega
  simp only [h3, false_and, if_false, h4, if_true, lowerSrc, Nat.sub_zero, wallSign, hc, and_false, one_mul]
  have : Function.update (fun _ : Unit => 0) () (2 * cfg.g - 1) = fun _ => 2 * cfg.g - 1 := by
    funext x; simp
  rw [this]
  unfold embedInterior
  rw [if_neg]
  simp
  omega

/-- A configuration to which the two theorems above apply. -/
example : ∃ cfg : BCConfig Unit ℚ, 0 < cfg.n () ∧ cfg.n () < cfg.g ∧ cfg.numAux = 0 ∧ Serial cfg ∧
    cfg.reflect () < cfg.numEqn ∧ cfg.bcLower () = .periodic ∧ cfg.bcUpper () = .periodic :=
  ⟨{ g := 2, n := fun _ => 1, numEqn := 2, numAux := 0, bcLower := fun _ => .periodic,
     bcUpper := fun _ => .periodic, auxLower := fun _ => .unset, auxUpper := fun _ => .unset,
     reflect := fun _ => 1, onLower := fun _ => true, onUpper := fun _ => true },
    by decide, by decide, rfl, fun _ => ⟨rfl, rfl⟩, by decide, rfl, rfl⟩

theorem loopRet_wall_error (cfg : BCConfig ι K) (a : ι) (hr : cfg.numEqn ≤ cfg.reflect a)
    (tgt src : Nat → Nat) (hg : 0 < g) (A : GArr ι K) :
    (loopRet (fun i A => wallRow cfg a (tgt i) (src i) A) (List.range g) A).2 = .error .indexError := by
  obtain ⟨m, rfl⟩ : ∃ m, g = m + 1 := ⟨g - 1, by omega⟩
  rw [List.range_succ_eq_map]
  simp [loopRet, wallRow, Nat.not_lt.mpr hr]

theorem loopRet_wall_ok (cfg : BCConfig ι K) (a : ι) (hr : cfg.reflect a < cfg.numEqn)
    (tgt src : Nat → Nat) (l : List Nat) (A : GArr ι K) :
    (loopRet (fun i A => wallRow cfg a (tgt i) (src i) A) l A).2 = .ok () := by
  induction l generalizing A with
  | nil => rfl
  | cons i l ih =>
    have hi : wallRow cfg a (tgt i) (src i) A =
        (negRow a (cfg.reflect a) (tgt i) (src i) (copyRow a (tgt i) (src i) A), .ok ()) := by
      simp [wallRow, hr]
    simp only [loopRet]
    rw [hi]
    exact ih _

theorem applyOne_result (cfg : BCConfig ι K) (upper isQ : Bool) (a : ι) (s : BCArrays ι K) :
    (applyOne cfg upper a isQ s).2 =
      match bcProblem cfg upper isQ a with
      | none => .ok ()
      | some e => .error e := by
  have hw : ∀ (tgt src : Nat → Nat) (A : GArr ι K),
      (loopRet (fun i A => wallRow cfg a (tgt i) (src i) A) (List.range cfg.g) A).2 =
      match (if True ∧ 0 < cfg.g ∧ cfg.numEqn ≤ cfg.reflect a then some PyErr.indexError else none) with
      | none => .ok ()
      | some e => .error e := by
    intro tgt src A
    by_cases h : cfg.numEqn ≤ cfg.reflect a
    · by_cases hg : 0 < cfg.g
      · rw [loopRet_wall_error cfg a h tgt src hg]; simp [h, hg]
      · have : cfg.g = 0 := by omega
        simp [this, loopRet]
    · rw [loopRet_wall_ok cfg a (by omega)]; simp [h]
  unfold applyOne bcProblem
  cases upper <;> cases isQ <;> simp only [] 
  · rcases ht : cfg.auxLower a <;> simp only [reduceCtorEq, if_false, if_true, false_and]
    · cases cfg.userAuxLower <;> simp
    · simp [bcLowerArr]
    · split_ifs <;> simp [bcLowerArr]
    · simp [bcLowerArr]
    · simp [bcLowerArr]
    · simp [bcLowerArr]
  · rcases ht : cfg.bcLower a <;> simp only [reduceCtorEq, if_false, if_true, false_and]
    · cases cfg.userLower <;> simp
    · simp [bcLowerArr]
    · split_ifs <;> simp [bcLowerArr]
    · simp only [bcLowerArr, if_true]; exact hw (fun i => i) (fun i => 2 * cfg.g - 1 - i) _
    · simp [bcLowerArr]
    · simp [bcLowerArr]
  · rcases ht : cfg.auxUpper a <;> simp only [reduceCtorEq, if_false, if_true, false_and]
    · cases cfg.userAuxUpper <;> simp
    · simp [bcUpperArr]
    · split_ifs <;> simp [bcUpperArr]
    · simp [bcUpperArr]
    · simp [bcUpperArr]
    · simp [bcUpperArr]
  · rcases ht : cfg.bcUpper a <;> simp only [reduceCtorEq, if_false, if_true, false_and]
    · cases cfg.userUpper <;> simp
    · simp [bcUpperArr]
    · split_ifs <;> simp [bcUpperArr]
    · simp only [bcUpperArr, if_true]
      exact hw (fun i => cfg.n a + 2 * cfg.g - 1 - i) (fun i => cfg.n a + 2 * cfg.g - 2 * cfg.g + i) _
    · simp [bcUpperArr]
    · simp [bcUpperArr]

/-- The first entry of a list of exceptions, as the outcome of a run. -/
def Spec.firstError (l : List PyErr) : Except PyErr Unit :=
  match l.head? with
  | none => .ok ()
  | some e => .error e

theorem firstError_append (l m : List PyErr) : firstError (l ++ m) =
    match firstError l with
    | .ok _ => firstError m
    | .error e => .error e := by
  cases l <;> simp [firstError]

theorem andThen_result {σ : Type*} (r : Ret σ Unit) (f : σ → Ret σ Unit) (x : Except PyErr Unit)
    (hf : ∀ s, (f s).2 = x) : (andThen r f).2 = match r.2 with
      | .ok _ => x
      | .error e => .error e := by
  rcases r with ⟨s, e | u⟩ <;> simp [andThen, hf]

/-- C18. Whatever the configuration and the arrays, filling the boundaries raises exactly the exception
of the first problematic side in processing order, and nothing if there is none: an unset condition
raises an exception, an unknown one raises `NotImplementedError`. -/
theorem C18_raises_first_problem (cfg : BCConfig ι K) (axes : List ι) (q aux : GArr ι K)
    (old : BCArrays ι K) :
    (applyBcs cfg axes q aux old).2 = firstError (bcProblems cfg axes) := by
  unfold applyBcs
  generalize BCArrays.mk _ _ = s
  have hone : ∀ upper isQ a s, (applyOne cfg upper a isQ s).2 =
      firstError ([(upper, isQ)].filterMap fun s => bcProblem cfg s.1 s.2 a) := by
    intro upper isQ a s
    rw [applyOne_result]
    cases h : bcProblem cfg upper isQ a <;> simp [firstError, h]
  have hside : ∀ upper a s, (applySide cfg upper a s).2 =
      firstError ((if (if upper then cfg.onUpper a else cfg.onLower a) then
        (if 0 < cfg.numAux then [(upper, false)] else []) ++ [(upper, true)] else []).filterMap
          fun s => bcProblem cfg s.1 s.2 a) := by
    intro upper a s
    unfold applySide
    by_cases hb : (if upper then cfg.onUpper a else cfg.onLower a) = true
    · rw [if_pos hb, if_pos hb, andThen_result _ _ _ (hone upper true a), List.filterMap_append,
        firstError_append]
      by_cases hx : 0 < cfg.numAux
      · rw [if_pos hx, if_pos hx, hone]
      · rw [if_neg hx, if_neg hx]; simp [firstError]
    · rw [if_neg hb, if_neg hb]; simp [firstError]
  induction axes generalizing s with
  | nil => simp [applyDims, bcProblems, firstError]
  | cons a as ih =>
    rw [applyDims, andThen_result _ _ _ ih, andThen_result _ _ _ (hside true a), hside false a]
    simp only [bcProblems, List.flatMap_cons, sidesOf, List.filterMap_append, firstError_append,
      Bool.false_eq_true, if_true, if_false]

/-- C18, in particular: a boundary whose condition was never set makes the step fail. -/
theorem C18_unset_raises (cfg : BCConfig ι K) (axes : List ι) (a : ι) (ha : a ∈ axes) (q aux : GArr ι K)
    (old : BCArrays ι K)
    (h : (cfg.onLower a = true ∧ (cfg.bcLower a = .unset ∨ cfg.bcLower a = .unknown)) ∨
      (cfg.onUpper a = true ∧ (cfg.bcUpper a = .unset ∨ cfg.bcUpper a = .unknown)) ∨
      (0 < cfg.numAux ∧ cfg.onLower a = true ∧ (cfg.auxLower a = .unset ∨ cfg.auxLower a = .unknown)) ∨
      (0 < cfg.numAux ∧ cfg.onUpper a = true ∧ (cfg.auxUpper a = .unset ∨ cfg.auxUpper a = .unknown))) :
    ∃ e, (applyBcs cfg axes q aux old).2 = .error e := by
  rw [C18_raises_first_problem]
  have hne : bcProblems cfg axes ≠ [] := by
    have : ∃ e, e ∈ bcProblems cfg axes := by
      simp only [bcProblems, List.mem_flatMap, List.mem_filterMap, sidesOf]
      rcases h with ⟨h1, h2 | h2⟩ | ⟨h1, h2 | h2⟩ | ⟨h0, h1, h2 | h2⟩ | ⟨h0, h1, h2 | h2⟩
      · exact ⟨_, a, ha, (false, true), by simp [h1], by simp [bcProblem, h2]; rfl⟩
      · exact ⟨_, a, ha, (false, true), by simp [h1], by simp [bcProblem, h2]; rfl⟩
      · exact ⟨_, a, ha, (true, true), by simp [h1], by simp [bcProblem, h2]; rfl⟩
      · exact ⟨_, a, ha, (true, true), by simp [h1], by simp [bcProblem, h2]; rfl⟩
      · exact ⟨_, a, ha, (false, false), by simp [h1, h0], by simp [bcProblem, h2]; rfl⟩
      · exact ⟨_, a, ha, (false, false), by simp [h1, h0], by simp [bcProblem, h2]; rfl⟩
      · exact ⟨_, a, ha, (true, false), by simp [h1, h0], by simp [bcProblem, h2]; rfl⟩
      · exact ⟨_, a, ha, (true, false), by simp [h1, h0], by simp [bcProblem, h2]; rfl⟩
    obtain ⟨e, he⟩ := this
    exact List.ne_nil_of_mem he
  obtain ⟨e, l, hl⟩ := List.exists_cons_of_ne_nil hne
  exact ⟨e, by simp [firstError, hl]⟩

end PyClaw
