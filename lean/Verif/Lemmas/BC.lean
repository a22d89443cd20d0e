import Verif.Spec.BC
import Mathlib.Algebra.Ring.Basic
import Mathlib.Tactic.Ring
import Mathlib.Tactic.SplitIfs
set_option linter.unusedSectionVars false
set_option linter.unusedSimpArgs false

namespace PyClaw
open Spec

variable {ι K : Type*} [DecidableEq ι] [Ring K]

theorem foldl_copyRow (a : ι) (tgt src : Nat → Nat) (g : Nat)
    (hinj : ∀ i < g, ∀ j < g, tgt i = tgt j → i = j) (hsrc : ∀ i < g, ∀ j < g, src i ≠ tgt j)
    (A : GArr ι K) : ∀ k ≤ g, ∀ c idx,
      ((List.range k).foldl (fun A i => copyRow a (tgt i) (src i) A) A) c idx =
        if h : ∃ i < k, idx a = tgt i then A c (Function.update idx a (src h.choose)) else A c idx := by
  intro k
  induction k with
  | zero => intro _ c idx; simp
  | succ k ih =>
    intro hk c idx
    rw [List.range_succ, List.foldl_append]
    simp only [List.foldl_cons, List.foldl_nil]
    unfold copyRow
    by_cases h1 : idx a = tgt k
    · have hex : ∃ i < k + 1, idx a = tgt i := ⟨k, by omega, h1⟩
      rw [if_pos h1, dif_pos hex]
      have hch : hex.choose = k := by
        obtain ⟨hl, he⟩ := hex.choose_spec
        exact hinj _ (by omega) _ (by omega) (he.symm.trans h1)
      rw [hch]
      have := ih (by omega) c (Function.update idx a (src k))
      unfold copyRow at this
      rw [this, dif_neg]
      rintro ⟨i, hi, he⟩
      rw [Function.update_self] at he
      exact hsrc k (by omega) i (by omega) he
    · rw [if_neg h1]
      have := ih (by omega) c idx
      unfold copyRow at this
      rw [this]
      by_cases h2 : ∃ i < k, idx a = tgt i
      · have hex : ∃ i < k + 1, idx a = tgt i := by
          obtain ⟨i, hi, he⟩ := h2; exact ⟨i, by omega, he⟩
        rw [dif_pos h2, dif_pos hex]
        have : h2.choose = hex.choose := by
          obtain ⟨hl, he⟩ := hex.choose_spec
          obtain ⟨hl', he'⟩ := h2.choose_spec
          exact hinj _ (by omega) _ (by omega) (he'.symm.trans he)
        rw [this]
      · rw [dif_neg h2, dif_neg]
        rintro ⟨i, hi, he⟩
        rcases Nat.lt_succ_iff_lt_or_eq.mp hi with h | h
        · exact h2 ⟨i, h, he⟩
        · exact h1 (h ▸ he)

theorem loopRet_wallRow (cfg : BCConfig ι K) (a : ι) (hr : cfg.reflect a < cfg.numEqn)
    (tgt src : Nat → Nat) (g : Nat)
    (hinj : ∀ i < g, ∀ j < g, tgt i = tgt j → i = j) (hsrc : ∀ i < g, ∀ j < g, src i ≠ tgt j)
    (A : GArr ι K) : ∀ k ≤ g,
      loopRet (fun i A => wallRow cfg a (tgt i) (src i) A) (List.range k) A =
        (fun c idx => if h : ∃ i < k, idx a = tgt i then
            (if c = cfg.reflect a then -A c (Function.update idx a (src h.choose))
              else A c (Function.update idx a (src h.choose))) else A c idx, .ok ()) := by
  have happ : ∀ (f : Nat → GArr ι K → Ret (GArr ι K) Unit) (l : List Nat) (x : Nat) (A B : GArr ι K),
      loopRet f l A = (B, .ok ()) → loopRet f (l ++ [x]) A = f x B := by
    intro f l x
    induction l with
    | nil =>
      intro A B h
      simp only [loopRet, Prod.mk.injEq, and_true] at h
      subst h
      simp only [List.nil_append, loopRet]
      rcases hfx : f x A with ⟨s, e | u⟩ <;> simp [hfx]
    | cons y l ih =>
      intro A B h
      simp only [List.cons_append, loopRet] at h ⊢
      rcases hfy : f y A with ⟨s, e | u⟩
      · rw [hfy] at h; simp at h
      · rw [hfy] at h; simp only at h ⊢; exact ih _ _ h
  intro k
  induction k with
  | zero => intro _; simp [loopRet]
  | succ k ih =>
    intro hk
    rw [List.range_succ, happ _ _ _ _ _ (ih (by omega))]
    simp only [wallRow, if_pos hr]
    congr 1
    funext c idx
    unfold negRow copyRow
    by_cases h1 : idx a = tgt k
    · have hex : ∃ i < k + 1, idx a = tgt i := ⟨k, by omega, h1⟩
      have hch : hex.choose = k := by
        obtain ⟨hl, he⟩ := hex.choose_spec
        exact hinj _ (by omega) _ (by omega) (he.symm.trans h1)
      have hno : ¬ ∃ i < k, src k = tgt i := by
        rintro ⟨i, hi, he⟩; exact hsrc k (by omega) i (by omega) he
      have hne : src k ≠ tgt k := hsrc k (by omega) k (by omega)
      rw [dif_pos hex, hch]
      simp only [h1, and_true, if_true, Function.update_self, hne, if_false, dif_neg hno]
    · simp only [h1, and_false, if_false]
      by_cases h2 : ∃ i < k, idx a = tgt i
      · have hex : ∃ i < k + 1, idx a = tgt i := by
          obtain ⟨i, hi, he⟩ := h2; exact ⟨i, by omega, he⟩
        rw [dif_pos h2, dif_pos hex]
        have : h2.choose = hex.choose := by
          obtain ⟨hl, he⟩ := hex.choose_spec
          obtain ⟨hl', he'⟩ := h2.choose_spec
          exact hinj _ (by omega) _ (by omega) (he'.symm.trans he)
        rw [this]
      · rw [dif_neg h2, dif_neg]
        rintro ⟨i, hi, he⟩
        rcases Nat.lt_succ_iff_lt_or_eq.mp hi with h | h
        · exact h2 ⟨i, h, he⟩
        · exact h1 (h ▸ he)

/-- The factor a value gets on one side. -/
def wallSign (cfg : BCConfig ι K) (t : BCType) (a : ι) (isQ : Bool) (c : Nat) : K :=
  if isQ = true ∧ t = .wall ∧ c = cfg.reflect a then -1 else 1

theorem bcLowerArr_eq (cfg : BCConfig ι K) (t : BCType) (a : ι) (isQ : Bool) (A : GArr ι K)
    (ht : BuiltInBC t) (hr : isQ = true → t = .wall → cfg.reflect a < cfg.numEqn) :
    bcLowerArr cfg t a isQ A =
      (fun c idx => if idx a < cfg.g then
          wallSign cfg t a isQ c * A c (Function.update idx a (lowerSrc t cfg.g (cfg.n a) (idx a)))
        else A c idx, .ok ()) := by
  rcases ht with rfl | rfl | rfl
  · simp only [bcLowerArr, lowerSrc, wallSign]
    congr 1
    funext c idx
    rw [foldl_copyRow a (fun i => i) (fun _ => cfg.g) cfg.g (by intros; assumption)
      (by intro i hi j hj; omega) A cfg.g le_rfl]
    by_cases h : idx a < cfg.g
    · rw [dif_pos ⟨idx a, h, rfl⟩, if_pos h]; simp
    · rw [dif_neg (by rintro ⟨i, hi, he⟩; omega), if_neg h]
  · simp [bcLowerArr, lowerSrc, wallSign]
  · cases isQ
    · simp only [bcLowerArr, lowerSrc, wallSign, Bool.false_eq_true, if_false, false_and]
      congr 1
      funext c idx
      rw [foldl_copyRow a (fun i => i) (fun i => 2 * cfg.g - 1 - i) cfg.g (by intros; assumption)
        (by intro i hi j hj; omega) A cfg.g le_rfl]
      by_cases h : idx a < cfg.g
      · have hex : ∃ i < cfg.g, idx a = i := ⟨idx a, h, rfl⟩
        rw [dif_pos hex, if_pos h, ← hex.choose_spec.2]; simp
      · rw [dif_neg (by rintro ⟨i, hi, he⟩; omega), if_neg h]
    · simp only [bcLowerArr, lowerSrc, wallSign, if_true, true_and]
      rw [loopRet_wallRow cfg a (hr rfl rfl) (fun i => i) (fun i => 2 * cfg.g - 1 - i) cfg.g
        (by intros; assumption) (by intro i hi j hj; omega) A cfg.g le_rfl]
      congr 1
      funext c idx
      by_cases h : idx a < cfg.g
      · have hex : ∃ i < cfg.g, idx a = i := ⟨idx a, h, rfl⟩
        rw [dif_pos hex, if_pos h, ← hex.choose_spec.2]
        split_ifs <;> simp
      · rw [dif_neg (by rintro ⟨i, hi, he⟩; omega), if_neg h]

theorem bcUpperArr_eq (cfg : BCConfig ι K) (t : BCType) (a : ι) (isQ : Bool) (A : GArr ι K)
    (ht : BuiltInBC t) (hr : isQ = true → t = .wall → cfg.reflect a < cfg.numEqn) (hn : 0 < cfg.n a) :
    bcUpperArr cfg t a isQ A =
      (fun c idx => if cfg.g + cfg.n a ≤ idx a ∧ idx a < cfg.n a + 2 * cfg.g then
          wallSign cfg t a isQ c * A c (Function.update idx a (upperSrc t cfg.g (cfg.n a) (idx a)))
        else A c idx, .ok ()) := by
  have key : ∀ x : Nat, (cfg.g + cfg.n a ≤ x ∧ x < cfg.n a + 2 * cfg.g) →
      ∃ i < cfg.g, x = cfg.n a + 2 * cfg.g - 1 - i := by
    intro x hx; exact ⟨cfg.n a + 2 * cfg.g - 1 - x, by omega, by omega⟩
  have keyn : ∀ x : Nat, ¬(cfg.g + cfg.n a ≤ x ∧ x < cfg.n a + 2 * cfg.g) →
      ¬ ∃ i < cfg.g, x = cfg.n a + 2 * cfg.g - 1 - i := by
    rintro x hx ⟨i, hi, he⟩; omega
  rcases ht with rfl | rfl | rfl
  · simp only [bcUpperArr, upperSrc, wallSign]
    congr 1
    funext c idx
    rw [foldl_copyRow a (fun i => cfg.n a + 2 * cfg.g - 1 - i) (fun _ => cfg.n a + 2 * cfg.g - cfg.g - 1)
      cfg.g (by intro i hi j hj h; omega)
      (by intro i hi j hj; omega) A cfg.g le_rfl]
    by_cases h : cfg.g + cfg.n a ≤ idx a ∧ idx a < cfg.n a + 2 * cfg.g
    · rw [dif_pos (key _ h), if_pos h]
      have : cfg.n a + 2 * cfg.g - cfg.g - 1 = cfg.g + cfg.n a - 1 := by omega
      simp [this]
    · rw [dif_neg (keyn _ h), if_neg h]
  · simp only [bcUpperArr, upperSrc, wallSign]
    have : cfg.n a + 2 * cfg.g - cfg.g = cfg.g + cfg.n a := by omega
    simp [this]
  · cases isQ
    · simp only [bcUpperArr, upperSrc, wallSign, Bool.false_eq_true, if_false, false_and]
      congr 1
      funext c idx
      rw [foldl_copyRow a (fun i => cfg.n a + 2 * cfg.g - 1 - i)
        (fun i => cfg.n a + 2 * cfg.g - 2 * cfg.g + i)
        cfg.g (by intro i hi j hj h; omega)
        (by intro i hi j hj; omega) A cfg.g le_rfl]
      by_cases h : cfg.g + cfg.n a ≤ idx a ∧ idx a < cfg.n a + 2 * cfg.g
      · rw [dif_pos (key _ h), if_pos h]
        obtain ⟨h1, h2⟩ := (key _ h).choose_spec
        have : cfg.n a + 2 * cfg.g - 2 * cfg.g + (key _ h).choose = 2 * (cfg.g + cfg.n a) - 1 - idx a := by
          omega
        rw [this]; simp
      · rw [dif_neg (keyn _ h), if_neg h]
    · simp only [bcUpperArr, upperSrc, wallSign, if_true, true_and]
      rw [loopRet_wallRow cfg a (hr rfl rfl) (fun i => cfg.n a + 2 * cfg.g - 1 - i)
        (fun i => cfg.n a + 2 * cfg.g - 2 * cfg.g + i) cfg.g
        (by intro i hi j hj h; omega) (by intro i hi j hj; omega) A cfg.g le_rfl]
      congr 1
      funext c idx
      by_cases h : cfg.g + cfg.n a ≤ idx a ∧ idx a < cfg.n a + 2 * cfg.g
      · rw [dif_pos (key _ h), if_pos h]
        obtain ⟨h1, h2⟩ := (key _ h).choose_spec
        have : cfg.n a + 2 * cfg.g - 2 * cfg.g + (key _ h).choose = 2 * (cfg.g + cfg.n a) - 1 - idx a := by
          omega
        rw [this]
        split_ifs <;> simp
      · rw [dif_neg (keyn _ h), if_neg h]

/-- Effect of filling one lower side. -/
def fillLower (b : Sides ι) (flip : ι → Option Nat) (a : ι) (A : GArr ι K) : GArr ι K :=
  match b.lower a with
  | none => A
  | some t => fun c idx => if idx a < b.g then
      (if t = .wall ∧ flip a = some c then -1 else 1) *
        A c (Function.update idx a (lowerSrc t b.g (b.n a) (idx a)))
    else A c idx

/-- Effect of filling one upper side. -/
def fillUpper (b : Sides ι) (flip : ι → Option Nat) (a : ι) (A : GArr ι K) : GArr ι K :=
  match b.upper a with
  | none => A
  | some t => fun c idx => if b.g + b.n a ≤ idx a ∧ idx a < b.n a + 2 * b.g then
      (if t = .wall ∧ flip a = some c then -1 else 1) *
        A c (Function.update idx a (upperSrc t b.g (b.n a) (idx a)))
    else A c idx

theorem builtIn_ne_custom {t : BCType} (h : BuiltInBC t) : t ≠ .custom := by
  rcases h with rfl | rfl | rfl <;> simp

theorem applySide_lower (cfg : BCConfig ι K) (h : Admissible cfg) (a : ι) (s : BCArrays ι K) :
    applySide cfg false a s =
      ({ q := fillLower (qSides cfg) (fun a => some (cfg.reflect a)) a s.q
         aux := fillLower (auxSides cfg) (fun _ => none) a s.aux }, .ok ()) := by
  have hq := builtIn_ne_custom (h.lower a)
  unfold applySide
  by_cases hl : cfg.onLower a = true
  · simp only [Bool.false_eq_true, if_false, hl, if_true]
    have haux : (if 0 < cfg.numAux then applyOne cfg false a false s else (s, .ok ())) =
        ({ s with aux := fillLower (auxSides cfg) (fun _ => none) a s.aux }, .ok ()) := by
      by_cases hx : 0 < cfg.numAux
      · have hc := builtIn_ne_custom (h.auxLower hx a)
        simp only [hx, if_true, applyOne, hc, if_false, Bool.false_eq_true]
        by_cases hp : cfg.auxLower a = .periodic ∧ cfg.onUpper a = false
        · simp [hp, fillLower, auxSides]
        · rw [if_neg hp, bcLowerArr_eq _ _ _ _ _ (h.auxLower hx a) (by simp)]
          simp only [fillLower, auxSides, hx, hl, hp, not_false_eq_true, and_self, if_true]
          simp [wallSign]
      · simp [hx, fillLower, auxSides]
    rw [haux]
    simp only [andThen, applyOne, hq, if_false, Bool.false_eq_true]
    by_cases hp : cfg.bcLower a = .periodic ∧ cfg.onUpper a = false
    · simp [hp, fillLower, qSides]
    · rw [if_neg hp]
      simp only [if_true]
      rw [bcLowerArr_eq _ _ _ _ _ (h.lower a) (fun _ hw => h.reflect a (Or.inl hw))]
      simp only [fillLower, qSides, hl, hp, not_false_eq_true, and_self, if_true]
      simp [wallSign, eq_comm]
  · simp [hl, fillLower, qSides, auxSides]

theorem applySide_upper (cfg : BCConfig ι K) (h : Admissible cfg) (a : ι) (s : BCArrays ι K) :
    applySide cfg true a s =
      ({ q := fillUpper (qSides cfg) (fun a => some (cfg.reflect a)) a s.q
         aux := fillUpper (auxSides cfg) (fun _ => none) a s.aux }, .ok ()) := by
  have hq := builtIn_ne_custom (h.upper a)
  unfold applySide
  by_cases hl : cfg.onUpper a = true
  · simp only [hl, if_true]
    have haux : (if 0 < cfg.numAux then applyOne cfg true a false s else (s, .ok ())) =
        ({ s with aux := fillUpper (auxSides cfg) (fun _ => none) a s.aux }, .ok ()) := by
      by_cases hx : 0 < cfg.numAux
      · have hc := builtIn_ne_custom (h.auxUpper hx a)
        simp only [hx, if_true, applyOne, hc, if_false, Bool.false_eq_true]
        by_cases hp : cfg.auxUpper a = .periodic ∧ cfg.onLower a = false
        · simp [hp, fillUpper, auxSides]
        · rw [if_neg hp, bcUpperArr_eq _ _ _ _ _ (h.auxUpper hx a) (by simp) (h.cells a).1]
          simp only [fillUpper, auxSides, hx, hl, hp, not_false_eq_true, and_self, if_true]
          simp [wallSign]
      · simp [hx, fillUpper, auxSides]
    rw [haux]
    simp only [andThen, applyOne, hq, if_false]
    by_cases hp : cfg.bcUpper a = .periodic ∧ cfg.onLower a = false
    · simp [hp, fillUpper, qSides]
    · rw [if_neg (by simpa using hp)]
      simp only [if_true]
      rw [bcUpperArr_eq _ _ _ _ _ (h.upper a) (fun _ hw => h.reflect a (Or.inr hw)) (h.cells a).1]
      simp only [fillUpper, qSides, hl, hp, not_false_eq_true, and_self, if_true]
      simp [wallSign, eq_comm]
  · simp [hl, fillUpper, qSides, auxSides]

/-- A pair of sides whose ghost coordinates all come from the interior. -/
structure Sides.Good (b : Sides ι) : Prop where
  cells : ∀ a, 0 < b.n a ∧ b.g ≤ b.n a
  lower : ∀ a t, b.lower a = some t → BuiltInBC t
  upper : ∀ a t, b.upper a = some t → BuiltInBC t

theorem fill_axis (b : Sides ι) (hb : Sides.Good b) (flip : ι → Option Nat) (a : ι) (A : GArr ι K) (c : Nat)
    (idx : ι → Nat) (hin : idx a < b.n a + 2 * b.g) :
    fillUpper b flip a (fillLower b flip a A) c idx =
      (if b.behindWall a (idx a) && flip a == some c then -1 else 1) *
        A c (Function.update idx a (b.src a (idx a))) := by
  have hc := hb.cells a
  by_cases h1 : idx a < b.g
  · have hn : ¬(b.g + b.n a ≤ idx a) := by omega
    have : fillUpper b flip a (fillLower b flip a A) c idx = fillLower b flip a A c idx := by
      unfold fillUpper; cases b.upper a <;> simp [hn]
    rw [this]
    unfold fillLower Sides.src Sides.behindWall
    cases hl : b.lower a with
    | none => simp [h1, hn]
    | some t => cases t <;> simp [h1, hn]
  · by_cases h2 : b.g + b.n a ≤ idx a
    · unfold fillUpper
      have hsrc : Sides.src b a (idx a) = match b.upper a with
        | some t => upperSrc t b.g (b.n a) (idx a)
        | none => idx a := by
          unfold Sides.src; rw [if_neg h1, if_pos h2]; cases b.upper a <;> rfl
      have hlow : ∀ i : ι → Nat, ¬ i a < b.g → fillLower b flip a A c i = A c i := by
        intro i hi; unfold fillLower; cases b.lower a <;> simp [hi]
      cases hu : b.upper a with
      | none =>
        rw [hu] at hsrc
        simp only at hsrc ⊢
        rw [hsrc, Function.update_eq_self, hlow _ h1]
        simp [Sides.behindWall, hu, h1]
      | some t =>
        rw [hu] at hsrc
        simp only at hsrc ⊢
        rw [if_pos ⟨h2, hin⟩, hsrc, hlow]
        · simp only [Sides.behindWall, hu, h1, h2]
          cases t <;> simp
        · rw [Function.update_self]
          rcases hb.upper a t hu with rfl | rfl | rfl <;> simp only [upperSrc] <;> omega
    · have h3 : fillUpper b flip a (fillLower b flip a A) c idx = A c idx := by
        unfold fillUpper fillLower
        cases b.upper a <;> cases b.lower a <;> simp [h1, h2]
      rw [h3]
      simp [Sides.src, Sides.behindWall, h1, h2]

/-- Folding only along the axes of a list. -/
def foldOn (b : Sides ι) (axes : List ι) (idx : ι → Nat) : ι → Nat :=
  fun a => if a ∈ axes then b.src a (idx a) else idx a

theorem src_lt (b : Sides ι) (hb : Sides.Good b) (a : ι) (k : Nat) (h : k < b.n a + 2 * b.g) :
    b.src a k < b.n a + 2 * b.g := by
  have hc := hb.cells a
  unfold Sides.src
  split_ifs with h1 h2
  · cases hl : b.lower a with
    | none => simpa using h
    | some t => rcases hb.lower a t hl with rfl | rfl | rfl <;> simp only [lowerSrc] <;> omega
  · cases hl : b.upper a with
    | none => simpa using h
    | some t => rcases hb.upper a t hl with rfl | rfl | rfl <;> simp only [upperSrc] <;> omega
  · exact h

/-- The two arrays, filled along the axes of a list in order. -/
def fillAxes (b : Sides ι) (flip : ι → Option Nat) : List ι → GArr ι K → GArr ι K
  | [], A => A
  | a :: as, A => fillAxes b flip as (fillUpper b flip a (fillLower b flip a A))

theorem applyDims_eq (cfg : BCConfig ι K) (h : Admissible cfg) (axes : List ι) (s : BCArrays ι K) :
    applyDims cfg axes s =
      ({ q := fillAxes (qSides cfg) (fun a => some (cfg.reflect a)) axes s.q
         aux := fillAxes (auxSides cfg) (fun _ => none) axes s.aux }, .ok ()) := by
  induction axes generalizing s with
  | nil => rfl
  | cons a as ih =>
    rw [applyDims, applySide_lower cfg h]
    simp only [andThen, applySide_upper cfg h, ih, fillAxes]

theorem fillAxes_eq (b : Sides ι) (hb : Sides.Good b) (flip : ι → Option Nat) (axes : List ι)
    (hnd : axes.Nodup) (A : GArr ι K) (c : Nat) (idx : ι → Nat) (hin : ∀ a, idx a < b.n a + 2 * b.g) :
    fillAxes b flip axes A c idx = b.sign flip axes c idx * A c (foldOn b axes idx) := by
  induction axes generalizing A with
  | nil =>
    have : foldOn b [] idx = idx := by funext a; simp [foldOn]
    simp [fillAxes, Sides.sign, this]
  | cons a as ih =>
    have hna : a ∉ as := (List.nodup_cons.mp hnd).1
    rw [fillAxes, ih (List.nodup_cons.mp hnd).2, fill_axis b hb]
    · have h1 : foldOn b as idx a = idx a := by simp [foldOn, hna]
      have h2 : Function.update (foldOn b as idx) a (b.src a (idx a)) = foldOn b (a :: as) idx := by
        funext x
        by_cases hx : x = a
        · subst hx; simp [foldOn]
        · simp [foldOn, hx]
      rw [h1, h2]
      simp only [Sides.sign, List.map_cons, List.prod_cons]
      rw [← mul_assoc]
      congr 1
      split_ifs <;> simp
    · simp only [foldOn, hna, if_false]; exact hin a

theorem qSides_good (cfg : BCConfig ι K) (h : Admissible cfg) : Sides.Good (qSides cfg) where
  cells := h.cells
  lower a t ht := by
    simp only [qSides] at ht; split_ifs at ht; cases ht; exact h.lower a
  upper a t ht := by
    simp only [qSides] at ht; split_ifs at ht; cases ht; exact h.upper a

theorem auxSides_good (cfg : BCConfig ι K) (h : Admissible cfg) : Sides.Good (auxSides cfg) where
  cells := h.cells
  lower a t ht := by
    simp only [auxSides] at ht; split_ifs at ht with hx; cases ht; exact h.auxLower hx.1 a
  upper a t ht := by
    simp only [auxSides] at ht; split_ifs at ht with hx; cases ht; exact h.auxUpper hx.1 a

end PyClaw
