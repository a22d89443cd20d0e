import Verif.Props.Mirror

/-!
C92: a reflecting wall acts like a mirror. A run on a grid with a wall gives what a run without wall gives on the grid continued by its
image behind the wall.
-/
set_option linter.unusedSectionVars false

namespace PyClaw
open Spec

variable {K : Type*} [Field K] [LinearOrder K] [IsStrictOrderedRing K] {m w naux : Nat}

/-- The cells of a line in terms of the data. -/
theorem line_values (bc : BCConfig (Fin 1) K) {A : (Fin 1 → Int) → Fin naux → K}
    {Q : (Fin 1 → Int) → Fin m → K} {q aux : GArr (Fin 1) K} (f : FilledBy bc (List.finRange 1) m naux A Q q aux) (j : Int)
    (j1 : 1 - (bc.g : Int) ≤ j) (j2 : j ≤ bc.n 0 + bc.g) :
    ((Q fun _ => j) = if pastWall (bc.bcLower 0) (bc.bcUpper 0) (bc.n 0) j = true then
        signed (reflectSign bc m) (fun k => q k.val fun _ => foldCell (bc.bcLower 0) (bc.bcUpper 0) (bc.n 0) j)
      else fun k => q k.val fun _ => foldCell (bc.bcLower 0) (bc.bcUpper 0) (bc.n 0) j) ∧
    (A fun _ => j) = auxAt naux aux fun _ => foldCell (bc.auxLower 0) (bc.auxUpper 0) (bc.n 0) j := by
  have one : ∀ g : Fin 1 → Nat, g = fun _ => g 0 := fun g => funext fun b => by rw [Subsingleton.elim b 0]
  have h := f (fun _ => j) (fun b => by rw [Subsingleton.elim b 0]; omega)
  rw [one fun b => foldCell (bc.auxLower b) (bc.auxUpper b) (bc.n b) j] at h
  refine ⟨?_, h.2⟩
  rw [h.1]
  funext k
  rw [one fun b => foldCell (bc.bcLower b) (bc.bcUpper b) (bc.n b) j]
  have e : ghostSign bc (List.finRange 1) (fun _ => j) k.val =
      if pastWall (bc.bcLower 0) (bc.bcUpper 0) (bc.n 0) j = true ∧ bc.reflect 0 = k.val then (-1 : K) else 1 := by
    unfold ghostSign
    simp [List.finRange]
  rw [e]
  by_cases h : pastWall (bc.bcLower 0) (bc.bcUpper 0) (bc.n 0) j = true
  · rw [if_pos h]
    unfold signed reflectSign
    by_cases hk : k.val = bc.reflect 0
    · rw [if_pos ⟨h, hk.symm⟩, if_pos hk]
    · rw [if_neg (fun h => hk h.2.symm), if_neg hk]
  · rw [if_neg h, if_neg (fun h' => h h'.1), one_mul]

/-- The ghosted fields of the unfolded data. -/
theorem unfold_fill (bc : BCConfig (Fin 1) K) (ha : Admissible bc) (hx : bc.numAux = naux) (hw : bc.bcUpper 0 = .wall)
    (hwx : 0 < naux → bc.auxUpper 0 = .wall) (hp : bc.bcLower 0 ≠ .periodic) (hpx : 0 < naux → bc.auxLower 0 ≠ .periodic)
    {A A' : (Fin 1 → Int) → Fin naux → K} {Q Q' : (Fin 1 → Int) → Fin m → K} {q q' aux aux' : GArr (Fin 1) K}
    (f : FilledBy bc (List.finRange 1) m naux A Q q aux) (f' : FilledBy (unfoldBC bc) (List.finRange 1) m naux A' Q' q' aux')
    (hq : ∀ y : Nat, y < 2 * bc.n 0 → (fun k : Fin m => q' k.val fun _ => y) =
      if y < bc.n 0 then fun k => q k.val fun _ => y else signed (reflectSign bc m) fun k => q k.val fun _ => 2 * bc.n 0 - 1 - y)
    (haux : ∀ y : Nat, y < 2 * bc.n 0 → auxAt naux aux' (fun _ => y) =
      if y < bc.n 0 then auxAt naux aux (fun _ => y) else auxAt naux aux fun _ => 2 * bc.n 0 - 1 - y)
    (j : Int) :
    (1 - (bc.g : Int) ≤ j → j ≤ bc.n 0 + bc.g → (Q' fun _ => j) = (Q fun _ => j) ∧ (A' fun _ => j) = A fun _ => j) ∧
    ((bc.n 0 : Int) + 1 - bc.g ≤ j → j ≤ 2 * bc.n 0 + bc.g →
      (Q' fun _ => j) = signed (reflectSign bc m) (Q fun _ => 2 * bc.n 0 + 1 - j) ∧ (A' fun _ => j) = A fun _ => 2 * bc.n 0 + 1 - j) := by
  have hc := ha.cells 0
  have hn : ((unfoldBC bc).n 0 : Int) = 2 * bc.n 0 := by simp [unfoldBC]
  have hn' : (unfoldBC bc).n 0 = 2 * bc.n 0 := rfl
  have hgg : (unfoldBC bc).g = bc.g := rfl
  have hss := signed_signed (reflectSign_isSign bc m)
  have v := fun j j1 j2 => line_values bc f j j1 j2
  have v' := fun j j1 j2 => line_values (unfoldBC bc) f' j j1 j2
  rw [hn, hgg] at v'
  have hs : reflectSign (unfoldBC bc) m = reflectSign bc m := rfl
  -- the fields of `q`, on the left part
  have qleft : ∀ j : Int, 1 - (bc.g : Int) ≤ j → j ≤ bc.n 0 + bc.g → (Q' fun _ => j) = Q fun _ => j := by
    intro j j1 j2
    rw [(v j j1 j2).1, (v' j j1 (by omega)).1, hw, hs]
    have hl : (unfoldBC bc).bcLower 0 = bc.bcLower 0 := rfl
    have hu : (unfoldBC bc).bcUpper 0 = bc.bcLower 0 := rfl
    rw [hl, hu, hn']
    unfold foldCell pastWall
    by_cases h1 : j < 1
    · have e1 : ¬ ((2 * bc.n 0 : Nat) : Int) < j := by omega
      have e2 : ¬ (bc.n 0 : Int) < j := by omega
      simp only [if_pos h1, decide_eq_true h1, decide_eq_false e1, decide_eq_false e2, Bool.true_and, Bool.false_and, Bool.or_false]
      rcases ha.lower 0 with hl | hl | hl
      · rw [hl]
        simp only [beq_iff_eq, reduceCtorEq, if_false]
        rw [hq 0 (by omega), if_pos (by omega)]
      · exact absurd hl hp
      · rw [hl]
        simp only [beq_self_eq_true, if_true]
        rw [hq _ (by omega), if_pos (by omega)]
    · have e1 : ¬ ((2 * bc.n 0 : Nat) : Int) < j := by omega
      simp only [if_neg h1, if_neg e1, decide_eq_false h1, decide_eq_false e1, Bool.false_and, Bool.or_false, Bool.false_or]
      rw [if_neg (by simp), hq _ (by omega)]
      by_cases h2 : (bc.n 0 : Int) < j
      · rw [if_neg (by omega)]
        simp only [if_pos h2, decide_eq_true h2, beq_self_eq_true, Bool.and_self, if_true]
        rw [show 2 * bc.n 0 - 1 - (j - 1).toNat = (2 * (bc.n 0 : Int) - j).toNat by omega]
      · rw [if_pos (by omega)]
        simp only [if_neg h2, decide_eq_false h2, Bool.false_and, Bool.false_eq_true, if_false]
  have qright : ∀ j : Int, (bc.n 0 : Int) + 1 - bc.g ≤ j → j ≤ 2 * bc.n 0 + bc.g →
      (Q' fun _ => j) = signed (reflectSign bc m) (Q fun _ => 2 * bc.n 0 + 1 - j) := by
    intro j j1 j2
    rw [(v (2 * bc.n 0 + 1 - j) (by omega) (by omega)).1, (v' j (by omega) (by omega)).1, hw, hs]
    have hl : (unfoldBC bc).bcLower 0 = bc.bcLower 0 := rfl
    have hu : (unfoldBC bc).bcUpper 0 = bc.bcLower 0 := rfl
    rw [hl, hu, hn']
    unfold foldCell pastWall
    have h1 : ¬ j < 1 := by omega
    by_cases h2 : ((2 * bc.n 0 : Nat) : Int) < j
    · have e1 : (2 * bc.n 0 + 1 - j : Int) < 1 := by push_cast at h2; omega
      have e2 : ¬ (bc.n 0 : Int) < 2 * bc.n 0 + 1 - j := by push_cast at h2; omega
      simp only [if_neg h1, if_pos h2, if_pos e1, decide_eq_true h2, decide_eq_true e1, decide_eq_false e2, decide_eq_false h1,
        Bool.true_and, Bool.false_and, Bool.or_false, Bool.false_or]
      rcases ha.lower 0 with hl | hl | hl
      · rw [hl]
        simp only [beq_iff_eq, reduceCtorEq, if_false]
        rw [hq _ (by omega), if_neg (by omega)]
        rw [show 2 * bc.n 0 - 1 - (2 * bc.n 0 - 1) = 0 by omega]
      · exact absurd hl hp
      · rw [hl]
        simp only [beq_self_eq_true, if_true]
        rw [hq _ (by push_cast at h2; omega), if_neg (by push_cast at h2; omega), hss]
        rw [show 2 * bc.n 0 - 1 - (2 * ((2 * bc.n 0 : Nat) : Int) - j).toNat = (-(2 * (bc.n 0 : Int) + 1 - j)).toNat by push_cast at h2 ⊢; omega, hss]
    · have e1 : ¬ (2 * bc.n 0 + 1 - j : Int) < 1 := by push_cast at h2; omega
      simp only [if_neg h1, if_neg h2, if_neg e1, decide_eq_false h1, decide_eq_false h2, decide_eq_false e1, Bool.false_and, Bool.or_false,
        Bool.false_or]
      rw [if_neg (by simp), hq _ (by push_cast at h2; omega)]
      by_cases h3 : (bc.n 0 : Int) < 2 * bc.n 0 + 1 - j
      · rw [if_pos (by omega)]
        simp only [if_pos h3, decide_eq_true h3, beq_self_eq_true, Bool.and_self, if_true, hss]
        rw [show (j - 1).toNat = (2 * (bc.n 0 : Int) - (2 * bc.n 0 + 1 - j)).toNat by omega]
      · rw [if_neg (by omega)]
        simp only [if_neg h3, decide_eq_false h3, Bool.false_and, Bool.false_eq_true, if_false]
        rw [show 2 * bc.n 0 - 1 - (j - 1).toNat = (2 * (bc.n 0 : Int) + 1 - j - 1).toNat by push_cast at h2; omega]
  have aleft : ∀ j : Int, 1 - (bc.g : Int) ≤ j → j ≤ bc.n 0 + bc.g → (A' fun _ => j) = A fun _ => j := by
    intro j j1 j2
    by_cases hpos : 0 < naux
    swap
    · funext k
      exact absurd k.isLt (by omega)
    rw [(v j j1 j2).2, (v' j j1 (by omega)).2, hwx hpos]
    have hl : (unfoldBC bc).auxLower 0 = bc.auxLower 0 := rfl
    have hu : (unfoldBC bc).auxUpper 0 = bc.auxLower 0 := rfl
    rw [hl, hu, hn']
    unfold foldCell
    by_cases h1 : j < 1
    · simp only [if_pos h1]
      rcases ha.auxLower (hx ▸ hpos) 0 with hl | hl | hl
      · rw [hl]
        rw [haux 0 (by omega), if_pos (by omega)]
      · exact absurd hl (hpx hpos)
      · rw [hl]
        dsimp only
        rw [haux _ (by omega), if_pos (by omega)]
    · have e1 : ¬ ((2 * bc.n 0 : Nat) : Int) < j := by omega
      simp only [if_neg h1, if_neg e1]
      rw [haux _ (by omega)]
      by_cases h2 : (bc.n 0 : Int) < j
      · rw [if_neg (by omega)]
        simp only [if_pos h2]
        rw [show 2 * bc.n 0 - 1 - (j - 1).toNat = (2 * (bc.n 0 : Int) - j).toNat by omega]
      · rw [if_pos (by omega)]
        simp only [if_neg h2]
  have aright : ∀ j : Int, (bc.n 0 : Int) + 1 - bc.g ≤ j → j ≤ 2 * bc.n 0 + bc.g → (A' fun _ => j) = A fun _ => 2 * bc.n 0 + 1 - j := by
    intro j j1 j2
    by_cases hpos : 0 < naux
    swap
    · funext k
      exact absurd k.isLt (by omega)
    rw [(v (2 * bc.n 0 + 1 - j) (by omega) (by omega)).2, (v' j (by omega) (by omega)).2, hwx hpos]
    have hl : (unfoldBC bc).auxLower 0 = bc.auxLower 0 := rfl
    have hu : (unfoldBC bc).auxUpper 0 = bc.auxLower 0 := rfl
    rw [hl, hu, hn']
    unfold foldCell
    have h1 : ¬ j < 1 := by omega
    by_cases h2 : ((2 * bc.n 0 : Nat) : Int) < j
    · have e1 : (2 * bc.n 0 + 1 - j : Int) < 1 := by push_cast at h2; omega
      simp only [if_neg h1, if_pos h2, if_pos e1]
      rcases ha.auxLower (hx ▸ hpos) 0 with hl | hl | hl
      · rw [hl]
        dsimp only
        rw [haux _ (by omega), if_neg (by omega)]
        rw [show 2 * bc.n 0 - 1 - (2 * bc.n 0 - 1) = 0 by omega]
      · exact absurd hl (hpx hpos)
      · rw [hl]
        dsimp only
        rw [haux _ (by push_cast at h2; omega), if_neg (by push_cast at h2; omega)]
        rw [show 2 * bc.n 0 - 1 - (2 * ((2 * bc.n 0 : Nat) : Int) - j).toNat = (-(2 * (bc.n 0 : Int) + 1 - j)).toNat by push_cast at h2 ⊢; omega]
    · have e1 : ¬ (2 * bc.n 0 + 1 - j : Int) < 1 := by push_cast at h2; omega
      simp only [if_neg h1, if_neg h2, if_neg e1]
      rw [haux _ (by push_cast at h2; omega)]
      by_cases h3 : (bc.n 0 : Int) < 2 * bc.n 0 + 1 - j
      · rw [if_pos (by omega)]
        simp only [if_pos h3]
        rw [show (j - 1).toNat = (2 * (bc.n 0 : Int) - (2 * bc.n 0 + 1 - j)).toNat by omega]
      · rw [if_neg (by omega)]
        simp only [if_neg h3]
        rw [show 2 * bc.n 0 - 1 - (j - 1).toNat = (2 * (bc.n 0 : Int) + 1 - j - 1).toNat by push_cast at h2; omega]
  exact ⟨fun j1 j2 => ⟨qleft j j1 j2, aleft j j1 j2⟩, fun j1 j2 => ⟨qright j j1 j2, aright j j1 j2⟩⟩

theorem unfold_admissible (bc : BCConfig (Fin 1) K) (ha : Admissible bc) : Admissible (unfoldBC bc) where
  cells := fun b => by
    have := ha.cells 0
    simp only [unfoldBC]
    omega
  lower := ha.lower
  upper := ha.lower
  auxLower := ha.auxLower
  auxUpper := ha.auxLower
  reflect := fun b h => ha.reflect b (Or.inl (h.elim id id))

section
variable {π : Equiv.Perm (Fin w)} {fw : Bool} {rp : Riemann K (Fin naux → K) m w}

theorem unfold_step {step : IntKern (Fin 1) K m naux} {g : Nat} {a : K → K} {o : Prop} [Decidable o]
    {phi : Fin w → K → K → K} {dx : K} {capa : Option ((Fin naux → K) → K)} {lo : Int} {ok : (Fin naux → K) → Prop}
    (hL : LineKernel step g a o phi rp dx capa lo ok) (hlo0 : 0 ≤ lo) (hlo : lo ≤ 1) (bc : BCConfig (Fin 1) K)
    (hM : MirrorImage (reflectSign bc m) id π fw rp rp) (hphi : ∀ p, phi (π p) = phi p)
    (haf : o → ∀ ql qr al ar p, MirrorFactor a fw ((rp ql qr al ar).s p))
    (ha : Admissible bc) (hx : bc.numAux = naux) (hg2 : 2 ≤ bc.g) (hg : g = bc.g) (hw : bc.bcUpper 0 = .wall)
    (hwx : 0 < naux → bc.auxUpper 0 = .wall) (hp : bc.bcLower 0 ≠ .periodic) (hpx : 0 < naux → bc.auxLower 0 ≠ .periodic)
    (dt : K) {A A' : (Fin 1 → Int) → Fin naux → K} {Q Q' : (Fin 1 → Int) → Fin m → K} {q q' aux aux' : GArr (Fin 1) K}
    (f : FilledBy bc (List.finRange 1) m naux A Q q aux) (f' : FilledBy (unfoldBC bc) (List.finRange 1) m naux A' Q' q' aux')
    (hq : ∀ y : Nat, y < 2 * bc.n 0 → (fun k : Fin m => q' k.val fun _ => y) =
      if y < bc.n 0 then fun k => q k.val fun _ => y else signed (reflectSign bc m) fun k => q k.val fun _ => 2 * bc.n 0 - 1 - y)
    (haux : ∀ y : Nat, y < 2 * bc.n 0 → auxAt naux aux' (fun _ => y) =
      if y < bc.n 0 then auxAt naux aux (fun _ => y) else auxAt naux aux fun _ => 2 * bc.n 0 - 1 - y) :
    (step dt bc.n A Q = none ∧ step dt (unfoldBC bc).n A' Q' = none) ∨
      ∃ r r' cfl, step dt bc.n A Q = some (r, cfl) ∧ step dt (unfoldBC bc).n A' Q' = some (r', cfl) ∧
        ∀ y : Nat, y < 2 * bc.n 0 → r' (fun _ => (y : Int) + 1) =
          if y < bc.n 0 then r fun _ => (y : Int) + 1 else signed (reflectSign bc m) (r fun _ => ((2 * bc.n 0 - 1 - y : Nat) : Int) + 1) := by
  subst hg
  have hc := ha.cells 0
  have hn : ((unfoldBC bc).n 0 : Int) = 2 * bc.n 0 := by simp [unfoldBC]
  have F := unfold_fill bc ha hx hw hwx hp hpx f f' hq haux
  have okk : (∀ i : Int, 1 - (bc.g : Int) ≤ i → i ≤ (unfoldBC bc).n 0 + bc.g → ok (A' fun _ => i)) ↔
      ∀ i : Int, 1 - (bc.g : Int) ≤ i → i ≤ bc.n 0 + bc.g → ok (A fun _ => i) := by
    rw [hn]
    constructor
    · intro h i i1 i2
      rw [← ((F i).1 i1 i2).2]
      exact h i i1 (by omega)
    · intro h i i1 i2
      by_cases hi : i ≤ bc.n 0 + bc.g
      · rw [((F i).1 i1 hi).2]
        exact h i i1 hi
      · rw [((F i).2 (by omega) i2).2]
        exact h _ (by omega) (by omega)
  by_cases hk : ∀ i : Int, 1 - (bc.g : Int) ≤ i → i ≤ bc.n 0 + bc.g → ok (A fun _ => i)
  · right
    obtain ⟨r, cfl, h1, h2, h3⟩ := hL.runs dt bc.n A Q hk
    obtain ⟨r', cfl', h1', h2', h3'⟩ := hL.runs dt (unfoldBC bc).n A' Q' (okk.mpr hk)
    rw [hn] at h2' h3'
    have nleft : ∀ (j : Int) (x : K), lo ≤ j → j ≤ bc.n 0 + 1 →
        (WaveNumber (localRatio dt dx capa fun i => A' fun _ => i) (interfaces rp (fun i => A' fun _ => i) (fun i => Q' fun _ => i)) j x ↔
        WaveNumber (localRatio dt dx capa fun i => A fun _ => i) (interfaces rp (fun i => A fun _ => i) (fun i => Q fun _ => i)) j x) := by
      intro j x j1 j2
      have e := waveNumber_congr rp dt dx capa (fun j => A fun _ => j) (fun j => A' fun _ => j)
        (fun j => Q fun _ => j) (fun j => Q' fun _ => j) 0 j x
        (by rw [add_zero]; exact ((F j).1 (by omega) (by omega)).2) (by rw [add_zero]; exact ((F (j - 1)).1 (by omega) (by omega)).2)
        (by rw [add_zero]; exact ((F j).1 (by omega) (by omega)).1) (by rw [add_zero]; exact ((F (j - 1)).1 (by omega) (by omega)).1)
      rw [add_zero] at e
      exact e
    have nright : ∀ (j : Int) (x : K), (bc.n 0 : Int) + 1 ≤ j → j ≤ 2 * bc.n 0 + 1 →
        (WaveNumber (localRatio dt dx capa fun i => A' fun _ => i) (interfaces rp (fun i => A' fun _ => i) (fun i => Q' fun _ => i)) j x ↔
        WaveNumber (localRatio dt dx capa fun i => A fun _ => i) (interfaces rp (fun i => A fun _ => i) (fun i => Q fun _ => i))
          (2 * bc.n 0 + 1 + 1 - j) x) := by
      intro j x j1 j2
      have e := waveNumber_congr rp dt dx capa (fun j => id (A fun _ => 2 * (bc.n 0 : Int) + 1 - j)) (fun j => A' fun _ => j)
        (fun j => signed (reflectSign bc m) (Q fun _ => 2 * (bc.n 0 : Int) + 1 - j)) (fun j => Q' fun _ => j) 0 j x
        (by rw [add_zero]; exact ((F j).2 (by omega) (by omega)).2) (by rw [add_zero]; exact ((F (j - 1)).2 (by omega) (by omega)).2)
        (by rw [add_zero]; exact ((F j).2 (by omega) (by omega)).1) (by rw [add_zero]; exact ((F (j - 1)).2 (by omega) (by omega)).1)
      rw [add_zero] at e
      exact e.trans (mirror_number hM dt dx capa (fun _ _ _ => rfl) (2 * (bc.n 0 : Int) + 1) (fun i => A fun _ => i) (fun i => Q fun _ => i) j x)
    have hcfl : cfl' = cfl := by
      refine isMax_unique h3' (isMax_congr (fun x => ?_) h3)
      constructor
      · rintro ⟨i, i1, i2, h⟩
        exact ⟨i, i1, by omega, (nleft i x i1 i2).mpr h⟩
      · rintro ⟨i, i1, i2, h⟩
        by_cases hi : i ≤ bc.n 0 + 1
        · exact ⟨i, i1, hi, (nleft i x i1 hi).mp h⟩
        · exact ⟨_, by omega, by omega, (nright i x (by omega) i2).mp h⟩
    refine ⟨r, r', cfl, h1, hcfl ▸ h1', fun y hy => ?_⟩
    rw [h2' _ (by omega) (by omega)]
    by_cases hyn : y < bc.n 0
    · rw [if_pos hyn, h2 _ (by omega) (by omega)]
      exact lineStep_local a o phi rp dt dx capa _ _ _ _ _ (fun j j1 j2 => ((F j).1 (by omega) (by omega)).2)
        (fun j j1 j2 => ((F j).1 (by omega) (by omega)).1)
    · rw [if_neg hyn, h2 _ (by omega) (by omega)]
      rw [lineStep_local a o phi rp dt dx capa (fun j => A' fun _ => j) (fun j => id (A fun _ => 2 * (bc.n 0 : Int) + 1 - j))
        (fun j => Q' fun _ => j) (fun j => signed (reflectSign bc m) (Q fun _ => 2 * (bc.n 0 : Int) + 1 - j)) ((y : Int) + 1)
        (fun j j1 j2 => ((F j).2 (by omega) (by omega)).2) (fun j j1 j2 => ((F j).2 (by omega) (by omega)).1)]
      rw [show ((2 * bc.n 0 - 1 - y : Nat) : Int) + 1 = 2 * (bc.n 0 : Int) + 1 - ((y : Int) + 1) by omega]
      exact mirror_line (reflectSign_isSign bc m) hM dt dx capa (fun _ _ _ => rfl) phi phi hphi a o (2 * (bc.n 0 : Int) + 1)
        (fun j => A fun _ => j) (fun j => Q fun _ => j) _ (fun ho j p => haf ho _ _ _ _ p)
  · exact Or.inl ⟨hL.stops _ _ _ _ hk, hL.stops _ _ _ _ (fun h => hk (okk.mp h))⟩

/-- The relation `Unfolded`, cell by cell of the second grid. -/
theorem unfolded_iff (n : Nat) (ρ : Fin m → K) (d d' : GArr (Fin 1) K × GArr (Fin 1) K × BCArrays (Fin 1) K) :
    Unfolded m naux n ρ d d' ↔ ∀ y : Nat, y < 2 * n →
      ((fun k : Fin m => d'.1 k.val fun _ => y) = if y < n then fun k => d.1 k.val fun _ => y else signed ρ fun k => d.1 k.val fun _ => 2 * n - 1 - y) ∧
      auxAt naux d'.2.1 (fun _ => y) = if y < n then auxAt naux d.2.1 (fun _ => y) else auxAt naux d.2.1 fun _ => 2 * n - 1 - y := by
  constructor
  · intro h y hy
    by_cases hn : y < n
    · rw [if_pos hn, if_pos hn]
      exact ⟨funext fun k => ((h y hn).1 k).1, (h y hn).2.1⟩
    · have := h (2 * n - 1 - y) (by omega)
      rw [show 2 * n - 1 - (2 * n - 1 - y) = y by omega] at this
      rw [if_neg hn, if_neg hn]
      exact ⟨funext fun k => (this.1 k).2, this.2.2⟩
  · intro h i hi
    have h1 := h i (by omega)
    have h2 := h (2 * n - 1 - i) (by omega)
    rw [if_pos hi, if_pos hi] at h1
    rw [if_neg (by omega), if_neg (by omega), show 2 * n - 1 - (2 * n - 1 - i) = i by omega] at h2
    exact ⟨fun k => ⟨congrFun h1.1 k, congrFun h2.1 k⟩, h1.2, h2.2⟩

theorem unfold_run [FloorRing K] {step : IntKern (Fin 1) K m naux} {g : Nat} {a : K → K} {o : Prop} [Decidable o]
    {phi : Fin w → K → K → K} {dx : K} {capa : Option ((Fin naux → K) → K)} {lo : Int} {ok : (Fin naux → K) → Prop}
    (hL : LineKernel step g a o phi rp dx capa lo ok) (hlo0 : 0 ≤ lo) (hlo : lo ≤ 1) (c c' : ParCfg (Fin 1) K)
    (hM : MirrorImage (reflectSign c.bc m) id π fw rp rp) (hphi : ∀ p, phi (π p) = phi p)
    (haf : o → ∀ ql qr al ar p, MirrorFactor a fw ((rp ql qr al ar).s p))
    (hr : ClassicRun c m naux step) (hr' : ClassicRun c' m naux step) (ha : Admissible c.bc)
    (hs : Serial c.bc) (hbc : c'.bc = unfoldBC c.bc) (hg : g = c.bc.g) (hw : c.bc.bcUpper 0 = .wall)
    (hwx : 0 < naux → c.bc.auxUpper 0 = .wall) (hp : c.bc.bcLower 0 ≠ .periodic) (hpx : 0 < naux → c.bc.auxLower 0 ≠ .periodic)
    (rnd : K → K) (L L' : K)
    (ops : List (StepOp K (GArr (Fin 1) K) (GArr (Fin 1) K × BCArrays (Fin 1) K))) (hops : OnlyEvolves ops)
    (s s' : StepState K (GArr (Fin 1) K) (GArr (Fin 1) K × BCArrays (Fin 1) K))
    (h : InStep (Unfolded m naux (c.bc.n 0) (reflectSign c.bc m)) s s') :
    InStep (Unfolded m naux (c.bc.n 0) (reflectSign c.bc m)) (runSteps (serialEnv c rnd L) ops s)
      (runSteps (serialEnv c' rnd L') ops s') := by
  have hn : c'.bc.n = fun _ => 2 * c.bc.n 0 := by rw [hbc]; rfl
  have hs' : Serial c'.bc := by rw [hbc]; exact hs
  have ha' : Admissible c'.bc := by rw [hbc]; exact unfold_admissible c.bc ha
  have one : ∀ g : Fin 1 → Nat, g = fun _ => g 0 := fun g => funext fun b => by rw [Subsingleton.elim b 0]
  have nd : (List.finRange 1).Nodup := List.nodup_finRange 1
  let cell : (Fin 1 → Nat) → Fin 1 → Nat := fun x _ => if x 0 < c.bc.n 0 then x 0 else 2 * c.bc.n 0 - 1 - x 0
  let onQ : (Fin 1 → Nat) → (Fin m → K) → Fin m → K := fun x z => if x 0 < c.bc.n 0 then z else signed (reflectSign c.bc m) z
  have hcell : ∀ (q q' : GArr (Fin 1) K) (y : Nat), ((fun k : Fin m => q' k.val fun _ => y) = onQ (fun _ => y) fun k => q k.val (cell fun _ => y)) ↔
      (fun k : Fin m => q' k.val fun _ => y) = if y < c.bc.n 0 then fun k => q k.val fun _ => y else
        signed (reflectSign c.bc m) fun k => q k.val fun _ => 2 * c.bc.n 0 - 1 - y := by
    intro q q' y
    by_cases hy : y < c.bc.n 0 <;> simp [onQ, cell, hy]
  have E := kernel_sim m naux c c' step step hr hr' cell onQ (FilledBy c.bc (List.finRange 1) m naux)
    (FilledBy c'.bc (List.finRange 1) m naux)
    (fun q aux old => by rw [hr.axes]; exact serial_fill c.bc ha hs _ nd List.mem_finRange m naux hr.numAux q aux old)
    (fun q aux old => by rw [hr'.axes]; exact serial_fill c'.bc ha' hs' _ nd List.mem_finRange m naux hr'.numAux q aux old)
    (fun a a' => ∀ y : Nat, y < 2 * c.bc.n 0 → auxAt naux a' (fun _ => y) =
      if y < c.bc.n 0 then auxAt naux a (fun _ => y) else auxAt naux a fun _ => 2 * c.bc.n 0 - 1 - y) ?_ rnd L L'
  · rw [hn] at E
    have key := run_sim E ops hops s s' ⟨h.set, h.status, h.t, h.log, fun x hx => by
      rw [one x]
      exact (hcell _ _ _).mpr (((unfolded_iff _ _ _ _).mp h.data _ (hx 0)).1), fun y hy => ((unfolded_iff _ _ _ _).mp h.data y hy).2⟩
    refine ⟨key.set, key.status, key.t, key.log, (unfolded_iff _ _ _ _).mpr fun y hy => ⟨?_, key.data.2 y hy⟩⟩
    exact (hcell _ _ _).mp (key.data.1 (fun _ => y) fun _ => hy)
  · intro dt A A' Q Q' q q' aux aux' f f' haux hq
    rw [hn] at hq
    rw [hbc] at f' ⊢
    have := unfold_step hL hlo0 hlo c.bc hM hphi haf ha hr.numAux hr.ghost hg hw hwx hp hpx dt f f'
      (fun y hy => (hcell q q' y).mp (hq (fun _ => y) fun _ => hy)) haux
    rcases this with h | ⟨r, r', cfl, h1, h2, h3⟩
    · exact Or.inl h
    · refine Or.inr ⟨r, r', cfl, h1, h2, fun x hx => ?_⟩
      have h0 : x 0 < 2 * c.bc.n 0 := hx 0
      have := h3 (x 0) h0
      rw [one x]
      refine this.trans ?_
      by_cases hy : x 0 < c.bc.n 0 <;> simp [onQ, cell, hy]

/-- C92, the one-dimensional Fortran kernel: wall on the right, open end or another wall on the left. Full statement: also for f-waves of
speed 0 and second order (there see `C91_fwave_violated`). -/
theorem C92_fortran1_partial [FloorRing K] (undef : K) (cfg : Cfg1 K w) (capa : Option ((Fin naux → K) → K))
    (c c' : ParCfg (Fin 1) K) (hM : MirrorImage (reflectSign c.bc m) id π cfg.fwave rp rp)
    (hlim : ∀ p, cfg.limiter (π p) = cfg.limiter p)
    (hf : cfg.fwave = true → cfg.order ≠ 1 → ∀ ql qr al ar p, (rp ql qr al ar).s p ≠ 0)
    (hr : ClassicRun c m naux (intStep1 undef rp cfg capa)) (hr' : ClassicRun c' m naux (intStep1 undef rp cfg capa))
    (ha : Admissible c.bc) (hs : Serial c.bc) (hg : cfg.g = c.bc.g)
    (hw : c.bc.bcUpper 0 = .wall) (hwx : 0 < naux → c.bc.auxUpper 0 = .wall)
    (hp : c.bc.bcLower 0 ≠ .periodic) (hpx : 0 < naux → c.bc.auxLower 0 ≠ .periodic)
    (hbc : c'.bc = unfoldBC c.bc) (rnd : K → K) (L L' : K)
    (ops : List (StepOp K (GArr (Fin 1) K) (GArr (Fin 1) K × BCArrays (Fin 1) K))) (hops : OnlyEvolves ops)
    (s s' : StepState K (GArr (Fin 1) K) (GArr (Fin 1) K × BCArrays (Fin 1) K))
    (h : InStep (Unfolded m naux (c.bc.n 0) (reflectSign c.bc m)) s s') :
    InStep (Unfolded m naux (c.bc.n 0) (reflectSign c.bc m)) (runSteps (serialEnv c rnd L) ops s)
      (runSteps (serialEnv c' rnd L') ops s') := by
  refine unfold_run (fortran1_line undef rp cfg capa) (by omega) (by omega) c c' hM ?_ ?_ hr hr' ha hs hbc hg hw hwx hp hpx rnd L L' ops
    hops s s' h
  · intro p
    unfold fPhi
    simp only [hlim]
  · intro ho ql qr al ar p
    cases hfw : cfg.fwave
    · simp only [Bool.false_eq_true, if_false]; exact abs_factor _
    · simp only [if_true]; exact dsign_factor _ (hf hfw ho _ _ _ _ _)

/-- C92, the one-dimensional Python kernel. Full statement: for all its limiters. Missing: the limiters 17 to 23. -/
theorem C92_python1_partial [FloorRing K] (opq : Int → LimFun K) (cfg : Cfg1 K w) (capa : Option ((Fin naux → K) → K))
    (c c' : ParCfg (Fin 1) K) (hM : MirrorImage (reflectSign c.bc m) id π cfg.fwave rp rp)
    (hlim : ∀ p, cfg.limiter (π p) = cfg.limiter p) (hlim' : ∀ p, 0 ≤ cfg.limiter p ∧ cfg.limiter p ≤ 16)
    (hr : ClassicRun c m naux (intPyStep1 (pyLimiterFun opq) rp cfg capa))
    (hr' : ClassicRun c' m naux (intPyStep1 (pyLimiterFun opq) rp cfg capa))
    (ha : Admissible c.bc) (hs : Serial c.bc) (hg : cfg.g = c.bc.g)
    (hw : c.bc.bcUpper 0 = .wall) (hwx : 0 < naux → c.bc.auxUpper 0 = .wall)
    (hp : c.bc.bcLower 0 ≠ .periodic) (hpx : 0 < naux → c.bc.auxLower 0 ≠ .periodic)
    (hbc : c'.bc = unfoldBC c.bc) (rnd : K → K) (L L' : K)
    (ops : List (StepOp K (GArr (Fin 1) K) (GArr (Fin 1) K × BCArrays (Fin 1) K))) (hops : OnlyEvolves ops)
    (s s' : StepState K (GArr (Fin 1) K) (GArr (Fin 1) K × BCArrays (Fin 1) K))
    (h : InStep (Unfolded m naux (c.bc.n 0) (reflectSign c.bc m)) s s') :
    InStep (Unfolded m naux (c.bc.n 0) (reflectSign c.bc m)) (runSteps (serialEnv c rnd L) ops s)
      (runSteps (serialEnv c' rnd L') ops s') := by
  refine unfold_run (python1_line opq rp cfg (hg ▸ hr.ghost) hlim' capa) (by omega) (by omega) c c' hM ?_ ?_ hr hr' ha hs hbc hg hw hwx hp
    hpx rnd L L' ops hops s s' h
  · intro p
    unfold localPhi
    simp only [hlim]
  · intro ho ql qr al ar p
    cases hfw : cfg.fwave
    · simp only [Bool.false_eq_true, if_false]; exact abs_factor _
    · simp only [if_true]; exact npSign_factor _

end

/-! ### A concrete run -/

/-- Eight cells between open ends, for any kernel: the grid of `exAcoustics .extrap .wall` and its image. -/
def exUnfolded (step : IntKern (Fin 1) ℚ 2 0) : ParCfg (Fin 1) ℚ :=
  { exAcoustics .extrap .wall step with bc := unfoldBC (exAcoustics .extrap .wall step).bc }

/-- Pressure and velocity on four cells, and their images. -/
def exSoundImage (p u : Fin 4 → ℚ) : StepState ℚ (GArr (Fin 1) ℚ) (GArr (Fin 1) ℚ × BCArrays (Fin 1) ℚ) :=
  { exSound p u with
    sol := ⟨0, fun k x => if x 0 < 4 then (exSound p u).sol.q k x else (if k = 1 then -1 else 1) * (exSound p u).sol.q k fun _ => 7 - x 0,
      (fun _ _ => 0, ⟨fun _ _ => 0, fun _ _ => 0⟩)⟩ }

/-- Non-vacuity of the C92 theorems: acoustics with the MC limiter runs into the wall. -/
example (step : IntKern (Fin 1) ℚ 2 0) (p u : Fin 4 → ℚ) :
    MirrorImage (reflectSign (exAcoustics .extrap .wall step).bc 2) id (Equiv.swap 0 1) false (ignoreAux 0 (acousticsRp (K := ℚ)))
      (ignoreAux 0 acousticsRp) ∧
    ClassicRun (exAcoustics .extrap .wall step) 2 0 step ∧ ClassicRun (exUnfolded step) 2 0 step ∧
    Admissible (exAcoustics .extrap .wall step).bc ∧ Serial (exAcoustics .extrap .wall step).bc ∧
    (exAcoustics .extrap .wall step).bc.bcUpper 0 = .wall ∧ (exAcoustics .extrap .wall step).bc.bcLower 0 ≠ .periodic ∧
    InStep (Unfolded 2 0 ((exAcoustics .extrap .wall step).bc.n 0) (reflectSign (exAcoustics .extrap .wall step).bc 2)) (exSound p u)
      (exSoundImage p u) := by
  have e : reflectSign (exAcoustics .extrap .wall step).bc 2 = ![1, -1] := by
    funext k; fin_cases k <;> simp [reflectSign, exAcoustics]
  refine ⟨?_, exAcoustics_run _ _ _, ⟨⟨rfl, fun _ _ _ _ => rfl, fun _ _ _ _ => rfl⟩, le_refl 2, rfl, rfl, rfl⟩,
    exAcoustics_admissible _ _ (Or.inl rfl) (Or.inr (Or.inr rfl)) step, fun _ => ⟨rfl, rfl⟩, rfl, by simp [exAcoustics], rfl, rfl, rfl, rfl, ?_⟩
  · rw [e]
    exact acoustics_image 0
  · intro i hi
    have h0 : i < 4 := hi
    rw [e]
    refine ⟨fun k => ⟨?_, ?_⟩, funext fun k => k.elim0, funext fun k => k.elim0⟩
    · interval_cases i <;> simp [exSoundImage]
    · interval_cases i <;> fin_cases k <;> simp [exSoundImage, exAcoustics]

/-- A step of a pulse in front of the wall, and with its image: the pressure next to the wall. -/
example : (runSteps (serialEnv (exAcoustics .extrap .wall (exAcousticsPy ![4, 4])) id 1) [.evolve (some (1 / 8))]
      (exSound ![0, 1, 3, 2] ![0, 1, 1, 0])).sol.q 0 (fun _ => 3) =
    (runSteps (serialEnv (exUnfolded (exAcousticsPy ![4, 4])) id 1) [.evolve (some (1 / 8))]
      (exSoundImage ![0, 1, 3, 2] ![0, 1, 1, 0])).sol.q 0 fun _ => 3 := by
  decide +kernel

end PyClaw
