import Verif.Spec.Unfold
import Verif.Lemmas.Walls
import Verif.Props.Square
import Verif.Lemmas.WideStencil

set_option linter.unusedSectionVars false

/-!
Grids continued by their images behind a wall: ghost cells and kernels.
-/
namespace PyClaw
open Spec

variable {K : Type*} [Field K] [LinearOrder K] [IsStrictOrderedRing K] {d m naux : Nat}

/-- The cell of the first half whose image cell `y` of the doubled line is. -/
def halfIndex (n y : Nat) : Nat := if y < n then y else 2 * n - 1 - y

theorem unfold_left (lo : BCType) (hlo : BuiltInBC lo) (hp : lo ≠ .periodic) (n g : Nat) (hn : 0 < n) (hg : g ≤ n) (v : Int)
    (h1 : 1 - (g : Int) ≤ v) (h2 : v ≤ n + g) :
    halfIndex n (foldCell lo lo (2 * n) v) = foldCell lo .wall n v ∧
    Bool.xor (pastWall lo lo (2 * n) v) (decide (n ≤ foldCell lo lo (2 * n) v)) = pastWall lo .wall n v := by
  have a1 : ¬ ((2 * n : Nat) : Int) < v := by push_cast; omega
  have a1' : ¬ (2 * (n : Int)) < v := by omega
  unfold foldCell pastWall halfIndex
  by_cases h3 : v < 1
  · have h4 : ¬ (n : Int) < v := by omega
    rcases hlo with rfl | rfl | rfl
    · have e : ¬ n ≤ 0 := by omega
      simp only [if_pos h3, if_pos hn, decide_eq_true h3, decide_eq_false h4, decide_eq_false a1, decide_eq_false e]
      exact ⟨trivial, rfl⟩
    · exact absurd rfl hp
    · have e : (-v).toNat < n := by omega
      simp [h3, h4, a1', e]
  · by_cases h4 : (n : Int) < v
    · have e : ¬ (v - 1).toNat < n := by omega
      have e' : n ≤ (v - 1).toNat := by omega
      simp only [if_neg h3, if_neg a1, if_pos h4, if_neg e, decide_eq_true e', decide_eq_false h3, decide_eq_false a1, decide_eq_true h4]
      refine ⟨by omega, by simp⟩
    · have e : (v - 1).toNat < n := by omega
      have e' : ¬ n ≤ (v - 1).toNat := by omega
      simp only [if_neg h3, if_neg a1, if_neg h4, if_pos e, decide_eq_false e', decide_eq_false h3, decide_eq_false a1, decide_eq_false h4]
      exact ⟨trivial, rfl⟩

theorem unfold_right (lo : BCType) (hlo : BuiltInBC lo) (hp : lo ≠ .periodic) (n g : Nat) (hn : 0 < n) (hg : g ≤ n) (v : Int)
    (h1 : (n : Int) + 1 - (g : Int) ≤ v) (h2 : v ≤ 2 * n + g) :
    halfIndex n (foldCell lo lo (2 * n) v) = foldCell lo .wall n (2 * n + 1 - v) ∧
    Bool.xor (pastWall lo lo (2 * n) v) (decide (n ≤ foldCell lo lo (2 * n) v)) = !pastWall lo .wall n (2 * n + 1 - v) := by
  have a0 : ¬ v < 1 := by omega
  unfold foldCell pastWall halfIndex
  by_cases h3 : ((2 * n : Nat) : Int) < v
  · have b1 : 2 * (n : Int) + 1 - v < 1 := by omega
    have b2 : ¬ (n : Int) < 2 * n + 1 - v := by omega
    simp only [if_neg a0, if_pos h3, if_pos b1, decide_eq_false a0, decide_eq_true h3, decide_eq_true b1, decide_eq_false b2]
    rcases hlo with rfl | rfl | rfl
    · have e : ¬ 2 * n - 1 < n := by omega
      have e' : n ≤ 2 * n - 1 := by omega
      simp only [if_neg e, decide_eq_true e']
      exact ⟨by omega, rfl⟩
    · exact absurd rfl hp
    · have e : ¬ (2 * ((2 * n : Nat) : Int) - v).toNat < n := by omega
      have e' : n ≤ (2 * ((2 * n : Nat) : Int) - v).toNat := by omega
      simp only [if_neg e, decide_eq_true e']
      exact ⟨by omega, rfl⟩
  · have b1 : ¬ 2 * (n : Int) + 1 - v < 1 := by omega
    simp only [if_neg a0, if_neg h3, if_neg b1, decide_eq_false a0, decide_eq_false h3, decide_eq_false b1]
    by_cases h4 : (n : Int) < 2 * n + 1 - v
    · have e : (v - 1).toNat < n := by omega
      have e' : ¬ n ≤ (v - 1).toNat := by omega
      simp only [if_pos e, if_pos h4, decide_eq_false e', decide_eq_true h4]
      exact ⟨by omega, rfl⟩
    · have e : ¬ (v - 1).toNat < n := by omega
      have e' : n ≤ (v - 1).toNat := by omega
      simp only [if_neg e, if_neg h4, decide_eq_true e', decide_eq_false h4]
      exact ⟨by omega, rfl⟩

section fill
variable {ι : Type*} [DecidableEq ι]

/-- The cell of the first grid whose image cell `x` is. -/
def halfCell (n : ι → Nat) (a : ι) (x : ι → Nat) : ι → Nat := Function.update x a (halfIndex (n a) (x a))

/-- Values behind the wall change their signs. -/
def halfSign (n : ι → Nat) (a : ι) (ρ : Fin m → K) (x : ι → Nat) (z : Fin m → K) : Fin m → K := if x a < n a then z else signed ρ z

theorem halfCell_lt (n : ι → Nat) (a : ι) (x : ι → Nat) (hx : ∀ b, x b < Function.update n a (2 * n a) b) (b : ι) : halfCell n a x b < n b := by
  unfold halfCell
  have := hx b
  by_cases h : b = a
  · subst h
    rw [Function.update_self] at this ⊢
    unfold halfIndex
    split_ifs <;> omega
  · rw [Function.update_of_ne h] at this ⊢
    exact this

theorem unfoldedArray_iff (n : ι → Nat) (a : ι) (ρ : Fin m → K) (q q' : GArr ι K) :
    UnfoldedArray m n a ρ q q' ↔ ∀ x : ι → Nat, (∀ b, x b < Function.update n a (2 * n a) b) →
      (fun k : Fin m => q' k.val x) = halfSign n a ρ x fun k => q k.val (halfCell n a x) := by
  unfold halfSign halfCell halfIndex
  constructor
  · intro h x hx
    have ha := hx a
    rw [Function.update_self] at ha
    by_cases hn : x a < n a
    · rw [if_pos hn, if_pos hn, Function.update_eq_self]
      funext k
      refine (h x (fun b => ?_) k).1
      by_cases hb : b = a
      · subst hb; exact hn
      · have := hx b
        rwa [Function.update_of_ne hb] at this
    · rw [if_neg hn, if_neg hn]
      funext k
      have := (h (Function.update x a (2 * n a - 1 - x a)) (fun b => ?_) k).2
      · rw [Function.update_idem, Function.update_self, show 2 * n a - 1 - (2 * n a - 1 - x a) = x a by omega, Function.update_eq_self] at this
        exact this
      · by_cases hb : b = a
        · subst hb
          rw [Function.update_self]
          omega
        · have := hx b
          rwa [Function.update_of_ne hb] at this ⊢
  · intro h x hx k
    have ha := hx a
    have h1 := h x fun b => by
      by_cases hb : b = a
      · subst hb; rw [Function.update_self]; omega
      · rw [Function.update_of_ne hb]; exact hx b
    have h2 := h (Function.update x a (2 * n a - 1 - x a)) fun b => by
      by_cases hb : b = a
      · subst hb; rw [Function.update_self, Function.update_self]; omega
      · rw [Function.update_of_ne hb, Function.update_of_ne hb]; exact hx b
    rw [if_pos ha, if_pos ha, Function.update_eq_self] at h1
    rw [Function.update_self, if_neg (by omega), if_neg (by omega), Function.update_idem,
      show 2 * n a - 1 - (2 * n a - 1 - x a) = x a by omega, Function.update_eq_self] at h2
    exact ⟨congrFun h1 k, congrFun h2 k⟩

theorem halfSign_one (n : ι → Nat) (a : ι) (x : ι → Nat) (z : Fin m → K) : halfSign n a (fun _ => 1) x z = z := by
  unfold halfSign
  split_ifs
  · rfl
  · funext k; simp [signed]

theorem unfoldAxis_admissible (bc : BCConfig ι K) (ha : Admissible bc) (a : ι) : Admissible (unfoldAxis a bc) where
  cells := fun b => by
    have := ha.cells b
    show 0 < Function.update bc.n a (2 * bc.n a) b ∧ bc.g ≤ Function.update bc.n a (2 * bc.n a) b
    by_cases h : b = a
    · subst h; rw [Function.update_self]; omega
    · rw [Function.update_of_ne h]; exact this
  lower := ha.lower
  upper := fun b => by
    show BuiltInBC (Function.update bc.bcUpper a (bc.bcLower a) b)
    by_cases h : b = a
    · subst h; rw [Function.update_self]; exact ha.lower b
    · rw [Function.update_of_ne h]; exact ha.upper b
  auxLower := ha.auxLower
  auxUpper := fun hx b => by
    show BuiltInBC (Function.update bc.auxUpper a (bc.auxLower a) b)
    by_cases h : b = a
    · subst h; rw [Function.update_self]; exact ha.auxLower hx b
    · rw [Function.update_of_ne h]; exact ha.auxUpper hx b
  reflect := fun b h => by
    refine ha.reflect b ?_
    rcases h with h | h
    · exact Or.inl h
    · by_cases hb : b = a
      · subst hb
        exact Or.inl (by simpa [unfoldAxis] using h)
      · exact Or.inr (by simpa [unfoldAxis, Function.update_of_ne hb] using h)

/-- The sign of one axis. -/
def oneSign (p : Bool) (b : Bool) : K := if (p && b) = true then -1 else 1

theorem ghostSign_split (bc : BCConfig ι K) (axes : List ι) (hnd : axes.Nodup) (a : ι) (h : a ∈ axes) (v : ι → Int) (k : Nat) :
    ghostSign bc axes v k = oneSign (pastWall (bc.bcLower a) (bc.bcUpper a) (bc.n a) (v a)) (some (bc.reflect a) == some k) *
      ((axes.erase a).map fun b => oneSign (pastWall (bc.bcLower b) (bc.bcUpper b) (bc.n b) (v b)) (some (bc.reflect b) == some k)).prod := by
  unfold ghostSign
  rw [← List.prod_map_erase _ h]
  rfl

theorem unfold_sign (bc : BCConfig ι K) (a : ι) (axes : List ι) (hnd : axes.Nodup) (h : a ∈ axes) (v u : ι → Int) (hu : ∀ b, b ≠ a → u b = v b)
    (k : Nat) (z : Bool) (hw : bc.bcUpper a = .wall) (s : Bool)
    (e : Bool.xor (pastWall (bc.bcLower a) (bc.bcLower a) (2 * bc.n a) (v a)) z = Bool.xor s (pastWall (bc.bcLower a) .wall (bc.n a) (u a))) :
    ghostSign (unfoldAxis a bc) axes v k * (if z then (if k = bc.reflect a then -1 else 1 : K) else 1) =
      (if s then (if k = bc.reflect a then -1 else 1 : K) else 1) * ghostSign bc axes u k := by
  rw [ghostSign_split _ axes hnd a h, ghostSign_split _ axes hnd a h]
  have e1 : ((axes.erase a).map fun b => oneSign (K := K) (pastWall ((unfoldAxis a bc).bcLower b) ((unfoldAxis a bc).bcUpper b)
      ((unfoldAxis a bc).n b) (v b)) (some ((unfoldAxis a bc).reflect b) == some k)) =
      (axes.erase a).map fun b => oneSign (pastWall (bc.bcLower b) (bc.bcUpper b) (bc.n b) (u b)) (some (bc.reflect b) == some k) := by
    refine List.map_congr_left fun b hb => ?_
    have hne : b ≠ a := fun e => by subst e; exact (hnd.not_mem_erase) hb
    simp only [unfoldAxis, Function.update_of_ne hne, hu b hne]
  rw [e1]
  have e2 : (unfoldAxis a bc).bcUpper a = bc.bcLower a := Function.update_self _ _ _
  have e3 : (unfoldAxis a bc).n a = 2 * bc.n a := Function.update_self _ _ _
  have e4 : (unfoldAxis a bc).bcLower a = bc.bcLower a := rfl
  have e5 : (unfoldAxis a bc).reflect a = bc.reflect a := rfl
  rw [e2, e3, e4, e5, hw]
  generalize pastWall (bc.bcLower a) (bc.bcLower a) (2 * bc.n a) (v a) = p at e ⊢
  generalize pastWall (bc.bcLower a) .wall (bc.n a) (u a) = p' at e ⊢
  generalize ((axes.erase a).map fun b => oneSign (K := K) (pastWall (bc.bcLower b) (bc.bcUpper b) (bc.n b) (u b))
    (some (bc.reflect b) == some k)).prod = P
  unfold oneSign
  by_cases hk : k = bc.reflect a
  · subst hk
    cases p <;> cases p' <;> cases z <;> cases s <;> simp at e ⊢
  · have hk' : (some (bc.reflect a) == some k) = false := by simp [Ne.symm hk]
    simp [hk', hk]

/-- The ghosted fields of the continued data: the first half holds the fields of the first grid, the second half their image. -/
theorem unfoldAxis_fill (bc : BCConfig ι K) (h : Admissible bc) (a : ι) (axes : List ι) (hnd : axes.Nodup) (hall : ∀ b, b ∈ axes)
    (hx : bc.numAux = naux) (hw : bc.bcUpper a = .wall) (hwx : 0 < naux → bc.auxUpper a = .wall)
    (hp : bc.bcLower a ≠ .periodic) (hpx : 0 < naux → bc.auxLower a ≠ .periodic)
    {A A' : (ι → Int) → Fin naux → K} {Q Q' : (ι → Int) → Fin m → K} {q q' aux aux' : GArr ι K}
    (f : FilledBy bc axes m naux A Q q aux) (f' : FilledBy (unfoldAxis a bc) axes m naux A' Q' q' aux')
    (hq : UnfoldedArray m bc.n a (axisSign bc a m) q q') (ha : UnfoldedArray naux bc.n a (fun _ => 1) aux aux') :
    (∀ v : ι → Int, (∀ b, 1 - (bc.g : Int) ≤ v b ∧ v b ≤ bc.n b + bc.g) → Q' v = Q v ∧ A' v = A v) ∧
    ∀ v : ι → Int, (∀ b, 1 - (bc.g : Int) ≤ v b ∧ v b ≤ bc.n b + bc.g) →
      Q' (Function.update v a (2 * bc.n a + 1 - v a)) = signed (axisSign bc a m) (Q v) ∧
      A' (Function.update v a (2 * bc.n a + 1 - v a)) = A v := by
  have hc := h.cells a
  have hq := (unfoldedArray_iff _ _ _ _ _).mp hq
  have ha := (unfoldedArray_iff _ _ _ _ _).mp ha
  have n1 : ∀ b, b ≠ a → (unfoldAxis a bc).n b = bc.n b := fun b hb => Function.update_of_ne hb _ _
  have n2 : (unfoldAxis a bc).n a = 2 * bc.n a := Function.update_self _ _ _
  have A1 := unfoldAxis_admissible bc h a
  -- the value at one cell of the second grid
  have key : ∀ (v u : ι → Int) (s : Bool), (∀ b, 1 - (bc.g : Int) ≤ v b ∧ v b ≤ (unfoldAxis a bc).n b + bc.g) →
      (∀ b, 1 - (bc.g : Int) ≤ u b ∧ u b ≤ bc.n b + bc.g) → (∀ b, b ≠ a → u b = v b) →
      (∀ lo, BuiltInBC lo → lo ≠ .periodic → halfIndex (bc.n a) (foldCell lo lo (2 * bc.n a) (v a)) = foldCell lo .wall (bc.n a) (u a) ∧
        Bool.xor (pastWall lo lo (2 * bc.n a) (v a)) (decide (bc.n a ≤ foldCell lo lo (2 * bc.n a) (v a))) =
          Bool.xor s (pastWall lo .wall (bc.n a) (u a))) →
      (Q' v = if s then signed (axisSign bc a m) (Q u) else Q u) ∧ A' v = A u := by
    intro v u s hv hu huv hs
    obtain ⟨e1, e2⟩ := f u hu
    obtain ⟨e1', e2'⟩ := f' v hv
    constructor
    · obtain ⟨hs1, hs2⟩ := hs (bc.bcLower a) (h.lower a) hp
      have hlt : ∀ b, foldCell ((unfoldAxis a bc).bcLower b) ((unfoldAxis a bc).bcUpper b) ((unfoldAxis a bc).n b) (v b) <
          Function.update bc.n a (2 * bc.n a) b := fun b =>
        foldCell_lt _ _ (A1.lower b) (A1.upper b) _ bc.g (A1.cells b).1 (A1.cells b).2 _ (hv b).1 (hv b).2
      have hcell : halfCell bc.n a (fun b => foldCell ((unfoldAxis a bc).bcLower b) ((unfoldAxis a bc).bcUpper b) ((unfoldAxis a bc).n b) (v b)) =
          fun b => foldCell (bc.bcLower b) (bc.bcUpper b) (bc.n b) (u b) := by
        funext b
        unfold halfCell
        by_cases hb : b = a
        · subst hb
          simp only [unfoldAxis, Function.update_self, hw]
          exact hs1
        · simp only [unfoldAxis, Function.update_of_ne hb, huv b hb]
      have hQ := hq _ hlt
      rw [hcell] at hQ
      funext k
      have hk := congrFun hQ k
      rw [e1']
      show _ * q' k.val _ = _
      rw [hk]
      have hsg := unfold_sign bc a axes hnd (hall a) v u huv k.val (decide (bc.n a ≤ foldCell (bc.bcLower a) (bc.bcLower a) (2 * bc.n a) (v a)))
        hw s hs2
      have hz : halfSign bc.n a (axisSign bc a m) (fun b => foldCell ((unfoldAxis a bc).bcLower b) ((unfoldAxis a bc).bcUpper b)
          ((unfoldAxis a bc).n b) (v b)) (fun k => q k.val fun b => foldCell (bc.bcLower b) (bc.bcUpper b) (bc.n b) (u b)) k =
          (if decide (bc.n a ≤ foldCell (bc.bcLower a) (bc.bcLower a) (2 * bc.n a) (v a)) then (if k.val = bc.reflect a then -1 else 1 : K) else 1) *
            q k.val fun b => foldCell (bc.bcLower b) (bc.bcUpper b) (bc.n b) (u b) := by
        unfold halfSign
        simp only [unfoldAxis, Function.update_self]
        by_cases hl : foldCell (bc.bcLower a) (bc.bcLower a) (2 * bc.n a) (v a) < bc.n a
        · rw [if_pos hl, if_neg (by simpa using hl), one_mul]
        · rw [if_neg hl, if_pos (by simpa using hl)]
          rfl
      rw [hz, ← mul_assoc, hsg, mul_assoc]
      cases s
      · simp only [Bool.false_eq_true, if_false, one_mul]
        rw [e1]
      · simp only [if_true, signed, axisSign]
        rw [e1]
    · by_cases hpos : 0 < naux
      swap
      · funext k
        exact absurd k.isLt (by omega)
      have hpos' : 0 < bc.numAux := hx ▸ hpos
      obtain ⟨hs1, -⟩ := hs (bc.auxLower a) (h.auxLower hpos' a) (hpx hpos)
      have hlt : ∀ b, foldCell ((unfoldAxis a bc).auxLower b) ((unfoldAxis a bc).auxUpper b) ((unfoldAxis a bc).n b) (v b) <
          Function.update bc.n a (2 * bc.n a) b := fun b =>
        foldCell_lt _ _ (A1.auxLower hpos' b) (A1.auxUpper hpos' b) _ bc.g (A1.cells b).1 (A1.cells b).2 _ (hv b).1 (hv b).2
      have hcell : halfCell bc.n a (fun b => foldCell ((unfoldAxis a bc).auxLower b) ((unfoldAxis a bc).auxUpper b) ((unfoldAxis a bc).n b) (v b)) =
          fun b => foldCell (bc.auxLower b) (bc.auxUpper b) (bc.n b) (u b) := by
        funext b
        unfold halfCell
        by_cases hb : b = a
        · subst hb
          simp only [unfoldAxis, Function.update_self, hwx hpos]
          exact hs1
        · simp only [unfoldAxis, Function.update_of_ne hb, huv b hb]
      have hA := ha _ hlt
      rw [hcell, halfSign_one] at hA
      rw [e2', e2]
      exact hA
  constructor
  · intro v hv
    have := key v v false (fun b => ?_) hv (fun _ _ => rfl) fun lo h1 h2 => ?_
    · exact this
    · have hb := hv b
      by_cases e : b = a
      · subst e; rw [n2]; push_cast; omega
      · rw [n1 b e]; exact hb
    · have := unfold_left lo h1 h2 (bc.n a) bc.g hc.1 hc.2 (v a) (hv a).1 (hv a).2
      rw [Bool.false_xor]
      exact this
  · intro v hv
    have va := hv a
    have := key (Function.update v a (2 * bc.n a + 1 - v a)) v true (fun b => ?_) hv (fun b hb => by rw [Function.update_of_ne hb])
      fun lo h1 h2 => ?_
    · exact this
    · by_cases e : b = a
      · subst e; rw [n2, Function.update_self]; push_cast; omega
      · rw [n1 b e, Function.update_of_ne e]; exact hv b
    · have := unfold_right lo h1 h2 (bc.n a) bc.g hc.1 hc.2 (2 * bc.n a + 1 - v a) (by omega) (by omega)
      rw [Function.update_self, Bool.true_xor]
      rw [sub_sub_cancel] at this
      exact this

end fill

/-! ### Kernels -/

theorem Stencil.wide {ι τ : Type*} {step : IntKern ι K m naux} {g : Nat} {ok : ((ι → Int) → Fin naux → K) → (ι → Int) → Prop}
    {new : K → ((ι → Int) → Fin naux → K) → ((ι → Int) → Fin m → K) → (ι → Int) → Fin m → K} {low : τ → ι → Int}
    {nums : K → ((ι → Int) → Fin naux → K) → ((ι → Int) → Fin m → K) → τ → (ι → Int) → K → Prop}
    (S : Stencil step g ok new low nums) (hg : 2 ≤ g) : WideStencil step g ok new low nums where
  low01 := S.low01
  runs := S.runs
  stops := S.stops
  okLocal := S.okLocal
  newLocal := fun dt aux aux' q q' s v h => S.newLocal dt aux aux' q q' s v fun u hu => h u fun a => by have := hu a; omega
  numsLocal := fun dt aux aux' q q' t s v x h => S.numsLocal dt aux aux' q q' t s v x fun u hu => h u fun a => by
    have := hu a
    have := S.low01 t a
    omega

/-- A step on a grid and its image behind the upper end of axis `a`. -/
theorem wide_unfold {τ : Type*} {step : IntKern (Fin d) K m naux} {g : Nat} {ok : ((Fin d → Int) → Fin naux → K) → (Fin d → Int) → Prop}
    {new : K → ((Fin d → Int) → Fin naux → K) → ((Fin d → Int) → Fin m → K) → (Fin d → Int) → Fin m → K} {low : τ → Fin d → Int}
    {nums : K → ((Fin d → Int) → Fin naux → K) → ((Fin d → Int) → Fin m → K) → τ → (Fin d → Int) → K → Prop}
    (S : WideStencil step g ok new low nums) (hg : 1 ≤ g) (n : Fin d → Nat) (hn : ∀ b, 0 < n b) (a : Fin d) (T : (Fin m → K) → Fin m → K)
    (himg : ImageStep step step n n (fun v => Function.update v a ((n a : Int) + 1 - v a)) T id)
    (dt : K) (A A' : (Fin d → Int) → Fin naux → K) (Q Q' : (Fin d → Int) → Fin m → K)
    (left : ∀ v : Fin d → Int, (∀ b, 1 - (g : Int) ≤ v b ∧ v b ≤ n b + g) → Q' v = Q v ∧ A' v = A v)
    (right : ∀ v : Fin d → Int, (∀ b, 1 - (g : Int) ≤ v b ∧ v b ≤ n b + g) →
      Q' (Function.update v a (2 * n a + 1 - v a)) = T (Q v) ∧ A' (Function.update v a (2 * n a + 1 - v a)) = A v) :
    (step dt n A Q = none ∧ step dt (Function.update n a (2 * n a)) A' Q' = none) ∨
    ∃ r r' cfl, step dt n A Q = some (r, cfl) ∧ step dt (Function.update n a (2 * n a)) A' Q' = some (r', cfl) ∧
      ∀ v : Fin d → Int, (∀ b, 1 ≤ v b ∧ v b ≤ n b) → r' v = r v ∧ r' (Function.update v a (2 * n a + 1 - v a)) = T (r v) := by
  let sh : Fin d → Int := fun b => if b = a then n a else 0
  have sh1 : sh a = n a := if_pos rfl
  have sh2 : ∀ b, b ≠ a → sh b = 0 := fun b hb => if_neg hb
  have n1 : ∀ b, b ≠ a → Function.update n a (2 * n a) b = n b := fun b hb => Function.update_of_ne hb _ _
  have n2 : Function.update n a (2 * n a) a = 2 * n a := Function.update_self _ _ _
  have hna := hn a
  have hn' : ∀ b, 0 < Function.update n a (2 * n a) b := fun b => by
    by_cases h : b = a
    · subst h; rw [n2]; omega
    · rw [n1 b h]; exact hn b
  have left0 : ∀ v : Fin d → Int, (∀ b, 1 - (g : Int) ≤ v b ∧ v b ≤ n b + g) → A' v = A (fun b => v b + 0) ∧ Q' v = Q fun b => v b + 0 := by
    intro v hv
    simp only [add_zero]
    exact (left v hv).symm
  -- the second half is the image of the first
  have image : ∀ v : Fin d → Int, (∀ b, 1 - (g : Int) ≤ v b ∧ v b ≤ n b + g) →
      id (A (Function.update v a ((n a : Int) + 1 - v a))) = A' (fun b => v b + sh b) ∧
      T (Q (Function.update v a ((n a : Int) + 1 - v a))) = Q' fun b => v b + sh b := by
    intro v hv
    have va := hv a
    have h := right (Function.update v a ((n a : Int) + 1 - v a)) fun b => by
      by_cases h : b = a
      · subst h; rw [Function.update_self]; omega
      · rw [Function.update_of_ne h]; exact hv b
    rw [Function.update_idem, Function.update_self] at h
    have e : Function.update v a (2 * (n a : Int) + 1 - ((n a : Int) + 1 - v a)) = fun b => v b + sh b := by
      funext b
      by_cases hb : b = a
      · subst hb; rw [Function.update_self, sh1]; ring
      · rw [Function.update_of_ne hb, sh2 b hb, add_zero]
    rw [e] at h
    exact ⟨h.2.symm, h.1.symm⟩
  have some_ok : ∀ (n : Fin d → Nat) (A : (Fin d → Int) → Fin naux → K) (Q : (Fin d → Int) → Fin m → K) rc, step dt n A Q = some rc →
      ∀ v : Fin d → Int, (∀ b, 1 - (g : Int) ≤ v b ∧ v b ≤ n b + g) → ok A v := by
    intro n A Q rc h v hv
    by_contra hno
    rw [S.stops dt n A Q v hv hno] at h
    exact absurd h (by simp)
  rcases himg dt A Q with ⟨h1, -⟩ | ⟨r, ri, cfl, h1, h2, h3⟩
  · left
    refine ⟨h1, ?_⟩
    by_contra hne
    obtain ⟨rc, hrc⟩ := Option.ne_none_iff_exists'.mp hne
    have hall := some_ok _ _ _ _ hrc
    obtain ⟨r, cfl, e, -⟩ := S.runs dt n A Q hn fun v hv => by
      have := (S.okLocal A A' (fun _ => 0) v (left0 v hv).1).mp (hall v fun b => by
        have := hv b
        by_cases h : b = a
        · subst h; rw [n2]; push_cast; omega
        · rw [n1 b h]; exact this)
      simpa only [add_zero] using this
    rw [h1] at e
    exact absurd e (by simp)
  · right
    have okA := some_ok _ _ _ _ h1
    have okI := some_ok _ _ _ _ h2
    -- cells of the second half
    have back : ∀ v : Fin d → Int, (fun b => (fun b => v b - sh b) b + sh b) = v := fun v => funext fun b => by
      show v b - sh b + sh b = v b
      ring
    have okA' : ∀ v : Fin d → Int, (∀ b, 1 - (g : Int) ≤ v b ∧ v b ≤ Function.update n a (2 * n a) b + g) → ok A' v := by
      intro v hv
      have va := hv a
      rw [n2] at va
      push_cast at va
      by_cases h : v a ≤ n a + g
      · have hb : ∀ b, 1 - (g : Int) ≤ v b ∧ v b ≤ n b + g := fun b => by
          by_cases hb : b = a
          · subst hb; exact ⟨va.1, h⟩
          · have := hv b; rwa [n1 b hb] at this
        refine (S.okLocal A A' (fun _ => 0) v (left0 v hb).1).mpr ?_
        simpa only [add_zero] using okA v hb
      · have hb : ∀ b, 1 - (g : Int) ≤ (fun b => v b - sh b) b ∧ (fun b => v b - sh b) b ≤ n b + g := fun b => by
          show 1 - (g : Int) ≤ v b - sh b ∧ v b - sh b ≤ n b + g
          by_cases hb : b = a
          · subst hb; rw [sh1]; omega
          · have := hv b; rw [n1 b hb] at this; rw [sh2 b hb]; omega
        have := (S.okLocal A' (fun v => id (A (Function.update v a ((n a : Int) + 1 - v a)))) sh _ (image _ hb).1).mp (okI _ hb)
        rwa [back] at this
    obtain ⟨r0, cfl0, e1, e2, e3⟩ := S.runs dt n A Q hn okA
    obtain ⟨ri0, cfli0, f1, f2, f3⟩ := S.runs dt n _ _ hn okI
    obtain ⟨r', cfl', g1, g2, g3⟩ := S.runs dt _ A' Q' hn' okA'
    rw [h1] at e1
    obtain ⟨rfl, rfl⟩ := Prod.mk.inj (Option.some.inj e1)
    rw [h2] at f1
    obtain ⟨rfl, rfl⟩ := Prod.mk.inj (Option.some.inj f1)
    have hcfl : cfl' = cfl := by
      have hm := isMax_max e3 f3
      rw [max_self] at hm
      refine isMax_unique g3 (isMax_congr (fun x => ?_) hm)
      have nl : ∀ t (v : Fin d → Int), (∀ b, low t b ≤ v b ∧ v b ≤ n b + 1) → (nums dt A' Q' t v x ↔ nums dt A Q t v x) := by
        intro t v hv
        have := S.numsLocal dt A A' Q Q' t (fun _ => 0) v x fun u hu => left0 u fun b => by
          have := hu b; have := hv b; have := S.low01 t b; omega
        simpa only [add_zero] using this
      have nr : ∀ t (v : Fin d → Int), (∀ b, low t b ≤ v b ∧ v b ≤ n b + 1) →
          (nums dt (fun v => id (A (Function.update v a ((n a : Int) + 1 - v a)))) (fun v => T (Q (Function.update v a ((n a : Int) + 1 - v a)))) t v x ↔
            nums dt A' Q' t (fun b => v b + sh b) x) := by
        intro t v hv
        exact S.numsLocal dt A' _ Q' _ t sh v x fun u hu => image u fun b => by
          have := hu b; have := hv b; have := S.low01 t b; omega
      constructor
      · rintro (⟨t, v, hv, hx⟩ | ⟨t, v, hv, hx⟩)
        · refine ⟨t, v, fun b => ?_, (nl t v hv).mpr hx⟩
          have := hv b
          by_cases h : b = a
          · subst h; rw [n2]; push_cast; omega
          · rw [n1 b h]; exact this
        · refine ⟨t, fun b => v b + sh b, fun b => ?_, (nr t v hv).mp hx⟩
          have := hv b
          show low t b ≤ v b + sh b ∧ v b + sh b ≤ _
          by_cases h : b = a
          · subst h; rw [n2, sh1]; push_cast; omega
          · rw [n1 b h, sh2 b h, add_zero]; exact this
      · rintro ⟨t, v, hv, hx⟩
        have va := hv a
        rw [n2] at va
        push_cast at va
        by_cases h : v a ≤ n a + 1
        · have hb : ∀ b, low t b ≤ v b ∧ v b ≤ n b + 1 := fun b => by
            by_cases hb : b = a
            · subst hb; exact ⟨va.1, h⟩
            · have := hv b; rwa [n1 b hb] at this
          exact Or.inl ⟨t, v, hb, (nl t v hb).mp hx⟩
        · have hb : ∀ b, low t b ≤ (fun b => v b - sh b) b ∧ (fun b => v b - sh b) b ≤ n b + 1 := fun b => by
            have hl := S.low01 t b
            show low t b ≤ v b - sh b ∧ v b - sh b ≤ n b + 1
            by_cases hb : b = a
            · subst hb; rw [sh1]; omega
            · have := hv b; rw [n1 b hb] at this; rw [sh2 b hb]; omega
          refine Or.inr ⟨t, fun b => v b - sh b, hb, (nr t _ hb).mpr ?_⟩
          rw [back]
          exact hx
    subst hcfl
    refine ⟨r, r', _, h1, g1, fun v hv => ⟨?_, ?_⟩⟩
    · rw [g2 v fun b => ?_, e2 v hv]
      · have := S.newLocal dt A A' Q Q' (fun _ => 0) v fun u hu => left0 u fun b => by have := hu b; have := hv b; omega
        simpa only [add_zero] using this
      · have := hv b
        by_cases h : b = a
        · subst h; rw [n2]; push_cast; omega
        · rw [n1 b h]; exact this
    · have va := hv a
      have hu : ∀ b, 1 ≤ Function.update v a ((n a : Int) + 1 - v a) b ∧ Function.update v a ((n a : Int) + 1 - v a) b ≤ n b := fun b => by
        by_cases h : b = a
        · subst h; rw [Function.update_self]; omega
        · rw [Function.update_of_ne h]; exact hv b
      have hi := h3 _ hu
      beta_reduce at hi
      rw [Function.update_idem, Function.update_self, sub_sub_cancel, Function.update_eq_self] at hi
      rw [← hi, f2 _ hu]
      have e : Function.update v a (2 * (n a : Int) + 1 - v a) = fun b => Function.update v a ((n a : Int) + 1 - v a) b + sh b := by
        funext b
        by_cases hb : b = a
        · subst hb; rw [Function.update_self, Function.update_self, sh1]; ring
        · rw [Function.update_of_ne hb, Function.update_of_ne hb, sh2 b hb, add_zero]
      rw [e, g2 _ fun b => ?_]
      · exact (S.newLocal dt A' _ Q' _ sh _ fun u hu' => image u fun b => by have := hu' b; have := hu b; omega).symm
      · have := hu b
        show 1 ≤ Function.update v a ((n a : Int) + 1 - v a) b + sh b ∧ _
        by_cases h : b = a
        · subst h; rw [n2, sh1]; push_cast; omega
        · rw [n1 b h, sh2 b h, add_zero]; exact this

/-- A step on a grid and its image behind the upper end of axis `a`. -/
def UnfoldsStep (step : IntKern (Fin d) K m naux) (g : Nat) (n : Fin d → Nat) (a : Fin d) (T : (Fin m → K) → Fin m → K) : Prop :=
  ∀ (dt : K) (A A' : (Fin d → Int) → Fin naux → K) (Q Q' : (Fin d → Int) → Fin m → K),
    (∀ v : Fin d → Int, (∀ b, 1 - (g : Int) ≤ v b ∧ v b ≤ n b + g) → Q' v = Q v ∧ A' v = A v) →
    (∀ v : Fin d → Int, (∀ b, 1 - (g : Int) ≤ v b ∧ v b ≤ n b + g) →
      Q' (Function.update v a (2 * n a + 1 - v a)) = T (Q v) ∧ A' (Function.update v a (2 * n a + 1 - v a)) = A v) →
    (step dt n A Q = none ∧ step dt (Function.update n a (2 * n a)) A' Q' = none) ∨
    ∃ r r' cfl, step dt n A Q = some (r, cfl) ∧ step dt (Function.update n a (2 * n a)) A' Q' = some (r', cfl) ∧
      ∀ v : Fin d → Int, (∀ b, 1 ≤ v b ∧ v b ≤ n b) → r' v = r v ∧ r' (Function.update v a (2 * n a + 1 - v a)) = T (r v)

/-- The same, cell by cell of the second grid. -/
theorem unfoldsStep_cells {step : IntKern (Fin d) K m naux} {g : Nat} {n : Fin d → Nat} {a : Fin d} {σ : Fin m → K}
    (U : UnfoldsStep step g n a (signed σ))
    (dt : K) (A A' : (Fin d → Int) → Fin naux → K) (Q Q' : (Fin d → Int) → Fin m → K)
    (left : ∀ v : Fin d → Int, (∀ b, 1 - (g : Int) ≤ v b ∧ v b ≤ n b + g) → Q' v = Q v ∧ A' v = A v)
    (right : ∀ v : Fin d → Int, (∀ b, 1 - (g : Int) ≤ v b ∧ v b ≤ n b + g) →
      Q' (Function.update v a (2 * n a + 1 - v a)) = signed σ (Q v) ∧ A' (Function.update v a (2 * n a + 1 - v a)) = A v) :
    (step dt n A Q = none ∧ step dt (Function.update n a (2 * n a)) A' Q' = none) ∨
    ∃ r r' cfl, step dt n A Q = some (r, cfl) ∧ step dt (Function.update n a (2 * n a)) A' Q' = some (r', cfl) ∧
      ∀ x : Fin d → Nat, (∀ b, x b < Function.update n a (2 * n a) b) →
        r' (fun b => (x b : Int) + 1) = halfSign n a σ x (r fun b => (halfCell n a x b : Int) + 1) := by
  rcases U dt A A' Q Q' left right with h | ⟨r, r', cfl, h1, h2, h3⟩
  · exact Or.inl h
  · refine Or.inr ⟨r, r', cfl, h1, h2, fun x hx => ?_⟩
    have hlt := halfCell_lt n a x hx
    have h := h3 (fun b => (halfCell n a x b : Int) + 1) fun b => by have := hlt b; omega
    have xa := hx a
    rw [Function.update_self] at xa
    unfold halfSign
    by_cases hc : x a < n a
    · rw [if_pos hc, ← h.1]
      have : halfCell n a x = x := by
        unfold halfCell halfIndex
        rw [if_pos hc, Function.update_eq_self]
      rw [this]
    · rw [if_neg hc, ← h.2]
      congr 1
      funext b
      by_cases hb : b = a
      · subst hb
        simp only [Function.update_self, halfCell, halfIndex, if_neg hc]
        omega
      · simp only [Function.update_of_ne hb, halfCell]

theorem wide_unfold_cells {τ : Type*} {step : IntKern (Fin d) K m naux} {g : Nat} {ok : ((Fin d → Int) → Fin naux → K) → (Fin d → Int) → Prop}
    {new : K → ((Fin d → Int) → Fin naux → K) → ((Fin d → Int) → Fin m → K) → (Fin d → Int) → Fin m → K} {low : τ → Fin d → Int}
    {nums : K → ((Fin d → Int) → Fin naux → K) → ((Fin d → Int) → Fin m → K) → τ → (Fin d → Int) → K → Prop}
    (S : WideStencil step g ok new low nums) (hg : 1 ≤ g) (n : Fin d → Nat) (hn : ∀ b, 0 < n b) (a : Fin d) (σ : Fin m → K)
    (himg : ImageStep step step n n (fun v => Function.update v a ((n a : Int) + 1 - v a)) (signed σ) id)
    (dt : K) (A A' : (Fin d → Int) → Fin naux → K) (Q Q' : (Fin d → Int) → Fin m → K)
    (left : ∀ v : Fin d → Int, (∀ b, 1 - (g : Int) ≤ v b ∧ v b ≤ n b + g) → Q' v = Q v ∧ A' v = A v)
    (right : ∀ v : Fin d → Int, (∀ b, 1 - (g : Int) ≤ v b ∧ v b ≤ n b + g) →
      Q' (Function.update v a (2 * n a + 1 - v a)) = signed σ (Q v) ∧ A' (Function.update v a (2 * n a + 1 - v a)) = A v) :
    (step dt n A Q = none ∧ step dt (Function.update n a (2 * n a)) A' Q' = none) ∨
    ∃ r r' cfl, step dt n A Q = some (r, cfl) ∧ step dt (Function.update n a (2 * n a)) A' Q' = some (r', cfl) ∧
      ∀ x : Fin d → Nat, (∀ b, x b < Function.update n a (2 * n a) b) →
        r' (fun b => (x b : Int) + 1) = halfSign n a σ x (r fun b => (halfCell n a x b : Int) + 1) :=
  unfoldsStep_cells (wide_unfold S hg n hn a (signed σ) himg) dt A A' Q Q' left right

/-- Two kernels with the same results in the cells of the grid. -/
def AgreeInside (step step' : IntKern (Fin d) K m naux) : Prop :=
  ∀ dt n A Q, (step dt n A Q = none ∧ step' dt n A Q = none) ∨
    ∃ r r' cfl, step dt n A Q = some (r, cfl) ∧ step' dt n A Q = some (r', cfl) ∧ ∀ v : Fin d → Int, (∀ a, 1 ≤ v a ∧ v a ≤ n a) → r' v = r v

theorem agree_refl (step : IntKern (Fin d) K m naux) : AgreeInside step step := by
  intro dt n A Q
  match h : step dt n A Q with
  | none => exact Or.inl ⟨rfl, rfl⟩
  | some (r, cfl) => exact Or.inr ⟨r, r, cfl, rfl, rfl, fun _ _ => rfl⟩

/-- Runs on a grid and on the grid with its image. -/
theorem unfoldsStep_run [FloorRing K] {step step' : IntKern (Fin d) K m naux} (hag : AgreeInside step step') (c c' : ParCfg (Fin d) K)
    (hr : ClassicRun c m naux step) (hr' : ClassicRun c' m naux step') (ha : Admissible c.bc) (hs : Serial c.bc) (a : Fin d)
    (hbc : c'.bc = unfoldAxis a c.bc) (U : UnfoldsStep step c.bc.g c.bc.n a (signed (axisSign c.bc a m)))
    (hw : c.bc.bcUpper a = .wall) (hwx : 0 < naux → c.bc.auxUpper a = .wall)
    (hp : c.bc.bcLower a ≠ .periodic) (hpx : 0 < naux → c.bc.auxLower a ≠ .periodic) (rnd : K → K) (L L' : K)
    (ops : List (StepOp K (GArr (Fin d) K) (GArr (Fin d) K × BCArrays (Fin d) K))) (hops : OnlyEvolves ops)
    (s s' : StepState K (GArr (Fin d) K) (GArr (Fin d) K × BCArrays (Fin d) K))
    (h : InStep (UnfoldedAlong m naux c.bc.n a (axisSign c.bc a m)) s s') :
    InStep (UnfoldedAlong m naux c.bc.n a (axisSign c.bc a m)) (runSteps (serialEnv c rnd L) ops s)
      (runSteps (serialEnv c' rnd L') ops s') := by
  have hn : c'.bc.n = Function.update c.bc.n a (2 * c.bc.n a) := by rw [hbc]; rfl
  have hs' : Serial c'.bc := by rw [hbc]; exact hs
  have ha' : Admissible c'.bc := by rw [hbc]; exact unfoldAxis_admissible c.bc ha a
  have nd : (List.finRange d).Nodup := List.nodup_finRange d
  have E := kernel_sim m naux c c' step step' hr hr' (halfCell c.bc.n a) (halfSign c.bc.n a (axisSign c.bc a m))
    (FilledBy c.bc (List.finRange d) m naux) (FilledBy c'.bc (List.finRange d) m naux)
    (fun q aux old => by rw [hr.axes]; exact serial_fill c.bc ha hs _ nd List.mem_finRange m naux hr.numAux q aux old)
    (fun q aux old => by rw [hr'.axes]; exact serial_fill c'.bc ha' hs' _ nd List.mem_finRange m naux hr'.numAux q aux old)
    (UnfoldedArray naux c.bc.n a fun _ => 1) ?_ rnd L L'
  · rw [hn] at E
    have key := run_sim E ops hops s s' ⟨h.set, h.status, h.t, h.log, (unfoldedArray_iff _ _ _ _ _).mp h.data.1, h.data.2⟩
    exact ⟨key.set, key.status, key.t, key.log, (unfoldedArray_iff _ _ _ _ _).mpr key.data.1, key.data.2⟩
  · intro dt A A' Q Q' q q' aux aux' f f' haux hq
    rw [hn] at hq ⊢
    rw [hbc] at f'
    have F := unfoldAxis_fill c.bc ha a _ nd List.mem_finRange hr.numAux hw hwx hp hpx f f' ((unfoldedArray_iff _ _ _ _ _).mpr hq) haux
    rcases unfoldsStep_cells U dt A A' Q Q' F.1 F.2
      with ⟨h1, h2⟩ | ⟨r, r', cfl, h1, h2, h3⟩
    · rcases hag dt (Function.update c.bc.n a (2 * c.bc.n a)) A' Q' with ⟨_, g2⟩ | ⟨_, _, _, g1, _⟩
      · exact Or.inl ⟨h1, g2⟩
      · rw [h2] at g1
        exact absurd g1 (by simp)
    · rcases hag dt (Function.update c.bc.n a (2 * c.bc.n a)) A' Q' with ⟨g1, _⟩ | ⟨_, r'', _, g1, g2, g3⟩
      · rw [h2] at g1
        exact absurd g1 (by simp)
      · rw [h2] at g1
        obtain ⟨rfl, rfl⟩ := Prod.mk.inj (Option.some.inj g1)
        exact Or.inr ⟨r, r'', cfl, h1, g2, fun x hx => (g3 _ fun b => by have := hx b; omega).trans (h3 x hx)⟩

theorem unfoldAxis_run [FloorRing K] {step step' : IntKern (Fin d) K m naux} (hag : AgreeInside step step') (c c' : ParCfg (Fin d) K)
    (hr : ClassicRun c m naux step) (hr' : ClassicRun c' m naux step') (ha : Admissible c.bc) (hs : Serial c.bc) (a : Fin d)
    (hbc : c'.bc = unfoldAxis a c.bc) (hst : HasStencil step c.bc.g)
    (himg : ImageStep step step c.bc.n c.bc.n (fun v => Function.update v a ((c.bc.n a : Int) + 1 - v a)) (signed (axisSign c.bc a m)) id)
    (hw : c.bc.bcUpper a = .wall) (hwx : 0 < naux → c.bc.auxUpper a = .wall)
    (hp : c.bc.bcLower a ≠ .periodic) (hpx : 0 < naux → c.bc.auxLower a ≠ .periodic) (rnd : K → K) (L L' : K)
    (ops : List (StepOp K (GArr (Fin d) K) (GArr (Fin d) K × BCArrays (Fin d) K))) (hops : OnlyEvolves ops)
    (s s' : StepState K (GArr (Fin d) K) (GArr (Fin d) K × BCArrays (Fin d) K))
    (h : InStep (UnfoldedAlong m naux c.bc.n a (axisSign c.bc a m)) s s') :
    InStep (UnfoldedAlong m naux c.bc.n a (axisSign c.bc a m)) (runSteps (serialEnv c rnd L) ops s)
      (runSteps (serialEnv c' rnd L') ops s') := by
  obtain ⟨_, _, _, _, _, S⟩ := hst
  exact unfoldsStep_run hag c c' hr hr' ha hs a hbc
    (wide_unfold (S.wide hr.ghost) (by have := hr.ghost; omega) c.bc.n (fun b => (ha.cells b).1) a _ himg) hw hwx hp hpx rnd L L' ops hops s s' h

end PyClaw
