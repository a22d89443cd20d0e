import Verif.Model.ParallelKernels
import Verif.Lemmas.Parallel

set_option linter.unusedSectionVars false

/-!
A kernel whose result is given by a formula with a stencil of width 2 is local.
-/
namespace PyClaw
open Spec

variable {ι K : Type*} [Field K] [LinearOrder K] [IsStrictOrderedRing K] {m naux : Nat}

/-- Every cell of the ghosted grid lies in the ghosted grid of a process: in its interior, or beyond its end where that is the end of
the whole grid. -/
theorem cover {D : Decomp ι} {n : ι → Nat} {g : Nat} (hD : GoodDecomp D n g) (hn : ∀ a, 0 < n a) (v : ι → Int) :
    ∃ P, ValidProc D P ∧ ∀ a, ((D.lo P a : Int) + 1 ≤ v a ∨ (D.lo P a = 0 ∧ v a ≤ 0)) ∧
      (v a ≤ (D.lo P a : Int) + D.size P a ∨ (D.lo P a + D.size P a = n a ∧ (n a : Int) < v a)) := by
  have hx : ∀ a, min (v a - 1).toNat (n a - 1) < n a := fun a => by have := hn a; omega
  have ho := fun a => owner_spec (hD.parts a) (hx a)
  have hv : ValidProc D (fun a => D.owner a (min (v a - 1).toNat (n a - 1))) := fun a => (ho a).1
  refine ⟨_, hv, fun a => ?_⟩
  have hr := range_spec hD hv a
  have hoa := ho a
  have := hn a
  generalize hO : (fun a => D.owner a (min (v a - 1).toNat (n a - 1))) = O at *
  have hOa : D.owner a (min (v a - 1).toNat (n a - 1)) = O a := by rw [← hO]
  rw [hOa] at hoa
  unfold Decomp.lo Decomp.size at *
  omega

theorem isMax_split {D : Decomp ι} {SG : K → Prop} {SP : Proc ι → K → Prop} {x : K} {cP : Proc ι → K}
    (hG : IsMaxWithZero SG x) (hP : ∀ P, ValidProc D P → IsMaxWithZero (SP P) (cP P))
    (h : ∀ v, SG v ↔ ∃ P, ValidProc D P ∧ SP P v) : IsMaxWithZero (fun v => ∃ P, ValidProc D P ∧ v = cP P) x := by
  refine ⟨hG.1, ?_, ?_⟩
  · rintro v ⟨P, hv, rfl⟩
    rcases (hP P hv).2.2 with h0 | h0
    · rw [h0]; exact hG.1
    · exact hG.2.1 _ ((h _).mpr ⟨P, hv, h0⟩)
  · rcases hG.2.2 with h0 | h0
    · exact Or.inl h0
    · obtain ⟨P, hv, hs⟩ := (h _).mp h0
      right
      refine ⟨P, hv, le_antisymm ((hP P hv).2.1 _ hs) ?_⟩
      rcases (hP P hv).2.2 with h1 | h1
      · rw [h1]; exact hG.1
      · exact hG.2.1 _ ((h _).mpr ⟨P, hv, h1⟩)

theorem field_part {D : Decomp ι} {g : Nat} {P : Proc ι} {G L : GArr ι K} (m : Nat) (h : IsGhostedPart D g P G L) (v : ι → Int)
    (hv : ∀ a, 1 - (g : Int) ≤ v a ∧ v a ≤ D.size P a + g) :
    fieldOf m g L v = fieldOf m g G fun a => v a + D.lo P a := by
  funext c
  unfold fieldOf
  rw [h c.val _ (fun a => by have := hv a; omega)]
  congr 1
  funext a
  have := hv a
  dsimp only
  omega

/-- A kernel given by a formula. -/
structure Stencil {τ : Type*} (step : IntKern ι K m naux) (g : Nat)
    (ok : ((ι → Int) → Fin naux → K) → (ι → Int) → Prop)
    (new : K → ((ι → Int) → Fin naux → K) → ((ι → Int) → Fin m → K) → (ι → Int) → Fin m → K)
    (low : τ → ι → Int)
    (nums : K → ((ι → Int) → Fin naux → K) → ((ι → Int) → Fin m → K) → τ → (ι → Int) → K → Prop) : Prop where
  low01 : ∀ t a, 0 ≤ low t a ∧ low t a ≤ 1
  runs : ∀ dt (n : ι → Nat) aux q, (∀ a, 0 < n a) → (∀ v : ι → Int, (∀ a, 1 - (g : Int) ≤ v a ∧ v a ≤ n a + g) → ok aux v) →
    ∃ r cfl, step dt n aux q = some (r, cfl) ∧ (∀ v : ι → Int, (∀ a, 1 ≤ v a ∧ v a ≤ n a) → r v = new dt aux q v) ∧
      IsMaxWithZero (fun x => ∃ t, ∃ v : ι → Int, (∀ a, low t a ≤ v a ∧ v a ≤ n a + 1) ∧ nums dt aux q t v x) cfl
  stops : ∀ dt (n : ι → Nat) aux q (v : ι → Int), (∀ a, 1 - (g : Int) ≤ v a ∧ v a ≤ n a + g) → ¬ ok aux v → step dt n aux q = none
  okLocal : ∀ aux aux' (s v : ι → Int), aux' v = aux (fun a => v a + s a) → (ok aux' v ↔ ok aux fun a => v a + s a)
  newLocal : ∀ dt aux aux' q q' (s v : ι → Int),
    (∀ u : ι → Int, (∀ a, v a - 2 ≤ u a ∧ u a ≤ v a + 2) → aux' u = aux (fun a => u a + s a) ∧ q' u = q fun a => u a + s a) →
    new dt aux' q' v = new dt aux q fun a => v a + s a
  numsLocal : ∀ dt aux aux' q q' t (s v : ι → Int) x,
    (∀ u : ι → Int, (∀ a, v a - 1 ≤ u a ∧ u a ≤ v a + 1) → aux' u = aux (fun a => u a + s a) ∧ q' u = q fun a => u a + s a) →
    (nums dt aux' q' t v x ↔ nums dt aux q t (fun a => v a + s a) x)

theorem Stencil.localKernel {τ : Type*} {step : IntKern ι K m naux} {g : Nat}
    {ok : ((ι → Int) → Fin naux → K) → (ι → Int) → Prop}
    {new : K → ((ι → Int) → Fin naux → K) → ((ι → Int) → Fin m → K) → (ι → Int) → Fin m → K} {low : τ → ι → Int}
    {nums : K → ((ι → Int) → Fin naux → K) → ((ι → Int) → Fin m → K) → τ → (ι → Int) → K → Prop}
    (S : Stencil step g ok new low nums) (hg : 2 ≤ g) : LocalKernel (onArrays m naux g step) g naux := by
  refine ⟨fun dt n D hD hn G L hpart => ?_⟩
  have hq : ∀ P, ValidProc D P → ∀ v : ι → Int, (∀ a, 1 - (g : Int) ≤ v a ∧ v a ≤ D.size P a + g) →
      fieldOf m g (L P).q v = fieldOf m g G.q fun a => v a + D.lo P a :=
    fun P hP v hv => field_part m (hpart P hP).1 v hv
  have ha : ∀ P, ValidProc D P → ∀ v : ι → Int, (∀ a, 1 - (g : Int) ≤ v a ∧ v a ≤ D.size P a + g) →
      fieldOf naux g (L P).aux v = fieldOf naux g G.aux fun a => v a + D.lo P a := by
    intro P hP v hv
    by_cases h0 : 0 < naux
    · exact field_part naux ((hpart P hP).2 h0) v hv
    · funext c; exact absurd c.isLt (by omega)
  by_cases hok : ∀ v : ι → Int, (∀ a, 1 - (g : Int) ≤ v a ∧ v a ≤ n a + g) → ok (fieldOf naux g G.aux) v
  · obtain ⟨r, cfl, e1, e2, e3⟩ := S.runs dt n (fieldOf naux g G.aux) (fieldOf m g G.q) hn hok
    have eG : onArrays m naux g step dt n G = some (putBack m g G.q r, cfl) := by unfold onArrays; rw [e1]; rfl
    refine ⟨fun h => by rw [eG] at h; exact absurd h (by simp), fun r' cfl' h => ?_⟩
    rw [eG] at h
    obtain ⟨rfl, rfl⟩ := Prod.mk.inj (Option.some.inj h)
    have hl : ∀ P, ∃ (rr : (ι → Int) → Fin m → K) (cc : K), ValidProc D P →
        step dt (D.size P) (fieldOf naux g (L P).aux) (fieldOf m g (L P).q) = some (rr, cc) ∧
        (∀ v : ι → Int, (∀ a, 1 ≤ v a ∧ v a ≤ D.size P a) → rr v = new dt (fieldOf naux g (L P).aux) (fieldOf m g (L P).q) v) ∧
        IsMaxWithZero (fun x => ∃ t, ∃ v : ι → Int, (∀ a, low t a ≤ v a ∧ v a ≤ D.size P a + 1) ∧
          nums dt (fieldOf naux g (L P).aux) (fieldOf m g (L P).q) t v x) cc := by
      intro P
      by_cases hP : ValidProc D P
      · obtain ⟨rr, cc, h⟩ := S.runs dt (D.size P) (fieldOf naux g (L P).aux) (fieldOf m g (L P).q)
          (fun a => (range_spec hD hP a).2.1) (fun v hv =>
            (S.okLocal (fieldOf naux g G.aux) _ (fun a => D.lo P a) v (ha P hP v hv)).mpr (hok _ fun a => by
              have := hv a; have := range_spec hD hP a; omega))
        exact ⟨rr, cc, fun _ => h⟩
      · exact ⟨fun _ => 0, 0, fun h => absurd h hP⟩
    choose rr cc hrc using hl
    refine ⟨fun P => putBack m g (L P).q (rr P), cc, fun P hP => ⟨?_, fun c idx hidx => ?_⟩, ?_⟩
    · unfold onArrays; rw [(hrc P hP).1]; rfl
    · have hr := range_spec hD hP
      have hp := hpart P hP
      unfold putBack
      dsimp only
      by_cases hc : c < m
      · rw [dif_pos hc, dif_pos hc]
        refine congrFun ?_ _
        have h1 : ∀ a, (((idx a + g : Nat) : Int) + 1 - g) = idx a + 1 := fun a => by omega
        have h2 : ∀ a, (((D.lo P a + idx a + g : Nat) : Int) + 1 - g) = (idx a : Int) + 1 + D.lo P a := fun a => by omega
        simp only [h1, h2]
        rw [(hrc P hP).2.1 _ (fun a => by have := hidx a; omega), e2 _ (fun a => by have := hidx a; have := hr a; omega)]
        refine S.newLocal dt _ _ _ _ (fun a => (D.lo P a : Int)) (fun a => (idx a : Int) + 1) fun u hu => ?_
        have hb : ∀ a, 1 - (g : Int) ≤ u a ∧ u a ≤ D.size P a + g := fun a => by have := hu a; have := hidx a; omega
        exact ⟨ha P hP u hb, hq P hP u hb⟩
      · rw [dif_neg hc, dif_neg hc, hp.1 c _ (fun a => by have := hidx a; omega)]
        congr 1
        funext a
        omega
    · refine isMax_split e3 (fun P hP => (hrc P hP).2.2) fun x => ?_
      have tr : ∀ P, ValidProc D P → ∀ t (v : ι → Int), (∀ a, low t a ≤ v a ∧ v a ≤ D.size P a + 1) →
          (nums dt (fieldOf naux g (L P).aux) (fieldOf m g (L P).q) t v x ↔
            nums dt (fieldOf naux g G.aux) (fieldOf m g G.q) t (fun a => v a + D.lo P a) x) := by
        intro P hP t v hv
        refine S.numsLocal dt _ _ _ _ t (fun a => (D.lo P a : Int)) v x fun u hu => ?_
        have hb : ∀ a, 1 - (g : Int) ≤ u a ∧ u a ≤ D.size P a + g := fun a => by
          have := hu a; have := hv a; have := S.low01 t a; omega
        exact ⟨ha P hP u hb, hq P hP u hb⟩
      constructor
      · rintro ⟨t, v, hv, hx⟩
        obtain ⟨P, hP, hc⟩ := cover hD hn v
        have hv' : ∀ a, low t a ≤ v a - D.lo P a ∧ v a - D.lo P a ≤ D.size P a + 1 := fun a => by
          have := hc a; have := hv a; have := S.low01 t a; have := range_spec hD hP a; omega
        refine ⟨P, hP, t, fun a => v a - D.lo P a, hv', (tr P hP t _ hv').mpr ?_⟩
        simp only [sub_add_cancel]
        exact hx
      · rintro ⟨P, hP, t, v, hv, hx⟩
        refine ⟨t, fun a => v a + D.lo P a, fun a => ?_, (tr P hP t v hv).mp hx⟩
        have := hv a; have := S.low01 t a; have := range_spec hD hP a
        dsimp only
        omega
  · push Not at hok
    obtain ⟨v, hv, hno⟩ := hok
    have eG : onArrays m naux g step dt n G = none := by
      unfold onArrays; rw [S.stops dt n _ _ v hv hno]; rfl
    refine ⟨fun _ => ?_, fun r cfl h => by rw [eG] at h; exact absurd h (by simp)⟩
    obtain ⟨P, hP, hc⟩ := cover hD hn v
    have hb : ∀ a, 1 - (g : Int) ≤ v a - D.lo P a ∧ v a - D.lo P a ≤ D.size P a + g := fun a => by
      have := hc a; have := hv a; have := range_spec hD hP a; omega
    refine ⟨P, hP, ?_⟩
    unfold onArrays
    rw [S.stops dt (D.size P) _ _ (fun a => v a - D.lo P a) hb]
    · rfl
    · rw [S.okLocal (fieldOf naux g G.aux) _ (fun a => (D.lo P a : Int)) _ (ha P hP _ hb)]
      simpa using hno

/-- A kernel that is given by some formula with a stencil of width 2. -/
def HasStencil (step : IntKern ι K m naux) (g : Nat) : Prop :=
  ∃ (τ : Type) (ok : ((ι → Int) → Fin naux → K) → (ι → Int) → Prop)
    (new : K → ((ι → Int) → Fin naux → K) → ((ι → Int) → Fin m → K) → (ι → Int) → Fin m → K) (low : τ → ι → Int)
    (nums : K → ((ι → Int) → Fin naux → K) → ((ι → Int) → Fin m → K) → τ → (ι → Int) → K → Prop), Stencil step g ok new low nums

theorem HasStencil.localKernel {step : IntKern ι K m naux} {g : Nat} (h : HasStencil step g) (hg : 2 ≤ g) :
    LocalKernel (onArrays m naux g step) g naux := by
  obtain ⟨_, _, _, _, _, S⟩ := h
  exact S.localKernel hg

/-! ### Largest numbers of loops -/

theorem isMax_max {S T : K → Prop} {x y : K} (hx : IsMaxWithZero S x) (hy : IsMaxWithZero T y) :
    IsMaxWithZero (fun v => S v ∨ T v) (max x y) := by
  refine ⟨le_max_of_le_left hx.1, ?_, ?_⟩
  · rintro v (h | h)
    · exact (hx.2.1 v h).trans (le_max_left _ _)
    · exact (hy.2.1 v h).trans (le_max_right _ _)
  · rcases max_choice x y with e | e
    · rw [e]
      rcases hx.2.2 with h | h
      · exact Or.inl h
      · exact Or.inr (Or.inl h)
    · rw [e]
      rcases hy.2.2 with h | h
      · exact Or.inl h
      · exact Or.inr (Or.inr h)

theorem isMax_congr {S T : K → Prop} {x : K} (h : ∀ v, S v ↔ T v) (hx : IsMaxWithZero S x) : IsMaxWithZero T x := by
  rw [show T = S from funext fun v => propext (h v).symm]; exact hx

theorem isMax_foldl {α : Type*} (e : α → K) (T : α → K → Prop) (l : List α) (h : ∀ a ∈ l, IsMaxWithZero (T a) (e a)) :
    ∀ (S : K → Prop) (x : K), IsMaxWithZero S x →
      IsMaxWithZero (fun v => S v ∨ ∃ a ∈ l, T a v) (l.foldl (fun x a => max x (e a)) x) := by
  induction l with
  | nil =>
    intro S x hx
    exact isMax_congr (fun v => by simp) hx
  | cons b l ih =>
    intro S x hx
    rw [List.foldl_cons]
    refine isMax_congr (fun v => ?_) (ih (fun a ha => h a (by simp [ha])) _ _ (isMax_max hx (h b (by simp))))
    simp only [List.mem_cons, or_and_right, exists_or, exists_eq_left, or_assoc]

theorem isMax_zero : IsMaxWithZero (fun _ : K => False) 0 := ⟨le_rfl, fun _ h => h.elim, Or.inl rfl⟩

theorem isMax_rows {α : Type*} (e : α → K) (T : α → K → Prop) (l : List α) (h : ∀ a ∈ l, IsMaxWithZero (T a) (e a)) :
    IsMaxWithZero (fun v => ∃ a ∈ l, T a v) (l.foldl (fun x a => max x (e a)) 0) :=
  isMax_congr (fun v => by simp) (isMax_foldl e T l h _ _ isMax_zero)

end PyClaw
