import Verif.Props.Translation

set_option linter.unusedSectionVars false

/-!
Kernels with a stencil as wide as the ghost cells: their results on the parts of a distributed grid, and on periodic grids.
-/
namespace PyClaw
open Spec

variable {ι K : Type*} [Field K] [LinearOrder K] [IsStrictOrderedRing K] {m naux : Nat}

/-- A kernel given by a formula that reads `g` cells on either side. Courant numbers belong to interfaces: those along an axis with
`low = 1` read the cells from `g` before the interface to `g` behind it. -/
structure WideStencil {τ : Type*} (step : IntKern ι K m naux) (g : Nat)
    (ok : ((ι → Int) → Fin naux → K) → (ι → Int) → Prop)
    (new : K → ((ι → Int) → Fin naux → K) → ((ι → Int) → Fin m → K) → (ι → Int) → Fin m → K)
    (low : τ → ι → Int)
    (nums : K → ((ι → Int) → Fin naux → K) → ((ι → Int) → Fin m → K) → τ → (ι → Int) → K → Prop) : Prop where
  low01 : ∀ t a, 0 ≤ low t a ∧ low t a ≤ 1
  runs : ∀ dt (n : ι → Nat) aux q, (∀ a, 0 < n a) → (∀ v : ι → Int, (∀ a, 1 - (g : Int) ≤ v a ∧ v a ≤ n a + g) → ok aux v) →
    ∃ r cfl, step dt n aux q = some (r, cfl) ∧ (∀ v : ι → Int, (∀ a, 1 ≤ v a ∧ v a ≤ n a) → r v = new dt aux q v) ∧
      IsMaxWithZero (fun x => ∃ t, ∃ v : ι → Int, (∀ a, low t a ≤ v a ∧ v a ≤ n a + 1) ∧ nums dt aux q t v x) cfl
  stops : ∀ dt (n : ι → Nat) aux q (v : ι → Int), (∀ a, 1 - (g : Int) ≤ v a ∧ v a ≤ n a + g) → ¬ ok aux v → step dt n aux q = none
  okLocal : ∀ aux aux' (s v : ι → Int), aux' v = aux (fun a => v a + s a) → (ok aux' v ↔ ok aux fun a => v a + s a)
  newLocal : ∀ dt aux aux' q q' (s v : ι → Int),
    (∀ u : ι → Int, (∀ a, v a - g ≤ u a ∧ u a ≤ v a + g) → aux' u = aux (fun a => u a + s a) ∧ q' u = q fun a => u a + s a) →
    new dt aux' q' v = new dt aux q fun a => v a + s a
  numsLocal : ∀ dt aux aux' q q' t (s v : ι → Int) x,
    (∀ u : ι → Int, (∀ a, v a - (g - 1 + low t a) ≤ u a ∧ u a ≤ v a + (g - 1)) → aux' u = aux (fun a => u a + s a) ∧ q' u = q fun a => u a + s a) →
    (nums dt aux' q' t v x ↔ nums dt aux q t (fun a => v a + s a) x)

theorem WideStencil.localKernel {τ : Type*} {step : IntKern ι K m naux} {g : Nat}
    {ok : ((ι → Int) → Fin naux → K) → (ι → Int) → Prop}
    {new : K → ((ι → Int) → Fin naux → K) → ((ι → Int) → Fin m → K) → (ι → Int) → Fin m → K} {low : τ → ι → Int}
    {nums : K → ((ι → Int) → Fin naux → K) → ((ι → Int) → Fin m → K) → τ → (ι → Int) → K → Prop}
    (S : WideStencil step g ok new low nums) (hg : 1 ≤ g) : LocalKernel (onArrays m naux g step) g naux := by
  refine ⟨fun dt n D hD hn G L hpart => ?_⟩
  have hq : ∀ P, ValidProc D P → ∀ v : ι → Int, (∀ a, 1 - (g : Int) ≤ v a ∧ v a ≤ D.size P a + g) →
      fieldOf m g (L P).q v = fieldOf m g G.q fun a => v a + D.lo P a :=
    fun P hP v hv => field_part m (hpart P hP).1 v hv
  have ha : ∀ P, ValidProc D P → ∀ v : ι → Int, (∀ a, 1 - (g : Int) ≤ v a ∧ v a ≤ D.size P a + g) →
      fieldOf naux g (L P).aux v = fieldOf naux g G.aux fun a => v a + D.lo P a := by
    intro P hP v hv
    by_cases h0 : 0 < naux
    · exact field_part naux ((hpart P hP).2 h0) v hv
    · funext c; exact absurd c.isLt (by omega)
  by_cases hok : ∀ v : ι → Int, (∀ a, 1 - (g : Int) ≤ v a ∧ v a ≤ n a + g) → ok (fieldOf naux g G.aux) v
  · obtain ⟨r, cfl, e1, e2, e3⟩ := S.runs dt n (fieldOf naux g G.aux) (fieldOf m g G.q) hn hok
    have eG : onArrays m naux g step dt n G = some (putBack m g G.q r, cfl) := by unfold onArrays; rw [e1]; rfl
    refine ⟨fun h => by rw [eG] at h; exact absurd h (by simp), fun r' cfl' h => ?_⟩
    rw [eG] at h
    obtain ⟨rfl, rfl⟩ := Prod.mk.inj (Option.some.inj h)
    have hl : ∀ P, ∃ (rr : (ι → Int) → Fin m → K) (cc : K), ValidProc D P →
        step dt (D.size P) (fieldOf naux g (L P).aux) (fieldOf m g (L P).q) = some (rr, cc) ∧
        (∀ v : ι → Int, (∀ a, 1 ≤ v a ∧ v a ≤ D.size P a) → rr v = new dt (fieldOf naux g (L P).aux) (fieldOf m g (L P).q) v) ∧
        IsMaxWithZero (fun x => ∃ t, ∃ v : ι → Int, (∀ a, low t a ≤ v a ∧ v a ≤ D.size P a + 1) ∧
          nums dt (fieldOf naux g (L P).aux) (fieldOf m g (L P).q) t v x) cc := by
      intro P
      by_cases hP : ValidProc D P
      · obtain ⟨rr, cc, h⟩ := S.runs dt (D.size P) (fieldOf naux g (L P).aux) (fieldOf m g (L P).q)
          (fun a => (range_spec hD hP a).2.1) (fun v hv =>
            (S.okLocal (fieldOf naux g G.aux) _ (fun a => D.lo P a) v (ha P hP v hv)).mpr (hok _ fun a => by
              have := hv a; have := range_spec hD hP a; omega))
        exact ⟨rr, cc, fun _ => h⟩
      · exact ⟨fun _ => 0, 0, fun h => absurd h hP⟩
    choose rr cc hrc using hl
    refine ⟨fun P => putBack m g (L P).q (rr P), cc, fun P hP => ⟨?_, fun c idx hidx => ?_⟩, ?_⟩
    · unfold onArrays; rw [(hrc P hP).1]; rfl
    · have hr := range_spec hD hP
      have hp := hpart P hP
      unfold putBack
      dsimp only
      by_cases hc : c < m
      · rw [dif_pos hc, dif_pos hc]
        refine congrFun ?_ _
        have h1 : ∀ a, (((idx a + g : Nat) : Int) + 1 - g) = idx a + 1 := fun a => by omega
        have h2 : ∀ a, (((D.lo P a + idx a + g : Nat) : Int) + 1 - g) = (idx a : Int) + 1 + D.lo P a := fun a => by omega
        simp only [h1, h2]
        rw [(hrc P hP).2.1 _ (fun a => by have := hidx a; omega), e2 _ (fun a => by have := hidx a; have := hr a; omega)]
        refine S.newLocal dt _ _ _ _ (fun a => (D.lo P a : Int)) (fun a => (idx a : Int) + 1) fun u hu => ?_
        have hb : ∀ a, 1 - (g : Int) ≤ u a ∧ u a ≤ D.size P a + g := fun a => by have := hu a; have := hidx a; omega
        exact ⟨ha P hP u hb, hq P hP u hb⟩
      · rw [dif_neg hc, dif_neg hc, hp.1 c _ (fun a => by have := hidx a; omega)]
        congr 1
        funext a
        omega
    · refine isMax_split e3 (fun P hP => (hrc P hP).2.2) fun x => ?_
      have tr : ∀ P, ValidProc D P → ∀ t (v : ι → Int), (∀ a, low t a ≤ v a ∧ v a ≤ D.size P a + 1) →
          (nums dt (fieldOf naux g (L P).aux) (fieldOf m g (L P).q) t v x ↔
            nums dt (fieldOf naux g G.aux) (fieldOf m g G.q) t (fun a => v a + D.lo P a) x) := by
        intro P hP t v hv
        refine S.numsLocal dt _ _ _ _ t (fun a => (D.lo P a : Int)) v x fun u hu => ?_
        have hb : ∀ a, 1 - (g : Int) ≤ u a ∧ u a ≤ D.size P a + g := fun a => by
          have := hu a; have := hv a; have := S.low01 t a; omega
        exact ⟨ha P hP u hb, hq P hP u hb⟩
      constructor
      · rintro ⟨t, v, hv, hx⟩
        obtain ⟨P, hP, hc⟩ := cover hD hn v
        have hv' : ∀ a, low t a ≤ v a - D.lo P a ∧ v a - D.lo P a ≤ D.size P a + 1 := fun a => by
          have := hc a; have := hv a; have := S.low01 t a; have := range_spec hD hP a; omega
        refine ⟨P, hP, t, fun a => v a - D.lo P a, hv', (tr P hP t _ hv').mpr ?_⟩
        simp only [sub_add_cancel]
        exact hx
      · rintro ⟨P, hP, t, v, hv, hx⟩
        refine ⟨t, fun a => v a + D.lo P a, fun a => ?_, (tr P hP t v hv).mp hx⟩
        have := hv a; have := S.low01 t a; have := range_spec hD hP a
        dsimp only
        omega
  · push Not at hok
    obtain ⟨v, hv, hno⟩ := hok
    have eG : onArrays m naux g step dt n G = none := by
      unfold onArrays; rw [S.stops dt n _ _ v hv hno]; rfl
    refine ⟨fun _ => ?_, fun r cfl h => by rw [eG] at h; exact absurd h (by simp)⟩
    obtain ⟨P, hP, hc⟩ := cover hD hn v
    have hb : ∀ a, 1 - (g : Int) ≤ v a - D.lo P a ∧ v a - D.lo P a ≤ D.size P a + g := fun a => by
      have := hc a; have := hv a; have := range_spec hD hP a; omega
    refine ⟨P, hP, ?_⟩
    unfold onArrays
    rw [S.stops dt (D.size P) _ _ (fun a => v a - D.lo P a) hb]
    · rfl
    · rw [S.okLocal (fieldOf naux g G.aux) _ (fun a => (D.lo P a : Int)) _ (ha P hP _ hb)]
      simpa using hno

theorem WideStencil.periodic {τ : Type*} {step : IntKern ι K m naux} {g : Nat}
    {ok : ((ι → Int) → Fin naux → K) → (ι → Int) → Prop}
    {new : K → ((ι → Int) → Fin naux → K) → ((ι → Int) → Fin m → K) → (ι → Int) → Fin m → K} {low : τ → ι → Int}
    {nums : K → ((ι → Int) → Fin naux → K) → ((ι → Int) → Fin m → K) → τ → (ι → Int) → K → Prop}
    (S : WideStencil step g ok new low nums) (hg : 1 ≤ g) (n : ι → Nat) (hn : ∀ a, 0 < n a) (dt : K)
    (A : (ι → Int) → Fin naux → K) (Q : (ι → Int) → Fin m → K)
    (EA : (ι → Int) → Fin naux → K) (EQ : (ι → Int) → Fin m → K)
    (hE : ∀ v : ι → Int, (∀ a, 1 - (g : Int) ≤ v a ∧ v a ≤ n a + g) → A v = EA v ∧ Q v = EQ v)
    (hP : ∀ v s : ι → Int, (∀ a, s a % (n a : Int) = 0) → EA (fun a => v a + s a) = EA v ∧ EQ (fun a => v a + s a) = EQ v) :
    ((¬ ∀ v, ok EA v) → step dt n A Q = none) ∧
    ((∀ v, ok EA v) → ∃ r cfl, step dt n A Q = some (r, cfl) ∧
      (∀ v : ι → Int, (∀ a, 1 ≤ v a ∧ v a ≤ n a) → r v = new dt EA EQ v) ∧
      IsMaxWithZero (fun x => ∃ t v, nums dt EA EQ t v x) cfl) := by
  have rep : ∀ v : ι → Int, ∃ s : ι → Int, (∀ a, s a % (n a : Int) = 0) ∧ ∀ a, 1 ≤ v a + s a ∧ v a + s a ≤ n a := by
    intro v
    refine ⟨fun a => (wrapCell n v a : Int) + 1 - v a, fun a => wrapCell_rep n hn v a, fun a => ?_⟩
    have := wrapCell_lt n hn v a
    dsimp only
    omega
  have okp : ∀ v s : ι → Int, (∀ a, s a % (n a : Int) = 0) → (ok EA v ↔ ok EA fun a => v a + s a) := fun v s hs =>
    S.okLocal EA EA s v (hP v s hs).1.symm
  have okA : ∀ v : ι → Int, (∀ a, 1 - (g : Int) ≤ v a ∧ v a ≤ n a + g) → (ok A v ↔ ok EA v) := by
    intro v hv
    have := S.okLocal EA A (fun _ => 0) v (by simp [(hE v hv).1])
    simpa using this
  have hok : (∀ v : ι → Int, (∀ a, 1 - (g : Int) ≤ v a ∧ v a ≤ n a + g) → ok A v) ↔ ∀ v, ok EA v := by
    constructor
    · intro h v
      obtain ⟨s, hs, hb⟩ := rep v
      rw [okp v s hs]
      have hb' : ∀ a, 1 - (g : Int) ≤ v a + s a ∧ v a + s a ≤ n a + g := fun a => by have := hb a; omega
      exact (okA _ hb').mp (h _ hb')
    · intro h v hv
      exact (okA v hv).mpr (h v)
  constructor
  · intro h
    rw [← hok] at h
    push Not at h
    obtain ⟨v, hv, hno⟩ := h
    exact S.stops dt n A Q v hv hno
  · intro h
    obtain ⟨r, cfl, h1, h2, h3⟩ := S.runs dt n A Q hn (hok.mpr h)
    refine ⟨r, cfl, h1, fun v hv => ?_, isMax_congr (fun x => ?_) h3⟩
    · rw [h2 v hv]
      have := S.newLocal dt EA A EQ Q (fun _ => 0) v (fun u hu => by
        have := hE u (fun a => by have := hu a; have := hv a; omega)
        simpa using this)
      simpa using this
    · have numA : ∀ t (v : ι → Int), (∀ a, low t a ≤ v a ∧ v a ≤ n a + 1) → (nums dt A Q t v x ↔ nums dt EA EQ t v x) := by
        intro t v hv
        have := S.numsLocal dt EA A EQ Q t (fun _ => 0) v x (fun u hu => by
          have := hE u (fun a => by have := hu a; have := hv a; have := S.low01 t a; omega)
          simpa using this)
        simpa using this
      constructor
      · rintro ⟨t, v, hv, hx⟩
        exact ⟨t, v, (numA t v hv).mp hx⟩
      · rintro ⟨t, v, hx⟩
        obtain ⟨s, hs, hb⟩ := rep v
        have hb' : ∀ a, low t a ≤ v a + s a ∧ v a + s a ≤ n a + 1 := fun a => by have := hb a; have := S.low01 t a; omega
        refine ⟨t, _, hb', (numA t _ hb').mpr ?_⟩
        have := S.numsLocal dt EA EA EQ EQ t s v x (fun u _ => ⟨(hP u s hs).1.symm, (hP u s hs).2.symm⟩)
        exact this.mp hx


end PyClaw
