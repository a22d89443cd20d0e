import Verif.Props.Unfold
import Verif.Props.SplitMirror
import Verif.Props.Translation

set_option linter.unusedSectionVars false

/-!
C92 with dimensional splitting in two dimensions.
-/
namespace PyClaw
open Spec

variable {K : Type*} [Field K] [LinearOrder K] [IsStrictOrderedRing K] {m w naux : Nat}

/-- Courant numbers of the sweep along `x` in row `j`. -/
def splitNumsX (rpx : Riemann K (Fin naux → K) m w) (c : Cfg2 K w) (capa : Option ((Fin naux → K) → K)) (dt : K) (mx : Nat)
    (A : (Fin 2 → Int) → Fin naux → K) (Q : (Fin 2 → Int) → Fin m → K) (j : Int) (x : K) : Prop :=
  ∃ i : Int, (1 ≤ i ∧ i ≤ mx + 1) ∧
    WaveNumber (localRatio dt c.dx capa fun i => A ![i, j]) (interfaces rpx (fun i => A ![i, j]) (fun i => Q ![i, j])) i x

/-- Courant numbers of the sweeps along `y` at the interfaces below row `j`. -/
def splitNumsY (undef : K) (rpx rpy : Riemann K (Fin naux → K) m w) (c : Cfg2 K w) (capa : Option ((Fin naux → K) → K)) (dt : K) (mx : Nat)
    (A : (Fin 2 → Int) → Fin naux → K) (Q : (Fin 2 → Int) → Fin m → K) (j : Int) (x : K) : Prop :=
  ∃ i : Int, (1 - (c.g : Int) ≤ i ∧ i ≤ mx + c.g) ∧
    WaveNumber (localRatio dt c.dy capa fun j => A ![i, j])
      (interfaces rpy (fun j => A ![i, j]) (fun j => allRows2 undef rpx c capa dt mx A Q i j)) j x

theorem split2_form (undef : K) (rpx rpy : Riemann K (Fin naux → K) m w) (c : Cfg2 K w) (hg : 2 ≤ c.g)
    (capa : Option ((Fin naux → K) → K)) (n : Fin 2 → Nat) (dt : K) (A : (Fin 2 → Int) → Fin naux → K) (Q : (Fin 2 → Int) → Fin m → K) :
    ∃ r cfl, intSplit2 undef rpx rpy c capa dt n A Q = some (r, cfl) ∧
      (∀ v : Fin 2 → Int, (∀ a, 1 ≤ v a ∧ v a ≤ n a) → r v = splitNew2 undef rpx rpy c capa dt A Q v) ∧
      IsMaxWithZero (fun x => (∃ j : Int, (1 - (c.g : Int) ≤ j ∧ j ≤ n 1 + c.g) ∧ splitNumsX rpx c capa dt (n 0) A Q j x) ∨
        ∃ j : Int, (1 ≤ j ∧ j ≤ (n 1 : Int) + 1) ∧ splitNumsY undef rpx rpy c capa dt (n 0) A Q j x) cfl := by
  let c' : Cfg2 K w := { c with mx := n 0, my := n 1, dt := dt }
  have hX : ∀ i j : Int, 1 - (c.g : Int) ≤ j → j ≤ n 1 + c.g →
      afterX2 undef rpx c' capa (fun i j => A ![i, j]) (fun i j => Q ![i, j]) i j = allRows2 undef rpx c capa dt (n 0) A Q i j := by
    intro i j j1 j2
    unfold afterX2 allRows2
    by_cases h : 1 ≤ i ∧ i ≤ (n 0 : Int)
    · rw [if_pos ⟨⟨j1, j2⟩, h⟩, if_pos h]
      rfl
    · rw [if_neg (fun hh => h hh.2), if_neg h]
  refine ⟨_, _, rfl, fun v hv => ?_, isMax_congr (fun x => ?_) (splitStep2_isMax undef rpx rpy c' (by show 1 ≤ c.g; omega) capa _ _)⟩
  · have h0 := hv 0
    have h1 := hv 1
    rw [splitStep2_eq undef rpx rpy _ (by show 1 ≤ c.g; omega) capa _ _ _ _ (by omega) (by dsimp only; omega) (by omega) (by dsimp only; omega)]
    unfold splitNew2
    refine rowStep_local undef rpy _ capa _ _ _ _ _ (fun k a b => rfl) (fun k a b => ?_)
    refine (step2dsX_eq false undef rpx c' (by show 1 ≤ c.g; omega) capa (fun i j => A ![i, j]) (fun i j => Q ![i, j]) _ _).trans ?_
    refine (hX (v 0) k (by omega) (by omega)).trans ?_
    unfold allRows2
    rw [if_pos ⟨by omega, by omega⟩]
  · have ny : ∀ i j : Int, (1 ≤ j ∧ j ≤ (n 1 : Int) + 1) →
        (WaveNumber (localRatio dt c.dy capa fun j => A ![i, j]) (interfaces rpy (fun j => A ![i, j])
          (fun j => afterX2 undef rpx c' capa (fun i j => A ![i, j]) (fun i j => Q ![i, j]) i j)) j x ↔
        WaveNumber (localRatio dt c.dy capa fun j => A ![i, j]) (interfaces rpy (fun j => A ![i, j])
          (fun j => allRows2 undef rpx c capa dt (n 0) A Q i j)) j x) := by
      intro i j hj
      have := waveNumber_congr rpy dt c.dy capa (fun j => A ![i, j]) (fun j => A ![i, j])
        (fun j => allRows2 undef rpx c capa dt (n 0) A Q i j)
        (fun j => afterX2 undef rpx c' capa (fun i j => A ![i, j]) (fun i j => Q ![i, j]) i j) 0 j x
        (by rw [add_zero]) (by rw [add_zero])
        (by rw [add_zero]; exact hX _ _ (by omega) (by omega))
        (by rw [add_zero]; exact hX _ _ (by omega) (by omega))
      rwa [add_zero] at this
    constructor
    · rintro (⟨i, j, hi, hj, h⟩ | ⟨i, j, hi, hj, h⟩)
      · exact Or.inl ⟨j, hj, i, hi, h⟩
      · exact Or.inr ⟨j, hj, i, hi, (ny i j hj).mp h⟩
    · rintro (⟨j, hj, i, hi, h⟩ | ⟨j, hj, i, hi, h⟩)
      · exact Or.inl ⟨i, j, hi, hj, h⟩
      · exact Or.inr ⟨i, j, hi, hj, (ny i j hj).mpr h⟩

section shift
variable {undef : K} {rpx rpy : Riemann K (Fin naux → K) m w} {c : Cfg2 K w} {capa : Option ((Fin naux → K) → K)} {dt : K}
  {A A' : (Fin 2 → Int) → Fin naux → K} {Q Q' : (Fin 2 → Int) → Fin m → K} {mx : Nat} {s : Int}

/-- Row `j` of the one array is row `j + s` of the other. -/
def SameRow (c : Cfg2 K w) (mx : Nat) (s : Int) (A A' : (Fin 2 → Int) → Fin naux → K) (Q Q' : (Fin 2 → Int) → Fin m → K) (j : Int) : Prop :=
  ∀ i : Int, 1 - (c.g : Int) ≤ i → i ≤ mx + c.g → A ![i, j] = A' ![i, j + s] ∧ Q ![i, j] = Q' ![i, j + s]

theorem allRows2_row (hg : 2 ≤ c.g) {j : Int} (h : SameRow c mx s A A' Q Q' j) (i : Int) (i1 : 1 - (c.g : Int) ≤ i) (i2 : i ≤ mx + c.g) :
    allRows2 undef rpx c capa dt mx A Q i j = allRows2 undef rpx c capa dt mx A' Q' i (j + s) := by
  unfold allRows2
  split_ifs with hi
  · exact rowStep_local undef rpx _ capa _ _ _ _ i (fun k a b => (h k (by omega) (by omega)).1) (fun k a b => (h k (by omega) (by omega)).2)
  · exact (h i i1 i2).2

theorem splitNew2_rows (hg : 2 ≤ c.g) (v : Fin 2 → Int) (v1 : 1 ≤ v 0) (v2 : v 0 ≤ mx)
    (h : ∀ j, v 1 - 2 ≤ j → j ≤ v 1 + 2 → SameRow c mx s A A' Q Q' j) :
    splitNew2 undef rpx rpy c capa dt A Q v = splitNew2 undef rpx rpy c capa dt A' Q' ![v 0, v 1 + s] := by
  unfold splitNew2
  simp only [Matrix.cons_val_zero, Matrix.cons_val_one]
  rw [← rowStep_shift]
  refine rowStep_local undef rpy _ capa _ _ _ _ _ (fun j a b => (h j a b (v 0) (by omega) (by omega)).1) (fun j a b => ?_)
  have := allRows2_row (undef := undef) (rpx := rpx) (capa := capa) (dt := dt) hg (h j a b) (v 0) (by omega) (by omega)
  unfold allRows2 at this
  rwa [if_pos ⟨v1, v2⟩, if_pos ⟨v1, v2⟩] at this

theorem splitNumsX_row (hg : 2 ≤ c.g) {j : Int} (h : SameRow c mx s A A' Q Q' j) (x : K) :
    splitNumsX rpx c capa dt mx A Q j x ↔ splitNumsX rpx c capa dt mx A' Q' (j + s) x := by
  unfold splitNumsX
  refine exists_congr fun i => and_congr_right fun hi => ?_
  have := waveNumber_congr rpx dt c.dx capa (fun i => A' ![i, j + s]) (fun i => A ![i, j]) (fun i => Q' ![i, j + s]) (fun i => Q ![i, j]) 0 i x
    (by rw [add_zero]; exact (h _ (by omega) (by omega)).1) (by rw [add_zero]; exact (h _ (by omega) (by omega)).1)
    (by rw [add_zero]; exact (h _ (by omega) (by omega)).2) (by rw [add_zero]; exact (h _ (by omega) (by omega)).2)
  rwa [add_zero] at this

theorem splitNumsY_row (hg : 2 ≤ c.g) {j : Int} (h : SameRow c mx s A A' Q Q' j) (h' : SameRow c mx s A A' Q Q' (j - 1)) (x : K) :
    splitNumsY undef rpx rpy c capa dt mx A Q j x ↔ splitNumsY undef rpx rpy c capa dt mx A' Q' (j + s) x := by
  unfold splitNumsY
  refine exists_congr fun i => and_congr_right fun hi => ?_
  exact waveNumber_congr rpy dt c.dy capa (fun j => A' ![i, j]) (fun j => A ![i, j])
    (fun j => allRows2 undef rpx c capa dt mx A' Q' i j) (fun j => allRows2 undef rpx c capa dt mx A Q i j) s j x
    (h i hi.1 hi.2).1 (h' i hi.1 hi.2).1 (allRows2_row hg h i hi.1 hi.2) (allRows2_row hg h' i hi.1 hi.2)

end shift

/-- A split step on a grid and its image behind the upper end of the second axis. -/
theorem split2_unfolds (undef : K) (rpx rpy : Riemann K (Fin naux → K) m w) (c : Cfg2 K w) (hg : 2 ≤ c.g)
    (capa : Option ((Fin naux → K) → K)) (n : Fin 2 → Nat) (hn : 0 < n 1) (T : (Fin m → K) → Fin m → K)
    (himg : ImageStep (intSplit2 undef rpx rpy c capa) (intSplit2 undef rpx rpy c capa) n n
      (fun v => Function.update v 1 ((n 1 : Int) + 1 - v 1)) T id) :
    UnfoldsStep (intSplit2 undef rpx rpy c capa) c.g n 1 T := by
  intro dt A A' Q Q' left right
  right
  have n0 : Function.update n 1 (2 * n 1) 0 = n 0 := rfl
  have n1 : Function.update n 1 (2 * n 1) 1 = 2 * n 1 := rfl
  let AI : (Fin 2 → Int) → Fin naux → K := fun v => id (A (Function.update v 1 ((n 1 : Int) + 1 - v 1)))
  let QI : (Fin 2 → Int) → Fin m → K := fun v => T (Q (Function.update v 1 ((n 1 : Int) + 1 - v 1)))
  have L : ∀ j : Int, 1 - (c.g : Int) ≤ j → j ≤ n 1 + c.g → SameRow c (n 0) 0 A A' Q Q' j := by
    intro j j1 j2 i i1 i2
    have := left ![i, j] fun b => by fin_cases b <;> simp <;> omega
    rw [add_zero]
    exact ⟨this.2.symm, this.1.symm⟩
  have R : ∀ j : Int, 1 - (c.g : Int) ≤ j → j ≤ n 1 + c.g → SameRow c (n 0) (n 1) AI A' QI Q' j := by
    intro j j1 j2 i i1 i2
    have := right ![i, (n 1 : Int) + 1 - j] fun b => by fin_cases b <;> simp <;> omega
    simp only [update_pair1, Matrix.cons_val_zero, Matrix.cons_val_one] at this
    rw [show 2 * (n 1 : Int) + 1 - ((n 1 : Int) + 1 - j) = j + n 1 by ring] at this
    simp only [AI, QI, update_pair1, Matrix.cons_val_zero, Matrix.cons_val_one, id]
    exact ⟨this.2.symm, this.1.symm⟩
  obtain ⟨r, cfl, e1, e2, e3⟩ := split2_form undef rpx rpy c hg capa n dt A Q
  obtain ⟨ri, cfli, f1, f2, f3⟩ := split2_form undef rpx rpy c hg capa n dt AI QI
  obtain ⟨r', cfl', g1, g2, g3⟩ := split2_form undef rpx rpy c hg capa (Function.update n 1 (2 * n 1)) dt A' Q'
  rcases himg dt A Q with ⟨h, _⟩ | ⟨r0, ri0, cfl0, h1, h2, h3⟩
  · rw [e1] at h; cases h
  rw [e1] at h1
  obtain ⟨rfl, rfl⟩ := Prod.mk.inj (Option.some.inj h1)
  have h2' : intSplit2 undef rpx rpy c capa dt n AI QI = some (ri0, cfl) := h2
  rw [f1] at h2'
  obtain ⟨rfl, rfl⟩ := Prod.mk.inj (Option.some.inj h2')
  have hcfl : cfl' = cfli := by
    have hm := isMax_max e3 f3
    rw [max_self] at hm
    refine isMax_unique g3 (isMax_congr (fun x => ?_) hm)
    rw [n0, n1]
    push_cast
    constructor
    · rintro ((⟨j, hj, h⟩ | ⟨j, hj, h⟩) | (⟨j, hj, h⟩ | ⟨j, hj, h⟩))
      · refine Or.inl ⟨j, by omega, ?_⟩
        have := (splitNumsX_row hg (L j hj.1 hj.2) x).mp h
        rwa [add_zero] at this
      · refine Or.inr ⟨j, by omega, ?_⟩
        have := (splitNumsY_row hg (L j (by omega) (by omega)) (L (j - 1) (by omega) (by omega)) x).mp h
        rwa [add_zero] at this
      · exact Or.inl ⟨j + n 1, by omega, (splitNumsX_row hg (R j hj.1 hj.2) x).mp h⟩
      · exact Or.inr ⟨j + n 1, by omega, (splitNumsY_row hg (R j (by omega) (by omega)) (R (j - 1) (by omega) (by omega)) x).mp h⟩
    · rintro (⟨j, hj, h⟩ | ⟨j, hj, h⟩)
      · by_cases hc : j ≤ n 1 + c.g
        · refine Or.inl (Or.inl ⟨j, ⟨hj.1, hc⟩, (splitNumsX_row hg (L j hj.1 hc) x).mpr ?_⟩)
          rwa [add_zero]
        · refine Or.inr (Or.inl ⟨j - n 1, by omega, (splitNumsX_row hg (R (j - n 1) (by omega) (by omega)) x).mpr ?_⟩)
          rwa [sub_add_cancel]
      · by_cases hc : j ≤ n 1 + 1
        · refine Or.inl (Or.inr ⟨j, ⟨hj.1, hc⟩, (splitNumsY_row hg (L j (by omega) (by omega)) (L (j - 1) (by omega) (by omega)) x).mpr ?_⟩)
          rwa [add_zero]
        · refine Or.inr (Or.inr ⟨j - n 1, by omega, (splitNumsY_row hg (R (j - n 1) (by omega) (by omega))
            (R (j - n 1 - 1) (by omega) (by omega)) x).mpr ?_⟩)
          rwa [sub_add_cancel]
  subst hcfl
  refine ⟨r, r', _, e1, g1, fun v hv => ?_⟩
  have v0 := hv 0
  have v1 := hv 1
  constructor
  · rw [e2 v hv, g2 v fun b => by fin_cases b <;> simp [n0, n1] <;> omega]
    have := splitNew2_rows (undef := undef) (rpx := rpx) (rpy := rpy) (capa := capa) (dt := dt) hg v v0.1 v0.2
      (fun j a b => L j (by omega) (by omega))
    rw [add_zero, pair_eta] at this
    exact this.symm
  · have hi := h3 (Function.update v 1 ((n 1 : Int) + 1 - v 1)) fun b => by fin_cases b <;> simp <;> omega
    beta_reduce at hi
    rw [Function.update_idem, Function.update_self, sub_sub_cancel, Function.update_eq_self] at hi
    rw [← hi, f2 _ fun b => by fin_cases b <;> simp <;> omega]
    have := splitNew2_rows (undef := undef) (rpx := rpx) (rpy := rpy) (capa := capa) (dt := dt) hg
      (Function.update v 1 ((n 1 : Int) + 1 - v 1)) (mx := n 0) (s := n 1) (A := AI) (A' := A') (Q := QI) (Q' := Q')
      (by simpa using v0.1) (by simpa using v0.2) (fun j a b => R j (by simp at a; omega) (by simp at b; omega))
    rw [this, g2 _ fun b => by fin_cases b <;> simp [n0, n1] <;> omega]
    congr 1
    funext b
    fin_cases b
    · simp
    · simp; ring

/-- C92 with dimensional splitting in the plane: a wall at the upper end of the second axis, at its lower end an open end or another wall. Full
statement: for walls on the first axis too. There it is false: the Courant number counts the ghost columns without the sweeps along `x`
(`C92_split2_violated`). f-waves as in `C92_unsplit2_partial`. -/
theorem C92_split2_partial [FloorRing K] (undef : K) (cfg : Cfg2 K w) (capa : Option ((Fin naux → K) → K))
    (rpx rpy : Riemann K (Fin naux → K) m w) (c c' : ParCfg (Fin 2) K)
    (hM : OwnImage2 (axisSign c.bc 1 m) cfg.fwave cfg.order cfg.limiter rpy rpx)
    (hr : ClassicRun c m naux (intSplit2 undef rpx rpy cfg capa)) (hr' : ClassicRun c' m naux (intSplit2 undef rpx rpy cfg capa))
    (ha : Admissible c.bc) (hs : Serial c.bc) (hg : cfg.g = c.bc.g)
    (hw : c.bc.bcUpper 1 = .wall) (hwx : 0 < naux → c.bc.auxUpper 1 = .wall)
    (hp : c.bc.bcLower 1 ≠ .periodic) (hpx : 0 < naux → c.bc.auxLower 1 ≠ .periodic)
    (hbc : c'.bc = unfoldAxis 1 c.bc) (rnd : K → K) (L L' : K)
    (ops : List (StepOp K (GArr (Fin 2) K) (GArr (Fin 2) K × BCArrays (Fin 2) K))) (hops : OnlyEvolves ops)
    (s s' : StepState K (GArr (Fin 2) K) (GArr (Fin 2) K × BCArrays (Fin 2) K))
    (h : InStep (UnfoldedAlong m naux c.bc.n 1 (axisSign c.bc 1 m)) s s') :
    InStep (UnfoldedAlong m naux c.bc.n 1 (axisSign c.bc 1 m)) (runSteps (serialEnv c rnd L) ops s)
      (runSteps (serialEnv c' rnd L') ops s') := by
  have hg2 : 2 ≤ cfg.g := by rw [hg]; exact hr.ghost
  obtain ⟨⟨πy, h1, l1⟩, ⟨πx, h2, l2⟩, hf⟩ := hM
  refine unfoldsStep_run (agree_refl _) c c' hr hr' ha hs 1 hbc ?_ hw hwx hp hpx rnd L L' ops hops s s' h
  rw [← hg]
  refine split2_unfolds undef rpx rpy cfg hg2 capa c.bc.n (ha.cells 1).1 _ fun dt A Q => ?_
  have key := mirrorY_split (axisSign_isSign c.bc 1) undef { cfg with mx := c.bc.n 0, my := c.bc.n 1, dt := dt } cfg.limiter
    (by dsimp only; omega) h2 h1 l2 l1 hf capa (fun _ _ _ => rfl) (fun i j => A ![i, j]) (fun i j => Q ![i, j])
  refine both_some (x := intSplit2 undef rpx rpy cfg capa dt c.bc.n A Q) (x' := intSplit2 undef rpx rpy cfg capa dt c.bc.n _ _)
    (P := fun (r r' : (Fin 2 → Int) → Fin m → K) => ∀ v : Fin 2 → Int, (∀ a, 1 ≤ v a ∧ v a ≤ c.bc.n a) →
      r' v = signed (axisSign c.bc 1 m) (r (Function.update v 1 ((c.bc.n 1 : Int) + 1 - v 1)))) rfl rfl ?_ fun v hv => ?_
  · simp only [update_pair1, Matrix.cons_val_one]
    exact key.2
  · simp only [update_pair1, Matrix.cons_val_one]
    refine (key.1 (v 0) (v 1) (hv 0).1 (hv 0).2 (hv 1).1 (hv 1).2).trans ?_
    simp

theorem acoustics2_mirrorY (naux : Nat) : MirrorImage ![1, 1, -1] id (Equiv.swap 0 1) false (ignoreAux naux (acoustics2Rp (K := ℚ) 2))
    (ignoreAux naux (acoustics2Rp 2)) := by
  intro ql qr al ar
  refine ⟨fun p => ?_, fun p => ?_, ?_, ?_⟩
  · fin_cases p <;> simp [ignoreAux, acoustics2Rp]
  · funext k
    fin_cases p <;> fin_cases k <;> simp [ignoreAux, acoustics2Rp, signed] <;> ring
  · funext k
    fin_cases k <;> simp [ignoreAux, acoustics2Rp, acoustics2Part, signed] <;> ring
  · funext k
    fin_cases k <;> simp [ignoreAux, acoustics2Rp, acoustics2Part, signed] <;> ring

theorem acoustics2_turnedY (naux : Nat) : TurnedImage (signed ![1, 1, -1]) id 1 (ignoreAux naux (acoustics2Rp (K := ℚ) 1))
    (ignoreAux naux (acoustics2Rp 1)) := by
  intro ql qr al ar
  refine ⟨fun p => ?_, fun p => ?_, ?_, ?_⟩
  · fin_cases p <;> simp [ignoreAux, acoustics2Rp]
  · funext k
    fin_cases p <;> fin_cases k <;> simp [ignoreAux, acoustics2Rp, signed]
  · funext k
    fin_cases k <;> simp [ignoreAux, acoustics2Rp, acoustics2Part, signed]
  · funext k
    fin_cases k <;> simp [ignoreAux, acoustics2Rp, acoustics2Part, signed]

/-- Non-vacuity of `C92_split2_partial`: sound on 3 by 4 cells with an open end below and a wall above, a wall on the left, and on 3 by 8
cells with two open ends; any limiters, any initial values, any calls. -/
example (undef : ℚ) (lim : Fin 2 → Int) (hl : lim 1 = lim 0) (order : Int) (q : Fin 3 → (Fin 2 → Nat) → ℚ)
    (ops : List (StepOp ℚ (GArr (Fin 2) ℚ) (GArr (Fin 2) ℚ × BCArrays (Fin 2) ℚ))) (hops : OnlyEvolves ops) (rnd : ℚ → ℚ) (L L' : ℚ) :=
  let cfg : Cfg2 ℚ 2 := ⟨0, 0, 2, 0, 1 / 3, 1 / 4, order, 0, false, lim⟩
  let step := intSplit2 undef (ignoreAux 0 (acoustics2Rp 1)) (ignoreAux 0 (acoustics2Rp 2)) cfg none
  let c := exTank ![3, 4] ![.wall, .extrap] ![.extrap, .wall] step
  have e : axisSign c.bc 1 3 = ![1, 1, -1] := by funext k; fin_cases k <;> simp [axisSign, c, exTank]
  C92_split2_partial undef cfg none (ignoreAux 0 (acoustics2Rp 1)) (ignoreAux 0 (acoustics2Rp 2)) c
    (exTank ![3, 8] ![.wall, .extrap] ![.extrap, .extrap] step)
    (by
      rw [e]
      refine ⟨⟨Equiv.swap 0 1, acoustics2_mirrorY 0, ?_⟩, ⟨1, acoustics2_turnedY 0, fun p => rfl⟩, fun h => absurd h (by simp [cfg])⟩
      intro p; fin_cases p <;> simp [cfg, hl])
    (exTank_run _ _ _ _) (exTank_run _ _ _ _)
    (by
      refine ⟨?_, ?_, ?_, ?_, ?_, ?_⟩
      · intro a; fin_cases a <;> simp [c, exTank]
      · intro a; fin_cases a <;> simp [c, exTank, BuiltInBC]
      · intro a; fin_cases a <;> simp [c, exTank, BuiltInBC]
      · intro h; simp [c, exTank] at h
      · intro h; simp [c, exTank] at h
      · intro a; fin_cases a <;> simp [c, exTank])
    (fun _ => ⟨rfl, rfl⟩) rfl rfl (fun h => absurd h (by norm_num)) (by simp [c, exTank]) (fun h => absurd h (by norm_num))
    (by
      simp only [c, exTank, unfoldAxis, BCConfig.mk.injEq, and_true, true_and]
      refine ⟨?_, ?_, ?_⟩ <;> funext b <;> fin_cases b <;> rfl)
    rnd L L' ops hops (exInPlane q) (exInPlane (withImage c.bc.n 1 ![1, 1, -1] q))
    ⟨rfl, rfl, rfl, rfl, fun x hx k => by
      rw [e]
      simpa only [exInPlane, Fin.is_lt, dif_pos, Fin.eta] using withImage_spec c.bc.n 1 ![1, 1, -1] q x hx k, fun _ _ k => k.elim0⟩

/-- A Riemann solver that is its own image and removes the values of both cells in one step of size 1. -/
def exDrainRp : Riemann ℚ (Fin 0 → ℚ) 1 1 := fun ql qr _ _ =>
  { wave := fun _ => 0, s := fun _ => 0, amdq := fun k => ql k / 2, apdq := fun k => qr k / 2 }

/-- The value 1 in the columns `2` and `3`, on both sides of the wall. -/
def exBesideWall : (Fin 2 → Int) → Fin 1 → ℚ := fun v _ => if v 0 = 2 ∨ v 0 = 3 then 1 else 0

/-- With splitting a wall on the first axis is no mirror: two columns in front of a wall, with ghost cells that are the image of the grid,
have the Courant number 1; the same columns with their image have the Courant number 0, because the sweeps along `x` have changed
the columns behind the wall too. -/
theorem C92_split2_violated : OwnImage2 (fun _ => 1) false 1 (fun _ => 0) exDrainRp speedRp ∧
    (∀ v : Fin 2 → Int, exBesideWall (Function.update v 0 (2 * 2 + 1 - v 0)) = signed (fun _ => 1) (exBesideWall v)) ∧
    (intSplit2 0 exDrainRp speedRp exSplit2 none 1 ![2, 2] (fun _ => default) exBesideWall).map (·.2) = some 1 ∧
    (intSplit2 0 exDrainRp speedRp exSplit2 none 1 ![4, 2] (fun _ => default) exBesideWall).map (·.2) = some 0 := by
  have hs : ∀ z : Fin 1 → ℚ, signed (fun _ => 1) z = z := fun z => funext fun k => one_mul _
  refine ⟨⟨⟨1, ?_, fun _ => rfl⟩, ⟨1, ?_, fun _ => rfl⟩, fun h => absurd h (by simp)⟩, ?_, ?_, ?_⟩
  · intro ql qr al ar
    refine ⟨fun p => ?_, fun p => ?_, ?_, ?_⟩
    all_goals simp [exDrainRp, hs]
  · intro ql qr al ar
    refine ⟨fun p => ?_, fun p => ?_, ?_, ?_⟩
    all_goals simp [speedRp, hs]
  · intro v
    funext k
    simp only [exBesideWall, signed, Function.update_self, one_mul]
    congr 1
    apply propext
    omega
  · show some (splitStep2 0 exDrainRp speedRp { exSplit2 with mx := 2, my := 2, dt := 1 } none (fun _ _ => default) fun i j => exBesideWall ![i, j]).2 = some 1
    rw [splitStep2_cfl _ _ _ _ (by decide)]
    decide +kernel
  · show some (splitStep2 0 exDrainRp speedRp { exSplit2 with mx := 4, my := 2, dt := 1 } none (fun _ _ => default) fun i j => exBesideWall ![i, j]).2 = some 0
    rw [splitStep2_cfl _ _ _ _ (by decide)]
    decide +kernel

end PyClaw
