import Verif.Props.ParallelKernels
import Verif.Props.Split3
import Mathlib.Data.Rat.Floor
import Mathlib.Tactic.IntervalCases

set_option linter.unusedSectionVars false

/-!
C64, what does not hold: the kernels whose result depends on the distribution, with concrete data.
-/
namespace PyClaw
open Spec

variable {ι K : Type*} [Field K] [LinearOrder K] [IsStrictOrderedRing K]

/-- The part of the ghosted arrays that a process holds. -/
def partArrays (D : Decomp ι) (P : Proc ι) (G : BCArrays ι K) : BCArrays ι K :=
  { q := fun c idx => G.q c fun a => D.lo P a + idx a, aux := fun c idx => G.aux c fun a => D.lo P a + idx a }

theorem localKernel_value {kern : Kern ι K} {g numAux : Nat} (h : LocalKernel kern g numAux) (dt : K) (n : ι → Nat) (D : Decomp ι)
    (hD : GoodDecomp D n g) (hn : ∀ a, 0 < n a) (G : BCArrays ι K) (r : GArr ι K) (cfl : K) (hr : kern dt n G = some (r, cfl))
    (P : Proc ι) (hP : ValidProc D P) (rP : GArr ι K) (cP : K) (hk : kern dt (D.size P) (partArrays D P G) = some (rP, cP)) :
    (∀ c (idx : ι → Nat), (∀ a, idx a < D.size P a) → rP c (fun a => idx a + g) = r c fun a => D.lo P a + idx a + g) ∧ cP ≤ cfl := by
  obtain ⟨r', c', h1, h2⟩ := (h.split dt n D hD hn G (fun P => partArrays D P G) (fun P _ => ⟨fun _ _ _ => rfl, fun _ _ _ _ => rfl⟩)).2
    r cfl hr
  obtain ⟨e1, e2⟩ := h1 P hP
  rw [hk] at e1
  obtain ⟨rfl, rfl⟩ : rP = r' P ∧ cP = c' P := by simpa using e1
  exact ⟨e2, h2.2.1 _ ⟨P, hP, rfl⟩⟩

/-- Four cells in one dimension on two processes. -/
def twoParts1 : Decomp (Fin 1) := ⟨fun _ => 4, fun _ => 2, fun _ k => 2 * k⟩

theorem twoParts1_good : GoodDecomp twoParts1 (fun _ => 4) 2 := by
  refine ⟨rfl, fun _ => ⟨rfl, rfl, ?_⟩, ?_⟩
  · intro k hk; simp only [twoParts1]; omega
  · intro P _ a; simp only [Decomp.size, twoParts1]; omega

/-- The data `0, 1, 4, 9, …` in one dimension. -/
def squares1 : BCArrays (Fin 1) ℚ := { q := fun _ idx => (idx 0 : ℚ) ^ 2, aux := fun _ _ => 0 }

/-- C64 fails for the limiters 18 and 23 of the Python step, which take a maximum or minimum over the array of the process: advection,
four cells with values 4, 9, 16, 25, two processes; the first cell gets another value than in the serial run. -/
theorem C64_python_global_limiter_violated (k : Int) (hk : k = 18 ∨ k = 23) :
    ¬ LocalKernel (onArrays 1 0 2 (intPyStep1 (pyLimiterFun fun _ _ _ _ => 0) (fun ql qr _ _ => advectionRp (1 : ℚ) ql qr () ())
      (exCfg k false) none)) 2 0 := by
  intro h
  have hv := fun P hP => (localKernel_value h (1 / 2) (fun _ => 4) twoParts1 twoParts1_good (fun _ => by decide) squares1 _ _ rfl
    P hP _ _ rfl).1 0 (fun _ => 0) (fun a => by simp [Decomp.size, twoParts1])
  rcases hk with rfl | rfl
  · have := hv (fun _ => 0) (fun a => by simp [twoParts1])
    revert this; decide +kernel
  · have := hv (fun _ => 1) (fun a => by simp [twoParts1])
    revert this; decide +kernel

/-! ### Dimensional splitting in two dimensions -/

section split2
variable {A : Type*} {m w : Nat}

/-- The array after the sweeps in `x`. -/
def afterX2 (undef : K) (rpx : Riemann K A m w) (c : Cfg2 K w) (capa : Option (A → K)) (aux : Int → Int → A)
    (q : Int → Int → Fin m → K) (i j : Int) : Fin m → K :=
  if (1 - (c.g : Int) ≤ j ∧ j ≤ c.my + c.g) ∧ 1 ≤ i ∧ i ≤ c.mx then
    rowStep undef rpx c.row capa (fun i => aux i j) (fun i => q i j) i
  else q i j

theorem splitStep2_cfl (undef : K) (rpx rpy : Riemann K A m w) (c : Cfg2 K w) (hg : 1 ≤ c.g) (capa : Option (A → K))
    (aux : Int → Int → A) (q : Int → Int → Fin m → K) :
    (splitStep2 undef rpx rpy c capa aux q).2 = max
      ((irange (1 - c.g) (c.my + c.g + 1)).foldl
        (fun x j => max x (fCfl c.mx (localRatio c.dt c.dx capa fun i => aux i j) (interfaces rpx (fun i => aux i j) (fun i => q i j)))) 0)
      ((irange (1 - c.g) (c.mx + c.g + 1)).foldl
        (fun x i => max x (fCfl c.my (localRatio c.dt c.dy capa fun j => aux i j)
          (interfaces rpy (fun j => aux i j) (fun j => afterX2 undef rpx c capa aux q i j)))) 0) := by
  have e : (step2dsX false undef rpx c capa aux q q).1 = afterX2 undef rpx c capa aux q := by
    funext i j
    exact step2dsX_eq false undef rpx c hg capa aux q i j
  simp only [splitStep2, step2dsY, e, step2dsX_max _ _ _ _ hg]
  rw [step2dsX_max true undef rpy c.swap hg capa (fun j i => aux i j) (fun j i => afterX2 undef rpx c capa aux q i j)]
  rfl

/-- What the processes hold after the sweeps in `x`: their part of the serial array, in all rows, in the columns of the process and in
the ghost columns outside the whole grid. -/
theorem afterX2_part (undef : K) (rpx : Riemann K A m w) (c c' : Cfg2 K w) (hrow : ∃ k, c'.row = { c.row with n := k }) (hg : 2 ≤ c.g)
    (hgg : c'.g = c.g) (capa : Option (A → K)) (aux aux' : Int → Int → A) (q q' : Int → Int → Fin m → K) (li lj : Int)
    (hl : 0 ≤ li ∧ li + c'.mx ≤ c.mx ∧ 0 ≤ lj ∧ lj + c'.my ≤ c.my)
    (hx : ∀ i j : Int, 1 - (c.g : Int) ≤ i → i ≤ c'.mx + c.g → 1 - (c.g : Int) ≤ j → j ≤ c'.my + c.g →
      aux' i j = aux (i + li) (j + lj) ∧ q' i j = q (i + li) (j + lj))
    (i j : Int) (hj : 1 - (c.g : Int) ≤ j ∧ j ≤ c'.my + c.g)
    (hi : (1 ≤ i ∧ i ≤ c'.mx) ∨ (li = 0 ∧ 1 - (c.g : Int) ≤ i ∧ i ≤ 0) ∨ (li + c'.mx = c.mx ∧ (c'.mx : Int) < i ∧ i ≤ c'.mx + c.g)) :
    afterX2 undef rpx c' capa aux' q' i j = afterX2 undef rpx c capa aux q (i + li) (j + lj) := by
  unfold afterX2
  obtain ⟨k, hk⟩ := hrow
  by_cases h : 1 ≤ i ∧ i ≤ (c'.mx : Int)
  · rw [if_pos ⟨by omega, h⟩, if_pos (by omega), hk]
    rw [show rowStep undef rpx { c.row with n := k } capa (fun i => aux' i j) (fun i => q' i j) i =
      rowStep undef rpx c.row capa (fun i => aux' i j) (fun i => q' i j) i from rfl, ← rowStep_shift]
    exact rowStep_local undef rpx c.row capa _ _ _ _ i (fun l a b => (hx l j (by omega) (by omega) (by omega) (by omega)).1)
      (fun l a b => (hx l j (by omega) (by omega) (by omega) (by omega)).2)
  · rw [if_neg (fun hh => h hh.2), if_neg (by omega)]
    exact (hx i j (by omega) (by omega) (by omega) (by omega)).2

/-- The Courant numbers of the split step. -/
theorem splitStep2_isMax (undef : K) (rpx rpy : Riemann K A m w) (c : Cfg2 K w) (hg : 1 ≤ c.g) (capa : Option (A → K))
    (aux : Int → Int → A) (q : Int → Int → Fin m → K) :
    IsMaxWithZero (fun v =>
      (∃ i j : Int, (1 ≤ i ∧ i ≤ c.mx + 1) ∧ (1 - (c.g : Int) ≤ j ∧ j ≤ c.my + c.g) ∧
        WaveNumber (localRatio c.dt c.dx capa fun i => aux i j) (interfaces rpx (fun i => aux i j) (fun i => q i j)) i v) ∨
      (∃ i j : Int, (1 - (c.g : Int) ≤ i ∧ i ≤ c.mx + c.g) ∧ (1 ≤ j ∧ j ≤ c.my + 1) ∧
        WaveNumber (localRatio c.dt c.dy capa fun j => aux i j)
          (interfaces rpy (fun j => aux i j) (fun j => afterX2 undef rpx c capa aux q i j)) j v))
      (splitStep2 undef rpx rpy c capa aux q).2 := by
  rw [splitStep2_cfl undef rpx rpy c hg]
  refine isMax_max ?_ ?_
  · refine isMax_congr (fun v => ?_) (isMax_rows _ _ _ fun j _ => fCfl_isMax c.mx _ _)
    constructor
    · rintro ⟨j, hj, i, i1, i2, h⟩
      have hj := (mem_irange _ _ _).mp hj
      exact ⟨i, j, ⟨i1, i2⟩, ⟨hj.1, by omega⟩, h⟩
    · rintro ⟨i, j, hi, hj, h⟩
      exact ⟨j, (mem_irange _ _ _).mpr ⟨hj.1, by omega⟩, i, hi.1, hi.2, h⟩
  · refine isMax_congr (fun v => ?_) (isMax_rows _ _ _ fun i _ => fCfl_isMax c.my _ _)
    constructor
    · rintro ⟨i, hi, j, j1, j2, h⟩
      have hi := (mem_irange _ _ _).mp hi
      exact ⟨i, j, ⟨hi.1, by omega⟩, ⟨j1, j2⟩, h⟩
    · rintro ⟨i, j, hi, hj, h⟩
      exact ⟨i, (mem_irange _ _ _).mpr ⟨hi.1, by omega⟩, j, hj.1, hj.2, h⟩

end split2

/-- C64 for the split step in two dimensions, in part: when the parts of a distributed ghosted array are updated separately, the result
on the interior cells is the part of the result for the whole array, and the Courant number of the whole array is not larger
than the largest of those of the parts. Missing: equality of the Courant numbers, see `C64_split2_cfl_violated`. -/
theorem C64_split2_partial {m naux w : Nat} (undef : K) (rpx rpy : Riemann K (Fin naux → K) m w) (c : Cfg2 K w) (hg : 2 ≤ c.g)
    (capa : Option ((Fin naux → K) → K)) (dt : K) (n : Fin 2 → Nat) (D : Decomp (Fin 2)) (hD : GoodDecomp D n c.g)
    (hn : ∀ a, 0 < n a) (G : BCArrays (Fin 2) K) (L : Proc (Fin 2) → BCArrays (Fin 2) K)
    (hpart : ∀ P, ValidProc D P → IsGhostedPart D c.g P G.q (L P).q ∧ (0 < naux → IsGhostedPart D c.g P G.aux (L P).aux)) :
    ∃ (r : GArr (Fin 2) K) (cfl : K) (rP : Proc (Fin 2) → GArr (Fin 2) K) (cP : Proc (Fin 2) → K),
      onArrays m naux c.g (intSplit2 undef rpx rpy c capa) dt n G = some (r, cfl) ∧
      (∀ P, ValidProc D P → onArrays m naux c.g (intSplit2 undef rpx rpy c capa) dt (D.size P) (L P) = some (rP P, cP P) ∧
        ∀ k (idx : Fin 2 → Nat), (∀ a, idx a < D.size P a) → rP P k (fun a => idx a + c.g) = r k fun a => D.lo P a + idx a + c.g) ∧
      (cfl = 0 ∨ ∃ P, ValidProc D P ∧ cfl ≤ cP P) := by
  have hq : ∀ P, ValidProc D P → ∀ v : Fin 2 → Int, (∀ a, 1 - (c.g : Int) ≤ v a ∧ v a ≤ D.size P a + c.g) →
      fieldOf naux c.g (L P).aux v = fieldOf naux c.g G.aux (fun a => v a + D.lo P a) ∧
      fieldOf m c.g (L P).q v = fieldOf m c.g G.q fun a => v a + D.lo P a := by
    intro P hP v hv
    refine ⟨?_, field_part m (hpart P hP).1 v hv⟩
    by_cases h0 : 0 < naux
    · exact field_part naux ((hpart P hP).2 h0) v hv
    · funext k; exact absurd k.isLt (by omega)
  have hb : ∀ P, ValidProc D P → ∀ i j : Int, 1 - (c.g : Int) ≤ i → i ≤ D.size P 0 + c.g → 1 - (c.g : Int) ≤ j → j ≤ D.size P 1 + c.g →
      fieldOf naux c.g (L P).aux ![i, j] = fieldOf naux c.g G.aux ![i + D.lo P 0, j + D.lo P 1] ∧
      fieldOf m c.g (L P).q ![i, j] = fieldOf m c.g G.q ![i + D.lo P 0, j + D.lo P 1] := by
    intro P hP i j i1 i2 j1 j2
    have hs : (fun a => ![i, j] a + (D.lo P a : Int)) = ![i + D.lo P 0, j + D.lo P 1] := by
      funext a; fin_cases a <;> rfl
    have := hq P hP ![i, j] (fun a => by fin_cases a <;> simp <;> omega)
    rwa [hs] at this
  have hX : ∀ P (hP : ValidProc D P) (i j : Int), (1 - (c.g : Int) ≤ j ∧ j ≤ D.size P 1 + c.g) →
      ((1 ≤ i ∧ i ≤ D.size P 0) ∨ (D.lo P 0 = 0 ∧ 1 - (c.g : Int) ≤ i ∧ i ≤ 0) ∨
        (D.lo P 0 + D.size P 0 = n 0 ∧ (D.size P 0 : Int) < i ∧ i ≤ D.size P 0 + c.g)) →
      afterX2 undef rpx { c with mx := D.size P 0, my := D.size P 1, dt := dt } capa (fun i j => fieldOf naux c.g (L P).aux ![i, j])
        (fun i j => fieldOf m c.g (L P).q ![i, j]) i j =
      afterX2 undef rpx { c with mx := n 0, my := n 1, dt := dt } capa (fun i j => fieldOf naux c.g G.aux ![i, j])
        (fun i j => fieldOf m c.g G.q ![i, j]) (i + D.lo P 0) (j + D.lo P 1) := by
    intro P hP i j hj hi
    have r0 := range_spec hD hP 0
    have r1 := range_spec hD hP 1
    refine afterX2_part undef rpx { c with mx := n 0, my := n 1, dt := dt } { c with mx := D.size P 0, my := D.size P 1, dt := dt }
      ⟨D.size P 0, rfl⟩ hg rfl capa _ _ _ _ _ _ ?_ (fun i j i1 i2 j1 j2 => hb P hP i j i1 i2 j1 j2) i j hj ?_
    · dsimp only; omega
    · dsimp only; omega
  refine ⟨_, _, fun P => putBack m c.g (L P).q fun v => (splitStep2 undef rpx rpy { c with mx := D.size P 0, my := D.size P 1, dt := dt } capa
      (fun i j => fieldOf naux c.g (L P).aux ![i, j]) (fun i j => fieldOf m c.g (L P).q ![i, j])).1 (v 0) (v 1),
    fun P => (splitStep2 undef rpx rpy { c with mx := D.size P 0, my := D.size P 1, dt := dt } capa
      (fun i j => fieldOf naux c.g (L P).aux ![i, j]) (fun i j => fieldOf m c.g (L P).q ![i, j])).2, rfl,
    fun P hP => ⟨rfl, fun k idx hidx => ?_⟩, ?_⟩
  · have r0 := range_spec hD hP 0
    have r1 := range_spec hD hP 1
    have d0 := hidx 0
    have d1 := hidx 1
    unfold putBack
    dsimp only
    by_cases hk : k < m
    · rw [dif_pos hk, dif_pos hk]
      refine congrFun ?_ _
      have h1 : ∀ a, (((idx a + c.g : Nat) : Int) + 1 - c.g) = idx a + 1 := fun a => by omega
      have h2 : ∀ a, (((D.lo P a + idx a + c.g : Nat) : Int) + 1 - c.g) = (idx a : Int) + 1 + D.lo P a := fun a => by omega
      simp only [h1, h2]
      rw [splitStep2_eq undef rpx rpy _ (by dsimp only; omega) capa _ _ _ _ (by omega) (by dsimp only; omega) (by omega) (by dsimp only; omega),
        splitStep2_eq undef rpx rpy _ (by dsimp only; omega) capa _ _ _ _ (by omega) (by dsimp only; omega) (by omega) (by dsimp only; omega)]
      rw [show rowStep undef rpy ({ c with mx := D.size P 0, my := D.size P 1, dt := dt } : Cfg2 K w).swap.row capa = rowStep undef rpy
        ({ c with mx := n 0, my := n 1, dt := dt } : Cfg2 K w).swap.row capa from rfl, ← rowStep_shift _ _ _ _ _ _ (D.lo P 1 : Int) ((idx 1 : Int) + 1)]
      refine rowStep_local undef rpy _ capa _ _ _ _ _ (fun l a b => ?_) (fun l a b => ?_)
      · exact (hb P hP _ _ (by omega) (by omega) (by omega) (by omega)).1
      · have := hX P hP (idx 0 + 1) l (by omega) (by omega)
        rw [show ∀ (c : Cfg2 K w) (hg : 1 ≤ c.g) (aux : Int → Int → Fin naux → K) (q : Int → Int → Fin m → K) (i j : Int),
          (step2dsX false undef rpx c capa aux q q).1 i j = afterX2 undef rpx c capa aux q i j from
          fun c hg aux q i j => step2dsX_eq false undef rpx c hg capa aux q i j] <;> [skip; (dsimp only; omega)]
        rw [this]
        exact (step2dsX_eq false undef rpx { c with mx := n 0, my := n 1, dt := dt } (show 1 ≤ c.g by omega) capa
          (fun i j => fieldOf naux c.g G.aux ![i, j]) (fun i j => fieldOf m c.g G.q ![i, j]) _ _).symm
    · rw [dif_neg hk, dif_neg hk, (hpart P hP).1 k _ (fun a => by have := hidx a; omega)]
      congr 1
      funext a
      omega
  · have hG := splitStep2_isMax undef rpx rpy { c with mx := n 0, my := n 1, dt := dt } (by dsimp only; omega) capa
      (fun i j => fieldOf naux c.g G.aux ![i, j]) (fun i j => fieldOf m c.g G.q ![i, j])
    have hP' := fun P => splitStep2_isMax undef rpx rpy { c with mx := D.size P 0, my := D.size P 1, dt := dt } (by dsimp only; omega) capa
      (fun i j => fieldOf naux c.g (L P).aux ![i, j]) (fun i j => fieldOf m c.g (L P).q ![i, j])
    rcases hG.2.2 with h0 | h0
    · exact Or.inl h0
    right
    rcases h0 with ⟨i, j, hi, hj, h⟩ | ⟨i, j, hi, hj, h⟩
    · obtain ⟨P, hP, hc⟩ := cover hD hn ![i, j]
      have c0 := hc 0
      have c1 := hc 1
      have r0 := range_spec hD hP 0
      have r1 := range_spec hD hP 1
      simp at c0 c1
      dsimp only at hi hj
      refine ⟨P, hP, (hP' P).2.1 _ (Or.inl ⟨i - D.lo P 0, j - D.lo P 1, by dsimp only; omega, by dsimp only; omega, ?_⟩)⟩
      have e0 : i - D.lo P 0 + D.lo P 0 = i := by omega
      have e1 : j - D.lo P 1 + D.lo P 1 = j := by omega
      refine (waveNumber_congr rpx dt c.dx capa (fun i => fieldOf naux c.g G.aux ![i, j]) _ (fun i => fieldOf m c.g G.q ![i, j]) _
        (D.lo P 0) (i - D.lo P 0) _ ?_ ?_ ?_ ?_).mpr (by rw [e0]; exact h)
      · exact ((hb P hP _ _ (by omega) (by omega) (by omega) (by omega)).1).trans (by rw [e1])
      · exact ((hb P hP _ _ (by omega) (by omega) (by omega) (by omega)).1).trans (by rw [e1])
      · exact ((hb P hP _ _ (by omega) (by omega) (by omega) (by omega)).2).trans (by rw [e1])
      · exact ((hb P hP _ _ (by omega) (by omega) (by omega) (by omega)).2).trans (by rw [e1])
    · obtain ⟨P, hP, hc⟩ := cover hD hn ![i, j]
      have c0 := hc 0
      have c1 := hc 1
      have r0 := range_spec hD hP 0
      have r1 := range_spec hD hP 1
      simp at c0 c1
      dsimp only at hi hj
      refine ⟨P, hP, (hP' P).2.1 _ (Or.inr ⟨i - D.lo P 0, j - D.lo P 1, by dsimp only; omega, by dsimp only; omega, ?_⟩)⟩
      have e0 : i - D.lo P 0 + D.lo P 0 = i := by omega
      have e1 : j - D.lo P 1 + D.lo P 1 = j := by omega
      refine (waveNumber_congr rpy dt c.dy capa (fun j => fieldOf naux c.g G.aux ![i, j]) _ (fun j => afterX2 undef rpx
        { c with mx := n 0, my := n 1, dt := dt } capa (fun i j => fieldOf naux c.g G.aux ![i, j])
        (fun i j => fieldOf m c.g G.q ![i, j]) i j) _ (D.lo P 1) (j - D.lo P 1) _ ?_ ?_ ?_ ?_).mpr (by rw [e1]; exact h)
      · exact ((hb P hP _ _ (by omega) (by omega) (by omega) (by omega)).1).trans (by rw [e0])
      · exact ((hb P hP _ _ (by omega) (by omega) (by omega) (by omega)).1).trans (by rw [e0])
      · exact (hX P hP _ _ (by omega) (by omega)).trans (by rw [e0])
      · exact (hX P hP _ _ (by omega) (by omega)).trans (by rw [e0])

/-- Four by two cells on two processes. -/
def twoParts2 : Decomp (Fin 2) := ⟨![4, 2], ![2, 1], fun _ k => 2 * k⟩

theorem twoParts2_good : GoodDecomp twoParts2 ![4, 2] 2 := by
  refine ⟨rfl, fun a => ⟨?_, ?_, ?_⟩, ?_⟩
  · rfl
  · fin_cases a <;> rfl
  · intro k hk; simp only [twoParts2]; omega
  · intro P _ a; simp only [Decomp.size, twoParts2]; omega

/-- The value 1 in the cells of the second column, 0 elsewhere. -/
def column2 : BCArrays (Fin 2) ℚ := { q := fun _ idx => if idx 0 = 3 then 1 else 0, aux := fun _ _ => 0 }

/-- A Riemann solver that removes the value of the cell on the right in one step of size 1. -/
def sinkRp : Riemann ℚ (Fin 0 → ℚ) 1 1 := fun _ qr _ _ => { wave := fun _ => 0, s := fun _ => 0, amdq := 0, apdq := qr }

/-- A Riemann solver with speed `q` and no fluctuations. -/
def speedRp : Riemann ℚ (Fin 0 → ℚ) 1 1 := fun ql _ _ _ => { wave := fun _ => 0, s := fun _ => ql 0, amdq := 0, apdq := 0 }

/-- First order, no transverse terms. -/
def exSplit2 : Cfg2 ℚ 1 :=
  { mx := 4, my := 2, g := 2, dt := 1, dx := 1, dy := 1, order := 1, trans := -1, fwave := false, limiter := fun _ => 0 }

/-- C64 fails for the Courant number of the split step in two dimensions. The sweep in `y` includes the ghost columns, which the
sweep in `x` has not updated; at an internal boundary they hold values of another process before its sweep. Here the serial
Courant number is 0 and that of the second process is 1. -/
theorem C64_split2_cfl_violated : ¬ LocalKernel (onArrays 1 0 2 (intSplit2 0 sinkRp speedRp exSplit2 none)) 2 0 := by
  intro h
  have hv := (localKernel_value h 1 ![4, 2] twoParts2 twoParts2_good (fun a => by fin_cases a <;> decide) column2 _ _ rfl ![1, 0]
    (fun a => by fin_cases a <;> decide) _ _ rfl).2
  simp only at hv
  rw [splitStep2_cfl _ _ _ _ (by decide), splitStep2_cfl _ _ _ _ (by decide)] at hv
  revert hv
  decide +kernel

/-! ### Dimensional splitting in three dimensions -/

/-- Two by four by two cells on two processes. -/
def twoParts3 : Decomp (Fin 3) := ⟨![2, 4, 2], ![1, 2, 1], fun _ k => 2 * k⟩

theorem twoParts3_good : GoodDecomp twoParts3 ![2, 4, 2] 2 := by
  refine ⟨rfl, fun a => ⟨?_, ?_, ?_⟩, ?_⟩
  · rfl
  · fin_cases a <;> rfl
  · intro k hk; simp only [twoParts3]; omega
  · intro P _ a; simp only [Decomp.size, twoParts3]; omega

/-- The data `0, 1, 4, 9, …` in the direction of `y`. -/
def squares3 : BCArrays (Fin 3) ℚ := { q := fun _ idx => (idx 1 : ℚ) ^ 2, aux := fun _ _ => 0 }

/-- A Riemann solver that halves the value of the cell on the right in one step of size 1. -/
def decayRp : Riemann ℚ (Fin 0 → ℚ) 1 1 := fun _ qr _ _ =>
  { wave := fun _ => 0, s := fun _ => 0, amdq := 0, apdq := fun k => qr k / 2 }

/-- Second order with the minmod limiter. -/
def exSplit3 : Cfg3 ℚ 1 :=
  { mx := 2, my := 4, mz := 2, g := 2, dt := 1, dx := 1, dy := 1, dz := 1, order := 2, trans := -1, hasAux := false, fwave := false,
    limiter := fun _ => 1 }

/-- C64 fails for the split step in three dimensions: the sweeps in `x` leave the outer ghost rows old, and the limiter of the sweeps
in `y` compares with them. At an internal boundary of the process grid these rows belong to another process, in a serial run they
are interior rows. Decay in `x`, advection with speed 1/2 in `y`: the first row of the second process gets another value. -/
theorem C64_split3_violated : ¬ LocalKernel (onArrays 1 0 2 (intSplit3 0 decayRp
    (fun ql qr _ _ => advectionRp (1 / 2 : ℚ) ql qr () ()) (fun ql qr _ _ => advectionRp 0 ql qr () ()) exSplit3 none)) 2 0 := by
  intro h
  have hv := (localKernel_value h 1 ![2, 4, 2] twoParts3 twoParts3_good (fun a => by fin_cases a <;> decide) squares3 _ _ rfl ![0, 1, 0]
    (fun a => by fin_cases a <;> decide) _ _ rfl).1 0 (fun _ => 0) (fun a => by fin_cases a <;> decide)
  simp only [putBack, Nat.lt_one_iff, dite_true] at hv
  rw [splitStep3_eq _ _ _ _ _ (by decide), splitStep3_eq _ _ _ _ _ (by decide)] at hv
  revert hv
  decide +kernel

/-! ### A run that meets the hypotheses of `C64_run` -/

/-- Six processes on a grid of 5 by 7 cells. -/
def sixParts : Decomp (Fin 2) := ⟨![5, 7], ![2, 3], fun a k => if a = 0 then (if k = 0 then 0 else if k = 1 then 3 else 5) else
  if k = 0 then 0 else if k = 1 then 2 else if k = 2 then 5 else 7⟩

theorem sixParts_good : GoodDecomp sixParts ![5, 7] 2 := by
  refine ⟨rfl, fun a => ⟨?_, ?_, ?_⟩, fun P hP a => ?_⟩
  · fin_cases a <;> rfl
  · fin_cases a <;> rfl
  · intro k hk
    fin_cases a
    · have hk : k < 2 := hk
      interval_cases k <;> decide
    · have hk : k < 3 := hk
      interval_cases k <;> decide
  · have := hP a
    generalize hk : P a = k at this
    simp only [Decomp.size, hk]
    fin_cases a
    · have hk : k < 2 := this
      interval_cases k <;> decide
    · have hk : k < 3 := this
      interval_cases k <;> decide

/-- Reflection and extrapolation in the first direction, periodic in the second; unsplit kernel with transverse terms for any Riemann
solvers with three equations, one aux value and two waves; a source term with Strang splitting. -/
def exRun (rpx rpy : Riemann ℚ (Fin 1 → ℚ) 3 2) (rtx rty : Transverse ℚ (Fin 1 → ℚ) 3) (c : Cfg2 ℚ 2) : ParCfg (Fin 2) ℚ where
  bc := { exampleBC with n := ![5, 7] }
  axes := [0, 1]
  kern := onArrays 3 1 2 (intUnsplit2 0 rpx rpy rtx rty { c with g := 2 } none)
  sourceSplit := 2
  source := some fun _ dt _ q aux k => q k + dt * aux 0
  beforeQ := fun _ _ q _ => q
  beforeAux := fun t _ _ aux k => aux k + t

/-- Non-vacuity of `C64_run`: this run can be distributed over the six processes. -/
theorem exRun_ok (rpx rpy : Riemann ℚ (Fin 1 → ℚ) 3 2) (rtx rty : Transverse ℚ (Fin 1 → ℚ) 3) (c : Cfg2 ℚ 2) :
    RunOk (exRun rpx rpy rtx rty c) sixParts where
  bc := by
    have h := exampleBC_admissible.1
    exact ⟨(by decide : ∀ a : Fin 2, 0 < (![5, 7] : Fin 2 → Nat) a ∧ 2 ≤ (![5, 7] : Fin 2 → Nat) a), h.lower, h.upper, h.auxLower, h.auxUpper, h.reflect⟩
  ser := exampleBC_admissible.2
  nodup := (by decide : ([0, 1] : List (Fin 2)).Nodup)
  all := (by decide : ∀ a : Fin 2, a ∈ [0, 1])
  good := sixParts_good
  kern := C64_unsplit2 0 rpx rpy rtx rty { c with g := 2 } (le_refl 2) none

/-- Every serial state can be distributed. -/
theorem together_exists (D : Decomp ι) (S : StepState K (GArr ι K) (GArr ι K × BCArrays ι K)) : ∃ s, Together D S s :=
  ⟨fun P => { S with sol := { S.sol with
      q := fun c idx => S.sol.q c fun a => D.lo P a + idx a
      rest := (fun c idx => S.sol.rest.1 c fun a => D.lo P a + idx a, S.sol.rest.2) } },
    fun _ _ => rfl, fun _ _ => rfl, fun _ _ => rfl, fun _ _ => rfl, fun _ _ _ _ _ => rfl, fun _ _ _ _ _ => rfl⟩

end PyClaw
