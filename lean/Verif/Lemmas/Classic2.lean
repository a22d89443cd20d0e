import Verif.Model.Classic2
import Verif.Props.Classic1
import Mathlib.Tactic.Module

/-! Lemmas on the two-dimensional classic kernels. -/
set_option linter.unusedSectionVars false

namespace PyClaw
open Spec

variable {K A : Type*} [Field K] [LinearOrder K] [IsStrictOrderedRing K] {m w : Nat}

theorem sliceRatio_eq (dt dx : K) (capa : Option (A → K)) (aux : Int → A) :
    sliceRatio dt dx capa aux = localRatio dt dx capa aux := by
  funext i
  unfold sliceRatio localRatio
  cases capa with
  | none => rfl
  | some κ => simp only; rw [div_div]

theorem capDiv_smul (dt dx : K) (capa : Option (A → K)) (aux : Int → A) (i : Int) (x : Fin m → K) :
    capDiv capa (aux i) ((dt / dx) • x) = localRatio dt dx capa aux i • x := by
  unfold capDiv localRatio
  cases capa with
  | none => rfl
  | some κ => simp only; rw [smul_smul, ← div_div, mul_comm, ← div_eq_mul_inv]

theorem capDiv_zero (capa : Option (A → K)) (a : A) : capDiv capa a (0 : Fin m → K) = 0 := by
  unfold capDiv; cases capa <;> simp

theorem capDiv_add (capa : Option (A → K)) (a : A) (x y : Fin m → K) :
    capDiv capa a (x + y) = capDiv capa a x + capDiv capa a y := by
  unfold capDiv; cases capa <;> simp

theorem capDiv_sub (capa : Option (A → K)) (a : A) (x y : Fin m → K) :
    capDiv capa a (x - y) = capDiv capa a x - capDiv capa a y := by
  unfold capDiv; cases capa <;> simp [smul_sub]

/-- The correction fluxes of a slice: none for order 1. -/
def sliceFlux (undef : K) (order : Int) (fwave : Bool) (mthlim : Fin w → Int) (lam : Int → K) (d : Int → Rp K m w) :
    Int → Fin m → K :=
  if order = 1 then fun _ => 0
  else correctionFlux (if fwave then dsign1 else abs) lam d (limitedWave (fPhi undef mthlim) lam d)

theorem flux2Slice_qadd (undef : K) (n g : Nat) (order trans : Int) (fwave : Bool) (mthlim : Fin w → Int)
    (lam : Int → K) (d : Int → Rp K m w) (t : Nat → Int → (Fin m → K) → (Fin m → K) × (Fin m → K)) (i : Int)
    (h1 : 1 ≤ i) (h2 : i ≤ n) :
    (flux2Slice undef n g order trans fwave mthlim lam d t).qadd i = -(lam i • ((d i).apdq + (d (i + 1)).amdq)) := by
  have : (flux2Slice undef n g order trans fwave mthlim lam d t).qadd i =
      (if 1 ≤ i + 1 ∧ i + 1 ≤ (n : Int) + 1 then
        (if 1 ≤ i ∧ i ≤ (n : Int) + 1 then 0 - lam i • (d i).apdq else 0) - lam i • (d (i + 1)).amdq
      else (if 1 ≤ i ∧ i ≤ (n : Int) + 1 then 0 - lam i • (d i).apdq else 0)) := by
    unfold flux2Slice
    dsimp only
    split <;> rfl
  rw [this, if_pos (by omega), if_pos (by omega)]
  module

theorem flux2Slice_cfl (undef : K) (n g : Nat) (order trans : Int) (fwave : Bool) (mthlim : Fin w → Int)
    (lam : Int → K) (d : Int → Rp K m w) (t : Nat → Int → (Fin m → K) → (Fin m → K) × (Fin m → K)) :
    (flux2Slice undef n g order trans fwave mthlim lam d t).cfl = fCfl n lam d := by
  unfold flux2Slice
  dsimp only
  split <;> rfl

/-- `cqxx` of the code, with any waves. -/
theorem cqxx_fold (fwave : Bool) (lam : Int → K) (d : Int → Rp K m w) (wave : Waves K m w) (i : Int) :
    (1 / 2 : K) • (List.finRange w).foldl (fun f mw =>
        if fwave then f + (dsign1 ((d i).s mw) * (1 - |(d i).s mw| * (1 / 2 * (lam (i - 1) + lam i)))) • wave i mw
        else f + (|(d i).s mw| * (1 - |(d i).s mw| * (1 / 2 * (lam (i - 1) + lam i)))) • wave i mw) 0 =
      correctionFlux (if fwave then dsign1 else abs) lam d wave i := by
  have h : (fun (f : Fin m → K) (mw : Fin w) =>
      if fwave then f + (dsign1 ((d i).s mw) * (1 - |(d i).s mw| * (1 / 2 * (lam (i - 1) + lam i)))) • wave i mw
        else f + (|(d i).s mw| * (1 - |(d i).s mw| * (1 / 2 * (lam (i - 1) + lam i)))) • wave i mw) =
      fun f mw => f + ((if fwave then dsign1 else abs) ((d i).s mw) *
        (1 - |(d i).s mw| * (1 / 2 * (lam (i - 1) + lam i)))) • wave i mw := by
    funext f mw
    cases fwave <;> rfl
  rw [h, foldl_add_sum, finRange_sum, zero_add, Finset.smul_sum]
  unfold correctionFlux
  refine Finset.sum_congr rfl fun p _ => ?_
  rw [smul_smul]
  congr 1
  ring

theorem flux2Slice_fadd (undef : K) (n g : Nat) (hg : 1 ≤ g) (order trans : Int) (fwave : Bool) (mthlim : Fin w → Int)
    (lam : Int → K) (d : Int → Rp K m w) (t : Nat → Int → (Fin m → K) → (Fin m → K) × (Fin m → K)) (i : Int)
    (h1 : 1 ≤ i) (h2 : i ≤ n + 1) :
    (flux2Slice undef n g order trans fwave mthlim lam d t).fadd i = sliceFlux undef order fwave mthlim lam d i := by
  unfold sliceFlux
  by_cases ho : order = 1
  · unfold flux2Slice
    simp only [if_pos ho]
    split <;> rfl
  · rw [if_neg ho]
    have key := cqxx_fold fwave lam d (if ∃ p, 0 < mthlim p then fLimiter undef n mthlim (fun i => (d i).s)
      (fun i => (d i).wave) else fun i => (d i).wave) i
    have hin : 2 - (g : Int) ≤ i ∧ i ≤ n + g := by omega
    have : (flux2Slice undef n g order trans fwave mthlim lam d t).fadd i =
        correctionFlux (if fwave then dsign1 else abs) lam d (if ∃ p, 0 < mthlim p then
          fLimiter undef n mthlim (fun i => (d i).s) (fun i => (d i).wave) else fun i => (d i).wave) i := by
      rw [← key]
      by_cases ht : trans ≤ 0
      · simp only [flux2Slice, if_pos ht, if_neg ho, if_pos hin, zero_add]
      · simp only [flux2Slice, if_neg ht, if_neg ho, if_pos hin, zero_add]
    rw [this]
    exact correctionFlux_congr _ _ _ _ _ _ (fun p => fLimited_eq undef n mthlim lam d i p h1 h2)

/-- One row of a dimensionally split sweep is the one-dimensional wave propagation formula. -/
theorem slice_update (undef : K) (n g : Nat) (hg : 1 ≤ g) (order trans : Int) (fwave : Bool) (mthlim : Fin w → Int)
    (dt dx : K) (capa : Option (A → K)) (aux : Int → A) (rp : Riemann K A m w)
    (t : Nat → Int → (Fin m → K) → (Fin m → K) × (Fin m → K)) (q : Int → Fin m → K) (i : Int) (h1 : 1 ≤ i)
    (h2 : i ≤ n) :
    let S := flux2Slice undef n g order trans fwave mthlim (sliceRatio dt dx capa aux)
      (fun i => rp (q (i - 1)) (q i) (aux (i - 1)) (aux i)) t
    q i + S.qadd i - capDiv capa (aux i) ((dt / dx) • (S.fadd (i + 1) - S.fadd i)) =
      waveProp (localRatio dt dx capa aux) (interfaces rp aux q)
        (sliceFlux undef order fwave mthlim (localRatio dt dx capa aux) (interfaces rp aux q)) q i := by
  intro S
  have e1 := flux2Slice_qadd undef n g order trans fwave mthlim (sliceRatio dt dx capa aux)
      (fun i => rp (q (i - 1)) (q i) (aux (i - 1)) (aux i)) t i h1 h2
  have e2 := flux2Slice_fadd undef n g hg order trans fwave mthlim (sliceRatio dt dx capa aux)
      (fun i => rp (q (i - 1)) (q i) (aux (i - 1)) (aux i)) t i h1 (by omega)
  have e3 := flux2Slice_fadd undef n g hg order trans fwave mthlim (sliceRatio dt dx capa aux)
      (fun i => rp (q (i - 1)) (q i) (aux (i - 1)) (aux i)) t (i + 1) (by omega) (by omega)
  rw [capDiv_smul dt dx capa aux i]
  change q i + S.qadd i - _ • (S.fadd (i + 1) - S.fadd i) = _
  rw [show S.qadd i = _ from e1, show S.fadd i = _ from e2, show S.fadd (i + 1) = _ from e3, sliceRatio_eq]
  unfold waveProp
  change _ + -(_ • ((interfaces rp aux q i).apdq + (interfaces rp aux q (i + 1)).amdq)) - _ = _
  rw [← sub_eq_add_neg]
  rfl

/-- A sweep over rows in which row `j` is replaced by a function of itself. -/
theorem foldl_rows {V : Type*} (U : Int → (Int → V) → Int → V) (l : List Int) (hl : l.Nodup) (q : Int → Int → V) :
    l.foldl (fun cur j => fun i j' => if j' = j then U j (fun i => cur i j) i else cur i j') q =
      fun i j => if j ∈ l then U j (fun i => q i j) i else q i j := by
  induction l generalizing q with
  | nil => simp
  | cons a l ih =>
    rw [List.foldl_cons, ih (List.nodup_cons.mp hl).2]
    have ha := (List.nodup_cons.mp hl).1
    funext i j
    by_cases h : j = a
    · subst h; simp [ha]
    · simp [h]

theorem irange_nodup (lo hi : Int) : (irange lo hi).Nodup := by
  unfold irange
  refine List.Nodup.map ?_ List.nodup_range
  intro a b h
  have h' : lo + (a : Int) = lo + (b : Int) := h
  omega

theorem foldl_max_prod {α V : Type*} (f : V → α → V) (c : V → α → K) (l : List α) (v : V) (x : K) :
    (l.foldl (fun st a => (f st.1 a, max st.2 (c st.1 a))) (v, x)).1 = l.foldl f v := by
  induction l generalizing v x with
  | nil => rfl
  | cons a l ih => rw [List.foldl_cons, List.foldl_cons, ih]

end PyClaw

namespace PyClaw
open Spec

variable {K A : Type*} [Field K] [LinearOrder K] [IsStrictOrderedRing K] {m w : Nat}

/-- The left-going fluctuation handed to the transverse solver; with `corr` the correction flux is added. -/
def Spec.leftPart (corr : Prop) [Decidable corr] (d : Int → Rp K m w) (F : Int → Fin m → K) (i : Int) : Fin m → K :=
  if corr then (d i).amdq + (2 : K) • F i else (d i).amdq

/-- The right-going fluctuation handed to the transverse solver. -/
def Spec.rightPart (corr : Prop) [Decidable corr] (d : Int → Rp K m w) (F : Int → Fin m → K) (i : Int) : Fin m → K :=
  if corr then (d i).apdq - (2 : K) • F i else (d i).apdq

/-- The transverse contributions of cell `i` of a slice: the parts of the fluctuations at its two interfaces that the
transverse solver `t` sends down (first component) and up (second component), times `-λ/2`. -/
def Spec.transversePair (corr : Prop) [Decidable corr] (lam : Int → K) (d : Int → Rp K m w) (F : Int → Fin m → K)
    (t : Nat → Int → (Fin m → K) → (Fin m → K) × (Fin m → K)) (i : Int) : (Fin m → K) × (Fin m → K) :=
  (-(1 / 2 * lam i)) • (t 1 (i + 1) (leftPart corr d F (i + 1)) + t 2 i (rightPart corr d F i))

theorem flux2Slice_gadd (undef : K) (n g : Nat) (hg : 1 ≤ g) (order trans : Int) (ht : 0 < trans) (fwave : Bool)
    (mthlim : Fin w → Int) (lam : Int → K) (d : Int → Rp K m w)
    (t : Nat → Int → (Fin m → K) → (Fin m → K) × (Fin m → K)) (i : Int) (h1 : 1 ≤ i) (h2 : i ≤ n) :
    ((flux2Slice undef n g order trans fwave mthlim lam d t).gadd1 i,
      (flux2Slice undef n g order trans fwave mthlim lam d t).gadd2 i) =
      transversePair (1 < order ∧ trans = 2) lam d (sliceFlux undef order fwave mthlim lam d) t i := by
  set wave : Waves K m w := if ∃ p, 0 < mthlim p then fLimiter undef n mthlim (fun i => (d i).s)
      (fun i => (d i).wave) else fun i => (d i).wave with hw
  have hc : ∀ k : Int, 1 ≤ k → k ≤ n + 1 → 1 < order →
      (if 2 - (g : Int) ≤ k ∧ k ≤ n + g then
        (List.finRange w).foldl (fun f mw =>
          if fwave then f + (dsign1 ((d k).s mw) * (1 - |(d k).s mw| * (1 / 2 * (lam (k - 1) + lam k)))) • wave k mw
          else f + (|(d k).s mw| * (1 - |(d k).s mw| * (1 / 2 * (lam (k - 1) + lam k)))) • wave k mw) 0
      else 0) = (2 : K) • sliceFlux undef order fwave mthlim lam d k := by
    intro k k1 k2 ho
    rw [if_pos (by omega)]
    have key := cqxx_fold fwave lam d wave k
    unfold sliceFlux
    rw [if_neg (by omega), ← correctionFlux_congr (if fwave then dsign1 else abs) lam d wave _ _
      (fun p => fLimited_eq undef n mthlim lam d k p k1 k2), ← key, smul_smul]
    norm_num
  have hin1 : 1 ≤ i + 1 ∧ i + 1 ≤ (n : Int) + 1 := by omega
  have hin0 : 1 ≤ i ∧ i ≤ (n : Int) + 1 := by omega
  have htt : ¬ trans ≤ 0 := by omega
  by_cases hs : 1 < order ∧ trans = 2
  · have c1 : (1 < order ∧ trans = 2) ∧ 1 ≤ i + 1 ∧ i + 1 ≤ (n : Int) + 1 := ⟨hs, hin1⟩
    have c0 : (1 < order ∧ trans = 2) ∧ 1 ≤ i ∧ i ≤ (n : Int) + 1 := ⟨hs, hin0⟩
    simp only [flux2Slice, if_neg htt, if_pos hin1, if_pos hin0, if_pos c1, if_pos c0, transversePair, leftPart,
      rightPart, if_pos hs]
    rw [hc i h1 (by omega) hs.1, hc (i + 1) (by omega) (by omega) hs.1]
    refine Prod.ext ?_ ?_
    · simp only [Prod.smul_fst, Prod.fst_add]; module
    · simp only [Prod.smul_snd, Prod.snd_add]; module
  · have c1 : ¬ ((1 < order ∧ trans = 2) ∧ 1 ≤ i + 1 ∧ i + 1 ≤ (n : Int) + 1) := fun h => hs h.1
    have c0 : ¬ ((1 < order ∧ trans = 2) ∧ 1 ≤ i ∧ i ≤ (n : Int) + 1) := fun h => hs h.1
    simp only [flux2Slice, if_neg htt, if_pos hin1, if_pos hin0, if_neg c1, if_neg c0, transversePair, leftPart,
      rightPart, if_neg hs]
    refine Prod.ext ?_ ?_
    · simp only [Prod.smul_fst, Prod.fst_add]; module
    · simp only [Prod.smul_snd, Prod.snd_add]; module

theorem flux2Slice_gadd_none (undef : K) (n g : Nat) (order trans : Int) (ht : trans ≤ 0) (fwave : Bool)
    (mthlim : Fin w → Int) (lam : Int → K) (d : Int → Rp K m w)
    (t : Nat → Int → (Fin m → K) → (Fin m → K) × (Fin m → K)) (i : Int) :
    ((flux2Slice undef n g order trans fwave mthlim lam d t).gadd1 i,
      (flux2Slice undef n g order trans fwave mthlim lam d t).gadd2 i) = 0 := by
  simp only [flux2Slice, if_pos ht]
  rfl

/-- A loop in which each step adds something. -/
theorem foldl_additive {V X : Type*} [AddCommMonoid V] (f : (X → V) → Int → X → V) (δ : Int → X → V)
    (hf : ∀ q j x, f q j x = q x + δ j x) (l : List Int) (q : X → V) (x : X) :
    l.foldl f q x = q x + (l.map fun j => δ j x).sum := by
  induction l generalizing q with
  | nil => simp
  | cons a l ih => rw [List.foldl_cons, ih, hf, List.map_cons, List.sum_cons, add_assoc]

theorem irange_sum {V : Type*} [AddCommMonoid V] (n : Nat) (f : Int → V) :
    ((irange 0 (n : Int)).map f).sum = ∑ k ∈ Finset.range n, f (k : Int) := by
  unfold irange
  rw [List.map_map]
  have : ((n : Int) - 0).toNat = n := by simp
  rw [this]
  induction n with
  | zero => simp
  | succ n ih => rw [List.range_succ, List.map_append, List.sum_append, ih (by simp), Finset.sum_range_succ]; simp

/-- The sum over the rows `0 … my+1` of contributions to rows `j`, `j-1` and `j+1`. -/
theorem rows_sum {V : Type*} [AddCommGroup V] (my : Nat) (a b e : Int → V) (j : Int) (h1 : 1 ≤ j) (h2 : j ≤ my) :
    ((irange 0 ((my : Int) + 2)).map fun k =>
      if j = k then a k else if j = k - 1 then b k else if j = k + 1 then e k else 0).sum =
      a j + b (j + 1) + e (j - 1) := by
  obtain ⟨n, rfl⟩ : ∃ n : Nat, j = n + 1 := ⟨(j - 1).toNat, by omega⟩
  have e0 : ((my : Int) + 2) = ((my + 2 : Nat) : Int) := by push_cast; rfl
  rw [e0, irange_sum]
  have : ∀ k ∈ Finset.range (my + 2), (if (n : Int) + 1 = k then a k else if (n : Int) + 1 = k - 1 then b k
      else if (n : Int) + 1 = k + 1 then e k else 0) =
      ((if n + 1 = k then a k else 0) + (if n + 2 = k then b k else 0)) + (if n = k then e k else 0) := by
    intro k _
    by_cases c1 : n + 1 = k
    · subst c1; simp
    · rw [if_neg (by omega)]
      by_cases c2 : n + 2 = k
      · subst c2; rw [if_pos (by push_cast; omega)]; simp
      · rw [if_neg (by omega)]
        by_cases c3 : n = k
        · subst c3; simp
        · rw [if_neg (by omega)]; simp [c1, c2, c3]
  rw [Finset.sum_congr rfl this, Finset.sum_add_distrib, Finset.sum_add_distrib, Finset.sum_ite_eq, Finset.sum_ite_eq,
    Finset.sum_ite_eq, if_pos (by simp; omega), if_pos (by simp; omega), if_pos (by simp; omega)]
  push_cast
  congr 2
  ring

end PyClaw
