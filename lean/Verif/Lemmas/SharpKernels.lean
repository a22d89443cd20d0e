import Verif.Lemmas.SharpRow

set_option linter.unusedSectionVars false

/-!
`flux1`, `flux2` and `flux3` are kernels with a wide stencil.
-/
namespace PyClaw
open Spec

variable {K : Type*} [Field K] [LinearOrder K] [IsStrictOrderedRing K] {m w naux : Nat}

variable (f2003 : Bool) (R : ReconCfg K m w) (g : Nat) (capa : Option ((Fin naux → K) → K))

theorem flux1_wide (hcap : capa = none ∨ f2003 = false) (hR : R.Fits g) (rp : Riemann K (Fin naux → K) m w)
    (tf : TotalFluct K (Fin naux → K) m) (dx : K) :
    WideStencil (ι := Fin 1) (intFlux1 f2003 R rp tf g dx capa) g (fun _ _ => R.Supported g)
      (fun dt aux q v => rowNew f2003 R rp tf g dx capa dt (fun i => aux fun _ => i) (fun i => q fun _ => i) (v 0))
      (fun _ : Unit => fun _ => 1)
      (fun dt aux q _ v x => rowNum f2003 R rp g dx capa dt (fun i => aux fun _ => i) (fun i => q fun _ => i) (v 0) x) where
  low01 := fun _ _ => ⟨by norm_num, le_rfl⟩
  runs := by
    intro dt n aux q hn hok
    have hs := hok (fun _ => 1) (fun a => by have := hn a; omega)
    have he := supported_some hs rp (n 0) (n 0) (fun i => aux fun _ => i) (fun i => q fun _ => i)
    have h := flux1_row f2003 R rp tf g dx capa hcap hR (le_refl (n 0)) dt (fun i => aux fun _ => i) (fun i => q fun _ => i) he
    refine ⟨_, _, by unfold intFlux1; rw [he]; rfl, fun v hv => h.1 (v 0) (hv 0).1 (hv 0).2, isMax_congr (fun x => ?_) h.2⟩
    constructor
    · rintro ⟨i, i1, i2, hx⟩
      exact ⟨(), fun _ => i, fun a => by rw [Fin.fin_one_eq_zero a]; exact ⟨i1, i2⟩, hx⟩
    · rintro ⟨_, v, hv, hx⟩
      exact ⟨v 0, (hv 0).1, (hv 0).2, hx⟩
  stops := by
    intro dt n aux q v _ hno
    unfold intFlux1
    rw [not_supported hno]
    rfl
  okLocal := fun _ _ _ _ _ => Iff.rfl
  newLocal := by
    intro dt aux aux' q q' s v h
    refine rowNew_near f2003 R rp tf g dx capa hcap hR dt _ _ _ _ (s 0) (v 0) fun u h1 h2 => ?_
    have := h (fun _ => u) fun a => by rw [Fin.fin_one_eq_zero a]; exact ⟨h1, h2⟩
    rw [show (fun a : Fin 1 => u + s a) = fun _ => u + s 0 from funext fun a => by rw [Fin.fin_one_eq_zero a]] at this
    exact this
  numsLocal := by
    intro dt aux aux' q q' t s v x h
    refine rowNum_near f2003 R rp g dx capa hcap hR dt _ _ _ _ (s 0) (v 0) x fun u h1 h2 => ?_
    have := h (fun _ => u) fun a => by rw [Fin.fin_one_eq_zero a]; omega
    rw [show (fun a : Fin 1 => u + s a) = fun _ => u + s 0 from funext fun a => by rw [Fin.fin_one_eq_zero a]] at this
    exact this

/-! ### Several dimensions -/

section
variable {d : Nat} (rp : Fin d → Riemann K (Fin naux → K) m w) (tf : Fin d → TotalFluct K (Fin naux → K) m) (dx : Fin d → K)

/-- What the sweep along axis `t` adds to cell `v`. -/
def sweepNew (t : Fin d) (dt : K) (aux : (Fin d → Int) → Fin naux → K) (q : (Fin d → Int) → Fin m → K) (v : Fin d → Int) : Fin m → K :=
  rowNew f2003 R (rp t) (tf t) g (dx t) capa dt (fun i => aux (Function.update v t i)) (fun i => q (Function.update v t i)) (v t)

/-- The Courant numbers of the sweep along axis `t` at the interface before cell `v`. -/
def sweepNum (dt : K) (aux : (Fin d → Int) → Fin naux → K) (q : (Fin d → Int) → Fin m → K) (t : Fin d) (v : Fin d → Int) (x : K) : Prop :=
  rowNum f2003 R (rp t) g (dx t) capa dt (fun i => aux (Function.update v t i)) (fun i => q (Function.update v t i)) (v t) x

theorem update_add (v s : Fin d → Int) (t : Fin d) (u : Int) :
    (fun a => Function.update v t u a + s a) = Function.update (fun a => v a + s a) t (u + s t) := by
  funext a
  by_cases h : a = t
  · subst h; simp
  · simp [h]

theorem sweepNew_near (hcap : capa = none ∨ f2003 = false) (hR : R.Fits g) (t : Fin d) (dt : K)
    (aux aux' : (Fin d → Int) → Fin naux → K) (q q' : (Fin d → Int) → Fin m → K) (s v : Fin d → Int)
    (h : ∀ u : Fin d → Int, (∀ a, v a - g ≤ u a ∧ u a ≤ v a + g) → aux' u = aux (fun a => u a + s a) ∧ q' u = q fun a => u a + s a) :
    sweepNew f2003 R g capa rp tf dx t dt aux' q' v = sweepNew f2003 R g capa rp tf dx t dt aux q fun a => v a + s a := by
  unfold sweepNew
  refine rowNew_near f2003 R (rp t) (tf t) g (dx t) capa hcap hR dt _ _ _ _ (s t) (v t) fun u h1 h2 => ?_
  have := h (Function.update v t u) fun a => by
    by_cases e : a = t
    · subst e; rw [Function.update_self]; exact ⟨h1, h2⟩
    · rw [Function.update_of_ne e]; omega
  rw [update_add] at this
  exact this

theorem sweepNum_near (hcap : capa = none ∨ f2003 = false) (hR : R.Fits g) (t : Fin d) (dt : K)
    (aux aux' : (Fin d → Int) → Fin naux → K) (q q' : (Fin d → Int) → Fin m → K) (s v : Fin d → Int) (x : K)
    (h : ∀ u : Fin d → Int, (∀ a, v a - (g - 1 + (if a = t then 1 else 0)) ≤ u a ∧ u a ≤ v a + (g - 1)) →
      aux' u = aux (fun a => u a + s a) ∧ q' u = q fun a => u a + s a) :
    sweepNum f2003 R g capa rp dx dt aux' q' t v x ↔ sweepNum f2003 R g capa rp dx dt aux q t (fun a => v a + s a) x := by
  have hg : (1 : Int) ≤ g := by exact_mod_cast hR.1
  unfold sweepNum
  refine rowNum_near f2003 R (rp t) g (dx t) capa hcap hR dt _ _ _ _ (s t) (v t) x fun u h1 h2 => ?_
  have := h (Function.update v t u) fun a => by
    by_cases e : a = t
    · subst e; rw [Function.update_self, if_pos rfl]; omega
    · rw [Function.update_of_ne e, if_neg e]; omega
  rw [update_add] at this
  exact this

/-- A kernel that sweeps along all axes. -/
theorem sweeps_wide (hcap : capa = none ∨ f2003 = false) (hR : R.Fits g) (step : IntKern (Fin d) K m naux)
    (runs : R.Supported g → ∀ dt (n : Fin d → Nat) aux q, (∀ a, 0 < n a) → ∃ r cfl, step dt n aux q = some (r, cfl) ∧
      (∀ v : Fin d → Int, (∀ a, 1 ≤ v a ∧ v a ≤ n a) → r v = ∑ t, sweepNew f2003 R g capa rp tf dx t dt aux q v) ∧
      IsMaxWithZero (fun x => ∃ t, ∃ v : Fin d → Int, (∀ a, (if a = t then 1 else 0) ≤ v a ∧ v a ≤ n a + 1) ∧
        sweepNum f2003 R g capa rp dx dt aux q t v x) cfl)
    (stops : ¬ R.Supported g → ∀ dt n aux q, step dt n aux q = none) :
    WideStencil step g (fun _ _ => R.Supported g) (fun dt aux q v => ∑ t, sweepNew f2003 R g capa rp tf dx t dt aux q v)
      (fun t a => if a = t then 1 else 0) (sweepNum f2003 R g capa rp dx) where
  low01 := by intro t a; split_ifs <;> norm_num
  runs := fun dt n aux q hn hok => runs (hok (fun _ => 1) (fun a => by have := hn a; omega)) dt n aux q hn
  stops := fun dt n aux q v _ h => stops h dt n aux q
  okLocal := fun _ _ _ _ _ => Iff.rfl
  newLocal := fun dt aux aux' q q' s v h =>
    Finset.sum_congr rfl fun t _ => sweepNew_near f2003 R g capa rp tf dx hcap hR t dt aux aux' q q' s v h
  numsLocal := fun dt aux aux' q q' t s v x h => sweepNum_near f2003 R g capa rp dx hcap hR t dt aux aux' q q' s v x h

end

theorem up20 (v : Fin 2 → Int) (i : Int) : Function.update v 0 i = ![i, v 1] := by funext a; fin_cases a <;> rfl
theorem up21 (v : Fin 2 → Int) (i : Int) : Function.update v 1 i = ![v 0, i] := by funext a; fin_cases a <;> rfl
theorem up30 (v : Fin 3 → Int) (i : Int) : Function.update v 0 i = ![i, v 1, v 2] := by funext a; fin_cases a <;> rfl
theorem up31 (v : Fin 3 → Int) (i : Int) : Function.update v 1 i = ![v 0, i, v 2] := by funext a; fin_cases a <;> rfl
theorem up32 (v : Fin 3 → Int) (i : Int) : Function.update v 2 i = ![v 0, v 1, i] := by funext a; fin_cases a <;> rfl

theorem flux2_wide (hcap : capa = none ∨ f2003 = false) (hR : R.Fits g) (rpx rpy : Riemann K (Fin naux → K) m w)
    (tfx tfy : TotalFluct K (Fin naux → K) m) (dx dy : K) :
    WideStencil (ι := Fin 2) (intFlux2 f2003 R rpx rpy tfx tfy g dx dy capa) g (fun _ _ => R.Supported g)
      (fun dt aux q v => ∑ t, sweepNew f2003 R g capa ![rpx, rpy] ![tfx, tfy] ![dx, dy] t dt aux q v)
      (fun t a => if a = t then 1 else 0) (sweepNum f2003 R g capa ![rpx, rpy] ![dx, dy]) := by
  refine sweeps_wide f2003 R g capa _ _ _ hcap hR _ (fun hs dt n aux q hn => ?_) (fun hno dt n aux q => ?_)
  · have h0 := hn 0
    have h1 := hn 1
    have hx := fun j : Int => flux1_row f2003 R rpx tfx g dx capa hcap hR (le_max_left (n 0) (n 1)) dt (fun i => aux ![i, j])
      (fun i => q ![i, j]) (supported_some hs rpx (n 0) (max (n 0) (n 1)) (fun i => aux ![i, j]) (fun i => q ![i, j]))
    have hy := fun i : Int => flux1_row f2003 R rpy tfy g dy capa hcap hR (le_max_right (n 0) (n 1)) dt (fun j => aux ![i, j])
      (fun j => q ![i, j]) (supported_some hs rpy (n 1) (max (n 0) (n 1)) (fun j => aux ![i, j]) (fun j => q ![i, j]))
    refine ⟨_, _, by unfold intFlux2; dsimp only; rw [supported_some hs]; rfl, fun v hv => ?_, ?_⟩
    · have v0 := hv 0
      have v1 := hv 1
      unfold flux2 flux2Dq
      rw [if_pos (by omega), if_pos (by omega), Fin.sum_univ_two]
      simp only [sweepNew, up20, up21]
      exact congrArg₂ (· + ·) ((hx (v 1)).1 (v 0) v0.1 v0.2) ((hy (v 0)).1 (v 1) v1.1 v1.2)
    · unfold flux2Cfl
      refine isMax_congr (fun x => ?_) (isMax_foldl _ _ (List.range (n 0 + 2)) (fun i _ => (hy (i : Nat)).2) _ _
        (isMax_rows _ _ (List.range (n 1 + 2)) (fun j _ => (hx (j : Nat)).2)))
      simp only [List.mem_range, Fin.exists_fin_two, Fin.forall_fin_two, sweepNum, up20, up21]
      refine or_congr ⟨?_, ?_⟩ ⟨?_, ?_⟩
      · rintro ⟨j, hj, i, i1, i2, h⟩
        refine ⟨![i, (j : Int)], ⟨⟨?_, ?_⟩, ?_, ?_⟩, h⟩ <;> simp <;> omega
      · rintro ⟨v, hv, h⟩
        simp at hv
        refine ⟨(v 1).toNat, by omega, v 0, hv.1.1, hv.1.2, ?_⟩
        rw [Int.toNat_of_nonneg (by omega)]
        exact h
      · rintro ⟨i, hi, j, j1, j2, h⟩
        refine ⟨![(i : Int), j], ⟨⟨?_, ?_⟩, ?_, ?_⟩, h⟩ <;> simp <;> omega
      · rintro ⟨v, hv, h⟩
        simp at hv
        refine ⟨(v 0).toNat, by omega, v 1, hv.2.1, hv.2.2, ?_⟩
        rw [Int.toNat_of_nonneg (by omega)]
        exact h
  · unfold intFlux2
    dsimp only
    rw [not_supported hno]
    rfl

theorem isMax_foldl2 {α β : Type*} (e : α → β → K) (T : α → β → K → Prop) (l' : List β) (l : List α)
    (h : ∀ a ∈ l, ∀ b ∈ l', IsMaxWithZero (T a b) (e a b)) : ∀ (S : K → Prop) (x : K), IsMaxWithZero S x →
      IsMaxWithZero (fun v => S v ∨ ∃ a ∈ l, ∃ b ∈ l', T a b v)
        (l.foldl (fun x a => l'.foldl (fun x b => max x (e a b)) x) x) := by
  induction l with
  | nil =>
    intro S x hx
    exact isMax_congr (fun v => by simp) hx
  | cons a l ih =>
    intro S x hx
    rw [List.foldl_cons]
    have h1 := isMax_foldl (e a) (T a) l' (h a (by simp)) S x hx
    refine isMax_congr (fun v => ?_) (ih (fun a' ha' => h a' (by simp [ha'])) _ _ h1)
    simp only [List.mem_cons, exists_eq_or_imp, or_assoc]

theorem flux3_wide (hcap : capa = none ∨ f2003 = false) (hR : R.Fits g) (rpx rpy rpz : Riemann K (Fin naux → K) m w)
    (tfx tfy tfz : TotalFluct K (Fin naux → K) m) (dx dy dz : K) :
    WideStencil (ι := Fin 3) (intFlux3 f2003 R rpx rpy rpz tfx tfy tfz g dx dy dz capa) g (fun _ _ => R.Supported g)
      (fun dt aux q v => ∑ t, sweepNew f2003 R g capa ![rpx, rpy, rpz] ![tfx, tfy, tfz] ![dx, dy, dz] t dt aux q v)
      (fun t a => if a = t then 1 else 0) (sweepNum f2003 R g capa ![rpx, rpy, rpz] ![dx, dy, dz]) := by
  refine sweeps_wide f2003 R g capa _ _ _ hcap hR _ (fun hs dt n aux q hn => ?_) (fun hno dt n aux q => ?_)
  · have h0 := hn 0
    have h1 := hn 1
    have h2 := hn 2
    have hx := fun j k : Int => flux1_row f2003 R rpx tfx g dx capa hcap hR ((le_max_left (n 0) (n 1)).trans (le_max_left _ (n 2))) dt
      (fun i => aux ![i, j, k]) (fun i => q ![i, j, k])
      (supported_some hs rpx (n 0) (max (max (n 0) (n 1)) (n 2)) (fun i => aux ![i, j, k]) (fun i => q ![i, j, k]))
    have hy := fun i k : Int => flux1_row f2003 R rpy tfy g dy capa hcap hR ((le_max_right (n 0) (n 1)).trans (le_max_left _ (n 2))) dt
      (fun j => aux ![i, j, k]) (fun j => q ![i, j, k])
      (supported_some hs rpy (n 1) (max (max (n 0) (n 1)) (n 2)) (fun j => aux ![i, j, k]) (fun j => q ![i, j, k]))
    have hz := fun i j : Int => flux1_row f2003 R rpz tfz g dz capa hcap hR (le_max_right (max (n 0) (n 1)) (n 2)) dt
      (fun k => aux ![i, j, k]) (fun k => q ![i, j, k])
      (supported_some hs rpz (n 2) (max (max (n 0) (n 1)) (n 2)) (fun k => aux ![i, j, k]) (fun k => q ![i, j, k]))
    refine ⟨_, _, by unfold intFlux3; dsimp only; rw [supported_some hs]; rfl, fun v hv => ?_, ?_⟩
    · have v0 := hv 0
      have v1 := hv 1
      have v2 := hv 2
      unfold flux3 flux3Dq
      rw [if_pos (by omega), if_pos (by omega), if_pos (by omega), Fin.sum_univ_three]
      simp only [sweepNew, up30, up31, up32]
      exact congrArg₂ (· + ·) (congrArg₂ (· + ·) ((hx (v 1) (v 2)).1 (v 0) v0.1 v0.2) ((hy (v 0) (v 2)).1 (v 1) v1.1 v1.2))
        ((hz (v 0) (v 1)).1 (v 2) v2.1 v2.2)
    · unfold flux3Cfl
      have m1 := isMax_foldl2 _ _ (List.range (n 2 + 2)) (List.range (n 1 + 2)) (fun j _ k _ => (hx (j : Nat) (k : Nat)).2) _ _ isMax_zero
      have m2 := isMax_foldl2 _ _ (List.range (n 2 + 2)) (List.range (n 0 + 2)) (fun i _ k _ => (hy (i : Nat) (k : Nat)).2) _ _ m1
      have m3 := isMax_foldl2 _ _ (List.range (n 1 + 2)) (List.range (n 0 + 2)) (fun i _ j _ => (hz (i : Nat) (j : Nat)).2) _ _ m2
      clear m1 m2
      refine isMax_congr (fun x => ?_) m3
      clear m3
      simp only [List.mem_range, false_or]
      constructor
      · rintro ((⟨j, hj, k, hk, i, i1, i2, h⟩ | ⟨i, hi, k, hk, j, j1, j2, h⟩) | ⟨i, hi, j, hj, k, k1, k2, h⟩)
        · refine ⟨0, ![i, (j : Int), (k : Int)], fun a => ?_, by simp only [sweepNum, up30]; exact h⟩
          fin_cases a <;> simp <;> omega
        · refine ⟨1, ![(i : Int), j, (k : Int)], fun a => ?_, by simp only [sweepNum, up31]; exact h⟩
          fin_cases a <;> simp <;> omega
        · refine ⟨2, ![(i : Int), (j : Int), k], fun a => ?_, by simp only [sweepNum, up32]; exact h⟩
          fin_cases a <;> simp <;> omega
      · rintro ⟨t, v, hv, h⟩
        have v0 := hv 0
        have v1 := hv 1
        have v2 := hv 2
        have ht : t = 0 ∨ t = 1 ∨ t = 2 := by fin_cases t <;> simp
        rcases ht with rfl | rfl | rfl
        · simp at v0 v1 v2
          simp only [sweepNum, up30] at h
          refine Or.inl (Or.inl ⟨(v 1).toNat, by omega, (v 2).toNat, by omega, v 0, v0.1, v0.2, ?_⟩)
          rw [Int.toNat_of_nonneg (by omega), Int.toNat_of_nonneg (by omega)]
          exact h
        · simp at v0 v1 v2
          simp only [sweepNum, up31] at h
          refine Or.inl (Or.inr ⟨(v 0).toNat, by omega, (v 2).toNat, by omega, v 1, v1.1, v1.2, ?_⟩)
          rw [Int.toNat_of_nonneg (by omega), Int.toNat_of_nonneg (by omega)]
          exact h
        · simp at v0 v1 v2
          simp only [sweepNum, up32] at h
          refine Or.inr ⟨(v 0).toNat, by omega, (v 1).toNat, by omega, v 2, v2.1, v2.2, ?_⟩
          rw [Int.toNat_of_nonneg (by omega), Int.toNat_of_nonneg (by omega)]
          exact h
  · unfold intFlux3
    dsimp only
    rw [not_supported hno]
    rfl

end PyClaw
