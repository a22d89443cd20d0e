import Verif.Spec.Classic1
import Mathlib.Algebra.Order.Field.Basic
import Mathlib.Algebra.Order.BigOperators.Group.Finset
import Mathlib.Algebra.Order.Group.Unbundled.Abs
import Mathlib.Tactic.Linarith
import Mathlib.Tactic.Ring
import Mathlib.Tactic.Abel
set_option linter.unusedSectionVars false

/-!
Both 1D kernels compute `Spec.waveProp` on the interior cells.
-/
namespace PyClaw
open Spec

variable {K : Type*} [Field K] [LinearOrder K] [IsStrictOrderedRing K] {m w : Nat}

theorem wdot_comm (u v : Fin m → K) : wdot u v = wdot v u := by
  unfold wdot; exact Finset.sum_congr rfl fun _ _ => mul_comm _ _

theorem wdot_smul_left (a : K) (u v : Fin m → K) : wdot (a • u) v = a * wdot u v := by
  unfold wdot; rw [Finset.mul_sum]; exact Finset.sum_congr rfl fun _ _ => by simp [mul_assoc]

theorem wdot_self_eq_zero (u : Fin m → K) : wdot u u = 0 ↔ u = 0 := by
  unfold wdot
  rw [Finset.sum_eq_zero_iff_of_nonneg (fun _ _ => mul_self_nonneg _)]
  constructor
  · intro h; funext j; exact mul_self_eq_zero.mp (h j (Finset.mem_univ _))
  · rintro rfl; simp

/-- The limiter functions the Python kernel applies: 1 where no limiting takes place. -/
def pyPhi (tab : Int → Option (LimFun K)) (M : Nat) (limiter : Fin w → Int) (dtdx : Int → K)
    (s : Int → Fin w → K) (wave : Waves K m w) (p : Fin w) : K → K → K :=
  if ∃ p, 0 < limiter p then
    match tab (limiter p) with
    | none => fun _ _ => 1
    | some f => f ((inner M).map fun j => (limRatio wave s j p, limCfl s dtdx j p))
  else fun _ _ => 1

theorem foldl_add_sum {V : Type*} [AddCommMonoid V] {α : Type*} (l : List α) (f : α → V) (z : V) :
    l.foldl (fun a x => a + f x) z = z + (l.map f).sum := by
  induction l generalizing z with
  | nil => simp
  | cons x xs ih => simp [ih, add_assoc]

theorem finRange_sum {V : Type*} [AddCommMonoid V] (f : Fin w → V) :
    ((List.finRange w).map f).sum = ∑ p, f p := by
  rw [← List.ofFn_eq_map, List.sum_ofFn]

/-- The ratio used by the Python kernel is the specification's. -/
theorem limRatio_eq (d : Int → Rp K m w) (i : Int) (p : Fin w)
    (h : wdot ((d i).wave p) ((d i).wave p) ≠ 0) :
    limRatio (fun i => (d i).wave) (fun i => (d i).s) i p =
      wdot (if 0 < (d i).s p then (d (i - 1)).wave p else (d (i + 1)).wave p) ((d i).wave p) /
        wdot ((d i).wave p) ((d i).wave p) := by
  unfold limRatio spos
  rw [if_neg h]
  by_cases hs : 0 < (d i).s p
  · simp [hs, wdot_comm]
  · simp [hs]

theorem limCfl_eq (d : Int → Rp K m w) (lam : Int → K) (i : Int) (p : Fin w) :
    limCfl (fun i => (d i).s) lam i p =
      |(d i).s p * (if 0 < (d i).s p then lam i else lam (i + 1))| := by
  unfold limCfl spos
  by_cases hs : 0 < (d i).s p <;> simp [hs]

/-- The waves used by the Python kernel, in the specification's numbering of interfaces. -/
theorem pyLimit_eq (tab : Int → Option (LimFun K)) (M : Nat) (limiter : Fin w → Int) (lam : Int → K)
    (d : Int → Rp K m w) (i : Int) (h1 : 1 ≤ i) (h2 : i ≤ (M : Int) - 2) (p : Fin w) :
    (if ∃ p, 0 < limiter p then pyLimit tab M limiter lam (fun i => (d i).s) (fun i => (d i).wave)
      else fun i => (d i).wave) i p =
    limitedWave (pyPhi tab M limiter lam (fun i => (d i).s) (fun i => (d i).wave)) lam
      (fun i => d (i - 1)) (i + 1) p := by
  unfold limitedWave pyPhi
  simp only [add_sub_cancel_right]
  by_cases hany : ∃ p, 0 < limiter p
  · simp only [hany, if_true]
    unfold pyLimit
    rw [if_pos ⟨h1, h2⟩]
    cases htab : tab (limiter p) with
    | none =>
      simp only [one_smul, ite_self]
    | some f =>
      by_cases hw : wdot ((d i).wave p) ((d i).wave p) = 0
      · simp only [hw, if_true]
        funext c; ring
      · simp only [hw, if_false, limRatio_eq d i p hw, limCfl_eq]
        funext c
        simp
  · simp only [hany, if_false, one_smul, ite_self]

theorem pyCorrection_eq (LL UL : Int) (fwave : Bool) (lam : Int → K) (d : Int → Rp K m w)
    (wave : Waves K m w) (i : Int) (h1 : LL ≤ i) (h2 : i < UL) :
    pyCorrection LL UL fwave lam d wave i =
      correctionFlux (if fwave then npSign else abs) lam (fun i => d (i - 1)) (fun i => wave (i - 1)) i := by
  unfold pyCorrection correctionFlux
  have key : ∀ (l : List (Fin w)) (f : Int → Fin m → K),
      (l.foldl (fun f mw => fun i =>
        if LL ≤ i ∧ i < UL then
          let dtdxave := 1 / 2 * (lam (i - 1) + lam i)
          let s := (d (i - 1)).s mw
          let om := 1 - |s| * dtdxave
          if fwave then f i + (1 / 2 * npSign s * om) • wave (i - 1) mw
          else f i + (1 / 2 * |s| * om) • wave (i - 1) mw
        else f i) f) i =
      f i + (l.map fun p => (1 / 2 * (if fwave then npSign else abs) ((d (i - 1)).s p) *
        (1 - |(d (i - 1)).s p| * (1 / 2 * (lam (i - 1) + lam i)))) • wave (i - 1) p).sum := by
    intro l
    induction l with
    | nil => intro f; simp
    | cons p l ih =>
      intro f
      rw [List.foldl_cons, ih, List.map_cons, List.sum_cons, ← add_assoc]
      congr 1
      rw [if_pos ⟨h1, h2⟩]
      cases fwave <;> simp
  rw [key, finRange_sum]
  simp

theorem fCorrection_eq (mx : Int) (fwave : Bool) (lam : Int → K) (d : Int → Rp K m w)
    (wave : Waves K m w) (i : Int) (h1 : 1 ≤ i) (h2 : i ≤ mx + 1) :
    fCorrection mx fwave lam d wave i =
      correctionFlux (if fwave then dsign1 else abs) lam d wave i := by
  unfold fCorrection correctionFlux
  rw [if_pos ⟨h1, h2⟩, ← finRange_sum]
  cases fwave
  · simp only [Bool.false_eq_true, if_false]
    rw [foldl_add_sum, zero_add]
  · simp only [if_true]
    rw [foldl_add_sum, zero_add]

theorem pyGodunov_eq (LL UL : Int) (lam : Int → K) (d : Int → Rp K m w) (q : Int → Fin m → K) (i : Int)
    (h1 : LL ≤ i) (h2 : i < UL - 1) :
    pyGodunov LL UL lam d q i = q i - lam i • ((d (i - 1)).apdq + (d i).amdq) := by
  unfold pyGodunov
  simp only
  rw [if_pos ⟨by omega, h2⟩, if_pos ⟨h1, by omega⟩, smul_add]
  abel

theorem fGodunov_eq (mx : Int) (lam : Int → K) (d : Int → Rp K m w) (q : Int → Fin m → K) (i : Int)
    (h1 : 1 ≤ i) (h2 : i ≤ mx) :
    fGodunov mx lam d q i = q i - lam i • ((d i).apdq + (d (i + 1)).amdq) := by
  unfold fGodunov
  simp only
  rw [if_pos ⟨by omega, by omega⟩, if_pos ⟨h1, by omega⟩, smul_add]
  abel

/-- The correction fluxes the Python kernel uses; none for order other than 2. -/
def pyFlux (tab : Int → Option (LimFun K)) (c : Cfg1 K w) (lam : Int → K) (d : Int → Rp K m w) :
    Int → Fin m → K :=
  if c.order = 2 then
    correctionFlux (if c.fwave then npSign else abs) lam (fun i => d (i - 1))
      (limitedWave (pyPhi tab (c.n + 2 * c.g - 1) c.limiter lam (fun i => (d i).s) (fun i => (d i).wave))
        lam (fun i => d (i - 1)))
  else fun _ => 0

theorem correctionFlux_congr (a : K → K) (lam : Int → K) (d : Int → Rp K m w)
    (W W' : Int → Fin w → Fin m → K) (i : Int) (h : ∀ p, W i p = W' i p) :
    correctionFlux a lam d W i = correctionFlux a lam d W' i := by
  unfold correctionFlux
  exact Finset.sum_congr rfl fun p _ => by rw [h p]

/-- The Python kernel computes the wave propagation formula on every interior cell. -/
theorem pyKernel_interior (tab : Int → Option (LimFun K)) (c : Cfg1 K w) (capa : Option (Int → K))
    (d : Int → Rp K m w) (q : Int → Fin m → K) (hg : 2 ≤ c.g) (i : Int) (h1 : (c.g : Int) ≤ i)
    (h2 : i < c.g + c.n) :
    (pyKernel tab c capa d q).1 i =
      waveProp (dtdxOf c capa) (fun i => d (i - 1)) (pyFlux tab c (dtdxOf c capa) d) q i := by
  unfold pyKernel waveProp pyFlux
  by_cases ho : c.order = 2
  · simp only [ho, if_true]
    rw [if_pos ⟨by omega, by omega⟩, pyGodunov_eq _ _ _ _ _ _ (by omega) (by omega),
      pyCorrection_eq _ _ _ _ _ _ _ (by omega) (by omega),
      pyCorrection_eq _ _ _ _ _ _ _ (by omega) (by omega), add_sub_cancel_right]
    congr 2
    congr 1
    · apply correctionFlux_congr
      intro p
      have := pyLimit_eq tab (c.n + 2 * c.g - 1) c.limiter (dtdxOf c capa) d i (by omega)
        (by omega) p
      rw [← this]
      simp
    · apply correctionFlux_congr
      intro p
      have := pyLimit_eq tab (c.n + 2 * c.g - 1) c.limiter (dtdxOf c capa) d (i - 1) (by omega)
        (by omega) p
      rw [sub_add_cancel] at this
      rw [← this]
  · simp only [ho, if_false]
    rw [pyGodunov_eq _ _ _ _ _ _ (by omega) (by omega), add_sub_cancel_right]
    simp

/-! ### The Fortran limiter loop -/

/-- What the loop does to the wave at interface `i`. -/
def fLimited (undef : K) (meth : Int) (s : Int → Fin w → K) (wave : Waves K m w) (i : Int) (p : Fin w) :
    Fin m → K :=
  if wdot (wave i p) (wave i p) = 0 then wave i p
  else (if 0 < s i p then philim undef (wdot (wave i p) (wave i p)) (wdot (wave (i - 1) p) (wave i p)) meth
    else philim undef (wdot (wave i p) (wave i p)) (wdot (wave i p) (wave (i + 1) p)) meth) • wave i p

theorem fLimiter_inner (undef : K) (meth : Int) (s : Int → Fin w → K) (p : Fin w) (wave : Waves K m w)
    (k : Nat) :
    let st := (List.range k).foldl (fun st (k : Nat) => fLimiterStep undef meth s p st (k : Int)) (0, wave)
    (0 < k → st.1 = wdot (wave ((k : Int) - 1) p) (wave k p)) ∧
    ∀ i p', st.2 i p' = if p' = p ∧ 1 ≤ i ∧ i < k then fLimited undef meth s wave i p else wave i p' := by
  induction k with
  | zero =>
    refine ⟨fun h => absurd h (lt_irrefl _), fun i p' => ?_⟩
    rw [if_neg (by push_cast; omega)]
    rfl
  | succ k ih =>
    rw [List.range_succ, List.foldl_append]
    obtain ⟨ih1, ih2⟩ := ih
    generalize hst : (List.range k).foldl
      (fun st (k : Nat) => fLimiterStep undef meth s p st (k : Int)) (0, wave) = st at ih1 ih2 ⊢
    simp only [List.foldl_cons, List.foldl_nil]
    have e1 : st.2 k p = wave k p := by rw [ih2, if_neg (by omega)]
    have e2 : st.2 (k + 1) p = wave (k + 1) p := by rw [ih2, if_neg (by omega)]
    unfold fLimiterStep
    simp only [e1, e2]
    by_cases hk : (k : Int) = 0
    · rw [if_pos hk]
      refine ⟨fun _ => by push_cast; rw [add_sub_cancel_right], fun i p' => ?_⟩
      simp only
      rw [ih2, if_neg (by omega), if_neg (by push_cast; omega)]
    · rw [if_neg hk]
      by_cases hz : wdot (wave k p) (wave k p) = 0
      · rw [if_pos hz]
        refine ⟨fun _ => by push_cast; rw [add_sub_cancel_right], fun i p' => ?_⟩
        simp only
        rw [ih2]
        by_cases hp : p' = p ∧ i = k
        · obtain ⟨rfl, rfl⟩ := hp
          rw [if_neg (by omega), if_pos ⟨rfl, by omega, by push_cast; omega⟩, fLimited, if_pos hz]
        · by_cases hc : p' = p ∧ 1 ≤ i ∧ i < k
          · rw [if_pos hc, if_pos ⟨hc.1, hc.2.1, by push_cast; omega⟩]
          · rw [if_neg hc, if_neg]
            rintro ⟨rfl, h2, h3⟩
            push_cast at h3
            by_cases hik : i = k
            · exact hp ⟨rfl, hik⟩
            · exact hc ⟨rfl, h2, by omega⟩
      · rw [if_neg hz]
        refine ⟨fun _ => by push_cast; rw [add_sub_cancel_right], fun i p' => ?_⟩
        simp only
        rw [ih1 (by omega)]
        by_cases hp : i = k ∧ p' = p
        · have hp2 : p' = p ∧ 1 ≤ i ∧ i < ((k + 1 : Nat) : Int) := ⟨hp.2, by omega, by push_cast; omega⟩
          rw [if_pos hp, if_pos hp2]
          obtain ⟨rfl, rfl⟩ := hp
          rw [fLimited, if_neg hz]
          rfl
        · rw [if_neg hp, ih2]
          by_cases hc : p' = p ∧ 1 ≤ i ∧ i < k
          · rw [if_pos hc, if_pos ⟨hc.1, hc.2.1, by push_cast; omega⟩]
          · rw [if_neg hc, if_neg]
            rintro ⟨rfl, h2, h3⟩
            push_cast at h3
            by_cases hik : i = k
            · exact hp ⟨hik, rfl⟩
            · exact hc ⟨rfl, h2, by omega⟩

theorem fLimited_congr (undef : K) (meth : Int) (s : Int → Fin w → K) (wave wave' : Waves K m w)
    (p : Fin w) (h : ∀ i, wave i p = wave' i p) (i : Int) :
    fLimited undef meth s wave i p = fLimited undef meth s wave' i p := by
  unfold fLimited; rw [h, h, h]

theorem fLimiter_eq (undef : K) (mx : Nat) (mthlim : Fin w → Int) (s : Int → Fin w → K)
    (wave : Waves K m w) (i : Int) (p : Fin w) (h1 : 1 ≤ i) (h2 : i ≤ (mx : Int) + 1) :
    fLimiter undef mx mthlim s wave i p =
      if mthlim p = 0 then wave i p else fLimited undef (mthlim p) s wave i p := by
  unfold fLimiter
  have key : ∀ (l : List (Fin w)), l.Nodup → ∀ (v : Waves K m w),
      (l.foldl (fun wave p =>
        if mthlim p = 0 then wave
        else ((List.range (mx + 2)).foldl
          (fun st (k : Nat) => fLimiterStep undef (mthlim p) s p st (k : Int)) (0, wave)).2) v) i p =
      if p ∈ l then (if mthlim p = 0 then v i p else fLimited undef (mthlim p) s v i p) else v i p := by
    intro l
    induction l with
    | nil => intro _ v; simp
    | cons a l ih =>
      intro hnd v
      rw [List.nodup_cons] at hnd
      rw [List.foldl_cons, ih hnd.2]
      by_cases hpa : p = a
      · subst hpa
        rw [if_neg hnd.1, if_pos List.mem_cons_self]
        by_cases h0 : mthlim p = 0
        · rw [if_pos h0, if_pos h0]
        · rw [if_neg h0, if_neg h0, (fLimiter_inner undef (mthlim p) s p v (mx + 2)).2 i p,
            if_pos ⟨rfl, h1, by push_cast; omega⟩]
      · have hv : ∀ j, (if mthlim a = 0 then v
            else ((List.range (mx + 2)).foldl
              (fun st (k : Nat) => fLimiterStep undef (mthlim a) s a st (k : Int)) (0, v)).2) j p = v j p := by
          intro j
          by_cases h0 : mthlim a = 0
          · rw [if_pos h0]
          · rw [if_neg h0, (fLimiter_inner undef (mthlim a) s a v (mx + 2)).2 j p,
              if_neg (fun h => hpa h.1)]
        rw [hv, fLimited_congr undef (mthlim p) s _ v p hv]
        simp [hpa]
  rw [key _ (List.nodup_finRange w)]
  simp

/-- The limiter functions the Fortran kernel applies. -/
def fPhi (undef : K) (limiter : Fin w → Int) (p : Fin w) : K → K → K :=
  if (∃ p, 0 < limiter p) ∧ limiter p ≠ 0 then fun r _ => philim undef 1 r (limiter p)
  else fun _ _ => 1

theorem philim_div (undef a b : K) (meth : Int) : philim undef a b meth = philim undef 1 (b / a) meth := by
  unfold philim; simp

theorem fLimited_eq (undef : K) (mx : Nat) (limiter : Fin w → Int) (lam : Int → K) (d : Int → Rp K m w)
    (i : Int) (p : Fin w) (h1 : 1 ≤ i) (h2 : i ≤ (mx : Int) + 1) :
    (if ∃ p, 0 < limiter p then fLimiter undef mx limiter (fun i => (d i).s) (fun i => (d i).wave)
      else fun i => (d i).wave) i p = limitedWave (fPhi undef limiter) lam d i p := by
  unfold limitedWave fPhi
  by_cases hany : ∃ p, 0 < limiter p
  · simp only [hany, if_true, true_and]
    rw [fLimiter_eq _ _ _ _ _ _ _ h1 h2]
    by_cases h0 : limiter p = 0
    · simp [h0]
    · simp only [h0, if_false, ne_eq, not_false_iff, if_true]
      unfold fLimited
      by_cases hz : wdot ((d i).wave p) ((d i).wave p) = 0
      · rw [if_pos hz, if_pos hz]
      · rw [if_neg hz, if_neg hz]
        by_cases hs : 0 < (d i).s p
        · simp only [hs, if_true]; rw [philim_div]
        · simp only [hs, if_false]; rw [philim_div, wdot_comm]
  · simp only [hany, if_false, false_and, one_smul, ite_self]

/-- The correction fluxes the Fortran kernel uses; none for order 1. -/
def fFlux (undef : K) (c : Cfg1 K w) (lam : Int → K) (d : Int → Rp K m w) : Int → Fin m → K :=
  if c.order = 1 then fun _ => 0
  else correctionFlux (if c.fwave then dsign1 else abs) lam d (limitedWave (fPhi undef c.limiter) lam d)

/-- The Fortran kernel computes the wave propagation formula on every interior cell. -/
theorem fKernel_interior (undef : K) (c : Cfg1 K w) (capa : Option (Int → K))
    (d : Int → Rp K m w) (q : Int → Fin m → K) (hc : capaOk c capa) :
    ∃ q' cfl, fKernel undef c capa d q = some (q', cfl) ∧ cfl = fCfl c.n (dtdxOf c capa) d ∧
      ∀ i : Int, 1 ≤ i → i ≤ c.n →
        q' i = waveProp (dtdxOf c capa) d (fFlux undef c (dtdxOf c capa) d) q i := by
  unfold fKernel waveProp fFlux
  rw [if_pos hc]
  by_cases ho : c.order = 1
  · simp only [ho, if_true]
    refine ⟨_, _, rfl, rfl, fun i h1 h2 => ?_⟩
    rw [fGodunov_eq _ _ _ _ _ h1 h2]
    simp
  · simp only [ho, if_false]
    refine ⟨_, _, rfl, rfl, fun i h1 h2 => ?_⟩
    rw [if_pos ⟨h1, by omega⟩, fGodunov_eq _ _ _ _ _ h1 h2, fCorrection_eq _ _ _ _ _ _ (by omega) (by omega),
      fCorrection_eq _ _ _ _ _ _ (by omega) (by omega)]
    congr 2
    congr 1 <;>
    · apply correctionFlux_congr
      intro p
      exact fLimited_eq undef c.n c.limiter (dtdxOf c capa) d _ p (by omega) (by omega)

end PyClaw
