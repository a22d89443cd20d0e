import Verif.Lemmas.ParallelKernels
import Verif.Props.Parallel
import Verif.Props.Unsplit3

set_option linter.unusedSectionVars false

/-!
C64 for the kernels of the code: which of them are local.
-/
namespace PyClaw
open Spec

variable {K A : Type*} [Field K] [LinearOrder K] [IsStrictOrderedRing K] {m w naux : Nat}

/-! ### Formulas on shifted arrays -/

theorem interfaces_shift (rp : Riemann K A m w) (aux : Int → A) (q : Int → Fin m → K) (s : Int) :
    interfaces rp (fun i => aux (i + s)) (fun i => q (i + s)) = fun i => interfaces rp aux q (i + s) := by
  funext i
  simp only [interfaces, sub_add_eq_add_sub]

theorem localRatio_shift (dt dx : K) (capa : Option (A → K)) (aux : Int → A) (s : Int) :
    localRatio dt dx capa (fun i => aux (i + s)) = fun i => localRatio dt dx capa aux (i + s) := rfl

theorem sliceFlux_shift (undef : K) (order : Int) (fwave : Bool) (lim : Fin w → Int) (lam : Int → K) (d : Int → Rp K m w) (s : Int) :
    sliceFlux undef order fwave lim (fun i => lam (i + s)) (fun i => d (i + s)) = fun i => sliceFlux undef order fwave lim lam d (i + s) := by
  funext i
  have e : i + 1 + s = i + s + 1 := by ring
  unfold sliceFlux
  split
  · rfl
  · simp only [correctionFlux, limitedWave, sub_add_eq_add_sub, e]

theorem rowStep_shift (undef : K) (rp : Riemann K A m w) (c : Cfg1 K w) (capa : Option (A → K)) (aux : Int → A)
    (q : Int → Fin m → K) (s i : Int) :
    rowStep undef rp c capa (fun i => aux (i + s)) (fun i => q (i + s)) i = rowStep undef rp c capa aux q (i + s) := by
  have e : i + 1 + s = i + s + 1 := by ring
  unfold rowStep
  rw [interfaces_shift, localRatio_shift, sliceFlux_shift]
  simp only [waveProp, e]

/-- The Courant numbers of the waves at interface `i` before the choice of the direction of motion. -/
def WaveNumber (lam : Int → K) (d : Int → Rp K m w) (i : Int) (v : K) : Prop :=
  ∃ p, v = lam i * (d i).s p ∨ v = -lam (i - 1) * (d i).s p

theorem fCfl_isMax (n : Nat) (lam : Int → K) (d : Int → Rp K m w) :
    IsMaxWithZero (fun v => ∃ i : Int, 1 ≤ i ∧ i ≤ n + 1 ∧ WaveNumber lam d i v) (fCfl n lam d) := by
  have inner : ∀ (mw : Fin w) (z : K),
      let F := (irange 1 ((n : Int) + 2)).foldl (fun (cfl : K) (i : Int) =>
        max (max cfl (lam i * (d i).s mw)) (-lam (i - 1) * (d i).s mw)) z
      z ≤ F ∧ (∀ v ∈ (irange 1 ((n : Int) + 2)).flatMap (fun i => [lam i * (d i).s mw, -lam (i - 1) * (d i).s mw]), v ≤ F) ∧
      (F = z ∨ F ∈ (irange 1 ((n : Int) + 2)).flatMap (fun i => [lam i * (d i).s mw, -lam (i - 1) * (d i).s mw])) := by
    intro mw z
    obtain ⟨h1, h2, h3⟩ := foldl_max_spec
      (fun (cfl : K) (i : Int) => max (max cfl (lam i * (d i).s mw)) (-lam (i - 1) * (d i).s mw))
      (fun i => [lam i * (d i).s mw, -lam (i - 1) * (d i).s mw]) (by
        intro z a
        refine ⟨(le_max_left _ _).trans (le_max_left _ _), ?_, ?_⟩
        · intro v hv
          simp only [List.mem_cons, List.not_mem_nil, or_false] at hv
          rcases hv with rfl | rfl
          · exact (le_max_right _ _).trans (le_max_left _ _)
          · exact le_max_right _ _
        · rcases max_choice (max z (lam a * (d a).s mw)) (-lam (a - 1) * (d a).s mw) with e | e
          · rcases max_choice z (lam a * (d a).s mw) with e' | e'
            · left; rw [e, e']
            · right; rw [e, e']; simp
          · right; rw [e]; simp) (irange 1 ((n : Int) + 2)) z
    refine ⟨h1, fun v hv => ?_, ?_⟩
    · obtain ⟨i, hi, hv⟩ := List.mem_flatMap.mp hv
      exact h2 i hi v hv
    · rcases h3 with h | ⟨i, hi, h⟩
      · exact Or.inl h
      · exact Or.inr (List.mem_flatMap.mpr ⟨i, hi, h⟩)
  obtain ⟨h1, h2, h3⟩ := foldl_max_spec _ _ (fun z mw => inner mw z) (List.finRange w) 0
  refine ⟨h1, ?_, ?_⟩
  · rintro v ⟨i, i1, i2, p, hv⟩
    refine h2 p (List.mem_finRange p) v (List.mem_flatMap.mpr ⟨i, (mem_irange _ _ _).mpr ⟨i1, by omega⟩, ?_⟩)
    simpa using hv
  · rcases h3 with h | ⟨p, _, h⟩
    · exact Or.inl h
    · obtain ⟨i, hi, hv⟩ := List.mem_flatMap.mp h
      have hi := (mem_irange _ _ _).mp hi
      exact Or.inr ⟨i, hi.1, by omega, p, by
        simp only [List.mem_cons, List.not_mem_nil, or_false] at hv
        exact hv⟩

theorem waveNumber_congr (rp : Riemann K A m w) (dt dx : K) (capa : Option (A → K)) (aux aux' : Int → A) (q q' : Int → Fin m → K)
    (s i : Int) (v : K) (h0 : aux' i = aux (i + s)) (h1 : aux' (i - 1) = aux (i - 1 + s)) (h2 : q' i = q (i + s))
    (h3 : q' (i - 1) = q (i - 1 + s)) :
    WaveNumber (localRatio dt dx capa aux') (interfaces rp aux' q') i v ↔
      WaveNumber (localRatio dt dx capa aux) (interfaces rp aux q) (i + s) v := by
  have e : i + s - 1 = i - 1 + s := by ring
  unfold WaveNumber interfaces localRatio
  simp only [h0, h1, h2, h3, e]

/-! ### One dimension -/

theorem fortran1_stencil (undef : K) (rp : Riemann K (Fin naux → K) m w) (c : Cfg1 K w)
    (capa : Option ((Fin naux → K) → K)) : HasStencil (intStep1 undef rp c capa) c.g := by
  refine ⟨Unit, fun aux v => ∀ κ, capa = some κ → 0 < κ (aux v),
    fun dt aux q v => rowStep undef rp { c with dt := dt } capa (fun i => aux fun _ => i) (fun i => q fun _ => i) (v 0),
    fun _ _ => 1,
    fun dt aux q _ v x => WaveNumber (localRatio dt c.dx capa fun i => aux fun _ => i)
      (interfaces rp (fun i => aux fun _ => i) (fun i => q fun _ => i)) (v 0) x, ?_⟩
  have hv : ∀ v : Fin 1 → Int, (fun _ => v 0) = v := fun v => funext fun a => by rw [Subsingleton.elim a 0]
  refine ⟨fun _ _ => by omega, ?_, ?_, ?_, ?_, ?_⟩
  · intro dt n aux q _ hok
    obtain ⟨q', cfl, h1, h2, h3⟩ := fStep1_interior undef rp { c with n := n 0, dt := dt } capa (fun i => aux fun _ => i)
      (fun i => q fun _ => i) (fun κ hκ i i1 i2 => hok (fun _ => i) (fun a => by
        rw [Subsingleton.elim a 0]; exact ⟨i1, i2⟩) κ hκ)
    refine ⟨fun v => q' (v 0), cfl, ?_, fun v hv => ?_, ?_⟩
    · unfold intStep1; rw [h1]; rfl
    · have := hv 0
      exact h3 (v 0) this.1 (by dsimp only; omega)
    · rw [h2]
      refine isMax_congr (fun v => ?_) (fCfl_isMax _ _ _)
      constructor
      · rintro ⟨i, i1, i2, hw⟩
        exact ⟨(), fun _ => i, fun a => by rw [Subsingleton.elim a 0]; exact ⟨i1, i2⟩, hw⟩
      · rintro ⟨_, v, hv, hw⟩
        exact ⟨v 0, (hv 0).1, (hv 0).2, hw⟩
  · intro dt n aux q v hb hno
    unfold intStep1 fStep1 fKernel
    rw [if_neg]
    · rfl
    · intro hc
      refine hno fun κ hκ => ?_
      have := hc (fun i => κ (aux fun _ => i)) (by rw [hκ]; rfl) (v 0) (hb 0).1 (hb 0).2
      rwa [hv v] at this
  · intro aux aux' s v h
    rw [h]
  · intro dt aux aux' q q' s v h
    dsimp only
    rw [← rowStep_shift]
    refine rowStep_local undef rp _ capa _ _ _ _ (v 0) (fun k a b => ?_) (fun k a b => ?_)
    · exact ((h (fun _ => k) (fun a => by rw [Subsingleton.elim a 0]; omega)).1).trans
        (congrArg aux (funext fun a => by rw [Subsingleton.elim a 0]))
    · exact ((h (fun _ => k) (fun a => by rw [Subsingleton.elim a 0]; omega)).2).trans
        (congrArg q (funext fun a => by rw [Subsingleton.elim a 0]))
  · intro dt aux aux' q q' _ s v x h
    have ha : ∀ k, v 0 - 1 ≤ k → k ≤ v 0 + 1 → aux' (fun _ => k) = aux (fun _ => k + s 0) := fun k a b =>
      ((h (fun _ => k) (fun a => by rw [Subsingleton.elim a 0]; omega)).1).trans
        (congrArg aux (funext fun a => by rw [Subsingleton.elim a 0]))
    have hq : ∀ k, v 0 - 1 ≤ k → k ≤ v 0 + 1 → q' (fun _ => k) = q (fun _ => k + s 0) := fun k a b =>
      ((h (fun _ => k) (fun a => by rw [Subsingleton.elim a 0]; omega)).2).trans
        (congrArg q (funext fun a => by rw [Subsingleton.elim a 0]))
    exact waveNumber_congr rp dt c.dx capa _ _ _ _ (s 0) (v 0) x (ha _ (by omega) (by omega)) (ha _ (by omega) (by omega))
      (hq _ (by omega) (by omega)) (hq _ (by omega) (by omega))

/-- C64: the one-dimensional Fortran kernel is local. -/
theorem C64_fortran1 (undef : K) (rp : Riemann K (Fin naux → K) m w) (c : Cfg1 K w) (hg : 2 ≤ c.g)
    (capa : Option ((Fin naux → K) → K)) : LocalKernel (onArrays m naux c.g (intStep1 undef rp c capa)) c.g naux :=
  (fortran1_stencil undef rp c capa).localKernel hg

/-- The limiter function of `pyStep1` for limiters that look at one interface at a time. -/
def localPhi (opq : Int → LimFun K) (lim : Fin w → Int) : Fin w → K → K → K := fun p =>
  match pyLimiterFun opq (lim p) with
  | none => fun _ _ => 1
  | some f => f []

theorem pyStep1_phi (opq : Int → LimFun K) (rp : Riemann K A m w) (c : Cfg1 K w) (hlim : ∀ p, 0 ≤ c.limiter p ∧ c.limiter p ≤ 16)
    (capa : Option (A → K)) (aux : Int → A) (q : Int → Fin m → K) (hg : 2 ≤ c.g) (i : Int) (h1 : c.g ≤ i) (h2 : i < c.g + c.n) :
    (pyStep1 (pyLimiterFun opq) rp c capa aux q).1 i = waveProp (localRatio c.dt c.dx capa aux) (interfaces rp aux q)
      (if c.order = 2 then correctionFlux (if c.fwave then npSign else abs) (localRatio c.dt c.dx capa aux) (interfaces rp aux q)
        (limitedWave (localPhi opq c.limiter) (localRatio c.dt c.dx capa aux) (interfaces rp aux q)) else fun _ => 0) q i := by
  obtain ⟨phi, p1, p2, p3⟩ := pyStep1_interior (pyLimiterFun opq) rp c capa aux q hg
  have hphi : phi = localPhi opq c.limiter := by
    by_cases hany : ∃ p, 0 < c.limiter p
    · funext p
      obtain ⟨pn, ps⟩ := p2 hany p
      obtain ⟨h0, h16⟩ := hlim p
      unfold localPhi
      generalize c.limiter p = k at *
      have hk : k = 0 ∨ k = 1 ∨ k = 2 ∨ k = 3 ∨ k = 4 ∨ k = 5 ∨ k = 6 ∨ k = 7 ∨ k = 8 ∨ k = 9 ∨ k = 10 ∨
          k = 11 ∨ k = 12 ∨ k = 13 ∨ k = 14 ∨ k = 15 ∨ k = 16 := by omega
      rcases hk with rfl | hk
      · rw [pn rfl]; rfl
      · rcases hk with rfl | rfl | rfl | rfl | rfl | rfl | rfl | rfl | rfl | rfl | rfl | rfl | rfl | rfl |
          rfl | rfl <;>
        · obtain ⟨_, e⟩ := ps _ rfl
          rw [e]
          rfl
    · rw [p1 (by simpa using hany)]
      funext p
      have h0 : c.limiter p = 0 := by
        have := hlim p
        have : ¬ 0 < c.limiter p := fun h => hany ⟨p, h⟩
        omega
      unfold localPhi
      rw [h0]
      rfl
  rw [p3 i h1 h2, hphi]

theorem pyCfl_isMax (LL UL : Int) (hlu : LL < UL) (lam : Int → K) (d : Int → Rp K m w) :
    IsMaxWithZero (fun v => ∃ i : Int, LL ≤ i ∧ i < UL ∧ WaveNumber lam (fun i => d (i - 1)) i v) (pyCfl LL UL lam d) := by
  have hne : irange LL UL ≠ [] := List.ne_nil_of_mem ((mem_irange _ _ _).mpr ⟨le_rfl, hlu⟩)
  have hne' : irange (LL - 1) (UL - 1) ≠ [] :=
    List.ne_nil_of_mem ((mem_irange _ _ _).mpr ⟨le_rfl, by omega⟩)
  have inner : ∀ (mw : Fin w) (z : K),
      let F := max (max z (maxOver (fun i : Int => lam i * (d (i - 1)).s mw) (irange LL UL)))
        (maxOver (fun i : Int => -lam i * (d i).s mw) (irange (LL - 1) (UL - 1)))
      z ≤ F ∧ (∀ v ∈ (irange LL UL).flatMap (fun i => [lam i * (d (i - 1)).s mw, -lam (i - 1) * (d (i - 1)).s mw]), v ≤ F) ∧
      (F = z ∨ F ∈ (irange LL UL).flatMap (fun i => [lam i * (d (i - 1)).s mw, -lam (i - 1) * (d (i - 1)).s mw])) := by
    intro mw z
    simp only
    obtain ⟨a1, i1, hi1, a2⟩ := maxOver_spec (fun i : Int => lam i * (d (i - 1)).s mw) _ hne
    obtain ⟨b1, i2, hi2, b2⟩ := maxOver_spec (fun i : Int => -lam i * (d i).s mw) _ hne'
    have hi2' := (mem_irange _ _ _).mp hi2
    refine ⟨(le_max_left _ _).trans (le_max_left _ _), fun v hv => ?_, ?_⟩
    · obtain ⟨i, hi, hv⟩ := List.mem_flatMap.mp hv
      have hi' := (mem_irange _ _ _).mp hi
      simp only [List.mem_cons, List.not_mem_nil, or_false] at hv
      rcases hv with rfl | rfl
      · exact (a1 i hi).trans ((le_max_right _ _).trans (le_max_left _ _))
      · exact (b1 (i - 1) ((mem_irange _ _ _).mpr ⟨by omega, by omega⟩)).trans (le_max_right _ _)
    · rcases max_choice (max z (maxOver (fun i : Int => lam i * (d (i - 1)).s mw) (irange LL UL)))
        (maxOver (fun i : Int => -lam i * (d i).s mw) (irange (LL - 1) (UL - 1))) with e | e
      · rcases max_choice z (maxOver (fun i : Int => lam i * (d (i - 1)).s mw) (irange LL UL)) with e' | e'
        · left; rw [e, e']
        · right
          rw [e, e', a2]
          exact List.mem_flatMap.mpr ⟨i1, hi1, by simp⟩
      · right
        rw [e, b2]
        refine List.mem_flatMap.mpr ⟨i2 + 1, (mem_irange _ _ _).mpr ⟨by omega, by omega⟩, ?_⟩
        rw [add_sub_cancel_right]
        simp
  obtain ⟨h1, h2, h3⟩ := foldl_max_spec _ _ (fun z mw => inner mw z) (List.finRange w) 0
  refine ⟨h1, ?_, ?_⟩
  · rintro v ⟨i, i1, i2, p, hv⟩
    refine h2 p (List.mem_finRange p) v (List.mem_flatMap.mpr ⟨i, (mem_irange _ _ _).mpr ⟨i1, by omega⟩, ?_⟩)
    simpa using hv
  · rcases h3 with h | ⟨p, _, h⟩
    · exact Or.inl h
    · obtain ⟨i, hi, hv⟩ := List.mem_flatMap.mp h
      have hi := (mem_irange _ _ _).mp hi
      exact Or.inr ⟨i, hi.1, by omega, p, by
        simp only [List.mem_cons, List.not_mem_nil, or_false] at hv
        exact hv⟩

theorem python1_stencil (opq : Int → LimFun K) (rp : Riemann K (Fin naux → K) m w) (c : Cfg1 K w) (hg : 2 ≤ c.g)
    (hlim : ∀ p, 0 ≤ c.limiter p ∧ c.limiter p ≤ 16) (capa : Option ((Fin naux → K) → K)) :
    HasStencil (intPyStep1 (pyLimiterFun opq) rp c capa) c.g := by
  refine ⟨Unit, fun _ _ => True,
    fun dt aux q v =>
      let a1 := fun i => aux fun _ => i
      let q1 := fun i => q fun _ => i
      waveProp (localRatio dt c.dx capa a1) (interfaces rp a1 q1)
      (if c.order = 2 then correctionFlux (if c.fwave then npSign else abs) (localRatio dt c.dx capa a1) (interfaces rp a1 q1)
        (limitedWave (localPhi opq c.limiter) (localRatio dt c.dx capa a1) (interfaces rp a1 q1)) else fun _ => 0) q1 (v 0),
    fun _ _ => 0,
    fun dt aux q _ v x => WaveNumber (localRatio dt c.dx capa fun i => aux fun _ => i)
      (interfaces rp (fun i => aux fun _ => i) (fun i => q fun _ => i)) (v 0) x, ?_⟩
  refine ⟨fun _ _ => by omega, ?_, fun _ _ _ _ _ _ h => absurd trivial h, fun _ _ _ _ _ => Iff.rfl, ?_, ?_⟩
  · intro dt n aux q _ _
    refine ⟨_, _, rfl, fun v hv => ?_, ?_⟩
    · have h0 := hv 0
      dsimp only
      rw [pyStep1_phi opq rp { c with n := n 0, dt := dt } hlim capa _ _ hg _ (by dsimp only; omega) (by dsimp only; omega)]
      refine (waveProp_shift rp dt c.dx capa (fun i => aux fun _ => i) (fun i => q fun _ => i) (if c.fwave then npSign else abs)
        (if c.fwave then npSign else abs) (localPhi opq c.limiter) (localPhi opq c.limiter) (c.order = 2) (1 - c.g) (v 0 + c.g - 1) rfl
        (fun _ _ _ => rfl)).trans ?_
      rw [show v 0 + (c.g : Int) - 1 + (1 - c.g) = v 0 by ring]
    · have e : (pyStep1 (pyLimiterFun opq) rp { c with n := n 0, dt := dt } capa (fun x => aux fun _ => x + (1 - c.g))
          (fun x => q fun _ => x + (1 - c.g))).2 = pyCfl (c.g - 1) (c.g + n 0 + 1)
          (localRatio dt c.dx capa fun x => aux fun _ => x + (1 - c.g))
          (fun i => rp (q fun _ => i + (1 - c.g)) (q fun _ => i + 1 + (1 - c.g)) (aux fun _ => i + (1 - c.g))
            (aux fun _ => i + 1 + (1 - c.g))) := by
        unfold pyStep1 pyKernel
        rw [dtdx_eq]
        simp only
        split <;> rfl
      rw [e]
      have hd : (fun i : Int => (fun i => rp (q fun _ => i + (1 - c.g)) (q fun _ => i + 1 + (1 - c.g)) (aux fun _ => i + (1 - c.g))
            (aux fun _ => i + 1 + (1 - c.g))) (i - 1)) =
          interfaces rp (fun x => aux fun _ => x + (1 - (c.g : Int))) (fun x => q fun _ => x + (1 - c.g)) := by
        funext i; simp [interfaces]
      refine isMax_congr (fun x => ?_) (pyCfl_isMax _ _ (by omega) _ _)
      rw [hd]
      have hw := fun i => waveNumber_congr rp dt c.dx capa (fun i => aux fun _ => i) (fun x => aux fun _ => x + (1 - (c.g : Int)))
        (fun i => q fun _ => i) (fun x => q fun _ => x + (1 - (c.g : Int))) (1 - c.g) i x rfl rfl rfl rfl
      simp only [hw]
      constructor
      · rintro ⟨i, i1, i2, h⟩
        exact ⟨(), fun _ => i + (1 - c.g), fun a => by rw [Subsingleton.elim a 0]; dsimp only; omega, h⟩
      · rintro ⟨_, v, hv, h⟩
        have := hv 0
        refine ⟨v 0 - (1 - c.g), by omega, by omega, ?_⟩
        rw [sub_add_cancel]
        exact h
  · intro dt aux aux' q q' s v h
    have ha : ∀ k, v 0 - 2 ≤ k → k ≤ v 0 + 2 → aux' (fun _ => k) = aux (fun _ => k + s 0) := fun k a b =>
      ((h (fun _ => k) (fun a => by rw [Subsingleton.elim a 0]; omega)).1).trans
        (congrArg aux (funext fun a => by rw [Subsingleton.elim a 0]))
    have hq : ∀ k, v 0 - 2 ≤ k → k ≤ v 0 + 2 → q' (fun _ => k) = q (fun _ => k + s 0) := fun k a b =>
      ((h (fun _ => k) (fun a => by rw [Subsingleton.elim a 0]; omega)).2).trans
        (congrArg q (funext fun a => by rw [Subsingleton.elim a 0]))
    refine (waveProp_local rp dt c.dx capa _ (fun i => aux fun _ => i + s 0) _ (fun i => q fun _ => i + s 0) _ _ (c.order = 2) (v 0)
      hq ha).trans ?_
    exact waveProp_shift rp dt c.dx capa (fun i => aux fun _ => i) (fun i => q fun _ => i) _ _ _ _ (c.order = 2) (s 0) (v 0) rfl
        (fun _ _ _ => rfl)
  · intro dt aux aux' q q' _ s v x h
    have ha : ∀ k, v 0 - 1 ≤ k → k ≤ v 0 + 1 → aux' (fun _ => k) = aux (fun _ => k + s 0) := fun k a b =>
      ((h (fun _ => k) (fun a => by rw [Subsingleton.elim a 0]; omega)).1).trans
        (congrArg aux (funext fun a => by rw [Subsingleton.elim a 0]))
    have hq : ∀ k, v 0 - 1 ≤ k → k ≤ v 0 + 1 → q' (fun _ => k) = q (fun _ => k + s 0) := fun k a b =>
      ((h (fun _ => k) (fun a => by rw [Subsingleton.elim a 0]; omega)).2).trans
        (congrArg q (funext fun a => by rw [Subsingleton.elim a 0]))
    exact waveNumber_congr rp dt c.dx capa _ _ _ _ (s 0) (v 0) x (ha _ (by omega) (by omega)) (ha _ (by omega) (by omega))
      (hq _ (by omega) (by omega)) (hq _ (by omega) (by omega))

/-- C64: the one-dimensional Python kernel is local for the limiters 0 to 16. -/
theorem C64_python1_partial (opq : Int → LimFun K) (rp : Riemann K (Fin naux → K) m w) (c : Cfg1 K w) (hg : 2 ≤ c.g)
    (hlim : ∀ p, 0 ≤ c.limiter p ∧ c.limiter p ≤ 16) (capa : Option ((Fin naux → K) → K)) :
    LocalKernel (onArrays m naux c.g (intPyStep1 (pyLimiterFun opq) rp c capa)) c.g naux :=
  (python1_stencil opq rp c hg hlim capa).localKernel hg

/-! ### Two dimensions -/

theorem rowTransverse_shift (undef : K) (rp : Riemann K A m w) (rt : Transverse K A m) (c : Cfg2 K w) (capa : Option (A → K))
    (aux : Int → Int → A) (q : Int → Int → Fin m → K) (a b j i : Int) :
    rowTransverse undef rp rt c capa (fun i j => aux (i + a) (j + b)) (fun i j => q (i + a) (j + b)) j i =
      rowTransverse undef rp rt c capa aux q (j + b) (i + a) := by
  have e : i + 1 + a = i + a + 1 := by ring
  have e' : j + 1 + b = j + b + 1 := by ring
  unfold rowTransverse
  split
  · rfl
  · dsimp only
    have h1 := interfaces_shift rp (fun i => aux i (j + b)) (fun i => q i (j + b)) a
    have h2 := localRatio_shift c.dt c.dx capa (fun i => aux i (j + b)) a
    rw [h1, h2, sliceFlux_shift]
    simp only [transversePair, leftPart, rightPart, aux3, sub_add_eq_add_sub, e, e']

theorem xIncrement_shift (undef : K) (rp : Riemann K A m w) (rt : Transverse K A m) (c : Cfg2 K w) (capa : Option (A → K))
    (aux : Int → Int → A) (q : Int → Int → Fin m → K) (a b i j : Int) :
    xIncrement undef rp rt c capa (fun i j => aux (i + a) (j + b)) (fun i j => q (i + a) (j + b)) i j =
      xIncrement undef rp rt c capa aux q (i + a) (j + b) := by
  have e' : j + 1 + b = j + b + 1 := by ring
  unfold xIncrement rowFlux
  have h := rowStep_shift undef rp c.row capa (fun i => aux i (j + b)) (fun i => q i (j + b)) a i
  rw [h]
  simp only [rowTransverse_shift, sub_add_eq_add_sub, e']
  rfl

theorem step2X_isMax (undef : K) (rp : Riemann K A m w) (rt : Transverse K A m) (c : Cfg2 K w) (capa : Option (A → K))
    (aux : Int → Int → A) (q qn : Int → Int → Fin m → K) :
    IsMaxWithZero (fun v => ∃ i j : Int, (1 ≤ i ∧ i ≤ c.mx + 1) ∧ (0 ≤ j ∧ j ≤ c.my + 1) ∧
      WaveNumber (localRatio c.dt c.dx capa fun i => aux i j) (interfaces rp (fun i => aux i j) (fun i => q i j)) i v)
      (step2X undef rp rt c capa aux q qn).2 := by
  have e : (step2X undef rp rt c capa aux q qn).2 = (irange 0 ((c.my : Int) + 2)).foldl
      (fun x j => max x (fCfl c.mx (localRatio c.dt c.dx capa fun i => aux i j)
        (interfaces rp (fun i => aux i j) (fun i => q i j)))) 0 := by
    unfold step2X
    rw [foldl_max_snd (fun v k => unsplitUpdate c capa aux k (unsplitSlice undef rp rt c capa aux q k) v)
      (fun k => (unsplitSlice undef rp rt c capa aux q k).cfl)]
    simp only [unsplitSlice, flux2Slice_cfl, sliceRatio_eq]
    rfl
  rw [e]
  refine isMax_congr (fun v => ?_) (isMax_rows _ _ _ fun j _ => fCfl_isMax c.mx _ _)
  constructor
  · rintro ⟨j, hj, i, i1, i2, h⟩
    have hj := (mem_irange _ _ _).mp hj
    exact ⟨i, j, ⟨i1, i2⟩, ⟨hj.1, by omega⟩, h⟩
  · rintro ⟨i, j, hi, hj, h⟩
    exact ⟨j, (mem_irange _ _ _).mpr ⟨hj.1, by omega⟩, i, hi.1, hi.2, h⟩

theorem unsplit2_stencil (undef : K) (rpx rpy : Riemann K (Fin naux → K) m w) (rtx rty : Transverse K (Fin naux → K) m) (c : Cfg2 K w)
    (hg : 2 ≤ c.g) (capa : Option ((Fin naux → K) → K)) :
    HasStencil (intUnsplit2 undef rpx rpy rtx rty c capa) c.g := by
  refine ⟨Bool, fun _ _ => True,
    fun dt aux q v => q ![v 0, v 1] +
      xIncrement undef rpx rtx { c with dt := dt } capa (fun i j => aux ![i, j]) (fun i j => q ![i, j]) (v 0) (v 1) +
      xIncrement undef rpy rty { c with dt := dt }.swap capa (fun j i => aux ![i, j]) (fun j i => q ![i, j]) (v 1) (v 0),
    fun t a => if (a = 0) = (t = false) then 1 else 0,
    fun dt aux q t v x =>
      if t = false then WaveNumber (localRatio dt c.dx capa fun i => aux ![i, v 1])
        (interfaces rpx (fun i => aux ![i, v 1]) (fun i => q ![i, v 1])) (v 0) x
      else WaveNumber (localRatio dt c.dy capa fun j => aux ![v 0, j])
        (interfaces rpy (fun j => aux ![v 0, j]) (fun j => q ![v 0, j])) (v 1) x, ?_⟩
  have hsh : ∀ (i j : Int) (s : Fin 2 → Int), (fun a => ![i, j] a + s a) = ![i + s 0, j + s 1] := by
    intro i j s; funext a; fin_cases a <;> rfl
  refine ⟨fun t a => by split <;> omega, ?_, fun _ _ _ _ _ _ h => absurd trivial h, fun _ _ _ _ _ => Iff.rfl, ?_, ?_⟩
  · intro dt n aux q _ _
    refine ⟨_, _, rfl, fun v hv => ?_, ?_⟩
    · have h0 := hv 0
      have h1 := hv 1
      exact unsplitStep2_cell undef rpx rpy rtx rty { c with mx := n 0, my := n 1, dt := dt } (by dsimp only; omega) capa
        (fun i j => aux ![i, j]) (fun i j => q ![i, j]) (v 0) (v 1) h0.1 h0.2 h1.1 h1.2
    · refine isMax_congr (fun x => ?_) (isMax_max
        (step2X_isMax undef rpx rtx { c with mx := n 0, my := n 1, dt := dt } capa (fun i j => aux ![i, j]) (fun i j => q ![i, j]) _)
        (step2X_isMax undef rpy rty { c with mx := n 0, my := n 1, dt := dt }.swap capa (fun j i => aux ![i, j])
          (fun j i => q ![i, j]) _))
      constructor
      · rintro (⟨i, j, hi, hj, h⟩ | ⟨j, i, hj, hi, h⟩)
        · exact ⟨false, ![i, j], fun a => by fin_cases a <;> simp <;> first | exact hi | exact hj, h⟩
        · exact ⟨true, ![i, j], fun a => by fin_cases a <;> simp <;> first | exact hi | exact hj, h⟩
      · rintro ⟨t, v, hv, h⟩
        have h0 := hv 0
        have h1 := hv 1
        cases t with
        | false => exact Or.inl ⟨v 0, v 1, by simpa using h0, by simpa using h1, h⟩
        | true => exact Or.inr ⟨v 1, v 0, by simp at h1; exact h1, by simp at h0; exact h0, h⟩
  · intro dt aux aux' q q' s v h
    dsimp only
    have hb : ∀ i j : Int, v 0 - 2 ≤ i → i ≤ v 0 + 2 → v 1 - 2 ≤ j → j ≤ v 1 + 2 →
        aux' ![i, j] = aux ![i + s 0, j + s 1] ∧ q' ![i, j] = q ![i + s 0, j + s 1] := by
      intro i j i1 i2 j1 j2
      have := h ![i, j] (fun a => by fin_cases a <;> simp <;> omega)
      rwa [hsh] at this
    have e1 := xIncrement_shift undef rpx rtx { c with dt := dt } capa (fun i j => aux ![i, j]) (fun i j => q ![i, j]) (s 0) (s 1) (v 0) (v 1)
    have e2 := xIncrement_shift undef rpy rty { c with dt := dt }.swap capa (fun j i => aux ![i, j]) (fun j i => q ![i, j]) (s 1) (s 0)
      (v 1) (v 0)
    rw [← e1, ← e2, (hb _ _ (by omega) (by omega) (by omega) (by omega)).2,
      xIncrement_congr undef rpx rtx { c with dt := dt } capa (fun i j => aux' ![i, j]) (fun i j => aux ![i + s 0, j + s 1])
        (fun i j => q' ![i, j]) (fun i j => q ![i + s 0, j + s 1]) (v 0) (v 1) (v 1)
        (fun k l a b e f => (hb k (v 1 + l) a b (by omega) (by omega)).2)
        (fun k l a b e f => (hb k (v 1 + l) a b (by omega) (by omega)).1),
      xIncrement_congr undef rpy rty ({ c with dt := dt } : Cfg2 K w).swap capa (fun j i => aux' ![i, j]) (fun j i => aux ![i + s 0, j + s 1])
        (fun j i => q' ![i, j]) (fun j i => q ![i + s 0, j + s 1]) (v 1) (v 0) (v 0)
        (fun k l a b e f => (hb (v 0 + l) k (by omega) (by omega) a b).2)
        (fun k l a b e f => (hb (v 0 + l) k (by omega) (by omega) a b).1)]
  · intro dt aux aux' q q' t s v x h
    have hb : ∀ i j : Int, v 0 - 1 ≤ i → i ≤ v 0 + 1 → v 1 - 1 ≤ j → j ≤ v 1 + 1 →
        aux' ![i, j] = aux ![i + s 0, j + s 1] ∧ q' ![i, j] = q ![i + s 0, j + s 1] := by
      intro i j i1 i2 j1 j2
      have := h ![i, j] (fun a => by fin_cases a <;> simp <;> omega)
      rwa [hsh] at this
    cases t with
    | false =>
      simp only [if_true]
      exact waveNumber_congr rpx dt c.dx capa (fun i => aux ![i, v 1 + s 1]) _ (fun i => q ![i, v 1 + s 1]) _ (s 0) (v 0) x
        (hb _ _ (by omega) (by omega) (by omega) (by omega)).1 (hb _ _ (by omega) (by omega) (by omega) (by omega)).1
        (hb _ _ (by omega) (by omega) (by omega) (by omega)).2 (hb _ _ (by omega) (by omega) (by omega) (by omega)).2
    | true =>
      simp only [Bool.true_eq_false, if_false]
      exact waveNumber_congr rpy dt c.dy capa (fun j => aux ![v 0 + s 0, j]) _ (fun j => q ![v 0 + s 0, j]) _ (s 1) (v 1) x
        (hb _ _ (by omega) (by omega) (by omega) (by omega)).1 (hb _ _ (by omega) (by omega) (by omega) (by omega)).1
        (hb _ _ (by omega) (by omega) (by omega) (by omega)).2 (hb _ _ (by omega) (by omega) (by omega) (by omega)).2

/-- C64: the unsplit two-dimensional kernel is local. -/
theorem C64_unsplit2 (undef : K) (rpx rpy : Riemann K (Fin naux → K) m w) (rtx rty : Transverse K (Fin naux → K) m) (c : Cfg2 K w)
    (hg : 2 ≤ c.g) (capa : Option ((Fin naux → K) → K)) :
    LocalKernel (onArrays m naux c.g (intUnsplit2 undef rpx rpy rtx rty c capa)) c.g naux :=
  (unsplit2_stencil undef rpx rpy rtx rty c hg capa).localKernel hg

/-! ### Three dimensions -/

theorem part_congr' (T T' : Trans3 K m) (icoor : Nat) (dtw : K) (imp : Nat) (u : Bool) (s : Int)
    (lam : K) (i i' : Int) (h3 : T.m3 = T'.m3) (h4 : T.m4 = T'.m4) (ha : T.hasAux = T'.hasAux)
    (hs : T.asdq imp i = T'.asdq imp i') (hc : T.m3 = 2 → T.cqxx i = T'.cqxx i') (ht : ∀ a b, T.t a b i = T'.t a b i')
    (htt : ∀ a b e, T.tt a b e i = T'.tt a b e i') :
    T.part icoor dtw imp u s lam i = T'.part icoor dtw imp u s lam i' := by
  have e1 : ∀ ic, T.inc ic imp i = T'.inc ic imp i' := fun ic => by
    unfold Trans3.inc; rw [hs, ht]
  have e2 : ∀ ic im, T.cor ic im i = T'.cor ic im i' := fun ic im => by
    unfold Trans3.cor
    by_cases h : T.m3 = 2
    · have h' : T'.m3 = 2 := by rw [← h3]; exact h
      simp only [if_pos h, if_pos h', hc h, ht, ha]
    · have h' : ¬ T'.m3 = 2 := by rw [← h3]; exact h
      rw [if_neg h, if_neg h']
  have e3 : ∀ ic, T.second ic imp i = T'.second ic imp i' := fun ic => by
    unfold Trans3.second; rw [h4, e1, e2]
  have e4 : ∀ ic it, T.double ic imp it i = T'.double ic imp it i' := fun ic it => by
    unfold Trans3.double; rw [e3, htt]
  unfold Trans3.part
  dsimp only
  rw [h3, h4, e1, e2, e2, e4, e4]

theorem sent3_shift (undef : K) (rp : Riemann K A m w) (rt : Transverse3 K A m) (rtt : Transverse33 K A m) (c : Cfg3 K w)
    (hst : c.order ≠ 1 ∨ c.trans / 10 ≠ 2) (capa : Option (A → K)) (stale stale' : Int → Fin m → K)
    (aux : Int → Int → Int → A) (q : Int → Int → Int → Fin m → K) (a b e : Int) (icoor : Nat) (dtw : K) (u : Bool) (s i j k : Int) :
    sent3 undef rp rt rtt c capa stale (fun i j k => aux (i + a) (j + b) (k + e)) (fun i j k => q (i + a) (j + b) (k + e)) icoor dtw u s
        i j k =
      sent3 undef rp rt rtt c capa stale' aux q icoor dtw u s (i + a) (j + b) (k + e) := by
  have e1 : ∀ i : Int, i + 1 + a = i + a + 1 := fun i => by ring
  have h1 := interfaces_shift rp (fun i => aux i (j + b) (k + e)) (fun i => q i (j + b) (k + e)) a
  have h2 := localRatio_shift c.dt c.dx capa (fun i => aux i (j + b) (k + e)) a
  have h9 : ∀ n : Int, aux9 (fun i j k => aux (i + a) (j + b) (k + e)) j k n = aux9 aux (j + b) (k + e) (n + a) := by
    intro n
    funext x y
    unfold aux9
    dsimp only
    rw [show j - 1 + (x.val : Int) + b = j + b - 1 + x.val by ring, show k - 1 + (y.val : Int) + e = k + e - 1 + y.val by ring]
  have hp : ∀ (imp : Nat) (lam : K) (n : Int),
      (rowTrans3 undef rp rt rtt c capa stale (fun i j k => aux (i + a) (j + b) (k + e)) (fun i j k => q (i + a) (j + b) (k + e))
        j k).part icoor dtw imp u s lam n =
      (rowTrans3 undef rp rt rtt c capa stale' aux q (j + b) (k + e)).part icoor dtw imp u s lam (n + a) := by
    intro imp lam n
    refine part_congr' _ _ icoor dtw imp u s lam n (n + a) rfl rfl rfl ?_ (fun h => ?_) (fun x y => ?_) (fun x y z => ?_)
    · simp only [rowTrans3]; rw [h1]
    · have ho : c.order ≠ 1 := hst.resolve_right (fun hn => splitMethod3_ne hn h)
      simp only [rowTrans3, if_neg ho]
      rw [h1, h2, sliceFlux_shift]
    · simp only [rowTrans3, h9, sub_add_eq_add_sub]
    · simp only [rowTrans3, h9, sub_add_eq_add_sub]
  unfold sent3
  dsimp only
  rw [hp, hp, e1]
  rfl

theorem xIncrement3_shift (undef : K) (rp : Riemann K A m w) (rt : Transverse3 K A m) (rtt : Transverse33 K A m) (c : Cfg3 K w)
    (hst : c.order ≠ 1 ∨ c.trans / 10 ≠ 2) (capa : Option (A → K)) (stale stale' : Int → Fin m → K)
    (aux : Int → Int → Int → A) (q : Int → Int → Int → Fin m → K) (a b e : Int) (i j k : Int) :
    xIncrement3 undef rp rt rtt c capa stale (fun i j k => aux (i + a) (j + b) (k + e)) (fun i j k => q (i + a) (j + b) (k + e)) i j k =
      xIncrement3 undef rp rt rtt c capa stale' aux q (i + a) (j + b) (k + e) := by
  have e2 : j + 1 + b = j + b + 1 := by ring
  have e3 : k + 1 + e = k + e + 1 := by ring
  unfold xIncrement3 flux2of3 flux3of3
  have h := rowStep_shift undef rp c.row capa (fun i => aux i (j + b) (k + e)) (fun i => q i (j + b) (k + e)) a i
  rw [h]
  have hs := fun icoor dtw u s i j k =>
    sent3_shift undef rp rt rtt c hst capa stale stale' aux q a b e icoor dtw u s i j k
  have e2' : ∀ x : Int, x - 1 + b = x + b - 1 := fun x => by ring
  have e3' : ∀ x : Int, x - 1 + e = x + e - 1 := fun x => by ring
  simp only [hs, e2, e3, e2', e3']
  rfl

theorem step3X_isMax (undef : K) (rp : Riemann K A m w) (rt : Transverse3 K A m) (rtt : Transverse33 K A m) (c : Cfg3 K w)
    (capa : Option (A → K)) (stale : Int → Fin m → K) (aux : Int → Int → Int → A) (q qn : Int → Int → Int → Fin m → K) :
    IsMaxWithZero (fun v => ∃ i j k : Int, (1 ≤ i ∧ i ≤ c.mx + 1) ∧ (0 ≤ j ∧ j ≤ c.my + 1) ∧ (0 ≤ k ∧ k ≤ c.mz + 1) ∧
      WaveNumber (localRatio c.dt c.dx capa fun i => aux i j k) (interfaces rp (fun i => aux i j k) (fun i => q i j k)) i v)
      (step3X undef rp rt rtt c capa stale aux q qn).2 := by
  let S := fun j k => unsplitSlice3 undef rp rt rtt c capa stale aux q j k
  have e : (step3X undef rp rt rtt c capa stale aux q qn).2 =
      (pairs 0 (c.my + 2) 0 (c.mz + 2)).foldl (fun x (y : Int × Int) => max x (S y.1 y.2).cfl) 0 := by
    unfold step3X
    have := foldl_pairs (fun (st : (Int → Int → Int → Fin m → K) × K) (y : Int × Int) =>
      (unsplitUpdate3 c capa aux y.1 y.2 (S y.1 y.2) st.1, max st.2 (S y.1 y.2).cfl)) 0 (c.my + 2) 0 (c.mz + 2) (qn, 0)
    refine (congrArg Prod.snd this).trans ?_
    exact foldl_max_snd (fun v (y : Int × Int) => unsplitUpdate3 c capa aux y.1 y.2 (S y.1 y.2) v)
      (fun (y : Int × Int) => (S y.1 y.2).cfl) _ qn 0
  have e2 : ∀ j k, (S j k).cfl = fCfl c.mx (localRatio c.dt c.dx capa fun i => aux i j k)
      (interfaces rp (fun i => aux i j k) (fun i => q i j k)) := by
    intro j k
    show (unsplitSlice3 undef rp rt rtt c capa stale aux q j k).cfl = _
    unfold unsplitSlice3
    rw [flux3Slice_cfl, sliceRatio_eq]
    rfl
  rw [e]
  simp only [e2]
  refine isMax_congr (fun v => ?_) (isMax_rows _ _ _ fun y _ => fCfl_isMax c.mx _ _)
  constructor
  · rintro ⟨y, hy, i, i1, i2, h⟩
    have hy := (mem_pairs _ _ _ _ _).mp hy
    exact ⟨i, y.1, y.2, ⟨i1, i2⟩, ⟨by omega, by omega⟩, ⟨by omega, by omega⟩, h⟩
  · rintro ⟨i, j, k, hi, hj, hk, h⟩
    exact ⟨(j, k), (mem_pairs _ _ _ _ _).mpr (by dsimp only; omega), i, hi.1, hi.2, h⟩

theorem unsplit3_stencil (undef : K) (rpx rpy rpz : Riemann K (Fin naux → K) m w) (rtx rty rtz : Transverse3 K (Fin naux → K) m)
    (rttx rtty rttz : Transverse33 K (Fin naux → K) m) (c : Cfg3 K w) (hg : 2 ≤ c.g)
    (hst : c.order ≠ 1 ∨ c.trans / 10 ≠ 2) (capa : Option ((Fin naux → K) → K)) (stale : Int → Fin m → K) :
    HasStencil (intUnsplit3 undef rpx rpy rpz rtx rty rtz rttx rtty rttz c capa stale) c.g := by
  refine ⟨Fin 3, fun _ _ => True,
    fun dt aux q v => q ![v 0, v 1, v 2] +
      xIncrement3 undef rpx rtx rttx { c with dt := dt } capa stale (fun i j k => aux ![i, j, k]) (fun i j k => q ![i, j, k])
        (v 0) (v 1) (v 2) +
      xIncrement3 undef rpy rty rtty { c with dt := dt }.rot capa stale (fun j k i => aux ![i, j, k]) (fun j k i => q ![i, j, k])
        (v 1) (v 2) (v 0) +
      xIncrement3 undef rpz rtz rttz { c with dt := dt }.rot.rot capa stale (fun k i j => aux ![i, j, k]) (fun k i j => q ![i, j, k])
        (v 2) (v 0) (v 1),
    fun t a => if a = t then 1 else 0,
    fun dt aux q t v x =>
      if t = 0 then WaveNumber (localRatio dt c.dx capa fun i => aux ![i, v 1, v 2])
        (interfaces rpx (fun i => aux ![i, v 1, v 2]) (fun i => q ![i, v 1, v 2])) (v 0) x
      else if t = 1 then WaveNumber (localRatio dt c.dy capa fun j => aux ![v 0, j, v 2])
        (interfaces rpy (fun j => aux ![v 0, j, v 2]) (fun j => q ![v 0, j, v 2])) (v 1) x
      else WaveNumber (localRatio dt c.dz capa fun k => aux ![v 0, v 1, k])
        (interfaces rpz (fun k => aux ![v 0, v 1, k]) (fun k => q ![v 0, v 1, k])) (v 2) x, ?_⟩
  have hsh : ∀ (i j k : Int) (s : Fin 3 → Int), (fun a => ![i, j, k] a + s a) = ![i + s 0, j + s 1, k + s 2] := by
    intro i j k s; funext a; fin_cases a <;> rfl
  refine ⟨fun t a => by split <;> omega, ?_, fun _ _ _ _ _ _ h => absurd trivial h, fun _ _ _ _ _ => Iff.rfl, ?_, ?_⟩
  · intro dt n aux q _ _
    refine ⟨_, _, rfl, fun v hv => ?_, ?_⟩
    · have h0 := hv 0
      have h1 := hv 1
      have h2 := hv 2
      exact unsplitStep3_cell undef rpx rpy rpz rtx rty rtz rttx rtty rttz { c with mx := n 0, my := n 1, mz := n 2, dt := dt }
        (by dsimp only; omega) capa stale (fun i j k => aux ![i, j, k]) (fun i j k => q ![i, j, k]) (v 0) (v 1) (v 2) h0.1 h0.2 h1.1 h1.2
        h2.1 h2.2
    · refine isMax_congr (fun x => ?_) (isMax_max (isMax_max
        (step3X_isMax undef rpx rtx rttx { c with mx := n 0, my := n 1, mz := n 2, dt := dt } capa stale (fun i j k => aux ![i, j, k])
          (fun i j k => q ![i, j, k]) _)
        (step3X_isMax undef rpy rty rtty { c with mx := n 0, my := n 1, mz := n 2, dt := dt }.rot capa stale
          (fun j k i => aux ![i, j, k]) (fun j k i => q ![i, j, k]) _))
        (step3X_isMax undef rpz rtz rttz { c with mx := n 0, my := n 1, mz := n 2, dt := dt }.rot.rot capa stale
          (fun k i j => aux ![i, j, k]) (fun k i j => q ![i, j, k]) _))
      constructor
      · rintro ((⟨i, j, k, hi, hj, hk, h⟩ | ⟨j, k, i, hj, hk, hi, h⟩) | ⟨k, i, j, hk, hi, hj, h⟩)
        · exact ⟨0, ![i, j, k], fun a => by fin_cases a <;> simp <;> first | exact hi | exact hj | exact hk, h⟩
        · exact ⟨1, ![i, j, k], fun a => by fin_cases a <;> simp <;> first | exact hi | exact hj | exact hk, h⟩
        · exact ⟨2, ![i, j, k], fun a => by fin_cases a <;> simp <;> first | exact hi | exact hj | exact hk, h⟩
      · rintro ⟨t, v, hv, h⟩
        have h0 := hv 0
        have h1 := hv 1
        have h2 := hv 2
        fin_cases t
        · exact Or.inl (Or.inl ⟨v 0, v 1, v 2, by simp at h0; exact h0, by simp at h1; exact h1, by simp at h2; exact h2, h⟩)
        · exact Or.inl (Or.inr ⟨v 1, v 2, v 0, by simp at h1; exact h1, by simp at h2; exact h2, by simp at h0; exact h0, h⟩)
        · exact Or.inr ⟨v 2, v 0, v 1, by simp at h2; exact h2, by simp at h0; exact h0, by simp at h1; exact h1, h⟩
  · intro dt aux aux' q q' s v h
    dsimp only
    have hb : ∀ i j k : Int, v 0 - 2 ≤ i → i ≤ v 0 + 2 → v 1 - 2 ≤ j → j ≤ v 1 + 2 → v 2 - 2 ≤ k → k ≤ v 2 + 2 →
        aux' ![i, j, k] = aux ![i + s 0, j + s 1, k + s 2] ∧ q' ![i, j, k] = q ![i + s 0, j + s 1, k + s 2] := by
      intro i j k i1 i2 j1 j2 k1 k2
      have := h ![i, j, k] (fun a => by fin_cases a <;> simp <;> omega)
      rwa [hsh] at this
    have e1 := xIncrement3_shift undef rpx rtx rttx ({ c with dt := dt } : Cfg3 K w) hst capa stale stale (fun i j k => aux ![i, j, k])
      (fun i j k => q ![i, j, k]) (s 0) (s 1) (s 2) (v 0) (v 1) (v 2)
    have e2 := xIncrement3_shift undef rpy rty rtty ({ c with dt := dt } : Cfg3 K w).rot hst capa stale stale
      (fun j k i => aux ![i, j, k]) (fun j k i => q ![i, j, k]) (s 1) (s 2) (s 0) (v 1) (v 2) (v 0)
    have e3 := xIncrement3_shift undef rpz rtz rttz ({ c with dt := dt } : Cfg3 K w).rot.rot hst capa stale stale
      (fun k i j => aux ![i, j, k]) (fun k i j => q ![i, j, k]) (s 2) (s 0) (s 1) (v 2) (v 0) (v 1)
    rw [← e1, ← e2, ← e3, (hb _ _ _ (by omega) (by omega) (by omega) (by omega) (by omega) (by omega)).2]
    congr 1
    · congr 1
      · congr 1
        exact xIncrement3_congr undef rpx rtx rttx _ capa stale _ _ _ _ (v 0) (v 1) (v 2)
          (fun i j k i1 i2 j1 j2 k1 k2 => (hb i j k (by omega) (by omega) (by omega) (by omega) (by omega) (by omega)).2)
          (fun i j k i1 i2 j1 j2 k1 k2 => (hb i j k (by omega) (by omega) (by omega) (by omega) (by omega) (by omega)).1)
      · exact xIncrement3_congr undef rpy rty rtty _ capa stale _ _ _ _ (v 1) (v 2) (v 0)
          (fun j k i j1 j2 k1 k2 i1 i2 => (hb i j k (by omega) (by omega) (by omega) (by omega) (by omega) (by omega)).2)
          (fun j k i j1 j2 k1 k2 i1 i2 => (hb i j k (by omega) (by omega) (by omega) (by omega) (by omega) (by omega)).1)
    · exact xIncrement3_congr undef rpz rtz rttz _ capa stale _ _ _ _ (v 2) (v 0) (v 1)
        (fun k i j k1 k2 i1 i2 j1 j2 => (hb i j k (by omega) (by omega) (by omega) (by omega) (by omega) (by omega)).2)
        (fun k i j k1 k2 i1 i2 j1 j2 => (hb i j k (by omega) (by omega) (by omega) (by omega) (by omega) (by omega)).1)
  · intro dt aux aux' q q' t s v x h
    have hb : ∀ i j k : Int, v 0 - 1 ≤ i → i ≤ v 0 + 1 → v 1 - 1 ≤ j → j ≤ v 1 + 1 → v 2 - 1 ≤ k → k ≤ v 2 + 1 →
        aux' ![i, j, k] = aux ![i + s 0, j + s 1, k + s 2] ∧ q' ![i, j, k] = q ![i + s 0, j + s 1, k + s 2] := by
      intro i j k i1 i2 j1 j2 k1 k2
      have := h ![i, j, k] (fun a => by fin_cases a <;> simp <;> omega)
      rwa [hsh] at this
    fin_cases t
    · exact waveNumber_congr rpx dt c.dx capa (fun i => aux ![i, v 1 + s 1, v 2 + s 2]) _ (fun i => q ![i, v 1 + s 1, v 2 + s 2]) _
        (s 0) (v 0) x (hb _ _ _ (by omega) (by omega) (by omega) (by omega) (by omega) (by omega)).1
        (hb _ _ _ (by omega) (by omega) (by omega) (by omega) (by omega) (by omega)).1
        (hb _ _ _ (by omega) (by omega) (by omega) (by omega) (by omega) (by omega)).2
        (hb _ _ _ (by omega) (by omega) (by omega) (by omega) (by omega) (by omega)).2
    · exact waveNumber_congr rpy dt c.dy capa (fun j => aux ![v 0 + s 0, j, v 2 + s 2]) _ (fun j => q ![v 0 + s 0, j, v 2 + s 2]) _
        (s 1) (v 1) x (hb _ _ _ (by omega) (by omega) (by omega) (by omega) (by omega) (by omega)).1
        (hb _ _ _ (by omega) (by omega) (by omega) (by omega) (by omega) (by omega)).1
        (hb _ _ _ (by omega) (by omega) (by omega) (by omega) (by omega) (by omega)).2
        (hb _ _ _ (by omega) (by omega) (by omega) (by omega) (by omega) (by omega)).2
    · exact waveNumber_congr rpz dt c.dz capa (fun k => aux ![v 0 + s 0, v 1 + s 1, k]) _ (fun k => q ![v 0 + s 0, v 1 + s 1, k]) _
        (s 2) (v 2) x (hb _ _ _ (by omega) (by omega) (by omega) (by omega) (by omega) (by omega)).1
        (hb _ _ _ (by omega) (by omega) (by omega) (by omega) (by omega) (by omega)).1
        (hb _ _ _ (by omega) (by omega) (by omega) (by omega) (by omega) (by omega)).2
        (hb _ _ _ (by omega) (by omega) (by omega) (by omega) (by omega) (by omega)).2

/-- C64: the unsplit three-dimensional kernel is local, unless it reads the uninitialised part of its work array. -/
theorem C64_unsplit3 (undef : K) (rpx rpy rpz : Riemann K (Fin naux → K) m w) (rtx rty rtz : Transverse3 K (Fin naux → K) m)
    (rttx rtty rttz : Transverse33 K (Fin naux → K) m) (c : Cfg3 K w) (hg : 2 ≤ c.g)
    (hst : c.order ≠ 1 ∨ c.trans / 10 ≠ 2) (capa : Option ((Fin naux → K) → K)) (stale : Int → Fin m → K) :
    LocalKernel (onArrays m naux c.g (intUnsplit3 undef rpx rpy rpz rtx rty rtz rttx rtty rttz c capa stale)) c.g naux :=
  (unsplit3_stencil undef rpx rpy rpz rtx rty rtz rttx rtty rttz c hg hst capa stale).localKernel hg

end PyClaw
