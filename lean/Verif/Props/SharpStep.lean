import Verif.Props.SharpFlux
import Verif.Props.WenoOrder

/-!
C68 (SharpClaw preserves uniform states), C69 (a SharpClaw step conserves).
-/
set_option linter.unusedSectionVars false

namespace PyClaw
open Spec

variable {K A : Type*} [Field K] [LinearOrder K] [IsStrictOrderedRing K] {m w : Nat}

theorem shuValue_const (eps v : K) (im i : Int) : shuValue eps (fun _ => v) im i = v := by
  simp only [shuValue, shuCombine, shuDiff, sub_self, mul_zero, add_zero, zero_div]
  ring

theorem table_const {order : Int} {T : WenoTable} (h : wenoComp order = some T) (eps v : K) (heps : 0 < eps) (i : Int) :
    T.left eps (fun _ => v) i = v ∧ T.right eps (fun _ => v) i = v := by
  obtain ⟨ho, hk, -⟩ := wenoComp_cases h
  have := C85_exact h heps (fun _ => v) i (Polynomial.C v) (by rw [Polynomial.natDegree_C]; omega)
    (fun j _ => by
      rw [show Polynomial.C v = Polynomial.monomial 0 v from rfl, cellMean_monomial]
      unfold monoMean
      push_cast
      ring)
  rw [Polynomial.eval_C, Polynomial.eval_C] at this
  exact this

/-- The reconstructed states next to all interfaces of the cells `lo, …, lo+n-1` equal `v`. -/
def UniformEdges (lo : Int) (n : Nat) (e : Edges K m) (v : Fin m → K) : Prop :=
  ∀ i, lo - 1 ≤ i → i ≤ lo + n → (i ≤ lo + n - 1 → e.qr i = v) ∧ (lo ≤ i → e.ql i = v)

theorem foldl_const {α β : Type*} (l : List α) (f : β → α → β) (x : β) (h : ∀ a, f x a = x) : l.foldl f x = x := by
  induction l with
  | nil => rfl
  | cons a l ih => rw [List.foldl_cons, h, ih]

theorem pyRecon_uniform (eps tol : K) (rp : Riemann K A m w) (hrp : Quiet rp) (c : FluxCfg K) (hg : 3 ≤ c.g)
    (limType charDecomp : Int) (aux : Int → A) (q : Int → Fin m → K) (v : Fin m → K)
    (hq : ∀ i : Int, 0 ≤ i → i < c.n + 2 * c.g → q i = v) {e : Edges K m}
    (he : pyRecon eps tol limType charDecomp (c.n + 2 * c.g)
      (fun i => rp (q i) (q (i + 1)) (aux i) (aux (i + 1))) q = .ok e) : UniformEdges c.g c.n e v := by
  have hgg : (3 : Int) ≤ c.g := by exact_mod_cast hg
  unfold pyRecon at he
  intro i h1 h2
  split at he
  · cases he
    exact ⟨fun _ => hq i (by omega) (by omega), fun _ => hq i (by omega) (by omega)⟩
  · split at he
    · cases he
    · split at he
      · cases he
      · split at he
        · split at he
          · cases he
            refine ⟨fun h3 => ?_, fun h3 => ?_⟩ <;> funext x
            · simp only [pyWeno, pyWenoQr]
              rw [if_pos (by omega), (shuValue_congr eps _ (fun _ => v x) (i + 1)
                (fun j _ _ => by rw [hq j (by omega) (by omega)])).1, shuValue_const]
            · simp only [pyWeno, pyWenoQl]
              rw [if_pos (by omega), (shuValue_congr eps _ (fun _ => v x) i
                (fun j _ _ => by rw [hq j (by omega) (by omega)])).2, shuValue_const]
          · split at he
            · cases he
              refine ⟨fun h3 => ?_, fun h3 => ?_⟩
              · simp only [pyWenoWave]
                rw [if_pos (by omega), hq i (by omega) (by omega)]
                refine foldl_const _ _ _ fun p => ?_
                simp only [pyWaveTerm]
                rw [hq i (by omega) (by omega), hq (i + 1) (by omega) (by omega)]
                funext x
                simp [(hrp v (aux i) (aux (i + 1))).1 p]
              · simp only [pyWenoWave]
                rw [if_pos (by omega), hq i (by omega) (by omega)]
                refine foldl_const _ _ _ fun p => ?_
                simp only [pyWaveTerm]
                rw [hq (i - 1) (by omega) (by omega), hq (i - 1 + 1) (by omega) (by omega)]
                funext x
                simp [(hrp v (aux (i - 1)) (aux i)).1 p]
            · split at he <;> cases he
        · cases he

theorem fRecon_uniform (eps tol undef : K) (heps : 0 < eps) (first : Fin m → K) (rp : Riemann K A m w) (hrp : Quiet rp)
    (c : FluxCfg K) (hg : 3 ≤ c.g) (limType charDecomp order : Int)
    (hgo : limType = 2 → order < 2 * c.g) (fwave : Bool) (limEqn : Fin m → Int)
    (limWave : Fin w → Int) (old : Edges K m) (aux : Int → A) (q : Int → Fin m → K) (v : Fin m → K)
    (hq : ∀ i : Int, 1 - (c.g : Int) ≤ i → i ≤ c.n + c.g → q i = v) (hopt : ¬ (limType = 1 ∧ charDecomp = 0)) {e : Edges K m}
    (he : fRecon eps tol undef first rp c limType charDecomp order fwave limEqn limWave old none aux q = some e) :
    UniformEdges 1 c.n e v := by
  have hgg : (3 : Int) ≤ c.g := by exact_mod_cast hg
  unfold fRecon at he
  simp only at he
  rw [if_neg hopt] at he
  have hw : ∀ i : Int, 1 - (c.g : Int) ≤ i - 1 → i ≤ c.n + c.g → ∀ p,
      (rp (q (i - 1)) (q i) (aux (i - 1)) (aux i)).wave p = 0 := by
    intro i h1 h2 p
    rw [hq _ h1 (by omega), hq i (by omega) h2]
    exact (hrp v _ _).1 p
  intro i h1 h2
  split at he
  · cases he
    refine ⟨fun h3 => ?_, fun h3 => ?_⟩
    · simp only [fTvdWave]
      have e1 : i + c.g - (c.g : Int) = i := by ring
      rw [if_pos (by omega), e1, hq i (by omega) (by omega)]
      split
      · refine foldl_const _ _ _ fun p => ?_
        simp only [fTvdWaveTerm]
        have e2 : i + c.g + 1 - (c.g : Int) = i + 1 := by ring
        rw [e2, hw (i + 1) (by omega) (by omega) p]
        simp [wdot]
      · rfl
    · simp only [fTvdWave]
      have e1 : i + c.g - (c.g : Int) = i := by ring
      rw [if_pos (by omega), e1, hq i (by omega) (by omega)]
      split
      · refine foldl_const _ _ _ fun p => ?_
        simp only [fTvdWaveTerm]
        rw [e1, hw i (by omega) (by omega) p]
        simp [wdot]
      · rfl
  · split at he
    · rename_i hN
      have hgo := hgo hN.1
      rw [Option.map_eq_some_iff] at he
      obtain ⟨T, hT, rfl⟩ := he
      refine ⟨fun h3 => ?_, fun h3 => ?_⟩ <;> funext x
      · simp only [fWenoComp, WenoTable.qr]
        rw [if_pos (by omega)]
        refine ((table_congr hT eps (q := fun j => q (j - c.g) x) (q' := fun _ => v x)
          (fun j _ _ => by rw [hq (j - c.g) (by omega) (by omega)])).2).trans (table_const hT eps (v x) heps _).2
      · simp only [fWenoComp, WenoTable.ql]
        rw [if_pos (by omega)]
        refine ((table_congr hT eps (q := fun j => q (j - c.g) x) (q' := fun _ => v x)
          (fun j _ _ => by rw [hq (j - c.g) (by omega) (by omega)])).1).trans (table_const hT eps (v x) heps _).1
    · split at he
      · cases he
        have hc : ∀ i : Int, 0 ≤ i → i ≤ c.n + 1 → central4 (fun p => q (p - c.g)) (i + c.g) = v := by
          intro i h1 h2
          funext x
          unfold central4
          dsimp only
          rw [hq _ (by omega) (by omega), hq _ (by omega) (by omega), hq _ (by omega) (by omega),
            hq _ (by omega) (by omega)]
          ring
        refine ⟨fun h3 => ?_, fun h3 => ?_⟩
        · simp only [fWenoWave]
          have e2 : i + c.g + 1 = (i + 1) + (c.g : Int) := by ring
          rw [if_pos (by omega), e2, hc (i + 1) (by omega) (by omega)]
          refine foldl_const _ _ _ fun p => ?_
          simp only [fWaveTerm]
          have e3 : i + 1 + c.g - (c.g : Int) = i + 1 := by ring
          rw [e3, hw (i + 1) (by omega) (by omega) p]
          funext x
          simp
        · simp only [fWenoWave]
          rw [if_pos (by omega), hc i (by omega) (by omega)]
          refine foldl_const _ _ _ fun p => ?_
          simp only [fWaveTerm]
          have e3 : i + c.g - (c.g : Int) = i := by ring
          rw [e3, hw i (by omega) (by omega) p]
          funext x
          simp
      · split at he
        · cases he
          refine ⟨fun h3 => ?_, fun h3 => ?_⟩ <;> funext x
          · simp only [fShu5, fShuQr]
            rw [if_pos (by omega), (shuValue_congr eps _ (fun _ => v x) (i + c.g + 1)
              (fun j _ _ => by rw [hq (j - c.g) (by omega) (by omega)])).1, shuValue_const]
          · simp only [fShu5, fShuQl]
            rw [if_pos (by omega), (shuValue_congr eps _ (fun _ => v x) (i + c.g)
              (fun j _ _ => by rw [hq (j - c.g) (by omega) (by omega)])).2, shuValue_const]
        · cases he

/-- C68, Python kernel: on a uniform state, next to any aux values and capacities, the right-hand side vanishes for
every reconstruction that the kernel offers. -/
theorem C68_python_uniform (eps tol : K) (rp : Riemann K A m w) (hrp : Quiet rp) (c : FluxCfg K) (hg : 3 ≤ c.g)
    (limType charDecomp : Int) (capa : Option (A → K)) (aux : Int → A) (q : Int → Fin m → K) (v : Fin m → K)
    (hq : ∀ i : Int, 0 ≤ i → i < c.n + 2 * c.g → q i = v) (r : (Int → Fin m → K) × K)
    (hr : pyDqHyperbolic eps tol rp c limType charDecomp capa aux q = .ok r) (i : Int) (h1 : c.g ≤ i)
    (h2 : i < c.g + c.n) : r.1 i = 0 := by
  unfold pyDqHyperbolic at hr
  split at hr
  · cases hr
  · rename_i e he
    cases hr
    have hu := pyRecon_uniform eps tol rp hrp c hg limType charDecomp aux q v hq he
    simp only [pyFlux1]
    rw [if_pos (by omega), (hu i (by omega) (by omega)).1 (by omega), (hu (i + 1) (by omega) (by omega)).2 (by omega),
      (hu (i - 1) (by omega) (by omega)).1 (by omega), (hu (i - 1 + 1) (by omega) (by omega)).2 (by omega),
      (hu i (by omega) (by omega)).2 (by omega), (hrp v _ _).2.1, (hrp v _ _).2.2, (hrp v (aux i) (aux i)).2.1,
      (hrp v (aux i) (aux i)).2.2]
    simp

/-- C68, Fortran kernel, all modelled reconstructions except component-wise TVD, which divides by the difference of
neighbouring cells: 0/0, which the exact arithmetic of the model does not represent. -/
theorem C68_fortran_uniform_partial (eps tol undef : K) (heps : 0 < eps) (first : Fin m → K) (f2003 : Bool)
    (rp : Riemann K A m w) (hrp : Quiet rp)
    (tf : Option ((Fin m → K) → (Fin m → K) → A → A → Fin m → K)) (ht : ∀ t, tf = some t → ∀ u a, t u u a a = 0)
    (c : FluxCfg K) (hg : 3 ≤ c.g) (limType charDecomp order : Int)
    (hgo : limType = 2 → order < 2 * c.g) (fwave : Bool) (limEqn : Fin m → Int)
    (limWave : Fin w → Int) (old : Edges K m) (capa : Option (A → K)) (aux : Int → A) (q : Int → Fin m → K)
    (v : Fin m → K) (hq : ∀ i : Int, 1 - (c.g : Int) ≤ i → i ≤ c.n + c.g → q i = v)
    (hopt : ¬ (limType = 1 ∧ charDecomp = 0)) {e : Edges K m}
    (he : fRecon eps tol undef first rp c limType charDecomp order fwave limEqn limWave old none aux q = some e) (i : Int)
    (h1 : 1 ≤ i) (h2 : i ≤ c.n) : (flux1 f2003 rp tf c capa aux e).1 i = 0 := by
  have hu := fRecon_uniform eps tol undef heps first rp hrp c hg limType charDecomp order hgo fwave limEqn limWave old aux q v
    hq hopt he
  have e1 : i - 1 + 1 = i := by ring
  have e2 : i + 1 - 1 = i := by ring
  cases tf with
  | none =>
    simp only [flux1]
    rw [if_pos (by omega), e1, e2, (hu i (by omega) (by omega)).1 (by omega), (hu (i + 1) (by omega) (by omega)).2 (by omega),
      (hu (i - 1) (by omega) (by omega)).1 (by omega), 
      (hu i (by omega) (by omega)).2 (by omega), (hrp v _ _).2.1, (hrp v _ _).2.2, (hrp v (aux i) (aux i)).2.1,
      (hrp v (aux i) (aux i)).2.2]
    simp
  | some t =>
    simp only [flux1]
    rw [if_pos (by omega), e2, (hu i (by omega) (by omega)).1 (by omega), (hu (i + 1) (by omega) (by omega)).2 (by omega),
      (hu (i - 1) (by omega) (by omega)).1 (by omega), 
      (hu i (by omega) (by omega)).2 (by omega), (hrp v _ _).2.1, (hrp v _ _).2.2, ht t rfl]
    simp

/-- Non-vacuity of C68: advection, WENO5 by waves, on five cells. -/
example : ∃ e, fRecon (1 / 1000000) (1 / 100000000000000) 0 (fun _ => 0) (advectionRp (1 : ℚ)) ⟨5, 3, 1 / 2, 1⟩ 2 1 5
      false (fun _ => 0) (fun _ => 0) ⟨fun _ _ => 0, fun _ _ => 0⟩ none (fun _ => ()) (fun _ _ => 7) = some e ∧
    (flux1 true (advectionRp (1 : ℚ)) none ⟨5, 3, 1 / 2, 1⟩ none (fun _ => ()) e).1 2 = 0 :=
  ⟨_, rfl, C68_fortran_uniform_partial (1 / 1000000) (1 / 100000000000000) 0 (by decide +kernel) (fun _ => 0) true
    (advectionRp (1 : ℚ)) (advectionRp_quiet 1) none (by intro t h; cases h) ⟨5, 3, 1 / 2, 1⟩ (by decide) 2 1 5 (by decide) false
    (fun _ => 0) (fun _ => 0) ⟨fun _ _ => 0, fun _ _ => 0⟩ none (fun _ => ()) (fun _ _ => 7) (fun _ => 7)
    (fun _ _ _ => rfl) (by decide) rfl 2 (by decide) (by decide)⟩

/-! ### Conservation of a whole step -/

/-- The total as a linear map on arrays. -/
def totalMap (lo : Int) (n : Nat) (vol : Int → K) : (Int → Fin m → K) →ₗ[K] (Fin m → K) where
  toFun q := total lo n vol q
  map_add' x y := by simp [total, Finset.sum_add_distrib]
  map_smul' a x := by
    simp only [total, Pi.smul_apply, RingHom.id_apply, Finset.smul_sum]
    exact Finset.sum_congr rfl fun k _ => smul_comm _ _ _

/-- All Runge–Kutta methods of SharpClaw keep the total when the right-hand side has total zero. -/
def StepsConserve (lo : Int) (n : Nat) (vol : Int → K) (p : SharpRhs K (Int → Fin m → K)) : Prop :=
  ∀ (dt t : K) (q : Int → Fin m → K),
    let f0 := dt⁻¹ • p.dq dt t q
    total lo n vol (eulerStep dt f0 q) = total lo n vol q ∧
    total lo n vol (ssp22Step p dt t f0 q) = total lo n vol q ∧
    total lo n vol (ssp33Step p dt t f0 q) = total lo n vol q ∧
    total lo n vol (ssp104Step p dt t f0 q) = total lo n vol q ∧
    ∀ (a : Nat → Nat → K) (b c : Nat → K) (s : Nat), total lo n vol (rkStep p a b c s dt t f0 q) = total lo n vol q

theorem steps_conserve {lo : Int} {n : Nat} {vol : Int → K} {p : SharpRhs K (Int → Fin m → K)}
    (hdq : ∀ dt t x, total lo n vol (p.dq dt t x) = 0) (hst : ∀ t x, total lo n vol (p.stage t x) = total lo n vol x) :
    StepsConserve lo n vol p := by
  intro dt t q f0
  have h := C47_invariants (totalMap lo n vol) p hdq hst f0 q
    ((map_smul (totalMap lo n vol) dt⁻¹ (p.dq dt t q)).trans (by
      have : totalMap lo n vol (p.dq dt t q) = 0 := hdq dt t q
      rw [this, smul_zero])) dt t
  exact h

/-- C69, Fortran kernel: with periodic ghost cells, every Runge–Kutta method, any tableau, keeps the (capacity weighted)
total of every component, provided the `before_step` hook does. `fill` extends the interior by ghost cells. Missing: as
for `C44_fortran_conserves_partial`. -/
theorem C69_fortran_step_partial (eps tol undef : K) (first : Fin m → K) (f2003 : Bool) (rp : Riemann K A m w)
    (fl : (Fin m → K) → A → Fin m → K) (hf : FluxDifference rp fl)
    (tf : Option ((Fin m → K) → (Fin m → K) → A → A → Fin m → K)) (ht : ∀ t, tf = some t → TotalFluctuation t fl)
    (n g : Nat) (dx : K) (hdx : dx ≠ 0) (hg : 3 ≤ g) (limType charDecomp order : Int)
    (hgo : limType = 2 → order < 2 * g) (fwave : Bool)
    (limEqn : Fin m → Int) (limWave : Fin w → Int) (old : Edges K m) (hopt : ¬ (limType = 1 ∧ charDecomp = 1))
    (capa : Option (A → K)) (aux : Int → A) (hk : ∀ κ i, capa = some κ → κ (aux i) ≠ 0)
    (hcapa : f2003 = false ∨ capa = none) (ha : PeriodicGhost 1 g n aux)
    (fill : (Int → Fin m → K) → Int → Fin m → K) (hfill : ∀ x, PeriodicGhost 1 g n (fill x))
    (rec : K → (Int → Fin m → K) → Edges K m)
    (hrec : ∀ dt x, fRecon eps tol undef first rp ⟨n, g, dt, dx⟩ limType charDecomp order fwave limEqn limWave old none aux
      (fill x) = some (rec dt x))
    (stage : K → (Int → Fin m → K) → Int → Fin m → K)
    (hst : ∀ t x, total 1 n (cellVolume dx capa aux) (stage t x) = total 1 n (cellVolume dx capa aux) x) :
    StepsConserve 1 n (cellVolume dx capa aux)
      ⟨fun dt _ x => (flux1 f2003 rp tf ⟨n, g, dt, dx⟩ capa aux (rec dt x)).1, stage⟩ :=
  steps_conserve (fun dt _ x => C44_fortran_conserves_partial eps tol undef first f2003 rp fl hf tf ht ⟨n, g, dt, dx⟩ hdx hg
    limType charDecomp order hgo fwave limEqn limWave old hopt capa aux hk hcapa (fill x) (hfill x) ha (rec dt x) (hrec dt x))
    hst

/-- C69, Python kernel. The capacity function is the same in all stages: this is what `dq_hyperbolic` would do if it were
passed to the stages (see C51). -/
theorem C69_python_step (eps tol : K) (rp : Riemann K A m w) (fl : (Fin m → K) → A → Fin m → K)
    (hf : FluxDifference rp fl) (n g : Nat) (dx : K) (hdx : dx ≠ 0) (hg : 3 ≤ g) (limType charDecomp : Int)
    (capa : Option (A → K)) (aux : Int → A) (hk : ∀ κ i, capa = some κ → κ (aux i) ≠ 0) (ha : PeriodicGhost g g n aux)
    (fill : (Int → Fin m → K) → Int → Fin m → K) (hfill : ∀ x, PeriodicGhost g g n (fill x))
    (dq : K → (Int → Fin m → K) → (Int → Fin m → K) × K)
    (hdq : ∀ dt x, pyDqHyperbolic eps tol rp ⟨n, g, dt, dx⟩ limType charDecomp capa aux (fill x) = .ok (dq dt x))
    (stage : K → (Int → Fin m → K) → Int → Fin m → K)
    (hst : ∀ t x, total g n (cellVolume dx capa aux) (stage t x) = total g n (cellVolume dx capa aux) x) :
    StepsConserve g n (cellVolume dx capa aux) ⟨fun dt _ x => (dq dt x).1, stage⟩ :=
  steps_conserve (fun dt _ x => C44_python_conserves eps tol rp fl hf ⟨n, g, dt, dx⟩ hdx hg limType charDecomp capa aux hk
    (fill x) (hfill x) ha (dq dt x) (hdq dt x)) hst

/-- The periodic extension of an array. -/
def wrap (lo : Int) (n : Nat) (x : Int → Fin m → K) (i : Int) : Fin m → K := x ((i - lo) % n + lo)

theorem wrap_periodic (lo : Int) (g n : Nat) (x : Int → Fin m → K) : PeriodicGhost lo g n (wrap lo n x) := by
  intro i _ _
  unfold wrap
  have : i + n - lo = i - lo + n := by ring
  rw [this, Int.add_emod_right]

/-- Non-vacuity of C69: advection with WENO5 on `n` cells, identity hook, periodic extension. -/
example (n : Nat) : StepsConserve 3 n (cellVolume 1 none (fun _ => ()))
    ⟨fun dt _ x => (pyFlux1 (advectionRp (1 : ℚ)) ⟨n, 3, dt, 1⟩ none (fun _ => ())
      (pyWeno (1 / 1000000) (n + 2 * (3 : Nat)) (wrap 3 n x))).1, fun _ x => x⟩ :=
  C69_python_step (1 / 1000000) (1 / 100000000000000) (advectionRp (1 : ℚ)) _ (advectionRp_flux 1) n 3 1 (by decide +kernel)
    (by decide) 2 0 none (fun _ => ()) (by intro κ i h; cases h) (fun _ _ _ => rfl) (wrap 3 n) (fun x => wrap_periodic 3 3 n x)
    (fun dt x => pyFlux1 (advectionRp (1 : ℚ)) ⟨n, 3, dt, 1⟩ none (fun _ => ())
      (pyWeno (1 / 1000000) (n + 2 * (3 : Nat)) (wrap 3 n x)))
    (fun _ _ => rfl) (fun _ x => x) (fun _ _ => rfl)

end PyClaw
