import Verif.Lemmas.SharpPositive
import Verif.Props.SharpStep
import Verif.Props.Classic1
import Mathlib.LinearAlgebra.AffineSpace.AffineSubspace.Basic
import Mathlib.Data.Rat.Floor

/-!
C89: what every SharpClaw run keeps, with all time integrators.
-/
set_option linter.unusedSectionVars false

namespace PyClaw
open Spec

variable {K E F A : Type*} [Field K] [LinearOrder K] [IsStrictOrderedRing K] [FloorRing K] [AddCommGroup E] [Module K E]
  [AddCommGroup F] [Module K F] {m w : Nat}

theorem mem_iff_sub {S : AffineSubspace K E} {u : E} (hu : u ∈ S) (x : E) : x ∈ S ↔ x - u ∈ S.direction := by
  have := S.vsub_right_mem_direction_iff_mem hu x
  rw [vsub_eq_sub] at this
  exact this.symm

/-- C89. Let `S` be an affine subspace of the space of arrays to which the right-hand side is tangent and which the
`before_step` hooks keep. A solution that starts in `S` stays in `S`: in every session of `evolve_to_time` calls, with
fixed or variable steps, through accepted, rejected and discarded steps and exceptions, for every time integrator that
SharpClaw has. -/
theorem C89_invariant (env : SharpEnv K E) (S : AffineSubspace K E) (hT : Tangent env S) (c : SharpCfg K) (k : Nat)
    (hm : MethodOk env c k) (r : SharpRun K E) (hr : FreshFor k r.st) (hlog : r.log = []) (hq : r.st.q ∈ S)
    (ks : List (SharpCall K)) : Throughout (· ∈ S) (sharpSession env c ks r) := by
  have hmem := mem_iff_sub hq
  have ht : TangentIn env r.st.q S.direction := by
    refine ⟨fun dt t x hx => hT.dq dt t x ((hmem x).mpr hx), fun t x hx => ?_, fun t x hx => ?_⟩
    · rw [← hmem]; exact hT.before t x ((hmem x).mpr hx)
    · rw [← hmem]; exact hT.stage t x ((hmem x).mpr hx)
  have h0 : StateIn r.st.q S.direction r.st := by
    refine ⟨⟨by rw [sub_self]; exact Submodule.zero_mem _, ?_, ?_⟩, Or.inl hr.accept⟩
    · intro x hx
      rw [hr.regs] at hx
      rw [List.eq_of_mem_replicate hx, sub_self]
      exact Submodule.zero_mem _
    · rw [hr.prevDq]; simp
  have hlog' : ∀ a ∈ r.log, a.qBefore ∈ S ∧ a.qAfter ∈ S := by rw [hlog]; simp
  rcases hm with ⟨hi, hal⟩ | hc
  · have := session_in (env := env) (c := c) (I := StateIn r.st.q S.direction) (P := (· ∈ S))
      (fun mm ts te n s hs _ => attempt_in ht hs (by
        unfold CoefOk
        cases hci : c.integ <;> simp [hci, Integrator.isSspLmm] at hi <;> simp only
        exact hal _ _ hci))
      (fun s hs => (hmem _).mpr hs.q) ks r ⟨h0, hlog'⟩
    exact ⟨(hmem _).mpr this.1.q, this.2⟩
  · have hp : PosInv c k r.st := ⟨hr.dt, by rw [hr.regs]; simp, Or.inl hr⟩
    have := session_in (env := env) (c := c) (I := fun s => StateIn r.st.q S.direction s ∧ PosInv c k s) (P := (· ∈ S))
      (fun mm ts te n s hs hte => ⟨attempt_in ht hs.1 (coef_pos hc hs.2 hte), attempt_pos hc hs.2 hte⟩)
      (fun s hs => (hmem _).mpr hs.1.q) ks r ⟨⟨h0, hp⟩, hlog'⟩
    exact ⟨(hmem _).mpr this.1.1.q, this.2⟩

/-- C89, linear invariants: a linear quantity `L` of which the right-hand side has none, and which the hooks keep, has
the same value in all solutions of the session. -/
theorem C89_linear (env : SharpEnv K E) (L : E →ₗ[K] F) (hdq : ∀ dt t q, L (env.dq dt t q).1 = 0)
    (hb : ∀ t q, L (env.before t q) = L q) (hs : ∀ t q, L (env.stage t q) = L q) (c : SharpCfg K) (k : Nat)
    (hm : MethodOk env c k) (r : SharpRun K E) (hr : FreshFor k r.st) (hlog : r.log = []) (ks : List (SharpCall K)) :
    Throughout (fun q => L q = L r.st.q) (sharpSession env c ks r) := by
  have hmem : ∀ x, x ∈ AffineSubspace.mk' r.st.q (LinearMap.ker L) ↔ L x = L r.st.q := by
    intro x
    rw [AffineSubspace.mem_mk', vsub_eq_sub, LinearMap.mem_ker, map_sub, sub_eq_zero]
  have hT : Tangent env (AffineSubspace.mk' r.st.q (LinearMap.ker L)) := by
    refine ⟨fun dt t q _ => ?_, fun t q hq => ?_, fun t q hq => ?_⟩
    · rw [AffineSubspace.direction_mk', LinearMap.mem_ker]; exact hdq dt t q
    · rw [hmem] at hq ⊢; rw [hb, hq]
    · rw [hmem] at hq ⊢; rw [hs, hq]
  have h := C89_invariant env _ hT c k hm r hr hlog ((hmem _).mpr rfl) ks
  exact ⟨(hmem _).mp h.1, fun a ha => ⟨(hmem _).mp (h.2 a ha).1, (hmem _).mp (h.2 a ha).2⟩⟩

/-- C89, steady data: if at every array that agrees with the data on a set `J` of cells (the interior) the right-hand side
vanishes on `J`, and the hooks do not change such an array on `J`, then the solution never changes there. -/
theorem C89_steady {ι : Type*} (J : Set ι) (env : SharpEnv K (ι → Fin m → K)) (q0 : ι → Fin m → K)
    (hdq : ∀ dt t q, (∀ i ∈ J, q i = q0 i) → ∀ i ∈ J, (env.dq dt t q).1 i = 0)
    (hb : ∀ t q, (∀ i ∈ J, q i = q0 i) → ∀ i ∈ J, env.before t q i = q0 i)
    (hs : ∀ t q, (∀ i ∈ J, q i = q0 i) → ∀ i ∈ J, env.stage t q i = q0 i) (c : SharpCfg K) (k : Nat)
    (hm : MethodOk env c k) (r : SharpRun K (ι → Fin m → K)) (hr : FreshFor k r.st) (hlog : r.log = [])
    (hq : ∀ i ∈ J, r.st.q i = q0 i) (ks : List (SharpCall K)) :
    Throughout (fun q => ∀ i ∈ J, q i = q0 i) (sharpSession env c ks r) := by
  let D : Submodule K (ι → Fin m → K) :=
    { carrier := {d | ∀ i ∈ J, d i = 0}
      add_mem' := by
        intro a b ha hb i hi
        rw [Pi.add_apply, ha i hi, hb i hi, add_zero]
      zero_mem' := fun _ _ => rfl
      smul_mem' := by
        intro a b hb i hi
        rw [Pi.smul_apply, hb i hi, smul_zero] }
  have hmem : ∀ x, x ∈ AffineSubspace.mk' q0 D ↔ ∀ i ∈ J, x i = q0 i := by
    intro x
    rw [AffineSubspace.mem_mk', vsub_eq_sub]
    show (∀ i ∈ J, (x - q0) i = 0) ↔ _
    simp only [Pi.sub_apply, sub_eq_zero]
  have hT : Tangent env (AffineSubspace.mk' q0 D) := by
    refine ⟨fun dt t q hq => ?_, fun t q hq => ?_, fun t q hq => ?_⟩
    · rw [AffineSubspace.direction_mk']
      exact hdq dt t q ((hmem _).mp hq)
    · rw [hmem] at hq ⊢; exact hb t q hq
    · rw [hmem] at hq ⊢; exact hs t q hq
  have h := C89_invariant env _ hT c k hm r hr hlog ((hmem _).mpr hq) ks
  exact ⟨(hmem _).mp h.1, fun a ha => ⟨(hmem _).mp (h.2 a ha).1, (hmem _).mp (h.2 a ha).2⟩⟩

/-- C89, conservation with the Python kernel and periodic ghost cells: all recorded solutions have the same (capacity
weighted) total of every component. As in C69, `fill` extends the interior by ghost cells and the capacity function is the
same in all stages. -/
theorem C89_python_conserves (eps tol : K) (rp : Riemann K A m w) (fl : (Fin m → K) → A → Fin m → K)
    (hf : FluxDifference rp fl) (n g : Nat) (dx : K) (hdx : dx ≠ 0) (hg : 3 ≤ g) (limType charDecomp : Int)
    (capa : Option (A → K)) (aux : Int → A) (hk : ∀ κ i, capa = some κ → κ (aux i) ≠ 0) (ha : PeriodicGhost g g n aux)
    (fill : (Int → Fin m → K) → Int → Fin m → K) (hfill : ∀ x, PeriodicGhost g g n (fill x))
    (dq : K → (Int → Fin m → K) → (Int → Fin m → K) × K)
    (hdq : ∀ dt x, pyDqHyperbolic eps tol rp ⟨n, g, dt, dx⟩ limType charDecomp capa aux (fill x) = .ok (dq dt x))
    (before stage : K → (Int → Fin m → K) → Int → Fin m → K)
    (hb : ∀ t x, total g n (cellVolume dx capa aux) (before t x) = total g n (cellVolume dx capa aux) x)
    (hst : ∀ t x, total g n (cellVolume dx capa aux) (stage t x) = total g n (cellVolume dx capa aux) x)
    (c : SharpCfg K) (k : Nat) (hm : MethodOk ⟨fun dt _ x => dq dt x, stage, before⟩ c k)
    (r : SharpRun K (Int → Fin m → K)) (hr : FreshFor k r.st) (hlog : r.log = []) (ks : List (SharpCall K)) :
    Throughout (fun q => total g n (cellVolume dx capa aux) q = total g n (cellVolume dx capa aux) r.st.q)
      (sharpSession ⟨fun dt _ x => dq dt x, stage, before⟩ c ks r) :=
  C89_linear ⟨fun dt _ x => dq dt x, stage, before⟩ (totalMap g n (cellVolume dx capa aux))
    (fun dt _ x => C44_python_conserves eps tol rp fl hf ⟨n, g, dt, dx⟩ hdx hg limType charDecomp capa aux hk
      (fill x) (hfill x) ha (dq dt x) (hdq dt x)) hb hst c k hm r hr hlog ks

/-- C69 for whole runs (C89) with the Fortran kernel. Missing: as for `C44_fortran_conserves_partial`. -/
theorem C69_fortran_run_partial (eps tol undef : K) (first : Fin m → K) (f2003 : Bool) (rp : Riemann K A m w)
    (fl : (Fin m → K) → A → Fin m → K) (hf : FluxDifference rp fl)
    (tf : Option ((Fin m → K) → (Fin m → K) → A → A → Fin m → K)) (ht : ∀ t, tf = some t → TotalFluctuation t fl)
    (n g : Nat) (dx : K) (hdx : dx ≠ 0) (hg : 3 ≤ g) (limType charDecomp order : Int)
    (hgo : limType = 2 → order < 2 * g) (fwave : Bool)
    (limEqn : Fin m → Int) (limWave : Fin w → Int) (old : Edges K m) (hopt : ¬ (limType = 1 ∧ charDecomp = 1))
    (capa : Option (A → K)) (aux : Int → A) (hk : ∀ κ i, capa = some κ → κ (aux i) ≠ 0)
    (hcapa : f2003 = false ∨ capa = none) (ha : PeriodicGhost 1 g n aux)
    (fill : (Int → Fin m → K) → Int → Fin m → K) (hfill : ∀ x, PeriodicGhost 1 g n (fill x))
    (rec : K → (Int → Fin m → K) → Edges K m)
    (hrec : ∀ dt x, fRecon eps tol undef first rp ⟨n, g, dt, dx⟩ limType charDecomp order fwave limEqn limWave old none aux
      (fill x) = some (rec dt x))
    (before stage : K → (Int → Fin m → K) → Int → Fin m → K)
    (hb : ∀ t x, total 1 n (cellVolume dx capa aux) (before t x) = total 1 n (cellVolume dx capa aux) x)
    (hst : ∀ t x, total 1 n (cellVolume dx capa aux) (stage t x) = total 1 n (cellVolume dx capa aux) x)
    (c : SharpCfg K) (k : Nat)
    (hm : MethodOk ⟨fun dt _ x => flux1 f2003 rp tf ⟨n, g, dt, dx⟩ capa aux (rec dt x), stage, before⟩ c k)
    (r : SharpRun K (Int → Fin m → K)) (hr : FreshFor k r.st) (hlog : r.log = []) (ks : List (SharpCall K)) :
    Throughout (fun q => total 1 n (cellVolume dx capa aux) q = total 1 n (cellVolume dx capa aux) r.st.q)
      (sharpSession ⟨fun dt _ x => flux1 f2003 rp tf ⟨n, g, dt, dx⟩ capa aux (rec dt x), stage, before⟩ c ks r) :=
  C89_linear ⟨fun dt _ x => flux1 f2003 rp tf ⟨n, g, dt, dx⟩ capa aux (rec dt x), stage, before⟩
    (totalMap 1 n (cellVolume dx capa aux))
    (fun dt _ x => C44_fortran_conserves_partial eps tol undef first f2003 rp fl hf tf ht ⟨n, g, dt, dx⟩ hdx hg
      limType charDecomp order hgo fwave limEqn limWave old hopt capa aux hk hcapa (fill x) (hfill x) ha (rec dt x)
      (hrec dt x)) hb hst c k hm r hr hlog ks

/-- C89, uniform states with the Python kernel: `fill` extends a uniform interior to uniform ghost cells, as periodic and
zero-order extrapolation boundaries do; the solution never changes. -/
theorem C89_python_uniform (eps tol : K) (rp : Riemann K A m w) (hrp : Quiet rp) (n g : Nat) (dx : K) (hg : 3 ≤ g)
    (limType charDecomp : Int) (capa : Option (A → K)) (aux : Int → A) (v : Fin m → K)
    (fill : (Int → Fin m → K) → Int → Fin m → K)
    (hfill : ∀ x, (∀ i : Int, (g : Int) ≤ i → i < g + n → x i = v) → ∀ i : Int, 0 ≤ i → i < n + 2 * g → fill x i = v)
    (dq : K → (Int → Fin m → K) → (Int → Fin m → K) × K)
    (hdq : ∀ dt x, pyDqHyperbolic eps tol rp ⟨n, g, dt, dx⟩ limType charDecomp capa aux (fill x) = .ok (dq dt x))
    (c : SharpCfg K) (k : Nat) (hm : MethodOk ⟨fun dt _ x => dq dt x, fun _ x => x, fun _ x => x⟩ c k)
    (r : SharpRun K (Int → Fin m → K)) (hr : FreshFor k r.st) (hlog : r.log = [])
    (hq : ∀ i : Int, (g : Int) ≤ i → i < g + n → r.st.q i = v) (ks : List (SharpCall K)) :
    Throughout (fun q => ∀ i : Int, (g : Int) ≤ i → i < g + n → q i = v)
      (sharpSession ⟨fun dt _ x => dq dt x, fun _ x => x, fun _ x => x⟩ c ks r) := by
  have h := C89_steady {i : Int | (g : Int) ≤ i ∧ i < g + n} ⟨fun dt _ x => dq dt x, fun _ x => x, fun _ x => x⟩
    (fun _ => v) (fun dt _ x hx i hi => C68_python_uniform eps tol rp hrp ⟨n, g, dt, dx⟩ hg limType charDecomp capa aux
      (fill x) v (fun j h1 h2 => hfill x (fun l h3 h4 => hx l ⟨h3, h4⟩) j h1 h2) (dq dt x) (hdq dt x) i hi.1 hi.2)
    (fun _ _ hx => hx) (fun _ _ hx => hx) c k hm r hr hlog (fun i hi => hq i hi.1 hi.2) ks
  exact ⟨fun i h1 h2 => h.1 i ⟨h1, h2⟩, fun a ha =>
    ⟨fun i h1 h2 => (h.2 a ha).1 i ⟨h1, h2⟩, fun i h1 h2 => (h.2 a ha).2 i ⟨h1, h2⟩⟩⟩

/-- C68 for whole runs (C89) with the Fortran kernel. Missing: component-wise TVD, as for `C68_fortran_uniform_partial`. -/
theorem C68_fortran_run_partial (eps tol undef : K) (heps : 0 < eps) (first : Fin m → K) (f2003 : Bool)
    (rp : Riemann K A m w) (hrp : Quiet rp)
    (tf : Option ((Fin m → K) → (Fin m → K) → A → A → Fin m → K)) (ht : ∀ t, tf = some t → ∀ u a, t u u a a = 0)
    (n g : Nat) (dx : K) (hg : 3 ≤ g) (limType charDecomp order : Int) (hgo : limType = 2 → order < 2 * g) (fwave : Bool)
    (limEqn : Fin m → Int) (limWave : Fin w → Int) (old : Edges K m) (hopt : ¬ (limType = 1 ∧ charDecomp = 0))
    (capa : Option (A → K)) (aux : Int → A) (v : Fin m → K) (fill : (Int → Fin m → K) → Int → Fin m → K)
    (hfill : ∀ x, (∀ i : Int, 1 ≤ i → i ≤ n → x i = v) → ∀ i : Int, 1 - (g : Int) ≤ i → i ≤ n + g → fill x i = v)
    (rec : K → (Int → Fin m → K) → Edges K m)
    (hrec : ∀ dt x, fRecon eps tol undef first rp ⟨n, g, dt, dx⟩ limType charDecomp order fwave limEqn limWave old none aux
      (fill x) = some (rec dt x))
    (c : SharpCfg K) (k : Nat)
    (hm : MethodOk ⟨fun dt _ x => flux1 f2003 rp tf ⟨n, g, dt, dx⟩ capa aux (rec dt x), fun _ x => x, fun _ x => x⟩ c k)
    (r : SharpRun K (Int → Fin m → K)) (hr : FreshFor k r.st) (hlog : r.log = [])
    (hq : ∀ i : Int, 1 ≤ i → i ≤ n → r.st.q i = v) (ks : List (SharpCall K)) :
    Throughout (fun q => ∀ i : Int, 1 ≤ i → i ≤ n → q i = v)
      (sharpSession ⟨fun dt _ x => flux1 f2003 rp tf ⟨n, g, dt, dx⟩ capa aux (rec dt x), fun _ x => x, fun _ x => x⟩
        c ks r) := by
  have h := C89_steady {i : Int | 1 ≤ i ∧ i ≤ n}
    ⟨fun dt _ x => flux1 f2003 rp tf ⟨n, g, dt, dx⟩ capa aux (rec dt x), fun _ x => x, fun _ x => x⟩
    (fun _ => v) (fun dt _ x hx i hi => C68_fortran_uniform_partial eps tol undef heps first f2003 rp hrp tf ht
      ⟨n, g, dt, dx⟩ hg limType charDecomp order hgo fwave limEqn limWave old capa aux (fill x) v
      (fun j h1 h2 => hfill x (fun l h3 h4 => hx l ⟨h3, h4⟩) j h1 h2) hopt (hrec dt x) i hi.1 hi.2)
    (fun _ _ hx => hx) (fun _ _ hx => hx) c k hm r hr hlog (fun i hi => hq i hi.1 hi.2) ks
  exact ⟨fun i h1 h2 => h.1 i ⟨h1, h2⟩, fun a ha =>
    ⟨fun i h1 h2 => (h.2 a ha).1 i ⟨h1, h2⟩, fun i h1 h2 => (h.2 a ha).2 i ⟨h1, h2⟩⟩⟩

/-! ### Non-vacuity -/

/-- Advection with speed 1 on `n` periodic cells, WENO reconstruction, Python kernel. -/
def sharpAdvEnv (n : Nat) : SharpEnv ℚ (Int → Fin 1 → ℚ) :=
  ⟨fun dt _ x => pyFlux1 (advectionRp 1) ⟨n, 3, dt, 1⟩ none (fun _ => ()) (pyWeno (1 / 1000000) (n + 2 * (3 : Nat)) (wrap 3 n x)),
    fun _ x => x, fun _ x => x⟩

theorem sharpAdvEnv_speed (n : Nat) (dt t : ℚ) (q : Int → Fin 1 → ℚ) (h : 0 < dt) : 0 < ((sharpAdvEnv n).dq dt t q).2 := by
  have := pyCfl_spec ((3 : Nat) - 1 : Int) (n + (3 : Nat) + 1) (by omega) (fun _ => dt / 1) (fun _ _ _ => by simpa using h.le)
    (fun i => advectionRp (1 : ℚ) ((pyWeno (1 / 1000000) (n + 2 * (3 : Nat)) (wrap 3 n q)).qr i)
      ((pyWeno (1 / 1000000) (n + 2 * (3 : Nat)) (wrap 3 n q)).ql (i + 1)) () ())
  have h2 := this.2.1 2 0 (by norm_num) (by push_cast; omega)
  refine lt_of_lt_of_le ?_ h2
  simp [courant, advectionRp, h]

/-- `SSPLMMk3` with four steps, variable step sizes and the third-order check. -/
def ssp3Cfg : SharpCfg ℚ := ⟨.ssplmmk3, true, 10, 1 / 3, 3 / 10, 4, 1 / 3, true⟩

/-- The two-step Adams–Bashforth method. -/
def ab2Cfg : SharpCfg ℚ := ⟨.lmm [0, 1] [-1 / 2, 3 / 2], false, 10, 1, 9 / 10, 2, 1, false⟩

example (n : Nat) : MethodOk (sharpAdvEnv n) ssp3Cfg 4 :=
  Or.inr ⟨rfl, rfl, by decide, Or.inl rfl, by norm_num [ssp3Cfg], by norm_num [ssp3Cfg], by norm_num [ssp3Cfg],
    by norm_num [ssp3Cfg], sharpAdvEnv_speed n⟩

example (n : Nat) : MethodOk (sharpAdvEnv n) ab2Cfg 2 :=
  Or.inl ⟨rfl, by intro al be h; cases h; simp [AlphaSum, ab2Cfg]⟩

/-- A solver with `k` registers after `setup`, on the data `q`. -/
def startRun (k : Nat) (dt : ℚ) (q : Int → Fin 1 → ℚ) : SharpRun ℚ (Int → Fin 1 → ℚ) :=
  ⟨⟨dt, none, 0, true, 0, 0, List.replicate k (q, 0), [], [], [], 0, true, 0, q⟩, 1000, none, []⟩

/-- The conservation theorem applies to `SSPLMMk3`, for all grids, data and calls. -/
example (n : Nat) (q : Int → Fin 1 → ℚ) (ks : List (SharpCall ℚ)) :
    Throughout (fun x => total 3 n (cellVolume 1 none (fun _ => ())) x = total 3 n (cellVolume 1 none (fun _ => ())) q)
      (sharpSession (sharpAdvEnv n) ssp3Cfg ks (startRun 4 (1 / 10) q)) :=
  C89_python_conserves (1 / 1000000) (1 / 100000000000000) (advectionRp (1 : ℚ)) _ (advectionRp_flux 1) n 3 1 (by decide +kernel)
    (by decide) 2 0 none (fun _ => ()) (by intro κ i h; cases h) (fun _ _ _ => rfl) (wrap 3 n) (fun x => wrap_periodic 3 3 n x)
    (fun dt x => pyFlux1 (advectionRp (1 : ℚ)) ⟨n, 3, dt, 1⟩ none (fun _ => ())
      (pyWeno (1 / 1000000) (n + 2 * (3 : Nat)) (wrap 3 n x)))
    (fun _ _ => rfl) (fun _ x => x) (fun _ x => x) (fun _ _ => rfl) (fun _ _ => rfl) ssp3Cfg 4
    (Or.inr ⟨rfl, rfl, by decide, Or.inl rfl, by norm_num [ssp3Cfg], by norm_num [ssp3Cfg], by norm_num [ssp3Cfg],
      by norm_num [ssp3Cfg], sharpAdvEnv_speed n⟩)
    (startRun 4 (1 / 10) q) ⟨by norm_num [startRun], rfl, rfl, rfl, rfl, rfl, rfl, rfl⟩ rfl ks

/-- The condition on `alpha` is needed: with `alpha = [1, 1]` a steady solution of a zero right-hand side doubles. -/
theorem C89_alpha_needed :
    let env : SharpEnv ℚ ℚ := ⟨fun _ _ _ => (0, 0), fun _ q => q, fun _ q => q⟩
    let c : SharpCfg ℚ := ⟨.lmm [1, 1] [0, 0], false, 10, 1, 9 / 10, 2, 1, false⟩
    (sharpSession env c [⟨some 2, fun _ => 0, 1000⟩]
      ⟨⟨1, none, 0, true, 0, 0, [(5, 0), (5, 0)], [], [], [], 0, true, 0, 5⟩, 1000, none, []⟩).st.q = 10 := by
  decide +kernel

end PyClaw
