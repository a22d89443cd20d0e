import Verif.Spec.SharpUniform
import Verif.Lemmas.SharpImage
import Verif.Props.SharpTranslate
import Verif.Props.SharpStep
import Verif.Model.SharpGridPy

set_option linter.unusedSectionVars false

/-!
C113: SharpClaw on uniform data is the time integrator applied to the source term.
-/
namespace PyClaw
open Spec

variable {K : Type*} [Field K] [LinearOrder K] [IsStrictOrderedRing K] {d m w naux : Nat}

/-- Pairs of a uniform array and its values. -/
def uniformSub (bc : BCConfig (Fin d) K) : Submodule K (GArr (Fin d) K × (Nat → K)) where
  carrier := {x | UniformState bc x.1 x.2}
  add_mem' := by
    intro x y hx hy
    refine ⟨fun c idx h => congrArg₂ (· + ·) (hx.1 c idx h) (hy.1 c idx h), fun a ha => ?_⟩
    exact (congrArg₂ (· + ·) (hx.2 a ha) (hy.2 a ha)).trans (add_zero 0)
  zero_mem' := ⟨fun c idx _ => rfl, fun _ _ => rfl⟩
  smul_mem' := by
    intro b x hx
    exact ⟨fun c idx h => congrArg (b * ·) (hx.1 c idx h), fun a ha => (congrArg (b * ·) (hx.2 a ha)).trans (mul_zero b)⟩

theorem cellwise_uniform {n : Fin d → Nat} {q aux : GArr (Fin d) K} {u a : Nat → K} (hq : UniformIn n q u) (ha : UniformIn n aux a)
    (f : CellMap (Fin d) K) (hf : ∀ x y, f x = f y) : UniformIn n (cellwise f (fun _ => 0) q aux) (f (fun _ => 0) u a) := by
  intro c x hx
  unfold cellwise
  rw [hf (fun a => 0 + x a) fun _ => 0]
  congr 1
  · funext j; exact hq j x hx
  · funext j; exact ha j x hx

/-- What is needed of a kernel. -/
def QuietOn (step : IntKern (Fin d) K m naux) (n : Fin d → Nat) (g : Nat) (a : Nat → K) : Prop :=
  ∀ dt (u : Nat → K), ∃ cfl, ∀ A Q, (∀ v : Fin d → Int, (∀ i, 1 - (g : Int) ≤ v i ∧ v i ≤ n i + g) → (A v = fun k => a k.val) ∧ Q v = fun k => u k.val) →
    ∃ r, step dt n A Q = some (r, cfl) ∧ ∀ v : Fin d → Int, (∀ i, 1 ≤ v i ∧ v i ≤ n i) → r v = 0

theorem uniform_linked [FloorRing K] {step : IntKern (Fin d) K m naux} (c : SharpGrid (Fin d) K) (hk : c.kern = dqArrays m naux c.bc.g step)
    (hp : SharpUniform d c naux) (aux : GArr (Fin d) K) (a : Nat → K) (ha : UniformIn c.bc.n aux a) (S : QuietOn step c.bc.n c.bc.g a) :
    Linked (uniformSub c.bc) (serialSharp c aux) (cellODE c a (uniformCourant c aux)) where
  stage := fun t q u hq => ⟨cellwise_uniform hq.1 ha (c.stage t) (hp.stage t).1, (hp.stage t).2 _ u a hq.2⟩
  before := fun t q u hq => ⟨cellwise_uniform hq.1 ha (c.before t) (hp.before t).1, (hp.before t).2 _ u a hq.2⟩
  dq := by
    intro dt t q u hq
    have hq : UniformState c.bc q u := hq
    obtain ⟨cfl, S⟩ := S dt u
    have one : ∀ q : GArr (Fin d) K, UniformIn c.bc.n q u → ∃ D, dqSerial c aux dt t q = (withSource c (fun _ => 0) dt t q aux D, cfl) ∧
        UniformIn c.bc.n D 0 := by
      intro q hq1
      obtain ⟨wA, hw, f⟩ := closed_fill c.bc hp.admissible hp.serial c.axes (by rw [hp.axes]; exact List.nodup_finRange d)
        (by rw [hp.axes]; exact List.mem_finRange) m naux hp.numAux (fun z => z = fun k => u k.val)
        (fun b hb z hz => by
          funext k
          rw [hz]
          split_ifs with hk
          · show -u k.val = u k.val
            rw [hk, hq.2 b hb, neg_zero]
          · rfl) q aux ⟨fun _ _ => 0, fun _ _ => 0⟩ (fun x hx => funext fun k => hq1 _ _ hx)
      obtain ⟨r, h1, h2⟩ := S (fieldOf naux c.bc.g wA.aux) (fieldOf m c.bc.g wA.q) fun v hv => by
        obtain ⟨h1, y, hy, h2⟩ := f v hv
        exact ⟨h2.trans (funext fun k => ha _ _ hy), h1⟩
      refine ⟨fun k idx => if k < m then putBack m c.bc.g wA.q r k (fun a => idx a + c.bc.g) else 0, ?_, ?_⟩
      · have hw1 : applyBcs c.par.bc c.par.axes (gridData q aux).q (gridData q aux).aux (gridData q aux).work = (wA, .ok ()) := hw
        have hk1 : c.par.kern dt c.par.bc.n wA = dqArrays m naux c.bc.g step dt c.bc.n wA := by
          show c.kern dt c.bc.n wA = _
          rw [hk]
        unfold dqSerial hypSerial
        rw [hw1]
        dsimp only
        rw [hk1]
        unfold dqArrays onArrays
        rw [h1]
        rfl
      · intro j x hx
        dsimp only
        by_cases hj : j < m
        · rw [if_pos hj]
          unfold putBack
          rw [dif_pos hj]
          have e1 : ∀ (y : Fin d → Nat) a, (((y a + c.bc.g : Nat) : Int) + 1 - c.bc.g) = y a + 1 := fun y a => by omega
          simp only [e1]
          rw [h2 _ (fun i => by have := hx i; omega)]
          rfl
        · rw [if_neg hj]
          rfl
    obtain ⟨D, h1, h2⟩ := one q hq.1
    obtain ⟨D', h1', h2'⟩ := one (fun k _ => u k) fun _ _ _ => rfl
    refine ⟨?_, ?_⟩
    · show UniformState c.bc (dqSerial c aux dt t q).1 (cellSource c a dt t u)
      rw [h1]
      unfold withSource cellSource
      cases hsrc : c.source with
      | none => exact ⟨h2, fun _ _ => rfl⟩
      | some f =>
        refine ⟨fun j x hx => ?_, (hp.source f hsrc dt t).2 _ u a hq.2⟩
        have := cellwise_uniform hq.1 ha (f dt t) (hp.source f hsrc dt t).1 j x hx
        show D j x + cellwise (f dt t) (fun _ => 0) q aux j x = _
        rw [h2 j x hx, this]
        exact zero_add _
    · show (dqSerial c aux dt t fun k _ => u k).2 = (dqSerial c aux dt t q).2
      rw [h1, h1']

theorem quiet_of_wide {τ : Type*} {step : IntKern (Fin d) K m naux} {g : Nat} {ok : ((Fin d → Int) → Fin naux → K) → (Fin d → Int) → Prop}
    {new : K → ((Fin d → Int) → Fin naux → K) → ((Fin d → Int) → Fin m → K) → (Fin d → Int) → Fin m → K} {low : τ → Fin d → Int}
    {nums : K → ((Fin d → Int) → Fin naux → K) → ((Fin d → Int) → Fin m → K) → τ → (Fin d → Int) → K → Prop}
    (S : WideStencil step g ok new low nums) (n : Fin d → Nat) (hn : ∀ a, 0 < n a) (hok : ∀ A v, ok A v)
    (hzero : ∀ dt A u v, new dt A (fun _ => u) v = 0) {a : Nat → K} : QuietOn step n g a := by
  intro dt u
  let EA : (Fin d → Int) → Fin naux → K := fun _ k => a k.val
  let EQ : (Fin d → Int) → Fin m → K := fun _ k => u k.val
  obtain ⟨-, cfl, -, -, h0⟩ := S.runs dt n EA EQ hn fun v _ => hok _ v
  refine ⟨cfl, fun A Q fields => ?_⟩
  obtain ⟨r, cfl', h1, h2, h3⟩ := S.runs dt n A Q hn fun v _ => hok _ v
  have zero : ∀ v : Fin d → Int, (fun a => v a + 0) = v := fun v => funext fun a => add_zero _
  have e : ∀ t (v : Fin d → Int) x, (∀ a, low t a ≤ v a ∧ v a ≤ n a + 1) → (nums dt A Q t v x ↔ nums dt EA EQ t v x) := by
    intro t v x hv
    have := S.numsLocal dt EA A EQ Q t (fun _ => 0) v x fun y hy => fields y fun i => by
      have := hv i; have := hy i; have := S.low01 t i; omega
    rwa [zero v] at this
  obtain rfl : cfl' = cfl := by
    refine isMax_unique h3 ?_
    convert h0 using 1
    funext x
    exact propext ⟨fun ⟨t, v, hv, hx⟩ => ⟨t, v, hv, (e t v x hv).mp hx⟩, fun ⟨t, v, hv, hx⟩ => ⟨t, v, hv, (e t v x hv).mpr hx⟩⟩
  refine ⟨r, h1, fun v hv => ?_⟩
  rw [h2 v hv, S.newLocal dt EA _ EQ _ (fun _ => 0) _ fun y hy => fields y fun i => by have := hv i; have := hy i; omega]
  exact hzero dt EA (fun k => u k.val) _

/-! ### The kernels -/

/-- The reconstructions for which C68 is proved: no component-wise TVD; at least three ghost cells. -/
structure _root_.PyClaw.Spec.UniformRecon (R : ReconCfg K m w) (g : Nat) : Prop where
  fits : R.Fits g
  supported : R.Supported g
  eps : 0 < R.eps
  ghosts : 3 ≤ g
  order : R.limType = 2 → R.order < 2 * g
  notTvd : ¬ (R.limType = 1 ∧ R.charDecomp = 0)

theorem rowNew_uniform (f2003 : Bool) (R : ReconCfg K m w) {A : Type*} (rp : Riemann K A m w) (hrp : Quiet rp) (tf : TotalFluct K A m)
    (ht : ∀ t, tf = some t → ∀ u a, t u u a a = 0) (g : Nat) (h : UniformRecon R g) (dx : K) (capa : Option (A → K)) (dt : K)
    (aux : Int → A) (u : Fin m → K) (i : Int) : rowNew f2003 R rp tf g dx capa dt aux (fun _ => u) i = 0 := by
  unfold rowNew
  cases he : reconRow R rp 1 1 g (fun u => aux (u + (i - 1))) (fun _ => u) with
  | none => rfl
  | some e =>
    dsimp only
    unfold reconRow at he
    rw [ite_self] at he
    have hu := fRecon_uniform R.eps R.tol R.undef h.eps R.first rp hrp ⟨1, g, 0, 0⟩ h.ghosts R.limType R.charDecomp R.order h.order R.fwave R.limEqn
      R.limWave R.old (fun u => aux (u + (i - 1))) (fun _ => u) u (fun _ _ _ => rfl) h.notTvd he
    have hg := h.ghosts
    cases tf with
    | none =>
      simp only [flux1]
      norm_num
      have a1 := (hu 1 (by norm_num) (by norm_num)).1 (by norm_num)
      have a2 := (hu 2 (by norm_num) (by norm_num)).2 (by norm_num)
      have a3 := (hu 0 (by norm_num) (by norm_num)).1 (by norm_num)
      have a4 := (hu 1 (by norm_num) (by norm_num)).2 (by norm_num)
      simp only [a1, a2, a3, a4, (hrp _ _ _).2.1, (hrp _ _ _).2.2]
      simp
    | some t =>
      simp only [flux1]
      norm_num
      have a1 := (hu 1 (by norm_num) (by norm_num)).1 (by norm_num)
      have a2 := (hu 2 (by norm_num) (by norm_num)).2 (by norm_num)
      have a3 := (hu 0 (by norm_num) (by norm_num)).1 (by norm_num)
      have a4 := (hu 1 (by norm_num) (by norm_num)).2 (by norm_num)
      simp only [a1, a2, a3, a4, (hrp _ _ _).2.1, (hrp _ _ _).2.2, ht t rfl]
      simp

theorem sweeps_uniform (f2003 : Bool) (R : ReconCfg K m w) (g : Nat) (h : UniformRecon R g) (capa : Option ((Fin naux → K) → K))
    (rp : Fin d → Riemann K (Fin naux → K) m w) (hrp : ∀ t, Quiet (rp t)) (tf : Fin d → TotalFluct K (Fin naux → K) m)
    (ht : ∀ s t, tf s = some t → ∀ u a, t u u a a = 0) (dx : Fin d → K) (dt : K) (A : (Fin d → Int) → Fin naux → K) (u : Fin m → K)
    (v : Fin d → Int) : ∑ t, sweepNew f2003 R g capa rp tf dx t dt A (fun _ => u) v = 0 :=
  Finset.sum_eq_zero fun t _ => rowNew_uniform f2003 R (rp t) (hrp t) (tf t) (ht t) g h (dx t) capa dt _ u (v t)

/-- All states that the Python kernel reconstructs from uniform data are equal, in the ghost cells as well. -/
theorem pyRecon_uniform_all {A : Type*} (eps tol : K) (rp : Riemann K A m w) (hrp : Quiet rp) (N : Int) (limType charDecomp : Int) (aux : Int → A)
    (q : Int → Fin m → K) (v : Fin m → K) (hq : ∀ i : Int, 0 ≤ i → i < N → q i = v) {e : Edges K m}
    (he : pyRecon eps tol limType charDecomp N (fun i => rp (q i) (q (i + 1)) (aux i) (aux (i + 1))) q = .ok e) (i : Int) (h1 : 0 ≤ i) (h2 : i < N) :
    e.qr i = v ∧ e.ql i = v := by
  unfold pyRecon at he
  split at he
  · cases he
    exact ⟨hq i h1 h2, hq i h1 h2⟩
  · split at he
    · cases he
    · split at he
      · cases he
      · split at he
        · split at he
          · cases he
            refine ⟨?_, ?_⟩ <;> funext x
            · simp only [pyWeno, pyWenoQr]
              split_ifs with h
              · rw [(shuValue_congr eps _ (fun _ => v x) (i + 1) (fun j _ _ => by rw [hq j (by omega) (by omega)])).1, shuValue_const]
              · rw [hq i h1 h2]
            · simp only [pyWeno, pyWenoQl]
              split_ifs with h
              · rw [(shuValue_congr eps _ (fun _ => v x) i (fun j _ _ => by rw [hq j (by omega) (by omega)])).2, shuValue_const]
              · rw [hq i h1 h2]
          · split at he
            · cases he
              refine ⟨?_, ?_⟩
              · simp only [pyWenoWave]
                split_ifs with h
                · rw [hq i (by omega) (by omega)]
                  refine foldl_const _ _ _ fun p => ?_
                  simp only [pyWaveTerm]
                  rw [hq i (by omega) (by omega), hq (i + 1) (by omega) (by omega)]
                  funext x
                  simp [(hrp v (aux i) (aux (i + 1))).1 p]
                · exact hq i h1 h2
              · simp only [pyWenoWave]
                split_ifs with h
                · rw [hq i (by omega) (by omega)]
                  refine foldl_const _ _ _ fun p => ?_
                  simp only [pyWaveTerm]
                  rw [hq (i - 1) (by omega) (by omega), hq (i - 1 + 1) (by omega) (by omega)]
                  funext x
                  simp [(hrp v (aux (i - 1)) (aux i)).1 p]
                · exact hq i h1 h2
            · split at he <;> cases he
        · cases he

theorem quiet_python (eps tol : K) (limType charDecomp : Int) (hl : limType = -1 ∨ limType = 2 ∧ (charDecomp = 0 ∨ charDecomp = 1))
    (rp : Riemann K (Fin naux → K) m w) (hrp : Quiet rp) (g : Nat) (hg : 3 ≤ g) (dx : K) (capa : Option ((Fin naux → K) → K)) (n : Fin 1 → Nat)
    {a : Nat → K} : QuietOn (intPyFlux1 eps tol limType charDecomp rp g dx capa) n g a := by
  intro dt u
  let U : Fin m → K := fun k => u k.val
  let V : Fin naux → K := fun k => a k.val
  let lam : K := match capa with
    | some κ => dt / (dx * κ V)
    | none => dt / dx
  refine ⟨pyCfl (g - 1) (n 0 + g + 1) (fun _ => lam) (fun _ => rp U U V V), fun A Q fields => ?_⟩
  have hA : ∀ i : Int, 0 ≤ i → i < n 0 + 2 * g → A (fun _ => i + (1 - g)) = V := fun i h1 h2 =>
    (fields _ fun j => by rw [Subsingleton.elim j 0]; omega).1
  have hQ : ∀ i : Int, 0 ≤ i → i < n 0 + 2 * g → Q (fun _ => i + (1 - g)) = U := fun i h1 h2 =>
    (fields _ fun j => by rw [Subsingleton.elim j 0]; omega).2
  obtain ⟨e, he⟩ : ∃ e, pyRecon eps tol limType charDecomp ((n 0 : Int) + 2 * g) (fun i => rp (Q fun _ => i + (1 - g)) (Q fun _ => i + 1 + (1 - g))
      (A fun _ => i + (1 - g)) (A fun _ => i + 1 + (1 - g))) (fun i => Q fun _ => i + (1 - g)) = .ok e := by
    unfold pyRecon
    rcases hl with rfl | ⟨rfl, rfl | rfl⟩ <;> norm_num
  have hu := pyRecon_uniform_all eps tol rp hrp ((n 0 : Int) + 2 * g) limType charDecomp (fun i => A fun _ => i + (1 - g))
    (fun i => Q fun _ => i + (1 - g)) U hQ he
  have hr : pyDqHyperbolic eps tol rp ⟨n 0, g, dt, dx⟩ limType charDecomp capa (fun i => A fun _ => i + (1 - g)) (fun i => Q fun _ => i + (1 - g)) =
      .ok (pyFlux1 rp ⟨n 0, g, dt, dx⟩ capa (fun i => A fun _ => i + (1 - g)) e) := by
    unfold pyDqHyperbolic
    simp only [he]
  refine ⟨fun v => (pyFlux1 rp ⟨n 0, g, dt, dx⟩ capa (fun i => A fun _ => i + (1 - g)) e).1 (v 0 + g - 1), ?_, fun v hv => ?_⟩
  · have e1 : (pyFlux1 rp ⟨n 0, g, dt, dx⟩ capa (fun i => A fun _ => i + (1 - g)) e).2 =
        pyCfl (g - 1) (n 0 + g + 1) (localRatio dt dx capa fun i => A fun _ => i + (1 - g))
          (fun i => rp (e.qr i) (e.ql (i + 1)) (A fun _ => i + (1 - g)) (A fun _ => i + 1 + (1 - g))) := by
      cases capa <;> rfl
    unfold intPyFlux1
    rw [hr]
    dsimp only
    rw [e1]
    congr 2
    refine isMax_unique ((pyCfl_isMax _ _ (by omega) _ _)) (isMax_congr (fun x => ?_) (pyCfl_isMax _ _ (by omega) _ _))
    refine exists_congr fun i => and_congr_right fun i1 => and_congr_right fun i2 => ?_
    unfold WaveNumber localRatio
    have a1 := hA i (by omega) (by omega)
    have a2 := hA (i - 1) (by omega) (by omega)
    have q1 := (hu (i - 1) (by omega) (by omega)).1
    have q2 := (hu i (by omega) (by omega)).2
    have ei : i - 1 + 1 = i := by ring
    simp only [ei, a1, a2, q1, q2]
    cases capa <;> rfl
  · exact C68_python_uniform eps tol rp hrp ⟨n 0, g, dt, dx⟩ hg limType charDecomp capa (fun i => A fun _ => i + (1 - g))
      (fun i => Q fun _ => i + (1 - g)) U hQ _ hr (v 0 + g - 1) (by have := hv 0; dsimp only; omega) (by have := hv 0; dsimp only; omega)

variable [FloorRing K]

/-- C113 in one dimension: a SharpClaw run with built-in boundary conditions on a grid whose cells all hold the same values (with no velocity
towards a wall), with the same aux values everywhere and a source term and `before_step` that do not depend on the position, is in every cell the run of the same time integrator for
the ordinary differential equation of one cell: the same steps, accepted or not, the same times, and the same values at every stage. Missing:
the component-wise TVD reconstruction (0/0 on uniform data). -/
theorem C113_flux1_partial (f2003 : Bool) (R : ReconCfg K m w) (c : SharpGrid (Fin 1) K) (hR : UniformRecon R c.bc.g)
    (capa : Option ((Fin naux → K) → K)) (hcap : capa = none ∨ f2003 = false) (rp : Riemann K (Fin naux → K) m w) (hrp : Quiet rp)
    (tf : TotalFluct K (Fin naux → K) m) (ht : ∀ t, tf = some t → ∀ u a, t u u a a = 0) (dx : K)
    (hk : c.kern = dqArrays m naux c.bc.g (intFlux1 f2003 R rp tf c.bc.g dx capa)) (hp : SharpUniform 1 c naux)
    (aux : GArr (Fin 1) K) (a : Nat → K) (ha : UniformIn c.bc.n aux a) (cfg : SharpCfg K) (goals : List (SharpGoal K))
    (r : SharpRun K (GArr (Fin 1) K)) (r' : SharpRun K (Nat → K)) (h : SameSharp (UniformState c.bc) r r') :
    SameSharp (UniformState c.bc) (sharpSessionC (serialSharp c aux) cfg goals r).1
      (sharpSessionC (cellODE c a (uniformCourant c aux)) cfg goals r').1 ∧
    (sharpSessionC (cellODE c a (uniformCourant c aux)) cfg goals r').2 = (sharpSessionC (serialSharp c aux) cfg goals r).2 :=
  pair_session (uniform_linked c hk hp aux a ha (quiet_of_wide (flux1_sweeps f2003 R c.bc.g capa hcap hR.fits (fun _ => rp) (fun _ => tf) (fun _ => dx)) c.bc.n (fun a => (hp.admissible.cells a).1)
    (fun _ _ => hR.supported) fun dt A u v => sweeps_uniform f2003 R c.bc.g hR capa _ (fun _ => hrp) _ (fun _ => ht) _ dt A u v)) cfg goals h

/-- C113 for the Python kernel, with all reconstructions that it has. -/
theorem C113_python (eps tol : K) (limType charDecomp : Int) (hl : limType = -1 ∨ limType = 2 ∧ (charDecomp = 0 ∨ charDecomp = 1))
    (c : SharpGrid (Fin 1) K) (hg : 3 ≤ c.bc.g) (capa : Option ((Fin naux → K) → K)) (rp : Riemann K (Fin naux → K) m w) (hrp : Quiet rp) (dx : K)
    (hk : c.kern = dqArrays m naux c.bc.g (intPyFlux1 eps tol limType charDecomp rp c.bc.g dx capa)) (hp : SharpUniform 1 c naux)
    (aux : GArr (Fin 1) K) (a : Nat → K) (ha : UniformIn c.bc.n aux a) (cfg : SharpCfg K) (goals : List (SharpGoal K))
    (r : SharpRun K (GArr (Fin 1) K)) (r' : SharpRun K (Nat → K)) (h : SameSharp (UniformState c.bc) r r') :
    SameSharp (UniformState c.bc) (sharpSessionC (serialSharp c aux) cfg goals r).1
      (sharpSessionC (cellODE c a (uniformCourant c aux)) cfg goals r').1 ∧
    (sharpSessionC (cellODE c a (uniformCourant c aux)) cfg goals r').2 = (sharpSessionC (serialSharp c aux) cfg goals r).2 :=
  pair_session (uniform_linked c hk hp aux a ha (quiet_python eps tol limType charDecomp hl rp hrp c.bc.g hg dx capa c.bc.n)) cfg goals h

/-- C113 in two dimensions. -/
theorem C113_flux2_partial (f2003 : Bool) (R : ReconCfg K m w) (c : SharpGrid (Fin 2) K) (hR : UniformRecon R c.bc.g)
    (capa : Option ((Fin naux → K) → K)) (hcap : capa = none ∨ f2003 = false) (rp : Fin 2 → Riemann K (Fin naux → K) m w) (hrp : ∀ t, Quiet (rp t))
    (tf : Fin 2 → TotalFluct K (Fin naux → K) m) (ht : ∀ s t, tf s = some t → ∀ u a, t u u a a = 0) (dx : Fin 2 → K)
    (hk : c.kern = dqArrays m naux c.bc.g (intFlux2 f2003 R (rp 0) (rp 1) (tf 0) (tf 1) c.bc.g (dx 0) (dx 1) capa)) (hp : SharpUniform 2 c naux)
    (aux : GArr (Fin 2) K) (a : Nat → K) (ha : UniformIn c.bc.n aux a) (cfg : SharpCfg K) (goals : List (SharpGoal K))
    (r : SharpRun K (GArr (Fin 2) K)) (r' : SharpRun K (Nat → K)) (h : SameSharp (UniformState c.bc) r r') :
    SameSharp (UniformState c.bc) (sharpSessionC (serialSharp c aux) cfg goals r).1
      (sharpSessionC (cellODE c a (uniformCourant c aux)) cfg goals r').1 ∧
    (sharpSessionC (cellODE c a (uniformCourant c aux)) cfg goals r').2 = (sharpSessionC (serialSharp c aux) cfg goals r).2 :=
  pair_session (uniform_linked c hk hp aux a ha (quiet_of_wide (flux2_wide f2003 R c.bc.g capa hcap hR.fits (rp 0) (rp 1) (tf 0) (tf 1) (dx 0) (dx 1)) c.bc.n (fun a => (hp.admissible.cells a).1)
    (fun _ _ => hR.supported) fun dt A u v => sweeps_uniform f2003 R c.bc.g hR capa _ (Fin.forall_fin_two.mpr ⟨hrp 0, hrp 1⟩) _
      (Fin.forall_fin_two.mpr ⟨ht 0, ht 1⟩) _ dt A u v)) cfg goals h

/-- C113 in three dimensions. -/
theorem C113_flux3_partial (f2003 : Bool) (R : ReconCfg K m w) (c : SharpGrid (Fin 3) K) (hR : UniformRecon R c.bc.g)
    (capa : Option ((Fin naux → K) → K)) (hcap : capa = none ∨ f2003 = false) (rp : Fin 3 → Riemann K (Fin naux → K) m w) (hrp : ∀ t, Quiet (rp t))
    (tf : Fin 3 → TotalFluct K (Fin naux → K) m) (ht : ∀ s t, tf s = some t → ∀ u a, t u u a a = 0) (dx : Fin 3 → K)
    (hk : c.kern = dqArrays m naux c.bc.g (intFlux3 f2003 R (rp 0) (rp 1) (rp 2) (tf 0) (tf 1) (tf 2) c.bc.g (dx 0) (dx 1) (dx 2) capa))
    (hp : SharpUniform 3 c naux)
    (aux : GArr (Fin 3) K) (a : Nat → K) (ha : UniformIn c.bc.n aux a) (cfg : SharpCfg K) (goals : List (SharpGoal K))
    (r : SharpRun K (GArr (Fin 3) K)) (r' : SharpRun K (Nat → K)) (h : SameSharp (UniformState c.bc) r r') :
    SameSharp (UniformState c.bc) (sharpSessionC (serialSharp c aux) cfg goals r).1
      (sharpSessionC (cellODE c a (uniformCourant c aux)) cfg goals r').1 ∧
    (sharpSessionC (cellODE c a (uniformCourant c aux)) cfg goals r').2 = (sharpSessionC (serialSharp c aux) cfg goals r).2 :=
  pair_session (uniform_linked c hk hp aux a ha (quiet_of_wide (flux3_wide f2003 R c.bc.g capa hcap hR.fits (rp 0) (rp 1) (rp 2) (tf 0) (tf 1) (tf 2) (dx 0) (dx 1) (dx 2))
    c.bc.n (fun a => (hp.admissible.cells a).1) (fun _ _ => hR.supported) fun dt A u v => sweeps_uniform f2003 R c.bc.g hR capa _
      (fun t => by fin_cases t <;> simp [hrp]) _ (fun s => by fin_cases s; exacts [ht 0, ht 1, ht 2]) _ dt A u v)) cfg goals h

theorem wenoRing_uniform : UniformRecon wenoRing 3 where
  fits := wenoRing_fits.1
  supported := wenoRing_fits.2
  eps := by norm_num [wenoRing]
  ghosts := le_refl 3
  order := fun _ => by norm_num [wenoRing]
  notTvd := fun h => by simp [wenoRing] at h

/-- Non-vacuity of `C113_flux1_partial`: WENO5 on a ring of four cells, all with the value 1, with the source `q`. The hypotheses hold; the
increment of the first stage is `dt` in every cell and not zero. -/
example : SharpUniform 1 (ringSharp 4 3 wenoRing) 0 ∧ Quiet (fun (ql qr : Fin 1 → ℚ) (_ _ : Fin 0 → ℚ) => advectionRp (1 : ℚ) ql qr () ()) ∧
    UniformIn (fun _ : Fin 1 => 4) (fun _ _ => (1 : ℚ)) (fun _ => 1) ∧
    cellSource (ringSharp 4 3 wenoRing) (fun _ => 0) (1 / 2) 0 (fun _ => 1) 0 = 1 / 2 := by
  have hp := ringSharp_periodic 4 3 (by norm_num) wenoRing
  have nw : ∀ a, ¬ HasWall (ringSharp 4 3 wenoRing).bc a := fun a h => by
    rcases h with h | h <;> simp [(hp.grid.q a).1, (hp.grid.q a).2] at h
  refine ⟨⟨hp.grid.admissible, hp.grid.serial, hp.axes, hp.numAux, fun f hf dt t => ⟨hp.source f hf dt t, fun _ _ _ _ a h => absurd h (nw a)⟩,
    fun t => ⟨hp.before t, fun _ _ _ _ a h => absurd h (nw a)⟩, fun t => ⟨hp.stage t, fun _ _ _ _ a h => absurd h (nw a)⟩⟩, fun u a b => ?_, fun _ _ _ => rfl, ?_⟩
  · simp [advectionRp]
  · simp [cellSource, ringSharp]

end PyClaw
