import Verif.Lemmas.Simulation
import Verif.Props.ParallelSplit
import Verif.Props.RunExact
import Mathlib.Data.Rat.Floor

/-!
C90: on a periodic grid a run does not depend on where the grid begins. Moving the initial data by whole cells moves the
results by the same cells.
-/
set_option linter.unusedSectionVars false

namespace PyClaw
open Spec

variable {K : Type*} [Field K] [LinearOrder K] [IsStrictOrderedRing K] {d m w naux : Nat}

/-! ### Periodic extensions -/

theorem wrapCell_add {ι : Type*} (n : ι → Nat) (v s : ι → Int) (h : ∀ a, (s a) % (n a : Int) = 0) :
    wrapCell n (fun a => v a + s a) = wrapCell n v := by
  funext a
  unfold wrapCell
  have : (v a + s a - 1) % (n a : Int) = (v a - 1) % (n a : Int) := by
    rw [show v a + s a - 1 = (v a - 1) + s a by ring, Int.add_emod, h a, add_zero, Int.emod_emod]
  rw [this]

theorem wrapCell_rep {ι : Type*} (n : ι → Nat) (hn : ∀ a, 0 < n a) (v : ι → Int) (a : ι) :
    ((wrapCell n v a : Int) + 1 - v a) % (n a : Int) = 0 := by
  have := hn a
  unfold wrapCell
  rw [Int.toNat_of_nonneg (Int.emod_nonneg _ (by omega))]
  rw [show (v a - 1) % (n a : Int) + 1 - v a = -((v a - 1) - (v a - 1) % (n a : Int)) by ring, Int.neg_emod_eq_sub_emod]
  have h := Int.emod_add_mul_ediv (v a - 1) (n a)
  rw [show (v a - 1) - (v a - 1) % (n a : Int) = (n a : Int) * ((v a - 1) / n a) by omega]
  rw [show ((n a : Int) - (n a : Int) * ((v a - 1) / n a)) = (n a : Int) * (1 - (v a - 1) / n a) by ring]
  exact Int.mul_emod_right _ _

theorem cellBefore_wrapCell {ι : Type*} (n : ι → Nat) (hn : ∀ a, 0 < n a) (k v : ι → Int) :
    cellBefore n k (wrapCell n v) = wrapCell n fun a => v a - k a := by
  funext a
  have := hn a
  unfold cellBefore wrapCell
  rw [Int.toNat_of_nonneg (Int.emod_nonneg _ (by omega)), Int.emod_sub_emod]
  rw [show v a - 1 - k a = v a - k a - 1 by ring]

theorem cellBefore_lt {ι : Type*} (n : ι → Nat) (hn : ∀ a, 0 < n a) (k : ι → Int) (x : ι → Nat) (a : ι) : cellBefore n k x a < n a := by
  have := hn a
  have h1 := Int.emod_nonneg ((x a : Int) - k a) (b := (n a : Int)) (by omega)
  have h2 := Int.emod_lt_of_pos ((x a : Int) - k a) (b := (n a : Int)) (by omega)
  unfold cellBefore
  omega

/-! ### The step -/

theorem Stencil.periodic {τ : Type*} {step : IntKern (Fin d) K m naux} {g : Nat}
    {ok : ((Fin d → Int) → Fin naux → K) → (Fin d → Int) → Prop}
    {new : K → ((Fin d → Int) → Fin naux → K) → ((Fin d → Int) → Fin m → K) → (Fin d → Int) → Fin m → K} {low : τ → Fin d → Int}
    {nums : K → ((Fin d → Int) → Fin naux → K) → ((Fin d → Int) → Fin m → K) → τ → (Fin d → Int) → K → Prop}
    (S : Stencil step g ok new low nums) (hg : 2 ≤ g) (n : Fin d → Nat) (hn : ∀ a, 0 < n a) (dt : K)
    (A : (Fin d → Int) → Fin naux → K) (Q : (Fin d → Int) → Fin m → K)
    (EA : (Fin d → Int) → Fin naux → K) (EQ : (Fin d → Int) → Fin m → K)
    (hE : ∀ v : Fin d → Int, (∀ a, 1 - (g : Int) ≤ v a ∧ v a ≤ n a + g) → A v = EA v ∧ Q v = EQ v)
    (hP : ∀ v s : Fin d → Int, (∀ a, s a % (n a : Int) = 0) → EA (fun a => v a + s a) = EA v ∧ EQ (fun a => v a + s a) = EQ v) :
    ((¬ ∀ v, ok EA v) → step dt n A Q = none) ∧
    ((∀ v, ok EA v) → ∃ r cfl, step dt n A Q = some (r, cfl) ∧
      (∀ v : Fin d → Int, (∀ a, 1 ≤ v a ∧ v a ≤ n a) → r v = new dt EA EQ v) ∧
      IsMaxWithZero (fun x => ∃ t v, nums dt EA EQ t v x) cfl) := by
  have rep : ∀ v : Fin d → Int, ∃ s : Fin d → Int, (∀ a, s a % (n a : Int) = 0) ∧ ∀ a, 1 ≤ v a + s a ∧ v a + s a ≤ n a := by
    intro v
    refine ⟨fun a => (wrapCell n v a : Int) + 1 - v a, fun a => wrapCell_rep n hn v a, fun a => ?_⟩
    have := wrapCell_lt n hn v a
    dsimp only
    omega
  have okp : ∀ v s : Fin d → Int, (∀ a, s a % (n a : Int) = 0) → (ok EA v ↔ ok EA fun a => v a + s a) := fun v s hs =>
    S.okLocal EA EA s v (hP v s hs).1.symm
  have okA : ∀ v : Fin d → Int, (∀ a, 1 - (g : Int) ≤ v a ∧ v a ≤ n a + g) → (ok A v ↔ ok EA v) := by
    intro v hv
    have := S.okLocal EA A (fun _ => 0) v (by simp [(hE v hv).1])
    simpa using this
  have hok : (∀ v : Fin d → Int, (∀ a, 1 - (g : Int) ≤ v a ∧ v a ≤ n a + g) → ok A v) ↔ ∀ v, ok EA v := by
    constructor
    · intro h v
      obtain ⟨s, hs, hb⟩ := rep v
      rw [okp v s hs]
      have hb' : ∀ a, 1 - (g : Int) ≤ v a + s a ∧ v a + s a ≤ n a + g := fun a => by have := hb a; omega
      exact (okA _ hb').mp (h _ hb')
    · intro h v hv
      exact (okA v hv).mpr (h v)
  constructor
  · intro h
    rw [← hok] at h
    push Not at h
    obtain ⟨v, hv, hno⟩ := h
    exact S.stops dt n A Q v hv hno
  · intro h
    obtain ⟨r, cfl, h1, h2, h3⟩ := S.runs dt n A Q hn (hok.mpr h)
    refine ⟨r, cfl, h1, fun v hv => ?_, isMax_congr (fun x => ?_) h3⟩
    · rw [h2 v hv]
      have := S.newLocal dt EA A EQ Q (fun _ => 0) v (fun u hu => by
        have := hE u (fun a => by have := hu a; have := hv a; omega)
        simpa using this)
      simpa using this
    · have numA : ∀ t (v : Fin d → Int), (∀ a, low t a ≤ v a ∧ v a ≤ n a + 1) → (nums dt A Q t v x ↔ nums dt EA EQ t v x) := by
        intro t v hv
        have := S.numsLocal dt EA A EQ Q t (fun _ => 0) v x (fun u hu => by
          have := hE u (fun a => by have := hu a; have := hv a; have := S.low01 t a; omega)
          simpa using this)
        simpa using this
      constructor
      · rintro ⟨t, v, hv, hx⟩
        exact ⟨t, v, (numA t v hv).mp hx⟩
      · rintro ⟨t, v, hx⟩
        obtain ⟨s, hs, hb⟩ := rep v
        have hb' : ∀ a, low t a ≤ v a + s a ∧ v a + s a ≤ n a + 1 := fun a => by have := hb a; have := S.low01 t a; omega
        refine ⟨t, _, hb', (numA t _ hb').mpr ?_⟩
        have := S.numsLocal dt EA EA EQ EQ t s v x (fun u _ => ⟨(hP u s hs).1.symm, (hP u s hs).2.symm⟩)
        exact this.mp hx

variable [FloorRing K]

/-- Runs of a kernel with a stencil on a periodic grid. -/
theorem translate_run (step : IntKern (Fin d) K m naux) (c : ParCfg (Fin d) K) (hS : HasStencil step c.bc.g)
    (hr : ClassicRun c m naux step) (hp : PeriodicGrid c.bc) (k : Fin d → Int) (rnd : K → K) (L : K)
    (ops : List (StepOp K (GArr (Fin d) K) (GArr (Fin d) K × BCArrays (Fin d) K))) (hops : OnlyEvolves ops)
    (s s' : StepState K (GArr (Fin d) K) (GArr (Fin d) K × BCArrays (Fin d) K))
    (h : InStep (Corresponds m naux c.bc.n (cellBefore c.bc.n k) id id) s s') :
    InStep (Corresponds m naux c.bc.n (cellBefore c.bc.n k) id id) (runSteps (serialEnv c rnd L) ops s)
      (runSteps (serialEnv c rnd L) ops s') := by
  have hn : ∀ a, 0 < c.bc.n a := fun a => (hp.cells a).1
  obtain ⟨τ, ok, new, low, nums, S⟩ := hS
  let F : ((Fin d → Int) → Fin naux → K) → ((Fin d → Int) → Fin m → K) → GArr (Fin d) K → GArr (Fin d) K → Prop :=
    fun A Q q aux => ∀ v : Fin d → Int, (∀ a, 1 - (c.bc.g : Int) ≤ v a ∧ v a ≤ c.bc.n a + c.bc.g) →
        (Q v = fun k => q k.val (wrapCell c.bc.n v)) ∧ A v = auxAt naux aux (wrapCell c.bc.n v)
  have fill : ∀ q aux old, ∃ w, applyBcs c.bc c.axes q aux old = (w, .ok ()) ∧
      F (fieldOf naux c.bc.g w.aux) (fieldOf m c.bc.g w.q) q aux := fun q aux old =>
    periodic_fill c.bc hp c.axes (by rw [hr.axes]; exact List.nodup_finRange d) (by rw [hr.axes]; exact List.mem_finRange) m naux
      hr.numAux q aux old
  have E := kernel_sim m naux c c step step hr hr (cellBefore c.bc.n k) (fun _ => id) F F fill fill
    (fun a a' => ∀ x : Fin d → Nat, (∀ i, x i < c.bc.n i) → auxAt naux a' x = auxAt naux a (cellBefore c.bc.n k x)) ?_ rnd L L
  · have key := run_sim E ops hops s s' ⟨h.set, h.status, h.t, h.log, fun x hx => (h.data x hx).1, fun x hx => (h.data x hx).2⟩
    exact ⟨key.set, key.status, key.t, key.log, fun x hx => ⟨key.data.1 x hx, key.data.2 x hx⟩⟩
  · intro dt A A' Q Q' q q' a a' f f' ha hq
    let EA : GArr (Fin d) K → (Fin d → Int) → Fin naux → K := fun a v => auxAt naux a (wrapCell c.bc.n v)
    let EQ : GArr (Fin d) K → (Fin d → Int) → Fin m → K := fun q v => fun k => q k.val (wrapCell c.bc.n v)
    have hP : ∀ (a q : GArr (Fin d) K) (v s : Fin d → Int), (∀ i, s i % (c.bc.n i : Int) = 0) →
        EA a (fun i => v i + s i) = EA a v ∧ EQ q (fun i => v i + s i) = EQ q v := by
      intro a q v s hs
      simp only [EA, EQ, wrapCell_add c.bc.n v s hs, and_self]
    have hA : ∀ v, EA a' v = EA a fun i => v i + -k i := by
      intro v
      simp only [EA]
      rw [ha _ (wrapCell_lt _ hn v), cellBefore_wrapCell c.bc.n hn k v]
      rfl
    have hQ : ∀ v, EQ q' v = EQ q fun i => v i + -k i := by
      intro v
      simp only [EQ]
      have := hq _ (wrapCell_lt _ hn v)
      rw [cellBefore_wrapCell c.bc.n hn k v] at this
      exact this
    obtain ⟨n1, n2⟩ := S.periodic hr.ghost c.bc.n hn dt A Q (EA a) (EQ q)
      (fun v hv => ⟨(f v hv).2, (f v hv).1⟩) (hP a q)
    obtain ⟨n1', n2'⟩ := S.periodic hr.ghost c.bc.n hn dt A' Q' (EA a') (EQ q')
      (fun v hv => ⟨(f' v hv).2, (f' v hv).1⟩) (hP a' q')
    have okk : (∀ v, ok (EA a') v) ↔ ∀ v, ok (EA a) v := by
      have ho := fun v => S.okLocal (EA a) (EA a') (fun i => -k i) v (hA v)
      constructor
      · intro h v
        have := (ho fun i => v i + k i).mp (h _)
        simpa using this
      · intro h v
        exact (ho v).mpr (h _)
    by_cases hok : ∀ v, ok (EA a) v
    · obtain ⟨r, cfl, h1, h2, h3⟩ := n2 hok
      obtain ⟨r', cfl', h1', h2', h3'⟩ := n2' (okk.mpr hok)
      have hc : cfl' = cfl := by
        refine isMax_unique h3' (isMax_congr (fun x => ?_) h3)
        have hnum := fun t v => S.numsLocal dt (EA a) (EA a') (EQ q) (EQ q') t (fun i => -k i) v x (fun u _ => ⟨hA u, hQ u⟩)
        constructor
        · rintro ⟨t, v, hx⟩
          refine ⟨t, fun i => v i + k i, (hnum t _).mpr ?_⟩
          simpa using hx
        · rintro ⟨t, v, hx⟩
          exact ⟨t, _, (hnum t v).mp hx⟩
      refine Or.inr ⟨r, r', cfl, h1, hc ▸ h1', fun x hx => ?_⟩
      rw [h2' _ (fun i => by have := hx i; omega), h2 _ (fun i => by have := cellBefore_lt c.bc.n hn k x i; omega)]
      rw [S.newLocal dt (EA a) (EA a') (EQ q) (EQ q') (fun i => -k i) _ (fun u _ => ⟨hA u, hQ u⟩)]
      have hs : ∀ i, ((cellBefore c.bc.n k x i : Int) + 1 - ((x i : Int) + 1 + -k i)) % (c.bc.n i : Int) = 0 := by
        intro i
        have := wrapCell_rep c.bc.n hn (fun i => (x i : Int) + 1 + -k i) i
        have e := congrFun (cellBefore_wrapCell c.bc.n hn k (fun i => (x i : Int) + 1)) i
        rw [wrapCell_interior c.bc.n x hx] at e
        rw [e]
        exact this
      have := S.newLocal dt (EA a) (EA a) (EQ q) (EQ q)
        (fun i => (cellBefore c.bc.n k x i : Int) + 1 - ((x i : Int) + 1 + -k i)) (fun i => (x i : Int) + 1 + -k i)
        (fun u _ => ⟨((hP a q u _ hs).1).symm, ((hP a q u _ hs).2).symm⟩)
      rw [this]
      simp
    · exact Or.inl ⟨n1 hok, n1' (fun h => hok (okk.mp h))⟩

/-- C90, the one-dimensional Fortran kernel: on a periodic grid two runs whose data differ by a translation by `k` cells (with wrap
around) take the same steps, and their data differ by the same translation after any session of `evolve_to_time` calls and changes
of settings, with rejected steps and exceptions. -/
theorem C90_fortran1 (undef : K) (rp : Riemann K (Fin naux → K) m w) (cfg : Cfg1 K w) (capa : Option ((Fin naux → K) → K))
    (c : ParCfg (Fin 1) K) (hr : ClassicRun c m naux (intStep1 undef rp cfg capa)) (hp : PeriodicGrid c.bc) (hg : cfg.g = c.bc.g)
    (k : Fin 1 → Int) (rnd : K → K) (L : K)
    (ops : List (StepOp K (GArr (Fin 1) K) (GArr (Fin 1) K × BCArrays (Fin 1) K))) (hops : OnlyEvolves ops)
    (s s' : StepState K (GArr (Fin 1) K) (GArr (Fin 1) K × BCArrays (Fin 1) K))
    (h : InStep (Corresponds m naux c.bc.n (cellBefore c.bc.n k) id id) s s') :
    InStep (Corresponds m naux c.bc.n (cellBefore c.bc.n k) id id) (runSteps (serialEnv c rnd L) ops s)
      (runSteps (serialEnv c rnd L) ops s') :=
  translate_run _ c (hg ▸ fortran1_stencil undef rp cfg capa) hr hp k rnd L ops hops s s' h

/-- C90, the one-dimensional Python kernel. Full statement: for all its limiters. Missing: the limiters 17 to 23. -/
theorem C90_python1_partial (opq : Int → LimFun K) (rp : Riemann K (Fin naux → K) m w) (cfg : Cfg1 K w)
    (hlim : ∀ p, 0 ≤ cfg.limiter p ∧ cfg.limiter p ≤ 16) (capa : Option ((Fin naux → K) → K))
    (c : ParCfg (Fin 1) K) (hr : ClassicRun c m naux (intPyStep1 (pyLimiterFun opq) rp cfg capa)) (hp : PeriodicGrid c.bc)
    (hg : cfg.g = c.bc.g) (k : Fin 1 → Int) (rnd : K → K) (L : K)
    (ops : List (StepOp K (GArr (Fin 1) K) (GArr (Fin 1) K × BCArrays (Fin 1) K))) (hops : OnlyEvolves ops)
    (s s' : StepState K (GArr (Fin 1) K) (GArr (Fin 1) K × BCArrays (Fin 1) K))
    (h : InStep (Corresponds m naux c.bc.n (cellBefore c.bc.n k) id id) s s') :
    InStep (Corresponds m naux c.bc.n (cellBefore c.bc.n k) id id) (runSteps (serialEnv c rnd L) ops s)
      (runSteps (serialEnv c rnd L) ops s') :=
  translate_run _ c (hg ▸ python1_stencil opq rp cfg (hg ▸ hr.ghost) hlim capa) hr hp k rnd L ops hops s s' h

/-- C90, the two-dimensional unsplit kernel, whatever the transverse solvers. -/
theorem C90_unsplit2 (undef : K) (rpx rpy : Riemann K (Fin naux → K) m w) (rtx rty : Transverse K (Fin naux → K) m)
    (cfg : Cfg2 K w) (capa : Option ((Fin naux → K) → K))
    (c : ParCfg (Fin 2) K) (hr : ClassicRun c m naux (intUnsplit2 undef rpx rpy rtx rty cfg capa)) (hp : PeriodicGrid c.bc)
    (hg : cfg.g = c.bc.g) (k : Fin 2 → Int) (rnd : K → K) (L : K)
    (ops : List (StepOp K (GArr (Fin 2) K) (GArr (Fin 2) K × BCArrays (Fin 2) K))) (hops : OnlyEvolves ops)
    (s s' : StepState K (GArr (Fin 2) K) (GArr (Fin 2) K × BCArrays (Fin 2) K))
    (h : InStep (Corresponds m naux c.bc.n (cellBefore c.bc.n k) id id) s s') :
    InStep (Corresponds m naux c.bc.n (cellBefore c.bc.n k) id id) (runSteps (serialEnv c rnd L) ops s)
      (runSteps (serialEnv c rnd L) ops s') :=
  translate_run _ c (hg ▸ unsplit2_stencil undef rpx rpy rtx rty cfg (hg ▸ hr.ghost) capa) hr hp k rnd L ops hops s s' h

/-- C90, the three-dimensional unsplit kernel. Full statement: for every order and `transverse_waves`. Missing: order 1 with
`transverse_waves` that ask for second-order transverse waves, where the kernel reads the uninitialised part of its work array. -/
theorem C90_unsplit3_partial (undef : K) (rpx rpy rpz : Riemann K (Fin naux → K) m w) (rtx rty rtz : Transverse3 K (Fin naux → K) m)
    (rttx rtty rttz : Transverse33 K (Fin naux → K) m) (cfg : Cfg3 K w)
    (hst : cfg.order ≠ 1 ∨ cfg.trans / 10 ≠ 2) (capa : Option ((Fin naux → K) → K)) (stale : Int → Fin m → K)
    (c : ParCfg (Fin 3) K) (hr : ClassicRun c m naux (intUnsplit3 undef rpx rpy rpz rtx rty rtz rttx rtty rttz cfg capa stale))
    (hp : PeriodicGrid c.bc) (hg : cfg.g = c.bc.g) (k : Fin 3 → Int) (rnd : K → K) (L : K)
    (ops : List (StepOp K (GArr (Fin 3) K) (GArr (Fin 3) K × BCArrays (Fin 3) K))) (hops : OnlyEvolves ops)
    (s s' : StepState K (GArr (Fin 3) K) (GArr (Fin 3) K × BCArrays (Fin 3) K))
    (h : InStep (Corresponds m naux c.bc.n (cellBefore c.bc.n k) id id) s s') :
    InStep (Corresponds m naux c.bc.n (cellBefore c.bc.n k) id id) (runSteps (serialEnv c rnd L) ops s)
      (runSteps (serialEnv c rnd L) ops s') :=
  translate_run _ c (hg ▸ unsplit3_stencil undef rpx rpy rpz rtx rty rtz rttx rtty rttz cfg (hg ▸ hr.ghost) hst capa stale) hr hp k rnd L
    ops hops s s' h

/-! ### Dimensional splitting in two dimensions -/

/-- The formula of the split step. -/
def splitNew2 (undef : K) (rpx rpy : Riemann K (Fin naux → K) m w) (c : Cfg2 K w) (capa : Option ((Fin naux → K) → K)) (dt : K)
    (A : (Fin 2 → Int) → Fin naux → K) (Q : (Fin 2 → Int) → Fin m → K) (v : Fin 2 → Int) : Fin m → K :=
  rowStep undef rpy ({ c with dt := dt } : Cfg2 K w).swap.row capa (fun j => A ![v 0, j])
    (fun j => rowStep undef rpx ({ c with dt := dt } : Cfg2 K w).row capa (fun i => A ![i, j]) (fun i => Q ![i, j]) (v 0)) (v 1)

/-- The array after the sweeps in `x`, for all rows. -/
def allRows2 (undef : K) (rpx : Riemann K (Fin naux → K) m w) (c : Cfg2 K w) (capa : Option ((Fin naux → K) → K)) (dt : K) (mx : Nat)
    (A : (Fin 2 → Int) → Fin naux → K) (Q : (Fin 2 → Int) → Fin m → K) (i j : Int) : Fin m → K :=
  if 1 ≤ i ∧ i ≤ (mx : Int) then
    rowStep undef rpx ({ c with dt := dt } : Cfg2 K w).row capa (fun i => A ![i, j]) (fun i => Q ![i, j]) i
  else Q ![i, j]

/-- The Courant numbers of the split step on a grid with infinitely many rows. -/
def splitNums2 (undef : K) (rpx rpy : Riemann K (Fin naux → K) m w) (c : Cfg2 K w) (capa : Option ((Fin naux → K) → K)) (dt : K) (mx : Nat)
    (A : (Fin 2 → Int) → Fin naux → K) (Q : (Fin 2 → Int) → Fin m → K) (j : Int) (x : K) : Prop :=
  (∃ i : Int, (1 ≤ i ∧ i ≤ mx + 1) ∧
    WaveNumber (localRatio dt c.dx capa fun i => A ![i, j]) (interfaces rpx (fun i => A ![i, j]) (fun i => Q ![i, j])) i x) ∨
  (∃ i : Int, (1 - (c.g : Int) ≤ i ∧ i ≤ mx + c.g) ∧
    WaveNumber (localRatio dt c.dy capa fun j => A ![i, j])
      (interfaces rpy (fun j => A ![i, j]) (fun j => allRows2 undef rpx c capa dt mx A Q i j)) j x)

theorem split2_periodic (undef : K) (rpx rpy : Riemann K (Fin naux → K) m w) (c : Cfg2 K w) (hg : 2 ≤ c.g)
    (capa : Option ((Fin naux → K) → K)) (n : Fin 2 → Nat) (hn : ∀ a, 0 < n a) (dt : K)
    (A : (Fin 2 → Int) → Fin naux → K) (Q : (Fin 2 → Int) → Fin m → K)
    (EA : (Fin 2 → Int) → Fin naux → K) (EQ : (Fin 2 → Int) → Fin m → K)
    (hE : ∀ v : Fin 2 → Int, (∀ a, 1 - (c.g : Int) ≤ v a ∧ v a ≤ n a + c.g) → A v = EA v ∧ Q v = EQ v)
    (hP : ∀ v s : Fin 2 → Int, (∀ a, s a % (n a : Int) = 0) → EA (fun a => v a + s a) = EA v ∧ EQ (fun a => v a + s a) = EQ v) :
    ∃ r cfl, intSplit2 undef rpx rpy c capa dt n A Q = some (r, cfl) ∧
      (∀ v : Fin 2 → Int, (∀ a, 1 ≤ v a ∧ v a ≤ n a) → r v = splitNew2 undef rpx rpy c capa dt EA EQ v) ∧
      IsMaxWithZero (fun x => ∃ j, splitNums2 undef rpx rpy c capa dt (n 0) EA EQ j x) cfl := by
  let c' : Cfg2 K w := { c with mx := n 0, my := n 1, dt := dt }
  have hb : ∀ i j : Int, 1 - (c.g : Int) ≤ i → i ≤ n 0 + c.g → 1 - (c.g : Int) ≤ j → j ≤ n 1 + c.g →
      A ![i, j] = EA ![i, j] ∧ Q ![i, j] = EQ ![i, j] := by
    intro i j i1 i2 j1 j2
    refine hE _ fun a => ?_
    fin_cases a <;> simp <;> omega
  have hpy : ∀ i j s : Int, s % (n 1 : Int) = 0 → EA ![i, j + s] = EA ![i, j] ∧ EQ ![i, j + s] = EQ ![i, j] := by
    intro i j s hs
    have := hP ![i, j] ![0, s] (fun a => by fin_cases a <;> simp [hs])
    rwa [show (fun a => ![i, j] a + ![0, s] a) = ![i, j + s] by funext a; fin_cases a <;> simp] at this
  have hX : ∀ i j : Int, 1 - (c.g : Int) ≤ i → i ≤ n 0 + c.g → 1 - (c.g : Int) ≤ j → j ≤ n 1 + c.g →
      afterX2 undef rpx c' capa (fun i j => A ![i, j]) (fun i j => Q ![i, j]) i j = allRows2 undef rpx c capa dt (n 0) EA EQ i j := by
    intro i j i1 i2 j1 j2
    unfold afterX2 allRows2
    by_cases h : 1 ≤ i ∧ i ≤ (n 0 : Int)
    · rw [if_pos ⟨⟨j1, j2⟩, h⟩, if_pos h]
      exact rowStep_local undef rpx c'.row capa _ _ _ _ i (fun k a b => (hb k j (by omega) (by omega) j1 j2).1)
        (fun k a b => (hb k j (by omega) (by omega) j1 j2).2)
    · rw [if_neg (fun hh => h hh.2), if_neg h]
      exact (hb i j i1 i2 j1 j2).2
  refine ⟨_, _, rfl, fun v hv => ?_, isMax_congr (fun x => ?_) (splitStep2_isMax undef rpx rpy c' (by show 1 ≤ c.g; omega) capa _ _)⟩
  · have h0 := hv 0
    have h1 := hv 1
    rw [splitStep2_eq undef rpx rpy _ (by show 1 ≤ c.g; omega) capa _ _ _ _ (by omega) (by dsimp only; omega) (by omega) (by dsimp only; omega)]
    unfold splitNew2
    refine rowStep_local undef rpy _ capa _ _ _ _ _ (fun k a b => (hb _ _ (by omega) (by omega) (by omega) (by omega)).1) (fun k a b => ?_)
    refine (step2dsX_eq false undef rpx c' (by show 1 ≤ c.g; omega) capa (fun i j => A ![i, j]) (fun i j => Q ![i, j]) _ _).trans ?_
    refine (hX (v 0) k (by omega) (by omega) (by omega) (by omega)).trans ?_
    unfold allRows2
    rw [if_pos ⟨by omega, by omega⟩]
  · have nx : ∀ i j : Int, (1 ≤ i ∧ i ≤ (n 0 : Int) + 1) → (1 - (c.g : Int) ≤ j ∧ j ≤ n 1 + c.g) →
        (WaveNumber (localRatio dt c.dx capa fun i => A ![i, j]) (interfaces rpx (fun i => A ![i, j]) (fun i => Q ![i, j])) i x ↔
        WaveNumber (localRatio dt c.dx capa fun i => EA ![i, j]) (interfaces rpx (fun i => EA ![i, j]) (fun i => EQ ![i, j])) i x) := by
      intro i j hi hj
      have := waveNumber_congr rpx dt c.dx capa (fun i => EA ![i, j]) (fun i => A ![i, j]) (fun i => EQ ![i, j]) (fun i => Q ![i, j]) 0 i x
        (by rw [add_zero]; exact (hb _ _ (by omega) (by omega) (by omega) (by omega)).1)
        (by rw [add_zero]; exact (hb _ _ (by omega) (by omega) (by omega) (by omega)).1)
        (by rw [add_zero]; exact (hb _ _ (by omega) (by omega) (by omega) (by omega)).2)
        (by rw [add_zero]; exact (hb _ _ (by omega) (by omega) (by omega) (by omega)).2)
      rwa [add_zero] at this
    have ny : ∀ i j : Int, (1 - (c.g : Int) ≤ i ∧ i ≤ n 0 + c.g) → (1 ≤ j ∧ j ≤ (n 1 : Int) + 1) →
        (WaveNumber (localRatio dt c.dy capa fun j => A ![i, j]) (interfaces rpy (fun j => A ![i, j])
          (fun j => afterX2 undef rpx c' capa (fun i j => A ![i, j]) (fun i j => Q ![i, j]) i j)) j x ↔
        WaveNumber (localRatio dt c.dy capa fun j => EA ![i, j]) (interfaces rpy (fun j => EA ![i, j])
          (fun j => allRows2 undef rpx c capa dt (n 0) EA EQ i j)) j x) := by
      intro i j hi hj
      have := waveNumber_congr rpy dt c.dy capa (fun j => EA ![i, j]) (fun j => A ![i, j])
        (fun j => allRows2 undef rpx c capa dt (n 0) EA EQ i j)
        (fun j => afterX2 undef rpx c' capa (fun i j => A ![i, j]) (fun i j => Q ![i, j]) i j) 0 j x
        (by rw [add_zero]; exact (hb _ _ (by omega) (by omega) (by omega) (by omega)).1)
        (by rw [add_zero]; exact (hb _ _ (by omega) (by omega) (by omega) (by omega)).1)
        (by rw [add_zero]; exact hX _ _ (by omega) (by omega) (by omega) (by omega))
        (by rw [add_zero]; exact hX _ _ (by omega) (by omega) (by omega) (by omega))
      rwa [add_zero] at this
    have per : ∀ j s : Int, s % (n 1 : Int) = 0 →
        (splitNums2 undef rpx rpy c capa dt (n 0) EA EQ j x ↔ splitNums2 undef rpx rpy c capa dt (n 0) EA EQ (j + s) x) := by
      intro j s hs
      have e1 : ∀ i j : Int, EA ![i, j + s] = EA ![i, j] := fun i j => (hpy i j s hs).1
      have e2 : ∀ i j : Int, EQ ![i, j + s] = EQ ![i, j] := fun i j => (hpy i j s hs).2
      have e3 : ∀ i j : Int, allRows2 undef rpx c capa dt (n 0) EA EQ i (j + s) = allRows2 undef rpx c capa dt (n 0) EA EQ i j := by
        intro i j
        unfold allRows2
        simp only [e1, e2]
      unfold splitNums2
      refine or_congr ?_ (exists_congr fun i => and_congr Iff.rfl ?_)
      · simp only [e1, e2]
      · exact waveNumber_congr rpy dt c.dy capa (fun j => EA ![i, j]) (fun j => EA ![i, j])
          (fun j => allRows2 undef rpx c capa dt (n 0) EA EQ i j) (fun j => allRows2 undef rpx c capa dt (n 0) EA EQ i j) s j x
          (e1 i j).symm (e1 i (j - 1)).symm (e3 i j).symm (e3 i (j - 1)).symm
    have hn1 := hn 1
    constructor
    · rintro (⟨i, j, hi, hj, h⟩ | ⟨i, j, hi, hj, h⟩)
      · exact ⟨j, Or.inl ⟨i, hi, (nx i j hi hj).mp h⟩⟩
      · exact ⟨j, Or.inr ⟨i, hi, (ny i j hi hj).mp h⟩⟩
    · rintro ⟨j, h⟩
      have hm := wrapCell_rep (fun _ : Fin 1 => n 1) (fun _ => hn1) (fun _ => j) 0
      have hl := wrapCell_lt (fun _ : Fin 1 => n 1) (fun _ => hn1) (fun _ => j) 0
      generalize wrapCell (fun _ : Fin 1 => n 1) (fun _ => j) 0 = z at hm hl
      rw [per j _ hm, show j + ((z : Int) + 1 - j) = z + 1 by ring] at h
      rcases h with ⟨i, hi, h⟩ | ⟨i, hi, h⟩
      · exact Or.inl ⟨i, z + 1, hi, by show 1 - (c.g : Int) ≤ _ ∧ _ ≤ (n 1 : Int) + c.g; omega, (nx i _ hi (by omega)).mpr h⟩
      · exact Or.inr ⟨i, z + 1, hi, by show 1 ≤ _ ∧ _ ≤ (n 1 : Int) + 1; omega, (ny i _ hi (by omega)).mpr h⟩

/-- What one split step does to translated data. -/
theorem split2_translate (undef : K) (rpx rpy : Riemann K (Fin naux → K) m w) (cfg : Cfg2 K w) (capa : Option ((Fin naux → K) → K))
    (g : Nat) (n : Fin 2 → Nat) (hn : ∀ a, 0 < n a) (hg : cfg.g = g) (hg2 : 2 ≤ g) (k : Fin 2 → Int) (dt : K)
    (A A' : (Fin 2 → Int) → Fin naux → K) (Q Q' : (Fin 2 → Int) → Fin m → K) (q q' a a' : GArr (Fin 2) K)
    (f : ∀ v : Fin 2 → Int, (∀ i, 1 - (g : Int) ≤ v i ∧ v i ≤ n i + g) →
      (Q v = fun k => q k.val (wrapCell n v)) ∧ A v = auxAt naux a (wrapCell n v))
    (f' : ∀ v : Fin 2 → Int, (∀ i, 1 - (g : Int) ≤ v i ∧ v i ≤ n i + g) →
      (Q' v = fun k => q' k.val (wrapCell n v)) ∧ A' v = auxAt naux a' (wrapCell n v))
    (ha : ∀ x : Fin 2 → Nat, (∀ i, x i < n i) → auxAt naux a' x = auxAt naux a (cellBefore n k x))
    (hq : ∀ x : Fin 2 → Nat, (∀ i, x i < n i) → (fun j : Fin m => q' j.val x) = fun j => q j.val (cellBefore n k x)) :
    ∃ r r' cfl cfl', intSplit2 undef rpx rpy cfg capa dt n A Q = some (r, cfl) ∧
      intSplit2 undef rpx rpy cfg capa dt n A' Q' = some (r', cfl') ∧
      (∀ x : Fin 2 → Nat, (∀ i, x i < n i) → r' (fun i => (x i : Int) + 1) = r fun i => (cellBefore n k x i : Int) + 1) ∧
      (k 0 = 0 → cfl' = cfl) := by
  subst hg
  let EA : GArr (Fin 2) K → (Fin 2 → Int) → Fin naux → K := fun a v => auxAt naux a (wrapCell n v)
  let EQ : GArr (Fin 2) K → (Fin 2 → Int) → Fin m → K := fun q v => fun k => q k.val (wrapCell n v)
  have hP : ∀ (a q : GArr (Fin 2) K) (v s : Fin 2 → Int), (∀ i, s i % (n i : Int) = 0) →
      EA a (fun i => v i + s i) = EA a v ∧ EQ q (fun i => v i + s i) = EQ q v := by
    intro a q v s hs
    simp only [EA, EQ, wrapCell_add n v s hs, and_self]
  have hA : ∀ v, EA a' v = EA a fun i => v i + -k i := by
    intro v
    simp only [EA]
    rw [ha _ (wrapCell_lt _ hn v), cellBefore_wrapCell n hn k v]
    rfl
  have hQ : ∀ v, EQ q' v = EQ q fun i => v i + -k i := by
    intro v
    simp only [EQ]
    have := hq _ (wrapCell_lt _ hn v)
    rw [cellBefore_wrapCell n hn k v] at this
    exact this
  have hv2 : ∀ (i j : Int) (s : Fin 2 → Int), (fun a => ![i, j] a + s a) = ![i + s 0, j + s 1] := by
    intro i j s; funext a; fin_cases a <;> rfl
  have shift : ∀ (B B' : (Fin 2 → Int) → Fin naux → K) (P P' : (Fin 2 → Int) → Fin m → K) (s v : Fin 2 → Int),
      (∀ u, B' u = B fun i => u i + s i) → (∀ u, P' u = P fun i => u i + s i) →
      splitNew2 undef rpx rpy cfg capa dt B' P' v = splitNew2 undef rpx rpy cfg capa dt B P fun i => v i + s i := by
    intro B B' P P' s v hB hPP
    unfold splitNew2
    simp only [hB, hPP, hv2]
    rw [← rowStep_shift]
    congr 1
    funext j
    exact rowStep_shift undef rpx _ capa (fun i => B ![i, j + s 1]) (fun i => P ![i, j + s 1]) (s 0) (v 0)
  obtain ⟨r, cfl, h1, h2, h3⟩ := split2_periodic undef rpx rpy cfg hg2 capa n hn dt A Q (EA a) (EQ q)
    (fun v hv => ⟨(f v hv).2, (f v hv).1⟩) (hP a q)
  obtain ⟨r', cfl', h1', h2', h3'⟩ := split2_periodic undef rpx rpy cfg hg2 capa n hn dt A' Q' (EA a') (EQ q')
    (fun v hv => ⟨(f' v hv).2, (f' v hv).1⟩) (hP a' q')
  refine ⟨r, r', cfl, cfl', h1, h1', fun x hx => ?_, fun hk => ?_⟩
  · rw [h2' _ (fun i => by have := hx i; omega), h2 _ (fun i => by have := cellBefore_lt n hn k x i; omega)]
    rw [shift (EA a) (EA a') (EQ q) (EQ q') (fun i => -k i) _ hA hQ]
    have hs : ∀ i, ((cellBefore n k x i : Int) + 1 - ((x i : Int) + 1 + -k i)) % (n i : Int) = 0 := by
      intro i
      have := wrapCell_rep n hn (fun i => (x i : Int) + 1 + -k i) i
      have e := congrFun (cellBefore_wrapCell n hn k (fun i => (x i : Int) + 1)) i
      rw [wrapCell_interior n x hx] at e
      rw [e]
      exact this
    rw [shift (EA a) (EA a) (EQ q) (EQ q) (fun i => (cellBefore n k x i : Int) + 1 - ((x i : Int) + 1 + -k i)) _
      (fun u => ((hP a q u _ hs).1).symm) (fun u => ((hP a q u _ hs).2).symm)]
    simp
  · refine isMax_unique h3' (isMax_congr (fun x => ?_) h3)
    have e1 : ∀ i j : Int, EA a' ![i, j] = EA a ![i, j + -k 1] := fun i j => by rw [hA, hv2, hk]; simp
    have e2 : ∀ i j : Int, EQ q' ![i, j] = EQ q ![i, j + -k 1] := fun i j => by rw [hQ, hv2, hk]; simp
    have e3 : ∀ i j : Int, allRows2 undef rpx cfg capa dt (n 0) (EA a') (EQ q') i j =
        allRows2 undef rpx cfg capa dt (n 0) (EA a) (EQ q) i (j + -k 1) := by
      intro i j
      unfold allRows2
      simp only [e1, e2]
    have num : ∀ j, splitNums2 undef rpx rpy cfg capa dt (n 0) (EA a') (EQ q') j x ↔
        splitNums2 undef rpx rpy cfg capa dt (n 0) (EA a) (EQ q) (j + -k 1) x := by
      intro j
      unfold splitNums2
      refine or_congr ?_ (exists_congr fun i => and_congr Iff.rfl ?_)
      · simp only [e1, e2]
      · exact waveNumber_congr rpy dt cfg.dy capa (fun j => EA a ![i, j]) (fun j => EA a' ![i, j])
          (fun j => allRows2 undef rpx cfg capa dt (n 0) (EA a) (EQ q) i j)
          (fun j => allRows2 undef rpx cfg capa dt (n 0) (EA a') (EQ q') i j) (-k 1) j x
          (e1 i j) (e1 i (j - 1)) (e3 i j) (e3 i (j - 1))
    constructor
    · rintro ⟨j, h⟩
      refine ⟨j + k 1, (num _).mpr ?_⟩
      simpa using h
    · rintro ⟨j, h⟩
      exact ⟨_, (num j).mp h⟩

/-- C90, the two-dimensional split kernel, translations along the second axis. Full statement: for all translations. Missing: along the
first axis, where the Courant number depends on the position, see `C90_split2_violated`. -/
theorem C90_split2_partial (undef : K) (rpx rpy : Riemann K (Fin naux → K) m w) (cfg : Cfg2 K w) (capa : Option ((Fin naux → K) → K))
    (c : ParCfg (Fin 2) K) (hr : ClassicRun c m naux (intSplit2 undef rpx rpy cfg capa)) (hp : PeriodicGrid c.bc)
    (hg : cfg.g = c.bc.g) (k : Fin 2 → Int) (hk : k 0 = 0) (rnd : K → K) (L : K)
    (ops : List (StepOp K (GArr (Fin 2) K) (GArr (Fin 2) K × BCArrays (Fin 2) K))) (hops : OnlyEvolves ops)
    (s s' : StepState K (GArr (Fin 2) K) (GArr (Fin 2) K × BCArrays (Fin 2) K))
    (h : InStep (Corresponds m naux c.bc.n (cellBefore c.bc.n k) id id) s s') :
    InStep (Corresponds m naux c.bc.n (cellBefore c.bc.n k) id id) (runSteps (serialEnv c rnd L) ops s)
      (runSteps (serialEnv c rnd L) ops s') := by
  have hn : ∀ a, 0 < c.bc.n a := fun a => (hp.cells a).1
  have E := kernel_sim m naux c c _ _ hr hr (cellBefore c.bc.n k) (fun _ => id)
    (fun A Q q aux => ∀ v : Fin 2 → Int, (∀ a, 1 - (c.bc.g : Int) ≤ v a ∧ v a ≤ c.bc.n a + c.bc.g) →
        (Q v = fun k => q k.val (wrapCell c.bc.n v)) ∧ A v = auxAt naux aux (wrapCell c.bc.n v))
    (fun A Q q aux => ∀ v : Fin 2 → Int, (∀ a, 1 - (c.bc.g : Int) ≤ v a ∧ v a ≤ c.bc.n a + c.bc.g) →
        (Q v = fun k => q k.val (wrapCell c.bc.n v)) ∧ A v = auxAt naux aux (wrapCell c.bc.n v))
    (fun q aux old => periodic_fill c.bc hp c.axes (by rw [hr.axes]; exact List.nodup_finRange 2)
      (by rw [hr.axes]; exact List.mem_finRange) m naux hr.numAux q aux old)
    (fun q aux old => periodic_fill c.bc hp c.axes (by rw [hr.axes]; exact List.nodup_finRange 2)
      (by rw [hr.axes]; exact List.mem_finRange) m naux hr.numAux q aux old)
    (fun a a' => ∀ x : Fin 2 → Nat, (∀ i, x i < c.bc.n i) → auxAt naux a' x = auxAt naux a (cellBefore c.bc.n k x)) ?_ rnd L L
  · have key := run_sim E ops hops s s' ⟨h.set, h.status, h.t, h.log, fun x hx => (h.data x hx).1, fun x hx => (h.data x hx).2⟩
    exact ⟨key.set, key.status, key.t, key.log, fun x hx => ⟨key.data.1 x hx, key.data.2 x hx⟩⟩
  · intro dt A A' Q Q' q q' a a' f f' ha hq
    obtain ⟨r, r', cfl, cfl', h1, h2, h3, h4⟩ := split2_translate undef rpx rpy cfg capa c.bc.g c.bc.n hn hg hr.ghost k dt A A' Q Q' q q'
      a a' f f' ha hq
    exact Or.inr ⟨r, r', cfl, h1, h4 hk ▸ h2, h3⟩

/-- C90, the two-dimensional split kernel: the values after one step of given size from translated data are the translated values,
for translations along both axes. Full statement: whole runs. Missing: equality of the Courant numbers, see `C90_split2_violated`. -/
theorem C90_split2_values_partial (undef : K) (rpx rpy : Riemann K (Fin naux → K) m w) (cfg : Cfg2 K w) (capa : Option ((Fin naux → K) → K))
    (c : ParCfg (Fin 2) K) (hr : ClassicRun c m naux (intSplit2 undef rpx rpy cfg capa)) (hp : PeriodicGrid c.bc)
    (hg : cfg.g = c.bc.g) (k : Fin 2 → Int) (dt : K) (d d' : HypData (Fin 2) K)
    (h : Corresponds m naux c.bc.n (cellBefore c.bc.n k) id id (d.q, d.aux, d.work) (d'.q, d'.aux, d'.work)) :
    ∃ r r' cfl cfl', hypSerial c dt d = (r, .ok cfl) ∧ hypSerial c dt d' = (r', .ok cfl') ∧
      Corresponds m naux c.bc.n (cellBefore c.bc.n k) id id (r.q, r.aux, r.work) (r'.q, r'.aux, r'.work) := by
  have hn : ∀ a, 0 < c.bc.n a := fun a => (hp.cells a).1
  have hfill := fun q aux old => periodic_fill c.bc hp c.axes (by rw [hr.axes]; exact List.nodup_finRange 2)
      (by rw [hr.axes]; exact List.mem_finRange) m naux hr.numAux q aux old
  obtain ⟨v, e, f⟩ := hfill d.q d.aux d.work
  obtain ⟨v', e', f'⟩ := hfill d'.q d'.aux d'.work
  obtain ⟨r, r', cfl, cfl', h1, h2, h3, h4⟩ := split2_translate undef rpx rpy cfg capa c.bc.g c.bc.n hn hg hr.ghost k dt _ _ _ _ d.q d'.q
      d.aux d'.aux f f' (fun x hx => (h x hx).2) (fun x hx => (h x hx).1)
  unfold hypSerial
  simp only [e, e', hr.kern, onArrays, h1, h2, Option.map_some]
  refine ⟨_, _, cfl, cfl', rfl, rfl, fun x hx => ⟨?_, (h x hx).2⟩⟩
  have := h3 x hx
  simp only [putBack, Fin.is_lt, dite_true]
  have e1 : ∀ (g : Nat) (y : Fin 2 → Nat), (fun i => (((y i + g : Nat)) : Int) + 1 - g) = fun i => (y i : Int) + 1 := by
    intro g y; funext i; push_cast; ring
  rw [e1, e1]
  exact this

/-- A periodic grid of 5 by 2 cells, first-order split kernel. -/
def exStrip : ParCfg (Fin 2) ℚ :=
  let c := exDiagonal (intSplit2 0 sinkRp speedRp exSplit2 none)
  { c with bc := { c.bc with n := ![5, 2] } }

theorem exStrip_run : ClassicRun exStrip 1 0 (intSplit2 0 sinkRp speedRp exSplit2 none) where
  homogeneous := ⟨rfl, fun _ _ _ _ => rfl, fun _ _ _ _ => rfl⟩
  ghost := le_refl 2
  numAux := rfl
  axes := rfl
  kern := rfl

theorem exStrip_grid : PeriodicGrid exStrip.bc where
  cells := by
    intro a
    fin_cases a
    · exact ⟨(by decide : 0 < 5), (by decide : 2 ≤ 5)⟩
    · exact ⟨(by decide : 0 < 2), (by decide : 2 ≤ 2)⟩
  serial := fun _ => ⟨rfl, rfl⟩
  q := fun _ => ⟨rfl, rfl⟩
  aux := fun _ => ⟨rfl, rfl⟩

/-- The value 1 in column `i`, 0 elsewhere. -/
def exColumn (i : Nat) : HypData (Fin 2) ℚ := ⟨fun _ x => if x 0 = i then 1 else 0, fun _ _ => 0, ⟨fun _ _ => 0, fun _ _ => 0⟩⟩

theorem exStrip_cfl (i : Nat) (r : HypData (Fin 2) ℚ) (cfl : ℚ) (h : hypSerial exStrip 1 (exColumn i) = (r, .ok cfl)) :
    cfl = (splitStep2 0 sinkRp speedRp { exSplit2 with mx := 5, my := 2, dt := 1 } none (fun _ _ => Fin.elim0)
      (fun a b => fun _ => if wrapCell ![5, 2] ![a, b] 0 = i then 1 else 0)).2 := by
  obtain ⟨v, e, f⟩ := periodic_fill exStrip.bc exStrip_grid exStrip.axes (by rw [exStrip_run.axes]; exact List.nodup_finRange 2)
      (by rw [exStrip_run.axes]; exact List.mem_finRange) 1 0 exStrip_run.numAux (exColumn i).q (exColumn i).aux (exColumn i).work
  let EA : (Fin 2 → Int) → Fin 0 → ℚ := fun _ => Fin.elim0
  let EQ : (Fin 2 → Int) → Fin 1 → ℚ := fun v _ => if wrapCell ![5, 2] v 0 = i then 1 else 0
  have hP : ∀ v s : Fin 2 → Int, (∀ a, s a % ((![5, 2] : Fin 2 → Nat) a : Int) = 0) →
      EA (fun a => v a + s a) = EA v ∧ EQ (fun a => v a + s a) = EQ v := by
    intro v s hs
    simp only [EA, EQ, wrapCell_add ![5, 2] v s hs, and_self]
  have hn : ∀ a, 0 < (![5, 2] : Fin 2 → Nat) a := by decide
  obtain ⟨r1, c1, h1, _, h3⟩ := split2_periodic 0 sinkRp speedRp exSplit2 (le_refl 2) none ![5, 2] hn 1 _ _ EA EQ
    (fun v hv => ⟨funext fun k => k.elim0, (f v hv).1⟩) hP
  obtain ⟨r2, c2, h1', _, h3'⟩ := split2_periodic 0 sinkRp speedRp exSplit2 (le_refl 2) none ![5, 2] hn 1 EA EQ EA EQ
    (fun v _ => ⟨rfl, rfl⟩) hP
  have hc := isMax_unique h3 h3'
  have e2 : c2 = (splitStep2 0 sinkRp speedRp { exSplit2 with mx := 5, my := 2, dt := 1 } none (fun i j => EA ![i, j])
      (fun i j => EQ ![i, j])).2 := by
    have := congrArg (fun o => o.map Prod.snd) h1'
    simp only [intSplit2, Option.map_some, Option.some.injEq] at this
    exact this.symm
  unfold hypSerial at h
  simp only [exStrip_run.kern, onArrays, e] at h
  have h1 : intSplit2 0 sinkRp speedRp exSplit2 none 1 exStrip.bc.n (fieldOf 0 exStrip.bc.g v.aux) (fieldOf 1 exStrip.bc.g v.q) = some (r1, c1) := h1
  rw [h1] at h
  simp only [Option.map_some, Prod.mk.injEq, Except.ok.injEq] at h
  rw [← h.2, hc, e2]

/-- C90 fails for the Courant number of the split kernel in two dimensions: the sweeps in `y` include the ghost columns, which the
sweeps in `x` leave as they were. With the value 1 in column 2 the ghost columns hold 0 and the Courant number is 0, with the value
1 in column 0 a ghost column holds 1 and it is 1. -/
theorem C90_split2_violated : ¬ ∀ (k : Fin 2 → Int) (r r' : HypData (Fin 2) ℚ) (cfl cfl' : ℚ) (d d' : HypData (Fin 2) ℚ),
    Corresponds 1 0 exStrip.bc.n (cellBefore exStrip.bc.n k) id id (d.q, d.aux, d.work) (d'.q, d'.aux, d'.work) →
    hypSerial exStrip 1 d = (r, .ok cfl) → hypSerial exStrip 1 d' = (r', .ok cfl') → cfl = cfl' := by
  intro H
  have hd : Corresponds 1 0 exStrip.bc.n (cellBefore exStrip.bc.n ![-2, 0]) id id ((exColumn 2).q, (exColumn 2).aux, (exColumn 2).work)
      ((exColumn 0).q, (exColumn 0).aux, (exColumn 0).work) := by
    intro x hx
    refine ⟨?_, rfl⟩
    have h0 : x 0 < 5 := hx 0
    funext k
    simp only [exColumn, id, cellBefore, exStrip, exDiagonal]
    simp only [Matrix.cons_val_zero]
    have : (((x 0 : Int) - -2) % ((5 : Nat) : Int)).toNat = 2 ↔ x 0 = 0 := by omega
    simp only [this]
  obtain ⟨r, r', cfl, cfl', h1, h2, -⟩ := C90_split2_values_partial 0 sinkRp speedRp exSplit2 none exStrip exStrip_run exStrip_grid rfl
    ![-2, 0] 1 _ _ hd
  have hc := H _ _ _ _ _ _ _ hd h1 h2
  rw [exStrip_cfl _ _ _ h1, exStrip_cfl _ _ _ h2, splitStep2_cfl _ _ _ _ (by decide), splitStep2_cfl _ _ _ _ (by decide)] at hc
  revert hc
  decide +kernel

/-! ### The hypotheses are met -/

/-- The data of `exStart1` moved by one cell. -/
def exMoved1 : StepState ℚ (GArr (Fin 1) ℚ) (GArr (Fin 1) ℚ × BCArrays (Fin 1) ℚ) :=
  { exStart1 with sol := { exStart1.sol with q := fun _ x => if x 0 = 2 then 8 else if x 0 = 3 then 4 else 0 } }

/-- Non-vacuity of `C90_python1_partial`: a run that limits and changes the data, and the results of the two runs. -/
example : InStep (Corresponds 1 0 exPeriodic1.bc.n (cellBefore exPeriodic1.bc.n fun _ => 1) id id) exStart1 exMoved1 ∧
    (List.range 4).map (fun i => (runSteps (serialEnv exPeriodic1 id 1) [.evolve (some (1 / 4))] exStart1).sol.q 0 fun _ => i) =
      [3 / 8, 51 / 32, 181 / 32, 35 / 8] ∧
    (List.range 4).map (fun i => (runSteps (serialEnv exPeriodic1 id 1) [.evolve (some (1 / 4))] exMoved1).sol.q 0 fun _ => i) =
      [35 / 8, 3 / 8, 51 / 32, 181 / 32] := by
  refine ⟨⟨rfl, rfl, rfl, rfl, fun x hx => ⟨?_, funext fun k => k.elim0⟩⟩, by decide +kernel, by decide +kernel⟩
  have h0 : x 0 = 0 ∨ x 0 = 1 ∨ x 0 = 2 ∨ x 0 = 3 := by have : x 0 < 4 := hx 0; omega
  have hx' : x = fun _ => x 0 := by funext a; rw [Subsingleton.elim a 0]
  rw [hx']
  rcases h0 with h | h | h | h <;> rw [h] <;> decide +kernel

/-- Non-vacuity of the two-dimensional theorems: grids, kernels and data that meet the hypotheses are those of `exStrip` and
`exDiagonal`. -/
example : PeriodicGrid (exDiagonal exDiagonalStep).bc ∧ ClassicRun (exDiagonal exDiagonalStep) 1 0 exDiagonalStep ∧
    InStep (Corresponds 1 0 (exDiagonal exDiagonalStep).bc.n (cellBefore (exDiagonal exDiagonalStep).bc.n ![1, 2]) id id) exFixed2
      { exFixed2 with sol := { exFixed2.sol with q := fun k x => exFixed2.sol.q k (cellBefore ![3, 4] ![1, 2] x) } } :=
  ⟨exDiagonal_grid _, exDiagonal_run _, rfl, rfl, rfl, rfl, fun _ _ => ⟨rfl, funext fun k => k.elim0⟩⟩

end PyClaw
