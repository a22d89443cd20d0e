import Verif.Lemmas.SharpKernels
import Verif.Lemmas.SharpPair
import Verif.Props.Translation

set_option linter.unusedSectionVars false

/-!
C96: SharpClaw runs on periodic grids do not depend on where the grid begins.
-/
namespace PyClaw
open Spec

variable {K : Type*} [Field K] [LinearOrder K] [IsStrictOrderedRing K] [FloorRing K] {d m w naux : Nat}

/-- Pairs of translated arrays. -/
def transSub (n : Fin d → Nat) (k : Fin d → Int) : Submodule K (GArr (Fin d) K × GArr (Fin d) K) where
  carrier := {x | Translated n k x.1 x.2}
  add_mem' := by
    intro x y hx hy c idx h
    exact congrArg₂ (· + ·) (hx c idx h) (hy c idx h)
  zero_mem' := fun c idx _ => rfl
  smul_mem' := by
    intro a x hx c idx h
    exact congrArg (a * ·) (hx c idx h)

theorem cellwise_translated {n : Fin d → Nat} {k : Fin d → Int} {q q' aux aux' : GArr (Fin d) K} (hq : Translated n k q q')
    (ha : Translated n k aux aux') (f : CellMap (Fin d) K) (hf : ∀ x y, f x = f y) :
    Translated n k (cellwise f (fun _ => 0) q aux) (cellwise f (fun _ => 0) q' aux') := by
  intro c x hx
  unfold cellwise
  rw [hf (fun a => 0 + x a) (fun a => 0 + cellBefore n k x a)]
  congr 1
  · funext j; exact hq j x hx
  · funext j; exact ha j x hx

theorem translate_linked {τ : Type*} {step : IntKern (Fin d) K m naux} {ok : ((Fin d → Int) → Fin naux → K) → (Fin d → Int) → Prop}
    {new : K → ((Fin d → Int) → Fin naux → K) → ((Fin d → Int) → Fin m → K) → (Fin d → Int) → Fin m → K} {low : τ → Fin d → Int}
    {nums : K → ((Fin d → Int) → Fin naux → K) → ((Fin d → Int) → Fin m → K) → τ → (Fin d → Int) → K → Prop}
    (c : SharpGrid (Fin d) K) (S : WideStencil step c.bc.g ok new low nums) (hg : 1 ≤ c.bc.g) (hk : c.kern = dqArrays m naux c.bc.g step)
    (hp : SharpPeriodic c naux) (k : Fin d → Int) (aux aux' : GArr (Fin d) K) (ha : Translated c.bc.n k aux aux') :
    Linked (transSub c.bc.n k) (serialSharp c aux) (serialSharp c aux') where
  stage := fun t q q' hq => cellwise_translated hq ha (c.stage t) (hp.stage t)
  before := fun t q q' hq => cellwise_translated hq ha (c.before t) (hp.before t)
  dq := by
    intro dt t q q' hq
    have hq : Translated c.bc.n k q q' := hq
    have hn : ∀ a, 0 < c.bc.n a := fun a => (hp.grid.cells a).1
    show ((dqSerial c aux dt t q).1, (dqSerial c aux' dt t q').1) ∈ transSub c.bc.n k ∧ (dqSerial c aux' dt t q').2 = (dqSerial c aux dt t q).2
    have fill := fun (q aux : GArr (Fin d) K) => periodic_fill c.bc hp.grid c.axes (by rw [hp.axes]; exact List.nodup_finRange d)
      (by rw [hp.axes]; exact List.mem_finRange) m naux hp.numAux q aux ⟨fun _ _ => 0, fun _ _ => 0⟩
    obtain ⟨wA, hw, f⟩ := fill q aux
    obtain ⟨wA', hw', f'⟩ := fill q' aux'
    let EA : GArr (Fin d) K → (Fin d → Int) → Fin naux → K := fun a v => auxAt naux a (wrapCell c.bc.n v)
    let EQ : GArr (Fin d) K → (Fin d → Int) → Fin m → K := fun q v => fun k => q k.val (wrapCell c.bc.n v)
    have hP : ∀ (a q : GArr (Fin d) K) (v s : Fin d → Int), (∀ i, s i % (c.bc.n i : Int) = 0) →
        EA a (fun i => v i + s i) = EA a v ∧ EQ q (fun i => v i + s i) = EQ q v := by
      intro a q v s hs
      simp only [EA, EQ, wrapCell_add c.bc.n v s hs, and_self]
    have hA : ∀ v, EA aux' v = EA aux fun i => v i + -k i := by
      intro v
      simp only [EA]
      unfold auxAt
      funext j
      rw [ha _ _ (wrapCell_lt _ hn v), cellBefore_wrapCell c.bc.n hn k v]
      rfl
    have hQ : ∀ v, EQ q' v = EQ q fun i => v i + -k i := by
      intro v
      funext j
      simp only [EQ]
      rw [hq _ _ (wrapCell_lt _ hn v), cellBefore_wrapCell c.bc.n hn k v]
      rfl
    obtain ⟨n1, n2⟩ := S.periodic hg c.bc.n hn dt _ _ (EA aux) (EQ q) (fun v hv => ⟨(f v hv).2, (f v hv).1⟩) (hP aux q)
    obtain ⟨n1', n2'⟩ := S.periodic hg c.bc.n hn dt _ _ (EA aux') (EQ q') (fun v hv => ⟨(f' v hv).2, (f' v hv).1⟩) (hP aux' q')
    have okk : (∀ v, ok (EA aux') v) ↔ ∀ v, ok (EA aux) v := by
      have ho := fun v => S.okLocal (EA aux) (EA aux') (fun i => -k i) v (hA v)
      constructor
      · intro h v
        have := (ho fun i => v i + k i).mp (h _)
        simpa using this
      · intro h v
        exact (ho v).mpr (h _)
    have run : ∀ (q aux : GArr (Fin d) K) wA, applyBcs c.bc c.axes q aux ⟨fun _ _ => 0, fun _ _ => 0⟩ = (wA, .ok ()) →
        (step dt c.bc.n (fieldOf naux c.bc.g wA.aux) (fieldOf m c.bc.g wA.q) = none → dqSerial c aux dt t q = (0, 0)) ∧
        ∀ r cfl, step dt c.bc.n (fieldOf naux c.bc.g wA.aux) (fieldOf m c.bc.g wA.q) = some (r, cfl) →
          dqSerial c aux dt t q = (withSource c (fun _ => 0) dt t q aux
            (fun k idx => if k < m then putBack m c.bc.g wA.q r k (fun a => idx a + c.bc.g) else 0), cfl) := by
      intro q aux wA hw
      have hw1 : applyBcs c.par.bc c.par.axes (gridData q aux).q (gridData q aux).aux (gridData q aux).work = (wA, .ok ()) := hw
      have hk1 : c.par.kern dt c.par.bc.n wA = dqArrays m naux c.bc.g step dt c.bc.n wA := by
        show c.kern dt c.bc.n wA = _
        rw [hk]
      constructor
      · intro h
        unfold dqSerial hypSerial
        rw [hw1]
        dsimp only
        rw [hk1]
        unfold dqArrays onArrays
        rw [h]
        rfl
      · intro r cfl h
        unfold dqSerial hypSerial
        rw [hw1]
        dsimp only
        rw [hk1]
        unfold dqArrays onArrays
        rw [h]
        rfl
    by_cases hok : ∀ v, ok (EA aux) v
    · obtain ⟨r, cfl, h1, h2, h3⟩ := n2 hok
      obtain ⟨r', cfl', h1', h2', h3'⟩ := n2' (okk.mpr hok)
      have hc : cfl' = cfl := by
        refine isMax_unique h3' (isMax_congr (fun x => ?_) h3)
        have hnum := fun t v => S.numsLocal dt (EA aux) (EA aux') (EQ q) (EQ q') t (fun i => -k i) v x (fun u _ => ⟨hA u, hQ u⟩)
        constructor
        · rintro ⟨t, v, hx⟩
          refine ⟨t, fun i => v i + k i, (hnum t _).mpr ?_⟩
          simpa using hx
        · rintro ⟨t, v, hx⟩
          exact ⟨t, _, (hnum t v).mp hx⟩
      rw [(run q aux wA hw).2 r cfl h1, (run q' aux' wA' hw').2 r' cfl' h1']
      refine ⟨?_, hc⟩
      have key : Translated c.bc.n k (fun j idx => if j < m then putBack m c.bc.g wA.q r j (fun a => idx a + c.bc.g) else 0)
          (fun j idx => if j < m then putBack m c.bc.g wA'.q r' j (fun a => idx a + c.bc.g) else 0) := by
        intro j x hx
        dsimp only
        by_cases hj : j < m
        · rw [if_pos hj, if_pos hj]
          unfold putBack
          rw [dif_pos hj, dif_pos hj]
          refine congrFun ?_ _
          have e1 : ∀ (y : Fin d → Nat) a, (((y a + c.bc.g : Nat) : Int) + 1 - c.bc.g) = y a + 1 := fun y a => by omega
          simp only [e1]
          rw [h2' _ (fun i => by have := hx i; omega), h2 _ (fun i => by have := cellBefore_lt c.bc.n hn k x i; omega)]
          rw [S.newLocal dt (EA aux) (EA aux') (EQ q) (EQ q') (fun i => -k i) _ (fun u _ => ⟨hA u, hQ u⟩)]
          have hs : ∀ i, ((cellBefore c.bc.n k x i : Int) + 1 - ((x i : Int) + 1 + -k i)) % (c.bc.n i : Int) = 0 := by
            intro i
            have := wrapCell_rep c.bc.n hn (fun i => (x i : Int) + 1 + -k i) i
            have e := congrFun (cellBefore_wrapCell c.bc.n hn k (fun i => (x i : Int) + 1)) i
            rw [wrapCell_interior c.bc.n x hx] at e
            rw [e]
            exact this
          have := S.newLocal dt (EA aux) (EA aux) (EQ q) (EQ q)
            (fun i => (cellBefore c.bc.n k x i : Int) + 1 - ((x i : Int) + 1 + -k i)) (fun i => (x i : Int) + 1 + -k i)
            (fun u _ => ⟨((hP aux q u _ hs).1).symm, ((hP aux q u _ hs).2).symm⟩)
          rw [this]
          simp
        · rw [if_neg hj, if_neg hj]
      unfold withSource
      cases hsrc : c.source with
      | none => exact key
      | some f =>
        intro j x hx
        exact congrArg₂ (· + ·) (key j x hx) (cellwise_translated hq ha (f dt t) (hp.source f hsrc dt t) j x hx)
    · rw [(run q aux wA hw).1 (n1 hok), (run q' aux' wA' hw').1 (n1' fun h => hok (okk.mp h))]
      exact ⟨(transSub c.bc.n k).zero_mem, rfl⟩

/-- C96, the one-dimensional Fortran kernel: on a periodic grid two SharpClaw runs whose data differ by a translation by `k` cells (with
wrap around) take the same steps with the same Courant numbers, and their solutions, the stored stages and all solutions on the way differ by
the same translation, after any sequence of `evolve_to_time` calls with any time integrator. Missing: the wave-based TVD
reconstruction, see `C96_tvd_wave_violated`, and capacity functions in a library built so that `dtdx` is numbered from 1. -/
theorem C96_flux1_partial (f2003 : Bool) (R : ReconCfg K m w) (c : SharpGrid (Fin 1) K) (hR : R.Fits c.bc.g) (capa : Option ((Fin naux → K) → K))
    (hcap : capa = none ∨ f2003 = false) (rp : Riemann K (Fin naux → K) m w) (tf : TotalFluct K (Fin naux → K) m) (dx : K)
    (hk : c.kern = dqArrays m naux c.bc.g (intFlux1 f2003 R rp tf c.bc.g dx capa)) (hp : SharpPeriodic c naux) (k : Fin 1 → Int)
    (aux aux' : GArr (Fin 1) K) (ha : Translated c.bc.n k aux aux') (cfg : SharpCfg K) (goals : List (SharpGoal K))
    (r r' : SharpRun K (GArr (Fin 1) K)) (h : SameSharp (Translated c.bc.n k) r r') :
    SameSharp (Translated c.bc.n k) (sharpSessionC (serialSharp c aux) cfg goals r).1 (sharpSessionC (serialSharp c aux') cfg goals r').1 ∧
    (sharpSessionC (serialSharp c aux') cfg goals r').2 = (sharpSessionC (serialSharp c aux) cfg goals r).2 :=
  pair_session (translate_linked c (flux1_wide f2003 R c.bc.g capa hcap hR rp tf dx) hR.1 hk hp k aux aux' ha) cfg goals h

/-- C96, the two-dimensional kernel. -/
theorem C96_flux2_partial (f2003 : Bool) (R : ReconCfg K m w) (c : SharpGrid (Fin 2) K) (hR : R.Fits c.bc.g) (capa : Option ((Fin naux → K) → K))
    (hcap : capa = none ∨ f2003 = false) (rpx rpy : Riemann K (Fin naux → K) m w) (tfx tfy : TotalFluct K (Fin naux → K) m) (dx dy : K)
    (hk : c.kern = dqArrays m naux c.bc.g (intFlux2 f2003 R rpx rpy tfx tfy c.bc.g dx dy capa)) (hp : SharpPeriodic c naux) (k : Fin 2 → Int)
    (aux aux' : GArr (Fin 2) K) (ha : Translated c.bc.n k aux aux') (cfg : SharpCfg K) (goals : List (SharpGoal K))
    (r r' : SharpRun K (GArr (Fin 2) K)) (h : SameSharp (Translated c.bc.n k) r r') :
    SameSharp (Translated c.bc.n k) (sharpSessionC (serialSharp c aux) cfg goals r).1 (sharpSessionC (serialSharp c aux') cfg goals r').1 ∧
    (sharpSessionC (serialSharp c aux') cfg goals r').2 = (sharpSessionC (serialSharp c aux) cfg goals r).2 :=
  pair_session (translate_linked c (flux2_wide f2003 R c.bc.g capa hcap hR rpx rpy tfx tfy dx dy) hR.1 hk hp k aux aux' ha) cfg goals h

/-- C96, the three-dimensional kernel. -/
theorem C96_flux3_partial (f2003 : Bool) (R : ReconCfg K m w) (c : SharpGrid (Fin 3) K) (hR : R.Fits c.bc.g) (capa : Option ((Fin naux → K) → K))
    (hcap : capa = none ∨ f2003 = false) (rpx rpy rpz : Riemann K (Fin naux → K) m w) (tfx tfy tfz : TotalFluct K (Fin naux → K) m) (dx dy dz : K)
    (hk : c.kern = dqArrays m naux c.bc.g (intFlux3 f2003 R rpx rpy rpz tfx tfy tfz c.bc.g dx dy dz capa)) (hp : SharpPeriodic c naux) (k : Fin 3 → Int)
    (aux aux' : GArr (Fin 3) K) (ha : Translated c.bc.n k aux aux') (cfg : SharpCfg K) (goals : List (SharpGoal K))
    (r r' : SharpRun K (GArr (Fin 3) K)) (h : SameSharp (Translated c.bc.n k) r r') :
    SameSharp (Translated c.bc.n k) (sharpSessionC (serialSharp c aux) cfg goals r).1 (sharpSessionC (serialSharp c aux') cfg goals r').1 ∧
    (sharpSessionC (serialSharp c aux') cfg goals r').2 = (sharpSessionC (serialSharp c aux) cfg goals r).2 :=
  pair_session (translate_linked c (flux3_wide f2003 R c.bc.g capa hcap hR rpx rpy rpz tfx tfy tfz dx dy dz) hR.1 hk hp k aux aux' ha) cfg goals h

/-! ### A problem that meets the hypotheses, and one that does not -/

/-- A periodic grid of `n` cells in one dimension. -/
def ringBC (n g : Nat) : BCConfig (Fin 1) ℚ where
  g := g
  n := fun _ => n
  numEqn := 1
  numAux := 0
  bcLower := fun _ => .periodic
  bcUpper := fun _ => .periodic
  auxLower := fun _ => .periodic
  auxUpper := fun _ => .periodic
  reflect := fun _ => 0
  onLower := fun _ => true
  onUpper := fun _ => true

/-- Advection on a ring of `n` cells. -/
def ringSharp (n g : Nat) (R : ReconCfg ℚ 1 1) : SharpGrid (Fin 1) ℚ where
  bc := ringBC n g
  axes := List.finRange 1
  kern := dqArrays 1 0 g (intFlux1 true R (fun ql qr _ _ => advectionRp (1 : ℚ) ql qr () ()) none g 1 none)
  source := some fun dt _ _ q _ k => dt * q k
  before := fun _ _ q _ => q
  stage := fun _ _ q _ => q

/-- Non-vacuity of `C96_flux1_partial`. -/
theorem ringSharp_periodic (n g : Nat) (h : 0 < n ∧ g ≤ n) (R : ReconCfg ℚ 1 1) : SharpPeriodic (ringSharp n g R) 0 where
  grid := ⟨fun _ => h, fun _ => ⟨rfl, rfl⟩, fun _ => ⟨rfl, rfl⟩, fun _ => ⟨rfl, rfl⟩⟩
  axes := rfl
  numAux := rfl
  source := by
    intro f hf dt t x y
    obtain rfl := Option.some.inj hf
    rfl
  before := fun _ _ _ => rfl
  stage := fun _ _ _ => rfl

/-- WENO5, one equation. -/
def wenoRing : ReconCfg ℚ 1 1 where
  eps := 1 / 1000000
  tol := 0
  undef := 0
  first := 0
  limType := 2
  charDecomp := 0
  order := 5
  fwave := false
  limEqn := fun _ => 1
  limWave := fun _ => 1
  old := ⟨fun _ => 0, fun _ => 0⟩

theorem wenoRing_fits : wenoRing.Fits 3 ∧ wenoRing.Supported 3 := by
  refine ⟨⟨by norm_num, ?_, ?_, ?_⟩, ?_⟩
  · simp [wenoRing]
  · simp [wenoRing]
  · simp [wenoRing]
  · simp [ReconCfg.Supported, reconRow, fRecon, wenoRing, wenoComp]

/-- `lim_type = 1`, `char_decomp = 1`, minmod, on a ring. -/
def tvdWaveRing : ReconCfg ℚ 1 1 := { wenoRing with limType := 1, charDecomp := 1 }

/-- C96 fails for the wave-based TVD reconstruction, which leaves out the last interface of the grid: advection on a ring of four cells with
values 0, 1, 4, 9. Translated by one cell, the first step gives other values. -/
theorem C96_tvd_wave_violated :
    ∃ q q' : GArr (Fin 1) ℚ, Translated (fun _ => 4) (fun _ => 1) q q' ∧
      ¬ Translated (fun _ => 4) (fun _ => 1) (dqSerial (ringSharp 4 2 tvdWaveRing) (fun _ _ => 0) (1 / 2) 0 q).1
        (dqSerial (ringSharp 4 2 tvdWaveRing) (fun _ _ => 0) (1 / 2) 0 q').1 := by
  refine ⟨fun _ x => (x 0 : ℚ) ^ 2, fun _ x => (((x 0 + 3) % 4 : Nat) : ℚ) ^ 2, ?_, fun h => ?_⟩
  · intro c x hx
    have := hx 0
    dsimp only
    generalize hy : x 0 = y at this
    have hc : cellBefore (fun _ : Fin 1 => 4) (fun _ => 1) x 0 = (y + 3) % 4 := by
      simp only [cellBefore, hy]
      omega
    rw [hc]
  · have h0 := h 0 (fun _ => 0) (fun _ => by norm_num)
    have h1 := h 0 (fun _ => 1) (fun _ => by norm_num)
    have h2 := h 0 (fun _ => 2) (fun _ => by norm_num)
    have h3 := h 0 (fun _ => 3) (fun _ => by norm_num)
    have := And.intro h0 (And.intro h1 (And.intro h2 h3))
    revert this
    decide +kernel

end PyClaw
