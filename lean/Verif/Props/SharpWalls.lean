import Verif.Lemmas.SharpWalls
import Verif.Props.SharpMirror
import Verif.Props.Walls3

set_option linter.unusedSectionVars false

/-!
C102 for SharpClaw: between walls nothing is lost. Along every axis the grid is periodic or has a wall on both sides; the total of every
component that no wall reflects is the same in all solutions of a run, whatever the time integrator.
-/
namespace PyClaw
open Spec

variable {K : Type*} [Field K] [LinearOrder K] [IsStrictOrderedRing K] [FloorRing K] {d m w naux : Nat}

/-- The total as a linear map. -/
def gridTotalMap (n : Fin d → Nat) (dV : K) (capa : Option ((Fin naux → K) → K)) (aux : GArr (Fin d) K) (k : Nat) : GArr (Fin d) K →ₗ[K] K where
  toFun q := gridTotal n dV capa aux q k
  map_add' q q' := by
    unfold gridTotal
    rw [← Finset.sum_add_distrib]
    exact Finset.sum_congr rfl fun x _ => mul_add _ _ _
  map_smul' a q := by
    unfold gridTotal
    rw [RingHom.id_apply, smul_eq_mul, Finset.mul_sum]
    exact Finset.sum_congr rfl fun x _ => mul_left_comm _ _ _

/-- C102, SharpClaw in one dimension. `hb`, `hs`: what `before_step` does keeps the total (for example, it does nothing). Full statement:
also for the reconstructions that are not modelled, for capacity functions with the compiler flags of `C44_fortran_capacity_violated`. -/
theorem C102_sharp1_partial (f2003 : Bool) (R : ReconCfg K m w) (capa : Option ((Fin naux → K) → K))
    (hcap : capa = none ∨ f2003 = false) (c : SharpGrid (Fin 1) K) (hR : R.Fits c.bc.g) (dx : K) (hdx : dx ≠ 0)
    (rp : Riemann K (Fin naux → K) m w) (tf : TotalFluct K (Fin naux → K) m) (fl : (Fin m → K) → (Fin naux → K) → Fin m → K)
    (hf : FluxDifference rp fl) (ht : ∀ f, tf = some f → TotalFluctuation f fl)
    (hk : c.kern = dqArrays m naux c.bc.g (intFlux1 f2003 R rp tf c.bc.g dx capa))
    (hM : ∀ a, HasWall c.bc a → OwnImageSharp c.bc R (fun _ => rp) (fun _ => tf) a)
    (hp : SharpProblem c naux) (he : Enclosed c.bc) (hsrc : c.source = none) (aux : GArr (Fin 1) K)
    (hpos : PositiveCapacity c.bc.n capa aux) (k : Nat) (hkm : k < m) (hu : Unreflected c.bc k)
    (hb : ∀ t q, gridTotal c.bc.n dx capa aux (cellwise (c.before t) (fun _ => 0) q aux) k = gridTotal c.bc.n dx capa aux q k)
    (hs : ∀ t q, gridTotal c.bc.n dx capa aux (cellwise (c.stage t) (fun _ => 0) q aux) k = gridTotal c.bc.n dx capa aux q k)
    (cfg : SharpCfg K) (regs : Nat) (hm : MethodOk (serialSharp c aux) cfg regs) (r : SharpRun K (GArr (Fin 1) K))
    (hr : FreshFor regs r.st) (hlog : r.log = []) (ks : List (SharpCall K)) :
    Throughout (fun q => gridTotal c.bc.n dx capa aux q k = gridTotal c.bc.n dx capa aux r.st.q k)
      (sharpSession (serialSharp c aux) cfg ks r) := by
  refine C89_linear (serialSharp c aux) (gridTotalMap c.bc.n dx capa aux k) (fun dt t q => ?_) hb hs cfg regs hm r hr hlog ks
  have S := flux1_sweeps f2003 R c.bc.g capa hcap hR (fun _ => rp) (fun _ => tf) (fun _ => dx)
  exact sharp_walls f2003 R capa (rp := fun _ => rp) (tf := fun _ => tf) (fun _ => dx) (fun _ => hdx) (fl := fun _ => fl) (fun _ => hf)
    (fun _ => ht) c hcap hR S hM hk hp he hsrc aux hpos dx dt t q k hkm hu

/-- C102, SharpClaw in two dimensions. -/
theorem C102_sharp2_partial (f2003 : Bool) (R : ReconCfg K m w) (capa : Option ((Fin naux → K) → K))
    (hcap : capa = none ∨ f2003 = false) (c : SharpGrid (Fin 2) K) (hR : R.Fits c.bc.g) (dx : Fin 2 → K) (hdx : ∀ a, dx a ≠ 0)
    (rp : Fin 2 → Riemann K (Fin naux → K) m w) (tf : Fin 2 → TotalFluct K (Fin naux → K) m)
    (fl : Fin 2 → (Fin m → K) → (Fin naux → K) → Fin m → K)
    (hf : ∀ a, FluxDifference (rp a) (fl a)) (ht : ∀ a f, tf a = some f → TotalFluctuation f (fl a))
    (hk : c.kern = dqArrays m naux c.bc.g (intFlux2 f2003 R (rp 0) (rp 1) (tf 0) (tf 1) c.bc.g (dx 0) (dx 1) capa))
    (hM : ∀ a, HasWall c.bc a → OwnImageSharp c.bc R rp tf a)
    (hp : SharpProblem c naux) (he : Enclosed c.bc) (hsrc : c.source = none) (aux : GArr (Fin 2) K)
    (hpos : PositiveCapacity c.bc.n capa aux) (k : Nat) (hkm : k < m) (hu : Unreflected c.bc k)
    (hb : ∀ t q, gridTotal c.bc.n (dx 0 * dx 1) capa aux (cellwise (c.before t) (fun _ => 0) q aux) k =
      gridTotal c.bc.n (dx 0 * dx 1) capa aux q k)
    (hs : ∀ t q, gridTotal c.bc.n (dx 0 * dx 1) capa aux (cellwise (c.stage t) (fun _ => 0) q aux) k =
      gridTotal c.bc.n (dx 0 * dx 1) capa aux q k)
    (cfg : SharpCfg K) (regs : Nat) (hm : MethodOk (serialSharp c aux) cfg regs) (r : SharpRun K (GArr (Fin 2) K))
    (hr : FreshFor regs r.st) (hlog : r.log = []) (ks : List (SharpCall K)) :
    Throughout (fun q => gridTotal c.bc.n (dx 0 * dx 1) capa aux q k = gridTotal c.bc.n (dx 0 * dx 1) capa aux r.st.q k)
      (sharpSession (serialSharp c aux) cfg ks r) := by
  refine C89_linear (serialSharp c aux) (gridTotalMap c.bc.n (dx 0 * dx 1) capa aux k) (fun dt t q => ?_) hb hs cfg regs hm r hr hlog ks
  have S := flux2_wide f2003 R c.bc.g capa hcap hR (rp 0) (rp 1) (tf 0) (tf 1) (dx 0) (dx 1)
  simp only [eta_two] at S
  exact sharp_walls f2003 R capa dx hdx hf ht c hcap hR S hM hk hp he hsrc aux hpos _ dt t q k hkm hu

/-- C102, SharpClaw in three dimensions. -/
theorem C102_sharp3_partial (f2003 : Bool) (R : ReconCfg K m w) (capa : Option ((Fin naux → K) → K))
    (hcap : capa = none ∨ f2003 = false) (c : SharpGrid (Fin 3) K) (hR : R.Fits c.bc.g) (dx : Fin 3 → K) (hdx : ∀ a, dx a ≠ 0)
    (rp : Fin 3 → Riemann K (Fin naux → K) m w) (tf : Fin 3 → TotalFluct K (Fin naux → K) m)
    (fl : Fin 3 → (Fin m → K) → (Fin naux → K) → Fin m → K)
    (hf : ∀ a, FluxDifference (rp a) (fl a)) (ht : ∀ a f, tf a = some f → TotalFluctuation f (fl a))
    (hk : c.kern = dqArrays m naux c.bc.g
      (intFlux3 f2003 R (rp 0) (rp 1) (rp 2) (tf 0) (tf 1) (tf 2) c.bc.g (dx 0) (dx 1) (dx 2) capa))
    (hM : ∀ a, HasWall c.bc a → OwnImageSharp c.bc R rp tf a)
    (hp : SharpProblem c naux) (he : Enclosed c.bc) (hsrc : c.source = none) (aux : GArr (Fin 3) K)
    (hpos : PositiveCapacity c.bc.n capa aux) (k : Nat) (hkm : k < m) (hu : Unreflected c.bc k)
    (hb : ∀ t q, gridTotal c.bc.n (dx 0 * dx 1 * dx 2) capa aux (cellwise (c.before t) (fun _ => 0) q aux) k =
      gridTotal c.bc.n (dx 0 * dx 1 * dx 2) capa aux q k)
    (hs : ∀ t q, gridTotal c.bc.n (dx 0 * dx 1 * dx 2) capa aux (cellwise (c.stage t) (fun _ => 0) q aux) k =
      gridTotal c.bc.n (dx 0 * dx 1 * dx 2) capa aux q k)
    (cfg : SharpCfg K) (regs : Nat) (hm : MethodOk (serialSharp c aux) cfg regs) (r : SharpRun K (GArr (Fin 3) K))
    (hr : FreshFor regs r.st) (hlog : r.log = []) (ks : List (SharpCall K)) :
    Throughout (fun q => gridTotal c.bc.n (dx 0 * dx 1 * dx 2) capa aux q k = gridTotal c.bc.n (dx 0 * dx 1 * dx 2) capa aux r.st.q k)
      (sharpSession (serialSharp c aux) cfg ks r) := by
  refine C89_linear (serialSharp c aux) (gridTotalMap c.bc.n (dx 0 * dx 1 * dx 2) capa aux k) (fun dt t q => ?_) hb hs cfg regs hm r hr hlog ks
  have S := flux3_wide f2003 R c.bc.g capa hcap hR (rp 0) (rp 1) (rp 2) (tf 0) (tf 1) (tf 2) (dx 0) (dx 1) (dx 2)
  simp only [eta_three] at S
  exact sharp_walls f2003 R capa dx hdx hf ht c hcap hR S hM hk hp he hsrc aux hpos _ dt t q k hkm hu

/-! ### Where it fails -/

/-- Sound between two walls, two ghost cells. -/
def exPipe (n : Nat) (R : ReconCfg ℚ 2 2) : SharpGrid (Fin 1) ℚ where
  bc := ⟨2, fun _ => n, 2, 0, fun _ => .wall, fun _ => .wall, fun _ => .wall, fun _ => .wall, fun _ => 1, fun _ => true, fun _ => true,
    none, none, none, none⟩
  axes := List.finRange 1
  kern := dqArrays 2 0 2 (intFlux1 true R (ignoreAux 0 acousticsRp) none 2 1 none)
  source := none
  before := fun _ _ q _ => q
  stage := fun _ _ q _ => q

/-- C102 fails for the limiter 5 of the componentwise TVD reconstruction: the states on the two sides of a wall are not images of each
other, and pressure flows through the wall. -/
theorem C102_sharp_limiter_violated :
    ∃ q : GArr (Fin 1) ℚ, gridTotal (naux := 0) (fun _ => 4) 1 none (fun _ _ => 0)
      (dqSerial (exPipe 4 { wenoAny 2 2 with limType := 1, limEqn := fun _ => 5 }) (fun _ _ => 0) (1 / 2) 0 q).1 0 ≠ 0 := by
  refine ⟨fun k x => if k = 0 then (x 0 : ℚ) ^ 2 else (x 0 : ℚ), ?_⟩
  decide +kernel

/-! ### Problems that meet the hypotheses -/

/-- A solver with `k` registers after `setup`, on the data `q`. -/
def exFresh (k : Nat) (q : GArr (Fin d) ℚ) : SharpRun ℚ (GArr (Fin d) ℚ) :=
  ⟨⟨1 / 8, none, 0, true, 0, 0, List.replicate k (q, 0), [], [], [], 0, true, 0, q⟩, 1000, none, []⟩

/-- Non-vacuity of `C102_sharp1_partial`: sound between two walls, with the two-step Adams–Bashforth method; the total pressure stays what
it was, for all initial values and calls. -/
example (q : GArr (Fin 1) ℚ) (ks : List (SharpCall ℚ)) :=
  C102_sharp1_partial true (wenoAny 2 2) none (Or.inl rfl)
    { exImage 1 2 (fun _ => 4) (fun _ => .wall) (fun _ => .wall)
        (intFlux1 true (wenoAny 2 2) (ignoreAux 0 acousticsRp) none 3 (1 / 4) none) with source := none }
    (wenoAny_fits 2 2).1 (1 / 4) (by norm_num) (ignoreAux 0 acousticsRp) none (fun q _ => ![q 1, q 0])
    (fun ql qr _ _ => funext fun k => by fin_cases k <;> simp [ignoreAux, acousticsRp] <;> ring) (fun _ h => by cases h) rfl
    (fun a _ => by
      have e : axisSign (exImage 1 2 (fun _ => 4) (fun _ => .wall) (fun _ => .wall)
          (intFlux1 true (wenoAny 2 2) (ignoreAux 0 acousticsRp) none 3 (1 / 4) none)).bc a 2 = ![1, -1] := by
        funext k; fin_cases a; fin_cases k <;> simp [axisSign, exImage]
      refine ⟨(wenoAny_fits 2 2).2.2, ⟨Equiv.swap 0 1, ?_⟩, trivial, fun b hb => absurd (Subsingleton.elim b a) hb,
        fun b hb => absurd (Subsingleton.elim b a) hb⟩
      rw [e]
      exact acoustics_image 0)
    (let P := exSharp_problem 1 2 (fun _ => 4) (fun _ => by norm_num) (fun _ => .wall) (fun _ => .wall) (fun _ => by simp [BuiltInBC])
      (fun _ => by simp [BuiltInBC]) (by norm_num) (intFlux1 true (wenoAny 2 2) (ignoreAux 0 acousticsRp) none 3 (1 / 4) none)
     ⟨P.admissible, P.serial, P.axes, P.numAux⟩)
    ⟨fun _ => Or.inl ⟨rfl, rfl⟩, fun h => absurd h (by simp [exImage])⟩ rfl (fun _ _ => 0) (fun _ h => by cases h) 0 (by norm_num)
    (fun a _ => by simp [exImage]) (fun _ _ => rfl) (fun _ _ => rfl) ab2Cfg 2
    (Or.inl ⟨rfl, by intro al be h; cases h; simp [AlphaSum, ab2Cfg]⟩) (exFresh 2 q)
    ⟨by norm_num [exFresh], rfl, rfl, rfl, rfl, rfl, rfl, rfl⟩ rfl ks

/-- Non-vacuity of `C102_sharp3_partial`: sound in a duct with walls across `x` and `z`, periodic along `y`; the total velocity along the
duct (component 2) stays what it was. -/
example (q : GArr (Fin 3) ℚ) (ks : List (SharpCall ℚ)) :=
  C102_sharp3_partial true (wenoAny 4 2) none (Or.inl rfl)
    { exSharpCube ![3, 4, 5] ![.wall, .periodic, .wall] ![.wall, .periodic, .wall] ![1, 2, 3] with source := none }
    (wenoAny_fits 4 2).1 ![1, 2, 3] (fun a => by fin_cases a <;> simp) cubeRp (fun _ => none) (fun a q _ => cubeFlux a q)
    (fun a ql qr al ar => by
      have h0 : (0 : Fin 4) ≠ a.succ := (Fin.succ_ne_zero a).symm
      funext k
      by_cases k0 : k = 0 <;> by_cases k1 : k = a.succ <;> simp_all [cubeRp, cubeFlux, cubeDown, cubeUp] <;> ring)
    (fun _ _ h => by cases h) rfl
    (fun a _ => by
      have e : axisSign (exSharpCube ![3, 4, 5] ![.wall, .periodic, .wall] ![.wall, .periodic, .wall] ![1, 2, 3]).bc a 4 = cubeSign a := by
        funext k; fin_cases a <;> fin_cases k <;> simp [axisSign, exSharpCube, exImage, cubeSign]
      have M := cube_mirror (K := ℚ) (naux := 0) a false rfl
      refine ⟨(wenoAny_fits 4 2).2.2, ⟨(fun b => if b = a then Equiv.swap 0 1 else Equiv.refl (Fin 2)) a, ?_⟩, trivial,
        fun b hb => ⟨(fun b => if b = a then Equiv.swap 0 1 else Equiv.refl (Fin 2)) b, ?_⟩, fun b hb => trivial⟩
      · rw [e]; exact M.across
      · rw [e]; exact M.along b hb)
    (let P := exSharp_problem 3 4 ![3, 4, 5] (fun a => by fin_cases a <;> simp) ![.wall, .periodic, .wall] ![.wall, .periodic, .wall]
      (fun a => by fin_cases a <;> simp [BuiltInBC]) (fun a => by fin_cases a <;> simp [BuiltInBC]) (by norm_num)
      (intFlux3 true (wenoAny 4 2) (cubeRp 0) (cubeRp 1) (cubeRp 2) none none none 3 1 2 3 none)
     ⟨P.admissible, P.serial, P.axes, P.numAux⟩)
    ⟨fun a => by
      fin_cases a
      · exact Or.inl ⟨rfl, rfl⟩
      · exact Or.inr ⟨rfl, rfl⟩
      · exact Or.inl ⟨rfl, rfl⟩, fun h => absurd h (by simp [exSharpCube, exImage])⟩ rfl (fun _ _ => 0) (fun _ h => by cases h) 2
    (by norm_num)
    (fun a h => by
      fin_cases a
      · simp [exSharpCube, exImage]
      · exact absurd h (by simp [HasWall, exSharpCube, exImage])
      · simp [exSharpCube, exImage])
    (fun _ _ => rfl) (fun _ _ => rfl) ab2Cfg 2
    (Or.inl ⟨rfl, by intro al be h; cases h; simp [AlphaSum, ab2Cfg]⟩) (exFresh 2 q)
    ⟨by norm_num [exFresh], rfl, rfl, rfl, rfl, rfl, rfl, rfl⟩ rfl ks

/-- What the right-hand side does there: the pressure moves, its total does not change. -/
example :
    let d := (dqSerial (exPipe 4 { wenoAny 2 2 with limType := 1 }) (fun _ _ => 0) (1 / 2) 0 fun k x => if k = 0 then (x 0 : ℚ) ^ 2 else x 0).1
    d 0 (fun _ => 1) ≠ 0 ∧ gridTotal (naux := 0) (fun _ => 4) 1 none (fun _ _ => 0) d 0 = 0 ∧
      gridTotal (naux := 0) (fun _ => 4) 1 none (fun _ _ => 0) d 1 ≠ 0 := by
  decide +kernel

end PyClaw
