import Verif.Props.SharpWalls
import Verif.Props.SharpPyMirror

set_option linter.unusedSectionVars false

/-!
The Python kernel of SharpClaw between walls (C102).
-/
namespace PyClaw
open Spec

variable {K : Type*} [Field K] [LinearOrder K] [IsStrictOrderedRing K] {m w naux : Nat}

/-- What a row of periodic data adds up to. -/
theorem pyNew_conserves (eps tol : K) {limType charDecomp : Int} (hl : limType = -1 ∨ limType = 2 ∧ (charDecomp = 0 ∨ charDecomp = 1))
    {rp : Riemann K (Fin naux → K) m w} {fl : (Fin m → K) → (Fin naux → K) → Fin m → K} (hf : FluxDifference rp fl) (g : Nat) (hg : 3 ≤ g)
    (dx : K) (hdx : dx ≠ 0) (capa : Option ((Fin naux → K) → K)) (dt : K) (n : Fin 1 → Nat) (hn : ∀ a, 0 < n a)
    (A : (Fin 1 → Int) → Fin naux → K) (Q : (Fin 1 → Int) → Fin m → K) (hA : ∀ κ v, capa = some κ → κ (A v) ≠ 0)
    (pQ : ∀ a v, Q (Function.update v a (v a + n a)) = Q v) (pA : ∀ a v, A (Function.update v a (v a + n a)) = A v) (k : Fin m) :
    boxTotal n dx capa A (pyNew eps tol limType charDecomp rp g dx capa dt A Q) k = 0 := by
  obtain ⟨r, hr⟩ := py_ok eps tol hl rp ⟨n 0, g, dt, dx⟩ capa (fun i => A fun _ => i + (1 - g)) (fun i => Q fun _ => i + (1 - g))
  have per : ∀ {β : Type _} (X : (Fin 1 → Int) → β), (∀ a v, X (Function.update v a (v a + n a)) = X v) →
      ∀ i : Int, X (fun _ => i + n 0 + (1 - g)) = X fun _ => i + (1 - g) := by
    intro β X h i
    rw [← h 0 fun _ => i + (1 - g)]
    congr 1
    funext a
    obtain rfl := Subsingleton.elim a 0
    rw [Function.update_self]
    ring
  have key := congrFun (C44_python_conserves eps tol rp fl hf ⟨n 0, g, dt, dx⟩ hdx hg limType charDecomp capa _ (fun κ i h => hA κ _ h) _
    (fun i _ _ => per Q pQ i) (fun i _ _ => per A pA i) r hr) k
  have S := (pyFlux1_wide eps tol hl rp g hg dx capa).value (dt := dt) (n := n) (A := A) (Q := Q) (r := fun v => r.1 (v 0 + g - 1)) (cfl := 0)
    (by unfold valuesOf intPyFlux1; rw [hr]; rfl) hn
  rw [Pi.zero_apply] at key
  rw [← key]
  unfold boxTotal total
  simp only [Finset.sum_apply, Pi.smul_apply, smul_eq_mul]
  refine Finset.sum_bij' (fun x _ => x 0) (fun i _ _ => i) ?_ ?_ ?_ ?_ ?_
  · exact fun x hx => Fintype.mem_piFinset.mp hx 0
  · intro i hi
    refine Fintype.mem_piFinset.mpr fun a => ?_
    obtain rfl := Subsingleton.elim a 0
    exact hi
  · intro x _
    funext a
    obtain rfl := Subsingleton.elim a 0
    rfl
  · exact fun _ _ => rfl
  · intro x hx
    have hx0 := Finset.mem_range.mp (Fintype.mem_piFinset.mp hx 0)
    rw [← S.2 (fun a => (x a : Int) + 1) fun a => by obtain rfl := Subsingleton.elim a 0; omega]
    have e1 : (fun a : Fin 1 => (x a : Int) + 1) = fun _ => (g : Int) + x 0 + (1 - g) := by
      funext a
      obtain rfl := Subsingleton.elim a 0
      ring
    have e2 : (x 0 : Int) + 1 + g - 1 = g + x 0 := by ring
    rw [e1, e2]
    congr 1
    unfold cellVolume capacity
    cases capa <;> simp

variable [FloorRing K]

/-- C102, the Python kernel of SharpClaw with the first-order, the WENO5 and the wave-based WENO5 reconstruction and at least three ghost cells:
between two walls or on a periodic grid the total of every component that no wall reflects is the same in all solutions of a run, whatever the
time integrator. `hb`, `hs`: what `before_step` does keeps the total. Missing: f-waves with the wave-based reconstruction (`hfw`). -/
theorem C102_sharp_python_partial (eps tol : K) {limType charDecomp : Int} (hl : limType = -1 ∨ limType = 2 ∧ (charDecomp = 0 ∨ charDecomp = 1))
    (capa : Option ((Fin naux → K) → K)) (c : SharpGrid (Fin 1) K) (hg : 3 ≤ c.bc.g) (dx : K) (hdx : dx ≠ 0)
    (rp : Riemann K (Fin naux → K) m w) (fl : (Fin m → K) → (Fin naux → K) → Fin m → K) (hf : FluxDifference rp fl)
    (hk : c.kern = dqArrays m naux c.bc.g (intPyFlux1 eps tol limType charDecomp rp c.bc.g dx capa))
    (fw : Bool) (hfw : charDecomp = 1 → fw = false) (hM : HasWall c.bc 0 → ∃ π, MirrorImage (axisSign c.bc 0 m) id π fw rp rp)
    (hp : SharpProblem c naux) (he : Enclosed c.bc) (hsrc : c.source = none) (aux : GArr (Fin 1) K)
    (hpos : PositiveCapacity c.bc.n capa aux) (k : Nat) (hkm : k < m) (hu : Unreflected c.bc k)
    (hb : ∀ t q, gridTotal c.bc.n dx capa aux (cellwise (c.before t) (fun _ => 0) q aux) k = gridTotal c.bc.n dx capa aux q k)
    (hs : ∀ t q, gridTotal c.bc.n dx capa aux (cellwise (c.stage t) (fun _ => 0) q aux) k = gridTotal c.bc.n dx capa aux q k)
    (cfg : SharpCfg K) (regs : Nat) (hm : MethodOk (serialSharp c aux) cfg regs) (r : SharpRun K (GArr (Fin 1) K))
    (hr : FreshFor regs r.st) (hlog : r.log = []) (ks : List (SharpCall K)) :
    Throughout (fun q => gridTotal c.bc.n dx capa aux q k = gridTotal c.bc.n dx capa aux r.st.q k)
      (sharpSession (serialSharp c aux) cfg ks r) := by
  refine C89_linear (serialSharp c aux) (gridTotalMap c.bc.n dx capa aux k) (fun dt t q => ?_) hb hs cfg regs hm r hr hlog ks
  show gridTotal c.bc.n dx capa aux (dqSerial c aux dt t q).1 k = 0
  rw [← values_serial c (intPyFlux1 eps tol limType charDecomp rp c.bc.g dx capa) hk]
  refine wide_walls (c.values m naux (intPyFlux1 eps tol limType charDecomp rp c.bc.g dx capa)) (pyFlux1_wide eps tol hl rp c.bc.g hg dx capa)
    capa dx (fun _ a hwall dt n A Q v => ?_) (fun _ dt n A Q hn hA pQ pA k => ?_) rfl ⟨hp.admissible, hp.serial, hp.axes, hp.numAux⟩ he hsrc aux
    hpos dt t q k hkm hu
  · obtain rfl := Subsingleton.elim a 0
    obtain ⟨π, hπ⟩ := hM hwall
    exact pyNew_mirror eps tol hl (axisSign_isSign c.bc 0) hfw hπ c.bc.g dx (fun _ _ _ => rfl) (n 0) dt A Q v
  · exact pyNew_conserves eps tol hl hf c.bc.g hg dx hdx capa dt n hn A Q hA pQ pA k

/-- Non-vacuity of `C102_sharp_python_partial`: sound between two walls, wave-based reconstruction, two-step Adams–Bashforth method; the total
pressure stays what it was, for all initial values and calls. -/
example (q : GArr (Fin 1) ℚ) (ks : List (SharpCall ℚ)) :=
  C102_sharp_python_partial (1 / 1000000) (1 / 100000000000000) (limType := 2) (charDecomp := 1) (Or.inr ⟨rfl, Or.inr rfl⟩) none
    { exImage 1 2 (fun _ => 4) (fun _ => .wall) (fun _ => .wall)
        (intPyFlux1 (1 / 1000000) (1 / 100000000000000) 2 1 (ignoreAux 0 acousticsRp) 3 (1 / 4) none) with source := none }
    (le_refl 3) (1 / 4) (by norm_num) (ignoreAux 0 acousticsRp) (fun q _ => ![q 1, q 0])
    (fun ql qr _ _ => funext fun k => by fin_cases k <;> simp [ignoreAux, acousticsRp] <;> ring) rfl false (fun _ => rfl)
    (fun _ => by
      have e : axisSign (exImage 1 2 (fun _ => 4) (fun _ => .wall) (fun _ => .wall)
          (intPyFlux1 (1 / 1000000) (1 / 100000000000000) 2 1 (ignoreAux 0 acousticsRp) 3 (1 / 4) none)).bc 0 2 = ![1, -1] := by
        funext k; fin_cases k <;> simp [axisSign, exImage]
      refine ⟨Equiv.swap 0 1, ?_⟩
      rw [e]
      exact acoustics_image 0)
    (let P := exSharp_problem 1 2 (fun _ => 4) (fun _ => by norm_num) (fun _ => .wall) (fun _ => .wall) (fun _ => by simp [BuiltInBC])
      (fun _ => by simp [BuiltInBC]) (by norm_num)
      (intPyFlux1 (1 / 1000000) (1 / 100000000000000) 2 1 (ignoreAux 0 acousticsRp) 3 (1 / 4) none)
     ⟨P.admissible, P.serial, P.axes, P.numAux⟩)
    ⟨fun _ => Or.inl ⟨rfl, rfl⟩, fun h => absurd h (by simp [exImage])⟩ rfl (fun _ _ => 0) (fun _ h => by cases h) 0 (by norm_num)
    (fun a _ => by simp [exImage]) (fun _ _ => rfl) (fun _ _ => rfl) ab2Cfg 2
    (Or.inl ⟨rfl, by intro al be h; cases h; simp [AlphaSum, ab2Cfg]⟩) (exFresh 2 q)
    ⟨by norm_num [exFresh], rfl, rfl, rfl, rfl, rfl, rfl, rfl⟩ rfl ks

end PyClaw
