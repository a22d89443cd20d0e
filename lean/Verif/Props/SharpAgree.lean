import Verif.Props.SharpStep
import Verif.Props.Weno

/-!
C70: the Python and Fortran SharpClaw kernels.
-/
set_option linter.unusedSectionVars false
set_option linter.unusedSimpArgs false

namespace PyClaw
open Spec

variable {K A : Type*} [Field K] [LinearOrder K] [IsStrictOrderedRing K] {m w : Nat}

/-- Two sets of reconstructed states agree next to the interfaces of the grid: Python cell `i` is Fortran cell
`i - g + 1`. -/
def SameEdges (c : FluxCfg K) (e e' : Edges K m) : Prop :=
  ∀ i : Int, (c.g - 1 ≤ i → i < c.g + c.n → e.qr i = e'.qr (i - c.g + 1)) ∧
    ((c.g : Int) ≤ i → i ≤ c.g + c.n → e.ql i = e'.ql (i - c.g + 1))

/-- With the same reconstructed states both kernels compute the same right-hand side. -/
theorem C70_same_edges_partial (f2003 : Bool) (rp : Riemann K A m w) (c : FluxCfg K) (capa : Option (A → K))
    (hcapa : f2003 = false ∨ capa = none) (aux : Int → A) (e e' : Edges K m) (he : SameEdges c e e') (i : Int)
    (h1 : c.g ≤ i) (h2 : i < c.g + c.n) :
    (pyFlux1 rp c capa aux e).1 i = (flux1 f2003 rp none c capa (fun j => aux (j + c.g - 1)) e').1 (i - c.g + 1) := by
  have hd : fluxDtdx f2003 c capa (fun j => aux (j + c.g - 1)) (i - c.g + 1) = localRatio c.dt c.dx capa aux i := by
    have e0 : i - c.g + 1 + c.g - 1 = i := by ring
    rcases hcapa with h | h
    · subst h; cases capa <;> simp [fluxDtdx, localRatio, e0]
    · subst h; rfl
  have e1 : i - c.g + 1 + 1 = i + 1 - c.g + 1 := by ring
  have e2 : i - c.g + 1 - 1 = i - 1 - c.g + 1 := by ring
  have e3 : i + 1 - c.g + 1 - 1 = i - c.g + 1 := by ring
  have e4 : i - 1 - c.g + 1 + 1 = i - c.g + 1 := by ring
  have a1 : ∀ x : Int, x - c.g + 1 + c.g - 1 = x := fun x => by ring
  simp only [pyFlux1, flux1]
  rw [if_pos (by omega), if_pos (by omega), hd, e1, e2, e3, e4]
  simp only [a1]
  rw [(he i).1 (by omega) (by omega), (he (i + 1)).2 (by omega) (by omega), (he (i - 1)).1 (by omega) (by omega),
    (he (i - 1 + 1)).2 (by omega) (by omega), (he i).2 (by omega) (by omega)]
  have e5 : i - 1 + 1 = i := by ring
  rw [e5]
  change -localRatio c.dt c.dx capa aux i • _ = _
  congr 1
  abel

/-- C70: component-wise fifth-order WENO. The Python kernel (`lim_type = 2`) computes the same right-hand side as the
Fortran kernel with `lim_type = 3`, and with `lim_type = 2` if `epsweno` is 12 times smaller there. (With equal
`epsweno` and `lim_type` they differ; see `C70_epsilon_violated`.) -/
theorem C70_weno_partial (eps tol undef : K) (heps : 0 < eps) (first : Fin m → K) (f2003 : Bool) (rp : Riemann K A m w)
    (c : FluxCfg K) (hg : 3 ≤ c.g) (capa : Option (A → K)) (hcapa : f2003 = false ∨ capa = none) (aux : Int → A)
    (q : Int → Fin m → K) (fwave : Bool) (limEqn : Fin m → Int) (limWave : Fin w → Int) (old : Edges K m) (dc order : Int) :
    ∃ r e3 e2, pyDqHyperbolic eps tol rp c 2 0 capa aux q = .ok r ∧
      fRecon eps tol undef first rp c 3 dc order fwave limEqn limWave old none (fun j => aux (j + c.g - 1))
        (fun j => q (j + c.g - 1)) = some e3 ∧
      fRecon (eps / 12) tol undef first rp c 2 0 5 fwave limEqn limWave old none (fun j => aux (j + c.g - 1))
        (fun j => q (j + c.g - 1)) = some e2 ∧
      ∀ i : Int, c.g ≤ i → i < c.g + c.n →
        r.1 i = (flux1 f2003 rp none c capa (fun j => aux (j + c.g - 1)) e3).1 (i - c.g + 1) ∧
        r.1 i = (flux1 f2003 rp none c capa (fun j => aux (j + c.g - 1)) e2).1 (i - c.g + 1) := by
  have hgg : (3 : Int) ≤ c.g := by exact_mod_cast hg
  have hp : pyDqHyperbolic eps tol rp c 2 0 capa aux q =
    .ok (pyFlux1 rp c capa aux (pyWeno eps (c.n + 2 * c.g) q)) := rfl
  refine ⟨_, _, _, hp, by unfold fRecon; simp; rfl, by unfold fRecon; simp; exact ⟨weno5Table, rfl, rfl⟩, ?_⟩
  have sh : ∀ (im i : Int) (x : Fin m),
      shuValue eps (fun j => q (j - 1) x) im (i + 1) = shuValue eps (fun j => q j x) im i := by
    intro im i x
    have e0 : (fun j : Int => q (j - 1) x) = fun j => (fun k => q k x) (j + -1) := by
      funext j; rfl
    have e1 : i = i + 1 + -1 := by ring
    rw [e0, ← shuValue_shift eps (fun k => q k x), ← e1]
  intro i h1 h2
  refine ⟨C70_same_edges_partial f2003 rp c capa hcapa aux _ _ ?_ i h1 h2,
    C70_same_edges_partial f2003 rp c capa hcapa aux _ _ ?_ i h1 h2⟩
  · intro i
    refine ⟨fun h1 h2 => ?_, fun h1 h2 => ?_⟩ <;> funext x <;>
      simp only [pyWeno, pyWenoQl, pyWenoQr, fShu5, fShuQl, fShuQr]
    · rw [if_pos (by omega), if_pos (by omega), show i - (c.g : Int) + 1 + c.g + 1 = i + 1 + 1 by ring, sh]
    · rw [if_pos (by omega), if_pos (by omega), show i - (c.g : Int) + 1 + c.g = i + 1 by ring, sh]
  · intro i
    refine ⟨fun h1 h2 => ?_, fun h1 h2 => ?_⟩ <;> funext x <;>
      simp only [pyWeno, pyWenoQl, pyWenoQr, fWenoComp, (C85_order5 _ _ _ _ _).1, (C85_order5 _ _ _ _ _).2, fWenoQl, fWenoQr]
    · rw [if_pos (by omega), if_pos (by omega), ← sh 1 (i + 1) x, shuValue_right eps heps,
        show i - (c.g : Int) + 1 + c.g = i + 1 by ring]
    · rw [if_pos (by omega), if_pos (by omega), ← sh (-1) i x, shuValue_left eps heps,
        show i - (c.g : Int) + 1 + c.g = i + 1 by ring]

/-- Scalar problems in which the wave is the jump. -/
def JumpWave (rp : Riemann K A 1 1) : Prop := ∀ ql qr al ar, (rp ql qr al ar).wave 0 = qr - ql

theorem wdot1 (x y : Fin 1 → K) : wdot x y = x 0 * y 0 := by
  simp [wdot]

/-- C70: fifth-order WENO by waves, scalar problems: both kernels agree if no jump is below the threshold of
`1.e-14` on its square. -/
theorem C70_weno_wave_partial (eps tol undef : K) (htol : 0 ≤ tol) (first : Fin 1 → K) (f2003 : Bool)
    (rp : Riemann K A 1 1) (hrp : JumpWave rp)
    (c : FluxCfg K) (hg : 3 ≤ c.g) (capa : Option (A → K)) (hcapa : f2003 = false ∨ capa = none) (aux : Int → A)
    (q : Int → Fin 1 → K) (limEqn : Fin 1 → Int) (limWave : Fin 1 → Int) (old : Edges K 1) (order : Int)
    (hj : ∀ i : Int, c.g - 1 ≤ i → i < c.g + c.n → tol < (q (i + 1) 0 - q i 0) * (q (i + 1) 0 - q i 0)) :
    ∃ r e, pyDqHyperbolic eps tol rp c 2 1 capa aux q = .ok r ∧
      fRecon eps tol undef first rp c 2 1 order false limEqn limWave old none (fun j => aux (j + c.g - 1))
        (fun j => q (j + c.g - 1)) = some e ∧
      ∀ i : Int, c.g ≤ i → i < c.g + c.n →
        r.1 i = (flux1 f2003 rp none c capa (fun j => aux (j + c.g - 1)) e).1 (i - c.g + 1) := by
  have hgg : (3 : Int) ≤ c.g := by exact_mod_cast hg
  have hp : pyDqHyperbolic eps tol rp c 2 1 capa aux q =
    .ok (pyFlux1 rp c capa aux (pyWenoWave eps tol (c.n + 2 * c.g)
      (fun i => (rp (q i) (q (i + 1)) (aux i) (aux (i + 1))).wave) q)) := rfl
  refine ⟨_, _, hp, rfl, ?_⟩
  intro i h1 h2
  refine C70_same_edges_partial f2003 rp c capa hcapa aux _ _ ?_ i h1 h2
  unfold JumpWave at hrp
  have i1 : ∀ p : Int, p - c.g + c.g - 1 = p - 1 := fun p => by ring
  have i2 : ∀ p : Int, p - c.g - 1 + c.g - 1 = p - 2 := fun p => by ring
  intro i
  refine ⟨fun h1 h2 => ?_, fun h1 h2 => ?_⟩ <;> funext x <;> obtain rfl : x = 0 := Subsingleton.elim _ _
  · have h := hj i h1 h2
    have hne : q (i + 1) 0 - q i 0 ≠ 0 := fun h0 => by rw [h0, mul_zero] at h; exact absurd h (not_lt.mpr htol)
    simp only [pyWenoWave, fWenoWave]
    rw [if_pos (by omega), if_pos (by omega)]
    simp only [List.finRange_succ, List.finRange_zero, List.map_nil, List.foldl_cons, List.foldl_nil,
      Pi.add_apply, pyWaveTerm, fWaveTerm, pyWaveZ, waveProj, wdot1, hrp, Pi.sub_apply, central4, i1, i2]
    have p0 : i - (c.g : Int) + 1 + c.g + 1 = i + 2 := by ring
    rw [p0]
    have j1 : i + 2 - 1 = i + 1 := by ring
    have j2 : i + 2 - 2 = i := by ring
    have j3 : i + 2 + 1 - 1 = i + 2 := by ring
    have j4 : i + 2 + 1 - 2 = i + 1 := by ring
    have j5 : i + 2 - 1 - 1 = i := by ring
    have j6 : i + 2 - 1 - 2 = i - 1 := by ring
    have j7 : i + 2 - 2 * 1 - 1 = i - 1 := by ring
    have j8 : i + 2 - 2 * 1 - 2 = i - 2 := by ring
    have j9 : i + 1 + 1 = i + 2 := by ring
    have j10 : i - 1 + 1 = i := by ring
    have j11 : i - 2 * 1 + 1 = i - 1 := by ring
    have j12 : i - 2 * 1 = i - 2 := by ring
    have j13 : i + 2 - 2 - 1 = i - 1 := by ring
    have j14 : i - 2 + 1 = i - 1 := by ring
    have j15 : i + 1 - 2 = i - 1 := by ring
    have j16 : i + 1 - 1 = i := by ring
    simp only [j1, j2, j3, j4, j5, j6, j7, j8, j9, j10, j11, j12, j13, j14, j15, j16]
    rw [if_pos h, if_pos h, if_pos h, if_pos h]
    generalize shuCore eps _ _ _ _ _ = z
    push_cast
    field_simp
    ring
  · have h := hj (i - 1) (by omega) (by omega)
    rw [show i - 1 + 1 = i by ring] at h
    have hne : q i 0 - q (i - 1) 0 ≠ 0 := fun h0 => by rw [h0, mul_zero] at h; exact absurd h (not_lt.mpr htol)
    simp only [pyWenoWave, fWenoWave]
    rw [if_pos (by omega), if_pos (by omega)]
    simp only [List.finRange_succ, List.finRange_zero, List.map_nil, List.foldl_cons, List.foldl_nil,
      Pi.add_apply, pyWaveTerm, fWaveTerm, pyWaveZ, waveProj, wdot1, hrp, Pi.sub_apply, central4, i1, i2]
    have p0 : i - (c.g : Int) + 1 + c.g = i + 1 := by ring
    rw [p0]
    have j1 : i + 1 - 1 = i := by ring
    have j2 : i + 1 - 2 = i - 1 := by ring
    have j3 : i + 1 + 1 - 1 = i + 1 := by ring
    have j4 : i + 1 + 1 - 2 = i := by ring
    have j5 : i - 1 + 1 = i := by ring
    have j6 : i - 1 - 2 * -1 = i + 1 := by ring
    have j7 : i + 1 - 2 * -1 - 1 = i + 2 := by ring
    have j8 : i + 1 - 2 * -1 - 2 = i + 1 := by ring
    have j9 : i + 1 + 1 = i + 2 := by ring
    have j10 : i - 1 - -1 = i := by ring
    have j11 : i - 1 + -1 = i - 2 := by ring
    have j12 : i - 2 + 1 = i - 1 := by ring
    have j13 : i + 1 - -1 - 1 = i + 1 := by ring
    have j14 : i + 1 - -1 - 2 = i := by ring
    have j15 : i + 1 + -1 - 1 = i - 1 := by ring
    have j16 : i + 1 + -1 - 2 = i - 2 := by ring
    have j17 : i - 1 - 1 = i - 2 := by ring
    have j18 : i + 2 - 1 = i + 1 := by ring
    simp only [j1, j2, j3, j4, j5, j6, j7, j8, j9, j10, j11, j12, j13, j14, j15, j16, j17, j18]
    rw [if_pos h, if_pos h, if_pos h, if_pos h]
    generalize shuCore eps _ _ _ _ _ = z
    push_cast
    field_simp
    ring

/-- The Python and the Fortran kernel with the same options, data and `epsweno = 1.e-36` differ (component-wise WENO). -/
theorem C70_epsilon_violated :
    ∃ r e, pyDqHyperbolic (1 / 10 ^ 36) (1 / 10 ^ 14) (advectionRp (1 : ℚ)) ⟨4, 3, 1 / 2, 1⟩ 2 0 none (fun _ => ())
        (fun j => wavy (j - 2)) = .ok r ∧
      fRecon (1 / 10 ^ 36) (1 / 10 ^ 14) 0 (fun _ => 0) (advectionRp (1 : ℚ)) ⟨4, 3, 1 / 2, 1⟩ 2 0 5 false (fun _ => 0)
        (fun _ => 0) ⟨fun _ _ => 0, fun _ _ => 0⟩ none (fun _ => ()) wavy = some e ∧
      r.1 3 ≠ (flux1 true (advectionRp (1 : ℚ)) none ⟨4, 3, 1 / 2, 1⟩ none (fun _ => ()) e).1 1 :=
  ⟨_, _, rfl, rfl, by decide +kernel⟩

/-- Smooth data whose smallest jumps are below the threshold: 0, 0, 0, then a ramp. -/
def flatRamp (i : Int) : Fin 1 → ℚ := fun _ => if i ≤ 2 then 0 else (i - 2 : ℚ)

/-- WENO by waves: next to a vanishing jump the Python kernel falls back to first order, the Fortran kernel to the
central average. -/
theorem C70_small_jump_violated :
    ∃ r e, pyDqHyperbolic (1 / 10 ^ 36) (1 / 10 ^ 14) (advectionRp (1 : ℚ)) ⟨4, 3, 1 / 2, 1⟩ 2 1 none (fun _ => ())
        (fun j => flatRamp (j - 2)) = .ok r ∧
      fRecon (1 / 10 ^ 36) (1 / 10 ^ 14) 0 (fun _ => 0) (advectionRp (1 : ℚ)) ⟨4, 3, 1 / 2, 1⟩ 2 1 5 false (fun _ => 0)
        (fun _ => 0) ⟨fun _ _ => 0, fun _ _ => 0⟩ none (fun _ => ()) flatRamp = some e ∧
      r.1 3 ≠ (flux1 true (advectionRp (1 : ℚ)) none ⟨4, 3, 1 / 2, 1⟩ none (fun _ => ()) e).1 1 :=
  ⟨_, _, rfl, rfl, by decide +kernel⟩

/-- Non-vacuity of `C70_weno_wave_partial`: `wavy` has no small jumps. -/
example : ∀ i : Int, (3 : Nat) - 1 ≤ i → i < (3 : Nat) + (4 : Nat) →
    (1 / 10 ^ 14 : ℚ) < (wavy (i + 1) 0 - wavy i 0) * (wavy (i + 1) 0 - wavy i 0) := by
  intro i h1 h2
  have : i = 2 ∨ i = 3 ∨ i = 4 ∨ i = 5 ∨ i = 6 := by omega
  rcases this with h | h | h | h | h <;> subst h <;> decide +kernel

end PyClaw
