import Verif.Props.SharpPyFirstMirror
import Verif.Props.Unfold

set_option linter.unusedSectionVars false

/-!
The Python kernel of SharpClaw in front of a wall (C92).
-/
namespace PyClaw
open Spec

variable {K : Type*} [Field K] [LinearOrder K] [IsStrictOrderedRing K] {m w naux : Nat}

/-- C92, the Python kernel of SharpClaw with the first-order, the WENO5 and the wave-based WENO5 reconstruction, at least three ghost cells, a solver
that is its own image in the wall: what one call of `dq` adds to the cells of a grid with a wall on the right is what it adds to the one half of the
grid that is continued by its image. Missing: the Courant number, and so the steps (both in `C92_sharp_python`). -/
theorem C92_sharp_python_partial (eps tol : K) {limType charDecomp : Int} (hl : limType = -1 ∨ limType = 2 ∧ (charDecomp = 0 ∨ charDecomp = 1))
    (c c' : SharpGrid (Fin 1) K) (hg : 3 ≤ c.bc.g) (capa : Option ((Fin naux → K) → K)) (rp : Riemann K (Fin naux → K) m w) (dx : K)
    (π : Equiv.Perm (Fin w)) (fw : Bool) (hfw : charDecomp = 1 → fw = false) (hM : MirrorImage (axisSign c.bc 0 m) id π fw rp rp)
    (hk : c.kern = dqArrays m naux c.bc.g (intPyFlux1 eps tol limType charDecomp rp c.bc.g dx capa))
    (hk' : c'.kern = dqArrays m naux c'.bc.g (intPyFlux1 eps tol limType charDecomp rp c'.bc.g dx capa)) (hp : SharpProblem c naux)
    (hax : c'.axes = c.axes) (hbc : c'.bc = unfoldAxis 0 c.bc)
    (hw : c.bc.bcUpper 0 = .wall) (hwx : 0 < naux → c.bc.auxUpper 0 = .wall)
    (hpl : c.bc.bcLower 0 ≠ .periodic) (hpx : 0 < naux → c.bc.auxLower 0 ≠ .periodic)
    (hact : UnfoldedActions m naux 0 (axisSign c.bc 0 m) c c')
    (aux aux' q q' : GArr (Fin 1) K) (haux : UnfoldedArray naux c.bc.n 0 (fun _ => 1) aux aux')
    (hq : UnfoldedArray m c.bc.n 0 (axisSign c.bc 0 m) q q') (dt t : K) :
    UnfoldedArray m c.bc.n 0 (axisSign c.bc 0 m) (dqSerial c aux dt t q).1 (dqSerial c' aux' dt t q').1 := by
  have hgg : c'.bc.g = c.bc.g := by rw [hbc]; rfl
  have hpos : ∀ a, 0 < c.bc.n a := fun a => (hp.admissible.cells a).1
  have S := pyFlux1_wide eps tol hl rp c.bc.g hg dx capa
  have himg : ImageStep (valuesOf (intPyFlux1 eps tol limType charDecomp rp c.bc.g dx capa)) (valuesOf (intPyFlux1 eps tol limType charDecomp rp c.bc.g dx capa))
      c.bc.n c.bc.n (fun v => Function.update v 0 ((c.bc.n 0 : Int) + 1 - v 0)) (signed (axisSign c.bc 0 m)) id := by
    intro dt A Q
    refine wide_image (P := True) (P' := True) S S Iff.rfl c.bc.n c.bc.n hpos hpos _ ?_ (signed (axisSign c.bc 0 m)) id ?_ ?_ dt A _ Q _ fun v _ => ⟨rfl, rfl⟩
    · intro v hv b
      obtain rfl := Subsingleton.elim b 0
      have := hv 0
      simp only [Function.update_self]
      omega
    · intro dt A Q v
      exact pyNew_mirror eps tol hl (axisSign_isSign c.bc 0) hfw hM c.bc.g dx (fun _ _ _ => rfl) (c.bc.n 0) dt A Q v
    · intro dt A Q x
      exact ⟨fun ⟨t, _⟩ => t.elim, fun ⟨t, _⟩ => t.elim⟩
  have key := wide_unfold_linked 0 (c.values m naux (intPyFlux1 eps tol limType charDecomp rp c.bc.g dx capa))
    (c'.values m naux (intPyFlux1 eps tol limType charDecomp rp c'.bc.g dx capa)) (by show 1 ≤ c.bc.g; omega) S himg rfl
    (by show dqArrays m naux c'.bc.g _ = dqArrays m naux c'.bc.g _; rw [hgg]) ⟨hp.admissible, hp.serial, hp.axes, hp.numAux⟩ hax hbc hw hwx hpl hpx
    ⟨hact.source, hact.before, hact.stage⟩ aux aux' haux
  have h := (key.dq dt t q q' hq).1
  change UnfoldedArray m c.bc.n 0 (axisSign c.bc 0 m) (dqSerial (c.values m naux _) aux dt t q).1 (dqSerial (c'.values m naux _) aux' dt t q').1 at h
  rwa [values_serial c _ hk, values_serial c' _ hk'] at h

/-- The Courant number of the kernel without reconstruction, with the interface too many. -/
theorem pyFirst_courant_all (eps tol : K) (charDecomp : Int) (c : SharpGrid (Fin 1) K) (hg : 2 ≤ c.bc.g) (capa : Option ((Fin naux → K) → K))
    (rp : Riemann K (Fin naux → K) m w) (dx : K)
    (hk : c.kern = dqArrays m naux c.bc.g (intPyFlux1 eps tol (-1) charDecomp rp c.bc.g dx capa)) (hp : SharpProblem c naux)
    (aux q : GArr (Fin 1) K) (dt t : K) :
    ∃ A Q, FilledBy c.bc c.axes m naux A Q q aux ∧
      IsMaxWithZero (fun x => ∃ i : Int, 0 ≤ i ∧ i ≤ c.bc.n 0 + 1 ∧ WaveNumber (localRatio dt dx capa fun i => A fun _ => i)
        (interfaces rp (fun i => A fun _ => i) (fun i => Q fun _ => i)) i x) (dqSerial c aux dt t q).2 := by
  obtain ⟨wA, hw, fl⟩ := serial_fill c.bc hp.admissible hp.serial c.axes (by rw [hp.axes]; exact List.nodup_finRange 1)
    (by rw [hp.axes]; exact List.mem_finRange) m naux hp.numAux q aux ⟨fun _ _ => 0, fun _ _ => 0⟩
  obtain ⟨r, cfl, h1, -, h3⟩ := (pyFirst_wide eps tol charDecomp rp c.bc.g hg dx capa).runs dt c.bc.n (fieldOf naux c.bc.g wA.aux)
    (fieldOf m c.bc.g wA.q) (fun a => (hp.admissible.cells a).1) fun _ _ => trivial
  refine ⟨_, _, fl, ?_⟩
  rw [dq_courant c _ hk aux q dt t hw h1]
  refine isMax_congr (fun x => ?_) h3
  constructor
  · rintro ⟨_, v, hv, h⟩
    exact ⟨v 0, (hv 0).1, (hv 0).2, h⟩
  · rintro ⟨i, i1, i2, h⟩
    exact ⟨(), fun _ => i, fun a => by rw [Subsingleton.elim a 0]; dsimp only; omega, h⟩

/-- C92, the Python kernel of SharpClaw without reconstruction (`lim_type = -1`), whole runs: a wall on the right, an open end or another wall on the
left. The interface that the kernel counts too many is the same on both grids. -/
theorem C92_python_first_order [FloorRing K] (eps tol : K) (charDecomp : Int)
    (c c' : SharpGrid (Fin 1) K) (hg : 3 ≤ c.bc.g) (capa : Option ((Fin naux → K) → K)) (rp : Riemann K (Fin naux → K) m w) (dx : K)
    (π : Equiv.Perm (Fin w)) (fw : Bool) (hM : MirrorImage (axisSign c.bc 0 m) id π fw rp rp)
    (hk : c.kern = dqArrays m naux c.bc.g (intPyFlux1 eps tol (-1) charDecomp rp c.bc.g dx capa))
    (hk' : c'.kern = dqArrays m naux c'.bc.g (intPyFlux1 eps tol (-1) charDecomp rp c'.bc.g dx capa)) (hp : SharpProblem c naux)
    (hax : c'.axes = c.axes) (hbc : c'.bc = unfoldAxis 0 c.bc)
    (hw : c.bc.bcUpper 0 = .wall) (hwx : 0 < naux → c.bc.auxUpper 0 = .wall)
    (hpl : c.bc.bcLower 0 ≠ .periodic) (hpx : 0 < naux → c.bc.auxLower 0 ≠ .periodic)
    (hact : UnfoldedActions m naux 0 (axisSign c.bc 0 m) c c')
    (aux aux' : GArr (Fin 1) K) (haux : UnfoldedArray naux c.bc.n 0 (fun _ => 1) aux aux')
    (cfg : SharpCfg K) (goals : List (SharpGoal K)) (r r' : SharpRun K (GArr (Fin 1) K))
    (h : SameSharp (UnfoldedArray m c.bc.n 0 (axisSign c.bc 0 m)) r r') :
    SameSharp (UnfoldedArray m c.bc.n 0 (axisSign c.bc 0 m)) (sharpSessionC (serialSharp c aux) cfg goals r).1
      (sharpSessionC (serialSharp c' aux') cfg goals r').1 ∧
    (sharpSessionC (serialSharp c' aux') cfg goals r').2 = (sharpSessionC (serialSharp c aux) cfg goals r).2 := by
  have hgg : c'.bc.g = c.bc.g := by rw [hbc]; rfl
  have hn : c'.bc.n 0 = 2 * c.bc.n 0 := by rw [hbc]; simp only [unfoldAxis, Function.update_self]
  have hp' : SharpProblem c' naux := by
    refine ⟨by rw [hbc]; exact unfoldAxis_admissible c.bc hp.admissible 0, by rw [hbc]; exact hp.serial, by rw [hax]; exact hp.axes, ?_⟩
    rw [hbc]
    exact hp.numAux
  refine pair_session (S := unfoldSub c.bc.n 0 (axisSign c.bc 0 m)) (env := serialSharp c aux) (env' := serialSharp c' aux')
    { stage := fun t q q' hq => cellwise_unfold (hact.stage t) hq haux
      before := fun t q q' hq => cellwise_unfold (hact.before t) hq haux
      dq := fun dt t q q' hq => ?_ } cfg goals h
  have hq : UnfoldedArray m c.bc.n 0 (axisSign c.bc 0 m) q q' := hq
  refine ⟨C92_sharp_python_partial eps tol (charDecomp := 0) (Or.inl rfl) c c' hg capa rp dx π fw (fun h => absurd h (by norm_num)) hM
    (by rw [hk, pyFirst_option eps tol charDecomp]) (by rw [hk', pyFirst_option eps tol charDecomp]) hp hax hbc hw hwx hpl hpx hact aux aux' q q' haux hq
    dt t, ?_⟩
  show (dqSerial c' aux' dt t q').2 = (dqSerial c aux dt t q).2
  obtain ⟨A, Q, f, h1⟩ := pyFirst_courant_all eps tol charDecomp c (by omega) capa rp dx hk hp aux q dt t
  obtain ⟨A', Q', f', h2⟩ := pyFirst_courant_all eps tol charDecomp c' (by omega) capa rp dx hk' hp' aux' q' dt t
  rw [hn] at h2
  have F := unfoldAxis_fill c.bc hp.admissible 0 c.axes (by rw [hp.axes]; exact List.nodup_finRange 1)
    (by rw [hp.axes]; exact List.mem_finRange) hp.numAux hw hwx hpl hpx f (by rw [← hbc, ← hax]; exact f') hq haux
  have left : ∀ i : Int, 1 - (c.bc.g : Int) ≤ i → i ≤ c.bc.n 0 + c.bc.g → (Q' fun _ => i) = (Q fun _ => i) ∧ (A' fun _ => i) = A fun _ => i :=
    fun i i1 i2 => F.1 (fun _ => i) fun b => by obtain rfl := Subsingleton.elim b 0; exact ⟨i1, i2⟩
  have right : ∀ i : Int, (c.bc.n 0 : Int) + 1 - c.bc.g ≤ i → i ≤ 2 * c.bc.n 0 + c.bc.g →
      (Q' fun _ => i) = signed (axisSign c.bc 0 m) (Q fun _ => 2 * (c.bc.n 0 : Int) + 1 - i) ∧ (A' fun _ => i) = A fun _ => 2 * (c.bc.n 0 : Int) + 1 - i := by
    intro i i1 i2
    have := F.2 (fun _ => 2 * (c.bc.n 0 : Int) + 1 - i) fun b => by obtain rfl := Subsingleton.elim b 0; omega
    have e : Function.update (fun _ : Fin 1 => 2 * (c.bc.n 0 : Int) + 1 - i) 0 (2 * (c.bc.n 0 : Int) + 1 - (2 * (c.bc.n 0 : Int) + 1 - i)) = fun _ => i := by
      funext b
      obtain rfl := Subsingleton.elim b 0
      rw [Function.update_self]
      ring
    rw [e] at this
    exact this
  have n1 : ∀ (j : Int) (x : K), 0 ≤ j → j ≤ c.bc.n 0 + 1 →
      (WaveNumber (localRatio dt dx capa fun i => A' fun _ => i) (interfaces rp (fun i => A' fun _ => i) (fun i => Q' fun _ => i)) j x ↔
      WaveNumber (localRatio dt dx capa fun i => A fun _ => i) (interfaces rp (fun i => A fun _ => i) (fun i => Q fun _ => i)) j x) := by
    intro j x j1 j2
    have e := waveNumber_congr rp dt dx capa (fun j => A fun _ => j) (fun j => A' fun _ => j) (fun j => Q fun _ => j) (fun j => Q' fun _ => j) 0 j x
      (by rw [add_zero]; exact (left j (by omega) (by omega)).2) (by rw [add_zero]; exact (left (j - 1) (by omega) (by omega)).2)
      (by rw [add_zero]; exact (left j (by omega) (by omega)).1) (by rw [add_zero]; exact (left (j - 1) (by omega) (by omega)).1)
    rwa [add_zero] at e
  have n2 : ∀ (j : Int) (x : K), (c.bc.n 0 : Int) + 2 ≤ j → j ≤ 2 * c.bc.n 0 + 1 →
      (WaveNumber (localRatio dt dx capa fun i => A' fun _ => i) (interfaces rp (fun i => A' fun _ => i) (fun i => Q' fun _ => i)) j x ↔
      WaveNumber (localRatio dt dx capa fun i => A fun _ => i) (interfaces rp (fun i => A fun _ => i) (fun i => Q fun _ => i))
        (2 * (c.bc.n 0 : Int) + 1 + 1 - j) x) := by
    intro j x j1 j2
    have e := waveNumber_congr rp dt dx capa (fun j => id (A fun _ => 2 * (c.bc.n 0 : Int) + 1 - j)) (fun j => A' fun _ => j)
      (fun j => signed (axisSign c.bc 0 m) (Q fun _ => 2 * (c.bc.n 0 : Int) + 1 - j)) (fun j => Q' fun _ => j) 0 j x
      (by rw [add_zero]; exact (right j (by omega) (by omega)).2) (by rw [add_zero]; exact (right (j - 1) (by omega) (by omega)).2)
      (by rw [add_zero]; exact (right j (by omega) (by omega)).1) (by rw [add_zero]; exact (right (j - 1) (by omega) (by omega)).1)
    rw [add_zero] at e
    exact e.trans (mirror_number hM dt dx capa (fun _ _ _ => rfl) (2 * (c.bc.n 0 : Int) + 1) (fun i => A fun _ => i) (fun i => Q fun _ => i) j x)
  refine isMax_unique h2 (isMax_congr (fun x => ?_) h1)
  push_cast
  constructor
  · rintro ⟨i, i1, i2, h⟩
    exact ⟨i, i1, by omega, (n1 i x i1 i2).mpr h⟩
  · rintro ⟨i, i1, i2, h⟩
    by_cases hi : i ≤ c.bc.n 0 + 1
    · exact ⟨i, i1, hi, (n1 i x i1 hi).mp h⟩
    · exact ⟨2 * (c.bc.n 0 : Int) + 1 + 1 - i, by omega, by omega, (n2 i x (by omega) i2).mp h⟩

/-- Non-vacuity of `C92_sharp_python_partial`: sound on 4 cells with an open end on the left and a wall on the right, with the wave-based WENO5, and on
8 cells between open ends. -/
example (q : Fin 2 → (Fin 1 → Nat) → ℚ) (dt t : ℚ) :=
  let step : IntKern (Fin 1) ℚ 2 0 := intPyFlux1 (1 / 1000000) (1 / 100000000000000) 2 1 (ignoreAux 0 acousticsRp) 3 (1 / 4) none
  let c := exImage 1 2 (fun _ => 4) (fun _ => .extrap) (fun _ => .wall) step
  have e : axisSign c.bc 0 2 = ![1, -1] := by funext k; fin_cases k <;> simp [axisSign, c, exImage]
  C92_sharp_python_partial (1 / 1000000) (1 / 100000000000000) (Or.inr ⟨rfl, Or.inr rfl⟩) c
    (exImage 1 2 (fun _ => 8) (fun _ => .extrap) (fun _ => .extrap) step) (le_refl 3) none (ignoreAux 0 acousticsRp) (1 / 4) (Equiv.swap 0 1) false
    (fun _ => rfl) (by rw [e]; exact acoustics_image 0) rfl rfl
    (exSharp_problem 1 2 _ (fun _ => by norm_num) _ _ (fun _ => by simp [BuiltInBC]) (fun _ => by simp [BuiltInBC]) (by norm_num) _) rfl
    (by
      simp only [c, exImage, unfoldAxis, BCConfig.mk.injEq, and_true, true_and]
      refine ⟨?_, ?_, ?_⟩ <;> funext b <;> fin_cases b <;> rfl)
    rfl (fun h => absurd h (by norm_num)) (by simp [c, exImage]) (fun h => absurd h (by norm_num)) (exImage_unfolded ..)
    (fun _ _ => 0) (fun _ _ => 0) (fun k x => if h : k < 2 then q ⟨k, h⟩ x else 0)
    (fun k x => if h : k < 2 then withImage c.bc.n 0 (axisSign c.bc 0 2) q ⟨k, h⟩ x else 0) (fun _ _ k => k.elim0)
    (fun x hx k => by simpa only [Fin.is_lt, dif_pos, Fin.eta] using withImage_spec c.bc.n 0 (axisSign c.bc 0 2) q x hx k) dt t

/-- Non-vacuity of `C92_python_first_order`: the same problem without reconstruction, any time integrator and any calls. -/
example (cfg : SharpCfg ℚ) (goals : List (SharpGoal ℚ)) (q : Fin 2 → (Fin 1 → Nat) → ℚ) :=
  let step : IntKern (Fin 1) ℚ 2 0 := intPyFlux1 (1 / 1000000) (1 / 100000000000000) (-1) 0 (ignoreAux 0 acousticsRp) 3 (1 / 4) none
  let c := exImage 1 2 (fun _ => 4) (fun _ => .extrap) (fun _ => .wall) step
  have e : axisSign c.bc 0 2 = ![1, -1] := by funext k; fin_cases k <;> simp [axisSign, c, exImage]
  C92_python_first_order (1 / 1000000) (1 / 100000000000000) 0 c
    (exImage 1 2 (fun _ => 8) (fun _ => .extrap) (fun _ => .extrap) step) (le_refl 3) none (ignoreAux 0 acousticsRp) (1 / 4) (Equiv.swap 0 1) false
    (by rw [e]; exact acoustics_image 0) rfl rfl
    (exSharp_problem 1 2 _ (fun _ => by norm_num) _ _ (fun _ => by simp [BuiltInBC]) (fun _ => by simp [BuiltInBC]) (by norm_num) _) rfl
    (by
      simp only [c, exImage, unfoldAxis, BCConfig.mk.injEq, and_true, true_and]
      refine ⟨?_, ?_, ?_⟩ <;> funext b <;> fin_cases b <;> rfl)
    rfl (fun h => absurd h (by norm_num)) (by simp [c, exImage]) (fun h => absurd h (by norm_num)) (exImage_unfolded ..)
    (fun _ _ => 0) (fun _ _ => 0) (fun _ _ k => k.elim0) cfg goals _ _ (exSharpStart_unfolded _ _ _ q)

end PyClaw
