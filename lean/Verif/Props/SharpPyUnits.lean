import Verif.Props.SharpUnits
import Verif.Props.SharpPyMirror

set_option linter.unusedSectionVars false

/-!
The Python kernel of SharpClaw in other units (C101).
-/
namespace PyClaw
open Spec

section
variable {K A : Type*} [Field K] [LinearOrder K] [IsStrictOrderedRing K] {m w : Nat}

theorem pyWaveTerm_sign {σ : Fin m → K} (hσ : IsSign σ) (eps tol : K) (wave wave' : Waves K m w)
    (hw : ∀ j p, wave' j p = signed σ (wave j p)) (im i : Int) (p : Fin w) :
    pyWaveTerm eps tol wave' im i p = signed σ (pyWaveTerm eps tol wave im i p) := by
  have hp : ∀ j, waveProj wave' i j p = waveProj wave i j p := by
    intro j
    unfold waveProj
    rw [hw, hw]
    exact relabel_dot hσ 1 _ _
  unfold pyWaveTerm pyWaveZ
  simp only [hp]
  funext k
  rw [hw]
  simp only [signed]
  split_ifs <;> ring

theorem pyReconUnits_runs {limType charDecomp : Int} {σ : Fin m → K} {fwave : Bool} (h : PyReconUnits limType charDecomp σ fwave) (eps tol : K)
    (N : Int) (d : Int → Rp K m w) (q : Int → Fin m → K) : ∃ e, pyRecon eps tol limType charDecomp N d q = .ok e := by
  unfold pyRecon
  rcases h with rfl | ⟨rfl, _, rfl | ⟨rfl, _⟩⟩ <;> norm_num

theorem pyRecon_sign (eps tol : K) {limType charDecomp : Int} {σ : Fin m → K} {fwave : Bool} (hl : PyReconUnits limType charDecomp σ fwave)
    {RA : A → A} {v : K} {rp rp' : Riemann K A m w} (hM : InUnits σ v RA fwave rp rp')
    (N : Int) (aux : Int → A) (q : Int → Fin m → K) {e e' : Edges K m}
    (he : pyRecon eps tol limType charDecomp N (fun i => rp (q i) (q (i + 1)) (aux i) (aux (i + 1))) q = .ok e)
    (he' : pyRecon eps tol limType charDecomp N
      (fun i => rp' (signed σ (q i)) (signed σ (q (i + 1))) (RA (aux i)) (RA (aux (i + 1)))) (fun i => signed σ (q i)) = .ok e') (i : Int) :
    e'.qr i = signed σ (e.qr i) ∧ e'.ql i = signed σ (e.ql i) := by
  rcases hl with rfl | ⟨rfl, hσ, rfl | ⟨rfl, rfl⟩⟩
  · cases he; cases he'
    exact ⟨rfl, rfl⟩
  · cases he; cases he'
    refine ⟨?_, ?_⟩ <;> funext k <;> simp only [pyWeno, pyWenoQl, pyWenoQr, signed] <;> split_ifs
    · exact shuValue_sign eps (σ k) (hσ k) (fun i => q i k) _ (fun _ => rfl) _ _
    · rfl
    · exact shuValue_sign eps (σ k) (hσ k) (fun i => q i k) _ (fun _ => rfl) _ _
    · rfl
  · cases he; cases he'
    have key := pyWaveTerm_sign hσ eps tol (fun i => (rp (q i) (q (i + 1)) (aux i) (aux (i + 1))).wave)
      (fun i => (rp' (signed σ (q i)) (signed σ (q (i + 1))) (RA (aux i)) (RA (aux (i + 1)))).wave)
      (fun j p => funext fun k => (hM (q j) (q (j + 1)) (aux j) (aux (j + 1))).2.1 p k)
    refine ⟨?_, ?_⟩ <;> simp only [pyWenoWave] <;> split_ifs
    · exact foldl_turn σ 1 1 _ _ (fun p => key 1 i p) (q i) _ rfl
    · rfl
    · exact foldl_turn σ 1 1 _ _ (fun p => key (-1) (i - 1) p) (q i) _ rfl
    · rfl

/-- The reconstruction in other units, of arrays that are known on the grid and its ghost cells only. -/
theorem pyRecon_units (eps tol : K) {limType charDecomp : Int} {σ : Fin m → K} {fwave : Bool} (hl : PyReconUnits limType charDecomp σ fwave)
    {RA : A → A} {v : K} {rp rp' : Riemann K A m w} (hM : InUnits σ v RA fwave rp rp')
    (N : Int) (aux aux' : Int → A) (q q' : Int → Fin m → K) (h : ∀ u, 0 ≤ u → u < N → q' u = signed σ (q u) ∧ aux' u = RA (aux u)) {e e' : Edges K m}
    (he : pyRecon eps tol limType charDecomp N (fun i => rp (q i) (q (i + 1)) (aux i) (aux (i + 1))) q = .ok e)
    (he' : pyRecon eps tol limType charDecomp N (fun i => rp' (q' i) (q' (i + 1)) (aux' i) (aux' (i + 1))) q' = .ok e') (i : Int)
    (i1 : 0 ≤ i) (i2 : i < N) : e'.qr i = signed σ (e.qr i) ∧ e'.ql i = signed σ (e.ql i) := by
  obtain ⟨f, hf⟩ := pyReconUnits_runs hl eps tol N (fun i => rp' (signed σ (q i)) (signed σ (q (i + 1))) (RA (aux i)) (RA (aux (i + 1)))) fun i => signed σ (q i)
  have key := pyRecon_sign eps tol hl hM N aux q he hf i
  rw [← key.1, ← key.2]
  have out : (¬ (2 ≤ i ∧ i < N - 3) → e'.qr i = f.qr i) ∧ (¬ (3 ≤ i ∧ i < N - 2) → e'.ql i = f.ql i) := by
    rcases hl with rfl | ⟨rfl, hσ, rfl | ⟨rfl, rfl⟩⟩ <;> cases hf <;> cases he'
    · exact ⟨fun _ => (h i i1 i2).1, fun _ => (h i i1 i2).1⟩
    · refine ⟨fun hi => ?_, fun hi => ?_⟩ <;> funext k <;> simp only [pyWeno, pyWenoQl, pyWenoQr] <;> rw [if_neg hi, if_neg hi, (h i i1 i2).1]
    · refine ⟨fun hi => ?_, fun hi => ?_⟩ <;> simp only [pyWenoWave] <;> rw [if_neg hi, if_neg hi, (h i i1 i2).1]
  have near : (2 ≤ i ∧ i < N - 2) → _ := fun hi => pyRecon_near eps tol rp' N N limType charDecomp (fun i => RA (aux i)) aux'
    (fun i => signed σ (q i)) q' i 0 (fun u u1 u2 => by
      rw [add_zero]
      exact (h u (by omega) (by omega)).symm) hf he'
  rw [add_zero] at near
  constructor
  · by_cases hi : 2 ≤ i ∧ i < N - 3
    · exact (near ⟨hi.1, by omega⟩).1 hi.1 hi.2 hi.1 hi.2
    · exact out.1 hi
  · by_cases hi : 3 ≤ i ∧ i < N - 2
    · exact (near ⟨by omega, hi.2⟩).2 hi.1 hi.2 hi.1 hi.2
    · exact out.2 hi

theorem pyFlux1_units_core {σ : Fin m → K} {fwave : Bool} {RA : A → A} {v : K} (hv : v ≠ 0) {rp rp' : Riemann K A m w}
    (hM : InUnits σ v RA fwave rp rp') (n g : Nat) (hg : 2 ≤ g) (D D' : Int → K) (aux aux' : Int → A) (e e' : Edges K m)
    (hd : ∀ i : Int, 0 ≤ i → i < (n : Int) + 2 * g → D' i = D i / v)
    (h : ∀ u, 0 ≤ u → u < (n : Int) + 2 * g → (e'.qr u = signed σ (e.qr u) ∧ e'.ql u = signed σ (e.ql u)) ∧ aux' u = RA (aux u)) :
    (∀ i : Int, g ≤ i → i < n + g →
      (-D' i • ((rp' (e'.qr i) (e'.ql (i + 1)) (aux' i) (aux' (i + 1))).amdq + (rp' (e'.qr (i - 1)) (e'.ql (i - 1 + 1)) (aux' (i - 1)) (aux' (i - 1 + 1))).apdq +
        (rp' (e'.ql i) (e'.qr i) (aux' i) (aux' i)).apdq + (rp' (e'.ql i) (e'.qr i) (aux' i) (aux' i)).amdq) : Fin m → K) =
      signed σ (-D i • ((rp (e.qr i) (e.ql (i + 1)) (aux i) (aux (i + 1))).amdq + (rp (e.qr (i - 1)) (e.ql (i - 1 + 1)) (aux (i - 1)) (aux (i - 1 + 1))).apdq +
        (rp (e.ql i) (e.qr i) (aux i) (aux i)).apdq + (rp (e.ql i) (e.qr i) (aux i) (aux i)).amdq))) ∧
    pyCfl ((g : Int) - 1) (n + g + 1) D' (fun i => rp' (e'.qr i) (e'.ql (i + 1)) (aux' i) (aux' (i + 1))) =
      pyCfl ((g : Int) - 1) (n + g + 1) D (fun i => rp (e.qr i) (e.ql (i + 1)) (aux i) (aux (i + 1))) := by
  have hr : ∀ i : Int, 0 ≤ i → i + 1 < (n : Int) + 2 * g → rp' (e'.qr i) (e'.ql (i + 1)) (aux' i) (aux' (i + 1)) =
      rp' (signed σ (e.qr i)) (signed σ (e.ql (i + 1))) (RA (aux i)) (RA (aux (i + 1))) := by
    intro i i1 i2
    rw [(h i i1 (by omega)).1.1, (h i i1 (by omega)).2, (h (i + 1) (by omega) i2).1.2, (h (i + 1) (by omega) i2).2]
  refine ⟨fun i i1 i2 => ?_, ?_⟩
  · rw [hd i (by omega) (by omega), hr i (by omega) (by omega), hr (i - 1) (by omega) (by omega),
      (h i (by omega) (by omega)).1.1, (h i (by omega) (by omega)).1.2, (h i (by omega) (by omega)).2]
    funext k
    simp only [Pi.smul_apply, Pi.add_apply, smul_eq_mul, signed]
    rw [(hM (e.qr i) _ _ _).2.2.1, (hM (e.qr (i - 1)) _ _ _).2.2.2, (hM (e.ql i) _ _ _).2.2.1, (hM (e.ql i) _ _ _).2.2.2]
    field_simp
  · refine isMax_unique (pyCfl_isMax _ _ (by omega) _ _) (isMax_congr (fun x => ?_) (pyCfl_isMax _ _ (by omega) _ _))
    refine exists_congr fun i => and_congr_right fun i1 => and_congr_right fun i2 => ?_
    unfold WaveNumber
    dsimp only
    rw [hd i (by omega) (by omega), hd (i - 1) (by omega) (by omega), hr (i - 1) (by omega) (by omega)]
    refine exists_congr fun p => ?_
    rw [(hM _ _ _ _).1]
    have k1 : ∀ y s : K, y / v * (v * s) = y * s := fun y s => by rw [← mul_assoc, div_mul_cancel₀ _ hv]
    have k2 : ∀ y s : K, -(y / v) * (v * s) = -y * s := fun y s => by rw [neg_mul, k1, neg_mul]
    rw [k1, k2]

theorem pyFlux1_units {σ : Fin m → K} {fwave : Bool} {RA : A → A} {lx tx : K} (hx : 0 < lx) (ht : 0 < tx) {rp rp' : Riemann K A m w}
    (hM : InUnits σ (lx / tx) RA fwave rp rp') {capa : Option (A → K)} (hc : ∀ κ, capa = some κ → ∀ z, κ (RA z) = κ z) (n g : Nat) (hg : 2 ≤ g)
    (dt dx : K) (aux aux' : Int → A) (e e' : Edges K m)
    (h : ∀ u, 0 ≤ u → u < (n : Int) + 2 * g → (e'.qr u = signed σ (e.qr u) ∧ e'.ql u = signed σ (e.ql u)) ∧ aux' u = RA (aux u)) :
    (∀ i : Int, g ≤ i → i < n + g → (pyFlux1 rp' ⟨n, g, tx * dt, lx * dx⟩ capa aux' e').1 i = signed σ ((pyFlux1 rp ⟨n, g, dt, dx⟩ capa aux e).1 i)) ∧
    (pyFlux1 rp' ⟨n, g, tx * dt, lx * dx⟩ capa aux' e').2 = (pyFlux1 rp ⟨n, g, dt, dx⟩ capa aux e).2 := by
  have hv : lx / tx ≠ 0 := (div_pos hx ht).ne'
  cases capa with
  | none =>
    have key := pyFlux1_units_core hv hM n g hg (fun _ => dt / dx) (fun _ => tx * dt / (lx * dx)) aux aux' e e'
      (fun i _ _ => by rw [div_div_div_eq, mul_comm dx lx, mul_comm dt tx]) h
    refine ⟨fun i i1 i2 => ?_, key.2⟩
    unfold pyFlux1
    dsimp only
    rw [if_pos (by omega), if_pos (by omega)]
    exact key.1 i i1 i2
  | some κ =>
    have key := pyFlux1_units_core hv hM n g hg (fun i => dt / (dx * κ (aux i))) (fun i => tx * dt / (lx * dx * κ (aux' i))) aux aux' e e'
      (fun i i1 i2 => by
        rw [(h i i1 i2).2, hc κ rfl, div_div_div_eq, mul_comm dt tx]
        congr 1
        ring) h
    refine ⟨fun i i1 i2 => ?_, key.2⟩
    unfold pyFlux1
    dsimp only
    rw [if_pos (by omega), if_pos (by omega)]
    exact key.1 i i1 i2

end

variable {K : Type*} [Field K] [LinearOrder K] [IsStrictOrderedRing K] [FloorRing K] {m w naux : Nat}

/-- C101, the Python kernel of SharpClaw with the first-order, the WENO5 and the wave-based WENO5 reconstruction: the same problem with the cell
size multiplied by `lx`, times by `tx`, component `k` of the solution by `σ k`, and Riemann solver, `dq_src`, `before_step` and aux array in these
units, takes the same steps with the same Courant numbers, and its solutions, stages and intermediate solutions are the converted ones, with any
time integrator. Missing: solutions in another unit with WENO (the signs of the components may change), and fixed steps
(`C101_sharp_fixed_step_violated`). -/
theorem C101_sharp_python_partial (eps tol : K) {limType charDecomp : Int} (c c' : SharpGrid (Fin 1) K) (hg : 2 ≤ c.bc.g)
    (capa : Option ((Fin naux → K) → K)) (σ : Fin m → K) (fwave : Bool) (hσ : PyReconUnits limType charDecomp σ fwave)
    (lx tx : K) (hl : 0 < lx) (ht : 0 < tx)
    (RA : (Fin naux → K) → Fin naux → K) (hc : ∀ κ, capa = some κ → ∀ z, κ (RA z) = κ z)
    (rp rp' : Riemann K (Fin naux → K) m w) (hM : InUnits σ (lx / tx) RA fwave rp rp') (dx : K)
    (hk : c.kern = dqArrays m naux c.bc.g (intPyFlux1 eps tol limType charDecomp rp c.bc.g dx capa))
    (hk' : c'.kern = dqArrays m naux c'.bc.g (intPyFlux1 eps tol limType charDecomp rp' c'.bc.g (lx * dx) capa))
    (hp : SharpProblem c naux) (hax : c'.axes = c.axes) (hbc : c'.bc = c.bc) (hact : ActionsInUnits m naux σ tx RA c c')
    (aux aux' : GArr (Fin 1) K) (haux : ∀ x : Fin 1 → Nat, (∀ i, x i < c.bc.n i) → auxAt naux aux' x = RA (auxAt naux aux x))
    (cfg : SharpCfg K) (hv : cfg.dtVariable = true) (goals : List (SharpGoal K)) (r r' : SharpRun K (GArr (Fin 1) K))
    (h : SameSharp (ImageOf m c.bc.n id (signed σ)) (sharpRunIn tx r) r') :
    SameSharp (ImageOf m c.bc.n id (signed σ)) (sharpRunIn tx (sharpSessionC (serialSharp c aux) cfg goals r).1)
      (sharpSessionC (serialSharp c' aux') (sharpCfgIn tx cfg) (goals.map (sharpGoalIn tx)) r').1 ∧
    (sharpSessionC (serialSharp c' aux') (sharpCfgIn tx cfg) (goals.map (sharpGoalIn tx)) r').2 =
      (sharpSessionC (serialSharp c aux) cfg goals r).2 := by
  have hb : (oldClock tx c').bc = c.bc := hbc
  have hp' : SharpProblem (oldClock tx c') naux := by
    refine ⟨?_, ?_, ?_, ?_⟩
    · rw [hb]; exact hp.admissible
    · rw [hb]; exact hp.serial
    · show c'.axes = _; rw [hax]; exact hp.axes
    · rw [hb]; exact hp.numAux
  have link : Linked (imageSub c.bc.n id σ 1) (serialSharp c aux) (serialSharp (oldClock tx c') aux') := by
    have key := image_linked (step := intPyFlux1 eps tol limType charDecomp rp c.bc.g dx capa)
      (step' := fun dt => intPyFlux1 eps tol limType charDecomp rp' c.bc.g (lx * dx) capa (tx * dt)) (σ := σ) (τ := 1) (RA := RA)
      c (oldClock tx c') hk ?_ hp hp' id (fun v => v) ?_ ?_ ?_ ?_ aux aux' (by rw [hb]; exact haux)
    · rwa [hb] at key
    · funext dt
      show c'.kern (tx * dt) = _
      rw [hk', hb, hbc]
      rfl
    · exact fun _ _ => rfl
    · intro A A' Q Q' q q' aux aux' f f' hq haux v hv
      rw [show (oldClock tx c').axes = c.axes from hax, hb] at f'
      rw [hb] at hq haux hv
      exact unit_fill c.bc hp.admissible c.axes hp.numAux σ RA f f' hq haux v hv
    · intro dt A A' Q Q' h
      rw [hb] at h ⊢
      right
      have h' : ∀ u : Int, 0 ≤ u → u < (c.bc.n 0 : Int) + 2 * c.bc.g →
          (Q' fun _ => u + (1 - c.bc.g)) = signed σ (Q fun _ => u + (1 - c.bc.g)) ∧ (A' fun _ => u + (1 - c.bc.g)) = RA (A fun _ => u + (1 - c.bc.g)) :=
        fun u u1 u2 => h (fun _ => u + (1 - c.bc.g)) fun a => by
          obtain rfl := Subsingleton.elim a 0
          constructor <;> omega
      obtain ⟨e, he⟩ := pyReconUnits_runs hσ eps tol ((c.bc.n 0 : Int) + 2 * c.bc.g) (fun i => rp (Q fun _ => i + (1 - c.bc.g)) (Q fun _ => i + 1 + (1 - c.bc.g))
        (A fun _ => i + (1 - c.bc.g)) (A fun _ => i + 1 + (1 - c.bc.g))) (fun i => Q fun _ => i + (1 - c.bc.g))
      obtain ⟨e', he'⟩ := pyReconUnits_runs hσ eps tol ((c.bc.n 0 : Int) + 2 * c.bc.g) (fun i => rp' (Q' fun _ => i + (1 - c.bc.g)) (Q' fun _ => i + 1 + (1 - c.bc.g))
        (A' fun _ => i + (1 - c.bc.g)) (A' fun _ => i + 1 + (1 - c.bc.g))) (fun i => Q' fun _ => i + (1 - c.bc.g))
      have R := pyRecon_units eps tol hσ hM _ (fun i => A fun _ => i + (1 - c.bc.g)) (fun i => A' fun _ => i + (1 - c.bc.g))
        (fun i => Q fun _ => i + (1 - c.bc.g)) (fun i => Q' fun _ => i + (1 - c.bc.g)) h' he he'
      have F := pyFlux1_units hl ht hM hc (c.bc.n 0) c.bc.g hg dt dx (fun i => A fun _ => i + (1 - c.bc.g)) (fun i => A' fun _ => i + (1 - c.bc.g))
        e e' fun u u1 u2 => ⟨R u u1 u2, (h' u u1 u2).2⟩
      refine ⟨fun v => (pyFlux1 rp ⟨c.bc.n 0, c.bc.g, dt, dx⟩ capa (fun i => A fun _ => i + (1 - c.bc.g)) e).1 (v 0 + c.bc.g - 1),
        fun v => (pyFlux1 rp' ⟨c.bc.n 0, c.bc.g, tx * dt, lx * dx⟩ capa (fun i => A' fun _ => i + (1 - c.bc.g)) e').1 (v 0 + c.bc.g - 1),
        (pyFlux1 rp ⟨c.bc.n 0, c.bc.g, dt, dx⟩ capa (fun i => A fun _ => i + (1 - c.bc.g)) e).2, ?_, ?_, ?_⟩
      · unfold intPyFlux1 pyDqHyperbolic
        dsimp only
        rw [he]
      · unfold intPyFlux1 pyDqHyperbolic
        dsimp only
        rw [he']
        dsimp only
        rw [F.2]
      · intro v hv
        have := hv 0
        exact F.1 _ (by omega) (by omega)
    · refine ⟨?_, hact.before, hact.stage⟩
      rcases hact.source with ⟨s1, s2⟩ | ⟨f, f', s1, s2, s3⟩
      · left
        exact ⟨s1, by show c'.source.map _ = none; rw [s2]; rfl⟩
      · right
        exact ⟨f, fun dt t => f' (tx * dt) (tx * t), s1, by show c'.source.map _ = _; rw [s2]; rfl, s3⟩
  exact unit_session ht link (oldClock_same tx c' aux') cfg hv goals h

/-- Non-vacuity of `C101_sharp_python_partial`: two quantities advected with velocity 2 between a wall and an open end, the second with the other
sign, lengths in kilometres and times in hours, wave-based reconstruction. -/
example (cfg : SharpCfg ℚ) (hv : cfg.dtVariable = true) (goals : List (SharpGoal ℚ)) (q : GArr (Fin 1) ℚ) :=
  C101_sharp_python_partial (1 / 1000000) (1 / 100000000000000) (limType := 2) (charDecomp := 1)
    (exImage 1 2 (fun _ => 4) (fun _ => .wall) (fun _ => .extrap) (intPyFlux1 (1 / 1000000) (1 / 100000000000000) 2 1 (bothRp 2) 3 (1 / 4) none))
    (exInTime (1 / 3600) 1 2 (fun _ => 4) (fun _ => .wall) (fun _ => .extrap)
      (intPyFlux1 (1 / 1000000) (1 / 100000000000000) 2 1 (bothRp (1 / 1000 / (1 / 3600) * 2)) 3 (1 / 1000 * (1 / 4)) none))
    (show 2 ≤ 3 by norm_num) none ![1, -1] false (Or.inr ⟨rfl, fun k => by fin_cases k <;> simp, Or.inr ⟨rfl, rfl⟩⟩) (1 / 1000) (1 / 3600)
    (by norm_num) (by norm_num) id (fun _ h => by cases h) (bothRp 2) (bothRp (1 / 1000 / (1 / 3600) * 2)) (both_units _ _ (by norm_num) _)
    (1 / 4) rfl rfl
    (exSharp_problem 1 2 _ (fun _ => by norm_num) _ _ (fun _ => by simp [BuiltInBC]) (fun _ => by simp [BuiltInBC]) (by norm_num) _) rfl rfl
    (exInTime_actions (1 / 3600) (by norm_num) 1 2 _ _ _ _ _ _) (fun _ _ => 0) (fun _ _ => 0) (fun _ _ => funext fun k => k.elim0) cfg hv goals
    (exSharpStart q) (sharpRunIn (1 / 3600) (exSharpStart fun k x => (if k = 1 then -1 else 1) * q k x))
    (exSharpStart_units _ _ _ _ _ fun x _ => funext fun k => by fin_cases k <;> simp [signed])

end PyClaw
