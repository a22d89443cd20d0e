import Verif.Props.SharpPyUnfold

set_option linter.unusedSectionVars false

/-!
The Python kernel of SharpClaw in front of a wall (C92): the Courant number and whole runs, for all reconstructions.
-/
namespace PyClaw
open Spec

section
variable {K A : Type*} [Field K] [LinearOrder K] [IsStrictOrderedRing K] {m w : Nat}

/-- The first cells are not reconstructed. -/
theorem pyRecon_low (eps tol : K) {limType charDecomp : Int} (hl : limType = -1 ∨ limType = 2 ∧ (charDecomp = 0 ∨ charDecomp = 1)) (N N' : Int)
    (d d' : Int → Rp K m w) (q q' : Int → Fin m → K) {e e' : Edges K m} (he : pyRecon eps tol limType charDecomp N d q = .ok e)
    (he' : pyRecon eps tol limType charDecomp N' d' q' = .ok e') (i : Int) (h : q' i = q i) :
    (i < 2 → e'.qr i = e.qr i) ∧ (i < 3 → e'.ql i = e.ql i) := by
  unfold pyRecon at he he'
  rcases hl with rfl | ⟨rfl, rfl | rfl⟩ <;> norm_num at he he' <;> subst he <;> subst he'
  · exact ⟨fun _ => h, fun _ => h⟩
  · refine ⟨fun hi => ?_, fun hi => ?_⟩ <;> funext k
    · simp only [pyWeno, pyWenoQr]
      rw [if_neg (by omega), if_neg (by omega), h]
    · simp only [pyWeno, pyWenoQl]
      rw [if_neg (by omega), if_neg (by omega), h]
  · refine ⟨fun hi => ?_, fun hi => ?_⟩ <;> simp only [pyWenoWave]
    · rw [if_neg (by omega), if_neg (by omega), h]
    · rw [if_neg (by omega), if_neg (by omega), h]

theorem pyFlux1_courant (rp : Riemann K A m w) (n g : Nat) (dt dx : K) (capa : Option (A → K)) (aux : Int → A) (e : Edges K m) :
    (pyFlux1 rp ⟨n, g, dt, dx⟩ capa aux e).2 = pyCfl (g - 1) (n + g + 1) (localRatio dt dx capa aux)
      (fun i => rp (e.qr i) (e.ql (i + 1)) (aux i) (aux (i + 1))) := by
  unfold pyFlux1
  cases capa <;> rfl

/-- The Courant number on a grid continued by its image is that on the grid. -/
theorem pyCourant_unfold (eps tol : K) {limType charDecomp : Int} (hl : limType = -1 ∨ limType = 2 ∧ (charDecomp = 0 ∨ charDecomp = 1))
    {σ : Fin m → K} (hσ : IsSign σ) {π : Equiv.Perm (Fin w)} {fw : Bool} (hfw : charDecomp = 1 → fw = false) {rp : Riemann K A m w}
    (hM : MirrorImage σ id π fw rp rp) (n g : Nat) (hg : 3 ≤ g) (dt dx : K) (capa : Option (A → K)) (aux aux' : Int → A) (q q' : Int → Fin m → K)
    (left : ∀ i : Int, 0 ≤ i → i < n + 2 * g → aux' i = aux i ∧ q' i = q i)
    (right : ∀ i : Int, (n : Int) ≤ i → i < 2 * n + 2 * g → aux' i = aux (2 * n + 2 * g - 1 - i) ∧ q' i = signed σ (q (2 * n + 2 * g - 1 - i)))
    {r r' : (Int → Fin m → K) × K} (hr : pyDqHyperbolic eps tol rp ⟨n, g, dt, dx⟩ limType charDecomp capa aux q = .ok r)
    (hr' : pyDqHyperbolic eps tol rp ⟨2 * n, g, dt, dx⟩ limType charDecomp capa aux' q' = .ok r') : r'.2 = r.2 := by
  have hgg : (3 : Int) ≤ g := by exact_mod_cast hg
  have hok : ∀ (N : Int) (d : Int → Rp K m w) (q : Int → Fin m → K), ∃ e, pyRecon eps tol limType charDecomp N d q = .ok e := by
    intro N d q
    unfold pyRecon
    rcases hl with rfl | ⟨rfl, rfl | rfl⟩ <;> norm_num
  unfold pyDqHyperbolic at hr hr'
  dsimp only at hr hr'
  obtain ⟨e, he⟩ := hok ((n : Int) + 2 * g) (fun i => rp (q i) (q (i + 1)) (aux i) (aux (i + 1))) q
  obtain ⟨e', he'⟩ := hok (((2 * n : Nat) : Int) + 2 * g) (fun i => rp (q' i) (q' (i + 1)) (aux' i) (aux' (i + 1))) q'
  rw [he] at hr
  rw [he'] at hr'
  cases hr
  cases hr'
  rw [pyFlux1_courant, pyFlux1_courant]
  push_cast at he' ⊢
  set N : Int := 2 * n + 2 * g with hN
  -- the continued grid in the mirror
  obtain ⟨e2, he2⟩ := hok N (fun i => rp (signed σ (q' (N - 1 - i))) (signed σ (q' (N - 1 - (i + 1)))) (id (aux' (N - 1 - i))) (id (aux' (N - 1 - (i + 1)))))
    (fun i => signed σ (q' (N - 1 - i)))
  have R := pyRecon_mirror eps tol hl hσ hfw hM N aux' q' he' he2
  have l1 : ∀ k : Int, 2 ≤ k → k < n + 2 * g - 3 → e'.qr k = e.qr k ∧ e2.qr k = e.qr k := by
    intro k k1 k2
    have a := (pyRecon_near eps tol rp _ _ limType charDecomp aux aux' q q' k 0
      (fun u u1 u2 => by rw [add_zero]; exact left u (by omega) (by omega)) he he').1 k1 (by omega) (by omega) (by omega)
    have b := (pyRecon_near eps tol rp _ _ limType charDecomp aux (fun i => id (aux' (N - 1 - i))) q (fun i => signed σ (q' (N - 1 - i))) k 0
      (fun u u1 u2 => by
        have := right (N - 1 - u) (by omega) (by omega)
        rw [add_zero]
        dsimp only [id]
        rw [this.1, this.2, signed_signed hσ, show 2 * (n : Int) + 2 * g - 1 - (N - 1 - u) = u by omega]
        exact ⟨rfl, rfl⟩) he he2).1 k1 (by omega) (by omega) (by omega)
    rw [add_zero] at a b
    exact ⟨a, b⟩
  have l2 : ∀ k : Int, 3 ≤ k → k < n + 2 * g - 2 → e'.ql k = e.ql k ∧ e2.ql k = e.ql k := by
    intro k k1 k2
    have a := (pyRecon_near eps tol rp _ _ limType charDecomp aux aux' q q' k 0
      (fun u u1 u2 => by rw [add_zero]; exact left u (by omega) (by omega)) he he').2 k1 (by omega) (by omega) (by omega)
    have b := (pyRecon_near eps tol rp _ _ limType charDecomp aux (fun i => id (aux' (N - 1 - i))) q (fun i => signed σ (q' (N - 1 - i))) k 0
      (fun u u1 u2 => by
        have := right (N - 1 - u) (by omega) (by omega)
        rw [add_zero]
        dsimp only [id]
        rw [this.1, this.2, signed_signed hσ, show 2 * (n : Int) + 2 * g - 1 - (N - 1 - u) = u by omega]
        exact ⟨rfl, rfl⟩) he he2).2 k1 (by omega) (by omega) (by omega)
    rw [add_zero] at a b
    exact ⟨a, b⟩
  have low := fun k h => pyRecon_low eps tol hl _ _ _ _ q q' he he' k h
  have lr : ∀ i : Int, 0 ≤ i → i < n + 2 * g → localRatio dt dx capa aux' i = localRatio dt dx capa aux i := by
    intro i i1 i2
    unfold localRatio
    cases capa
    · rfl
    · dsimp only; rw [(left i i1 i2).1]
  have rr : ∀ i : Int, (n : Int) ≤ i → i < 2 * n + 2 * g → localRatio dt dx capa aux' i = localRatio dt dx capa aux (N - 1 - i) := by
    intro i i1 i2
    unfold localRatio
    cases capa
    · rfl
    · dsimp only; rw [(right i i1 i2).1]
  have n1 : ∀ (i : Int) (x : K), (g : Int) - 1 ≤ i → i ≤ n + g →
      (WaveNumber (localRatio dt dx capa aux') (fun i => rp (e'.qr (i - 1)) (e'.ql (i - 1 + 1)) (aux' (i - 1)) (aux' (i - 1 + 1))) i x ↔
      WaveNumber (localRatio dt dx capa aux) (fun i => rp (e.qr (i - 1)) (e.ql (i - 1 + 1)) (aux (i - 1)) (aux (i - 1 + 1))) i x) := by
    intro i x i1 i2
    have a : e'.qr (i - 1) = e.qr (i - 1) := by
      by_cases h : 2 ≤ i - 1
      · exact (l1 _ h (by omega)).1
      · exact (low _ (left _ (by omega) (by omega)).2).1 (by omega)
    have b : e'.ql i = e.ql i := by
      by_cases h : 3 ≤ i
      · exact (l2 _ h (by omega)).1
      · exact (low _ (left _ (by omega) (by omega)).2).2 (by omega)
    unfold WaveNumber
    simp only [sub_add_cancel, a, b, lr i (by omega) (by omega), lr (i - 1) (by omega) (by omega), (left i (by omega) (by omega)).1,
      (left (i - 1) (by omega) (by omega)).1]
  have n2 : ∀ (i : Int) (x : K), (n : Int) + g + 1 ≤ i → i ≤ 2 * n + g →
      WaveNumber (localRatio dt dx capa aux') (fun i => rp (e'.qr (i - 1)) (e'.ql (i - 1 + 1)) (aux' (i - 1)) (aux' (i - 1 + 1))) i x →
      WaveNumber (localRatio dt dx capa aux) (fun i => rp (e.qr (i - 1)) (e.ql (i - 1 + 1)) (aux (i - 1)) (aux (i - 1 + 1))) (N - i) x := by
    intro i x i1 i2
    have a : e'.qr (i - 1) = signed σ (e.ql (N - i)) := by
      have := (R (N - i)).2
      rw [(l2 (N - i) (by omega) (by omega)).2, show N - 1 - (N - i) = i - 1 by ring] at this
      rw [this, signed_signed hσ]
    have b : e'.ql i = signed σ (e.qr (N - i - 1)) := by
      have := (R (N - i - 1)).1
      rw [(l1 (N - i - 1) (by omega) (by omega)).2, show N - 1 - (N - i - 1) = i by ring] at this
      rw [this, signed_signed hσ]
    have c1 := (right i (by omega) (by omega)).1
    have c2 := (right (i - 1) (by omega) (by omega)).1
    rw [show N - 1 - i = N - i - 1 by ring] at c1
    rw [show N - 1 - (i - 1) = N - i by ring] at c2
    have d1 := rr i (by omega) (by omega)
    have d2 := rr (i - 1) (by omega) (by omega)
    rw [show N - 1 - i = N - i - 1 by ring] at d1
    rw [show N - 1 - (i - 1) = N - i by ring] at d2
    unfold WaveNumber
    simp only [sub_add_cancel, a, b, c1, c2, d1, d2]
    rintro ⟨p, h⟩
    obtain ⟨p, rfl⟩ := π.surjective p
    have := (hM (e.qr (N - i - 1)) (e.ql (N - i)) (aux (N - i - 1)) (aux (N - i))).1 p
    dsimp only [id] at this
    rw [this] at h
    refine ⟨p, ?_⟩
    rcases h with h | h
    · exact Or.inr (by rw [h]; ring)
    · exact Or.inl (by rw [h]; ring)
  refine isMax_unique (pyCfl_isMax _ _ (by omega) _ _) (isMax_congr (fun x => ?_) (pyCfl_isMax _ _ (by omega) _ _))
  constructor
  · rintro ⟨i, i1, i2, h⟩
    exact ⟨i, i1, by omega, (n1 i x i1 (by omega)).mpr h⟩
  · rintro ⟨i, i1, i2, h⟩
    by_cases hi : i ≤ n + g
    · exact ⟨i, i1, by omega, (n1 i x i1 hi).mp h⟩
    · exact ⟨N - i, by omega, by omega, n2 i x (by omega) (by omega) h⟩

end

variable {K : Type*} [Field K] [LinearOrder K] [IsStrictOrderedRing K] {m w naux : Nat}

/-- C92, the Python kernel of SharpClaw with the first-order, the WENO5 and the wave-based WENO5 reconstruction, at least three ghost cells, whole runs:
a wall on the right, an open end or another wall on the left; the Riemann solver is its own image in the wall. The interface that the kernel counts too
many is the same on both grids. -/
theorem C92_sharp_python [FloorRing K] (eps tol : K) {limType charDecomp : Int} (hl : limType = -1 ∨ limType = 2 ∧ (charDecomp = 0 ∨ charDecomp = 1))
    (c c' : SharpGrid (Fin 1) K) (hg : 3 ≤ c.bc.g) (capa : Option ((Fin naux → K) → K)) (rp : Riemann K (Fin naux → K) m w) (dx : K)
    (π : Equiv.Perm (Fin w)) (fw : Bool) (hfw : charDecomp = 1 → fw = false) (hM : MirrorImage (axisSign c.bc 0 m) id π fw rp rp)
    (hk : c.kern = dqArrays m naux c.bc.g (intPyFlux1 eps tol limType charDecomp rp c.bc.g dx capa))
    (hk' : c'.kern = dqArrays m naux c'.bc.g (intPyFlux1 eps tol limType charDecomp rp c'.bc.g dx capa)) (hp : SharpProblem c naux)
    (hax : c'.axes = c.axes) (hbc : c'.bc = unfoldAxis 0 c.bc)
    (hw : c.bc.bcUpper 0 = .wall) (hwx : 0 < naux → c.bc.auxUpper 0 = .wall)
    (hpl : c.bc.bcLower 0 ≠ .periodic) (hpx : 0 < naux → c.bc.auxLower 0 ≠ .periodic)
    (hact : UnfoldedActions m naux 0 (axisSign c.bc 0 m) c c')
    (aux aux' : GArr (Fin 1) K) (haux : UnfoldedArray naux c.bc.n 0 (fun _ => 1) aux aux')
    (cfg : SharpCfg K) (goals : List (SharpGoal K)) (r r' : SharpRun K (GArr (Fin 1) K))
    (h : SameSharp (UnfoldedArray m c.bc.n 0 (axisSign c.bc 0 m)) r r') :
    SameSharp (UnfoldedArray m c.bc.n 0 (axisSign c.bc 0 m)) (sharpSessionC (serialSharp c aux) cfg goals r).1
      (sharpSessionC (serialSharp c' aux') cfg goals r').1 ∧
    (sharpSessionC (serialSharp c' aux') cfg goals r').2 = (sharpSessionC (serialSharp c aux) cfg goals r).2 := by
  have hgg : c'.bc.g = c.bc.g := by rw [hbc]; rfl
  have hn : c'.bc.n 0 = 2 * c.bc.n 0 := by rw [hbc]; simp only [unfoldAxis, Function.update_self]
  have hp' : SharpProblem c' naux := by
    refine ⟨by rw [hbc]; exact unfoldAxis_admissible c.bc hp.admissible 0, by rw [hbc]; exact hp.serial, by rw [hax]; exact hp.axes, ?_⟩
    rw [hbc]
    exact hp.numAux
  refine pair_session (S := unfoldSub c.bc.n 0 (axisSign c.bc 0 m)) (env := serialSharp c aux) (env' := serialSharp c' aux')
    { stage := fun t q q' hq => cellwise_unfold (hact.stage t) hq haux
      before := fun t q q' hq => cellwise_unfold (hact.before t) hq haux
      dq := fun dt t q q' hq => ?_ } cfg goals h
  have hq : UnfoldedArray m c.bc.n 0 (axisSign c.bc 0 m) q q' := hq
  refine ⟨C92_sharp_python_partial eps tol hl c c' hg capa rp dx π fw hfw hM hk hk' hp hax hbc hw hwx hpl hpx hact aux aux' q q' haux hq dt t, ?_⟩
  show (dqSerial c' aux' dt t q').2 = (dqSerial c aux dt t q).2
  have fill := fun (c : SharpGrid (Fin 1) K) (hp : SharpProblem c naux) (q aux : GArr (Fin 1) K) => serial_fill c.bc hp.admissible hp.serial
    c.axes (by rw [hp.axes]; exact List.nodup_finRange 1) (by rw [hp.axes]; exact List.mem_finRange) m naux hp.numAux q aux
    ⟨fun _ _ => 0, fun _ _ => 0⟩
  obtain ⟨wA, hwA, f⟩ := fill c hp q aux
  obtain ⟨wA', hwA', f'⟩ := fill c' hp' q' aux'
  have F := unfoldAxis_fill c.bc hp.admissible 0 c.axes (by rw [hp.axes]; exact List.nodup_finRange 1)
    (by rw [hp.axes]; exact List.mem_finRange) hp.numAux hw hwx hpl hpx f (by rw [← hbc, ← hax]; exact f') hq haux
  obtain ⟨s, hs⟩ := py_ok eps tol hl rp ⟨c.bc.n 0, c.bc.g, dt, dx⟩ capa (fun i => fieldOf naux c.bc.g wA.aux fun _ => i + (1 - c.bc.g))
    (fun i => fieldOf m c.bc.g wA.q fun _ => i + (1 - c.bc.g))
  obtain ⟨s', hs'⟩ := py_ok eps tol hl rp ⟨c'.bc.n 0, c'.bc.g, dt, dx⟩ capa (fun i => fieldOf naux c'.bc.g wA'.aux fun _ => i + (1 - c'.bc.g))
    (fun i => fieldOf m c'.bc.g wA'.q fun _ => i + (1 - c'.bc.g))
  have e : (dqSerial c aux dt t q).2 = s.2 :=
    dq_courant c _ hk aux q dt t hwA (r := fun v => s.1 (v 0 + c.bc.g - 1)) (by unfold intPyFlux1; rw [hs])
  have e' : (dqSerial c' aux' dt t q').2 = s'.2 :=
    dq_courant c' _ hk' aux' q' dt t hwA' (r := fun v => s'.1 (v 0 + c'.bc.g - 1)) (by unfold intPyFlux1; rw [hs'])
  rw [e, e']
  rw [hn] at hs'
  rw [hgg] at hs' F
  refine pyCourant_unfold eps tol hl (axisSign_isSign c.bc 0) hfw hM (c.bc.n 0) c.bc.g hg dt dx capa _ _ _ _ ?_ ?_ hs hs'
  · intro i i1 i2
    have := F.1 (fun _ => i + (1 - (c.bc.g : Int))) fun b => by obtain rfl := Subsingleton.elim b 0; omega
    exact ⟨this.2, this.1⟩
  · intro i i1 i2
    have := F.2 (fun _ => 2 * (c.bc.n 0 : Int) + 2 * c.bc.g - 1 - i + (1 - c.bc.g)) fun b => by
      obtain rfl := Subsingleton.elim b 0; omega
    have e : Function.update (fun _ : Fin 1 => 2 * (c.bc.n 0 : Int) + 2 * c.bc.g - 1 - i + (1 - c.bc.g)) 0
        (2 * (c.bc.n 0 : Int) + 1 - (2 * (c.bc.n 0 : Int) + 2 * c.bc.g - 1 - i + (1 - c.bc.g))) = fun _ => i + (1 - (c.bc.g : Int)) := by
      funext b
      obtain rfl := Subsingleton.elim b 0
      rw [Function.update_self]
      ring
    rw [e] at this
    exact ⟨this.2, this.1⟩

/-- Non-vacuity of `C92_sharp_python`: sound on 4 cells with an open end on the left and a wall on the right, with the wave-based WENO5, and on 8 cells
between open ends; any time integrator and any calls. -/
example (cfg : SharpCfg ℚ) (goals : List (SharpGoal ℚ)) (q : Fin 2 → (Fin 1 → Nat) → ℚ) :=
  let step : IntKern (Fin 1) ℚ 2 0 := intPyFlux1 (1 / 1000000) (1 / 100000000000000) 2 1 (ignoreAux 0 acousticsRp) 3 (1 / 4) none
  let c := exImage 1 2 (fun _ => 4) (fun _ => .extrap) (fun _ => .wall) step
  have e : axisSign c.bc 0 2 = ![1, -1] := by funext k; fin_cases k <;> simp [axisSign, c, exImage]
  C92_sharp_python (1 / 1000000) (1 / 100000000000000) (Or.inr ⟨rfl, Or.inr rfl⟩) c
    (exImage 1 2 (fun _ => 8) (fun _ => .extrap) (fun _ => .extrap) step) (le_refl 3) none (ignoreAux 0 acousticsRp) (1 / 4) (Equiv.swap 0 1) false
    (fun _ => rfl) (by rw [e]; exact acoustics_image 0) rfl rfl
    (exSharp_problem 1 2 _ (fun _ => by norm_num) _ _ (fun _ => by simp [BuiltInBC]) (fun _ => by simp [BuiltInBC]) (by norm_num) _) rfl
    (by
      simp only [c, exImage, unfoldAxis, BCConfig.mk.injEq, and_true, true_and]
      refine ⟨?_, ?_, ?_⟩ <;> funext b <;> fin_cases b <;> rfl)
    rfl (fun h => absurd h (by norm_num)) (by simp [c, exImage]) (fun h => absurd h (by norm_num)) (exImage_unfolded ..)
    (fun _ _ => 0) (fun _ _ => 0) (fun _ _ k => k.elim0) cfg goals _ _ (exSharpStart_unfolded _ _ _ q)

end PyClaw
