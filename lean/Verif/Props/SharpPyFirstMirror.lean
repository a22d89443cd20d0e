import Verif.Props.SharpPyMirror

set_option linter.unusedSectionVars false

/-!
The Python kernel of SharpClaw without reconstruction in a mirror (C108): whole runs.
-/
namespace PyClaw
open Spec

variable {K : Type*} [Field K] [LinearOrder K] [IsStrictOrderedRing K] {m w naux : Nat}

theorem dq_courant (c : SharpGrid (Fin 1) K) (step : IntKern (Fin 1) K m naux) (hk : c.kern = dqArrays m naux c.bc.g step) (aux q : GArr (Fin 1) K)
    (dt t : K) {wA : BCArrays (Fin 1) K} (hw : applyBcs c.bc c.axes q aux ⟨fun _ _ => 0, fun _ _ => 0⟩ = (wA, .ok ())) {r cfl}
    (h : step dt c.bc.n (fieldOf naux c.bc.g wA.aux) (fieldOf m c.bc.g wA.q) = some (r, cfl)) : (dqSerial c aux dt t q).2 = cfl := by
  have hw1 : applyBcs c.par.bc c.par.axes (gridData q aux).q (gridData q aux).aux (gridData q aux).work = (wA, .ok ()) := hw
  have hk1 : c.par.kern dt c.par.bc.n wA = dqArrays m naux c.bc.g step dt c.bc.n wA := by
    show c.kern dt c.bc.n wA = _
    rw [hk]
  unfold dqSerial hypSerial
  rw [hw1]
  dsimp only
  rw [hk1]
  unfold dqArrays onArrays
  rw [h]
  rfl

/-- Without reconstruction, `char_decomp` is not looked at. -/
theorem pyFirst_option (eps tol : K) (charDecomp : Int) (rp : Riemann K (Fin naux → K) m w) (g : Nat) (dx : K) (capa : Option ((Fin naux → K) → K)) :
    intPyFlux1 eps tol (-1) charDecomp rp g dx capa = intPyFlux1 eps tol (-1) 0 rp g dx capa := by
  unfold intPyFlux1 pyDqHyperbolic pyRecon
  simp only [if_true]

/-- The Courant number of the kernel without reconstruction is that of the interfaces of the grid, if the one too many is a copy of one of them. -/
theorem pyFirst_courant (eps tol : K) (charDecomp : Int) (c : SharpGrid (Fin 1) K) (hg : 2 ≤ c.bc.g) (capa : Option ((Fin naux → K) → K))
    (rp : Riemann K (Fin naux → K) m w) (dx : K)
    (hk : c.kern = dqArrays m naux c.bc.g (intPyFlux1 eps tol (-1) charDecomp rp c.bc.g dx capa)) (hp : SharpProblem c naux)
    (hE : ExtraCovered c.bc c.axes rp dx capa 0) (aux q : GArr (Fin 1) K) (dt t : K) :
    ∃ A Q, FilledBy c.bc c.axes m naux A Q q aux ∧
      IsMaxWithZero (fun x => ∃ i : Int, 1 ≤ i ∧ i ≤ c.bc.n 0 + 1 ∧ WaveNumber (localRatio dt dx capa fun i => A fun _ => i)
        (interfaces rp (fun i => A fun _ => i) (fun i => Q fun _ => i)) i x) (dqSerial c aux dt t q).2 := by
  obtain ⟨wA, hw, fl⟩ := serial_fill c.bc hp.admissible hp.serial c.axes (by rw [hp.axes]; exact List.nodup_finRange 1)
    (by rw [hp.axes]; exact List.mem_finRange) m naux hp.numAux q aux ⟨fun _ _ => 0, fun _ _ => 0⟩
  obtain ⟨r, cfl, h1, -, h3⟩ := (pyFirst_wide eps tol charDecomp rp c.bc.g hg dx capa).runs dt c.bc.n (fieldOf naux c.bc.g wA.aux)
    (fieldOf m c.bc.g wA.q) (fun a => (hp.admissible.cells a).1) fun _ _ => trivial
  refine ⟨_, _, fl, ?_⟩
  rw [dq_courant c _ hk aux q dt t hw h1]
  refine isMax_congr (fun x => ?_) h3
  constructor
  · rintro ⟨_, v, hv, h⟩
    have h0 := hv 0
    by_cases hi : 1 ≤ v 0
    · exact ⟨v 0, hi, h0.2, h⟩
    · exact hE dt _ _ q aux x fl (v 0) h0.1 (by omega) h
  · rintro ⟨i, i1, i2, h⟩
    exact ⟨(), fun _ => i, fun a => by rw [Subsingleton.elim a 0]; dsimp only; omega, h⟩

/-- C108, the Python kernel without reconstruction (`lim_type = -1`), whole runs. Full statement: for all boundary conditions; it is false (`C108_python_first_order_violated`). As the kernel counts an
interface too many at the left end, the Courant number is the same only if this interface is a copy of another: aux values continued like the
solution, and solvers that are their own images in the walls. -/
theorem C108_python_first_order_partial [FloorRing K] (eps tol : K) (charDecomp : Int) (c c' : SharpGrid (Fin 1) K) (hg : 3 ≤ c.bc.g)
    (capa : Option ((Fin naux → K) → K)) (σ : Fin m → K) (hσ : IsSign σ)
    (RA : (Fin naux → K) → Fin naux → K) (hc : ∀ κ, capa = some κ → ∀ z, κ (RA z) = κ z) (π : Equiv.Perm (Fin w))
    (fw : Bool) (rp rp' : Riemann K (Fin naux → K) m w) (hM : MirrorImage σ RA π fw rp rp') (dx : K)
    (hk : c.kern = dqArrays m naux c.bc.g (intPyFlux1 eps tol (-1) charDecomp rp c.bc.g dx capa))
    (hk' : c'.kern = dqArrays m naux c'.bc.g (intPyFlux1 eps tol (-1) charDecomp rp' c'.bc.g dx capa))
    (hp : SharpProblem c naux) (hax : c'.axes = c.axes) (hbc : c'.bc = mirrorBC 0 c.bc)
    (hxb : 0 < naux → c.bc.auxLower 0 = c.bc.bcLower 0 ∧ c.bc.auxUpper 0 = c.bc.bcUpper 0)
    (hwl : c.bc.bcLower 0 = .wall → ∃ (π : Equiv.Perm (Fin w)) (fw : Bool), MirrorImage (reflectSign c.bc m) id π fw rp rp)
    (hwu : c.bc.bcUpper 0 = .wall → ∃ (π : Equiv.Perm (Fin w)) (fw : Bool), MirrorImage (reflectSign c.bc m) id π fw rp' rp')
    (hact : SameActions m naux (mirrorCell c.bc.n 0) (signed σ) RA c c') (aux aux' : GArr (Fin 1) K)
    (haux : ∀ x : Fin 1 → Nat, (∀ i, x i < c.bc.n i) → auxAt naux aux' x = RA (auxAt naux aux (mirrorCell c.bc.n 0 x)))
    (cfg : SharpCfg K) (goals : List (SharpGoal K)) (r r' : SharpRun K (GArr (Fin 1) K))
    (h : SameSharp (ImageOf m c.bc.n (mirrorCell c.bc.n 0) (signed σ)) r r') :
    SameSharp (ImageOf m c.bc.n (mirrorCell c.bc.n 0) (signed σ)) (sharpSessionC (serialSharp c aux) cfg goals r).1
      (sharpSessionC (serialSharp c' aux') cfg goals r').1 ∧
    (sharpSessionC (serialSharp c' aux') cfg goals r').2 = (sharpSessionC (serialSharp c aux) cfg goals r).2 := by
  have hn : c'.bc.n = c.bc.n := by rw [hbc]; rfl
  have hgg : c'.bc.g = c.bc.g := by rw [hbc]; rfl
  have ha' : Admissible c'.bc := by rw [hbc]; exact mirrorBC_admissible c.bc hp.admissible 0
  have hp' : SharpProblem c' naux := by
    refine ⟨ha', by rw [hbc]; exact hp.serial, by rw [hax]; exact hp.axes, ?_⟩
    rw [hbc]
    exact hp.numAux
  have hE : ExtraCovered c.bc c.axes rp dx capa 0 :=
    extra_covered c.bc hp.admissible hp.numAux (by omega) hp.axes dx capa (fun h0 => (hxb h0).1) hwl
  have hE' : ExtraCovered c'.bc c'.axes rp' dx capa 0 := by
    refine extra_covered c'.bc ha' hp'.numAux (by omega) hp'.axes dx capa ?_ ?_
    · intro h0
      rw [hbc]
      simp only [mirrorBC, Function.update_self]
      exact (hxb h0).2
    · intro hl
      rw [hbc] at hl ⊢
      simp only [mirrorBC, Function.update_self] at hl
      exact hwu hl
  have L : Linked (imageSub c.bc.n (mirrorCell c.bc.n 0) σ 1) (serialSharp c aux) (serialSharp c' aux') := by
    refine { stage := fun t q q' hq => ?_, before := fun t q q' hq => ?_, dq := fun dt t q q' hq => ?_ }
    rotate_left
    · have := hact.stage t
      rw [hn] at this
      exact cellwise_image this hq haux
    · have := hact.before t
      rw [hn] at this
      exact cellwise_image this hq haux
    · have hq : ImageOf m c.bc.n (mirrorCell c.bc.n 0) (signed σ) q q' := hq
      refine ⟨C108_python_partial eps tol (charDecomp := 0) (Or.inl rfl) c c' hg capa σ hσ RA hc π fw (fun h => absurd h (by norm_num)) rp rp' hM dx
        (by rw [hk, pyFirst_option eps tol charDecomp]) (by rw [hk', pyFirst_option eps tol charDecomp]) hp hax hbc hact aux aux' q q' haux hq dt t, ?_⟩
      show (dqSerial c' aux' dt t q').2 = (dqSerial c aux dt t q).2
      obtain ⟨A, Q, f, h1⟩ := pyFirst_courant eps tol charDecomp c (by omega) capa rp dx hk hp hE aux q dt t
      obtain ⟨A', Q', f', h2⟩ := pyFirst_courant eps tol charDecomp c' (by omega) capa rp' dx hk' hp' hE' aux' q' dt t
      rw [hax, hbc] at f'
      rw [hn] at h2
      have key : ∀ i : Int, 1 - (c.bc.g : Int) ≤ i → i ≤ c.bc.n 0 + c.bc.g →
          Q' (fun _ => i) = signed σ (Q fun _ => (c.bc.n 0 : Int) + 1 - i) ∧ A' (fun _ => i) = RA (A fun _ => (c.bc.n 0 : Int) + 1 - i) := by
        intro i i1 i2
        have h := mirror_fill c.bc hp.admissible 0 c.axes hp.numAux σ RA f f' hq haux (fun _ => (c.bc.n 0 : Int) + 1 - i) (fun b => by
          obtain rfl := Subsingleton.elim b 0
          omega)
        have e : Function.update (fun _ : Fin 1 => (c.bc.n 0 : Int) + 1 - i) 0 ((c.bc.n 0 : Int) + 1 - ((c.bc.n 0 : Int) + 1 - i)) = fun _ => i := by
          funext b
          obtain rfl := Subsingleton.elim b 0
          rw [Function.update_self]
          ring
        rw [e] at h
        exact h
      have hnum : ∀ (j : Int) (x : K), 1 ≤ j → j ≤ c.bc.n 0 + 1 →
          (WaveNumber (localRatio dt dx capa fun i => A' fun _ => i) (interfaces rp' (fun i => A' fun _ => i) (fun i => Q' fun _ => i)) j x ↔
          WaveNumber (localRatio dt dx capa fun i => A fun _ => i) (interfaces rp (fun i => A fun _ => i) (fun i => Q fun _ => i))
            (c.bc.n 0 + 1 + 1 - j) x) := by
        intro j x j1 j2
        have e := waveNumber_congr rp' dt dx capa (fun j => RA (A fun _ => (c.bc.n 0 : Int) + 1 - j)) (fun j => A' fun _ => j)
          (fun j => signed σ (Q fun _ => (c.bc.n 0 : Int) + 1 - j)) (fun j => Q' fun _ => j) 0 j x
          (by rw [add_zero]; exact (key j (by omega) (by omega)).2) (by rw [add_zero]; exact (key (j - 1) (by omega) (by omega)).2)
          (by rw [add_zero]; exact (key j (by omega) (by omega)).1) (by rw [add_zero]; exact (key (j - 1) (by omega) (by omega)).1)
        rw [add_zero] at e
        refine e.trans ?_
        exact mirror_number hM dt dx capa hc ((c.bc.n 0 : Int) + 1) (fun i => A fun _ => i) (fun i => Q fun _ => i) j x
      refine isMax_unique h2 (isMax_congr (fun x => ?_) h1)
      constructor
      · rintro ⟨i, i1, i2, h⟩
        refine ⟨c.bc.n 0 + 1 + 1 - i, by omega, by omega, (hnum _ _ (by omega) (by omega)).mpr ?_⟩
        rwa [show (c.bc.n 0 : Int) + 1 + 1 - (c.bc.n 0 + 1 + 1 - i) = i by ring]
      · rintro ⟨i, i1, i2, h⟩
        exact ⟨c.bc.n 0 + 1 + 1 - i, by omega, by omega, (hnum _ _ i1 i2).mp h⟩
  exact pair_session L cfg goals h

/-- Non-vacuity of `C108_python_first_order_partial`: acoustics, the wall on the left or on the right. -/
example (cfg : SharpCfg ℚ) (goals : List (SharpGoal ℚ)) (r r' : SharpRun ℚ (GArr (Fin 1) ℚ))
    (h : SameSharp (ImageOf 2 (fun _ => 4) (mirrorCell (fun _ => 4) 0) (signed ![1, -1])) r r') :=
  C108_python_first_order_partial (1 / 1000000) (1 / 100000000000000) 0
    (exImage 1 2 (fun _ => 4) (fun _ => .wall) (fun _ => .extrap)
      (intPyFlux1 (1 / 1000000) (1 / 100000000000000) (-1) 0 (ignoreAux 0 acousticsRp) 3 (1 / 4) none))
    (exImage 1 2 (fun _ => 4) (fun _ => .extrap) (fun _ => .wall)
      (intPyFlux1 (1 / 1000000) (1 / 100000000000000) (-1) 0 (ignoreAux 0 acousticsRp) 3 (1 / 4) none))
    (le_refl 3) none ![1, -1] (fun k => by fin_cases k <;> simp) id (fun _ h => by cases h) (Equiv.swap 0 1) false (ignoreAux 0 acousticsRp)
    (ignoreAux 0 acousticsRp) (acoustics_image 0) (1 / 4) rfl rfl
    (exSharp_problem 1 2 _ (fun _ => by norm_num) _ _ (fun _ => by simp [BuiltInBC]) (fun _ => by simp [BuiltInBC]) (by norm_num) _) rfl
    (by
      simp only [exImage, mirrorBC, BCConfig.mk.injEq, and_true, true_and]
      refine ⟨?_, ?_, ?_, ?_⟩ <;> funext a <;> fin_cases a <;> rfl)
    (fun h => absurd h (by decide))
    (fun _ => ⟨Equiv.swap 0 1, false, by
      have e : reflectSign (exImage 1 2 (fun _ => 4) (fun _ => .wall) (fun _ => .extrap)
          (intPyFlux1 (1 / 1000000) (1 / 100000000000000) (-1) 0 (ignoreAux 0 acousticsRp) 3 (1 / 4) none)).bc 2 = (![1, -1] : Fin 2 → ℚ) := by
        funext k
        fin_cases k <;> decide +kernel
      rw [e]
      exact acoustics_image 0⟩)
    (fun h => by cases h)
    (exSharp_actions 1 2 _ _ _ _ _ _ _ _ _ _ fun x u => relabel_smul ![1, -1] 1 x u) (fun _ _ => 0) (fun _ _ => 0)
    (fun _ _ => funext fun k => k.elim0) cfg goals r r' h

/-- Burgers' equation with a coefficient in every cell: the speed contains those of both sides. -/
def burgersAux (ql qr : Fin 1 → ℚ) (al ar : Fin 1 → ℚ) : Rp ℚ 1 1 where
  wave := fun _ => qr - ql
  s := fun _ => al 0 * ar 0 * ((ql 0 + qr 0) / 2)
  amdq := fun k => min (al 0 * ar 0 * ((ql 0 + qr 0) / 2)) 0 * (qr k - ql k)
  apdq := fun k => max (al 0 * ar 0 * ((ql 0 + qr 0) / 2)) 0 * (qr k - ql k)

theorem burgersAux_image : MirrorImage (fun _ => -1) id (Equiv.refl _) false burgersAux burgersAux := by
  intro ql qr al ar
  have e : ar 0 * al 0 * ((-qr 0 + -ql 0) / 2) = -(al 0 * ar 0 * ((ql 0 + qr 0) / 2)) := by ring
  refine ⟨fun p => ?_, fun p => ?_, ?_, ?_⟩
  · simp only [burgersAux, signed, neg_mul, one_mul, id, e]
  · funext k
    simp only [burgersAux, signed, Pi.neg_apply, Pi.sub_apply, if_neg Bool.false_ne_true]
    ring
  all_goals
    funext k
    obtain rfl := Subsingleton.elim k 0
    simp only [burgersAux, signed, neg_mul, one_mul, id, e]
    generalize al 0 * ar 0 * ((ql 0 + qr 0) / 2) = a
    rcases le_total a 0 with h | h
    · simp only [min_eq_left h, max_eq_right h, min_eq_right (neg_nonneg.mpr h), max_eq_left (neg_nonneg.mpr h)]; ring
    · simp only [min_eq_right h, max_eq_left h, min_eq_left (neg_nonpos.mpr h), max_eq_right (neg_nonpos.mpr h)]; ring

/-- Three cells on a ring, the coefficients extrapolated instead of continued periodically; the Python kernel without reconstruction. -/
def ringAux : SharpGrid (Fin 1) ℚ where
  bc := { ringBC 3 3 with numAux := 1, auxLower := fun _ => .extrap, auxUpper := fun _ => .extrap }
  axes := List.finRange 1
  kern := dqArrays 1 1 3 (intPyFlux1 (1 / 1000000) (1 / 100000000000000) (-1) 0 burgersAux 3 1 none)
  source := none
  before := fun _ _ q _ => q
  stage := fun _ _ q _ => q

/-- C108 fails for the Python kernel without reconstruction, if the aux values are not continued like the solution: the problem `ringAux` is its own
mirror image. With the values 0, 1, 4 and the coefficients 2, 1, 1 the Courant number is 5, with the mirror images it is 4. -/
theorem C108_python_first_order_violated :
    SharpProblem ringAux 1 ∧ MirrorImage (fun _ => -1) id (Equiv.refl _) false burgersAux burgersAux ∧ ringAux.bc = mirrorBC 0 ringAux.bc ∧
    ∃ aux aux' q q' : GArr (Fin 1) ℚ, (∀ x : Fin 1 → Nat, (∀ i, x i < 3) → auxAt 1 aux' x = auxAt 1 aux (mirrorCell (fun _ => 3) 0 x)) ∧
      ImageOf 1 (fun _ => 3) (mirrorCell (fun _ => 3) 0) (signed fun _ => -1) q q' ∧
      (dqSerial ringAux aux (1 / 2) 0 q).2 = 5 ∧ (dqSerial ringAux aux' (1 / 2) 0 q').2 = 4 := by
  refine ⟨⟨⟨fun _ => ⟨by show 0 < 3; omega, le_refl 3⟩, fun _ => Or.inr (Or.inl rfl), fun _ => Or.inr (Or.inl rfl), fun _ _ => Or.inl rfl, fun _ _ => Or.inl rfl,
      fun _ h => by rcases h with h | h <;> cases h⟩, fun _ => ⟨rfl, rfl⟩, rfl, rfl⟩, burgersAux_image, ?_,
    fun _ x => if x 0 = 0 then 2 else 1, fun _ x => if 2 - x 0 = 0 then 2 else 1, fun _ x => (x 0 : ℚ) ^ 2, fun _ x => -((2 - x 0 : Nat) : ℚ) ^ 2, ?_, ?_, ?_⟩
  · simp only [ringAux, ringBC, mirrorBC, BCConfig.mk.injEq, and_true, true_and]
    refine ⟨?_, ?_, ?_, ?_⟩ <;> funext a <;> fin_cases a <;> rfl
  · intro x hx
    funext k
    simp only [auxAt, mirrorCell, Function.update_self]
  · intro x hx
    funext k
    simp only [signed, mirrorCell, Function.update_self, neg_mul, one_mul]
  · decide +kernel

end PyClaw
