import Verif.Props.SharpTranslate
import Verif.Props.SharpParallel
import Verif.Lemmas.SharpPyNear
import Verif.Props.SharpUniform
import Verif.Props.SharpFirst
import Verif.Props.ParallelSplit

set_option linter.unusedSectionVars false

/-!
The Python kernel of SharpClaw: what it adds to the cells does not depend on where the grid begins (C96) or how it is distributed (C95); its Courant
number does.
-/
namespace PyClaw
open Spec

/-- Burgers' equation with the Roe speed. -/
def burgersPy (ql qr : Fin 1 → ℚ) (_ _ : Fin 0 → ℚ) : Rp ℚ 1 1 where
  wave := fun _ => qr - ql
  s := fun _ => (ql 0 + qr 0) / 2
  amdq := fun k => min ((ql 0 + qr 0) / 2) 0 * (qr k - ql k)
  apdq := fun k => max ((ql 0 + qr 0) / 2) 0 * (qr k - ql k)

/-- Burgers' equation on a ring of `n` cells with the Python kernel and WENO5. -/
def ringPython (n : Nat) : SharpGrid (Fin 1) ℚ where
  bc := ringBC n 3
  axes := List.finRange 1
  kern := dqArrays 1 0 3 (intPyFlux1 (1 / 1000000) (1 / 100000000000000) 2 0 burgersPy 3 1 none)
  source := none
  before := fun _ _ q _ => q
  stage := fun _ _ q _ => q

/-- The hypotheses of C96 and of `C113_python` hold for this problem. -/
theorem ringPython_periodic (n : Nat) (h : 3 ≤ n) : SharpPeriodic (ringPython n) 0 ∧ Quiet burgersPy where
  left := ⟨⟨fun _ => ⟨by show 0 < n; omega, h⟩, fun _ => ⟨rfl, rfl⟩, fun _ => ⟨rfl, rfl⟩, fun _ => ⟨rfl, rfl⟩⟩, rfl, rfl,
    (fun f hf => by cases hf), fun _ _ _ => rfl, fun _ _ _ => rfl⟩
  right := fun u a b => by
    refine ⟨fun p => ?_, ?_, ?_⟩ <;> simp [burgersPy] <;> rfl

/-- C96 fails for the Python kernel. The Courant number is taken over one interface more than the grid has, the one between the first two ghost
cells on the left, with cell averages instead of reconstructed states: `LL = num_ghost - 1` in `dq_hyperbolic`. Burgers' equation on a ring of
three cells with the values 0, 1, 4: the Courant number is 5/4, and smaller than 6/5 if the grid begins one cell earlier. -/
theorem C96_python_violated :
    ∃ q q' : GArr (Fin 1) ℚ, Translated (fun _ => 3) (fun _ => 1) q q' ∧
      (dqSerial (ringPython 3) (fun _ _ => 0) (1 / 2) 0 q).2 = 5 / 4 ∧ (dqSerial (ringPython 3) (fun _ _ => 0) (1 / 2) 0 q').2 < 6 / 5 := by
  refine ⟨fun _ x => (x 0 : ℚ) ^ 2, fun _ x => (((x 0 + 2) % 3 : Nat) : ℚ) ^ 2, ?_, ?_⟩
  · intro c x hx
    have := hx 0
    dsimp only
    generalize hy : x 0 = y at this
    have hc : cellBefore (fun _ : Fin 1 => 3) (fun _ => 1) x 0 = (y + 2) % 3 := by
      simp only [cellBefore, hy]
      omega
    rw [hc]
  · decide +kernel

/-- Six cells in one dimension on two processes. -/
def threeThree : Decomp (Fin 1) := ⟨fun _ => 6, fun _ => 2, fun _ k => 3 * k⟩

theorem threeThree_good : GoodDecomp threeThree (fun _ => 6) 3 := by
  refine ⟨rfl, fun _ => ⟨rfl, rfl, ?_⟩, ?_⟩
  · intro k hk; simp only [threeThree]; omega
  · intro P _ a; simp only [Decomp.size, threeThree]; omega

/-- The values 0, 1, 4, 0, 1, 4, with zeros on the left and 0, 1, 4 on the right. -/
def pyData : BCArrays (Fin 1) ℚ := { q := fun _ idx => if idx 0 < 3 then 0 else ((idx 0 % 3 : Nat) : ℚ) ^ 2, aux := fun _ _ => 0 }

/-- C95 fails for the Python kernel, for the same reason ("THIS WON'T WORK IN PARALLEL!" in `dq_hyperbolic`): the second process has a larger Courant
number than the serial run. -/
theorem C95_python_violated :
    ¬ LocalKernel (dqArrays 1 0 3 (intPyFlux1 (1 / 1000000) (1 / 100000000000000) 2 0 burgersPy 3 1 none)) 3 0 := by
  intro h
  have hv := (localKernel_value h (1 / 2) (fun _ => 6) threeThree threeThree_good (fun _ => by decide) pyData _ _ rfl
    (fun _ => 1) (fun a => by simp [threeThree]) _ _ rfl).2
  revert hv; decide +kernel

/-! ### The increments of the cells -/

section
variable {ι K : Type*} [DecidableEq ι] [Field K] [LinearOrder K] [IsStrictOrderedRing K] {m naux : Nat}

/-- The same problem with a kernel that returns the Courant number 0. -/
def SharpGrid.values (c : SharpGrid ι K) (m naux : Nat) (step : IntKern ι K m naux) : SharpGrid ι K :=
  { c with kern := dqArrays m naux c.bc.g (valuesOf step) }

theorem values_kern (g : Nat) (step : IntKern ι K m naux) (dt : K) (n : ι → Nat) (A : BCArrays ι K) :
    dqArrays m naux g (valuesOf step) dt n A = (dqArrays m naux g step dt n A).map fun r => (r.1, 0) := by
  unfold dqArrays onArrays valuesOf
  cases step dt n (fieldOf naux g A.aux) (fieldOf m g A.q) <;> rfl

theorem values_hyp (c : SharpGrid ι K) (step : IntKern ι K m naux) (hk : c.kern = dqArrays m naux c.bc.g step) (dt : K) (d : HypData ι K) :
    hypSerial (c.values m naux step).par dt d = ((hypSerial c.par dt d).1, (hypSerial c.par dt d).2.map fun _ => 0) := by
  have h1 : ∀ A, (c.values m naux step).par.kern dt c.bc.n A = (c.par.kern dt c.bc.n A).map fun r => (r.1, 0) := fun A => by
    show dqArrays m naux c.bc.g (valuesOf step) dt c.bc.n A = (c.kern dt c.bc.n A).map _
    rw [hk, values_kern]
  have h2 : (c.values m naux step).par.bc = c.par.bc ∧ (c.values m naux step).par.axes = c.par.axes := ⟨rfl, rfl⟩
  unfold hypSerial
  rw [h2.1, h2.2]
  rcases applyBcs c.par.bc c.par.axes d.q d.aux d.work with ⟨wA, e | u⟩
  · rfl
  · dsimp only
    have := h1 wA
    change (c.values m naux step).par.kern dt c.par.bc.n wA = (c.par.kern dt c.par.bc.n wA).map fun r => (r.1, 0) at this
    rw [this]
    cases c.par.kern dt c.par.bc.n wA <;> rfl

theorem values_local (c : SharpGrid ι K) (step : IntKern ι K m naux) (hk : c.kern = dqArrays m naux c.bc.g step) (D : Decomp ι) (dt : K)
    (d : Proc ι → HypData ι K) (P : Proc ι) :
    hypLocal (c.values m naux step).par D dt d P = ((hypLocal c.par D dt d P).1, (hypLocal c.par D dt d P).2.map fun _ => 0) := by
  have h1 : ∀ A, (c.values m naux step).par.kern dt (D.size P) A = (c.par.kern dt (D.size P) A).map fun r => (r.1, 0) := fun A => by
    show dqArrays m naux c.bc.g (valuesOf step) dt (D.size P) A = (c.kern dt (D.size P) A).map _
    rw [hk, values_kern]
  have h2 : (c.values m naux step).par.bc = c.par.bc ∧ (c.values m naux step).par.axes = c.par.axes := ⟨rfl, rfl⟩
  unfold hypLocal
  rw [h2.1, h2.2]
  dsimp only
  split
  · rfl
  · rw [h1]
    cases c.par.kern dt (D.size P) _ <;> rfl

theorem values_serial (c : SharpGrid ι K) (step : IntKern ι K m naux) (hk : c.kern = dqArrays m naux c.bc.g step) (aux : GArr ι K) (dt t : K)
    (q : GArr ι K) : (dqSerial (c.values m naux step) aux dt t q).1 = (dqSerial c aux dt t q).1 := by
  unfold dqSerial
  rw [values_hyp c step hk]
  rcases hypSerial c.par dt (gridData q aux) with ⟨d, e | x⟩ <;> rfl

theorem values_reduce (r : Proc ι → Ret (HypData ι K) K) (l : List (Proc ι)) :
    (∃ x, reduceCfl (fun P => ((r P).1, (r P).2.map fun _ => (0 : K))) l = .ok x) ↔ ∃ x, reduceCfl r l = .ok x := by
  induction l with
  | nil => simp [reduceCfl]
  | cons P l ih =>
    rcases h : (r P).2 with e | x
    · have e1 : reduceCfl (fun P => ((r P).1, (r P).2.map fun _ => (0 : K))) (P :: l) = .error e := by
        simp only [reduceCfl, h]
        rfl
      have e2 : reduceCfl r (P :: l) = .error e := by
        simp only [reduceCfl, h]
      rw [e1, e2]
    · have e0 : (Except.ok x : Except PyErr K).map (fun _ => (0 : K)) = .ok 0 := rfl
      rcases h1 : reduceCfl (fun P => ((r P).1, (r P).2.map fun _ => (0 : K))) l with e | y <;> rcases h2 : reduceCfl r l with e' | y' <;>
        simp only [h1, h2] at ih
      · simp only [reduceCfl, h, h1, h2, e0]; simp
      · simp at ih
      · simp at ih
      · simp only [reduceCfl, h, h1, h2, e0]; simp

theorem values_parallel (c : SharpGrid ι K) (step : IntKern ι K m naux) (hk : c.kern = dqArrays m naux c.bc.g step) (D : Decomp ι)
    (aux : Proc ι → GArr ι K) (dt t : K) (q : Proc ι → GArr ι K) :
    (dqParallel (c.values m naux step) D aux dt t q).1 = (dqParallel c D aux dt t q).1 := by
  unfold dqParallel
  dsimp only
  simp only [values_local c step hk]
  have h := values_reduce (fun P => hypLocal c.par D dt (fun P => gridData (q P) (aux P)) P) (D.procs c.axes)
  have ha : (c.values m naux step).axes = c.axes := rfl
  rw [ha]
  rcases h1 : reduceCfl (fun P => ((hypLocal c.par D dt (fun P => gridData (q P) (aux P)) P).1,
    (hypLocal c.par D dt (fun P => gridData (q P) (aux P)) P).2.map fun _ => (0 : K))) (D.procs c.axes) with e | x <;>
  rcases h2 : reduceCfl (fun P => hypLocal c.par D dt (fun P => gridData (q P) (aux P)) P) (D.procs c.axes) with e' | x' <;>
    simp [h1, h2] at h ⊢
  rfl

end

section
variable {K : Type*} [Field K] [LinearOrder K] [IsStrictOrderedRing K] [FloorRing K] {m w naux : Nat}

/-- C96, the Python kernel with the first-order, the WENO5 and the wave-based WENO5 reconstruction, at least three ghost cells, any Riemann solver
and capacity function: on a periodic grid, what one call of `dq` adds to the cells, source term included, does not depend on where the grid
begins. Missing: the Courant number, see `C96_python_violated`, and with it the step sizes of runs. -/
theorem C96_python_partial (eps tol : K) {limType charDecomp : Int} (hl : limType = -1 ∨ limType = 2 ∧ (charDecomp = 0 ∨ charDecomp = 1))
    (c : SharpGrid (Fin 1) K) (hg : 3 ≤ c.bc.g) (capa : Option ((Fin naux → K) → K)) (rp : Riemann K (Fin naux → K) m w) (dx : K)
    (hk : c.kern = dqArrays m naux c.bc.g (intPyFlux1 eps tol limType charDecomp rp c.bc.g dx capa)) (hp : SharpPeriodic c naux)
    (k : Fin 1 → Int) (aux aux' q q' : GArr (Fin 1) K) (ha : Translated c.bc.n k aux aux') (hq : Translated c.bc.n k q q') (dt t : K) :
    Translated c.bc.n k (dqSerial c aux dt t q).1 (dqSerial c aux' dt t q').1 := by
  have h := ((translate_linked (c.values m naux _) (pyFlux1_wide eps tol hl rp c.bc.g hg dx capa) (show 1 ≤ c.bc.g by omega) rfl
    ⟨hp.grid, hp.axes, hp.numAux, hp.source, hp.before, hp.stage⟩ k aux aux' ha).dq dt t q q' hq).1
  have e := fun (a x : GArr (Fin 1) K) => values_serial c _ hk a dt t x
  change Translated c.bc.n k (dqSerial (c.values m naux _) aux dt t q).1 (dqSerial (c.values m naux _) aux' dt t q').1 at h
  rwa [e, e] at h

/-- C95, the same for several processes: what one call of `dq` adds to the cells of each process is its part of what the serial run adds. Missing:
the Courant number, see `C95_python_violated`. -/
theorem C95_python_partial (eps tol : K) {limType charDecomp : Int} (hl : limType = -1 ∨ limType = 2 ∧ (charDecomp = 0 ∨ charDecomp = 1))
    (c : SharpGrid (Fin 1) K) (hg : 3 ≤ c.bc.g) (capa : Option ((Fin naux → K) → K)) (rp : Riemann K (Fin naux → K) m w) (dx : K)
    (hk : c.kern = dqArrays m naux c.bc.g (intPyFlux1 eps tol limType charDecomp rp c.bc.g dx capa)) (D : Decomp (Fin 1))
    (hbc : Admissible c.bc) (hser : Serial c.bc) (hnd : c.axes.Nodup) (hall : ∀ a, a ∈ c.axes) (hD : GoodDecomp D c.bc.n c.bc.g)
    (hna : c.bc.numAux = naux)
    (aux q : GArr (Fin 1) K) (auxP qP : Proc (Fin 1) → GArr (Fin 1) K) (ha : ∀ P, ValidProc D P → IsPart D P aux (auxP P))
    (hq : ∀ P, ValidProc D P → IsPart D P q (qP P)) (dt t : K) :
    ∀ P, ValidProc D P → IsPart D P (dqSerial c aux dt t q).1 ((dqParallel c D auxP dt t qP).1 P) := by
  have ok : RunOk (c.values m naux (intPyFlux1 eps tol limType charDecomp rp c.bc.g dx capa)).par D := ⟨hbc, hser, hnd, hall, hD, by
    show LocalKernel (dqArrays m naux c.bc.g (valuesOf _)) c.bc.g c.bc.numAux
    rw [hna]
    exact dqArrays_local ((pyFlux1_wide eps tol hl rp c.bc.g hg dx capa).localKernel (by omega))⟩
  have h := ((parallel_linked (c.values m naux _) D ok aux auxP ha).dq dt t q qP hq).1
  change ∀ P, ValidProc D P → IsPart D P (dqSerial (c.values m naux _) aux dt t q).1 ((dqParallel (c.values m naux _) D auxP dt t qP).1 P) at h
  rwa [values_serial c _ hk, values_parallel c _ hk] at h

end

/-- Non-vacuity of `C96_python_partial`: any ring of at least three cells. -/
example (n : Nat) (h : 3 ≤ n) (k : Fin 1 → Int) (q q' : GArr (Fin 1) ℚ) (hq : Translated (fun _ => n) k q q') (dt t : ℚ) :
    Translated (fun _ => n) k (dqSerial (ringPython n) (fun _ _ => 0) dt t q).1 (dqSerial (ringPython n) (fun _ _ => 0) dt t q').1 :=
  C96_python_partial (1 / 1000000) (1 / 100000000000000) (Or.inr ⟨rfl, Or.inl rfl⟩) (ringPython n) (le_refl 3) none burgersPy 1 rfl (ringPython_periodic n h).1 k _ _ q q'
    (fun _ _ _ => rfl) hq dt t

/-- Non-vacuity of `C95_python_partial`: a ring of six cells on two processes. -/
example (q : GArr (Fin 1) ℚ) (qP : Proc (Fin 1) → GArr (Fin 1) ℚ) (hq : ∀ P, ValidProc threeThree P → IsPart threeThree P q (qP P)) (dt t : ℚ) :
    ∀ P, ValidProc threeThree P → IsPart threeThree P (dqSerial (ringPython 6) (fun _ _ => 0) dt t q).1
      ((dqParallel (ringPython 6) threeThree (fun _ _ _ => 0) dt t qP).1 P) :=
  C95_python_partial (1 / 1000000) (1 / 100000000000000) (Or.inr ⟨rfl, Or.inl rfl⟩) (ringPython 6) (le_refl 3) none burgersPy 1 rfl threeThree
    ⟨fun _ => ⟨by show 0 < 6; omega, by show 3 ≤ 6; omega⟩, fun _ => Or.inr (Or.inl rfl), fun _ => Or.inr (Or.inl rfl), fun h => absurd h (by decide), fun h => absurd h (by decide),
      fun _ h => by rcases h with h | h <;> cases h⟩ (fun _ => ⟨rfl, rfl⟩) (List.nodup_finRange 1) (fun a => List.mem_finRange a) threeThree_good rfl
    _ q _ qP (fun _ _ _ _ _ => rfl) hq dt t

/-! ### Without reconstruction -/

section
variable {K : Type*} [Field K] [LinearOrder K] [IsStrictOrderedRing K] {m w naux : Nat}

theorem pyFirst_wide (eps tol : K) (charDecomp : Int) (rp : Riemann K (Fin naux → K) m w) (g : Nat) (hg : 2 ≤ g) (dx : K)
    (capa : Option ((Fin naux → K) → K)) :
    WideStencil (ι := Fin 1) (intPyFlux1 eps tol (-1) charDecomp rp g dx capa) g (fun _ _ => True)
      (fun dt aux q v =>
        let a1 := fun i => aux fun _ => i;
        let q1 := fun i => q fun _ => i;
        -localRatio dt dx capa a1 (v 0) • ((interfaces rp a1 q1 (v 0 + 1)).amdq + (interfaces rp a1 q1 (v 0)).apdq +
          (rp (q1 (v 0)) (q1 (v 0)) (a1 (v 0)) (a1 (v 0))).apdq + (rp (q1 (v 0)) (q1 (v 0)) (a1 (v 0)) (a1 (v 0))).amdq))
      (fun (_ : Unit) _ => 0)
      (fun dt aux q _ v x => WaveNumber (localRatio dt dx capa fun i => aux fun _ => i)
        (interfaces rp (fun i => aux fun _ => i) (fun i => q fun _ => i)) (v 0) x) where
  low01 := fun _ _ => by omega
  runs := by
    intro dt n aux q hn _
    have hstep : intPyFlux1 eps tol (-1) charDecomp rp g dx capa dt n aux q = some
        (fun v => (pyFlux1 rp ⟨n 0, g, dt, dx⟩ capa (fun i => aux fun _ => i + (1 - g)) ⟨fun i => q fun _ => i + (1 - g), fun i => q fun _ => i + (1 - g)⟩).1
          (v 0 + g - 1), (pyFlux1 rp ⟨n 0, g, dt, dx⟩ capa (fun i => aux fun _ => i + (1 - g))
            ⟨fun i => q fun _ => i + (1 - g), fun i => q fun _ => i + (1 - g)⟩).2) := by
      unfold intPyFlux1 pyDqHyperbolic pyRecon
      rw [if_pos rfl]
    refine ⟨_, _, hstep, fun v hv => ?_, ?_⟩
    · have h0 := hv 0
      simp only [pyFlux1]
      rw [if_pos (by omega)]
      have b1 : v 0 + (g : Int) - 1 + (1 - g) = v 0 := by ring
      have b2 : v 0 + (g : Int) - 1 + 1 + (1 - g) = v 0 + 1 := by ring
      have b3 : v 0 + (g : Int) - 1 - 1 + (1 - g) = v 0 - 1 := by ring
      have b4 : v 0 + (g : Int) - 1 - 1 + 1 + (1 - g) = v 0 := by ring
      simp only [b1, b2, b3, b4, interfaces, add_sub_cancel_right]
      cases capa <;> rfl
    · have e : (pyFlux1 rp ⟨n 0, g, dt, dx⟩ capa (fun i => aux fun _ => i + (1 - g))
            ⟨fun i => q fun _ => i + (1 - g), fun i => q fun _ => i + (1 - g)⟩).2 = pyCfl (g - 1) (n 0 + g + 1)
          (localRatio dt dx capa fun x => aux fun _ => x + (1 - g))
          (fun i => rp (q fun _ => i + (1 - g)) (q fun _ => i + 1 + (1 - g)) (aux fun _ => i + (1 - g)) (aux fun _ => i + 1 + (1 - g))) := by
        unfold pyFlux1
        cases capa <;> rfl
      rw [e]
      have hd : (fun i : Int => (fun i => rp (q fun _ => i + (1 - g)) (q fun _ => i + 1 + (1 - g)) (aux fun _ => i + (1 - g))
            (aux fun _ => i + 1 + (1 - g))) (i - 1)) =
          interfaces rp (fun x => aux fun _ => x + (1 - (g : Int))) (fun x => q fun _ => x + (1 - g)) := by
        funext i; simp [interfaces]
      refine isMax_congr (fun x => ?_) (pyCfl_isMax _ _ (by omega) _ _)
      rw [hd]
      have hw := fun i => waveNumber_congr rp dt dx capa (fun i => aux fun _ => i) (fun x => aux fun _ => x + (1 - (g : Int)))
        (fun i => q fun _ => i) (fun x => q fun _ => x + (1 - (g : Int))) (1 - g) i x rfl rfl rfl rfl
      simp only [hw]
      constructor
      · rintro ⟨i, i1, i2, h⟩
        exact ⟨(), fun _ => i + (1 - g), fun a => by rw [Subsingleton.elim a 0]; dsimp only; omega, h⟩
      · rintro ⟨_, v, hv, h⟩
        have := hv 0
        refine ⟨v 0 - (1 - g), by omega, by omega, ?_⟩
        rw [sub_add_cancel]
        exact h
  stops := fun _ _ _ _ _ _ h => absurd trivial h
  okLocal := fun _ _ _ _ _ => Iff.rfl
  newLocal := by
    intro dt aux aux' q q' s v h
    have ha : ∀ k, v 0 - 1 ≤ k → k ≤ v 0 + 1 → aux' (fun _ => k) = aux (fun _ => k + s 0) := fun k a b =>
      ((h (fun _ => k) (fun a => by rw [Subsingleton.elim a 0]; omega)).1).trans
        (congrArg aux (funext fun a => by rw [Subsingleton.elim a 0]))
    have hq : ∀ k, v 0 - 1 ≤ k → k ≤ v 0 + 1 → q' (fun _ => k) = q (fun _ => k + s 0) := fun k a b =>
      ((h (fun _ => k) (fun a => by rw [Subsingleton.elim a 0]; omega)).2).trans
        (congrArg q (funext fun a => by rw [Subsingleton.elim a 0]))
    have b1 : v 0 + s 0 + 1 = v 0 + 1 + s 0 := by ring
    have b2 : v 0 + s 0 - 1 = v 0 - 1 + s 0 := by ring
    have b3 : v 0 + 1 + s 0 - 1 = v 0 + s 0 := by ring
    simp only [interfaces, add_sub_cancel_right, ha (v 0) (by omega) (by omega), ha (v 0 + 1) (by omega) (by omega), ha (v 0 - 1) (by omega) (by omega),
      hq (v 0) (by omega) (by omega), hq (v 0 + 1) (by omega) (by omega), hq (v 0 - 1) (by omega) (by omega), b1, b2, b3]
    congr 2
    cases capa
    · rfl
    · simp only [localRatio, ha (v 0) (by omega) (by omega)]
  numsLocal := by
    intro dt aux aux' q q' _ s v x h
    have ha : ∀ k, v 0 - 1 ≤ k → k ≤ v 0 + 1 → aux' (fun _ => k) = aux (fun _ => k + s 0) := fun k a b =>
      ((h (fun _ => k) (fun a => by rw [Subsingleton.elim a 0]; omega)).1).trans
        (congrArg aux (funext fun a => by rw [Subsingleton.elim a 0]))
    have hq : ∀ k, v 0 - 1 ≤ k → k ≤ v 0 + 1 → q' (fun _ => k) = q (fun _ => k + s 0) := fun k a b =>
      ((h (fun _ => k) (fun a => by rw [Subsingleton.elim a 0]; omega)).2).trans
        (congrArg q (funext fun a => by rw [Subsingleton.elim a 0]))
    exact waveNumber_congr rp dt dx capa _ _ _ _ (s 0) (v 0) x (ha _ (by omega) (by omega)) (ha _ (by omega) (by omega))
      (hq _ (by omega) (by omega)) (hq _ (by omega) (by omega))

/-- C95, the Python kernel without reconstruction (`lim_type = -1`) meets the condition of `C95_run`: there the interface too many lies between two
cells of the grid, or of its ghost cells in the serial run, like any other. -/
theorem C95_python_first_order (eps tol : K) (charDecomp : Int) (rp : Riemann K (Fin naux → K) m w) (g : Nat) (hg : 2 ≤ g) (dx : K)
    (capa : Option ((Fin naux → K) → K)) : LocalKernel (dqArrays m naux g (intPyFlux1 eps tol (-1) charDecomp rp g dx capa)) g naux :=
  dqArrays_local ((pyFirst_wide eps tol charDecomp rp g hg dx capa).localKernel (by omega))

/-- C96, the Python kernel without reconstruction, for whole runs. -/
theorem C96_python_first_order [FloorRing K] (eps tol : K) (charDecomp : Int) (c : SharpGrid (Fin 1) K) (hg : 2 ≤ c.bc.g)
    (capa : Option ((Fin naux → K) → K)) (rp : Riemann K (Fin naux → K) m w) (dx : K)
    (hk : c.kern = dqArrays m naux c.bc.g (intPyFlux1 eps tol (-1) charDecomp rp c.bc.g dx capa)) (hp : SharpPeriodic c naux) (k : Fin 1 → Int)
    (aux aux' : GArr (Fin 1) K) (ha : Translated c.bc.n k aux aux') (cfg : SharpCfg K) (goals : List (SharpGoal K))
    (r r' : SharpRun K (GArr (Fin 1) K)) (h : SameSharp (Translated c.bc.n k) r r') :
    SameSharp (Translated c.bc.n k) (sharpSessionC (serialSharp c aux) cfg goals r).1 (sharpSessionC (serialSharp c aux') cfg goals r').1 ∧
    (sharpSessionC (serialSharp c aux') cfg goals r').2 = (sharpSessionC (serialSharp c aux) cfg goals r).2 :=
  pair_session (translate_linked c (pyFirst_wide eps tol charDecomp rp c.bc.g hg dx capa) (by omega) hk hp k aux aux' ha) cfg goals h

end

/-- Burgers' equation on a ring with the Python kernel and no reconstruction. -/
def ringFirst (n : Nat) : SharpGrid (Fin 1) ℚ :=
  { ringPython n with kern := dqArrays 1 0 3 (intPyFlux1 (1 / 1000000) (1 / 100000000000000) (-1) 0 burgersPy 3 1 none) }

/-- Non-vacuity of `C96_python_first_order`. -/
theorem ringFirst_periodic (n : Nat) (h : 3 ≤ n) : SharpPeriodic (ringFirst n) 0 :=
  have hp := (ringPython_periodic n h).1
  ⟨hp.grid, hp.axes, hp.numAux, hp.source, hp.before, hp.stage⟩

/-- The increments and the Courant number of `ringFirst 3` for 0, 1, 4: not zero. -/
example : (List.range 3).map (fun i => (dqSerial (ringFirst 3) (fun _ _ => 0) (1 / 2) 0 (fun _ x => (x 0 : ℚ) ^ 2)).1 0 fun _ => i) = [4, -1 / 4, -15 / 4] ∧
    (dqSerial (ringFirst 3) (fun _ _ => 0) (1 / 2) 0 (fun _ x => (x 0 : ℚ) ^ 2)).2 = 5 / 4 := by decide +kernel

/-! ### The classic solver on the same grid -/

section
variable {K : Type*} [Field K] [LinearOrder K] [IsStrictOrderedRing K] {m w naux : Nat}

/-- C80 on a grid. SharpClaw with the Python kernel, `lim_type = -1` and no source term, and the classic Python solver of order 1 with the same
boundary conditions: `dq` returns the Courant number of the classic step, and added to the cells gives the values of the classic step. -/
theorem C80_grid (eps tol : K) (tab : Int → Option (LimFun K)) (rp : Riemann K (Fin naux → K) m w) (hrp : Quiet rp) (c : SharpGrid (Fin 1) K)
    (charDecomp : Int) (capa : Option ((Fin naux → K) → K)) (c1 : Cfg1 K w) (ho : c1.order = 1) (hg : c1.g = c.bc.g)
    (hk : c.kern = dqArrays m naux c.bc.g (intPyFlux1 eps tol (-1) charDecomp rp c.bc.g c1.dx capa)) (hsrc : c.source = none)
    (hbc : Admissible c.bc) (hnd : c.axes.Nodup) (hall : ∀ a, a ∈ c.axes) (aux q : GArr (Fin 1) K) (dt t : K) :
    ∃ d cfl, hypSerial { c.par with kern := onArrays m naux c.bc.g (intPyStep1 tab rp c1 capa) } dt (gridData q aux) = (d, .ok cfl) ∧
      (dqSerial c aux dt t q).2 = cfl ∧
      ∀ k < m, ∀ x : Fin 1 → Nat, x 0 < c.bc.n 0 → q k x + (dqSerial c aux dt t q).1 k x = d.q k x := by
  obtain ⟨wA, hw, hin⟩ := C13_interior_untouched c.bc hbc c.axes hnd hall q aux ⟨fun _ _ => 0, fun _ _ => 0⟩
  obtain ⟨dq, cfl, h1, h2, h3⟩ := C80_first_order eps tol tab rp hrp { c1 with n := c.bc.n 0, dt := dt } ho charDecomp capa
    (fun i => fieldOf naux c.bc.g wA.aux fun _ => i + (1 - (c1.g : Int))) (fun i => fieldOf m c.bc.g wA.q fun _ => i + (1 - (c1.g : Int)))
  dsimp only at h1 h2 h3
  have hs : intPyFlux1 eps tol (-1) charDecomp rp c.bc.g c1.dx capa dt c.bc.n (fieldOf naux c.bc.g wA.aux) (fieldOf m c.bc.g wA.q) =
      some (fun v => dq (v 0 + c.bc.g - 1), cfl) := by
    unfold intPyFlux1
    rw [← hg, hg, hg] at *
    rw [h1]
  have hd : dqSerial c aux dt t q = (fun k idx => if k < m then putBack m c.bc.g wA.q (fun v => dq (v 0 + c.bc.g - 1)) k (fun a => idx a + c.bc.g)
      else 0, cfl) := by
    have hw1 : applyBcs c.par.bc c.par.axes (gridData q aux).q (gridData q aux).aux (gridData q aux).work = (wA, .ok ()) := hw
    have hk1 : c.par.kern dt c.par.bc.n wA = dqArrays m naux c.bc.g (intPyFlux1 eps tol (-1) charDecomp rp c.bc.g c1.dx capa) dt c.bc.n wA := by
      show c.kern dt c.bc.n wA = _
      rw [hk]
    unfold dqSerial hypSerial
    rw [hw1]
    dsimp only
    rw [hk1]
    unfold dqArrays onArrays
    rw [hs]
    dsimp only [Option.map]
    unfold withSource
    rw [hsrc]
    rfl
  refine ⟨_, _, by
    unfold hypSerial
    rw [show applyBcs c.par.bc c.par.axes (gridData q aux).q (gridData q aux).aux (gridData q aux).work = (wA, .ok ()) from hw]
    rfl, ?_, ?_⟩
  · rw [hd]
    exact h2
  · intro k hkm x hx
    rw [hd]
    dsimp only
    rw [if_pos hkm]
    unfold putBack
    rw [dif_pos hkm, dif_pos hkm]
    have e := congrFun (h3 ((x 0 : Int) + c1.g) (by omega) (by omega)) ⟨k, hkm⟩
    have e2 : q k x = fieldOf m c.bc.g wA.q (fun _ => (x 0 : Int) + c1.g + (1 - (c1.g : Int))) ⟨k, hkm⟩ := by
      unfold fieldOf
      rw [(hin k _ (fun a => by rw [Subsingleton.elim a 0]; dsimp only; omega)).1]
      congr 1
      funext a
      rw [Subsingleton.elim a 0]
      dsimp only
      omega
    rw [e2]
    have b : (((x 0 + c.bc.g : Nat) : Int) + 1 - c.bc.g + c.bc.g - 1) = (x 0 : Int) + c1.g := by rw [hg]; push_cast; ring
    have b' : (((x 0 + c.par.bc.g : Nat) : Int) + 1 - c.bc.g + c1.g - 1) = (x 0 : Int) + c1.g := by
      show (((x 0 + c.bc.g : Nat) : Int) + 1 - c.bc.g + c1.g - 1) = _
      push_cast; ring
    simp only [b, b']
    exact e

end

/-- Non-vacuity of `C80_grid`: Burgers' equation on a ring; its increments are above. -/
example (n : Nat) (h : 3 ≤ n) (q : GArr (Fin 1) ℚ) (dt t : ℚ) :=
  C80_grid (1 / 1000000) (1 / 100000000000000) (fun _ => none) burgersPy (ringPython_periodic n h).2 (ringFirst n) 0 none
    ⟨0, 3, 0, 1, 1, false, fun _ => 0⟩ rfl rfl rfl rfl
    ⟨fun _ => ⟨by show 0 < n; omega, h⟩, fun _ => Or.inr (Or.inl rfl), fun _ => Or.inr (Or.inl rfl), fun h => absurd h (show ¬ 0 < 0 by decide),
      fun h => absurd h (show ¬ 0 < 0 by decide), fun _ h => by rcases h with h | h <;> cases h⟩ (List.nodup_finRange 1) (fun a => List.mem_finRange a)
    (fun _ _ => 0) q dt t

end PyClaw
