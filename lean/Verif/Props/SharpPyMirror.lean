import Verif.Props.SharpMirror
import Verif.Props.SharpPython

set_option linter.unusedSectionVars false

/-!
The Python kernel of SharpClaw in a mirror (C108).
-/
namespace PyClaw
open Spec

section
variable {K A : Type*} [Field K] [LinearOrder K] [IsStrictOrderedRing K] {m w : Nat}

theorem pyWaveTerm_mirror {σ : Fin m → K} (hσ : IsSign σ) (π : Equiv.Perm (Fin w)) (eps tol : K) (wave wave' : Waves K m w) (M : Int)
    (hw : ∀ j p, wave' j (π p) = -signed σ (wave (M - j) p)) (im i : Int) (p : Fin w) :
    pyWaveTerm eps tol wave' im i (π p) = signed σ (pyWaveTerm eps tol wave (-im) (M - i) p) := by
  have hp : ∀ j, waveProj wave' i j (π p) = waveProj wave (M - i) (M - j) p := by
    intro j
    unfold waveProj
    rw [hw, hw, wdot_neg_neg]
    exact relabel_dot hσ 1 _ _
  unfold pyWaveTerm pyWaveZ
  simp only [hp]
  rw [show M - (i - 2 * im) = M - i - 2 * -im by ring, show M - (i - im) = M - i - -im by ring,
    show M - (i + im) = M - i + -im by ring]
  funext k
  rw [hw, Int.cast_neg, shuCore_neg]
  simp only [Pi.neg_apply, signed]
  split_ifs <;> ring

/-- The reconstruction of a row and of its mirror image. -/
theorem pyRecon_mirror (eps tol : K) {limType charDecomp : Int} (hl : limType = -1 ∨ limType = 2 ∧ (charDecomp = 0 ∨ charDecomp = 1))
    {σ : Fin m → K} (hσ : IsSign σ) {RA : A → A} {π : Equiv.Perm (Fin w)} {rp rp' : Riemann K A m w}
    {fw : Bool} (hfw : charDecomp = 1 → fw = false) (hM : MirrorImage σ RA π fw rp rp') (N : Int) (aux : Int → A) (q : Int → Fin m → K) {e e' : Edges K m}
    (he : pyRecon eps tol limType charDecomp N (fun i => rp (q i) (q (i + 1)) (aux i) (aux (i + 1))) q = .ok e)
    (he' : pyRecon eps tol limType charDecomp N
      (fun i => rp' (signed σ (q (N - 1 - i))) (signed σ (q (N - 1 - (i + 1)))) (RA (aux (N - 1 - i))) (RA (aux (N - 1 - (i + 1)))))
      (fun i => signed σ (q (N - 1 - i))) = .ok e') (i : Int) :
    e'.qr i = signed σ (e.ql (N - 1 - i)) ∧ e'.ql i = signed σ (e.qr (N - 1 - i)) := by
  have shu : ∀ (im j : Int) (k : Fin m), shuValue eps (fun i => signed σ (q (N - 1 - i)) k) im j =
      σ k * shuValue eps (fun i => q i k) (-im) (N - 1 + 1 - j) := by
    intro im j k
    rw [← shuValue_mirror eps (fun i => q i k) (fun i => q (N - 1 - i) k) (N - 1) (fun _ => rfl) im j]
    exact shuValue_sign eps (σ k) (hσ k) (fun i => q (N - 1 - i) k) _ (fun _ => rfl) im j
  rcases hl with rfl | ⟨rfl, rfl | rfl⟩
  · cases he; cases he'
    exact ⟨rfl, rfl⟩
  · cases he; cases he'
    refine ⟨?_, ?_⟩ <;> funext k <;> simp only [pyWeno, pyWenoQl, pyWenoQr, signed]
    · by_cases h : 2 ≤ i ∧ i < N - 3
      · rw [if_pos h, if_pos (by omega)]
        have := shu 1 (i + 1) k
        rw [show N - 1 + 1 - (i + 1) = N - 1 - i by ring] at this
        exact this
      · rw [if_neg h, if_neg (by omega)]
    · by_cases h : 3 ≤ i ∧ i < N - 2
      · rw [if_pos h, if_pos (by omega)]
        have := shu (-1) i k
        rw [neg_neg, show N - 1 + 1 - i = N - 1 - i + 1 by ring] at this
        exact this
      · rw [if_neg h, if_neg (by omega)]
  · cases he; cases he'
    obtain rfl := hfw rfl
    have hw : ∀ j p, (rp' (signed σ (q (N - 1 - j))) (signed σ (q (N - 1 - (j + 1)))) (RA (aux (N - 1 - j))) (RA (aux (N - 1 - (j + 1))))).wave (π p) =
        -signed σ ((rp (q (N - 2 - j)) (q (N - 2 - j + 1)) (aux (N - 2 - j)) (aux (N - 2 - j + 1))).wave p) := by
      intro j p
      rw [show N - 1 - (j + 1) = N - 2 - j by ring, show N - 1 - j = N - 2 - j + 1 by ring]
      have := (hM (q (N - 2 - j)) (q (N - 2 - j + 1)) (aux (N - 2 - j)) (aux (N - 2 - j + 1))).2.1 p
      simpa using this
    have key := pyWaveTerm_mirror hσ π eps tol (fun i => (rp (q i) (q (i + 1)) (aux i) (aux (i + 1))).wave) _ (N - 2) hw
    refine ⟨?_, ?_⟩ <;> simp only [pyWenoWave]
    · by_cases h : 2 ≤ i ∧ i < N - 3
      · rw [if_pos h, if_pos (by omega)]
        refine foldl_turn σ 1 π _ _ (fun p => ?_) _ _ rfl
        rw [key 1 i p, show N - 1 - i - 1 = N - 2 - i by ring]
        rfl
      · rw [if_neg h, if_neg (by omega)]
    · by_cases h : 3 ≤ i ∧ i < N - 2
      · rw [if_pos h, if_pos (by omega)]
        refine foldl_turn σ 1 π _ _ (fun p => ?_) _ _ rfl
        rw [key (-1) (i - 1) p, neg_neg, show N - 2 - (i - 1) = N - 1 - i by ring]
        rfl
      · rw [if_neg h, if_neg (by omega)]

end

variable {K : Type*} [Field K] [LinearOrder K] [IsStrictOrderedRing K] {m w naux : Nat}

theorem pyNew_mirror (eps tol : K) {limType charDecomp : Int} (hl : limType = -1 ∨ limType = 2 ∧ (charDecomp = 0 ∨ charDecomp = 1))
    {σ : Fin m → K} (hσ : IsSign σ) {RA : (Fin naux → K) → Fin naux → K} {π : Equiv.Perm (Fin w)} {rp rp' : Riemann K (Fin naux → K) m w}
    {fw : Bool} (hfw : charDecomp = 1 → fw = false) (hM : MirrorImage σ RA π fw rp rp') (g : Nat) (dx : K) {capa : Option ((Fin naux → K) → K)} (hc : ∀ κ, capa = some κ → ∀ z, κ (RA z) = κ z)
    (n : Nat) (dt : K) (A : (Fin 1 → Int) → Fin naux → K) (Q : (Fin 1 → Int) → Fin m → K) (v : Fin 1 → Int) :
    pyNew eps tol limType charDecomp rp' g dx capa dt (fun v => RA (A (Function.update v 0 ((n : Int) + 1 - v 0))))
        (fun v => signed σ (Q (Function.update v 0 ((n : Int) + 1 - v 0)))) v =
      signed σ (pyNew eps tol limType charDecomp rp g dx capa dt A Q (Function.update v 0 ((n : Int) + 1 - v 0))) := by
  have up : ∀ (u : Fin 1 → Int) x, Function.update u 0 x = fun _ => x := fun u x => by
    funext b; rw [Subsingleton.elim b 0, Function.update_self]
  simp only [up]
  let a : Int → Fin naux → K := fun i => A fun _ => i + ((n : Int) + 1 - v 0 - g)
  let q : Int → Fin m → K := fun i => Q fun _ => i + ((n : Int) + 1 - v 0 - g)
  have N : (1 : Nat) + 2 * (g : Int) - 1 = 2 * g := by push_cast; ring
  have ea : (fun i : Int => RA (A fun _ => (n : Int) + 1 - (i + (v 0 - g)))) = fun i => RA (a (2 * g - i)) := by
    funext i
    show _ = RA (A fun _ => 2 * (g : Int) - i + (n + 1 - v 0 - g))
    congr 2
    funext _
    ring
  have eq : (fun i : Int => signed σ (Q fun _ => (n : Int) + 1 - (i + (v 0 - g)))) = fun i => signed σ (q (2 * g - i)) := by
    funext i
    show _ = signed σ (Q fun _ => 2 * (g : Int) - i + (n + 1 - v 0 - g))
    congr 2
    funext _
    ring
  unfold pyNew
  rw [ea, eq]
  show (match pyDqHyperbolic eps tol rp' ⟨1, g, dt, dx⟩ limType charDecomp capa (fun i => RA (a (2 * g - i))) (fun i => signed σ (q (2 * g - i))) with
    | .ok r => r.1 g
    | .error _ => 0) = signed σ (match pyDqHyperbolic eps tol rp ⟨1, g, dt, dx⟩ limType charDecomp capa a q with
    | .ok r => r.1 g
    | .error _ => 0)
  have hok : ∀ (rp : Riemann K (Fin naux → K) m w) (a : Int → Fin naux → K) (q : Int → Fin m → K), ∃ e,
      pyRecon eps tol limType charDecomp ((1 : Nat) + 2 * (g : Int)) (fun i => rp (q i) (q (i + 1)) (a i) (a (i + 1))) q = .ok e := by
    intro rp a q
    unfold pyRecon
    rcases hl with rfl | ⟨rfl, rfl | rfl⟩ <;> norm_num
  obtain ⟨e, he⟩ := hok rp a q
  obtain ⟨e', he'⟩ := hok rp' (fun i => RA (a (2 * g - i))) (fun i => signed σ (q (2 * g - i)))
  have R := pyRecon_mirror eps tol hl hσ hfw hM ((1 : Nat) + 2 * (g : Int)) a q he (by rw [N]; exact he')
  rw [N] at R
  unfold pyDqHyperbolic
  dsimp only at he he' ⊢
  rw [he, he']
  dsimp only [pyFlux1]
  rw [if_pos (by omega), if_pos (by omega)]
  have b0 : 2 * (g : Int) - g = g := by ring
  have b1 : 2 * (g : Int) - (g + 1) = g - 1 := by ring
  have b2 : 2 * (g : Int) - (g - 1) = g + 1 := by ring
  have b3 : (g : Int) - 1 + 1 = g := by ring
  simp only [(R _).1, (R _).2, b0, b1, b2, b3]
  have h1 := hM (e.qr (g - 1)) (e.ql g) (a (g - 1)) (a g)
  have h2 := hM (e.qr g) (e.ql (g + 1)) (a g) (a (g + 1))
  have h3 := hM (e.ql g) (e.qr g) (a g) (a g)
  rw [h1.2.2.1, h2.2.2.2, h3.2.2.1, h3.2.2.2]
  funext k
  cases capa with
  | none => simp only [signed, Pi.smul_apply, Pi.add_apply, smul_eq_mul]; ring
  | some κ => dsimp only; rw [hc κ rfl]; simp only [signed, Pi.smul_apply, Pi.add_apply, smul_eq_mul]; ring

/-- C108, the Python kernel with the first-order, the WENO5 and the wave-based WENO5 reconstruction, at least three ghost cells: on a grid whose
boundary conditions, data, Riemann solver and `dq_src` are the mirror image of those of another, what one call of `dq` adds to the cells is the
mirror image. Missing: the Courant number, for which it is false (`C108_python_violated`), and so the steps. -/
theorem C108_python_partial (eps tol : K) {limType charDecomp : Int} (hl : limType = -1 ∨ limType = 2 ∧ (charDecomp = 0 ∨ charDecomp = 1))
    (c c' : SharpGrid (Fin 1) K) (hg : 3 ≤ c.bc.g) (capa : Option ((Fin naux → K) → K)) (σ : Fin m → K) (hσ : IsSign σ)
    (RA : (Fin naux → K) → Fin naux → K) (hc : ∀ κ, capa = some κ → ∀ z, κ (RA z) = κ z) (π : Equiv.Perm (Fin w))
    (fw : Bool) (hfw : charDecomp = 1 → fw = false) (rp rp' : Riemann K (Fin naux → K) m w) (hM : MirrorImage σ RA π fw rp rp') (dx : K)
    (hk : c.kern = dqArrays m naux c.bc.g (intPyFlux1 eps tol limType charDecomp rp c.bc.g dx capa))
    (hk' : c'.kern = dqArrays m naux c'.bc.g (intPyFlux1 eps tol limType charDecomp rp' c'.bc.g dx capa))
    (hp : SharpProblem c naux) (hax : c'.axes = c.axes) (hbc : c'.bc = mirrorBC 0 c.bc)
    (hact : SameActions m naux (mirrorCell c.bc.n 0) (signed σ) RA c c') (aux aux' q q' : GArr (Fin 1) K)
    (haux : ∀ x : Fin 1 → Nat, (∀ i, x i < c.bc.n i) → auxAt naux aux' x = RA (auxAt naux aux (mirrorCell c.bc.n 0 x)))
    (hq : ImageOf m c.bc.n (mirrorCell c.bc.n 0) (signed σ) q q') (dt t : K) :
    ImageOf m c.bc.n (mirrorCell c.bc.n 0) (signed σ) (dqSerial c aux dt t q).1 (dqSerial c' aux' dt t q').1 := by
  have hn : c'.bc.n = c.bc.n := by rw [hbc]; rfl
  have hgg : c'.bc.g = c.bc.g := by rw [hbc]; rfl
  have hpos : ∀ a, 0 < c.bc.n a := fun a => (hp.admissible.cells a).1
  have hp' : SharpProblem c' naux := by
    refine ⟨by rw [hbc]; exact mirrorBC_admissible c.bc hp.admissible 0, by rw [hbc]; exact hp.serial, by rw [hax]; exact hp.axes, ?_⟩
    rw [hbc]
    exact hp.numAux
  have key := image_linked (σ := σ) (τ := 1) (RA := RA) (c.values m naux (intPyFlux1 eps tol limType charDecomp rp c.bc.g dx capa))
    (c'.values m naux (intPyFlux1 eps tol limType charDecomp rp' c'.bc.g dx capa)) rfl rfl ⟨hp.admissible, hp.serial, hp.axes, hp.numAux⟩
    ⟨hp'.admissible, hp'.serial, hp'.axes, hp'.numAux⟩ (mirrorCell c.bc.n 0)
    (fun v => Function.update v 0 ((c.bc.n 0 : Int) + 1 - v 0)) ?_ ?_ ?_ ⟨hact.source, hact.before, hact.stage⟩ aux aux'
    (by show ∀ x : Fin 1 → Nat, (∀ i, x i < c'.bc.n i) → _; rw [hn]; exact haux)
  · have h := (key.dq dt t q q' (by show ImageOf m c'.bc.n _ _ q q'; rw [hn]; exact hq)).1
    change ImageOf m c'.bc.n (mirrorCell c.bc.n 0) (signed σ) (dqSerial (c.values m naux _) aux dt t q).1
      (dqSerial (c'.values m naux _) aux' dt t q').1 at h
    rwa [values_serial c _ hk, values_serial c' _ hk', hn] at h
  · intro x hx
    change ∀ a, x a < c'.bc.n a at hx
    rw [hn] at hx
    funext b
    obtain rfl := Subsingleton.elim b 0
    have := hx 0
    simp only [mirrorCell, Function.update_self]
    omega
  · intro A A' Q Q' q q' aux aux' f f' hq haux v hv
    change FilledBy c.bc c.axes m naux A Q q aux at f
    change FilledBy c'.bc c'.axes m naux A' Q' q' aux' at f'
    change ∀ x : Fin 1 → Nat, (∀ i, x i < c'.bc.n i) → _ at hq
    change ∀ x : Fin 1 → Nat, (∀ i, x i < c'.bc.n i) → _ at haux
    change ∀ a, 1 - (c'.bc.g : Int) ≤ v a ∧ v a ≤ c'.bc.n a + c'.bc.g at hv
    rw [hax, hbc] at f'
    rw [hn] at hq haux
    rw [hn, hgg] at hv
    have := mirror_fill c.bc hp.admissible 0 c.axes hp.numAux σ RA f f' hq haux (Function.update v 0 ((c.bc.n 0 : Int) + 1 - v 0)) (by
      intro b
      obtain rfl := Subsingleton.elim b 0
      have := hv 0
      rw [Function.update_self]
      omega)
    rw [Function.update_idem, Function.update_self, show (c.bc.n 0 : Int) + 1 - (c.bc.n 0 + 1 - v 0) = v 0 by ring,
      Function.update_eq_self] at this
    exact this
  · intro dt A A' Q Q' h
    change ∀ v : Fin 1 → Int, (∀ a, 1 - (c'.bc.g : Int) ≤ v a ∧ v a ≤ c'.bc.n a + c'.bc.g) → _ at h
    show (valuesOf _ dt c.bc.n A Q = none ∧ valuesOf _ dt c'.bc.n A' Q' = none) ∨ ∃ r r' cfl, valuesOf _ dt c.bc.n A Q = some (r, cfl) ∧
      valuesOf _ dt c'.bc.n A' Q' = some (r', cfl) ∧ ∀ v : Fin 1 → Int, (∀ a, 1 ≤ v a ∧ v a ≤ c'.bc.n a) → _
    rw [hn, hgg] at h
    rw [hn, hgg]
    refine wide_image (P := True) (P' := True) (pyFlux1_wide eps tol hl rp c.bc.g hg dx capa) (pyFlux1_wide eps tol hl rp' c.bc.g hg dx capa) Iff.rfl c.bc.n c.bc.n hpos hpos _ ?_ _ _
      ?_ ?_ dt A A' Q Q' h
    · intro v hv b
      obtain rfl := Subsingleton.elim b 0
      have := hv 0
      simp only [Function.update_self]
      omega
    · intro dt A Q v
      exact pyNew_mirror eps tol hl hσ hfw hM c.bc.g dx hc (c.bc.n 0) dt A Q v
    · intro dt A Q x
      exact ⟨fun ⟨t, _⟩ => t.elim, fun ⟨t, _⟩ => t.elim⟩

/-- Non-vacuity of `C108_python_partial`: acoustics with the wave-based reconstruction, the wall on the left or on the right. -/
example (q : GArr (Fin 1) ℚ) (dt t : ℚ) :=
  C108_python_partial (1 / 1000000) (1 / 100000000000000) (Or.inr ⟨rfl, Or.inr rfl⟩)
    (exImage 1 2 (fun _ => 4) (fun _ => .wall) (fun _ => .extrap)
      (intPyFlux1 (1 / 1000000) (1 / 100000000000000) 2 1 (ignoreAux 0 acousticsRp) 3 (1 / 4) none))
    (exImage 1 2 (fun _ => 4) (fun _ => .extrap) (fun _ => .wall)
      (intPyFlux1 (1 / 1000000) (1 / 100000000000000) 2 1 (ignoreAux 0 acousticsRp) 3 (1 / 4) none))
    (le_refl 3) none ![1, -1] (fun k => by fin_cases k <;> simp) id (fun _ h => by cases h) (Equiv.swap 0 1) false (fun _ => rfl) (ignoreAux 0 acousticsRp)
    (ignoreAux 0 acousticsRp) (acoustics_image 0) (1 / 4) rfl rfl
    (exSharp_problem 1 2 _ (fun _ => by norm_num) _ _ (fun _ => by simp [BuiltInBC]) (fun _ => by simp [BuiltInBC]) (by norm_num) _) rfl
    (by
      simp only [exImage, mirrorBC, BCConfig.mk.injEq, and_true, true_and]
      refine ⟨?_, ?_, ?_, ?_⟩ <;> funext a <;> fin_cases a <;> rfl)
    (exSharp_actions 1 2 _ _ _ _ _ _ _ _ _ _ fun x u => relabel_smul ![1, -1] 1 x u) (fun _ _ => 0) (fun _ _ => 0) q
    (fun k x => (if k = 1 then -1 else 1) * q k (mirrorCell (fun _ => 4) 0 x))
    (fun _ _ => funext fun k => k.elim0) (fun x _ => funext fun k => by fin_cases k <;> simp [signed, exImage]) dt t

/-- Burgers' equation is its own mirror image if the values change their sign. -/
theorem burgersPy_image : MirrorImage (fun _ => -1) id (Equiv.refl _) false burgersPy burgersPy := by
  intro ql qr al ar
  have e : (-qr 0 + -ql 0) / 2 = -((ql 0 + qr 0) / 2) := by ring
  refine ⟨fun p => ?_, fun p => ?_, ?_, ?_⟩
  · simp only [burgersPy, signed, neg_mul, one_mul, e]
  · funext k
    simp only [burgersPy, signed, Pi.neg_apply, Pi.sub_apply, if_neg Bool.false_ne_true]
    ring
  all_goals
    funext k
    obtain rfl := Subsingleton.elim k 0
    simp only [burgersPy, signed, neg_mul, one_mul, e]
    rcases le_total ((ql 0 + qr 0) / 2) 0 with h | h
    · simp only [min_eq_left h, max_eq_right h, min_eq_right (neg_nonneg.mpr h), max_eq_left (neg_nonneg.mpr h)]; ring
    · simp only [min_eq_right h, max_eq_left h, min_eq_left (neg_nonpos.mpr h), max_eq_right (neg_nonpos.mpr h)]; ring

/-- C108 fails for the Courant number of the Python kernel: Burgers' equation on a ring of three cells, which is its own mirror image. With the
values 0, 1, 4 the Courant number is 5/4, with the mirror image -4, -1, 0 it is smaller than 6/5. -/
theorem C108_python_violated :
    MirrorImage (fun _ => -1) id (Equiv.refl _) false burgersPy burgersPy ∧ (ringPython 3).bc = mirrorBC 0 (ringPython 3).bc ∧
    ∃ q q' : GArr (Fin 1) ℚ, ImageOf 1 (fun _ => 3) (mirrorCell (fun _ => 3) 0) (signed fun _ => -1) q q' ∧
      (dqSerial (ringPython 3) (fun _ _ => 0) (1 / 2) 0 q).2 = 5 / 4 ∧ (dqSerial (ringPython 3) (fun _ _ => 0) (1 / 2) 0 q').2 < 6 / 5 := by
  refine ⟨burgersPy_image, ?_, fun _ x => (x 0 : ℚ) ^ 2, fun _ x => -((2 - x 0 : Nat) : ℚ) ^ 2, ?_, ?_⟩
  · simp only [ringPython, ringBC, mirrorBC, BCConfig.mk.injEq, and_true, true_and]
    refine ⟨?_, ?_, ?_, ?_⟩ <;> funext a <;> fin_cases a <;> rfl
  · intro x hx
    funext k
    simp only [signed, mirrorCell, Function.update_self, neg_mul, one_mul]
  · decide +kernel

end PyClaw
