import Verif.Lemmas.Mirror
import Verif.Props.RunExact
import Verif.Props.SecondOrder
import Mathlib.Tactic.IntervalCases
import Mathlib.Data.Rat.Floor

/-!
C91: left and right are alike. A run on the mirrored problem (data, Riemann solver, boundary conditions and limiters in the mirror)
gives the mirrored results.
-/
set_option linter.unusedSectionVars false

namespace PyClaw
open Spec

variable {K : Type*} [Field K] [LinearOrder K] [IsStrictOrderedRing K] {m w naux : Nat}

section
variable {σ : Fin m → K} {RA : (Fin naux → K) → Fin naux → K} {π : Equiv.Perm (Fin w)} {fw : Bool}
  {rp rp' : Riemann K (Fin naux → K) m w}

/-- Interfaces outside `1, …, n + 1` add nothing to the Courant number. -/
def ExtraCovered (bc : BCConfig (Fin 1) K) (axes : List (Fin 1)) (rp : Riemann K (Fin naux → K) m w) (dx : K)
    (capa : Option ((Fin naux → K) → K)) (lo : Int) : Prop :=
  ∀ (dt : K) A Q q aux x, FilledBy bc axes m naux A Q q aux → ∀ i, lo ≤ i → i < 1 →
    WaveNumber (localRatio dt dx capa fun i => A fun _ => i) (interfaces rp (fun i => A fun _ => i) (fun i => Q fun _ => i)) i x →
    ∃ i : Int, 1 ≤ i ∧ i ≤ bc.n 0 + 1 ∧
      WaveNumber (localRatio dt dx capa fun i => A fun _ => i) (interfaces rp (fun i => A fun _ => i) (fun i => Q fun _ => i)) i x

theorem mirror_step1 {step step' : IntKern (Fin 1) K m naux} {g : Nat} {a : K → K} {o : Prop} [Decidable o]
    {phi phi' : Fin w → K → K → K} {dx : K} {capa : Option ((Fin naux → K) → K)} {lo : Int} {ok : (Fin naux → K) → Prop}
    (hL : LineKernel step g a o phi rp dx capa lo ok) (hL' : LineKernel step' g a o phi' rp' dx capa lo ok)
    (hlo : lo ≤ 1) (hok : ∀ z, ok (RA z) ↔ ok z)
    (hσ : IsSign σ) (hM : MirrorImage σ RA π fw rp rp') (hphi : ∀ p, phi' (π p) = phi p)
    (hc : ∀ κ, capa = some κ → ∀ z, κ (RA z) = κ z) (haf : o → ∀ ql qr al ar p, MirrorFactor a fw ((rp ql qr al ar).s p))
    (bc : BCConfig (Fin 1) K) (ha : Admissible bc) (hx : bc.numAux = naux) (hg2 : 2 ≤ bc.g) (hg : g = bc.g) (axes : List (Fin 1))
    (hE : ExtraCovered bc axes rp dx capa lo) (hE' : ExtraCovered (mirrorBC 0 bc) axes rp' dx capa lo)
    (dt : K) {A A' : (Fin 1 → Int) → Fin naux → K} {Q Q' : (Fin 1 → Int) → Fin m → K} {q q' aux aux' : GArr (Fin 1) K}
    (f : FilledBy bc axes m naux A Q q aux) (f' : FilledBy (mirrorBC 0 bc) axes m naux A' Q' q' aux')
    (hq : ∀ x : Fin 1 → Nat, (∀ i, x i < bc.n i) → (fun k : Fin m => q' k.val x) = signed σ fun k => q k.val (mirrorCell bc.n 0 x))
    (haux : ∀ x : Fin 1 → Nat, (∀ i, x i < bc.n i) → auxAt naux aux' x = RA (auxAt naux aux (mirrorCell bc.n 0 x))) :
    (step dt bc.n A Q = none ∧ step' dt bc.n A' Q' = none) ∨
      ∃ r r' cfl, step dt bc.n A Q = some (r, cfl) ∧ step' dt bc.n A' Q' = some (r', cfl) ∧
        ∀ x : Fin 1 → Nat, (∀ i, x i < bc.n i) →
          r' (fun i => (x i : Int) + 1) = signed σ (r fun i => (mirrorCell bc.n 0 x i : Int) + 1) := by
  subst hg
  have key : ∀ i : Int, 1 - (bc.g : Int) ≤ i → i ≤ bc.n 0 + bc.g →
      Q' (fun _ => i) = signed σ (Q fun _ => (bc.n 0 : Int) + 1 - i) ∧ A' (fun _ => i) = RA (A fun _ => (bc.n 0 : Int) + 1 - i) := by
    intro i i1 i2
    have h := mirror_fill bc ha 0 axes hx σ RA f f' hq haux (fun _ => (bc.n 0 : Int) + 1 - i) (fun b => by
      have : b = 0 := Subsingleton.elim _ _
      subst this; omega)
    have e : Function.update (fun _ : Fin 1 => (bc.n 0 : Int) + 1 - i) 0 ((bc.n 0 : Int) + 1 - ((bc.n 0 : Int) + 1 - i)) = fun _ => i := by
      funext b
      have : b = 0 := Subsingleton.elim _ _
      subst this
      rw [Function.update_self]
      ring
    rw [e] at h
    exact h
  have okk : (∀ i : Int, 1 - (bc.g : Int) ≤ i → i ≤ bc.n 0 + bc.g → ok (A' fun _ => i)) ↔
      ∀ i : Int, 1 - (bc.g : Int) ≤ i → i ≤ bc.n 0 + bc.g → ok (A fun _ => i) := by
    constructor
    · intro h i i1 i2
      have := h (bc.n 0 + 1 - i) (by omega) (by omega)
      rw [(key _ (by omega) (by omega)).2, hok] at this
      rwa [show (bc.n 0 : Int) + 1 - (bc.n 0 + 1 - i) = i by ring] at this
    · intro h i i1 i2
      rw [(key i i1 i2).2, hok]
      exact h _ (by omega) (by omega)
  by_cases hk : ∀ i : Int, 1 - (bc.g : Int) ≤ i → i ≤ bc.n 0 + bc.g → ok (A fun _ => i)
  · right
    obtain ⟨r, cfl, h1, h2, h3⟩ := hL.runs dt bc.n A Q hk
    obtain ⟨r', cfl', h1', h2', h3'⟩ := hL'.runs dt bc.n A' Q' (okk.mpr hk)
    have hnum : ∀ (j : Int) (x : K), 1 ≤ j → j ≤ bc.n 0 + 1 →
        (WaveNumber (localRatio dt dx capa fun i => A' fun _ => i) (interfaces rp' (fun i => A' fun _ => i) (fun i => Q' fun _ => i)) j x ↔
        WaveNumber (localRatio dt dx capa fun i => A fun _ => i) (interfaces rp (fun i => A fun _ => i) (fun i => Q fun _ => i))
          (bc.n 0 + 1 + 1 - j) x) := by
      intro j x j1 j2
      have e := waveNumber_congr rp' dt dx capa (fun j => RA (A fun _ => (bc.n 0 : Int) + 1 - j)) (fun j => A' fun _ => j)
        (fun j => signed σ (Q fun _ => (bc.n 0 : Int) + 1 - j)) (fun j => Q' fun _ => j) 0 j x
        (by rw [add_zero]; exact (key j (by omega) (by omega)).2) (by rw [add_zero]; exact (key (j - 1) (by omega) (by omega)).2)
        (by rw [add_zero]; exact (key j (by omega) (by omega)).1) (by rw [add_zero]; exact (key (j - 1) (by omega) (by omega)).1)
      rw [add_zero] at e
      refine e.trans ?_
      exact mirror_number hM dt dx capa hc ((bc.n 0 : Int) + 1) (fun i => A fun _ => i) (fun i => Q fun _ => i) j x
    have hcfl : cfl' = cfl := by
      refine isMax_unique h3' (isMax_congr (fun x => ?_) h3)
      constructor
      · rintro ⟨i, i1, i2, h⟩
        have : ∃ i : Int, 1 ≤ i ∧ i ≤ bc.n 0 + 1 ∧ WaveNumber (localRatio dt dx capa fun i => A fun _ => i)
            (interfaces rp (fun i => A fun _ => i) (fun i => Q fun _ => i)) i x := by
          by_cases hi : 1 ≤ i
          · exact ⟨i, hi, i2, h⟩
          · exact hE dt A Q q aux x f i i1 (by omega) h
        obtain ⟨i, i1, i2, h⟩ := this
        refine ⟨bc.n 0 + 1 + 1 - i, by omega, by omega, (hnum _ _ (by omega) (by omega)).mpr ?_⟩
        rwa [show (bc.n 0 : Int) + 1 + 1 - (bc.n 0 + 1 + 1 - i) = i by ring]
      · rintro ⟨i, i1, i2, h⟩
        have : ∃ i : Int, 1 ≤ i ∧ i ≤ bc.n 0 + 1 ∧ WaveNumber (localRatio dt dx capa fun i => A' fun _ => i)
            (interfaces rp' (fun i => A' fun _ => i) (fun i => Q' fun _ => i)) i x := by
          by_cases hi : 1 ≤ i
          · exact ⟨i, hi, i2, h⟩
          · exact hE' dt A' Q' q' aux' x f' i i1 (by omega) h
        obtain ⟨i, i1, i2, h⟩ := this
        exact ⟨bc.n 0 + 1 + 1 - i, by omega, by omega, (hnum _ _ i1 i2).mp h⟩
    refine ⟨r, r', cfl, h1, hcfl ▸ h1', fun x hx => ?_⟩
    have hx0 := hx 0
    have e1 : (fun i => (x i : Int) + 1) = fun _ : Fin 1 => (x 0 : Int) + 1 := by
      funext i; rw [Subsingleton.elim i 0]
    have e2 : (fun i => (mirrorCell bc.n 0 x i : Int) + 1) = fun _ : Fin 1 => (bc.n 0 : Int) + 1 - ((x 0 : Int) + 1) := by
      funext i
      rw [Subsingleton.elim i 0]
      unfold mirrorCell
      rw [Function.update_self]
      omega
    rw [e1, e2, h2' _ (by omega) (by omega), h2 _ (by omega) (by omega)]
    rw [lineStep_local a o phi' rp' dt dx capa (fun j => A' fun _ => j) (fun j => RA (A fun _ => (bc.n 0 : Int) + 1 - j))
      (fun j => Q' fun _ => j) (fun j => signed σ (Q fun _ => (bc.n 0 : Int) + 1 - j)) ((x 0 : Int) + 1)
      (fun j j1 j2 => (key j (by omega) (by omega)).2) (fun j j1 j2 => (key j (by omega) (by omega)).1)]
    exact mirror_line hσ hM dt dx capa hc phi phi' hphi a o ((bc.n 0 : Int) + 1) (fun j => A fun _ => j) (fun j => Q fun _ => j) _
      (fun ho j p => haf ho _ _ _ _ p)
  · exact Or.inl ⟨hL.stops _ _ _ _ hk, hL'.stops _ _ _ _ (fun h => hk (okk.mp h))⟩

theorem mirror_run1 [FloorRing K] {step step' : IntKern (Fin 1) K m naux} {g : Nat} {a : K → K} {o : Prop} [Decidable o]
    {phi phi' : Fin w → K → K → K} {dx : K} {capa : Option ((Fin naux → K) → K)} {lo : Int} {ok : (Fin naux → K) → Prop}
    (hL : LineKernel step g a o phi rp dx capa lo ok) (hL' : LineKernel step' g a o phi' rp' dx capa lo ok)
    (hlo : lo ≤ 1) (hok : ∀ z, ok (RA z) ↔ ok z)
    (hσ : IsSign σ) (hM : MirrorImage σ RA π fw rp rp') (hphi : ∀ p, phi' (π p) = phi p)
    (hc : ∀ κ, capa = some κ → ∀ z, κ (RA z) = κ z) (haf : o → ∀ ql qr al ar p, MirrorFactor a fw ((rp ql qr al ar).s p))
    (c c' : ParCfg (Fin 1) K) (hr : ClassicRun c m naux step) (hr' : ClassicRun c' m naux step') (ha : Admissible c.bc)
    (hs : Serial c.bc) (hbc : c'.bc = mirrorBC 0 c.bc) (hg : g = c.bc.g)
    (hE : ExtraCovered c.bc c.axes rp dx capa lo) (hE' : ExtraCovered c'.bc c.axes rp' dx capa lo) (rnd : K → K) (L : K)
    (ops : List (StepOp K (GArr (Fin 1) K) (GArr (Fin 1) K × BCArrays (Fin 1) K))) (hops : OnlyEvolves ops)
    (s s' : StepState K (GArr (Fin 1) K) (GArr (Fin 1) K × BCArrays (Fin 1) K))
    (h : InStep (Corresponds m naux c.bc.n (mirrorCell c.bc.n 0) (signed σ) RA) s s') :
    InStep (Corresponds m naux c.bc.n (mirrorCell c.bc.n 0) (signed σ) RA) (runSteps (serialEnv c rnd L) ops s)
      (runSteps (serialEnv c' rnd L) ops s') := by
  have hax : c'.axes = c.axes := by rw [hr.axes, hr'.axes]
  have hn : c'.bc.n = c.bc.n := by rw [hbc]; rfl
  have hgg : c'.bc.g = c.bc.g := by rw [hbc]; rfl
  have nd : c.axes.Nodup := by rw [hr.axes]; exact List.nodup_finRange 1
  have al : ∀ b, b ∈ c.axes := by rw [hr.axes]; exact List.mem_finRange
  have hs' : Serial c'.bc := by rw [hbc]; exact hs
  have ha' : Admissible c'.bc := by rw [hbc]; exact mirrorBC_admissible c.bc ha 0
  have E := kernel_sim m naux c c' step step' hr hr' (mirrorCell c.bc.n 0) (fun _ => signed σ) (FilledBy c.bc c.axes m naux)
    (FilledBy c'.bc c.axes m naux) (fun q aux old => serial_fill c.bc ha hs c.axes nd al m naux hr.numAux q aux old)
    (fun q aux old => by rw [hax]; exact serial_fill c'.bc ha' hs' c.axes nd al m naux hr'.numAux q aux old)
    (fun a a' => ∀ x : Fin 1 → Nat, (∀ i, x i < c.bc.n i) → auxAt naux a' x = RA (auxAt naux a (mirrorCell c.bc.n 0 x))) ?_ rnd L L
  · rw [hn] at E
    have key := run_sim E ops hops s s' ⟨h.set, h.status, h.t, h.log, fun x hx => (h.data x hx).1, fun x hx => (h.data x hx).2⟩
    exact ⟨key.set, key.status, key.t, key.log, fun x hx => ⟨key.data.1 x hx, key.data.2 x hx⟩⟩
  · intro dt A A' Q Q' q q' aux aux' f f' haux hq
    rw [hn] at hq ⊢
    rw [hbc] at f' hE'
    exact mirror_step1 hL hL' hlo hok hσ hM hphi hc haf c.bc ha hr.numAux hr.ghost hg c.axes hE hE' dt f f' hq haux

/-! ### The Fortran kernel -/

theorem fPhi_perm (undef : K) (limiter : Fin w → Int) (π : Equiv.Perm (Fin w)) (p : Fin w) :
    fPhi undef (fun p => limiter (π.symm p)) (π p) = fPhi undef limiter p := by
  unfold fPhi
  simp only [Equiv.symm_apply_apply]
  have : (∃ p, 0 < limiter (π.symm p)) ↔ ∃ p, 0 < limiter p :=
    ⟨fun ⟨p, h⟩ => ⟨_, h⟩, fun ⟨p, h⟩ => ⟨π p, by rwa [Equiv.symm_apply_apply]⟩⟩
  simp only [this]

theorem abs_factor (s : K) : MirrorFactor abs false s := by
  by_cases h : s = 0
  · exact Or.inl ⟨h, abs_zero⟩
  · exact Or.inr ⟨h, by simp⟩

theorem dsign_factor (s : K) (h : s ≠ 0) : MirrorFactor dsign1 true s := by
  refine Or.inr ⟨h, ?_⟩
  unfold dsign1
  rcases lt_or_gt_of_ne h with h | h
  · rw [if_pos (show 0 ≤ -s by linarith), if_neg (show ¬ 0 ≤ s by linarith)]; simp
  · rw [if_neg (show ¬ 0 ≤ -s by linarith), if_pos (show 0 ≤ s by linarith)]; simp

theorem npSign_factor (s : K) : MirrorFactor npSign true s := by
  by_cases h : s = 0
  · exact Or.inl ⟨h, by simp [npSign]⟩
  · refine Or.inr ⟨h, ?_⟩
    unfold npSign
    rcases lt_or_gt_of_ne h with h | h
    · rw [if_pos (show 0 < -s by linarith), if_neg (show ¬ 0 < s by linarith), if_pos h]; simp
    · rw [if_neg (show ¬ 0 < -s by linarith), if_pos (show -s < 0 by linarith), if_pos h]; simp

/-- C91, the one-dimensional Fortran kernel, whatever the boundary conditions, limiters, capacity function. With f-waves and second
order no speed may be 0 (see `C91_fwave_violated`). -/
theorem C91_fortran1_partial [FloorRing K] (undef : K) (cfg : Cfg1 K w) (capa : Option ((Fin naux → K) → K)) (hσ : IsSign σ)
    (hM : MirrorImage σ RA π cfg.fwave rp rp') (hc : ∀ κ, capa = some κ → ∀ z, κ (RA z) = κ z)
    (hf : cfg.fwave = true → cfg.order ≠ 1 → ∀ ql qr al ar p, (rp ql qr al ar).s p ≠ 0)
    (c c' : ParCfg (Fin 1) K) (hr : ClassicRun c m naux (intStep1 undef rp cfg capa))
    (hr' : ClassicRun c' m naux (intStep1 undef rp' { cfg with limiter := fun p => cfg.limiter (π.symm p) } capa))
    (ha : Admissible c.bc) (hs : Serial c.bc) (hbc : c'.bc = mirrorBC 0 c.bc) (hg : cfg.g = c.bc.g) (rnd : K → K) (L : K)
    (ops : List (StepOp K (GArr (Fin 1) K) (GArr (Fin 1) K × BCArrays (Fin 1) K))) (hops : OnlyEvolves ops)
    (s s' : StepState K (GArr (Fin 1) K) (GArr (Fin 1) K × BCArrays (Fin 1) K))
    (h : InStep (Corresponds m naux c.bc.n (mirrorCell c.bc.n 0) (signed σ) RA) s s') :
    InStep (Corresponds m naux c.bc.n (mirrorCell c.bc.n 0) (signed σ) RA) (runSteps (serialEnv c rnd L) ops s)
      (runSteps (serialEnv c' rnd L) ops s') := by
  refine mirror_run1 (fortran1_line undef rp cfg capa) (fortran1_line undef rp' { cfg with limiter := fun p => cfg.limiter (π.symm p) } capa)
    (le_refl 1) ?_ hσ hM (fPhi_perm undef cfg.limiter π) hc ?_ c c' hr hr' ha hs hbc hg ?_ ?_ rnd L ops hops s s' h
  · intro z
    constructor
    · intro h κ hκ; rw [← hc κ hκ]; exact h κ hκ
    · intro h κ hκ; rw [hc κ hκ]; exact h κ hκ
  · intro ho ql qr al ar p
    cases hfw : cfg.fwave
    · simp only [Bool.false_eq_true, if_false]; exact abs_factor _
    · simp only [if_true]; exact dsign_factor _ (hf hfw ho _ _ _ _ _)
  · intro _ _ _ _ _ _ _ i i1 i2; omega
  · intro _ _ _ _ _ _ _ i i1 i2; omega

/-! ### The Python kernel -/

/-- The signs with which a wall at axis 0 reflects. -/
def reflectSign (bc : BCConfig (Fin 1) K) (m : Nat) : Fin m → K := fun k => if k.val = bc.reflect 0 then -1 else 1

theorem reflectSign_isSign (bc : BCConfig (Fin 1) K) (m : Nat) : IsSign (reflectSign bc m) := by
  intro k
  unfold reflectSign
  by_cases h : k.val = bc.reflect 0
  · rw [if_pos h]; exact Or.inr rfl
  · rw [if_neg h]; exact Or.inl rfl

/-- The cells of a line, with the ghost cells. -/
theorem line_cells (bc : BCConfig (Fin 1) K) (ha : Admissible bc) (hx : bc.numAux = naux) {axes : List (Fin 1)}
    (hax : axes = List.finRange 1) {A : (Fin 1 → Int) → Fin naux → K} {Q : (Fin 1 → Int) → Fin m → K} {q aux : GArr (Fin 1) K}
    (f : FilledBy bc axes m naux A Q q aux) (i : Int) (i1 : 1 - (bc.g : Int) ≤ i) (i2 : i ≤ bc.n 0 + bc.g) :
    ((Q fun _ => i) = if pastWall (bc.bcLower 0) (bc.bcUpper 0) (bc.n 0) i = true then
        signed (reflectSign bc m) (Q fun _ => (foldCell (bc.bcLower 0) (bc.bcUpper 0) (bc.n 0) i : Int) + 1)
      else Q fun _ => (foldCell (bc.bcLower 0) (bc.bcUpper 0) (bc.n 0) i : Int) + 1) ∧
    (A fun _ => i) = A fun _ => (foldCell (bc.auxLower 0) (bc.auxUpper 0) (bc.n 0) i : Int) + 1 := by
  subst hax
  have one : ∀ g : Fin 1 → Nat, g = fun _ => g 0 := fun g => funext fun b => by rw [Subsingleton.elim b 0]
  have hQ : ∀ j : Int, 1 - (bc.g : Int) ≤ j → j ≤ bc.n 0 + bc.g → (Q fun _ => j) =
      fun k => (if pastWall (bc.bcLower 0) (bc.bcUpper 0) (bc.n 0) j = true ∧ bc.reflect 0 = k.val then (-1 : K) else 1) *
        q k.val fun _ => foldCell (bc.bcLower 0) (bc.bcUpper 0) (bc.n 0) j := by
    intro j j1 j2
    rw [(f (fun _ => j) (fun b => by rw [Subsingleton.elim b 0]; omega)).1]
    funext k
    rw [one fun b => foldCell (bc.bcLower b) (bc.bcUpper b) (bc.n b) j]
    congr 1
    unfold ghostSign
    simp [List.finRange]
  have hA : ∀ j : Int, 1 - (bc.g : Int) ≤ j → j ≤ bc.n 0 + bc.g → (A fun _ => j) =
      auxAt naux aux fun _ => foldCell (bc.auxLower 0) (bc.auxUpper 0) (bc.n 0) j := by
    intro j j1 j2
    rw [(f (fun _ => j) (fun b => by rw [Subsingleton.elim b 0]; omega)).2]
    rw [one fun b => foldCell (bc.auxLower b) (bc.auxUpper b) (bc.n b) j]
  have hc := ha.cells 0
  constructor
  · have hlt := foldCell_lt (bc.bcLower 0) (bc.bcUpper 0) (ha.lower 0) (ha.upper 0) _ bc.g hc.1 hc.2 i i1 i2
    have hn : pastWall (bc.bcLower 0) (bc.bcUpper 0) (bc.n 0) ((foldCell (bc.bcLower 0) (bc.bcUpper 0) (bc.n 0) i : Int) + 1) = false := by
      unfold pastWall
      rw [decide_eq_false (by omega), decide_eq_false (by omega)]
      rfl
    rw [hQ i i1 i2, hQ _ (by omega) (by omega), hn, foldCell_interior _ _ _ _ hlt]
    by_cases h : pastWall (bc.bcLower 0) (bc.bcUpper 0) (bc.n 0) i = true
    · rw [if_pos h]
      funext k
      unfold signed reflectSign
      by_cases hk : bc.reflect 0 = k.val
      · rw [if_pos ⟨h, hk⟩, if_pos hk.symm]; simp
      · rw [if_neg (fun h => hk h.2), if_neg (fun h => hk h.symm)]; simp
    · rw [if_neg h]
      funext k
      rw [if_neg (fun h' => h h'.1)]; simp
  · by_cases hp : 0 < naux
    · have hp' : 0 < bc.numAux := hx ▸ hp
      have hlt := foldCell_lt (bc.auxLower 0) (bc.auxUpper 0) (ha.auxLower hp' 0) (ha.auxUpper hp' 0) _ bc.g hc.1 hc.2 i i1 i2
      rw [hA i i1 i2, hA _ (by omega) (by omega), foldCell_interior _ _ _ _ hlt]
    · funext k
      exact absurd k.isLt (by omega)

/-- The Courant number in front of a wall equals that behind. -/
theorem own_image_number {ρ : Fin m → K} {π : Equiv.Perm (Fin w)} {fw : Bool} (hM : MirrorImage ρ id π fw rp rp) (dt dx : K)
    (capa : Option ((Fin naux → K) → K)) (aux : Int → Fin naux → K) (q : Int → Fin m → K) (N j : Int) (x : K)
    (h1 : q j = signed ρ (q (N - j))) (h2 : q (j - 1) = signed ρ (q (N - (j - 1)))) (h3 : aux j = aux (N - j))
    (h4 : aux (j - 1) = aux (N - (j - 1)))
    (h : WaveNumber (localRatio dt dx capa aux) (interfaces rp aux q) j x) :
    WaveNumber (localRatio dt dx capa aux) (interfaces rp aux q) (N + 1 - j) x := by
  have e := waveNumber_congr rp dt dx capa (fun j => id (aux (N - j))) aux (fun j => signed ρ (q (N - j))) q 0 j x
    (by rw [add_zero]; exact h3) (by rw [add_zero]; exact h4) (by rw [add_zero]; exact h1) (by rw [add_zero]; exact h2)
  rw [add_zero] at e
  exact (mirror_number hM dt dx capa (fun _ _ _ => rfl) N aux q j x).mp (e.mp h)

/-- The Python kernel counts one more interface, left of the first ghost cell: its wave numbers occur again in the grid if the aux values
are continued like the solution and the solver is its own image in the wall. -/
theorem extra_covered (bc : BCConfig (Fin 1) K) (ha : Admissible bc) (hx : bc.numAux = naux) (hg2 : 2 ≤ bc.g) {axes : List (Fin 1)}
    (hax : axes = List.finRange 1) (dx : K) (capa : Option ((Fin naux → K) → K))
    (haux : 0 < naux → bc.auxLower 0 = bc.bcLower 0)
    (hwall : bc.bcLower 0 = .wall → ∃ (π : Equiv.Perm (Fin w)) (fw : Bool), MirrorImage (reflectSign bc m) id π fw rp rp) :
    ExtraCovered bc axes rp dx capa 0 := by
  intro dt A Q q aux x f i i1 i2 h
  have hi : i = 0 := by omega
  subst hi
  have hc := ha.cells 0
  have hcell := line_cells bc ha hx hax f
  have hA : ∀ j : Int, 1 - (bc.g : Int) ≤ j → j < 1 →
      (A fun _ => j) = A fun _ => (foldCell (bc.bcLower 0) (bc.bcUpper 0) (bc.n 0) j : Int) + 1 := by
    intro j j1 j2
    by_cases hp : 0 < naux
    · rw [(hcell j j1 (by omega)).2, haux hp]
      unfold foldCell
      rw [if_pos j2, if_pos j2]
    · funext k
      exact absurd k.isLt (by omega)
  have q0 := (hcell 0 (by omega) (by omega)).1
  have q1 := (hcell (0 - 1) (by omega) (by omega)).1
  have a0 := hA 0 (by omega) (by omega)
  have a1 := hA (0 - 1) (by omega) (by omega)
  simp only [pastWall, foldCell, show (0 : Int) < 1 by omega, show (0 : Int) - 1 < 1 by omega, if_true,
    show ¬ (bc.n 0 : Int) < 0 by omega, show ¬ (bc.n 0 : Int) < 0 - 1 by omega, decide_true, decide_false, Bool.true_and,
    Bool.false_and, Bool.or_false, beq_iff_eq] at q0 q1 a0 a1
  have shift : ∀ t : Int, 1 ≤ t → t ≤ bc.n 0 + 1 → (Q fun _ => 0) = (Q fun _ => 0 + t) → (Q fun _ => 0 - 1) = (Q fun _ => 0 - 1 + t) →
      (A fun _ => 0) = (A fun _ => 0 + t) → (A fun _ => 0 - 1) = (A fun _ => 0 - 1 + t) → ∃ i : Int, 1 ≤ i ∧ i ≤ bc.n 0 + 1 ∧
      WaveNumber (localRatio dt dx capa fun i => A fun _ => i) (interfaces rp (fun i => A fun _ => i) (fun i => Q fun _ => i)) i x := by
    intro t t1 t2 k1 k2 k3 k4
    refine ⟨0 + t, by omega, by omega, ?_⟩
    exact (waveNumber_congr rp dt dx capa (fun i => A fun _ => i) (fun i => A fun _ => i) (fun i => Q fun _ => i) (fun i => Q fun _ => i)
      t 0 x k3 k4 k1 k2).mp h
  rcases ha.lower 0 with hl | hl | hl
  · rw [hl] at q0 q1 a0 a1
    simp only [reduceCtorEq, if_false, Nat.cast_zero, zero_add] at q0 q1 a0 a1
    refine shift 1 (by omega) (by omega) ?_ ?_ ?_ ?_
    · exact q0
    · exact q1.trans q0.symm
    · exact a0
    · exact a1.trans a0.symm
  · rw [hl] at q0 q1 a0 a1
    simp only [reduceCtorEq, if_false] at q0 q1 a0 a1
    rw [show (((0 : Int) + (bc.n 0 : Int) - 1).toNat : Int) + 1 = 0 + bc.n 0 by omega] at q0 a0
    rw [show (((0 : Int) - 1 + (bc.n 0 : Int) - 1).toNat : Int) + 1 = 0 - 1 + bc.n 0 by omega] at q1 a1
    exact shift (bc.n 0) (by omega) (by omega) q0 q1 a0 a1
  · obtain ⟨π, fw, hM⟩ := hwall hl
    rw [hl] at q0 q1 a0 a1
    simp only [if_true] at q0 q1 a0 a1
    refine ⟨1 + 1 - 0, by omega, by omega, ?_⟩
    exact own_image_number hM dt dx capa (fun i => A fun _ => i) (fun i => Q fun _ => i) 1 0 x q0 q1 a0 a1 h

/-- C91, the one-dimensional Python kernel; f-waves with speed 0 are all right. Full statement: for all its limiters and all boundary
conditions. Missing: the limiters 17 to 23; and as the kernel counts an interface too many at the left end, the Courant number is the
same only if this interface is a copy of another: aux values continued like the solution, and solvers that are their own images in the
walls. -/
theorem C91_python1_partial [FloorRing K] (opq : Int → LimFun K) (cfg : Cfg1 K w) (capa : Option ((Fin naux → K) → K)) (hσ : IsSign σ)
    (hM : MirrorImage σ RA π cfg.fwave rp rp') (hc : ∀ κ, capa = some κ → ∀ z, κ (RA z) = κ z)
    (hlim : ∀ p, 0 ≤ cfg.limiter p ∧ cfg.limiter p ≤ 16)
    (c c' : ParCfg (Fin 1) K) (hr : ClassicRun c m naux (intPyStep1 (pyLimiterFun opq) rp cfg capa))
    (hr' : ClassicRun c' m naux (intPyStep1 (pyLimiterFun opq) rp' { cfg with limiter := fun p => cfg.limiter (π.symm p) } capa))
    (ha : Admissible c.bc) (hs : Serial c.bc) (hbc : c'.bc = mirrorBC 0 c.bc) (hg : cfg.g = c.bc.g)
    (hax : 0 < naux → c.bc.auxLower 0 = c.bc.bcLower 0 ∧ c.bc.auxUpper 0 = c.bc.bcUpper 0)
    (hwl : c.bc.bcLower 0 = .wall → ∃ (π : Equiv.Perm (Fin w)) (fw : Bool), MirrorImage (reflectSign c.bc m) id π fw rp rp)
    (hwu : c.bc.bcUpper 0 = .wall → ∃ (π : Equiv.Perm (Fin w)) (fw : Bool), MirrorImage (reflectSign c.bc m) id π fw rp' rp')
    (rnd : K → K) (L : K)
    (ops : List (StepOp K (GArr (Fin 1) K) (GArr (Fin 1) K × BCArrays (Fin 1) K))) (hops : OnlyEvolves ops)
    (s s' : StepState K (GArr (Fin 1) K) (GArr (Fin 1) K × BCArrays (Fin 1) K))
    (h : InStep (Corresponds m naux c.bc.n (mirrorCell c.bc.n 0) (signed σ) RA) s s') :
    InStep (Corresponds m naux c.bc.n (mirrorCell c.bc.n 0) (signed σ) RA) (runSteps (serialEnv c rnd L) ops s)
      (runSteps (serialEnv c' rnd L) ops s') := by
  refine mirror_run1 (python1_line opq rp cfg (hg ▸ hr.ghost) hlim capa)
    (python1_line opq rp' { cfg with limiter := fun p => cfg.limiter (π.symm p) } (hg ▸ hr.ghost) (fun p => hlim _) capa)
    (by omega) (fun _ => Iff.rfl) hσ hM ?_ hc ?_ c c' hr hr' ha hs hbc hg ?_ ?_ rnd L ops hops s s' h
  · intro p
    unfold localPhi
    simp only [Equiv.symm_apply_apply]
  · intro ho ql qr al ar p
    cases hfw : cfg.fwave
    · simp only [Bool.false_eq_true, if_false]; exact abs_factor _
    · simp only [if_true]; exact npSign_factor _
  · exact extra_covered c.bc ha hr.numAux hr.ghost hr.axes cfg.dx capa (fun hp => (hax hp).1) hwl
  · have ha' : Admissible c'.bc := by rw [hbc]; exact mirrorBC_admissible c.bc ha 0
    refine extra_covered c'.bc ha' hr'.numAux hr'.ghost hr.axes cfg.dx capa ?_ ?_
    · intro hp
      rw [hbc]
      simp only [mirrorBC, Function.update_self]
      exact (hax hp).2
    · intro hw
      rw [hbc] at hw
      simp only [mirrorBC, Function.update_self] at hw
      have := hwu hw
      rw [hbc]
      exact this

/-! ### Symmetric data -/

theorem mirrorBC_self (bc : BCConfig (Fin 1) K) (h : bc.bcLower 0 = bc.bcUpper 0) (h' : bc.auxLower 0 = bc.auxUpper 0) : mirrorBC 0 bc = bc := by
  unfold mirrorBC
  rw [← h, ← h', Function.update_eq_self, Function.update_eq_self, h, h', Function.update_eq_self, Function.update_eq_self]

/-- C91: symmetric data stay symmetric, in runs of the Fortran kernel whose Riemann solver is its own mirror image. -/
theorem C91_symmetric_partial [FloorRing K] (undef : K) (cfg : Cfg1 K w) (capa : Option ((Fin naux → K) → K)) (hσ : IsSign σ)
    (hM : MirrorImage σ RA π cfg.fwave rp rp) (hc : ∀ κ, capa = some κ → ∀ z, κ (RA z) = κ z)
    (hf : cfg.fwave = true → cfg.order ≠ 1 → ∀ ql qr al ar p, (rp ql qr al ar).s p ≠ 0)
    (hlim : ∀ p, cfg.limiter (π p) = cfg.limiter p)
    (c : ParCfg (Fin 1) K) (hr : ClassicRun c m naux (intStep1 undef rp cfg capa)) (ha : Admissible c.bc) (hs : Serial c.bc)
    (hq : c.bc.bcLower 0 = c.bc.bcUpper 0) (hx : c.bc.auxLower 0 = c.bc.auxUpper 0) (hg : cfg.g = c.bc.g) (rnd : K → K) (L : K)
    (ops : List (StepOp K (GArr (Fin 1) K) (GArr (Fin 1) K × BCArrays (Fin 1) K))) (hops : OnlyEvolves ops)
    (s : StepState K (GArr (Fin 1) K) (GArr (Fin 1) K × BCArrays (Fin 1) K))
    (h : ∀ i : Nat, i < c.bc.n 0 →
      (∀ k : Fin m, s.sol.q k.val (fun _ => i) = σ k * s.sol.q k.val (fun _ => c.bc.n 0 - 1 - i)) ∧
      auxAt naux s.sol.rest.1 (fun _ => i) = RA (auxAt naux s.sol.rest.1 fun _ => c.bc.n 0 - 1 - i)) (i : Nat) (hi : i < c.bc.n 0)
    (k : Fin m) :
    (runSteps (serialEnv c rnd L) ops s).sol.q k.val (fun _ => i) =
      σ k * (runSteps (serialEnv c rnd L) ops s).sol.q k.val (fun _ => c.bc.n 0 - 1 - i) := by
  have e : ∀ x : Fin 1 → Nat, mirrorCell c.bc.n 0 x = fun _ => c.bc.n 0 - 1 - x 0 := by
    intro x
    funext b
    rw [Subsingleton.elim b 0]
    unfold mirrorCell
    rw [Function.update_self]
  have e' : ∀ x : Fin 1 → Nat, x = fun _ => x 0 := fun x => funext fun b => by rw [Subsingleton.elim b 0]
  have hcfg : { cfg with limiter := fun p => cfg.limiter (π.symm p) } = cfg := by
    have : (fun p => cfg.limiter (π.symm p)) = cfg.limiter := by
      funext p
      have := hlim (π.symm p)
      rw [Equiv.apply_symm_apply] at this
      exact this.symm
    rw [this]
  have key := C91_fortran1_partial undef cfg capa hσ hM hc hf c c hr (by rw [hcfg]; exact hr) ha hs (mirrorBC_self c.bc hq hx).symm hg rnd L
    ops hops s s ⟨rfl, rfl, rfl, rfl, fun x hx => by
      have := h (x 0) (hx 0)
      rw [← e', ← e] at this
      exact ⟨funext this.1, this.2⟩⟩
  have := congrFun (key.data (fun _ => i) (fun b => by rw [Subsingleton.elim b 0]; exact hi)).1 k
  rw [e] at this
  exact this

end

/-! ### f-waves with speed 0 -/

/-- An f-wave solver for Burgers' equation with one wave of (estimated) speed 0, half of which goes to each side. -/
def restingRp : Riemann ℚ (Fin 0 → ℚ) 1 1 := fun ql qr _ _ =>
  { wave := fun _ _ => (qr 0 * qr 0 - ql 0 * ql 0) / 2
    s := fun _ => 0
    amdq := fun _ => (qr 0 * qr 0 - ql 0 * ql 0) / 4
    apdq := fun _ => (qr 0 * qr 0 - ql 0 * ql 0) / 4 }

/-- Burgers' equation is symmetric (velocities change their sign), and so is this solver. -/
theorem restingRp_image : MirrorImage (fun _ => -1) id (Equiv.refl (Fin 1)) true restingRp restingRp := by
  intro ql qr al ar
  refine ⟨fun p => ?_, fun p => ?_, ?_, ?_⟩
  · simp [restingRp]
  · funext k
    simp only [restingRp, signed, if_true]
    ring
  · funext k
    simp only [restingRp, signed]
    ring
  · funext k
    simp only [restingRp, signed]
    ring

/-- One step of a kernel on a line of cells, with ghost cells. -/
theorem hyp_line {step : IntKern (Fin 1) K m naux} {g : Nat} {a : K → K} {o : Prop} [Decidable o]
    {phi : Fin w → K → K → K} {rp : Riemann K (Fin naux → K) m w} {dx : K} {capa : Option ((Fin naux → K) → K)} {lo : Int}
    {ok : (Fin naux → K) → Prop} (hL : LineKernel step g a o phi rp dx capa lo ok) (c : ParCfg (Fin 1) K) (hr : ClassicRun c m naux step)
    (ha : Admissible c.bc) (hs : Serial c.bc) (hg : g = c.bc.g) (hok : ∀ z, ok z) (dt : K) (d : HypData (Fin 1) K) :
    ∃ A Q, FilledBy c.bc (List.finRange 1) m naux A Q d.q d.aux ∧ ∀ (k : Fin m) (i : Nat), i < c.bc.n 0 →
      (hypSerial c dt d).1.q k.val (fun _ => i) =
        lineStep a o phi rp dt dx capa (fun i => A fun _ => i) (fun i => Q fun _ => i) ((i : Int) + 1) k := by
  obtain ⟨q, aux, old⟩ := d
  have hax := hr.axes
  obtain ⟨v, e, f⟩ := serial_fill c.bc ha hs (List.finRange 1) (List.nodup_finRange 1) List.mem_finRange m naux hr.numAux q aux old
  rw [← hax] at e
  obtain ⟨r, cfl, h1, h2, h3⟩ := hL.runs dt c.bc.n (fieldOf naux c.bc.g v.aux) (fieldOf m c.bc.g v.q) (fun _ _ _ => hok _)
  refine ⟨_, _, f, fun k i hi => ?_⟩
  have h2' := h2 ((i : Int) + 1) (by omega) (by omega)
  rw [← h2']
  unfold hypSerial
  simp only [e, hr.kern, onArrays, h1, Option.map_some, putBack, Fin.is_lt, dite_true]
  have e1 : (fun _ : Fin 1 => (((i + c.bc.g : Nat)) : Int) + 1 - c.bc.g) = fun _ => (i : Int) + 1 := by
    funext _; push_cast; ring
  rw [e1]

/-- Four cells between open ends, second order, the solver above, no limiter. -/
noncomputable def exResting : ParCfg (Fin 1) ℚ where
  bc := ⟨2, fun _ => 4, 1, 0, fun _ => .extrap, fun _ => .extrap, fun _ => .extrap, fun _ => .extrap, fun _ => 0,
    fun _ => true, fun _ => true, none, none, none, none⟩
  axes := [0]
  kern := onArrays 1 0 2 (intStep1 0 restingRp ⟨4, 2, 1, 1, 2, true, fun _ => 0⟩ none)
  sourceSplit := 1
  source := none
  beforeQ := fun _ _ q _ => q
  beforeAux := fun _ _ _ a => a

theorem exResting_run : ClassicRun exResting 1 0 (intStep1 0 restingRp ⟨4, 2, 1, 1, 2, true, fun _ => 0⟩ none) where
  homogeneous := ⟨rfl, fun _ _ _ _ => rfl, fun _ _ _ _ => rfl⟩
  ghost := le_refl 2
  numAux := rfl
  axes := rfl
  kern := rfl

theorem exResting_admissible : Admissible exResting.bc where
  cells := fun _ => ⟨(by decide : 0 < 4), (by decide : 2 ≤ 4)⟩
  lower := fun _ => Or.inl rfl
  upper := fun _ => Or.inl rfl
  auxLower := fun _ _ => Or.inl rfl
  auxUpper := fun _ _ => Or.inl rfl
  reflect := fun _ h => by rcases h with h | h <;> cases h

/-- One cell in motion. -/
def exMoving (i : Nat) (v : ℚ) : HypData (Fin 1) ℚ := ⟨fun _ x => if x 0 = i then v else 0, fun _ _ => 0, ⟨fun _ _ => 0, fun _ _ => 0⟩⟩

theorem exResting_values (c : Nat) (v : ℚ) (i : Nat) (hi : i < 4) :
    (hypSerial exResting 1 (exMoving c v)).1.q 0 (fun _ => i) =
      lineStep dsign1 True (fun _ _ _ => 1) restingRp 1 1 none (fun _ _ => 0)
        (fun j _ => if foldCell .extrap .extrap 4 j = c then v else 0) ((i : Int) + 1) 0 := by
  obtain ⟨A, Q, f, h⟩ := hyp_line (fortran1_line 0 restingRp ⟨4, 2, 1, 1, 2, true, fun _ => 0⟩ none) exResting exResting_run
    exResting_admissible (fun _ => ⟨rfl, rfl⟩) rfl (fun _ _ h => by cases h) 1 (exMoving c v)
  refine (h 0 i hi).trans ?_
  have e : fPhi (0 : ℚ) (fun _ : Fin 1 => (0 : Int)) = fun _ _ _ => 1 := by
    funext p
    unfold fPhi
    simp
  have hQ : ∀ j : Int, -1 ≤ j → j ≤ 6 → (Q fun _ => j) = fun _ => if foldCell .extrap .extrap 4 j = c then v else 0 := by
    intro j j1 j2
    rw [(f (fun _ => j) (fun b => ⟨by simp only [exResting]; omega, by simp only [exResting]; omega⟩)).1]
    funext k
    simp [ghostSign, exResting, pastWall, exMoving, List.finRange]
  rw [lineStep_local _ _ _ restingRp 1 1 none _ (fun _ _ => 0) _ (fun j _ => if foldCell .extrap .extrap 4 j = c then v else 0) _
    (fun j _ _ => funext fun k => k.elim0) (fun j j1 j2 => hQ j (by omega) (by omega))]
  simp only [e]
  unfold lineStep
  simp

/-- C91 is false of the Fortran kernel with f-waves when a speed is 0: `dsign(1., 0.)` is 1, so the second-order correction moves to the
right in both runs. Python's `np.sign` gives 0. -/
theorem C91_fwave_violated : ¬ ∀ d d' : HypData (Fin 1) ℚ,
    Corresponds 1 0 exResting.bc.n (mirrorCell exResting.bc.n 0) (signed fun _ => -1) id (d.q, d.aux, d.work) (d'.q, d'.aux, d'.work) →
    Corresponds 1 0 exResting.bc.n (mirrorCell exResting.bc.n 0) (signed fun _ => -1) id
      ((hypSerial exResting 1 d).1.q, (hypSerial exResting 1 d).1.aux, (hypSerial exResting 1 d).1.work)
      ((hypSerial exResting 1 d').1.q, (hypSerial exResting 1 d').1.aux, (hypSerial exResting 1 d').1.work) := by
  intro h
  have := h (exMoving 1 2) (exMoving 2 (-2)) (by
    intro x hx
    have h0 : x 0 < 4 := hx 0
    refine ⟨?_, funext fun k => k.elim0⟩
    funext k
    simp only [exMoving, signed, mirrorCell, exResting, Function.update_self]
    by_cases h2 : x 0 = 2
    · rw [if_pos h2, if_pos (by omega)]; norm_num
    · rw [if_neg h2, if_neg (by omega)]; norm_num)
  have k := congrFun (this (fun _ => 1) (fun _ => (by decide : 1 < 4))).1 0
  have e : mirrorCell exResting.bc.n 0 (fun _ => 1) = fun _ => 2 := by
    funext b
    rw [Subsingleton.elim b 0]
    simp [mirrorCell, exResting]
  simp only [signed, e] at k
  have k1 := exResting_values 2 (-2) 1 (by omega)
  have k2 := exResting_values 1 2 2 (by omega)
  rw [show ((0 : Fin 1).val) = 0 from rfl, k1, k2] at k
  revert k
  decide +kernel

/-! ### Concrete runs -/

/-- Acoustics is its own mirror image: the velocity changes its sign, left- and right-going waves are exchanged. -/
theorem acoustics_image (naux : Nat) : MirrorImage (K := K) ![1, -1] (id : (Fin naux → K) → Fin naux → K) (Equiv.swap 0 1) false
    (ignoreAux naux acousticsRp) (ignoreAux naux acousticsRp) := by
  intro ql qr al ar
  refine ⟨fun p => ?_, fun p => ?_, ?_, ?_⟩
  · fin_cases p <;> simp [ignoreAux, acousticsRp]
  · funext k
    fin_cases p <;> fin_cases k <;> simp [ignoreAux, acousticsRp, signed] <;> ring
  · funext k
    fin_cases k <;> simp [ignoreAux, acousticsRp, signed] <;> ring
  · funext k
    fin_cases k <;> simp [ignoreAux, acousticsRp, signed] <;> ring

/-- Acoustics on four cells between two ends, for any kernel. -/
def exAcoustics (lo up : BCType) (step : IntKern (Fin 1) ℚ 2 0) : ParCfg (Fin 1) ℚ where
  bc := ⟨2, fun _ => 4, 2, 0, fun _ => lo, fun _ => up, fun _ => lo, fun _ => up, fun _ => 1,
    fun _ => true, fun _ => true, none, none, none, none⟩
  axes := [0]
  kern := onArrays 2 0 2 step
  sourceSplit := 1
  source := none
  beforeQ := fun _ _ q _ => q
  beforeAux := fun _ _ _ a => a

def exAcoustics1 : Cfg1 ℚ 2 := ⟨4, 2, 1, 1 / 4, 2, false, ![4, 1]⟩

def exAcousticsPy (lim : Fin 2 → Int) : IntKern (Fin 1) ℚ 2 0 :=
  intPyStep1 (pyLimiterFun fun _ _ _ => 0) (ignoreAux 0 acousticsRp) { exAcoustics1 with limiter := lim } none

/-- Pressure and velocity. -/
def exSound (p u : Fin 4 → ℚ) : StepState ℚ (GArr (Fin 1) ℚ) (GArr (Fin 1) ℚ × BCArrays (Fin 1) ℚ) where
  set := ⟨true, 1 / 8, none, 1, 1, 9 / 10, 100, 1 / 2⟩
  status := {}
  sol := ⟨0, fun k x => if h : x 0 < 4 then (if k = 0 then p ⟨x 0, h⟩ else u ⟨x 0, h⟩) else 0, (fun _ _ => 0, ⟨fun _ _ => 0, fun _ _ => 0⟩)⟩
  log := []

theorem exAcoustics_run (lo up : BCType) (step : IntKern (Fin 1) ℚ 2 0) : ClassicRun (exAcoustics lo up step) 2 0 step where
  homogeneous := ⟨rfl, fun _ _ _ _ => rfl, fun _ _ _ _ => rfl⟩
  ghost := le_refl 2
  numAux := rfl
  axes := rfl
  kern := rfl

theorem exAcoustics_admissible (lo up : BCType) (hl : BuiltInBC lo) (hu : BuiltInBC up) (step : IntKern (Fin 1) ℚ 2 0) :
    Admissible (exAcoustics lo up step).bc where
  cells := fun _ => ⟨(by decide : 0 < 4), (by decide : 2 ≤ 4)⟩
  lower := fun _ => hl
  upper := fun _ => hu
  auxLower := fun _ _ => hl
  auxUpper := fun _ _ => hu
  reflect := fun _ _ => (by decide : 1 < 2)

/-- Non-vacuity of `C91_fortran1_partial` and `C91_python1_partial`: a wall on the left, an open end on the right, different limiters for
the two families; and the same in the mirror. -/
example (step : IntKern (Fin 1) ℚ 2 0) : IsSign (K := ℚ) ![1, -1] ∧ Admissible (exAcoustics .wall .extrap step).bc ∧
    Serial (exAcoustics .wall .extrap step).bc ∧
    (exAcoustics .extrap .wall step).bc = mirrorBC 0 (exAcoustics .wall .extrap step).bc ∧
    (fun p => exAcoustics1.limiter ((Equiv.swap 0 1 : Equiv.Perm (Fin 2)).symm p)) = ![1, 4] ∧
    MirrorImage (reflectSign (exAcoustics .wall .extrap step).bc 2) id (Equiv.swap 0 1) false (ignoreAux 0 (acousticsRp (K := ℚ)))
      (ignoreAux 0 acousticsRp) ∧
    InStep (Corresponds 2 0 (exAcoustics .wall .extrap step).bc.n (mirrorCell (exAcoustics .wall .extrap step).bc.n 0) (signed ![1, -1]) id)
      (exSound ![1, 2, 0, 0] ![0, 1, 0, 0]) (exSound ![0, 0, 2, 1] ![0, 0, -1, 0]) := by
  refine ⟨fun k => by fin_cases k <;> simp, exAcoustics_admissible _ _ (Or.inr (Or.inr rfl)) (Or.inl rfl) step, fun _ => ⟨rfl, rfl⟩, ?_, ?_, ?_,
    rfl, rfl, rfl, rfl, ?_⟩
  · simp only [exAcoustics, mirrorBC, BCConfig.mk.injEq, and_true, true_and]
    refine ⟨?_, ?_, ?_, ?_⟩ <;> funext b <;> rw [Subsingleton.elim b 0, Function.update_self]
  · funext p; fin_cases p <;> simp [exAcoustics1]
  · have e : reflectSign (exAcoustics .wall .extrap step).bc 2 = ![1, -1] := by
      funext k; fin_cases k <;> simp [reflectSign, exAcoustics]
    rw [e]
    exact acoustics_image 0
  · intro x hx
    have h0 : x 0 < 4 := hx 0
    refine ⟨?_, funext fun k => k.elim0⟩
    obtain ⟨y, rfl⟩ : ∃ y : Nat, x = fun _ => y := ⟨x 0, funext fun b => by rw [Subsingleton.elim b 0]⟩
    dsimp only at h0
    have e : mirrorCell (exAcoustics .wall .extrap step).bc.n 0 (fun _ => y) = fun _ => 3 - y := by
      funext b
      rw [Subsingleton.elim b 0]
      simp [mirrorCell, exAcoustics]
    rw [e]
    funext k
    interval_cases y <;> fin_cases k <;> simp [exSound, signed]

/-- The run and its mirror image. -/
example : ((List.range 4).map fun i => ((runSteps (serialEnv (exAcoustics .wall .extrap (exAcousticsPy ![4, 1])) id 1) [.evolve (some (1 / 4))]
      (exSound ![1, 2, 0, 0] ![0, 1, 0, 0])).sol.q 1 fun _ => i)) =
    ((List.range 4).map fun i => -((runSteps (serialEnv (exAcoustics .extrap .wall (exAcousticsPy ![1, 4])) id 1) [.evolve (some (1 / 4))]
      (exSound ![0, 0, 2, 1] ![0, 0, -1, 0])).sol.q 1 fun _ => 3 - i)) := by
  decide +kernel

/-- Non-vacuity of `C91_symmetric_partial`: a clap between two walls. -/
example (step : IntKern (Fin 1) ℚ 2 0) (i : Nat) (hi : i < (exAcoustics .wall .wall step).bc.n 0) :
    (∀ k : Fin 2, (exSound ![1, 2, 2, 1] ![0, 3, -3, 0]).sol.q k.val (fun _ => i) =
      (![1, -1] : Fin 2 → ℚ) k * (exSound ![1, 2, 2, 1] ![0, 3, -3, 0]).sol.q k.val (fun _ => (exAcoustics .wall .wall step).bc.n 0 - 1 - i)) := by
  intro k
  have h0 : i < 4 := hi
  interval_cases i <;> fin_cases k <;> simp [exSound, exAcoustics]

end PyClaw
