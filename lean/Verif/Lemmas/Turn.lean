import Verif.Lemmas.Mirror
import Verif.Props.Mirror
import Verif.Props.Unsplit2

/-! The increments of the unsplit two-dimensional method in other components and in mirrors. -/
set_option linter.unusedSectionVars false

namespace PyClaw
open Spec

variable {K : Type*} [Field K] [LinearOrder K] [IsStrictOrderedRing K] {A : Type*} {m w : Nat}

theorem fPhi_of_perm (undef : K) (limiter limiter' : Fin w → Int) (π : Equiv.Perm (Fin w)) (h : ∀ p, limiter' (π p) = limiter p)
    (p : Fin w) : fPhi undef limiter' (π p) = fPhi undef limiter p := by
  have e : limiter' = fun p => limiter (π.symm p) := by
    funext p
    rw [← h, Equiv.apply_symm_apply]
  rw [e]
  exact fPhi_perm undef limiter π p

section rigid
variable {T : (Fin m → K) → Fin m → K}

theorem Spec.Rigid.neg (hT : Rigid T) (u : Fin m → K) : T (-u) = -T u := by
  rw [← neg_one_smul K u, hT.smul, neg_one_smul]

theorem Spec.Rigid.sub (hT : Rigid T) (u v : Fin m → K) : T (u - v) = T u - T v := by
  rw [sub_eq_add_neg, hT.add, hT.neg, ← sub_eq_add_neg]

theorem Spec.Rigid.zero (hT : Rigid T) : T 0 = 0 := by
  have := hT.smul 0 0
  rwa [zero_smul, zero_smul] at this

theorem Spec.Rigid.sum (hT : Rigid T) {ι : Type*} (s : Finset ι) (f : ι → Fin m → K) : T (∑ p ∈ s, f p) = ∑ p ∈ s, T (f p) := by
  classical
  induction s using Finset.induction_on with
  | empty => simpa using hT.zero
  | insert a s ha ih => rw [Finset.sum_insert ha, Finset.sum_insert ha, hT.add, ih]

theorem Spec.Rigid.wdot (hT : Rigid T) (u v : Fin m → K) : PyClaw.wdot (T u) (T v) = PyClaw.wdot u v := hT.dot u v

theorem signed_rigid {σ : Fin m → K} (hσ : IsSign σ) : Rigid (signed σ) where
  add u v := by funext k; simp only [signed, Pi.add_apply]; ring
  smul x u := by funext k; simp only [signed, Pi.smul_apply, smul_eq_mul]; ring
  dot u v := wdot_signed hσ u v

theorem perm_rigid (τ : Equiv.Perm (Fin m)) : Rigid (fun (u : Fin m → K) k => u (τ k)) where
  add _ _ := rfl
  smul _ _ := rfl
  dot u v := Equiv.sum_comp τ fun k => u k * v k

variable {RA : A → A} {π : Equiv.Perm (Fin w)} {rp rp' : Riemann K A m w} {rt rt' : Transverse K A m}

theorem turn_ratio (dt dx : K) (capa : Option (A → K)) (hc : ∀ κ, capa = some κ → ∀ z, κ (RA z) = κ z) (aux : Int → A) :
    localRatio dt dx capa (fun j => RA (aux j)) = localRatio dt dx capa aux := by
  funext j
  unfold localRatio
  cases capa with
  | none => rfl
  | some κ => simp only [hc κ rfl]

theorem turn_interface (hR : TurnedImage T RA π rp rp') (aux : Int → A) (q : Int → Fin m → K) (j : Int) :
    (∀ p, (interfaces rp' (fun j => RA (aux j)) (fun j => T (q j)) j).s (π p) = (interfaces rp aux q j).s p) ∧
    (∀ p, (interfaces rp' (fun j => RA (aux j)) (fun j => T (q j)) j).wave (π p) = T ((interfaces rp aux q j).wave p)) ∧
    (interfaces rp' (fun j => RA (aux j)) (fun j => T (q j)) j).amdq = T (interfaces rp aux q j).amdq ∧
    (interfaces rp' (fun j => RA (aux j)) (fun j => T (q j)) j).apdq = T (interfaces rp aux q j).apdq :=
  hR (q (j - 1)) (q j) (aux (j - 1)) (aux j)

theorem turn_limited (hT : Rigid T) (hR : TurnedImage T RA π rp rp') (lam : Int → K) (phi phi' : Fin w → K → K → K)
    (hphi : ∀ p, phi' (π p) = phi p) (aux : Int → A) (q : Int → Fin m → K) (j : Int) (p : Fin w) :
    limitedWave phi' lam (interfaces rp' (fun j => RA (aux j)) fun j => T (q j)) j (π p) =
      T (limitedWave phi lam (interfaces rp aux q) j p) := by
  have h0 := turn_interface hR aux q j
  have h1 := (turn_interface hR aux q (j - 1)).2.1 p
  have h2 := (turn_interface hR aux q (j + 1)).2.1 p
  unfold limitedWave
  simp only [h0.1 p, h0.2.1 p, h1, h2, hphi]
  by_cases hp : 0 < (interfaces rp aux q j).s p
  · simp only [if_pos hp, hT.wdot]
    split
    · rfl
    · rw [hT.smul]
  · simp only [if_neg hp, hT.wdot]
    split
    · rfl
    · rw [hT.smul]

theorem turn_flux (hT : Rigid T) (hR : TurnedImage T RA π rp rp') (a : K → K) (lam : Int → K) (phi phi' : Fin w → K → K → K)
    (hphi : ∀ p, phi' (π p) = phi p) (aux : Int → A) (q : Int → Fin m → K) (j : Int) :
    correctionFlux a lam (interfaces rp' (fun j => RA (aux j)) fun j => T (q j))
      (limitedWave phi' lam (interfaces rp' (fun j => RA (aux j)) fun j => T (q j))) j =
    T (correctionFlux a lam (interfaces rp aux q) (limitedWave phi lam (interfaces rp aux q)) j) := by
  unfold correctionFlux
  rw [← Equiv.sum_comp π, hT.sum]
  refine Finset.sum_congr rfl fun p _ => ?_
  rw [(turn_interface hR aux q j).1 p, turn_limited hT hR lam phi phi' hphi, hT.smul]

theorem turn_sliceFlux (hT : Rigid T) (hR : TurnedImage T RA π rp rp') (undef : K) (order : Int) (fwave : Bool)
    (lim lim' : Fin w → Int) (hl : ∀ p, lim' (π p) = lim p) (lam : Int → K) (aux : Int → A) (q : Int → Fin m → K) (j : Int) :
    sliceFlux undef order fwave lim' lam (interfaces rp' (fun j => RA (aux j)) fun j => T (q j)) j =
      T (sliceFlux undef order fwave lim lam (interfaces rp aux q) j) := by
  unfold sliceFlux
  by_cases ho : order = 1
  · simp only [if_pos ho]; exact hT.zero.symm
  · simp only [if_neg ho]
    exact turn_flux hT hR _ lam _ _ (fPhi_of_perm undef lim lim' π hl) aux q j

theorem turn_row (hT : Rigid T) (hR : TurnedImage T RA π rp rp') (undef : K) (c c' : Cfg1 K w)
    (hc' : c' = { c with limiter := c'.limiter }) (hl : ∀ p, c'.limiter (π p) = c.limiter p)
    (capa : Option (A → K)) (hc : ∀ κ, capa = some κ → ∀ z, κ (RA z) = κ z) (aux : Int → A) (q : Int → Fin m → K) (i : Int) :
    rowStep undef rp' c' capa (fun j => RA (aux j)) (fun j => T (q j)) i = T (rowStep undef rp c capa aux q i) := by
  have e1 : c'.dt = c.dt := by rw [hc']
  have e2 : c'.dx = c.dx := by rw [hc']
  have e3 : c'.order = c.order := by rw [hc']
  have e4 : c'.fwave = c.fwave := by rw [hc']
  unfold rowStep waveProp
  rw [e1, e2, e3, e4, turn_ratio _ _ capa hc, turn_sliceFlux hT hR undef _ _ c.limiter _ hl,
    turn_sliceFlux hT hR undef _ _ c.limiter _ hl, (turn_interface hR aux q i).2.2.2, (turn_interface hR aux q (i + 1)).2.2.1]
  simp only [hT.sub, hT.smul, hT.add]

theorem turn_transverse (hT : Rigid T) (hR : TurnedImage T RA π rp rp') (ht : TurnedTransverse T RA rt rt') (undef : K) (c c' : Cfg2 K w)
    (hc' : c' = { c with limiter := c'.limiter }) (hl : ∀ p, c'.limiter (π p) = c.limiter p)
    (capa : Option (A → K)) (hc : ∀ κ, capa = some κ → ∀ z, κ (RA z) = κ z) (aux : Int → Int → A) (q : Int → Int → Fin m → K)
    (j i : Int) :
    rowTransverse undef rp' rt' c' capa (fun i j => RA (aux i j)) (fun i j => T (q i j)) j i =
      (T (rowTransverse undef rp rt c capa aux q j i).1, T (rowTransverse undef rp rt c capa aux q j i).2) := by
  have e1 : c'.dt = c.dt := by rw [hc']
  have e2 : c'.dx = c.dx := by rw [hc']
  have e3 : c'.order = c.order := by rw [hc']
  have e4 : c'.fwave = c.fwave := by rw [hc']
  have e5 : c'.trans = c.trans := by rw [hc']
  unfold rowTransverse
  rw [e1, e2, e3, e4, e5]
  by_cases h0 : c.trans ≤ 0
  · rw [if_pos h0, if_pos h0]
    exact Prod.ext hT.zero.symm hT.zero.symm
  · rw [if_neg h0, if_neg h0]
    dsimp only
    rw [turn_ratio _ _ capa hc fun i => aux i j]
    unfold transversePair
    have hL : ∀ k, leftPart (1 < c.order ∧ c.trans = 2) (interfaces rp' (fun i => RA (aux i j)) fun i => T (q i j))
        (sliceFlux undef c.order c.fwave c'.limiter (localRatio c.dt c.dx capa fun i => aux i j)
          (interfaces rp' (fun i => RA (aux i j)) fun i => T (q i j))) k =
        T (leftPart (1 < c.order ∧ c.trans = 2) (interfaces rp (fun i => aux i j) fun i => q i j)
        (sliceFlux undef c.order c.fwave c.limiter (localRatio c.dt c.dx capa fun i => aux i j)
          (interfaces rp (fun i => aux i j) fun i => q i j)) k) := by
      intro k
      unfold leftPart
      rw [turn_sliceFlux hT hR undef _ _ c.limiter _ hl _ (fun i => aux i j) fun i => q i j,
        (turn_interface hR (fun i => aux i j) (fun i => q i j) k).2.2.1]
      split
      · rw [hT.add, hT.smul]
      · rfl
    have hRt : ∀ k, rightPart (1 < c.order ∧ c.trans = 2) (interfaces rp' (fun i => RA (aux i j)) fun i => T (q i j))
        (sliceFlux undef c.order c.fwave c'.limiter (localRatio c.dt c.dx capa fun i => aux i j)
          (interfaces rp' (fun i => RA (aux i j)) fun i => T (q i j))) k =
        T (rightPart (1 < c.order ∧ c.trans = 2) (interfaces rp (fun i => aux i j) fun i => q i j)
        (sliceFlux undef c.order c.fwave c.limiter (localRatio c.dt c.dx capa fun i => aux i j)
          (interfaces rp (fun i => aux i j) fun i => q i j)) k) := by
      intro k
      unfold rightPart
      rw [turn_sliceFlux hT hR undef _ _ c.limiter _ hl _ (fun i => aux i j) fun i => q i j,
        (turn_interface hR (fun i => aux i j) (fun i => q i j) k).2.2.2]
      split
      · rw [hT.sub, hT.smul]
      · rfl
    rw [hL, hRt]
    have ea : ∀ i, aux3 (fun i j => RA (aux i j)) j i = onThree RA (aux3 aux j i) := fun _ => rfl
    dsimp only
    simp only [ea, ht _ _ _ _ _ _]
    refine Prod.ext ?_ ?_ <;>
    simp only [Prod.fst_add, Prod.snd_add, Prod.smul_fst, Prod.smul_snd, Prod.mk_add_mk, Prod.smul_mk, hT.smul, hT.add]

/-- The increment in other components. -/
theorem turn_increment (hT : Rigid T) (hR : TurnedImage T RA π rp rp') (ht : TurnedTransverse T RA rt rt') (undef : K) (c c' : Cfg2 K w)
    (hc' : c' = { c with limiter := c'.limiter }) (hl : ∀ p, c'.limiter (π p) = c.limiter p)
    (capa : Option (A → K)) (hc : ∀ κ, capa = some κ → ∀ z, κ (RA z) = κ z) (aux : Int → Int → A) (q : Int → Int → Fin m → K)
    (i j : Int) :
    xIncrement undef rp' rt' c' capa (fun i j => RA (aux i j)) (fun i j => T (q i j)) i j =
      T (xIncrement undef rp rt c capa aux q i j) := by
  have e1 : c'.dt = c.dt := by rw [hc']
  have e2 : c'.dy = c.dy := by rw [hc']
  have hrow := turn_row hT hR undef c.row c'.row (by rw [hc']; rfl) hl capa hc (fun i => aux i j) (fun i => q i j) i
  unfold xIncrement rowFlux
  rw [hrow, e1, e2, turn_ratio _ _ capa hc fun j => aux i j]
  simp only [turn_transverse hT hR ht undef c c' hc' hl capa hc aux q, hT.sub, hT.smul, hT.add]

theorem turn_number (hR : TurnedImage T RA π rp rp') (dt dx : K) (capa : Option (A → K))
    (hc : ∀ κ, capa = some κ → ∀ z, κ (RA z) = κ z) (aux : Int → A) (q : Int → Fin m → K) (j : Int) (x : K) :
    WaveNumber (localRatio dt dx capa fun j => RA (aux j)) (interfaces rp' (fun j => RA (aux j)) fun j => T (q j)) j x ↔
      WaveNumber (localRatio dt dx capa aux) (interfaces rp aux q) j x := by
  have h0 := (turn_interface hR aux q j).1
  rw [turn_ratio dt dx capa hc]
  unfold WaveNumber
  constructor
  · rintro ⟨p, h⟩
    obtain ⟨p, rfl⟩ := π.surjective p
    rw [h0] at h
    exact ⟨p, h⟩
  · rintro ⟨p, h⟩
    exact ⟨π p, by rw [h0]; exact h⟩

end rigid

/-! ### Down and up exchanged -/

/-- The transverse solver with down and up exchanged. -/
def flipTransverse (rt : Transverse K A m) : Transverse K A m := fun imp ql qr al ar a =>
  (-(rt imp ql qr (upsideDown al) (upsideDown ar) a).2, -(rt imp ql qr (upsideDown al) (upsideDown ar) a).1)

theorem flip_transverse (undef : K) (rp : Riemann K A m w) (rt : Transverse K A m) (c : Cfg2 K w) (capa : Option (A → K))
    (aux : Int → Int → A) (q : Int → Int → Fin m → K) (N j i : Int) :
    rowTransverse undef rp (flipTransverse rt) c capa (fun i j => aux i (N - j)) (fun i j => q i (N - j)) j i =
      (-(rowTransverse undef rp rt c capa aux q (N - j) i).2, -(rowTransverse undef rp rt c capa aux q (N - j) i).1) := by
  unfold rowTransverse
  by_cases h0 : c.trans ≤ 0
  · rw [if_pos h0, if_pos h0]
    simp [Prod.ext_iff]
  · rw [if_neg h0, if_neg h0]
    have ea : ∀ i, upsideDown (aux3 (fun i j => aux i (N - j)) j i) = aux3 aux (N - j) i := by
      intro i
      unfold upsideDown aux3
      dsimp only
      rw [show N - (j + 1) = N - j - 1 by ring, show N - (j - 1) = N - j + 1 by ring]
    unfold transversePair flipTransverse
    simp only [ea]
    refine Prod.ext ?_ ?_ <;>
    simp only [Prod.fst_add, Prod.snd_add, Prod.smul_fst, Prod.smul_snd, Prod.mk_add_mk, Prod.smul_mk] <;> module

theorem flip_increment (undef : K) (rp : Riemann K A m w) (rt : Transverse K A m) (c : Cfg2 K w) (capa : Option (A → K))
    (aux : Int → Int → A) (q : Int → Int → Fin m → K) (N i j : Int) :
    xIncrement undef rp (flipTransverse rt) c capa (fun i j => aux i (N - j)) (fun i j => q i (N - j)) i j =
      xIncrement undef rp rt c capa aux q i (N - j) := by
  unfold xIncrement rowFlux
  simp only [flip_transverse]
  rw [show N - (j + 1 - 1) = N - j by ring, show N - (j + 1) = N - j - 1 by ring, show N - (j - 1) = N - j + 1 by ring,
    show N - j + 1 - 1 = N - j by ring]
  have e : localRatio c.dt c.dy capa (fun j => aux i (N - j)) j = localRatio c.dt c.dy capa (fun j => aux i j) (N - j) := rfl
  rw [e]
  module

theorem sideways_turned {σ : Fin m → K} {RA : A → A} {rt rt' : Transverse K A m} (h : SidewaysTransverse σ RA rt rt') :
    TurnedTransverse (signed σ) RA (flipTransverse rt) rt' := by
  intro imp ql qr al ar a
  have h' := h imp ql qr (upsideDown al) (upsideDown ar) a
  have e : ∀ z : A × A × A, upsideDown (onThree RA (upsideDown z)) = onThree RA z := fun _ => rfl
  have en : ∀ u : Fin m → K, signed σ (-u) = -signed σ u := by
    intro u; funext k; simp only [signed, Pi.neg_apply]; ring
  rw [e, e] at h'
  rw [h']
  unfold flipTransverse
  simp only [en]

/-- The increment in a mirror that exchanges down and up. -/
theorem sideways_increment {σ : Fin m → K} (hσ : IsSign σ) {RA : A → A} {π : Equiv.Perm (Fin w)} {rp rp' : Riemann K A m w}
    {rt rt' : Transverse K A m} (hR : TurnedImage (signed σ) RA π rp rp') (ht : SidewaysTransverse σ RA rt rt') (undef : K) (c c' : Cfg2 K w)
    (hc' : c' = { c with limiter := c'.limiter }) (hl : ∀ p, c'.limiter (π p) = c.limiter p)
    (capa : Option (A → K)) (hc : ∀ κ, capa = some κ → ∀ z, κ (RA z) = κ z) (aux : Int → Int → A) (q : Int → Int → Fin m → K)
    (N i j : Int) :
    xIncrement undef rp' rt' c' capa (fun i j => RA (aux i (N - j))) (fun i j => signed σ (q i (N - j))) i j =
      signed σ (xIncrement undef rp rt c capa aux q i (N - j)) := by
  rw [turn_increment (signed_rigid hσ) hR (sideways_turned ht) undef c c' hc' hl capa hc (fun i j => aux i (N - j))
    (fun i j => q i (N - j)) i j, flip_increment]

/-! ### Left and right exchanged -/

section mirror
variable {σ : Fin m → K} {RA : A → A} {π : Equiv.Perm (Fin w)} {rp rp' : Riemann K A m w} {rt rt' : Transverse K A m}

theorem mirror_sliceFlux (hσ : IsSign σ) {fw : Bool} (hM : MirrorImage σ RA π fw rp rp') (undef : K) (order : Int)
    (lim lim' : Fin w → Int) (hl : ∀ p, lim' (π p) = lim p) (dt dx : K) (capa : Option (A → K))
    (hc : ∀ κ, capa = some κ → ∀ z, κ (RA z) = κ z) (N : Int) (aux : Int → A) (q : Int → Fin m → K) (j : Int)
    (hf : fw = true → order ≠ 1 → ∀ ql qr al ar p, (rp ql qr al ar).s p ≠ 0) :
    sliceFlux undef order fw lim' (localRatio dt dx capa fun j => RA (aux (N - j)))
      (interfaces rp' (fun j => RA (aux (N - j))) fun j => signed σ (q (N - j))) j =
    -signed σ (sliceFlux undef order fw lim (localRatio dt dx capa aux) (interfaces rp aux q) (N + 1 - j)) := by
  unfold sliceFlux
  by_cases ho : order = 1
  · simp only [if_pos ho]
    funext k
    simp [signed]
  · simp only [if_neg ho]
    refine mirror_flux hσ hM dt dx capa hc _ _ (fPhi_of_perm undef lim lim' π hl) _ N aux q j fun p => ?_
    cases hfw : fw
    · simp only [Bool.false_eq_true, if_false]; exact abs_factor _
    · simp only [if_true]; exact dsign_factor _ (hf hfw ho _ _ _ _ _)

theorem mirror_transverse (hσ : IsSign σ) (undef : K) (c c' : Cfg2 K w) (hM : MirrorImage σ RA π c.fwave rp rp')
    (ht : MirrorTransverse σ RA rt rt')
    (hc' : c' = { c with limiter := c'.limiter }) (hl : ∀ p, c'.limiter (π p) = c.limiter p)
    (hf : c.fwave = true → c.order ≠ 1 → ∀ ql qr al ar p, (rp ql qr al ar).s p ≠ 0)
    (capa : Option (A → K)) (hc : ∀ κ, capa = some κ → ∀ z, κ (RA z) = κ z) (aux : Int → Int → A) (q : Int → Int → Fin m → K)
    (N j i : Int) :
    rowTransverse undef rp' rt' c' capa (fun i j => RA (aux (N - i) j)) (fun i j => signed σ (q (N - i) j)) j i =
      (signed σ (rowTransverse undef rp rt c capa aux q j (N - i)).1, signed σ (rowTransverse undef rp rt c capa aux q j (N - i)).2) := by
  have hT := signed_rigid (K := K) hσ
  have e1 : c'.dt = c.dt := by rw [hc']
  have e2 : c'.dx = c.dx := by rw [hc']
  have e3 : c'.order = c.order := by rw [hc']
  have e4 : c'.fwave = c.fwave := by rw [hc']
  have e5 : c'.trans = c.trans := by rw [hc']
  unfold rowTransverse
  rw [e1, e2, e3, e4, e5]
  by_cases h0 : c.trans ≤ 0
  · rw [if_pos h0, if_pos h0]
    exact Prod.ext hT.zero.symm hT.zero.symm
  · rw [if_neg h0, if_neg h0]
    dsimp only
    unfold transversePair
    have hr := mirror_ratio c.dt c.dx capa hc N (fun i => aux i j) i
    have hF := fun k => mirror_sliceFlux hσ hM undef c.order c.limiter c'.limiter hl c.dt c.dx capa hc N (fun i => aux i j)
      (fun i => q i j) k hf
    have hI := fun k => mirror_interface hM N (fun i => aux i j) (fun i => q i j) k
    have hL : ∀ k, leftPart (1 < c.order ∧ c.trans = 2) (interfaces rp' (fun i => RA (aux (N - i) j)) fun i => signed σ (q (N - i) j))
        (sliceFlux undef c.order c.fwave c'.limiter (localRatio c.dt c.dx capa fun i => RA (aux (N - i) j))
          (interfaces rp' (fun i => RA (aux (N - i) j)) fun i => signed σ (q (N - i) j))) k =
        signed σ (rightPart (1 < c.order ∧ c.trans = 2) (interfaces rp (fun i => aux i j) fun i => q i j)
        (sliceFlux undef c.order c.fwave c.limiter (localRatio c.dt c.dx capa fun i => aux i j)
          (interfaces rp (fun i => aux i j) fun i => q i j)) (N + 1 - k)) := by
      intro k
      unfold leftPart rightPart
      rw [hF, (hI k).2.2.1]
      split
      · rw [hT.sub, hT.smul]; module
      · rfl
    have hR : ∀ k, rightPart (1 < c.order ∧ c.trans = 2) (interfaces rp' (fun i => RA (aux (N - i) j)) fun i => signed σ (q (N - i) j))
        (sliceFlux undef c.order c.fwave c'.limiter (localRatio c.dt c.dx capa fun i => RA (aux (N - i) j))
          (interfaces rp' (fun i => RA (aux (N - i) j)) fun i => signed σ (q (N - i) j))) k =
        signed σ (leftPart (1 < c.order ∧ c.trans = 2) (interfaces rp (fun i => aux i j) fun i => q i j)
        (sliceFlux undef c.order c.fwave c.limiter (localRatio c.dt c.dx capa fun i => aux i j)
          (interfaces rp (fun i => aux i j) fun i => q i j)) (N + 1 - k)) := by
      intro k
      unfold leftPart rightPart
      rw [hF, (hI k).2.2.2]
      split
      · rw [hT.add, hT.smul]; module
      · rfl
    rw [hL, hR, hr]
    have ea : ∀ i, aux3 (fun i j => RA (aux (N - i) j)) j i = onThree RA (aux3 aux j (N - i)) := fun _ => rfl
    simp only [ea]
    rw [show N + 1 - (i + 1) = N - i by ring, show N - (i + 1 - 1) = N - i by ring, show N - (i + 1) = N - i - 1 by ring,
      show N - (i - 1) = N - i + 1 by ring, show N + 1 - i = N - i + 1 by ring, show N - i + 1 - 1 = N - i by ring,
      (ht _ _ _ _ _).2, (ht _ _ _ _ _).1]
    refine Prod.ext ?_ ?_ <;>
    simp only [Prod.fst_add, Prod.snd_add, Prod.smul_fst, Prod.smul_snd, Prod.mk_add_mk, Prod.smul_mk, hT.smul, hT.add] <;>
    module

/-- The increment in a mirror that exchanges left and right. -/
theorem mirror_increment (hσ : IsSign σ) (undef : K) (c c' : Cfg2 K w) (hM : MirrorImage σ RA π c.fwave rp rp')
    (ht : MirrorTransverse σ RA rt rt')
    (hc' : c' = { c with limiter := c'.limiter }) (hl : ∀ p, c'.limiter (π p) = c.limiter p)
    (hf : c.fwave = true → c.order ≠ 1 → ∀ ql qr al ar p, (rp ql qr al ar).s p ≠ 0)
    (capa : Option (A → K)) (hc : ∀ κ, capa = some κ → ∀ z, κ (RA z) = κ z) (aux : Int → Int → A) (q : Int → Int → Fin m → K)
    (N i j : Int) :
    xIncrement undef rp' rt' c' capa (fun i j => RA (aux (N - i) j)) (fun i j => signed σ (q (N - i) j)) i j =
      signed σ (xIncrement undef rp rt c capa aux q (N - i) j) := by
  have hT := signed_rigid (K := K) hσ
  have e1 : c'.dt = c.dt := by rw [hc']
  have e2 : c'.dy = c.dy := by rw [hc']
  have e3 : c'.dx = c.dx := by rw [hc']
  have e4 : c'.order = c.order := by rw [hc']
  have e5 : c'.fwave = c.fwave := by rw [hc']
  have hrow : rowStep undef rp' c'.row capa (fun i => RA (aux (N - i) j)) (fun i => signed σ (q (N - i) j)) i =
      signed σ (rowStep undef rp c.row capa (fun i => aux i j) (fun i => q i j) (N - i)) := by
    have hF := fun k => mirror_sliceFlux hσ hM undef c.order c.limiter c'.limiter hl c.dt c.dx capa hc N (fun i => aux i j)
      (fun i => q i j) k hf
    have hI := fun k => mirror_interface hM N (fun i => aux i j) (fun i => q i j) k
    have hr := mirror_ratio c.dt c.dx capa hc N (fun i => aux i j) i
    unfold rowStep waveProp Cfg2.row
    dsimp only
    rw [e1, e3, e4, e5, hr, hF, hF, (hI i).2.2.2, (hI (i + 1)).2.2.1]
    rw [show N + 1 - (i + 1) = N - i by ring, show N + 1 - i = N - i + 1 by ring]
    simp only [hT.sub, hT.smul, hT.add]
    module
  unfold xIncrement rowFlux
  rw [hrow, e1, e2, turn_ratio _ _ capa hc fun j => aux (N - i) j]
  simp only [mirror_transverse hσ undef c c' hM ht hc' hl hf capa hc aux q, hT.sub, hT.smul, hT.add]

end mirror

end PyClaw
