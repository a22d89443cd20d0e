import Verif.Lemmas.Three
import Verif.Props.SplitMirror
import Verif.Props.Walls

/-! One step of the methods on a combination of two solutions, and three serial runs side by side. -/
set_option linter.unusedSectionVars false

namespace PyClaw
open Spec

variable {K : Type*} [Field K] [LinearOrder K] [IsStrictOrderedRing K] {A : Type*} {m w naux d : Nat} {α β : K}

/-! ### Rows -/

section row
variable {rp : Riemann K A m w} {rt : Transverse K A m}

theorem lin_speed (h : LinearRiemann α β rp) (aux : Int → A) (q q' : Int → Fin m → K) (i : Int) :
    (interfaces rp aux q' i).s = (interfaces rp aux q i).s := h.speeds _ _ _ _ _ _

theorem lin_number (h : LinearRiemann α β rp) (lam : Int → K) (aux : Int → A) (q q' : Int → Fin m → K) (i : Int) (x : K) :
    WaveNumber lam (interfaces rp aux q') i x ↔ WaveNumber lam (interfaces rp aux q) i x := by
  unfold WaveNumber
  rw [lin_speed h aux q q']

theorem limitedWave_off (phi : Fin w → K → K → K) (hphi : ∀ p x y, phi p x y = 1) (lam : Int → K) (d : Int → Rp K m w) (i : Int) (p : Fin w) :
    limitedWave phi lam d i p = (d i).wave p := by
  unfold limitedWave
  simp [hphi]

theorem lin_flux (h : LinearRiemann α β rp) (a : K → K) (phi : Fin w → K → K → K) (hphi : ∀ p x y, phi p x y = 1) (lam : Int → K)
    (aux : Int → A) (q₁ q₂ : Int → Fin m → K) (i : Int) :
    correctionFlux a lam (interfaces rp aux fun j => α • q₁ j + β • q₂ j) (limitedWave phi lam (interfaces rp aux fun j => α • q₁ j + β • q₂ j)) i =
      α • correctionFlux a lam (interfaces rp aux q₁) (limitedWave phi lam (interfaces rp aux q₁)) i +
      β • correctionFlux a lam (interfaces rp aux q₂) (limitedWave phi lam (interfaces rp aux q₂)) i := by
  unfold correctionFlux
  simp only [limitedWave_off phi hphi, lin_speed h aux q₁ q₂, lin_speed h aux q₁ fun j => α • q₁ j + β • q₂ j]
  rw [Finset.smul_sum, Finset.smul_sum, ← Finset.sum_add_distrib]
  refine Finset.sum_congr rfl fun p _ => ?_
  have : (interfaces rp aux (fun j => α • q₁ j + β • q₂ j) i).wave p =
    α • (interfaces rp aux q₁ i).wave p + β • (interfaces rp aux q₂ i).wave p := h.waves _ _ _ _ _ _ _
  rw [this]
  funext k
  simp only [Pi.smul_apply, Pi.add_apply, smul_eq_mul]
  ring

theorem lin_wave (h : LinearRiemann α β rp) (lam : Int → K) (aux : Int → A) (q₁ q₂ : Int → Fin m → K) (F₁ F₂ F : Int → Fin m → K)
    (hF : ∀ i, F i = α • F₁ i + β • F₂ i) (i : Int) :
    waveProp lam (interfaces rp aux fun j => α • q₁ j + β • q₂ j) F (fun j => α • q₁ j + β • q₂ j) i =
      α • waveProp lam (interfaces rp aux q₁) F₁ q₁ i + β • waveProp lam (interfaces rp aux q₂) F₂ q₂ i := by
  unfold waveProp
  rw [hF, hF, show (interfaces rp aux (fun j => α • q₁ j + β • q₂ j) i).apdq =
      α • (interfaces rp aux q₁ i).apdq + β • (interfaces rp aux q₂ i).apdq from h.apdq _ _ _ _ _ _,
    show (interfaces rp aux (fun j => α • q₁ j + β • q₂ j) (i + 1)).amdq =
      α • (interfaces rp aux q₁ (i + 1)).amdq + β • (interfaces rp aux q₂ (i + 1)).amdq from h.amdq _ _ _ _ _ _]
  funext k
  simp only [Pi.smul_apply, Pi.add_apply, Pi.sub_apply, smul_eq_mul]
  ring

theorem lin_line (h : LinearRiemann α β rp) (a : K → K) (o : Prop) [Decidable o] (phi : Fin w → K → K → K)
    (hphi : o → ∀ p x y, phi p x y = 1) (dt dx : K) (capa : Option (A → K)) (aux : Int → A) (q₁ q₂ : Int → Fin m → K) (i : Int) :
    lineStep a o phi rp dt dx capa aux (fun j => α • q₁ j + β • q₂ j) i =
      α • lineStep a o phi rp dt dx capa aux q₁ i + β • lineStep a o phi rp dt dx capa aux q₂ i := by
  unfold lineStep
  refine lin_wave h _ aux q₁ q₂ _ _ _ (fun i => ?_) i
  by_cases ho : o
  · simp only [if_pos ho]
    exact lin_flux h a phi (hphi ho) _ aux q₁ q₂ i
  · simp only [if_neg ho]
    simp

theorem fPhi_off (undef : K) {lim : Fin w → Int} (h : ∀ p, lim p = 0) (p : Fin w) (x y : K) : fPhi undef lim p x y = 1 := by
  unfold fPhi
  rw [if_neg (fun hh => hh.2 (h p))]

theorem lin_slice (h : LinearRiemann α β rp) (undef : K) (order : Int) (fw : Bool) (lim : Fin w → Int) (hu : Unlimited order lim) (lam : Int → K)
    (aux : Int → A) (q₁ q₂ : Int → Fin m → K) (i : Int) :
    sliceFlux undef order fw lim lam (interfaces rp aux fun j => α • q₁ j + β • q₂ j) i =
      α • sliceFlux undef order fw lim lam (interfaces rp aux q₁) i + β • sliceFlux undef order fw lim lam (interfaces rp aux q₂) i := by
  unfold sliceFlux
  by_cases ho : order = 1
  · simp only [if_pos ho]
    simp
  · simp only [if_neg ho]
    exact lin_flux h _ _ (fPhi_off undef (hu.resolve_left ho)) lam aux q₁ q₂ i

theorem lin_row (h : LinearRiemann α β rp) (undef : K) (c : Cfg1 K w) (hu : Unlimited c.order c.limiter) (capa : Option (A → K))
    (aux : Int → A) (q₁ q₂ : Int → Fin m → K) (i : Int) :
    rowStep undef rp c capa aux (fun j => α • q₁ j + β • q₂ j) i =
      α • rowStep undef rp c capa aux q₁ i + β • rowStep undef rp c capa aux q₂ i := by
  unfold rowStep
  exact lin_wave h _ aux q₁ q₂ _ _ _ (fun i => lin_slice h undef _ _ _ hu _ aux q₁ q₂ i) i

theorem lin_transverse (h : LinearRiemann α β rp) (hT : LinearSplitting α β rt) (undef : K) (c : Cfg2 K w) (hu : Unlimited c.order c.limiter)
    (capa : Option (A → K)) (aux : Int → Int → A) (q₁ q₂ : Int → Int → Fin m → K) (j i : Int) :
    rowTransverse undef rp rt c capa aux (fun i j => α • q₁ i j + β • q₂ i j) j i =
      α • rowTransverse undef rp rt c capa aux q₁ j i + β • rowTransverse undef rp rt c capa aux q₂ j i := by
  unfold rowTransverse
  by_cases h0 : c.trans ≤ 0
  · simp only [if_pos h0]
    simp
  · simp only [if_neg h0]
    have hF := lin_slice h undef c.order c.fwave c.limiter hu (localRatio c.dt c.dx capa fun i => aux i j) (fun i => aux i j) (fun i => q₁ i j)
      fun i => q₂ i j
    have hm : ∀ k, (interfaces rp (fun i => aux i j) (fun i => α • q₁ i j + β • q₂ i j) k).amdq =
      α • (interfaces rp (fun i => aux i j) (fun i => q₁ i j) k).amdq + β • (interfaces rp (fun i => aux i j) (fun i => q₂ i j) k).amdq :=
      fun k => h.amdq _ _ _ _ _ _
    have hp : ∀ k, (interfaces rp (fun i => aux i j) (fun i => α • q₁ i j + β • q₂ i j) k).apdq =
      α • (interfaces rp (fun i => aux i j) (fun i => q₁ i j) k).apdq + β • (interfaces rp (fun i => aux i j) (fun i => q₂ i j) k).apdq :=
      fun k => h.apdq _ _ _ _ _ _
    unfold transversePair
    have hlp : ∀ k, leftPart (1 < c.order ∧ c.trans = 2) (interfaces rp (fun i => aux i j) fun i => α • q₁ i j + β • q₂ i j)
        (sliceFlux undef c.order c.fwave c.limiter (localRatio c.dt c.dx capa fun i => aux i j)
          (interfaces rp (fun i => aux i j) fun i => α • q₁ i j + β • q₂ i j)) k =
        α • leftPart (1 < c.order ∧ c.trans = 2) (interfaces rp (fun i => aux i j) fun i => q₁ i j)
          (sliceFlux undef c.order c.fwave c.limiter (localRatio c.dt c.dx capa fun i => aux i j)
            (interfaces rp (fun i => aux i j) fun i => q₁ i j)) k +
        β • leftPart (1 < c.order ∧ c.trans = 2) (interfaces rp (fun i => aux i j) fun i => q₂ i j)
          (sliceFlux undef c.order c.fwave c.limiter (localRatio c.dt c.dx capa fun i => aux i j)
            (interfaces rp (fun i => aux i j) fun i => q₂ i j)) k := by
      intro k
      unfold leftPart
      rw [hF, hm]
      split
      · funext l
        simp only [Pi.add_apply, Pi.smul_apply, smul_eq_mul]
        ring
      · rfl
    have hrp : ∀ k, rightPart (1 < c.order ∧ c.trans = 2) (interfaces rp (fun i => aux i j) fun i => α • q₁ i j + β • q₂ i j)
        (sliceFlux undef c.order c.fwave c.limiter (localRatio c.dt c.dx capa fun i => aux i j)
          (interfaces rp (fun i => aux i j) fun i => α • q₁ i j + β • q₂ i j)) k =
        α • rightPart (1 < c.order ∧ c.trans = 2) (interfaces rp (fun i => aux i j) fun i => q₁ i j)
          (sliceFlux undef c.order c.fwave c.limiter (localRatio c.dt c.dx capa fun i => aux i j)
            (interfaces rp (fun i => aux i j) fun i => q₁ i j)) k +
        β • rightPart (1 < c.order ∧ c.trans = 2) (interfaces rp (fun i => aux i j) fun i => q₂ i j)
          (sliceFlux undef c.order c.fwave c.limiter (localRatio c.dt c.dx capa fun i => aux i j)
            (interfaces rp (fun i => aux i j) fun i => q₂ i j)) k := by
      intro k
      unfold rightPart
      rw [hF, hp]
      split
      · funext l
        simp only [Pi.add_apply, Pi.sub_apply, Pi.smul_apply, smul_eq_mul]
        ring
      · rfl
    rw [hlp, hrp]
    dsimp only
    rw [hT 1 (q₁ (i + 1 - 1) j) (q₁ (i + 1) j) (q₂ (i + 1 - 1) j) (q₂ (i + 1) j), hT 2 (q₁ (i - 1) j) (q₁ i j) (q₂ (i - 1) j) (q₂ i j)]
    refine Prod.ext ?_ ?_ <;> funext k <;>
    simp only [Prod.fst_add, Prod.snd_add, Prod.smul_fst, Prod.smul_snd, Pi.add_apply, Pi.smul_apply, smul_eq_mul] <;> ring

theorem lin_increment (h : LinearRiemann α β rp) (hT : LinearSplitting α β rt) (undef : K) (c : Cfg2 K w) (hu : Unlimited c.order c.limiter)
    (capa : Option (A → K)) (aux : Int → Int → A) (q₁ q₂ : Int → Int → Fin m → K) (i j : Int) :
    xIncrement undef rp rt c capa aux (fun i j => α • q₁ i j + β • q₂ i j) i j =
      α • xIncrement undef rp rt c capa aux q₁ i j + β • xIncrement undef rp rt c capa aux q₂ i j := by
  have hrow := lin_row h undef c.row hu capa (fun i => aux i j) (fun i => q₁ i j) (fun i => q₂ i j) i
  have htr := lin_transverse h hT undef c hu capa aux q₁ q₂
  unfold xIncrement rowFlux
  simp only [htr, hrow]
  funext k
  simp only [Prod.fst_add, Prod.snd_add, Prod.smul_fst, Prod.smul_snd, Pi.add_apply, Pi.sub_apply, Pi.smul_apply, smul_eq_mul]
  ring

end row

/-! ### The plane -/

section plane
variable {rpx rpy : Riemann K A m w} {rtx rty : Transverse K A m}

theorem lin_unsplit2 (hx : LinearRiemann α β rpx) (hy : LinearRiemann α β rpy) (htx : LinearSplitting α β rtx) (hty : LinearSplitting α β rty)
    (undef : K) (c : Cfg2 K w) (hg : 1 ≤ c.g) (hu : Unlimited c.order c.limiter) (capa : Option (A → K)) (aux : Int → Int → A)
    (q₁ q₂ : Int → Int → Fin m → K) (i j : Int) (i1 : 1 ≤ i) (i2 : i ≤ c.mx) (j1 : 1 ≤ j) (j2 : j ≤ c.my) :
    (unsplitStep2 undef rpx rpy rtx rty c capa aux fun i j => α • q₁ i j + β • q₂ i j).1 i j =
      α • (unsplitStep2 undef rpx rpy rtx rty c capa aux q₁).1 i j + β • (unsplitStep2 undef rpx rpy rtx rty c capa aux q₂).1 i j := by
  rw [unsplitStep2_cell undef rpx rpy rtx rty c hg capa aux _ i j i1 i2 j1 j2, unsplitStep2_cell undef rpx rpy rtx rty c hg capa aux q₁ i j i1 i2 j1 j2,
    unsplitStep2_cell undef rpx rpy rtx rty c hg capa aux q₂ i j i1 i2 j1 j2, lin_increment hx htx undef c hu capa aux q₁ q₂ i j,
    lin_increment hy hty undef c.swap hu capa (fun j i => aux i j) (fun j i => q₁ i j) (fun j i => q₂ i j) j i]
  funext k
  simp only [Pi.smul_apply, Pi.add_apply, smul_eq_mul]
  ring

theorem lin_unsplit2_cfl (hx : LinearRiemann α β rpx) (hy : LinearRiemann α β rpy) (undef : K) (c : Cfg2 K w) (capa : Option (A → K))
    (aux : Int → Int → A) (q q' : Int → Int → Fin m → K) :
    (unsplitStep2 undef rpx rpy rtx rty c capa aux q').2 = (unsplitStep2 undef rpx rpy rtx rty c capa aux q).2 := by
  refine isMax_unique (unsplitStep2_isMax undef rpx rpy rtx rty c capa aux q')
    (isMax_congr (fun x => or_congr ?_ ?_) (unsplitStep2_isMax undef rpx rpy rtx rty c capa aux q))
  · refine exists_congr fun i => exists_congr fun j => and_congr_right fun _ => and_congr_right fun _ => ?_
    exact lin_number hx _ _ _ _ _ _
  · refine exists_congr fun j => exists_congr fun i => and_congr_right fun _ => and_congr_right fun _ => ?_
    exact lin_number hy _ _ _ _ _ _

theorem lin_split2 (hx : LinearRiemann α β rpx) (hy : LinearRiemann α β rpy) (undef : K) (c : Cfg2 K w) (hg : 1 ≤ c.g)
    (hu : Unlimited c.order c.limiter) (capa : Option (A → K)) (aux : Int → Int → A)
    (q₁ q₂ : Int → Int → Fin m → K) (i j : Int) (i1 : 1 ≤ i) (i2 : i ≤ c.mx) (j1 : 1 ≤ j) (j2 : j ≤ c.my) :
    (splitStep2 undef rpx rpy c capa aux fun i j => α • q₁ i j + β • q₂ i j).1 i j =
      α • (splitStep2 undef rpx rpy c capa aux q₁).1 i j + β • (splitStep2 undef rpx rpy c capa aux q₂).1 i j := by
  have hA : ∀ i j : Int, afterX2 undef rpx c capa aux (fun i j => α • q₁ i j + β • q₂ i j) i j =
      α • afterX2 undef rpx c capa aux q₁ i j + β • afterX2 undef rpx c capa aux q₂ i j := by
    intro i j
    unfold afterX2
    split
    · exact lin_row hx undef c.row hu capa (fun i => aux i j) (fun i => q₁ i j) (fun i => q₂ i j) i
    · rfl
  rw [splitStep2_after undef rpx rpy c hg capa aux _ i j i1 i2 j1 j2, splitStep2_after undef rpx rpy c hg capa aux q₁ i j i1 i2 j1 j2,
    splitStep2_after undef rpx rpy c hg capa aux q₂ i j i1 i2 j1 j2]
  simp only [hA]
  exact lin_row hy undef c.swap.row hu capa (fun j => aux i j) (fun j => afterX2 undef rpx c capa aux q₁ i j)
    (fun j => afterX2 undef rpx c capa aux q₂ i j) j

theorem lin_split2_cfl (hx : LinearRiemann α β rpx) (hy : LinearRiemann α β rpy) (undef : K) (c : Cfg2 K w) (hg : 1 ≤ c.g) (capa : Option (A → K))
    (aux : Int → Int → A) (q q' : Int → Int → Fin m → K) :
    (splitStep2 undef rpx rpy c capa aux q').2 = (splitStep2 undef rpx rpy c capa aux q).2 := by
  refine isMax_unique (splitStep2_isMax undef rpx rpy c hg capa aux q')
    (isMax_congr (fun x => or_congr ?_ ?_) (splitStep2_isMax undef rpx rpy c hg capa aux q))
  · refine exists_congr fun i => exists_congr fun j => and_congr_right fun _ => and_congr_right fun _ => ?_
    exact lin_number hx _ _ _ _ _ _
  · refine exists_congr fun i => exists_congr fun j => and_congr_right fun _ => and_congr_right fun _ => ?_
    exact lin_number hy _ _ _ _ _ _

end plane

/-! ### Kernels -/

/-- The kernel keeps combinations: all three stop, or all three report the same Courant number and the third result is the combination. -/
def LinearInt (α β : K) (step : IntKern (Fin d) K m naux) : Prop :=
  ∀ dt n A Q₁ Q₂,
    (step dt n A Q₁ = none ∧ step dt n A Q₂ = none ∧ step dt n A (fun v => α • Q₁ v + β • Q₂ v) = none) ∨
    ∃ r₁ r₂ r cfl, step dt n A Q₁ = some (r₁, cfl) ∧ step dt n A Q₂ = some (r₂, cfl) ∧
      step dt n A (fun v => α • Q₁ v + β • Q₂ v) = some (r, cfl) ∧
      ∀ v : Fin d → Int, (∀ a, 1 ≤ v a ∧ v a ≤ n a) → r v = α • r₁ v + β • r₂ v

theorem three_some {F : Type*} {x₁ x₂ x : Option (F × K)} {r₁ r₂ r : F × K} (e₁ : x₁ = some r₁) (e₂ : x₂ = some r₂) (e : x = some r)
    (h₁ : r₁.2 = r.2) (h₂ : r₂.2 = r.2) {P : F → F → F → Prop} (h : P r₁.1 r₂.1 r.1) :
    (x₁ = none ∧ x₂ = none ∧ x = none) ∨
      ∃ f₁ f₂ f cfl, x₁ = some (f₁, cfl) ∧ x₂ = some (f₂, cfl) ∧ x = some (f, cfl) ∧ P f₁ f₂ f :=
  Or.inr ⟨r₁.1, r₂.1, r.1, r.2, by rw [e₁, ← h₁], by rw [e₂, ← h₂], e, h⟩

section line
variable {step : IntKern (Fin 1) K m naux} {g : Nat} {a : K → K} {o : Prop} [Decidable o] {phi : Fin w → K → K → K}
  {rp : Riemann K (Fin naux → K) m w} {dx : K} {capa : Option ((Fin naux → K) → K)} {lo : Int} {ok : (Fin naux → K) → Prop}

theorem LineKernel.linear (hk : LineKernel step g a o phi rp dx capa lo ok) (h : LinearRiemann α β rp) (hphi : o → ∀ p x y, phi p x y = 1) :
    LinearInt α β step := by
  intro dt n A Q₁ Q₂
  by_cases hok : ∀ i : Int, 1 - (g : Int) ≤ i → i ≤ n 0 + g → ok (A fun _ => i)
  · obtain ⟨r₁, x₁, e₁, v₁, m₁⟩ := hk.runs dt n A Q₁ hok
    obtain ⟨r₂, x₂, e₂, v₂, m₂⟩ := hk.runs dt n A Q₂ hok
    obtain ⟨r, x, e, v, mx⟩ := hk.runs dt n A (fun v => α • Q₁ v + β • Q₂ v) hok
    have hx₁ : x₁ = x := isMax_unique m₁ (isMax_congr (fun y => exists_congr fun i => and_congr_right fun _ => and_congr_right fun _ =>
      lin_number h _ _ _ _ _ _) mx)
    have hx₂ : x₂ = x := isMax_unique m₂ (isMax_congr (fun y => exists_congr fun i => and_congr_right fun _ => and_congr_right fun _ =>
      lin_number h _ _ _ _ _ _) mx)
    subst hx₁ hx₂
    refine Or.inr ⟨r₁, r₂, r, _, e₁, e₂, e, fun u hu => ?_⟩
    obtain ⟨h1, h2⟩ := hu 0
    have hu0 : u = fun _ => u 0 := by funext b; rw [Subsingleton.elim b 0]
    rw [hu0, v _ h1 h2, v₁ _ h1 h2, v₂ _ h1 h2]
    exact lin_line h a o phi hphi dt dx capa _ _ _ _
  · exact Or.inl ⟨hk.stops dt n A Q₁ hok, hk.stops dt n A Q₂ hok, hk.stops dt n A _ hok⟩

theorem LineKernel.localInt (hk : LineKernel step g a o phi rp dx capa lo ok) (hg : 2 ≤ g) (hlo : 0 ≤ lo) : LocalInt step g := by
  intro dt n A A' Q Q' h
  have h' : ∀ i : Int, 1 - (g : Int) ≤ i → i ≤ n 0 + g → (A' fun _ => i) = (A fun _ => i) ∧ (Q' fun _ => i) = Q fun _ => i :=
    fun i i1 i2 => h _ fun b => by rw [Subsingleton.elim b 0]; exact ⟨i1, i2⟩
  by_cases hok : ∀ i : Int, 1 - (g : Int) ≤ i → i ≤ n 0 + g → ok (A fun _ => i)
  · obtain ⟨r, x, e, v, mx⟩ := hk.runs dt n A Q hok
    obtain ⟨r', x', e', v', mx'⟩ := hk.runs dt n A' Q' fun i i1 i2 => by rw [(h' i i1 i2).1]; exact hok i i1 i2
    have hx : x' = x := isMax_unique mx' (isMax_congr (fun y => exists_congr fun i => and_congr_right fun i1 => and_congr_right fun i2 => by
      have a0 := h' i (by omega) (by omega)
      have a1 := h' (i - 1) (by omega) (by omega)
      unfold WaveNumber interfaces localRatio
      simp only [a0.1, a0.2, a1.1, a1.2]) mx)
    subst hx
    refine Or.inr ⟨r, r', _, e, e', fun u hu => ?_⟩
    obtain ⟨h1, h2⟩ := hu 0
    have hu0 : u = fun _ => u 0 := by funext b; rw [Subsingleton.elim b 0]
    rw [hu0, v _ h1 h2, v' _ h1 h2]
    exact lineStep_local a o phi rp dt dx capa _ _ _ _ _ (fun j j1 j2 => (h' j (by omega) (by omega)).1)
      (fun j j1 j2 => (h' j (by omega) (by omega)).2)
  · exact Or.inl ⟨hk.stops dt n A Q hok, hk.stops dt n A' Q' fun hh => hok fun i i1 i2 => by rw [← (h' i i1 i2).1]; exact hh i i1 i2⟩

end line

section plane
variable {rpx rpy : Riemann K (Fin naux → K) m w} {rtx rty : Transverse K (Fin naux → K) m}

theorem unsplit2_linear (hx : LinearRiemann α β rpx) (hy : LinearRiemann α β rpy) (htx : LinearSplitting α β rtx) (hty : LinearSplitting α β rty)
    (undef : K) (c : Cfg2 K w) (hg : 1 ≤ c.g) (hu : Unlimited c.order c.limiter) (capa : Option ((Fin naux → K) → K)) :
    LinearInt α β (intUnsplit2 undef rpx rpy rtx rty c capa) := by
  intro dt n A Q₁ Q₂
  have e₁ := lin_unsplit2_cfl (rtx := rtx) (rty := rty) hx hy undef { c with mx := n 0, my := n 1, dt := dt } capa (fun i j => A ![i, j])
    (fun i j => α • Q₁ ![i, j] + β • Q₂ ![i, j]) fun i j => Q₁ ![i, j]
  have e₂ := lin_unsplit2_cfl (rtx := rtx) (rty := rty) hx hy undef { c with mx := n 0, my := n 1, dt := dt } capa (fun i j => A ![i, j])
    (fun i j => α • Q₁ ![i, j] + β • Q₂ ![i, j]) fun i j => Q₂ ![i, j]
  refine three_some (x₁ := intUnsplit2 undef rpx rpy rtx rty c capa dt n A Q₁) (x₂ := intUnsplit2 undef rpx rpy rtx rty c capa dt n A Q₂)
    (x := intUnsplit2 undef rpx rpy rtx rty c capa dt n A fun v => α • Q₁ v + β • Q₂ v)
    (P := fun (r₁ r₂ r : (Fin 2 → Int) → Fin m → K) => ∀ v : Fin 2 → Int, (∀ a, 1 ≤ v a ∧ v a ≤ n a) → r v = α • r₁ v + β • r₂ v)
    rfl rfl rfl e₁ e₂ fun v hv => ?_
  · exact lin_unsplit2 hx hy htx hty undef { c with mx := n 0, my := n 1, dt := dt } hg hu capa (fun i j => A ![i, j])
      (fun i j => Q₁ ![i, j]) (fun i j => Q₂ ![i, j]) (v 0) (v 1) (hv 0).1 (hv 0).2 (hv 1).1 (hv 1).2

theorem split2_linear (hx : LinearRiemann α β rpx) (hy : LinearRiemann α β rpy)
    (undef : K) (c : Cfg2 K w) (hg : 1 ≤ c.g) (hu : Unlimited c.order c.limiter) (capa : Option ((Fin naux → K) → K)) :
    LinearInt α β (intSplit2 undef rpx rpy c capa) := by
  intro dt n A Q₁ Q₂
  have e₁ := lin_split2_cfl hx hy undef { c with mx := n 0, my := n 1, dt := dt } hg capa (fun i j => A ![i, j])
    (fun i j => α • Q₁ ![i, j] + β • Q₂ ![i, j]) fun i j => Q₁ ![i, j]
  have e₂ := lin_split2_cfl hx hy undef { c with mx := n 0, my := n 1, dt := dt } hg capa (fun i j => A ![i, j])
    (fun i j => α • Q₁ ![i, j] + β • Q₂ ![i, j]) fun i j => Q₂ ![i, j]
  refine three_some (x₁ := intSplit2 undef rpx rpy c capa dt n A Q₁) (x₂ := intSplit2 undef rpx rpy c capa dt n A Q₂)
    (x := intSplit2 undef rpx rpy c capa dt n A fun v => α • Q₁ v + β • Q₂ v)
    (P := fun (r₁ r₂ r : (Fin 2 → Int) → Fin m → K) => ∀ v : Fin 2 → Int, (∀ a, 1 ≤ v a ∧ v a ≤ n a) → r v = α • r₁ v + β • r₂ v)
    rfl rfl rfl e₁ e₂ fun v hv => ?_
  · exact lin_split2 hx hy undef { c with mx := n 0, my := n 1, dt := dt } hg hu capa (fun i j => A ![i, j])
      (fun i j => Q₁ ![i, j]) (fun i j => Q₂ ![i, j]) (v 0) (v 1) (hv 0).1 (hv 0).2 (hv 1).1 (hv 1).2

end plane

/-! ### Runs -/

/-- What the ghosted fields of the three runs have in common. -/
theorem lin_fill {ι : Type*} [DecidableEq ι] (bc : BCConfig ι K) (h : Admissible bc) (axes : List ι) (hx : bc.numAux = naux)
    {A₁ A₂ A : (ι → Int) → Fin naux → K} {Q₁ Q₂ Q : (ι → Int) → Fin m → K} {q₁ q₂ q a₁ a₂ a : GArr ι K} {z₁ z₂ z : BCArrays ι K}
    (f₁ : FilledBy bc axes m naux A₁ Q₁ q₁ a₁) (f₂ : FilledBy bc axes m naux A₂ Q₂ q₂ a₂) (f : FilledBy bc axes m naux A Q q a)
    (hc : Combined m naux bc.n α β (q₁, a₁, z₁) (q₂, a₂, z₂) (q, a, z)) (v : ι → Int) (hv : ∀ a, 1 - (bc.g : Int) ≤ v a ∧ v a ≤ bc.n a + bc.g) :
    Q v = α • Q₁ v + β • Q₂ v ∧ A₁ v = A v ∧ A₂ v = A v := by
  have hq := hc _ fun b => foldCell_lt _ _ (h.lower b) (h.upper b) _ bc.g (h.cells b).1 (h.cells b).2 _ (hv b).1 (hv b).2
  obtain ⟨g1, g2⟩ := f v hv
  obtain ⟨k1, k2⟩ := f₁ v hv
  obtain ⟨l1, l2⟩ := f₂ v hv
  refine ⟨?_, ?_⟩
  · rw [g1, k1, l1]
    funext k
    simp only [Pi.add_apply, Pi.smul_apply, smul_eq_mul]
    have e := hq.1 k.val k.isLt
    dsimp only at e
    rw [e]
    ring
  · rw [g2, k2, l2]
    by_cases hp : 0 < bc.numAux
    · have ha := hc _ fun b => foldCell_lt _ _ (h.auxLower hp b) (h.auxUpper hp b) _ bc.g (h.cells b).1 (h.cells b).2 _ (hv b).1 (hv b).2
      exact ⟨funext fun k => (ha.2 k.val k.isLt).1, funext fun k => (ha.2 k.val k.isLt).2⟩
    · have h0 : naux = 0 := by omega
      subst h0
      exact ⟨funext fun k => k.elim0, funext fun k => k.elim0⟩

/-- The hyperbolic steps of the three runs. -/
theorem lin_hyperbolic {step : IntKern (Fin d) K m naux} (c : ParCfg (Fin d) K) (hr : LinearRun α β c m naux step) (ha : Admissible c.bc)
    (hs : Serial c.bc) (hloc : LocalInt step c.bc.g) (hlin : LinearInt α β step) (dt : K) (D₁ D₂ D : HypData (Fin d) K)
    (h : Combined m naux c.bc.n α β (D₁.q, D₁.aux, D₁.work) (D₂.q, D₂.aux, D₂.work) (D.q, D.aux, D.work)) :
    (hypSerial c dt D₁).2 = (hypSerial c dt D).2 ∧ (hypSerial c dt D₂).2 = (hypSerial c dt D).2 ∧
      Combined m naux c.bc.n α β ((hypSerial c dt D₁).1.q, (hypSerial c dt D₁).1.aux, (hypSerial c dt D₁).1.work)
        ((hypSerial c dt D₂).1.q, (hypSerial c dt D₂).1.aux, (hypSerial c dt D₂).1.work)
        ((hypSerial c dt D).1.q, (hypSerial c dt D).1.aux, (hypSerial c dt D).1.work) := by
  have nd : c.axes.Nodup := by rw [hr.axes]; exact List.nodup_finRange d
  have al : ∀ b, b ∈ c.axes := by rw [hr.axes]; exact List.mem_finRange
  obtain ⟨w₁, f₁, F₁⟩ := serial_fill c.bc ha hs c.axes nd al m naux hr.numAux D₁.q D₁.aux D₁.work
  obtain ⟨w₂, f₂, F₂⟩ := serial_fill c.bc ha hs c.axes nd al m naux hr.numAux D₂.q D₂.aux D₂.work
  obtain ⟨w₀, f₀, F₀⟩ := serial_fill c.bc ha hs c.axes nd al m naux hr.numAux D.q D.aux D.work
  have key := lin_fill c.bc ha c.axes hr.numAux F₁ F₂ F₀ h
  have l₁ := hloc dt c.bc.n (fieldOf naux c.bc.g w₀.aux) (fieldOf naux c.bc.g w₁.aux) (fieldOf m c.bc.g w₁.q) (fieldOf m c.bc.g w₁.q)
    fun v hv => ⟨(key v hv).2.1, rfl⟩
  have l₂ := hloc dt c.bc.n (fieldOf naux c.bc.g w₀.aux) (fieldOf naux c.bc.g w₂.aux) (fieldOf m c.bc.g w₂.q) (fieldOf m c.bc.g w₂.q)
    fun v hv => ⟨(key v hv).2.2, rfl⟩
  have l₀ := hloc dt c.bc.n (fieldOf naux c.bc.g w₀.aux) (fieldOf naux c.bc.g w₀.aux)
    (fun v => α • fieldOf m c.bc.g w₁.q v + β • fieldOf m c.bc.g w₂.q v) (fieldOf m c.bc.g w₀.q) fun v hv => ⟨rfl, (key v hv).1⟩
  have l := hlin dt c.bc.n (fieldOf naux c.bc.g w₀.aux) (fieldOf m c.bc.g w₁.q) (fieldOf m c.bc.g w₂.q)
  unfold hypSerial
  simp only [f₁, f₂, f₀, hr.kern, onArrays]
  rcases l with ⟨x₁, x₂, x⟩ | ⟨r₁, r₂, r, cfl, x₁, x₂, x, hx⟩
  · rcases l₁ with ⟨_, y₁⟩ | ⟨_, _, _, y, _⟩
    · rcases l₂ with ⟨_, y₂⟩ | ⟨_, _, _, y, _⟩
      · rcases l₀ with ⟨_, y₀⟩ | ⟨_, _, _, y, _⟩
        · rw [y₁, y₂, y₀]; exact ⟨rfl, rfl, h⟩
        · rw [x] at y; cases y
      · rw [x₂] at y; cases y
    · rw [x₁] at y; cases y
  · rcases l₁ with ⟨y, _⟩ | ⟨u₁, u₁', _, y, y₁, h₁⟩
    · rw [x₁] at y; cases y
    rw [x₁] at y; cases y
    rcases l₂ with ⟨y, _⟩ | ⟨u₂, u₂', _, y, y₂, h₂⟩
    · rw [x₂] at y; cases y
    rw [x₂] at y; cases y
    rcases l₀ with ⟨y, _⟩ | ⟨u₀, u₀', _, y, y₀, h₀⟩
    · rw [x] at y; cases y
    rw [x] at y; cases y
    rw [y₁, y₂, y₀]
    refine ⟨rfl, rfl, fun z hz => ⟨fun k hk => ?_, (h z hz).2⟩⟩
    simp only [Option.map_some, putBack, hk, dite_true]
    have e1 : (fun i => (((z i + c.bc.g : Nat)) : Int) + 1 - c.bc.g) = fun i => (z i : Int) + 1 := by
      funext i; push_cast; ring
    have hv : ∀ a, (1 : Int) ≤ (z a : Int) + 1 ∧ (z a : Int) + 1 ≤ c.bc.n a := fun a => by have := hz a; omega
    rw [e1, h₀ _ hv, h₁ _ hv, h₂ _ hv, hx _ hv]
    rfl

/-- The source terms of the three runs. -/
theorem lin_source {step : IntKern (Fin d) K m naux} (c : ParCfg (Fin d) K) (hr : LinearRun α β c m naux step) (cond : Bool) (t h : K) :
    ∃ S : HypData (Fin d) K → HypData (Fin d) K, (∀ D, (serialPlug c).runSource cond t h D = (S D, .ok ())) ∧
      ∀ D₁ D₂ D : HypData (Fin d) K, Combined m naux c.bc.n α β (D₁.q, D₁.aux, D₁.work) (D₂.q, D₂.aux, D₂.work) (D.q, D.aux, D.work) →
        Combined m naux c.bc.n α β ((S D₁).q, (S D₁).aux, (S D₁).work) ((S D₂).q, (S D₂).aux, (S D₂).work) ((S D).q, (S D).aux, (S D).work) := by
  unfold ClassicPlug.runSource serialPlug
  cases hf : c.source with
  | none => exact ⟨id, fun D => rfl, fun _ _ _ h => h⟩
  | some f =>
    cases cond with
    | false => exact ⟨id, fun D => rfl, fun _ _ _ h => h⟩
    | true =>
      refine ⟨fun D => { D with q := cellwise (f t h) (fun _ => 0) D.q D.aux }, fun D => rfl, fun D₁ D₂ D hc x hx => ⟨fun k hk => ?_, (hc x hx).2⟩⟩
      exact hr.source f hf t h _ _ _ _ _ _ _ (hc x hx).1 (hc x hx).2 k hk

/-- Three serial runs of a linear problem. -/
theorem lin_env {step : IntKern (Fin d) K m naux} (c : ParCfg (Fin d) K) (hr : LinearRun α β c m naux step) (ha : Admissible c.bc)
    (hs : Serial c.bc) (hloc : LocalInt step c.bc.g) (hlin : LinearInt α β step) (rnd : K → K) (L : K) :
    SimEnv3 (Combined m naux c.bc.n α β) (serialEnv c rnd L) := by
  have hnum : ∀ t dt (D₁ D₂ D : HypData (Fin d) K),
      Combined m naux c.bc.n α β (D₁.q, D₁.aux, D₁.work) (D₂.q, D₂.aux, D₂.work) (D.q, D.aux, D.work) →
      (classicNumeric (serialPlug c) L t dt D₁).2 = (classicNumeric (serialPlug c) L t dt D).2 ∧
      (classicNumeric (serialPlug c) L t dt D₂).2 = (classicNumeric (serialPlug c) L t dt D).2 ∧
      Combined m naux c.bc.n α β
        ((classicNumeric (serialPlug c) L t dt D₁).1.q, (classicNumeric (serialPlug c) L t dt D₁).1.aux, (classicNumeric (serialPlug c) L t dt D₁).1.work)
        ((classicNumeric (serialPlug c) L t dt D₂).1.q, (classicNumeric (serialPlug c) L t dt D₂).1.aux, (classicNumeric (serialPlug c) L t dt D₂).1.work)
        ((classicNumeric (serialPlug c) L t dt D).1.q, (classicNumeric (serialPlug c) L t dt D).1.aux, (classicNumeric (serialPlug c) L t dt D).1.work) := by
    intro t dt D₁ D₂ D h
    obtain ⟨S, hS, hS'⟩ := lin_source c hr ((serialPlug c).sourceSplit == 2) t (dt / 2)
    obtain ⟨T, hT, hT'⟩ := lin_source c hr ((serialPlug c).sourceSplit == 1) t dt
    unfold classicNumeric
    simp only [hS, hT]
    have h1 := lin_hyperbolic c hr ha hs hloc hlin dt _ _ _ (hS' _ _ _ h)
    have e : (serialPlug c).hyperbolic = fun _ dt d => hypSerial c dt d := rfl
    simp only [e]
    revert h1
    generalize hypSerial c dt (S D₁) = X₁
    generalize hypSerial c dt (S D₂) = X₂
    generalize hypSerial c dt (S D) = X
    obtain ⟨X₁, y₁⟩ := X₁
    obtain ⟨X₂, y₂⟩ := X₂
    obtain ⟨X, y⟩ := X
    rintro ⟨e1, e2, h1⟩
    dsimp only at e1 e2 h1
    subst e1 e2
    rcases y₂ with e | x
    · exact ⟨rfl, rfl, h1⟩
    · simp only
      by_cases hL : L ≤ max 0 x
      · simp only [if_pos hL]
        exact ⟨trivial, trivial, h1⟩
      · simp only [if_neg hL]
        exact ⟨trivial, trivial, hT' _ _ _ (hS' _ _ _ h1)⟩
  have hbef : ∀ t d₁ d₂ d, Combined m naux c.bc.n α β d₁ d₂ d → Combined m naux c.bc.n α β ((serialEnv c rnd L).before t d₁)
      ((serialEnv c rnd L).before t d₂) ((serialEnv c rnd L).before t d) := by
    intro t d₁ d₂ d h x hx
    refine ⟨fun k hk => ?_, fun k hk => ⟨?_, ?_⟩⟩
    · exact hr.beforeQ t _ _ _ _ _ _ _ (h x hx).1 (h x hx).2 k hk
    · exact hr.beforeAux t _ _ _ _ _ (fun k hk => ((h x hx).2 k hk).1) k hk
    · exact hr.beforeAux t _ _ _ _ _ (fun k hk => ((h x hx).2 k hk).2) k hk
  refine ⟨fun t dt d₁ d₂ d h => ?_, fun t d₁ d₂ d h => ⟨rfl, rfl, h⟩⟩
  obtain ⟨k1, k2, k3⟩ := hnum t dt ⟨_, _, _⟩ ⟨_, _, _⟩ ⟨_, _, _⟩ (hbef t d₁ d₂ d h)
  exact ⟨k1, k2, k3, fun x hx => ⟨(h x hx).1, (k3 x hx).2⟩⟩

/-- Superposition in serial runs, from the step. -/
theorem lin_run [FloorRing K] {step : IntKern (Fin d) K m naux} (c : ParCfg (Fin d) K) (hr : LinearRun α β c m naux step) (ha : Admissible c.bc)
    (hs : Serial c.bc) (hloc : LocalInt step c.bc.g) (hlin : LinearInt α β step) (rnd : K → K) (L : K)
    (ops : List (StepOp K (GArr (Fin d) K) (GArr (Fin d) K × BCArrays (Fin d) K))) (hops : OnlyEvolves ops)
    (s₁ s₂ s : StepState K (GArr (Fin d) K) (GArr (Fin d) K × BCArrays (Fin d) K)) (h : Superposed m naux c.bc.n α β s₁ s₂ s) :
    Superposed m naux c.bc.n α β (runSteps (serialEnv c rnd L) ops s₁) (runSteps (serialEnv c rnd L) ops s₂)
      (runSteps (serialEnv c rnd L) ops s) := by
  have k := run_sim3 (lin_env c hr ha hs hloc hlin rnd L) ops hops s₁ s₂ s
    ⟨h.first.set, h.first.status, h.first.t, h.first.log, h.second.set, h.second.status, h.second.t, h.second.log, h.data⟩
  exact ⟨⟨k.set₁, k.status₁, k.t₁, k.log₁, trivial⟩, ⟨k.set₂, k.status₂, k.t₂, k.log₂, trivial⟩, k.data⟩

end PyClaw
