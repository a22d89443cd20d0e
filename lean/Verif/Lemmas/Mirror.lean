import Verif.Lemmas.Simulation
import Verif.Props.ParallelKernels
import Mathlib.Tactic.LinearCombination

/-! Lemmas about the one-dimensional kernels and the ghost cells in a mirror. -/
set_option linter.unusedSectionVars false

namespace PyClaw
open Spec

variable {K : Type*} [Field K] [LinearOrder K] [IsStrictOrderedRing K] {A : Type*} {m w : Nat}

/-! ### One line of cells -/

theorem sign_mul_self {σ : Fin m → K} (hσ : IsSign σ) (k : Fin m) : σ k * σ k = 1 := by
  rcases hσ k with h | h <;> rw [h] <;> ring

theorem signed_signed {σ : Fin m → K} (hσ : IsSign σ) (u : Fin m → K) : signed σ (signed σ u) = u := by
  funext k
  unfold signed
  rw [← mul_assoc, sign_mul_self hσ, one_mul]

theorem wdot_signed {σ : Fin m → K} (hσ : IsSign σ) (u v : Fin m → K) : wdot (signed σ u) (signed σ v) = wdot u v := by
  unfold wdot signed
  refine Finset.sum_congr rfl fun k _ => ?_
  linear_combination u k * v k * sign_mul_self hσ k

theorem wdot_neg_neg (u v : Fin m → K) : wdot (-u) (-v) = wdot u v := by
  unfold wdot
  refine Finset.sum_congr rfl fun k _ => ?_
  simp only [Pi.neg_apply]
  ring

/-- One step on a line of cells. -/
def lineStep (a : K → K) (o : Prop) [Decidable o] (phi : Fin w → K → K → K) (rp : Riemann K A m w) (dt dx : K)
    (capa : Option (A → K)) (aux : Int → A) (q : Int → Fin m → K) (i : Int) : Fin m → K :=
  waveProp (localRatio dt dx capa aux) (interfaces rp aux q)
    (if o then correctionFlux a (localRatio dt dx capa aux) (interfaces rp aux q)
      (limitedWave phi (localRatio dt dx capa aux) (interfaces rp aux q)) else fun _ => 0) q i

section mirror

variable {σ : Fin m → K} {RA : A → A} {π : Equiv.Perm (Fin w)} {fw : Bool} {rp rp' : Riemann K A m w}

theorem mirror_ratio (dt dx : K) (capa : Option (A → K)) (hc : ∀ κ, capa = some κ → ∀ z, κ (RA z) = κ z) (N : Int) (aux : Int → A)
    (j : Int) : localRatio dt dx capa (fun j => RA (aux (N - j))) j = localRatio dt dx capa aux (N - j) := by
  unfold localRatio
  cases capa with
  | none => rfl
  | some κ => simp only [hc κ rfl]

theorem mirror_interface (hM : MirrorImage σ RA π fw rp rp') (N : Int) (aux : Int → A) (q : Int → Fin m → K) (j : Int) :
    (∀ p, (interfaces rp' (fun j => RA (aux (N - j))) (fun j => signed σ (q (N - j))) j).s (π p) = -(interfaces rp aux q (N + 1 - j)).s p) ∧
    (∀ p, (interfaces rp' (fun j => RA (aux (N - j))) (fun j => signed σ (q (N - j))) j).wave (π p) =
      if fw then signed σ ((interfaces rp aux q (N + 1 - j)).wave p) else -signed σ ((interfaces rp aux q (N + 1 - j)).wave p)) ∧
    (interfaces rp' (fun j => RA (aux (N - j))) (fun j => signed σ (q (N - j))) j).amdq = signed σ (interfaces rp aux q (N + 1 - j)).apdq ∧
    (interfaces rp' (fun j => RA (aux (N - j))) (fun j => signed σ (q (N - j))) j).apdq = signed σ (interfaces rp aux q (N + 1 - j)).amdq := by
  have h := hM (q (N - j)) (q (N - (j - 1))) (aux (N - j)) (aux (N - (j - 1)))
  have e1 : N - (j - 1) = N + 1 - j := by ring
  have e2 : N - j = N + 1 - j - 1 := by ring
  unfold interfaces
  simp only
  rw [e1, e2] at h ⊢
  exact h

theorem mirror_limited (hσ : IsSign σ) (hM : MirrorImage σ RA π fw rp rp') (dt dx : K) (capa : Option (A → K))
    (hc : ∀ κ, capa = some κ → ∀ z, κ (RA z) = κ z) (phi phi' : Fin w → K → K → K) (hphi : ∀ p, phi' (π p) = phi p) (N : Int)
    (aux : Int → A) (q : Int → Fin m → K) (j : Int) (p : Fin w) (hs : (interfaces rp aux q (N + 1 - j)).s p ≠ 0) :
    limitedWave phi' (localRatio dt dx capa fun j => RA (aux (N - j))) (interfaces rp' (fun j => RA (aux (N - j))) fun j => signed σ (q (N - j)))
      j (π p) =
    if fw then signed σ (limitedWave phi (localRatio dt dx capa aux) (interfaces rp aux q) (N + 1 - j) p)
    else -signed σ (limitedWave phi (localRatio dt dx capa aux) (interfaces rp aux q) (N + 1 - j) p) := by
  have h0 := mirror_interface hM N aux q j
  have h1 := (mirror_interface hM N aux q (j - 1)).2.1 p
  have h2 := (mirror_interface hM N aux q (j + 1)).2.1 p
  have l0 := mirror_ratio dt dx capa hc N aux j
  have l1 := mirror_ratio dt dx capa hc N aux (j - 1)
  rw [show N + 1 - (j - 1) = N + 1 - j + 1 by ring] at h1
  rw [show N + 1 - (j + 1) = N + 1 - j - 1 by ring] at h2
  rw [show N - j = N + 1 - j - 1 by ring] at l0
  rw [show N - (j - 1) = N + 1 - j by ring] at l1
  unfold limitedWave
  simp only [h0.1 p, h0.2.1 p, h1, h2, l0, l1, hphi]
  generalize interfaces rp aux q (N + 1 - j) = D at *
  generalize interfaces rp aux q (N + 1 - j + 1) = D1 at *
  generalize interfaces rp aux q (N + 1 - j - 1) = D2 at *
  generalize localRatio dt dx capa aux (N + 1 - j) = L at *
  generalize localRatio dt dx capa aux (N + 1 - j - 1) = L1 at *
  have wd : ∀ u v : Fin m → K, wdot (if fw = true then signed σ u else -signed σ u) (if fw = true then signed σ v else -signed σ v) = wdot u v := by
    intro u v
    cases fw
    · simp only [Bool.false_eq_true, if_false, wdot_neg_neg, wdot_signed hσ]
    · simp only [if_true, wdot_signed hσ]
  have sm : ∀ (x : K) (u : Fin m → K), x • (if fw = true then signed σ u else -signed σ u) =
      if fw = true then signed σ (x • u) else -signed σ (x • u) := by
    intro x u
    cases fw <;> funext k <;> simp only [signed, Bool.false_eq_true, if_false, if_true, Pi.smul_apply, Pi.neg_apply, smul_eq_mul] <;> ring
  by_cases hp : 0 < D.s p
  · have hn : ¬ 0 < -D.s p := by linarith
    simp only [if_pos hp, if_neg hn, wd, neg_mul, abs_neg, sm]
    split_ifs <;> rfl
  · have hn : 0 < -D.s p := by
      rcases lt_trichotomy (D.s p) 0 with h | h | h
      · linarith
      · exact absurd h hs
      · exact absurd h hp
    simp only [if_pos hn, if_neg hp, wd, neg_mul, abs_neg, sm]
    split_ifs <;> rfl

/-- What is required of the factor `a` of the correction flux: for waves it is even, for f-waves odd; at speed 0 it is 0. -/
def MirrorFactor (a : K → K) (fw : Bool) (s : K) : Prop := (s = 0 ∧ a 0 = 0) ∨ (s ≠ 0 ∧ a (-s) = if fw then -a s else a s)

theorem mirror_flux (hσ : IsSign σ) (hM : MirrorImage σ RA π fw rp rp') (dt dx : K) (capa : Option (A → K))
    (hc : ∀ κ, capa = some κ → ∀ z, κ (RA z) = κ z) (phi phi' : Fin w → K → K → K) (hphi : ∀ p, phi' (π p) = phi p) (a : K → K) (N : Int)
    (aux : Int → A) (q : Int → Fin m → K) (j : Int) (ha : ∀ p, MirrorFactor a fw ((interfaces rp aux q (N + 1 - j)).s p)) :
    correctionFlux a (localRatio dt dx capa fun j => RA (aux (N - j))) (interfaces rp' (fun j => RA (aux (N - j))) fun j => signed σ (q (N - j)))
      (limitedWave phi' (localRatio dt dx capa fun j => RA (aux (N - j)))
        (interfaces rp' (fun j => RA (aux (N - j))) fun j => signed σ (q (N - j)))) j =
    -signed σ (correctionFlux a (localRatio dt dx capa aux) (interfaces rp aux q)
      (limitedWave phi (localRatio dt dx capa aux) (interfaces rp aux q)) (N + 1 - j)) := by
  unfold correctionFlux
  rw [← Equiv.sum_comp π]
  have e : ∀ f : Fin w → Fin m → K, -signed σ (∑ p, f p) = ∑ p, -signed σ (f p) := by
    intro f
    funext k
    simp only [signed, Finset.sum_apply, Pi.neg_apply, Finset.mul_sum, Finset.sum_neg_distrib]
  rw [e]
  refine Finset.sum_congr rfl fun p _ => ?_
  have l0 := mirror_ratio dt dx capa hc N aux j
  have l1 := mirror_ratio dt dx capa hc N aux (j - 1)
  rw [show N - j = N + 1 - j - 1 by ring] at l0
  rw [show N - (j - 1) = N + 1 - j by ring] at l1
  have h0 := (mirror_interface hM N aux q j).1 p
  rw [h0, l0, l1, abs_neg]
  rcases ha p with ⟨hs, h⟩ | ⟨hs, h⟩
  · rw [hs, neg_zero, h]
    funext k
    simp [signed]
  · rw [mirror_limited hσ hM dt dx capa hc phi phi' hphi N aux q j p hs, h]
    funext k
    cases fw <;> simp only [signed, Bool.false_eq_true, if_false, if_true, Pi.smul_apply, Pi.neg_apply, smul_eq_mul] <;> ring

/-- A step in the mirror. -/
theorem mirror_line (hσ : IsSign σ) (hM : MirrorImage σ RA π fw rp rp') (dt dx : K) (capa : Option (A → K))
    (hc : ∀ κ, capa = some κ → ∀ z, κ (RA z) = κ z) (phi phi' : Fin w → K → K → K) (hphi : ∀ p, phi' (π p) = phi p) (a : K → K)
    (o : Prop) [Decidable o] (N : Int) (aux : Int → A) (q : Int → Fin m → K) (i : Int)
    (ha : o → ∀ j p, MirrorFactor a fw ((interfaces rp aux q j).s p)) :
    lineStep a o phi' rp' dt dx capa (fun j => RA (aux (N - j))) (fun j => signed σ (q (N - j))) i =
      signed σ (lineStep a o phi rp dt dx capa aux q (N - i)) := by
  have h0 := mirror_interface hM N aux q i
  have h1 := mirror_interface hM N aux q (i + 1)
  rw [show N + 1 - i = N - i + 1 by ring] at h0
  rw [show N + 1 - (i + 1) = N - i by ring] at h1
  unfold lineStep waveProp
  rw [mirror_ratio dt dx capa hc, h0.2.2.2, h1.2.2.1]
  by_cases ho : o
  · simp only [if_pos ho]
    rw [mirror_flux hσ hM dt dx capa hc phi phi' hphi a N aux q i fun p => ha ho _ p,
      mirror_flux hσ hM dt dx capa hc phi phi' hphi a N aux q (i + 1) fun p => ha ho _ p]
    rw [show N + 1 - i = N - i + 1 by ring, show N + 1 - (i + 1) = N - i by ring]
    funext k
    simp only [signed, Pi.smul_apply, Pi.neg_apply, Pi.sub_apply, Pi.add_apply, smul_eq_mul]
    ring
  · simp only [if_neg ho]
    funext k
    simp only [signed, Pi.smul_apply, Pi.sub_apply, Pi.add_apply, smul_eq_mul, Pi.zero_apply]
    ring

/-- The Courant numbers at an interface in the mirror. -/
theorem mirror_number (hM : MirrorImage σ RA π fw rp rp') (dt dx : K) (capa : Option (A → K))
    (hc : ∀ κ, capa = some κ → ∀ z, κ (RA z) = κ z) (N : Int) (aux : Int → A) (q : Int → Fin m → K) (j : Int) (x : K) :
    WaveNumber (localRatio dt dx capa fun j => RA (aux (N - j))) (interfaces rp' (fun j => RA (aux (N - j))) fun j => signed σ (q (N - j))) j x ↔
      WaveNumber (localRatio dt dx capa aux) (interfaces rp aux q) (N + 1 - j) x := by
  have h0 := (mirror_interface hM N aux q j).1
  have l0 := mirror_ratio dt dx capa hc N aux j
  have l1 := mirror_ratio dt dx capa hc N aux (j - 1)
  rw [show N - j = N + 1 - j - 1 by ring] at l0
  rw [show N - (j - 1) = N + 1 - j by ring] at l1
  unfold WaveNumber
  constructor
  · rintro ⟨p, h⟩
    obtain ⟨p, rfl⟩ := π.surjective p
    rw [h0, l0, l1] at h
    refine ⟨p, ?_⟩
    rcases h with h | h
    · exact Or.inr (by rw [h]; ring)
    · exact Or.inl (by rw [h]; ring)
  · rintro ⟨p, h⟩
    refine ⟨π p, ?_⟩
    rw [h0, l0, l1]
    rcases h with h | h
    · exact Or.inr (by rw [h]; ring)
    · exact Or.inl (by rw [h]; ring)

end mirror

/-! ### Ghost cells -/

/-- The cell (counted from 0) whose value cell `v` (counted from 1) of a line of `n` cells with ghost cells holds. -/
def foldCell (lo up : BCType) (n : Nat) (v : Int) : Nat :=
  if v < 1 then
    match lo with
    | .extrap => 0
    | .periodic => (v + n - 1).toNat
    | _ => (-v).toNat
  else if (n : Int) < v then
    match up with
    | .extrap => n - 1
    | .periodic => (v - n - 1).toNat
    | _ => (2 * n - v).toNat
  else (v - 1).toNat

/-- Cell `v` lies behind a wall. -/
def pastWall (lo up : BCType) (n : Nat) (v : Int) : Bool := (decide (v < 1) && lo == .wall) || (decide ((n : Int) < v) && up == .wall)

theorem foldCell_lt (lo up : BCType) (hlo : BuiltInBC lo) (hup : BuiltInBC up) (n g : Nat) (hn : 0 < n) (hg : g ≤ n) (v : Int)
    (h1 : 1 - (g : Int) ≤ v) (h2 : v ≤ n + g) : foldCell lo up n v < n := by
  unfold foldCell
  split_ifs
  · rcases hlo with rfl | rfl | rfl <;> dsimp only <;> omega
  · rcases hup with rfl | rfl | rfl <;> dsimp only <;> omega
  · omega

theorem foldCell_interior (lo up : BCType) (n x : Nat) (hx : x < n) : foldCell lo up n ((x : Int) + 1) = x := by
  unfold foldCell
  rw [if_neg (by omega), if_neg (by omega)]
  omega

theorem foldCell_mirror (lo up : BCType) (hlo : BuiltInBC lo) (hup : BuiltInBC up) (n g : Nat) (hn : 0 < n) (hg : g ≤ n) (v : Int)
    (h1 : 1 - (g : Int) ≤ v) (h2 : v ≤ n + g) : foldCell up lo n (n + 1 - v) = n - 1 - foldCell lo up n v := by
  unfold foldCell
  split_ifs <;> first | omega | (rcases hlo with rfl | rfl | rfl <;> rcases hup with rfl | rfl | rfl <;> dsimp only <;> omega)

theorem pastWall_mirror (lo up : BCType) (n : Nat) (v : Int) : pastWall up lo n (n + 1 - v) = pastWall lo up n v := by
  unfold pastWall
  have e1 : decide ((n : Int) + 1 - v < 1) = decide ((n : Int) < v) := by apply decide_eq_decide.mpr; omega
  have e2 : decide ((n : Int) < n + 1 - v) = decide (v < 1) := by apply decide_eq_decide.mpr; omega
  rw [e1, e2, Bool.or_comm]

section fill

variable {ι : Type*} [DecidableEq ι]

theorem src_foldCell (b : Sides ι) (a : ι) (lo up : BCType) (hlo : BuiltInBC lo) (hup : BuiltInBC up) (hl : b.lower a = some lo)
    (hu : b.upper a = some up) (hn : 0 < b.n a) (hg : b.g ≤ b.n a) (v : Int) (h1 : 1 - (b.g : Int) ≤ v) (h2 : v ≤ b.n a + b.g) :
    b.src a (v + b.g - 1).toNat - b.g = foldCell lo up (b.n a) v := by
  unfold Sides.src foldCell
  rw [hl, hu]
  by_cases h3 : v < 1
  · rw [if_pos (by omega), if_pos h3]
    rcases hlo with rfl | rfl | rfl <;> simp only [lowerSrc] <;> omega
  · rw [if_neg (by omega), if_neg h3]
    by_cases h4 : ((b.n a : Nat) : Int) < v
    · rw [if_pos (by omega), if_pos h4]
      rcases hup with rfl | rfl | rfl <;> simp only [upperSrc] <;> omega
    · rw [if_neg (by omega), if_neg h4]
      omega

theorem behind_pastWall (b : Sides ι) (a : ι) (lo up : BCType) (hl : b.lower a = some lo) (hu : b.upper a = some up) (v : Int)
    (h1 : 1 - (b.g : Int) ≤ v) : b.behindWall a (v + b.g - 1).toNat = pastWall lo up (b.n a) v := by
  unfold Sides.behindWall pastWall
  have e1 : decide ((v + b.g - 1).toNat < b.g) = decide (v < 1) := by apply decide_eq_decide.mpr; omega
  have e2 : decide (b.g + b.n a ≤ (v + b.g - 1).toNat) = decide ((b.n a : Int) < v) := by apply decide_eq_decide.mpr; omega
  rw [e1, e2, hl, hu]
  rfl

/-- The sign with which component `k` appears in cell `v`. -/
def ghostSign (bc : BCConfig ι K) (axes : List ι) (v : ι → Int) (k : Nat) : K :=
  (axes.map fun a => if pastWall (bc.bcLower a) (bc.bcUpper a) (bc.n a) (v a) && some (bc.reflect a) == some k then (-1 : K) else 1).prod

/-- All ghost cells of a serial run. -/
theorem serial_fill (bc : BCConfig ι K) (h : Admissible bc) (hs : Serial bc) (axes : List ι) (hnd : axes.Nodup) (hall : ∀ a, a ∈ axes)
    (m naux : Nat) (hx : bc.numAux = naux) (q aux : GArr ι K) (old : BCArrays ι K) :
    ∃ w, applyBcs bc axes q aux old = (w, .ok ()) ∧
      ∀ v : ι → Int, (∀ a, 1 - (bc.g : Int) ≤ v a ∧ v a ≤ bc.n a + bc.g) →
        (fieldOf m bc.g w.q v = fun k => ghostSign bc axes v k.val *
          q k.val fun a => foldCell (bc.bcLower a) (bc.bcUpper a) (bc.n a) (v a)) ∧
        fieldOf naux bc.g w.aux v = auxAt naux aux fun a => foldCell (bc.auxLower a) (bc.auxUpper a) (bc.n a) (v a) := by
  obtain ⟨w, hw, hf⟩ := C17_serial_fill bc h hs axes hnd hall q aux old
  refine ⟨w, hw, fun v hv => ?_⟩
  have hin : InGhosted bc fun a => (v a + bc.g - 1).toNat := fun a => by
    have := hv a
    simp only; omega
  constructor
  · funext k
    have e := (hf k.val _ hin).1
    unfold fieldOf
    rw [e]
    congr 1
    · unfold Sides.sign ghostSign
      congr 1
      refine List.map_congr_left fun a _ => ?_
      have := behind_pastWall (qSides bc) a (bc.bcLower a) (bc.bcUpper a) (by simp [qSides, hs a]) (by simp [qSides, hs a]) (v a) (hv a).1
      rw [show (qSides bc).n a = bc.n a from rfl, show (qSides bc).g = bc.g from rfl] at this
      simp only [this]
    · congr 1
      funext a
      exact src_foldCell (qSides bc) a (bc.bcLower a) (bc.bcUpper a) (h.lower a) (h.upper a) (by simp [qSides, hs a])
        (by simp [qSides, hs a]) (h.cells a).1 (h.cells a).2 (v a) (hv a).1 (hv a).2
  · funext k
    have hp : 0 < bc.numAux := by have := k.2; omega
    have e := (hf k.val _ hin).2 hp
    unfold fieldOf
    rw [e]
    congr 1
    funext a
    exact src_foldCell (auxSides bc) a (bc.auxLower a) (bc.auxUpper a) (h.auxLower hp a) (h.auxUpper hp a) (by simp [auxSides, hs a, hp])
        (by simp [auxSides, hs a, hp]) (h.cells a).1 (h.cells a).2 (v a) (hv a).1 (hv a).2

theorem mirrorCell_lt (n : ι → Nat) (a : ι) (x : ι → Nat) (hx : ∀ b, x b < n b) (b : ι) : mirrorCell n a x b < n b := by
  unfold mirrorCell
  by_cases h : b = a
  · subst h
    rw [Function.update_self]
    have := hx b
    omega
  · rw [Function.update_of_ne h]
    exact hx b

theorem mirrorCell_mirrorCell (n : ι → Nat) (a : ι) (x : ι → Nat) (hx : ∀ b, x b < n b) : mirrorCell n a (mirrorCell n a x) = x := by
  unfold mirrorCell
  rw [Function.update_self, Function.update_idem]
  have := hx a
  rw [show n a - 1 - (n a - 1 - x a) = x a by omega, Function.update_eq_self]

theorem mirrorBC_admissible (bc : BCConfig ι K) (h : Admissible bc) (a : ι) : Admissible (mirrorBC a bc) where
  cells := h.cells
  lower := by
    intro b
    by_cases hb : b = a
    · subst hb; simp only [mirrorBC, Function.update_self]; exact h.upper b
    · simp only [mirrorBC, Function.update_of_ne hb]; exact h.lower b
  upper := by
    intro b
    by_cases hb : b = a
    · subst hb; simp only [mirrorBC, Function.update_self]; exact h.lower b
    · simp only [mirrorBC, Function.update_of_ne hb]; exact h.upper b
  auxLower := by
    intro hp b
    by_cases hb : b = a
    · subst hb; simp only [mirrorBC, Function.update_self]; exact h.auxUpper hp b
    · simp only [mirrorBC, Function.update_of_ne hb]; exact h.auxLower hp b
  auxUpper := by
    intro hp b
    by_cases hb : b = a
    · subst hb; simp only [mirrorBC, Function.update_self]; exact h.auxLower hp b
    · simp only [mirrorBC, Function.update_of_ne hb]; exact h.auxUpper hp b
  reflect := by
    intro b hw
    refine h.reflect b ?_
    by_cases hb : b = a
    · subst hb; simp only [mirrorBC, Function.update_self] at hw; exact hw.symm
    · simpa only [mirrorBC, Function.update_of_ne hb] using hw

/-- What `serial_fill` says about ghosted fields. -/
def FilledBy (bc : BCConfig ι K) (axes : List ι) (m naux : Nat) (A : (ι → Int) → Fin naux → K) (Q : (ι → Int) → Fin m → K)
    (q aux : GArr ι K) : Prop :=
  ∀ v : ι → Int, (∀ a, 1 - (bc.g : Int) ≤ v a ∧ v a ≤ bc.n a + bc.g) →
    (Q v = fun k => ghostSign bc axes v k.val * q k.val fun a => foldCell (bc.bcLower a) (bc.bcUpper a) (bc.n a) (v a)) ∧
    A v = auxAt naux aux fun a => foldCell (bc.auxLower a) (bc.auxUpper a) (bc.n a) (v a)

/-- The ghosted fields of the mirrored data with the mirrored boundary conditions are the mirrored fields. -/
theorem mirror_fill (bc : BCConfig ι K) (h : Admissible bc) (a : ι) (axes : List ι) {m naux : Nat} (hx : bc.numAux = naux)
    {A A' : (ι → Int) → Fin naux → K} {Q Q' : (ι → Int) → Fin m → K} {q q' aux aux' : GArr ι K} (σ : Fin m → K)
    (RA : (Fin naux → K) → Fin naux → K)
    (f : FilledBy bc axes m naux A Q q aux) (f' : FilledBy (mirrorBC a bc) axes m naux A' Q' q' aux')
    (hq : ∀ x : ι → Nat, (∀ i, x i < bc.n i) → (fun k : Fin m => q' k.val x) = signed σ fun k => q k.val (mirrorCell bc.n a x))
    (ha : ∀ x : ι → Nat, (∀ i, x i < bc.n i) → auxAt naux aux' x = RA (auxAt naux aux (mirrorCell bc.n a x)))
    (v : ι → Int) (hv : ∀ a, 1 - (bc.g : Int) ≤ v a ∧ v a ≤ bc.n a + bc.g) :
    Q' (Function.update v a (bc.n a + 1 - v a)) = signed σ (Q v) ∧ A' (Function.update v a (bc.n a + 1 - v a)) = RA (A v) := by
  have hv' : ∀ b, 1 - (bc.g : Int) ≤ Function.update v a ((bc.n a : Int) + 1 - v a) b ∧
      Function.update v a ((bc.n a : Int) + 1 - v a) b ≤ bc.n b + bc.g := by
    intro b
    by_cases hb : b = a
    · subst hb
      have := hv b
      rw [Function.update_self]
      omega
    · rw [Function.update_of_ne hb]; exact hv b
  obtain ⟨e1, e2⟩ := f v hv
  obtain ⟨e1', e2'⟩ := f' (Function.update v a (bc.n a + 1 - v a)) hv'
  constructor
  · have hlt : ∀ b, foldCell (bc.bcLower b) (bc.bcUpper b) (bc.n b) (v b) < bc.n b := fun b =>
      foldCell_lt _ _ (h.lower b) (h.upper b) _ bc.g (h.cells b).1 (h.cells b).2 _ (hv b).1 (hv b).2
    have hc : (fun b => foldCell ((mirrorBC a bc).bcLower b) ((mirrorBC a bc).bcUpper b) ((mirrorBC a bc).n b)
        (Function.update v a ((bc.n a : Int) + 1 - v a) b)) =
        mirrorCell bc.n a fun b => foldCell (bc.bcLower b) (bc.bcUpper b) (bc.n b) (v b) := by
      funext b
      unfold mirrorCell
      by_cases hb : b = a
      · subst hb
        simp only [mirrorBC, Function.update_self]
        exact foldCell_mirror _ _ (h.lower b) (h.upper b) _ bc.g (h.cells b).1 (h.cells b).2 _ (hv b).1 (hv b).2
      · simp only [mirrorBC, Function.update_of_ne hb]
    have hsg : ∀ k, ghostSign (mirrorBC a bc) axes (Function.update v a ((bc.n a : Int) + 1 - v a)) k = ghostSign bc axes v k := by
      intro k
      unfold ghostSign
      congr 1
      refine List.map_congr_left fun b _ => ?_
      have : pastWall ((mirrorBC a bc).bcLower b) ((mirrorBC a bc).bcUpper b) ((mirrorBC a bc).n b)
          (Function.update v a ((bc.n a : Int) + 1 - v a) b) = pastWall (bc.bcLower b) (bc.bcUpper b) (bc.n b) (v b) := by
        by_cases hb : b = a
        · subst hb
          simp only [mirrorBC, Function.update_self]
          exact pastWall_mirror _ _ _ _
        · simp only [mirrorBC, Function.update_of_ne hb]
      rw [this]
      rfl
    rw [e1', e1]
    funext k
    rw [hc, hsg]
    have := congrFun (hq _ (mirrorCell_lt bc.n a _ hlt)) k
    rw [mirrorCell_mirrorCell bc.n a _ hlt] at this
    simp only [signed] at this ⊢
    rw [this]
    ring
  · by_cases hp : 0 < naux
    · have hp' : 0 < bc.numAux := hx ▸ hp
      have hlt : ∀ b, foldCell (bc.auxLower b) (bc.auxUpper b) (bc.n b) (v b) < bc.n b := fun b =>
        foldCell_lt _ _ (h.auxLower hp' b) (h.auxUpper hp' b) _ bc.g (h.cells b).1 (h.cells b).2 _ (hv b).1 (hv b).2
      have hc : (fun b => foldCell ((mirrorBC a bc).auxLower b) ((mirrorBC a bc).auxUpper b) ((mirrorBC a bc).n b)
          (Function.update v a ((bc.n a : Int) + 1 - v a) b)) =
          mirrorCell bc.n a fun b => foldCell (bc.auxLower b) (bc.auxUpper b) (bc.n b) (v b) := by
        funext b
        unfold mirrorCell
        by_cases hb : b = a
        · subst hb
          simp only [mirrorBC, Function.update_self]
          exact foldCell_mirror _ _ (h.auxLower hp' b) (h.auxUpper hp' b) _ bc.g (h.cells b).1 (h.cells b).2 _ (hv b).1 (hv b).2
        · simp only [mirrorBC, Function.update_of_ne hb]
      rw [e2', e2, hc, ha _ (mirrorCell_lt bc.n a _ hlt), mirrorCell_mirrorCell bc.n a _ hlt]
    · funext k
      exact absurd k.isLt (by omega)

end fill

/-! ### Kernels on one line of cells -/

variable {naux : Nat}

theorem lineStep_local (a : K → K) (o : Prop) [Decidable o] (phi : Fin w → K → K → K) (rp : Riemann K A m w) (dt dx : K)
    (capa : Option (A → K)) (aux aux' : Int → A) (q q' : Int → Fin m → K) (i : Int)
    (hx : ∀ j, i - 2 ≤ j → j ≤ i + 2 → aux j = aux' j) (hq : ∀ j, i - 2 ≤ j → j ≤ i + 2 → q j = q' j) :
    lineStep a o phi rp dt dx capa aux q i = lineStep a o phi rp dt dx capa aux' q' i :=
  waveProp_local rp dt dx capa aux aux' q q' a phi o i hq hx

/-- What a kernel does on one line of cells: `lineStep` in the interior, and the Courant number of the interfaces from `lo` on; it
stops unless the aux values are all right. -/
structure LineKernel (step : IntKern (Fin 1) K m naux) (g : Nat) (a : K → K) (o : Prop) [Decidable o] (phi : Fin w → K → K → K)
    (rp : Riemann K (Fin naux → K) m w) (dx : K) (capa : Option ((Fin naux → K) → K)) (lo : Int) (ok : (Fin naux → K) → Prop) : Prop where
  runs : ∀ dt (n : Fin 1 → Nat) (A : (Fin 1 → Int) → Fin naux → K) (Q : (Fin 1 → Int) → Fin m → K), 
    (∀ i : Int, 1 - (g : Int) ≤ i → i ≤ n 0 + g → ok (A fun _ => i)) →
    ∃ r cfl, step dt n A Q = some (r, cfl) ∧
      (∀ i : Int, 1 ≤ i → i ≤ n 0 → r (fun _ => i) = lineStep a o phi rp dt dx capa (fun i => A fun _ => i) (fun i => Q fun _ => i) i) ∧
      IsMaxWithZero (fun x => ∃ i : Int, lo ≤ i ∧ i ≤ n 0 + 1 ∧
        WaveNumber (localRatio dt dx capa fun i => A fun _ => i) (interfaces rp (fun i => A fun _ => i) (fun i => Q fun _ => i)) i x) cfl
  stops : ∀ dt (n : Fin 1 → Nat) (A : (Fin 1 → Int) → Fin naux → K) (Q : (Fin 1 → Int) → Fin m → K),
    (¬ ∀ i : Int, 1 - (g : Int) ≤ i → i ≤ n 0 + g → ok (A fun _ => i)) → step dt n A Q = none

theorem fortran1_line (undef : K) (rp : Riemann K (Fin naux → K) m w) (c : Cfg1 K w) (capa : Option ((Fin naux → K) → K)) :
    LineKernel (intStep1 undef rp c capa) c.g (if c.fwave then dsign1 else abs) (¬ c.order = 1) (fPhi undef c.limiter) rp c.dx capa 1
      (fun z => ∀ κ, capa = some κ → 0 < κ z) where
  runs := by
    intro dt n A Q hok
    obtain ⟨q', cfl, h1, h2, h3⟩ := fStep1_interior undef rp { c with n := n 0, dt := dt } capa (fun i => A fun _ => i)
      (fun i => Q fun _ => i) (fun κ hκ i i1 i2 => hok i i1 i2 κ hκ)
    refine ⟨fun v => q' (v 0), cfl, ?_, fun i i1 i2 => ?_, ?_⟩
    · unfold intStep1; rw [h1]; rfl
    · refine (h3 i i1 (by dsimp only; omega)).trans ?_
      unfold lineStep
      dsimp only
      by_cases ho : c.order = 1
      · rw [if_pos ho, if_neg (not_not.mpr ho)]
      · rw [if_neg ho, if_pos ho]
    · rw [h2]
      exact isMax_congr (fun v => Iff.rfl) (fCfl_isMax _ _ _)
  stops := by
    intro dt n A Q hno
    unfold intStep1 fStep1 fKernel
    rw [if_neg]
    · rfl
    · intro hc
      refine hno fun i i1 i2 κ hκ => ?_
      exact hc (fun i => κ (A fun _ => i)) (by rw [hκ]; rfl) i i1 i2

theorem python1_line (opq : Int → LimFun K) (rp : Riemann K (Fin naux → K) m w) (c : Cfg1 K w) (hg : 2 ≤ c.g)
    (hlim : ∀ p, 0 ≤ c.limiter p ∧ c.limiter p ≤ 16) (capa : Option ((Fin naux → K) → K)) :
    LineKernel (intPyStep1 (pyLimiterFun opq) rp c capa) c.g (if c.fwave then npSign else abs) (c.order = 2) (localPhi opq c.limiter) rp c.dx
      capa 0 (fun _ => True) where
  runs := by
    intro dt n aux q _
    refine ⟨_, _, rfl, fun i i1 i2 => ?_, ?_⟩
    · dsimp only
      rw [pyStep1_phi opq rp { c with n := n 0, dt := dt } hlim capa _ _ hg _ (by dsimp only; omega) (by dsimp only; omega)]
      refine (waveProp_shift rp dt c.dx capa (fun i => aux fun _ => i) (fun i => q fun _ => i) (if c.fwave then npSign else abs)
        (if c.fwave then npSign else abs) (localPhi opq c.limiter) (localPhi opq c.limiter) (c.order = 2) (1 - c.g) (i + c.g - 1) rfl
        (fun _ _ _ => rfl)).trans ?_
      rw [show i + (c.g : Int) - 1 + (1 - c.g) = i by ring]
      rfl
    · have e : (pyStep1 (pyLimiterFun opq) rp { c with n := n 0, dt := dt } capa (fun x => aux fun _ => x + (1 - c.g))
          (fun x => q fun _ => x + (1 - c.g))).2 = pyCfl (c.g - 1) (c.g + n 0 + 1)
          (localRatio dt c.dx capa fun x => aux fun _ => x + (1 - c.g))
          (fun i => rp (q fun _ => i + (1 - c.g)) (q fun _ => i + 1 + (1 - c.g)) (aux fun _ => i + (1 - c.g))
            (aux fun _ => i + 1 + (1 - c.g))) := by
        unfold pyStep1 pyKernel
        rw [dtdx_eq]
        simp only
        split <;> rfl
      rw [e]
      have hd : (fun i : Int => (fun i => rp (q fun _ => i + (1 - c.g)) (q fun _ => i + 1 + (1 - c.g)) (aux fun _ => i + (1 - c.g))
            (aux fun _ => i + 1 + (1 - c.g))) (i - 1)) =
          interfaces rp (fun x => aux fun _ => x + (1 - (c.g : Int))) (fun x => q fun _ => x + (1 - c.g)) := by
        funext i; simp [interfaces]
      refine isMax_congr (fun x => ?_) (pyCfl_isMax _ _ (by omega) _ _)
      rw [hd]
      have hw := fun i => waveNumber_congr rp dt c.dx capa (fun i => aux fun _ => i) (fun x => aux fun _ => x + (1 - (c.g : Int)))
        (fun i => q fun _ => i) (fun x => q fun _ => x + (1 - (c.g : Int))) (1 - c.g) i x rfl rfl rfl rfl
      simp only [hw]
      constructor
      · rintro ⟨i, i1, i2, h⟩
        exact ⟨i + (1 - c.g), by omega, by omega, h⟩
      · rintro ⟨i, i1, i2, h⟩
        refine ⟨i - (1 - c.g), by omega, by omega, ?_⟩
        rw [sub_add_cancel]
        exact h
  stops := fun _ _ _ _ h => absurd (fun _ _ _ => trivial) h

end PyClaw
