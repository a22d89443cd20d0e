import Verif.Lemmas.WideStencil
import Verif.Lemmas.SharpShift
import Verif.Model.SharpGridPy

set_option linter.unusedSectionVars false

/-!
What the Python kernel of SharpClaw adds to a cell depends only on the three cells on either side of it.
-/
namespace PyClaw
open Spec

section
variable {K A : Type*} [Field K] [LinearOrder K] [IsStrictOrderedRing K] {m w : Nat}

theorem pyWaveTerm_near (eps tol : K) (wave wave' : Waves K m w) (i s : Int) (p : Fin w) :
    ((∀ j, i - 2 ≤ j → j ≤ i + 1 → wave' j = wave (j + s)) → pyWaveTerm eps tol wave' 1 i p = pyWaveTerm eps tol wave 1 (i + s) p) ∧
    ((∀ j, i - 1 ≤ j → j ≤ i + 2 → wave' j = wave (j + s)) →
      pyWaveTerm eps tol wave' (-1) i p = pyWaveTerm eps tol wave (-1) (i + s) p) := by
  have e1 : i + s - 2 * 1 = (i - 2 * 1) + s := by ring
  have e2 : i + s - 1 = (i - 1) + s := by ring
  have e3 : i + s + 1 = (i + 1) + s := by ring
  have e4 : i + s - 2 * -1 = (i - 2 * -1) + s := by ring
  have e5 : i + s - -1 = (i - -1) + s := by ring
  have e6 : i + s + -1 = (i + -1) + s := by ring
  constructor <;> intro h <;> funext x <;>
    simp (disch := omega) only [pyWaveTerm, pyWaveZ, waveProj, e1, e2, e3, e4, e5, e6, h] <;> congr

theorem pyRecon_near (eps tol : K) (rp : Riemann K A m w) (N N' : Int) (limType charDecomp : Int) (aux aux' : Int → A) (q q' : Int → Fin m → K)
    (i s : Int) (h : ∀ u : Int, i - 2 ≤ u → u ≤ i + 2 → aux' u = aux (u + s) ∧ q' u = q (u + s)) {e e' : Edges K m}
    (he : pyRecon eps tol limType charDecomp N (fun i => rp (q i) (q (i + 1)) (aux i) (aux (i + 1))) q = .ok e)
    (he' : pyRecon eps tol limType charDecomp N' (fun i => rp (q' i) (q' (i + 1)) (aux' i) (aux' (i + 1))) q' = .ok e') :
    (2 ≤ i → i < N' - 3 → 2 ≤ i + s → i + s < N - 3 → e'.qr i = e.qr (i + s)) ∧
    (3 ≤ i → i < N' - 2 → 3 ≤ i + s → i + s < N - 2 → e'.ql i = e.ql (i + s)) := by
  have hw : ∀ j, i - 2 ≤ j → j ≤ i + 1 → rp (q' j) (q' (j + 1)) (aux' j) (aux' (j + 1)) =
      rp (q (j + s)) (q (j + s + 1)) (aux (j + s)) (aux (j + s + 1)) := by
    intro j h1 h2
    have e3 : j + s + 1 = (j + 1) + s := by ring
    rw [e3, (h j (by omega) (by omega)).1, (h j (by omega) (by omega)).2, (h (j + 1) (by omega) (by omega)).1, (h (j + 1) (by omega) (by omega)).2]
  unfold pyRecon at he he'
  split at he
  · rename_i hc
    rw [if_pos hc] at he'
    cases he; cases he'
    exact ⟨fun _ _ _ _ => (h i (by omega) (by omega)).2, fun _ _ _ _ => (h i (by omega) (by omega)).2⟩
  · rename_i hc
    rw [if_neg hc] at he'
    split at he
    · cases he
    · rename_i hc
      rw [if_neg hc] at he'
      split at he
      · cases he
      · rename_i hc
        rw [if_neg hc] at he'
        split at he
        · rename_i hc
          rw [if_pos hc] at he'
          split at he
          · rename_i hc
            rw [if_pos hc] at he'
            cases he; cases he'
            refine ⟨fun h1 h2 h3 h4 => ?_, fun h1 h2 h3 h4 => ?_⟩ <;> funext x
            · simp only [pyWeno, pyWenoQr]
              rw [if_pos (by omega), if_pos (by omega), (shuValue_near eps (fun j => q j x) (fun j => q' j x) (i + 1) s).1
                (fun j _ _ => by rw [(h j (by omega) (by omega)).2]), show i + 1 + s = i + s + 1 by ring]
            · simp only [pyWeno, pyWenoQl]
              rw [if_pos (by omega), if_pos (by omega), (shuValue_near eps (fun j => q j x) (fun j => q' j x) i s).2
                (fun j _ _ => by rw [(h j (by omega) (by omega)).2])]
          · rename_i hc
            rw [if_neg hc] at he'
            split at he
            · rename_i hc
              rw [if_pos hc] at he'
              cases he; cases he'
              refine ⟨fun h1 h2 h3 h4 => ?_, fun h1 h2 h3 h4 => ?_⟩ <;> simp only [pyWenoWave]
              · rw [if_pos (by omega), if_pos (by omega), (h i (by omega) (by omega)).2]
                congr 1
                funext x p
                rw [(pyWaveTerm_near eps tol (fun i => (rp (q i) (q (i + 1)) (aux i) (aux (i + 1))).wave) _ i s p).1
                  (fun j _ _ => by rw [hw j (by omega) (by omega)])]
              · rw [if_pos (by omega), if_pos (by omega), (h i (by omega) (by omega)).2]
                congr 1
                funext x p
                rw [(pyWaveTerm_near eps tol (fun i => (rp (q i) (q (i + 1)) (aux i) (aux (i + 1))).wave) _ (i - 1) s p).2
                  (fun j _ _ => by rw [hw j (by omega) (by omega)]), show i - 1 + s = i + s - 1 by ring]
            · split at he <;> cases he
        · cases he

theorem pyFlux1_near (eps tol : K) (rp : Riemann K A m w) (n n' g : Nat) (hg : 3 ≤ g) (dt dx : K) (capa : Option (A → K)) (limType charDecomp : Int)
    (aux aux' : Int → A) (q q' : Int → Fin m → K) (i s : Int)
    (h : ∀ u : Int, i - 3 ≤ u → u ≤ i + 3 → aux' u = aux (u + s) ∧ q' u = q (u + s)) {r r' : (Int → Fin m → K) × K}
    (hr : pyDqHyperbolic eps tol rp ⟨n, g, dt, dx⟩ limType charDecomp capa aux q = .ok r)
    (hr' : pyDqHyperbolic eps tol rp ⟨n', g, dt, dx⟩ limType charDecomp capa aux' q' = .ok r')
    (h1 : g ≤ i) (h2 : i < g + n') (h3 : g ≤ i + s) (h4 : i + s < g + n) : r'.1 i = r.1 (i + s) := by
  have hgg : (3 : Int) ≤ g := by exact_mod_cast hg
  unfold pyDqHyperbolic at hr hr'
  split at hr
  · cases hr
  · rename_i e he
    cases hr
    split at hr'
    · cases hr'
    · rename_i e' he'
      cases hr'
      dsimp only at he he'
      have R := fun k (hk : i - 1 ≤ k ∧ k ≤ i + 1) => pyRecon_near eps tol rp _ _ limType charDecomp aux aux' q q' k s
        (fun u a b => h u (by omega) (by omega)) he he'
      have a0 := (h i (by omega) (by omega)).1
      have a1 := (h (i + 1) (by omega) (by omega)).1
      have a2 := (h (i - 1) (by omega) (by omega)).1
      have q1 := (R i (by omega)).1 (by omega) (by omega) (by omega) (by omega)
      have q2 := (R (i - 1) (by omega)).1 (by omega) (by omega) (by omega) (by omega)
      have l1 := (R i (by omega)).2 (by omega) (by omega) (by omega) (by omega)
      have l2 := (R (i + 1) (by omega)).2 (by omega) (by omega) (by omega) (by omega)
      have b1 : i + s + 1 = (i + 1) + s := by ring
      have b2 : i + s - 1 = (i - 1) + s := by ring
      have b3 : i - 1 + 1 = i := by ring
      have b4 : i - 1 + s + 1 = i + s := by ring
      simp only [pyFlux1]
      rw [if_pos (by omega), if_pos (by omega)]
      simp only [b1, b2, b3, b4, a0, a1, a2, q1, q2, l1, l2]

end

variable {K : Type*} [Field K] [LinearOrder K] [IsStrictOrderedRing K] {m w naux : Nat}

/-- The kernel without its Courant number. -/
def valuesOf {ι : Type*} (step : IntKern ι K m naux) : IntKern ι K m naux := fun dt n aux q => (step dt n aux q).map fun r => (r.1, 0)

/-- What the Python kernel adds to one cell. -/
def pyNew (eps tol : K) (limType charDecomp : Int) (rp : Riemann K (Fin naux → K) m w) (g : Nat) (dx : K) (capa : Option ((Fin naux → K) → K))
    (dt : K) (aux : (Fin 1 → Int) → Fin naux → K) (q : (Fin 1 → Int) → Fin m → K) (v : Fin 1 → Int) : Fin m → K :=
  match pyDqHyperbolic eps tol rp ⟨1, g, dt, dx⟩ limType charDecomp capa (fun i => aux fun _ => i + (v 0 - g)) (fun i => q fun _ => i + (v 0 - g)) with
  | .ok r => r.1 g
  | .error _ => 0

theorem py_ok (eps tol : K) {limType charDecomp : Int} (hl : limType = -1 ∨ limType = 2 ∧ (charDecomp = 0 ∨ charDecomp = 1))
    (rp : Riemann K (Fin naux → K) m w) (c : FluxCfg K) (capa : Option ((Fin naux → K) → K)) (aux : Int → Fin naux → K) (q : Int → Fin m → K) :
    ∃ r, pyDqHyperbolic eps tol rp c limType charDecomp capa aux q = .ok r := by
  unfold pyDqHyperbolic pyRecon
  rcases hl with rfl | ⟨rfl, rfl | rfl⟩ <;> norm_num

theorem pyFlux1_wide (eps tol : K) {limType charDecomp : Int} (hl : limType = -1 ∨ limType = 2 ∧ (charDecomp = 0 ∨ charDecomp = 1))
    (rp : Riemann K (Fin naux → K) m w) (g : Nat) (hg : 3 ≤ g) (dx : K) (capa : Option ((Fin naux → K) → K)) :
    WideStencil (ι := Fin 1) (valuesOf (intPyFlux1 eps tol limType charDecomp rp g dx capa)) g (fun _ _ => True)
      (pyNew eps tol limType charDecomp rp g dx capa) (fun (_ : Empty) _ => 0) (fun _ _ _ _ _ _ => False) where
  low01 := fun t => t.elim
  runs := by
    intro dt n aux q hn _
    obtain ⟨r, hr⟩ := py_ok eps tol hl rp ⟨n 0, g, dt, dx⟩ capa (fun i => aux fun _ => i + (1 - g)) (fun i => q fun _ => i + (1 - g))
    refine ⟨fun v => r.1 (v 0 + g - 1), 0, by unfold valuesOf intPyFlux1; rw [hr]; rfl, fun v hv => ?_, ?_⟩
    · obtain ⟨r', hr'⟩ := py_ok eps tol hl rp ⟨1, g, dt, dx⟩ capa (fun i => aux fun _ => i + (v 0 - g)) (fun i => q fun _ => i + (v 0 - g))
      unfold pyNew
      rw [hr']
      dsimp only
      have := hv 0
      rw [pyFlux1_near eps tol rp (n 0) 1 g hg dt dx capa limType charDecomp _ _ _ _ g (v 0 - 1) (fun u _ _ => by
        rw [show u + (v 0 - 1) + (1 - (g : Int)) = u + (v 0 - g) by ring]; exact ⟨rfl, rfl⟩) hr hr' (by omega) (by omega) (by omega) (by omega)]
      congr 1
      ring
    · exact ⟨le_rfl, fun x ⟨t, _⟩ => t.elim, Or.inl rfl⟩
  stops := fun _ _ _ _ _ _ h => absurd trivial h
  okLocal := fun _ _ _ _ _ => Iff.rfl
  newLocal := by
    intro dt aux aux' q q' s v h
    obtain ⟨r, hr⟩ := py_ok eps tol hl rp ⟨1, g, dt, dx⟩ capa (fun i => aux fun _ => i + (v 0 + s 0 - g)) (fun i => q fun _ => i + (v 0 + s 0 - g))
    obtain ⟨r', hr'⟩ := py_ok eps tol hl rp ⟨1, g, dt, dx⟩ capa (fun i => aux' fun _ => i + (v 0 - g)) (fun i => q' fun _ => i + (v 0 - g))
    unfold pyNew
    rw [hr, hr']
    dsimp only
    rw [pyFlux1_near eps tol rp 1 1 g hg dt dx capa limType charDecomp _ _ _ _ g 0 (fun u h1 h2 => ?_) hr hr' (by omega) (by omega) (by omega) (by omega)]
    · simp
    · have := h (fun _ => u + (v 0 - g)) fun a => by rw [Subsingleton.elim a 0]; omega
      rw [show (fun a : Fin 1 => u + (v 0 - (g : Int)) + s a) = fun _ => u + 0 + (v 0 + s 0 - g) from funext fun a => by
        rw [Subsingleton.elim a 0]; ring] at this
      exact this
  numsLocal := fun _ _ _ _ _ t => t.elim

end PyClaw
