import Verif.Model.SharpFlux
import Verif.Spec.SharpFlux
import Verif.Lemmas.WenoStencil
import Verif.Props.Classic1

/-!
Locality of the reconstructions: near the boundary of a periodic grid the reconstructed states are periodic.
-/
set_option linter.unusedSectionVars false

namespace PyClaw
open Spec

variable {K A : Type*} [Field K] [LinearOrder K] [IsStrictOrderedRing K] {m w : Nat}

theorem shuValue_congr (eps : K) (q q' : Int → K) (i : Int)
    (h : ∀ j, i - 3 ≤ j → j ≤ i + 2 → q j = q' j) :
    shuValue eps q 1 i = shuValue eps q' 1 i ∧ shuValue eps q (-1) i = shuValue eps q' (-1) i := by
  constructor <;>
    simp (disch := omega) only [shuValue, shuCombine, shuTT1, shuTT2, shuTT3, shuDiff, h]

theorem shuValue_shift (eps : K) (q : Int → K) (im i n : Int) :
    shuValue eps q im (i + n) = shuValue eps (fun j => q (j + n)) im i := by
  have e1 : i + n - 2 * im = i - 2 * im + n := by ring
  have e2 : i + n - im = i - im + n := by ring
  have e3 : i + n + im = i + im + n := by ring
  have e4 : i + n - 2 = i - 2 + n := by ring
  have e5 : i + n - 1 = i - 1 + n := by ring
  have e6 : i + n + 1 = i + 1 + n := by ring
  have e7 : ∀ x : Int, x + n - 1 = x - 1 + n := fun x => by ring
  simp only [shuValue, shuCombine, shuTT1, shuTT2, shuTT3, shuDiff, e1, e2, e3, e4, e6, e7]

theorem shuValue_periodic (eps : K) (q : Int → K) (i n : Int) (h : ∀ j, i - 3 ≤ j → j ≤ i + 2 → q (j + n) = q j) :
    shuValue eps q 1 (i + n) = shuValue eps q 1 i ∧ shuValue eps q (-1) (i + n) = shuValue eps q (-1) i := by
  rw [shuValue_shift, shuValue_shift]
  exact shuValue_congr eps _ _ i h

theorem waveTerm_periodic (eps tol : K) (wave : Waves K m w) (i n : Int)
    (h : ∀ j, i - 2 ≤ j → j ≤ i + 2 → wave (j + n) = wave j) (p : Fin w) :
    pyWaveTerm eps tol wave 1 (i + n) p = pyWaveTerm eps tol wave 1 i p ∧
    pyWaveTerm eps tol wave (-1) (i + n) p = pyWaveTerm eps tol wave (-1) i p ∧
    fWaveTerm eps tol wave 1 (i + n) p = fWaveTerm eps tol wave 1 i p ∧
    fWaveTerm eps tol wave (-1) (i + n) p = fWaveTerm eps tol wave (-1) i p := by
  have e1 : i + n - 2 * 1 = (i - 2 * 1) + n := by ring
  have e2 : i + n - 1 = (i - 1) + n := by ring
  have e3 : i + n + 1 = (i + 1) + n := by ring
  have e4 : i + n - 2 * -1 = (i - 2 * -1) + n := by ring
  have e5 : i + n - -1 = (i - -1) + n := by ring
  have e6 : i + n + -1 = (i + -1) + n := by ring
  refine ⟨?_, ?_, ?_, ?_⟩ <;> funext x <;>
    simp (disch := omega) only [pyWaveTerm, fWaveTerm, pyWaveZ, waveProj, e1, e2, e3, e4, e5, e6, h] <;>
    congr

theorem fRecon_match (eps tol undef : K) (first : Fin m → K) (rp : Riemann K A m w) (c : FluxCfg K)
    (limType charDecomp order : Int) (fwave : Bool) (limEqn : Fin m → Int) (limWave : Fin w → Int) (old : Edges K m)
    (aux : Int → A) (q : Int → Fin m → K) (hg : 3 ≤ c.g) (hgo : limType = 2 → order < 2 * c.g)
    (hq : PeriodicGhost 1 c.g c.n q) (ha : PeriodicGhost 1 c.g c.n aux) (hopt : ¬ (limType = 1 ∧ charDecomp = 1))
    {e : Edges K m}
    (he : fRecon eps tol undef first rp c limType charDecomp order fwave limEqn limWave old none aux q = some e) :
    EdgesMatch 1 c.n e := by
  have hq' : ∀ i : Int, 1 - (c.g : Int) ≤ i → i ≤ c.g → q (i + c.n) = q i := fun i h1 h2 => hq i h1 (by omega)
  have ha' : ∀ i : Int, 1 - (c.g : Int) ≤ i → i ≤ c.g → aux (i + c.n) = aux i := fun i h1 h2 => ha i h1 (by omega)
  unfold fRecon at he
  simp only at he
  rw [if_neg hopt] at he
  unfold EdgesMatch
  have hn : (0 : Int) ≤ c.n := Int.natCast_nonneg _
  have hgg : (3 : Int) ≤ c.g := by exact_mod_cast hg
  generalize (c.g : Int) = g at *
  generalize (c.n : Int) = n at *
  split at he
  · -- tvd2
    rename_i hN
    cases he
    refine ⟨?_, ?_⟩ <;> funext x <;> simp only [fTvd2]
    · rw [if_pos (by omega), if_neg (by omega), if_pos (by omega), if_neg (by omega)]
      have e1 : 1 - 1 + n + g + 1 - g = 1 + n := by ring
      have e2 : 1 - 1 + n + g - g = 0 + n := by ring
      have e3 : 1 - 1 + n + g - 1 - g = -1 + n := by ring
      have e4 : 1 - 1 + g + 1 - g = 1 := by ring
      have e5 : 1 - 1 + g - g = 0 := by ring
      have e6 : 1 - 1 + g - 1 - g = -1 := by ring
      rw [e1, e2, e3, e4, e5, e6, hq' 1 (by omega) (by omega), hq' 0 (by omega) (by omega), hq' (-1) (by omega) (by omega)]
    · rw [if_pos (by omega), if_neg (by omega), if_pos (by omega), if_neg (by omega)]
      have e1 : 1 + n + g + 1 - g = 2 + n := by ring
      have e2 : 1 + n + g - g = 1 + n := by ring
      have e3 : 1 + n + g - 1 - g = 0 + n := by ring
      have e4 : 1 + g + 1 - g = 2 := by ring
      have e5 : 1 + g - g = 1 := by ring
      have e6 : 1 + g - 1 - g = 0 := by ring
      rw [e1, e2, e3, e4, e5, e6, hq' 2 (by omega) (by omega), hq' 1 (by omega) (by omega), hq' 0 (by omega) (by omega)]
  · split at he
    · rename_i hN
      have hgo := hgo hN.1
      rw [Option.map_eq_some_iff] at he
      obtain ⟨T, hT, rfl⟩ := he
      refine ⟨?_, ?_⟩ <;> funext x <;> simp only [fWenoComp, WenoTable.ql, WenoTable.qr]
      · rw [if_pos (by omega), if_pos (by omega)]
        have e1 : 1 - 1 + n + g = g + n := by ring
        have e2 : 1 - 1 + g = g := by ring
        rw [e1, e2]
        refine (table_periodic hT eps (q := fun j => q (j - g) x) ?_).2
        intro j h1 h2
        have : j + n - g = (j - g) + n := by ring
        simp only [this]
        rw [hq' _ (by omega) (by omega)]
      · rw [if_pos (by omega), if_pos (by omega)]
        have e1 : 1 + n + g = (1 + g) + n := by ring
        rw [e1]
        refine (table_periodic hT eps (q := fun j => q (j - g) x) ?_).1
        intro j h1 h2
        have : j + n - g = (j - g) + n := by ring
        simp only [this]
        rw [hq' _ (by omega) (by omega)]
    · split at he
      · cases he
        have hw : ∀ j, g + 1 - 2 ≤ j → j ≤ g + 1 + 2 →
            rp (q (j + n - g - 1)) (q (j + n - g)) (aux (j + n - g - 1)) (aux (j + n - g)) =
            rp (q (j - g - 1)) (q (j - g)) (aux (j - g - 1)) (aux (j - g)) := by
          intro j h1 h2
          have e1 : j + n - g - 1 = (j - g - 1) + n := by ring
          have e2 : j + n - g = (j - g) + n := by ring
          rw [e1, e2, hq' _ (by omega) (by omega), hq' (j - g) (by omega) (by omega), ha' _ (by omega) (by omega),
            ha' (j - g) (by omega) (by omega)]
        have ht := waveTerm_periodic eps tol
          (fun p => (rp (q (p - g - 1)) (q (p - g)) (aux (p - g - 1)) (aux (p - g))).wave) (g + 1) n
          (fun j h1 h2 => by simp only [hw j h1 h2])
        have hc : central4 (fun p => q (p - g)) (g + 1 + n) = central4 (fun p => q (p - g)) (g + 1) := by
          funext x
          unfold central4
          dsimp only
          have e1 : g + 1 + n - 2 - g = -1 + n := by ring
          have e2 : g + 1 + n - 1 - g = 0 + n := by ring
          have e3 : g + 1 + n - g = 1 + n := by ring
          have e4 : g + 1 + n + 1 - g = 2 + n := by ring
          have e5 : g + 1 - 2 - g = -1 := by ring
          have e6 : g + 1 - 1 - g = 0 := by ring
          have e7 : g + 1 - g = 1 := by ring
          have e8 : g + 1 + 1 - g = 2 := by ring
          rw [e1, e2, e3, e4, e5, e6, e7, e8, hq' _ (by omega) (by omega), hq' _ (by omega) (by omega), hq' _ (by omega) (by omega), hq' _ (by omega) (by omega)]
        have e1 : 1 - 1 + n + g + 1 = g + 1 + n := by ring
        have e2 : 1 - 1 + g + 1 = g + 1 := by ring
        have e3 : 1 + n + g = g + 1 + n := by ring
        have e4 : 1 + g = g + 1 := by ring
        refine ⟨?_, ?_⟩ <;> simp only [fWenoWave]
        · rw [if_pos (by omega), if_pos (by omega), e1, e2, hc]
          congr 1
          funext x p
          rw [(ht p).2.2.1]
        · rw [if_pos (by omega), if_pos (by omega), e3, e4, hc]
          congr 1
          funext x p
          rw [(ht p).2.2.2]
      · split at he
        · cases he
          refine ⟨?_, ?_⟩ <;> funext x <;> simp only [fShu5, fShuQl, fShuQr]
          · rw [if_pos (by omega), if_pos (by omega)]
            have e1 : 1 - 1 + n + g + 1 = (g + 1) + n := by ring
            have e2 : 1 - 1 + g + 1 = g + 1 := by ring
            rw [e1, e2]
            refine (shuValue_periodic eps (fun j => q (j - g) x) (g + 1) n ?_).1
            intro j h1 h2
            have : j + n - g = (j - g) + n := by ring
            simp only [this]
            rw [hq' _ (by omega) (by omega)]
          · rw [if_pos (by omega), if_pos (by omega)]
            have e1 : 1 + n + g = (g + 1) + n := by ring
            have e2 : 1 + g = g + 1 := by ring
            rw [e1, e2]
            refine (shuValue_periodic eps (fun j => q (j - g) x) (g + 1) n ?_).2
            intro j h1 h2
            have : j + n - g = (j - g) + n := by ring
            simp only [this]
            rw [hq' _ (by omega) (by omega)]
        · cases he

theorem pyRecon_match (eps tol : K) (rp : Riemann K A m w) (c : FluxCfg K)
    (limType charDecomp : Int) (aux : Int → A) (q : Int → Fin m → K) (hg : 3 ≤ c.g)
    (hq : PeriodicGhost c.g c.g c.n q) (ha : PeriodicGhost c.g c.g c.n aux) {e : Edges K m}
    (he : pyRecon eps tol limType charDecomp (c.n + 2 * c.g)
      (fun i => rp (q i) (q (i + 1)) (aux i) (aux (i + 1))) q = .ok e) :
    EdgesMatch c.g c.n e := by
  have hq' : ∀ i : Int, 0 ≤ i → i < 2 * c.g → q (i + c.n) = q i := fun i h1 h2 => hq i (by omega) (by omega)
  have ha' : ∀ i : Int, 0 ≤ i → i < 2 * c.g → aux (i + c.n) = aux i := fun i h1 h2 => ha i (by omega) (by omega)
  have hn : (0 : Int) ≤ c.n := Int.natCast_nonneg _
  have hgg : (3 : Int) ≤ c.g := by exact_mod_cast hg
  unfold EdgesMatch
  generalize (c.g : Int) = g at *
  generalize (c.n : Int) = n at *
  unfold pyRecon at he
  split at he
  · cases he
    exact ⟨hq' _ (by omega) (by omega), hq' _ (by omega) (by omega)⟩
  · split at he
    · cases he
    · split at he
      · cases he
      · split at he
        · split at he
          · cases he
            refine ⟨?_, ?_⟩ <;> funext x <;> simp only [pyWeno, pyWenoQl, pyWenoQr]
            · rw [if_pos (by omega), if_pos (by omega)]
              have e1 : g - 1 + n + 1 = g + n := by ring
              have e2 : g - 1 + 1 = g := by ring
              rw [e1, e2]
              refine (shuValue_periodic eps (fun j => q j x) g n ?_).1
              intro j h1 h2
              rw [hq' _ (by omega) (by omega)]
            · rw [if_pos (by omega), if_pos (by omega)]
              refine (shuValue_periodic eps (fun j => q j x) g n ?_).2
              intro j h1 h2
              rw [hq' _ (by omega) (by omega)]
          · split at he
            · cases he
              have hw : ∀ j, g - 1 - 2 ≤ j → j ≤ g - 1 + 2 →
                  rp (q (j + n)) (q (j + n + 1)) (aux (j + n)) (aux (j + n + 1)) =
                  rp (q j) (q (j + 1)) (aux j) (aux (j + 1)) := by
                intro j h1 h2
                have e1 : j + n + 1 = (j + 1) + n := by ring
                rw [e1, hq' _ (by omega) (by omega), hq' (j + 1) (by omega) (by omega), ha' _ (by omega) (by omega),
                  ha' (j + 1) (by omega) (by omega)]
              have ht := waveTerm_periodic eps tol
                (fun i => (rp (q i) (q (i + 1)) (aux i) (aux (i + 1))).wave) (g - 1) n
                (fun j h1 h2 => by simp only [hw j h1 h2])
              refine ⟨?_, ?_⟩ <;> simp only [pyWenoWave]
              · rw [if_pos (by omega), if_pos (by omega), hq' _ (by omega) (by omega)]
                congr 1
                funext x p
                rw [(ht p).1]
              · rw [if_pos (by omega), if_pos (by omega), hq' _ (by omega) (by omega)]
                congr 1
                funext x p
                have e1 : g + n - 1 = g - 1 + n := by ring
                rw [e1, (ht p).2.1]
            · split at he <;> cases he
        · cases he

end PyClaw
