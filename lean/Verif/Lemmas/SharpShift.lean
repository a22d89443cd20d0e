import Verif.Spec.SharpGrid
import Verif.Props.SharpSetup
import Verif.Props.ParallelKernels

set_option linter.unusedSectionVars false

/-!
What the SharpClaw kernel computes next to an interface depends only on the cells near it, not on where the grid begins or ends.
-/
namespace PyClaw
open Spec

variable {K A : Type*} [Field K] [LinearOrder K] [IsStrictOrderedRing K] {m w : Nat}

theorem shuValue_near (eps : K) (q q' : Int → K) (i s : Int) :
    ((∀ j, i - 3 ≤ j → j ≤ i + 1 → q' j = q (j + s)) → shuValue eps q' 1 i = shuValue eps q 1 (i + s)) ∧
    ((∀ j, i - 2 ≤ j → j ≤ i + 2 → q' j = q (j + s)) → shuValue eps q' (-1) i = shuValue eps q (-1) (i + s)) := by
  constructor <;> intro h <;> rw [shuValue_shift] <;>
    simp (disch := omega) only [shuValue, shuCombine, shuTT1, shuTT2, shuTT3, shuDiff, h]

theorem fWaveTerm_near (eps tol : K) (wave wave' : Waves K m w) (i s : Int) (p : Fin w) :
    ((∀ j, i - 2 ≤ j → j ≤ i + 1 → wave' j = wave (j + s)) → fWaveTerm eps tol wave' 1 i p = fWaveTerm eps tol wave 1 (i + s) p) ∧
    ((∀ j, i - 1 ≤ j → j ≤ i + 2 → wave' j = wave (j + s)) →
      fWaveTerm eps tol wave' (-1) i p = fWaveTerm eps tol wave (-1) (i + s) p) := by
  have e1 : i + s - 2 * 1 = (i - 2 * 1) + s := by ring
  have e2 : i + s - 1 = (i - 1) + s := by ring
  have e3 : i + s + 1 = (i + 1) + s := by ring
  have e4 : i + s - 2 * -1 = (i - 2 * -1) + s := by ring
  have e5 : i + s - -1 = (i - -1) + s := by ring
  have e6 : i + s + -1 = (i + -1) + s := by ring
  constructor <;> intro h <;> funext x <;>
    simp (disch := omega) only [fWaveTerm, waveProj, e1, e2, e3, e4, e5, e6, h] <;> congr

theorem central4_near (q q' : Int → Fin m → K) (i s : Int) (h : ∀ j, i - 2 ≤ j → j ≤ i + 1 → q' j = q (j + s)) :
    central4 q' i = central4 q (i + s) := by
  have e2 : i + s - 1 = (i - 1) + s := by ring
  have e3 : i + s + 1 = (i + 1) + s := by ring
  have e4 : i + s - 2 = (i - 2) + s := by ring
  funext x
  simp (disch := omega) only [central4, e2, e3, e4, h]

theorem fRecon_near (eps tol undef : K) (first first' : Fin m → K) (rp : Riemann K A m w) (c c' : FluxCfg K) (hcg : c'.g = c.g)
    (limType charDecomp order : Int) (hopt : ReconOk c.g limType charDecomp order) (fwave : Bool) (limEqn : Fin m → Int)
    (limWave : Fin w → Int) (old old' : Edges K m) (aux aux' : Int → A) (q q' : Int → Fin m → K) (i s : Int)
    (hq : ∀ u : Int, i - (c.g - 1) ≤ u → u ≤ i + (c.g - 1) → q' u = q (u + s))
    (ha : ∀ u : Int, i - (c.g - 1) ≤ u → u ≤ i + (c.g - 1) → aux' u = aux (u + s)) {e e' : Edges K m}
    (he : fRecon eps tol undef first rp c limType charDecomp order fwave limEqn limWave old none aux q = some e)
    (he' : fRecon eps tol undef first' rp c' limType charDecomp order fwave limEqn limWave old' none aux' q' = some e') :
    (0 ≤ i → i ≤ c'.n → 0 ≤ i + s → i + s ≤ c.n → e'.qr i = e.qr (i + s)) ∧
    (1 ≤ i → i ≤ c'.n + 1 → 1 ≤ i + s → i + s ≤ c.n + 1 → e'.ql i = e.ql (i + s)) := by
  obtain ⟨o1, o2, o3⟩ := hopt
  unfold fRecon at he he'
  simp only [hcg] at he he'
  have o1' : limType = 1 → charDecomp = 0 ∧ (2 : Int) ≤ c.g := fun h => ⟨(o1 h).1, by exact_mod_cast (o1 h).2⟩
  have o2' : limType = 2 → (3 : Int) ≤ c.g ∧ order < 2 * c.g := fun h => ⟨by exact_mod_cast (o2 h).1, (o2 h).2⟩
  have o3' : limType = 3 → (3 : Int) ≤ c.g := fun h => by exact_mod_cast o3 h
  have hn : (0 : Int) ≤ c.n := Int.natCast_nonneg _
  have hn' : (0 : Int) ≤ c'.n := Int.natCast_nonneg _
  clear o1 o2 o3
  generalize (c.g : Int) = g at *
  generalize (c.n : Int) = n at *
  generalize (c'.n : Int) = n' at *
  have e0 : i + s + g - g = i + s := by ring
  have e0' : i + g - g = i := by ring
  have hqp : ∀ j : Int, i + g - (g - 1) ≤ j → j ≤ i + g + (g - 1) → q' (j - g) = q (j + s - g) := by
    intro j h1 h2
    rw [hq (j - g) (by omega) (by omega), show j - g + s = j + s - g by ring]
  have hap : ∀ j : Int, i + g - (g - 1) ≤ j → j ≤ i + g + (g - 1) → aux' (j - g) = aux (j + s - g) := by
    intro j h1 h2
    rw [ha (j - g) (by omega) (by omega), show j - g + s = j + s - g by ring]
  have hw : ∀ j : Int, i + g - (g - 1) + 1 ≤ j → j ≤ i + g + (g - 1) →
      rp (q' (j - g - 1)) (q' (j - g)) (aux' (j - g - 1)) (aux' (j - g)) =
      rp (q (j + s - g - 1)) (q (j + s - g)) (aux (j + s - g - 1)) (aux (j + s - g)) := by
    intro j h1 h2
    have a1 : j - g - 1 = (j - 1) - g := by ring
    have a2 : j + s - g - 1 = (j - 1) + s - g := by ring
    rw [a1, a2, hqp j (by omega) (by omega), hqp (j - 1) (by omega) (by omega), hap j (by omega) (by omega),
      hap (j - 1) (by omega) (by omega)]
  split at he
  · rename_i hc
    rw [if_pos hc] at he'
    have hg2 := (o1' hc.1).2
    cases he; cases he'
    have b1 : i + s + g - 1 - g = (i + g - 1) + s - g := by ring
    have b2 : i + s + g - g = (i + g) + s - g := by ring
    have b3 : i + s + g + 1 - g = (i + g + 1) + s - g := by ring
    refine ⟨fun h1 h2 h3 h4 => ?_, fun h1 h2 h3 h4 => ?_⟩ <;> funext x <;> simp only [fTvd2] <;>
      rw [if_pos (by omega), if_neg (by omega), if_pos (by omega), if_neg (by omega), b1, b2, b3, hqp _ (by omega) (by omega),
        hqp (i + g + 1) (by omega) (by omega), hqp (i + g - 1) (by omega) (by omega)]
  · rename_i hc
    rw [if_neg hc] at he'
    split at he
    · rename_i hc2
      exact absurd ⟨hc2.1, (o1' hc2.1).1⟩ hc
    · rename_i hc2
      rw [if_neg hc2] at he'
      split at he
      · rename_i hc3
        rw [if_pos hc3] at he'
        obtain ⟨hg3, hor⟩ := o2' hc3.1
        rw [Option.map_eq_some_iff] at he he'
        obtain ⟨T, hT, rfl⟩ := he
        obtain ⟨T', hT', rfl⟩ := he'
        obtain rfl : T = T' := by rw [hT] at hT'; exact Option.some.inj hT'
        have key : ∀ x, T.left eps (fun j => q' (j - g) x) (i + g) = T.left eps (fun j => q (j - g) x) (i + s + g) ∧
            T.right eps (fun j => q' (j - g) x) (i + g) = T.right eps (fun j => q (j - g) x) (i + s + g) := by
          intro x
          have a : i + s + g = (i + g) + s := by ring
          rw [a, (table_shift T eps _ (i + g) s).1, (table_shift T eps _ (i + g) s).2]
          exact table_congr hT eps fun j h1 h2 => by rw [hqp j (by omega) (by omega)]
        refine ⟨fun h1 h2 h3 h4 => ?_, fun h1 h2 h3 h4 => ?_⟩ <;> funext x <;> simp only [fWenoComp, WenoTable.ql, WenoTable.qr]
        · rw [if_pos (by omega), if_pos (by omega)]
          exact (key x).2
        · rw [if_pos (by omega), if_pos (by omega)]
          exact (key x).1
      · rename_i hc3
        rw [if_neg hc3] at he'
        split at he
        · rename_i hc4
          rw [if_pos hc4] at he'
          obtain ⟨hg3, hor⟩ := o2' hc4.1
          cases he; cases he'
          have a : i + s + g + 1 = (i + g + 1) + s := by ring
          have a' : i + s + g = (i + g) + s := by ring
          refine ⟨fun h1 h2 h3 h4 => ?_, fun h1 h2 h3 h4 => ?_⟩ <;> simp only [fWenoWave]
          · rw [if_pos (by omega), if_pos (by omega), a]
            rw [central4_near (fun p => q (p - g)) (fun p => q' (p - g)) (i + g + 1) s (fun j _ _ => hqp j (by omega) (by omega))]
            congr 1
            funext x p
            rw [(fWaveTerm_near eps tol (fun p => (rp (q (p - g - 1)) (q (p - g)) (aux (p - g - 1)) (aux (p - g))).wave) _
              (i + g + 1) s p).1 (fun j _ _ => by rw [hw j (by omega) (by omega)])]
          · rw [if_pos (by omega), if_pos (by omega), a']
            rw [central4_near (fun p => q (p - g)) (fun p => q' (p - g)) (i + g) s (fun j _ _ => hqp j (by omega) (by omega))]
            congr 1
            funext x p
            rw [(fWaveTerm_near eps tol (fun p => (rp (q (p - g - 1)) (q (p - g)) (aux (p - g - 1)) (aux (p - g))).wave) _
              (i + g) s p).2 (fun j _ _ => by rw [hw j (by omega) (by omega)])]
        · rename_i hc4
          rw [if_neg hc4] at he'
          split at he
          · rename_i hc5
            rw [if_pos hc5] at he'
            have hg3 := o3' hc5
            cases he; cases he'
            have a : i + s + g + 1 = (i + g + 1) + s := by ring
            have a' : i + s + g = (i + g) + s := by ring
            refine ⟨fun h1 h2 h3 h4 => ?_, fun h1 h2 h3 h4 => ?_⟩ <;> funext x <;> simp only [fShu5, fShuQl, fShuQr]
            · rw [if_pos (by omega), if_pos (by omega), a]
              exact (shuValue_near eps (fun j => q (j - g) x) (fun j => q' (j - g) x) (i + g + 1) s).1
                (fun j _ _ => by rw [hqp j (by omega) (by omega)])
            · rw [if_pos (by omega), if_pos (by omega), a']
              exact (shuValue_near eps (fun j => q (j - g) x) (fun j => q' (j - g) x) (i + g) s).2
                (fun j _ _ => by rw [hqp j (by omega) (by omega)])
          · cases he

end PyClaw
