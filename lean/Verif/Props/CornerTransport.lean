import Verif.Props.Unsplit2
import Verif.Props.Unsplit3
import Verif.Spec.Upwind
import Mathlib.Data.Rat.Floor
import Mathlib.Tactic.NormNum

/-!
C75: for constant-coefficient advection the first-order unsplit method with transverse propagation is the corner
transport upwind method, the product of one-dimensional upwind steps.
-/
set_option linter.unusedSectionVars false

namespace PyClaw
open Spec

variable {K : Type*} [Field K] [LinearOrder K] [IsStrictOrderedRing K]

theorem upwind_eq (lam u : K) (v : Int → K) (i : Int) :
    upwind lam u v i = v i - lam * (max u 0 * (v i - v (i - 1)) + min u 0 * (v (i + 1) - v i)) := by
  unfold upwind
  split
  · rw [max_eq_left (by assumption), min_eq_right (by assumption)]; ring
  · rw [max_eq_right (by linarith), min_eq_left (by linarith)]; ring

/-- C75. First order, `transverse_waves > 0`, constant velocities `(u, v)` of any sign: one unsplit step is an upwind
step in `x` followed by an upwind step in `y`, at every cell and for all data and step sizes. -/
theorem C75_corner_transport2 (undef u v : K) (c : Cfg2 K 1) (hg : 1 ≤ c.g) (ho : c.order = 1) (ht : 0 < c.trans)
    (q : Int → Int → Fin 1 → K) (i j : Int) (h1 : 1 ≤ i) (h2 : i ≤ c.mx) (h3 : 1 ≤ j) (h4 : j ≤ c.my) :
    (unsplitStep2 undef (advectionRp u) (advectionRp v) (advectionRt v) (advectionRt u) c none (fun _ _ => ()) q).1
      i j 0 =
      upwind (c.dt / c.dy) v (fun l => upwind (c.dt / c.dx) u (fun k => q k l 0) i) j := by
  rw [unsplitStep2_cell undef _ _ _ _ c hg none _ q i j h1 h2 h3 h4]
  have ht' : ¬c.trans ≤ 0 := by omega
  have hs : ¬((1 : Int) < 1 ∧ c.trans = 2) := by omega
  simp only [upwind_eq, xIncrement, rowFlux, rowTransverse, Cfg2.swap, if_neg ht', rowStep, Cfg2.row, waveProp,
    interfaces, localRatio, sliceFlux, ho, if_true, transversePair, leftPart, rightPart, if_neg hs, advectionRp,
    advectionRt, Pi.add_apply, Pi.sub_apply, Pi.smul_apply, Prod.fst_add, Prod.snd_add, Prod.smul_fst, Prod.smul_snd,
    smul_eq_mul, add_sub_cancel_right, Pi.zero_apply]
  ring

/-- The factor with which a fluctuation enters what a row sends, for advection at `transverse_waves = 11`. -/
def ctuFactor (v w : K) (icoor : Nat) (dtw : K) (up : Bool) (s : Int) (lam : K) : K :=
  let a := if icoor = 2 then v else w
  let b := if icoor = 2 then w else v
  let t := if up then max a 0 else min a 0
  if s = 0 then -(1 / 2 * lam * t) + 1 / 6 * lam * dtw * t * (max b 0 - min b 0)
  else if s = 1 then -(1 / 6 * lam * dtw * t * max b 0)
  else if s = -1 then 1 / 6 * lam * dtw * t * min b 0
  else 0

theorem part_advection (v w : K) (T : Trans3 K 1) (h3 : T.m3 = 1) (h4 : T.m4 = 1)
    (ht : T.t = fun icoor _ _ a => if icoor = 2 then (min v 0 • a, max v 0 • a) else (min w 0 • a, max w 0 • a))
    (htt : T.tt = fun icoor _ _ _ a => if icoor = 2 then (min v 0 • a, max v 0 • a) else (min w 0 • a, max w 0 • a))
    (icoor : Nat) (hi : icoor = 2 ∨ icoor = 3) (dtw : K) (imp : Nat) (up : Bool) (s : Int) (lam : K) (i : Int) :
    T.part icoor dtw imp up s lam i 0 = ctuFactor v w icoor dtw up s lam * T.asdq imp i 0 := by
  have e3 : ¬((1 : Int) = 2) := by decide
  have e4 : ¬((2 : Int) ≤ 1) := by decide
  unfold Trans3.part ctuFactor
  by_cases hs0 : s = 0
  · rcases hi with rfl | rfl <;> cases up <;>
    · simp only [hs0, if_true, h3, h4, Int.zero_lt_one, if_neg e4, Trans3.double, Trans3.second, if_neg e3, Trans3.inc, ht,
        htt, side, Pi.add_apply, Pi.neg_apply, Pi.smul_apply, Pi.sub_apply, Pi.zero_apply, smul_eq_mul,
        Bool.false_eq_true, if_false, reduceCtorEq, Nat.reduceEqDiff, decide_true, decide_false]
      ring
  · by_cases hs1 : s = 1
    · rcases hi with rfl | rfl <;> cases up <;>
      · simp only [if_neg hs0, if_pos hs1, if_true, h3, h4, Int.zero_lt_one, Trans3.double, Trans3.second, if_neg e3,
          Trans3.inc, ht, htt, side, Pi.neg_apply, Pi.smul_apply, smul_eq_mul,
          Bool.false_eq_true, if_false, Nat.reduceEqDiff, decide_true, decide_false]
        ring
    · by_cases hs2 : s = -1
      · rcases hi with rfl | rfl <;> cases up <;>
        · simp only [if_neg hs0, if_neg hs1, if_pos hs2, if_true, h3, h4, Int.zero_lt_one, Trans3.double, Trans3.second,
            if_neg e3, Trans3.inc, ht, htt, side, Pi.smul_apply, smul_eq_mul,
            Bool.false_eq_true, if_false, Nat.reduceEqDiff, decide_true, decide_false]
          ring
      · simp only [if_neg hs0, if_neg hs1, if_neg hs2, Pi.zero_apply, zero_mul]

/-- Upwind difference at cell `i`. -/
def upDiff (u : K) (v : Int → K) (i : Int) : K := max u 0 * (v i - v (i - 1)) + min u 0 * (v (i + 1) - v i)

/-- What a row sends in the case of advection, first order, `transverse_waves = 11`. -/
theorem sent3_advection (undef u v w : K) (c : Cfg3 K 1) (ht : c.trans = 11) (stale : Int → Fin 1 → K)
    (q : Int → Int → Int → Fin 1 → K) (icoor : Nat) (hi : icoor = 2 ∨ icoor = 3) (dtw : K) (up : Bool) (s i j k : Int) :
    sent3 undef (advectionRp u) (advectionRt3 v w) (advectionRtt3 v w) c none stale (fun _ _ _ => ()) q icoor dtw up s
      i j k 0 = ctuFactor v w icoor dtw up s (c.dt / c.dx) * upDiff u (fun n => q n j k 0) i := by
  have e1 : splitMethod3 11 = (1, 1) := by decide
  have e2 : ¬((1 : Int) ≤ 0) := by decide
  unfold sent3 rowTrans3
  simp only [ht, e1, if_neg e2, Pi.add_apply, localRatio]
  rw [part_advection v w _ rfl rfl rfl rfl icoor hi, part_advection v w _ rfl rfl rfl rfl icoor hi]
  simp only [upDiff, interfaces, advectionRp, if_true, Nat.reduceEqDiff, if_false, Pi.smul_apply, Pi.sub_apply,
    smul_eq_mul, add_sub_cancel_right]
  ring

/-- C75 in three dimensions. First order, `transverse_waves = 11`, constant velocities `(u, v, w)` of any sign: one
unsplit step is an upwind step in `x`, one in `y` and one in `z`, at every cell and for all data and step sizes. -/
theorem C75_corner_transport3 (undef u v w : K) (c : Cfg3 K 1) (hg : 1 ≤ c.g) (ho : c.order = 1) (ht : c.trans = 11)
    (stale : Int → Fin 1 → K) (q : Int → Int → Int → Fin 1 → K) (i j k : Int) (h1 : 1 ≤ i) (h2 : i ≤ c.mx)
    (h3 : 1 ≤ j) (h4 : j ≤ c.my) (h5 : 1 ≤ k) (h6 : k ≤ c.mz) :
    (unsplitStep3 undef (advectionRp u) (advectionRp v) (advectionRp w) (advectionRt3 v w) (advectionRt3 w u)
      (advectionRt3 u v) (advectionRtt3 v w) (advectionRtt3 w u) (advectionRtt3 u v) c none stale (fun _ _ _ => ()) q).1
      i j k 0 =
      upwind (c.dt / c.dz) w (fun n => upwind (c.dt / c.dy) v (fun l => upwind (c.dt / c.dx) u (fun h => q h l n 0) i)
        j) k := by
  rw [unsplitStep3_cell undef _ _ _ _ _ _ _ _ _ c hg none stale _ q i j k h1 h2 h3 h4 h5 h6]
  have hr : ∀ (u : K) (c : Cfg3 K 1) (ho : c.order = 1) (r : Int → Fin 1 → K) (n : Int),
      rowStep undef (advectionRp u) c.row none (fun _ => ()) r n 0 =
        r n 0 - c.dt / c.dx * upDiff u (fun n => r n 0) n := by
    intro u c ho r n
    simp only [rowStep, Cfg3.row, waveProp, interfaces, localRatio, sliceFlux, ho, if_true, advectionRp, upDiff,
      Pi.add_apply, Pi.sub_apply, Pi.smul_apply, smul_eq_mul, add_sub_cancel_right, Pi.zero_apply]
    ring
  have key : ∀ (u v w : K) (c : Cfg3 K 1) (ho : c.order = 1) (ht : c.trans = 11) (q : Int → Int → Int → Fin 1 → K)
      (i j k : Int), xIncrement3 undef (advectionRp u) (advectionRt3 v w) (advectionRtt3 v w) c none stale
        (fun _ _ _ => ()) q i j k 0 =
      -(c.dt / c.dx * upDiff u (fun n => q n j k 0) i)
      + 1 / 2 * (c.dt / c.dx) * (c.dt / c.dy) * upDiff v (fun l => upDiff u (fun n => q n l k 0) i) j
      + 1 / 2 * (c.dt / c.dx) * (c.dt / c.dz) * upDiff w (fun l => upDiff u (fun n => q n j l 0) i) k
      - 1 / 3 * (c.dt / c.dx) * (c.dt / c.dy) * (c.dt / c.dz) *
        upDiff w (fun l => upDiff v (fun h => upDiff u (fun n => q n h l 0) i) j) k := by
    intro u v w c ho ht q i j k
    unfold xIncrement3 flux2of3 flux3of3
    simp only [Pi.sub_apply, Pi.smul_apply, Pi.add_apply, smul_eq_mul, localRatio]
    rw [hr u c ho]
    simp only [sent3_advection undef u v w c ht stale q 2 (Or.inl rfl),
      sent3_advection undef u v w c ht stale q 3 (Or.inr rfl)]
    obtain ⟨D, hD⟩ : ∃ D : Int → Int → K, ∀ h l, upDiff u (fun n => q n h l 0) i = D h l := ⟨_, fun _ _ => rfl⟩
    have m1 : ¬((-1 : Int) = 0) := by decide
    have m2 : ¬((-1 : Int) = 1) := by decide
    have m3 : ¬((1 : Int) = 0) := by decide
    have m4 : ¬((3 : Nat) = 2) := by decide
    simp only [hD, ctuFactor, if_true, if_neg m1, if_neg m2, if_neg m3, if_neg m4, Bool.false_eq_true, if_false,
      add_sub_cancel_right]
    simp only [upDiff]
    ring
  rw [Pi.add_apply, Pi.add_apply, Pi.add_apply, key u v w c ho ht]
  have k2 := key v w u c.rot ho ht (rot3 q) j k i
  have k3 := key w u v c.rot.rot ho ht (rot3 (rot3 q)) k i j
  simp only [rot3, Cfg3.rot] at k2 k3 ⊢
  rw [k2, k3]
  simp only [upwind_eq, upDiff]
  ring

theorem upwind_between (lam u : K) (hl : 0 ≤ lam) (hc : lam * |u| ≤ 1) (v : Int → K) (i : Int) (lo hi : K)
    (h : ∀ k, i - 1 ≤ k → k ≤ i + 1 → lo ≤ v k ∧ v k ≤ hi) : lo ≤ upwind lam u v i ∧ upwind lam u v i ≤ hi := by
  obtain ⟨a1, a2⟩ := h i (by omega) (by omega)
  obtain ⟨b1, b2⟩ := h (i - 1) (by omega) (by omega)
  obtain ⟨e1, e2⟩ := h (i + 1) (by omega) (by omega)
  unfold upwind
  split
  · rename_i hu
    rw [abs_of_nonneg hu] at hc
    have h0 : 0 ≤ lam * u := mul_nonneg hl hu
    constructor <;> nlinarith
  · rename_i hu
    rw [abs_of_neg (by linarith)] at hc
    have h0 : 0 ≤ lam * -u := mul_nonneg hl (by linarith)
    constructor <;> nlinarith

/-- C75, stability: with transverse propagation no new extrema appear as long as the Courant number of each direction
separately is at most 1 (not their sum): every new value lies between the bounds of the nine old values around it. -/
theorem C75_no_new_extrema2 (undef u v : K) (c : Cfg2 K 1) (hg : 1 ≤ c.g) (ho : c.order = 1) (ht : 0 < c.trans)
    (hx : 0 ≤ c.dt / c.dx) (hy : 0 ≤ c.dt / c.dy) (hu : c.dt / c.dx * |u| ≤ 1) (hv : c.dt / c.dy * |v| ≤ 1)
    (q : Int → Int → Fin 1 → K) (i j : Int) (h1 : 1 ≤ i) (h2 : i ≤ c.mx) (h3 : 1 ≤ j) (h4 : j ≤ c.my) (lo hi : K)
    (h : ∀ k l, i - 1 ≤ k → k ≤ i + 1 → j - 1 ≤ l → l ≤ j + 1 → lo ≤ q k l 0 ∧ q k l 0 ≤ hi) :
    let r := (unsplitStep2 undef (advectionRp u) (advectionRp v) (advectionRt v) (advectionRt u) c none
      (fun _ _ => ()) q).1 i j 0
    lo ≤ r ∧ r ≤ hi := by
  intro r
  have e : r = _ := C75_corner_transport2 undef u v c hg ho ht q i j h1 h2 h3 h4
  rw [e]
  exact upwind_between _ _ hy hv _ _ _ _ fun l hl1 hl2 =>
    upwind_between _ _ hx hu _ _ _ _ fun k hk1 hk2 => h k l hk1 hk2 hl1 hl2

def ctuCfg (trans : Int) : Cfg2 ℚ 1 :=
  { mx := 2, my := 2, g := 2, dt := 1, dx := 1, dy := 1, order := 1, trans := trans, fwave := false,
    limiter := fun _ => 0 }

/-- One cell of height 1. -/
def ctuData : Int → Int → Fin 1 → ℚ := fun i j _ => if i = 1 ∧ j = 1 then 1 else 0

/-- The hypotheses are met with both Courant numbers equal to 1; the value then moves exactly one cell along the
diagonal. -/
example : (ctuCfg 1).dt / (ctuCfg 1).dx * |(1 : ℚ)| ≤ 1 ∧ 0 < (ctuCfg 1).trans ∧
    (unsplitStep2 0 (advectionRp 1) (advectionRp 1) (advectionRt 1) (advectionRt 1) (ctuCfg 1) none (fun _ _ => ())
      ctuData).1 2 2 0 = 1 := by
  refine ⟨by norm_num [ctuCfg], by decide, ?_⟩
  rw [C75_corner_transport2 0 1 1 (ctuCfg 1) (by decide) rfl (by decide) ctuData 2 2 (by decide) (by decide)
    (by decide) (by decide)]
  norm_num [upwind, ctuCfg, ctuData]

/-- C75, contrast: without transverse propagation the same step creates the value -1 from data between 0 and 1. -/
theorem C75_without_transverse_overshoots :
    (unsplitStep2 0 (advectionRp 1) (advectionRp 1) (advectionRt 1) (advectionRt 1) (ctuCfg 0) none (fun _ _ => ())
      ctuData).1 1 1 0 = -1 := by
  rw [unsplitStep2_cell 0 _ _ _ _ (ctuCfg 0) (by decide) none _ ctuData 1 1 (by decide) (by decide) (by decide) (by decide)]
  norm_num [xIncrement, rowFlux, rowTransverse, Cfg2.swap, rowStep, Cfg2.row, waveProp, interfaces, localRatio,
    sliceFlux, advectionRp, ctuCfg, ctuData]

/-- C75, stability in three dimensions: no new extrema as long as the Courant number of each direction separately is at
most 1: every new value lies between the bounds of the 27 old values around it. -/
theorem C75_no_new_extrema3 (undef u v w : K) (c : Cfg3 K 1) (hg : 1 ≤ c.g) (ho : c.order = 1) (ht : c.trans = 11)
    (stale : Int → Fin 1 → K) (hx : 0 ≤ c.dt / c.dx) (hy : 0 ≤ c.dt / c.dy) (hz : 0 ≤ c.dt / c.dz)
    (hu : c.dt / c.dx * |u| ≤ 1) (hv : c.dt / c.dy * |v| ≤ 1) (hw : c.dt / c.dz * |w| ≤ 1)
    (q : Int → Int → Int → Fin 1 → K) (i j k : Int) (h1 : 1 ≤ i) (h2 : i ≤ c.mx) (h3 : 1 ≤ j) (h4 : j ≤ c.my)
    (h5 : 1 ≤ k) (h6 : k ≤ c.mz) (lo hi : K)
    (h : ∀ a b e, i - 1 ≤ a → a ≤ i + 1 → j - 1 ≤ b → b ≤ j + 1 → k - 1 ≤ e → e ≤ k + 1 →
      lo ≤ q a b e 0 ∧ q a b e 0 ≤ hi) :
    let r := (unsplitStep3 undef (advectionRp u) (advectionRp v) (advectionRp w) (advectionRt3 v w) (advectionRt3 w u)
      (advectionRt3 u v) (advectionRtt3 v w) (advectionRtt3 w u) (advectionRtt3 u v) c none stale (fun _ _ _ => ()) q).1
      i j k 0
    lo ≤ r ∧ r ≤ hi := by
  intro r
  have e : r = _ := C75_corner_transport3 undef u v w c hg ho ht stale q i j k h1 h2 h3 h4 h5 h6
  rw [e]
  exact upwind_between _ _ hz hw _ _ _ _ fun n hn1 hn2 => upwind_between _ _ hy hv _ _ _ _ fun l hl1 hl2 =>
    upwind_between _ _ hx hu _ _ _ _ fun a ha1 ha2 => h a l n ha1 ha2 hl1 hl2 hn1 hn2

def ctu3Cfg : Cfg3 ℚ 1 := ⟨2, 2, 2, 2, 1, 1, 1, 1, 1, 11, false, false, fun _ => 0⟩

/-- The hypotheses are met with all Courant numbers equal to 1; the value moves one cell along the space diagonal, here
for velocity `(1, -1, 1)`, and leaves its own cell. -/
example : (ctu3Cfg.dt / ctu3Cfg.dx * |(-1 : ℚ)| ≤ 1 ∧ ctu3Cfg.order = 1 ∧ ctu3Cfg.trans = 11) ∧
    (let r := (unsplitStep3 0 (advectionRp 1) (advectionRp (-1)) (advectionRp 1) (advectionRt3 (-1) 1) (advectionRt3 1 1)
      (advectionRt3 1 (-1)) (advectionRtt3 (-1) 1) (advectionRtt3 1 1) (advectionRtt3 1 (-1)) ctu3Cfg none
      (fun _ _ => 5) (fun _ _ _ => ()) fun i j k _ => if i = 1 ∧ j = 2 ∧ k = 1 then 1 else 0).1
     r 2 1 2 0 = 1 ∧ r 1 2 1 0 = 0) := by
  refine ⟨⟨by norm_num [ctu3Cfg], rfl, rfl⟩, ?_, ?_⟩
  · rw [C75_corner_transport3 0 1 (-1) 1 ctu3Cfg (by decide) rfl rfl _ _ 2 1 2 (by decide) (by decide) (by decide)
      (by decide) (by decide) (by decide)]
    norm_num [upwind, ctu3Cfg]
  · rw [C75_corner_transport3 0 1 (-1) 1 ctu3Cfg (by decide) rfl rfl _ _ 1 2 1 (by decide) (by decide) (by decide)
      (by decide) (by decide) (by decide)]
    norm_num [upwind, ctu3Cfg]

end PyClaw
