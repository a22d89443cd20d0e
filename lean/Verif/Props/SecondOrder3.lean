import Verif.Props.SecondOrder2
import Verif.Props.CornerTransport
import Mathlib.Tactic.IntervalCases

/-!
C76 for advection in two and three dimensions: which polynomials the unsplit second-order methods advance exactly, for
every setting of `transverse_waves`.
-/
set_option linter.unusedSectionVars false

namespace PyClaw
open Spec

variable {K : Type*} [Field K] [LinearOrder K] [IsStrictOrderedRing K]

/-! ### Monomials in one variable -/

theorem mono1 (dt dx u : K) (hdx : dx ≠ 0) (a : Nat) (ha : a ≤ 2) (i : Int) :
    let f : Int → K := fun i => (i * dx) ^ a
    f i - upPart (dt / dx) u f i - corrPart (dt / dx) u f i = (i * dx - u * dt) ^ a ∧
      (a = 0 → upPart (dt / dx) u f i = 0) ∧ (a < 2 → corrPart (dt / dx) u f i = 0) := by
  intro f
  have e : dt / dx * dx = dt := div_mul_cancel₀ _ hdx
  simp only [f, upPart, corrPart]
  set l := dt / dx
  rw [← e]
  push_cast
  interval_cases a
  · refine ⟨by ring, fun _ => by ring, fun _ => by ring⟩
  · refine ⟨?_, fun h => absurd h (by decide), fun _ => by ring⟩
    rcases le_total 0 u with hu | hu
    · rw [max_eq_left hu, min_eq_right hu]; ring
    · rw [max_eq_right hu, min_eq_left hu]; ring
  · refine ⟨?_, fun h => absurd h (by decide), fun h => absurd h (by decide)⟩
    rcases le_total 0 u with hu | hu
    · rw [max_eq_left hu, min_eq_right hu, abs_of_nonneg hu]; ring
    · rw [max_eq_right hu, min_eq_left hu, abs_of_nonpos hu]; ring

/-- The correction flux of advection without limiter. -/
theorem sliceFlux_advection (undef u : K) (order : Int) (ho : order ≠ 1) (lim : Fin 1 → Int) (hl : ∀ p, ¬ 0 < lim p)
    (lam : K) (aux : Int → Unit) (q : Int → Fin 1 → K) (i : Int) :
    sliceFlux undef order false lim (fun _ => lam) (interfaces (advectionRp u) aux q) i 0 =
      1 / 2 * |u| * (1 - |u| * lam) * (q i 0 - q (i - 1) 0) := by
  rw [sliceFlux_unlimited undef order ho false lim hl]
  simp only [correctionFlux, Fin.sum_univ_one, interfaces, advectionRp, Pi.smul_apply, Pi.sub_apply, smul_eq_mul,
    Bool.false_eq_true, if_false]
  ring

theorem rowStep_advection (undef u : K) (c : Cfg1 K 1) (hf : c.fwave = false) (ho : c.order ≠ 1)
    (hl : ∀ p, ¬ 0 < c.limiter p) (aux : Int → Unit) (q : Int → Fin 1 → K) (i : Int) :
    rowStep undef (advectionRp u) c none aux q i 0 =
      q i 0 - upPart (c.dt / c.dx) u (fun n => q n 0) i - corrPart (c.dt / c.dx) u (fun n => q n 0) i := by
  unfold rowStep
  rw [hf]
  have hlam : localRatio c.dt c.dx none aux = fun _ => c.dt / c.dx := rfl
  simp only [waveProp, hlam, Pi.sub_apply, Pi.smul_apply, Pi.add_apply, smul_eq_mul,
    sliceFlux_advection undef u c.order ho c.limiter hl]
  simp only [interfaces, advectionRp, Pi.smul_apply, Pi.sub_apply, smul_eq_mul, add_sub_cancel_right, upPart, corrPart]
  ring

/-! ### Two dimensions -/

/-- The sweep in the first direction, in operator form. -/
theorem xIncrement_advection (undef u v : K) (c : Cfg2 K 1) (hf : c.fwave = false) (ho : 1 < c.order)
    (hl : ∀ p, ¬ 0 < c.limiter p) (q : Int → Int → Fin 1 → K) (i j : Int) :
    xIncrement undef (advectionRp u) (advectionRt v) c none (fun _ _ => ()) q i j 0 =
      -upPart (c.dt / c.dx) u (fun n => q n j 0) i - corrPart (c.dt / c.dx) u (fun n => q n j 0) i +
        (if 0 < c.trans then
          1 / 2 * upPart (c.dt / c.dy) v (fun l => upPart (c.dt / c.dx) u (fun n => q n l 0) i) j +
          (if c.trans = 2 then upPart (c.dt / c.dy) v (fun l => corrPart (c.dt / c.dx) u (fun n => q n l 0) i) j else 0)
        else 0) := by
  unfold xIncrement
  have hrs := rowStep_advection undef u c.row hf (by show c.order ≠ 1; omega) hl (fun _ => ()) (fun i => q i j) i
  have hc : c.row.dt = c.dt ∧ c.row.dx = c.dx := ⟨rfl, rfl⟩
  rw [hc.1, hc.2] at hrs
  rw [Pi.sub_apply, Pi.sub_apply, hrs]
  by_cases ht : 0 < c.trans
  · have hT : ∀ l : Int, rowTransverse undef (advectionRp u) (advectionRt v) c none (fun _ _ => ()) q l i =
        (fun _ => min v 0 * (-(1 / 2) * (upPart (c.dt / c.dx) u (fun n => q n l 0) i +
            (if c.trans = 2 then 2 * corrPart (c.dt / c.dx) u (fun n => q n l 0) i else 0))),
         fun _ => max v 0 * (-(1 / 2) * (upPart (c.dt / c.dx) u (fun n => q n l 0) i +
            (if c.trans = 2 then 2 * corrPart (c.dt / c.dx) u (fun n => q n l 0) i else 0)))) := by
      intro l
      unfold rowTransverse
      rw [if_neg (by omega), hf]
      have hlam : (localRatio c.dt c.dx none fun _ : Int => ()) = fun _ => c.dt / c.dx := rfl
      have hF := sliceFlux_advection undef u c.order (by omega) c.limiter hl (c.dt / c.dx) (fun _ => ())
        (fun i => q i l)
      ext k <;> have hk : k = 0 := Subsingleton.elim _ _ <;> subst hk <;>
      · by_cases h2 : c.trans = 2
        · simp only [hlam, transversePair, leftPart, rightPart, if_pos (And.intro ho h2), advectionRt, Prod.smul_fst,
            Prod.smul_snd, Prod.fst_add, Prod.snd_add, Pi.smul_apply, Pi.add_apply, Pi.sub_apply, smul_eq_mul, hF, if_pos h2]
          simp only [interfaces, advectionRp, Pi.smul_apply, Pi.sub_apply, smul_eq_mul, add_sub_cancel_right, upPart,
            corrPart]
          ring
        · have hn : ¬ (1 < c.order ∧ c.trans = 2) := fun h => h2 h.2
          simp only [hlam, transversePair, leftPart, rightPart, if_neg hn, advectionRt, Prod.smul_fst,
            Prod.smul_snd, Prod.fst_add, Prod.snd_add, Pi.smul_apply, Pi.add_apply, smul_eq_mul, if_neg h2]
          simp only [interfaces, advectionRp, Pi.smul_apply, Pi.sub_apply, smul_eq_mul, add_sub_cancel_right, upPart]
          ring
    unfold rowFlux
    simp only [hT, if_pos ht, Pi.smul_apply, Pi.sub_apply, Pi.add_apply, smul_eq_mul, localRatio, add_sub_cancel_right]
    split
    · simp only [upPart, corrPart]; ring
    · simp only [upPart, corrPart]; ring
  · have hT : ∀ l : Int, rowTransverse undef (advectionRp u) (advectionRt v) c none (fun _ _ => ()) q l i = 0 := by
      intro l
      unfold rowTransverse
      rw [if_pos (by omega)]
    unfold rowFlux
    simp only [hT, if_neg ht, Prod.fst_zero, Prod.snd_zero, add_zero, sub_self, smul_zero, Pi.zero_apply]
    ring

/-- The operator form of the unsplit method in two dimensions. -/
def operators2 (trans : Int) (lx ly u v : K) (q : Int → Int → K) (i j : Int) : K :=
  q i j - upPart lx u (fun n => q n j) i - corrPart lx u (fun n => q n j) i
    - upPart ly v (fun l => q i l) j - corrPart ly v (fun l => q i l) j
    + (if 0 < trans then upPart ly v (fun l => upPart lx u (fun n => q n l) i) j else 0)
    + (if trans = 2 then upPart ly v (fun l => corrPart lx u (fun n => q n l) i) j +
        upPart lx u (fun n => corrPart ly v (fun l => q n l) j) i else 0)

theorem unsplit2_operators (undef u v : K) (c : Cfg2 K 1) (hg : 1 ≤ c.g) (hf : c.fwave = false) (ho : 1 < c.order)
    (hl : ∀ p, ¬ 0 < c.limiter p) (q : Int → Int → Fin 1 → K) (i j : Int) (h1 : 1 ≤ i) (h2 : i ≤ c.mx) (h3 : 1 ≤ j)
    (h4 : j ≤ c.my) :
    (unsplitStep2 undef (advectionRp u) (advectionRp v) (advectionRt v) (advectionRt u) c none (fun _ _ => ()) q).1
      i j 0 = operators2 c.trans (c.dt / c.dx) (c.dt / c.dy) u v (fun i j => q i j 0) i j := by
  rw [unsplitStep2_cell undef _ _ _ _ c hg none _ q i j h1 h2 h3 h4]
  rw [Pi.add_apply, Pi.add_apply, xIncrement_advection undef u v c hf ho hl q i j]
  have hy := xIncrement_advection undef v u c.swap hf ho hl (fun j i => q i j) j i
  have e : c.swap.dt = c.dt ∧ c.swap.dx = c.dy ∧ c.swap.dy = c.dx ∧ c.swap.trans = c.trans := ⟨rfl, rfl, rfl, rfl⟩
  rw [e.1, e.2.1, e.2.2.1, e.2.2.2] at hy
  rw [hy]
  unfold operators2
  by_cases ht : 0 < c.trans
  · by_cases h2 : c.trans = 2
    · simp only [if_pos ht, if_pos h2, upPart, corrPart]; ring
    · simp only [if_pos ht, if_neg h2, upPart, corrPart]; ring
  · have h2 : ¬ c.trans = 2 := by omega
    simp only [if_neg ht, if_neg h2]; ring

theorem operators2_add (trans : Int) (lx ly u v : K) (q r : Int → Int → K) (i j : Int) :
    operators2 trans lx ly u v (fun i j => q i j + r i j) i j =
      operators2 trans lx ly u v q i j + operators2 trans lx ly u v r i j := by
  unfold operators2
  split <;> split <;> simp only [upPart, corrPart] <;> ring

theorem operators2_zero (trans : Int) (lx ly u v : K) (i j : Int) :
    operators2 trans lx ly u v (fun _ _ => 0) i j = 0 := by
  unfold operators2
  split <;> split <;> simp only [upPart, corrPart] <;> ring

theorem operators2_tensor (trans : Int) (lx ly u v r : K) (f g : Int → K) (i j : Int) :
    operators2 trans lx ly u v (fun i j => r * (f i * g j * 1)) i j =
      r * (f i * g j - upPart lx u f i * g j - corrPart lx u f i * g j - f i * upPart ly v g j - f i * corrPart ly v g j
        + (if 0 < trans then upPart lx u f i * upPart ly v g j else 0)
        + (if trans = 2 then corrPart lx u f i * upPart ly v g j + upPart lx u f i * corrPart ly v g j else 0)) := by
  unfold operators2
  split <;> split <;> simp only [upPart, corrPart] <;> ring

/-- C76, unsplit in two dimensions, advection with constant velocity: without limiter the step advances every
polynomial made of the monomials of `ExactFor2` exactly: those in one variable without transverse waves, all of degree
2 with `transverse_waves = 1`, and `x² y` and `x y²` in addition with `transverse_waves = 2`. -/
theorem C76_unsplit2_polynomials (undef u v : K) (c : Cfg2 K 1) (hg : 1 ≤ c.g) (hf : c.fwave = false) (ho : 1 < c.order)
    (hl : ∀ p, ¬ 0 < c.limiter p) (hdx : c.dx ≠ 0) (hdy : c.dy ≠ 0) (p : List (K × Nat × Nat × Nat))
    (hp : ∀ t ∈ p, ExactFor2 c.trans t.2.1 t.2.2.1 ∧ t.2.2.2 = 0) (i j : Int) (h1 : 1 ≤ i) (h2 : i ≤ c.mx) (h3 : 1 ≤ j)
    (h4 : j ≤ c.my) :
    (unsplitStep2 undef (advectionRp u) (advectionRp v) (advectionRt v) (advectionRt u) c none (fun _ _ => ())
      fun i j _ => polyAt p (i * c.dx) (j * c.dy) 0).1 i j 0 =
      polyAt p (i * c.dx - u * c.dt) (j * c.dy - v * c.dt) 0 := by
  rw [unsplit2_operators undef u v c hg hf ho hl _ i j h1 h2 h3 h4]
  clear h1 h2 h3 h4 hl hf hg
  induction p with
  | nil => simp only [polyAt, List.map_nil, List.sum_nil]; exact operators2_zero _ _ _ _ _ _ _
  | cons t p ih =>
    obtain ⟨r, a, b, e⟩ := t
    have ih := ih fun t ht => hp t (List.mem_cons_of_mem _ ht)
    obtain ⟨hx, rfl⟩ := hp _ (List.mem_cons_self)
    simp only [polyAt, List.map_cons, List.sum_cons, pow_zero] at ih hx ⊢
    rw [operators2_add, ih, operators2_tensor c.trans (c.dt / c.dx) (c.dt / c.dy) u v r (fun i => (i * c.dx) ^ a)
      (fun j => (j * c.dy) ^ b)]
    congr 1
    congr 1
    have hab : a ≤ 2 ∧ b ≤ 2 := by unfold ExactFor2 at hx; split at hx <;> [omega; split at hx <;> omega]
    obtain ⟨e1, z1, y1⟩ := mono1 c.dt c.dx u hdx a hab.1 i
    obtain ⟨e2, z2, y2⟩ := mono1 c.dt c.dy v hdy b hab.2 j
    rw [← e1, ← e2]
    generalize upPart (c.dt / c.dx) u (fun i : Int => ((i : K) * c.dx) ^ a) i = U1 at *
    generalize corrPart (c.dt / c.dx) u (fun i : Int => ((i : K) * c.dx) ^ a) i = C1 at *
    generalize upPart (c.dt / c.dy) v (fun i : Int => ((i : K) * c.dy) ^ b) j = U2 at *
    generalize corrPart (c.dt / c.dy) v (fun i : Int => ((i : K) * c.dy) ^ b) j = C2 at *
    unfold ExactFor2 at hx
    by_cases ht : 0 < c.trans
    · rw [if_neg (by omega)] at hx
      by_cases ht2 : c.trans = 2
      · rw [if_pos ht2] at hx
        rw [if_pos ht, if_pos ht2]
        rcases hx.2 with h | h
        · rw [y1 h]; ring
        · rw [y2 h]; ring
      · rw [if_neg ht2] at hx
        rw [if_pos ht, if_neg ht2]
        obtain ⟨hA, hB⟩ := hab
        rcases Nat.eq_zero_or_pos a with h | h
        · rw [z1 h, y1 (by omega)]; ring
        · rcases Nat.eq_zero_or_pos b with h' | h'
          · rw [z2 h', y2 (by omega)]; ring
          · rw [y1 (by omega), y2 (by omega)]; ring
    · rw [if_pos (by omega)] at hx
      rw [if_neg ht, if_neg (by omega)]
      rcases hx with ⟨h, -⟩ | ⟨h, -⟩
      · rw [z1 h, y1 (by omega)]; ring
      · rw [z2 h, y2 (by omega)]; ring

/-! ### Three dimensions -/

/-- The factor of the doubly transverse part of what a row sends. -/
def doubleFactor (v w : K) (icoor : Nat) (dtw : K) (up : Bool) (s : Int) (lam : K) : K :=
  let a := if icoor = 2 then v else w
  let b := if icoor = 2 then w else v
  let t := if up then max a 0 else min a 0
  if s = 0 then 1 / 6 * lam * dtw * t * (max b 0 - min b 0)
  else if s = 1 then -(1 / 6 * lam * dtw * t * max b 0)
  else if s = -1 then 1 / 6 * lam * dtw * t * min b 0
  else 0

/-- The factor of the transverse part. -/
def singleFactor (v w : K) (icoor : Nat) (up : Bool) (s : Int) (lam : K) : K :=
  if s = 0 then -(1 / 2 * lam * (if up then max (if icoor = 2 then v else w) 0 else min (if icoor = 2 then v else w) 0))
  else 0

theorem part_advection2 (v w : K) (T : Trans3 K 1) (h3 : T.m3 = 1 ∨ T.m3 = 2)
    (ht : T.t = fun icoor _ _ a => if icoor = 2 then (min v 0 • a, max v 0 • a) else (min w 0 • a, max w 0 • a))
    (htt : T.tt = fun icoor _ _ _ a => if icoor = 2 then (min v 0 • a, max v 0 • a) else (min w 0 • a, max w 0 • a))
    (icoor : Nat) (hi : icoor = 2 ∨ icoor = 3) (dtw : K) (imp : Nat) (himp : imp = 1 ∨ imp = 2) (up : Bool) (s : Int)
    (lam : K) (i : Int) :
    T.part icoor dtw imp up s lam i 0 =
      singleFactor v w icoor up s lam *
        (T.asdq imp i 0 + (if T.m3 = 2 then (if imp = 2 then -2 else 2) * T.cqxx i 0 else 0)) +
      (if 0 < T.m4 then doubleFactor v w icoor dtw up s lam *
        (T.asdq imp i 0 + (if T.m3 = 2 ∧ T.m4 = 2 then (if imp = 2 then -3 else 3) * T.cqxx i 0 else 0)) else 0) := by
  have hinc : ∀ (ic : Nat) (b : Bool), side b (T.inc ic imp i) 0 =
      (if b then max (if ic = 2 then v else w) 0 else min (if ic = 2 then v else w) 0) * T.asdq imp i 0 := by
    intro ic b
    unfold Trans3.inc
    rw [ht]
    by_cases h : ic = 2 <;> cases b <;> simp [side, h]
  have hcor : ∀ (ic : Nat) (b : Bool), side b (T.cor ic imp i) 0 =
      (if T.m3 = 2 then (if b then max (if ic = 2 then v else w) 0 else min (if ic = 2 then v else w) 0) * T.cqxx i 0
        else 0) := by
    intro ic b
    unfold Trans3.cor
    rw [ht]
    by_cases h : ic = 2 <;> by_cases h' : T.m3 = 2 <;> cases b <;> simp [side, h, h']
  have hsec : ∀ (ic : Nat) (b : Bool), side b (T.second ic imp i) 0 =
      (if b then max (if ic = 2 then v else w) 0 else min (if ic = 2 then v else w) 0) *
        (T.asdq imp i 0 + (if T.m3 = 2 ∧ T.m4 = 2 then (if imp = 2 then -3 else 3) * T.cqxx i 0 else 0)) := by
    intro ic b
    have a1 : ∀ (x y : (Fin 1 → K) × (Fin 1 → K)), side b (x - (3 : K) • y) 0 = side b x 0 - 3 * side b y 0 := by
      intro x y; cases b <;> simp [side]
    have a2 : ∀ (x y : (Fin 1 → K) × (Fin 1 → K)), side b (x + (3 : K) • y) 0 = side b x 0 + 3 * side b y 0 := by
      intro x y; cases b <;> simp [side]
    unfold Trans3.second
    by_cases h : T.m4 = 2
    · rw [if_pos h]
      rcases himp with rfl | rfl
      · rw [if_neg (by decide), a2, hinc, hcor]
        by_cases h' : T.m3 = 2
        · rw [if_pos h', if_pos (And.intro h' h), if_neg (by decide : ¬(1 : Nat) = 2)]; ring
        · rw [if_neg h', if_neg (fun e : T.m3 = 2 ∧ T.m4 = 2 => h' e.1)]; ring
      · rw [if_pos rfl, a1, hinc, hcor]
        by_cases h' : T.m3 = 2
        · rw [if_pos h', if_pos (And.intro h' h), if_pos (rfl : (2 : Nat) = 2)]; ring
        · rw [if_neg h', if_neg (fun e : T.m3 = 2 ∧ T.m4 = 2 => h' e.1)]; ring
    · rw [if_neg h, hinc, if_neg (fun e : T.m3 = 2 ∧ T.m4 = 2 => h e.2), add_zero]
  have hdbl : ∀ (impt : Nat) (b : Bool), side b (T.double icoor imp impt i) 0 =
      (if b then max (if icoor = 2 then v else w) 0 else min (if icoor = 2 then v else w) 0) *
        ((if impt = 2 then max (if icoor = 2 then w else v) 0 else min (if icoor = 2 then w else v) 0) *
        (T.asdq imp i 0 + (if T.m3 = 2 ∧ T.m4 = 2 then (if imp = 2 then -3 else 3) * T.cqxx i 0 else 0))) := by
    intro impt b
    unfold Trans3.double
    rw [htt]
    rcases hi with rfl | rfl <;> cases b <;> by_cases h : impt = 2 <;>
      simp [side, h] at hsec ⊢ <;> simp [hsec]
  unfold Trans3.part singleFactor doubleFactor
  set E := T.asdq imp i 0 + (if T.m3 = 2 ∧ T.m4 = 2 then (if imp = 2 then -3 else 3) * T.cqxx i 0 else 0)
  have b1 : ((1 : Nat) = 2) = False := by simp
  by_cases hs0 : s = 0
  · simp only [if_pos hs0]
    have hm4 : ((if 0 < T.m4 then (1 / 6 * lam * dtw) • (side up (T.double icoor imp 2 i) - side up (T.double icoor imp 1 i))
        else 0) : Fin 1 → K) 0 = if 0 < T.m4 then 1 / 6 * lam * dtw *
          ((if up then max (if icoor = 2 then v else w) 0 else min (if icoor = 2 then v else w) 0) *
          (max (if icoor = 2 then w else v) 0 - min (if icoor = 2 then w else v) 0)) * E else 0 := by
      split
      · rw [Pi.smul_apply, Pi.sub_apply, hdbl, hdbl]
        simp only [b1, if_true, if_false, smul_eq_mul]
        ring
      · rfl
    have hm3 : ((if 2 ≤ T.m3 then
          (if imp = 2 then lam • side up (T.cor icoor 2 i) else -(lam • side up (T.cor icoor 1 i))) else 0) : Fin 1 → K) 0 =
        -(1 / 2 * lam * (if up then max (if icoor = 2 then v else w) 0 else min (if icoor = 2 then v else w) 0)) *
          (if T.m3 = 2 then (if imp = 2 then -2 else 2) * T.cqxx i 0 else 0) := by
      rcases h3 with h3 | h3
      · rw [if_neg (by omega), if_neg (by omega : ¬T.m3 = 2), mul_zero]; rfl
      · rw [if_pos (by omega), if_pos h3]
        rcases himp with rfl | rfl
        · rw [if_neg (by decide), if_neg (by decide : ¬(1 : Nat) = 2), Pi.neg_apply, Pi.smul_apply, hcor, if_pos h3, smul_eq_mul]; ring
        · rw [if_pos rfl, if_pos (rfl : (2 : Nat) = 2), Pi.smul_apply, hcor, if_pos h3, smul_eq_mul]; ring
    rw [Pi.add_apply, Pi.add_apply, hm4, hm3, Pi.neg_apply, Pi.smul_apply, hinc, smul_eq_mul]
    split <;> ring_nf
  · simp only [if_neg hs0]
    by_cases hs1 : s = 1
    · simp only [if_pos hs1]
      by_cases h4 : 0 < T.m4
      · rw [if_pos h4, if_pos h4, Pi.neg_apply, Pi.smul_apply, hdbl, smul_eq_mul]
        simp only [if_true]
        ring
      · rw [if_neg h4, if_neg h4, Pi.zero_apply]; ring
    · simp only [if_neg hs1]
      by_cases hs2 : s = -1
      · simp only [if_pos hs2]
        by_cases h4 : 0 < T.m4
        · rw [if_pos h4, if_pos h4, Pi.smul_apply, hdbl, smul_eq_mul]
          simp only [b1, if_false]
          ring
        · rw [if_neg h4, if_neg h4, Pi.zero_apply]; ring
      · simp only [if_neg hs2, Pi.zero_apply]
        simp

/-- What a row sends in the case of advection, second order without limiter. -/
theorem sent3_advection2 (undef u v w : K) (c : Cfg3 K 1) (hf : c.fwave = false) (ho : c.order ≠ 1)
    (hl : ∀ p, ¬ 0 < c.limiter p) (h3 : (splitMethod3 c.trans).1 = 1 ∨ (splitMethod3 c.trans).1 = 2)
    (stale : Int → Fin 1 → K) (q : Int → Int → Int → Fin 1 → K) (icoor : Nat) (hi : icoor = 2 ∨ icoor = 3) (dtw : K)
    (up : Bool) (s i j k : Int) :
    sent3 undef (advectionRp u) (advectionRt3 v w) (advectionRtt3 v w) c none stale (fun _ _ _ => ()) q icoor dtw up s
      i j k 0 =
      singleFactor v w icoor up s 1 * (upPart (c.dt / c.dx) u (fun n => q n j k 0) i +
        (if (splitMethod3 c.trans).1 = 2 then 2 * corrPart (c.dt / c.dx) u (fun n => q n j k 0) i else 0)) +
      (if 0 < (splitMethod3 c.trans).2 then doubleFactor v w icoor dtw up s 1 *
        (upPart (c.dt / c.dx) u (fun n => q n j k 0) i +
        (if (splitMethod3 c.trans).1 = 2 ∧ (splitMethod3 c.trans).2 = 2 then
          3 * corrPart (c.dt / c.dx) u (fun n => q n j k 0) i else 0)) else 0) := by
  have hs : ∀ lam, singleFactor v w icoor up s lam = lam * singleFactor v w icoor up s 1 := by
    intro lam; unfold singleFactor; split <;> ring
  have hd : ∀ lam, doubleFactor v w icoor dtw up s lam = lam * doubleFactor v w icoor dtw up s 1 := by
    intro lam; unfold doubleFactor; dsimp only; split_ifs <;> ring
  have hlam : (localRatio c.dt c.dx none fun _ : Int => ()) = fun _ => c.dt / c.dx := rfl
  have hF := sliceFlux_advection undef u c.order ho c.limiter hl (c.dt / c.dx) (fun _ => ()) (fun n => q n j k)
  have hneg : ¬ (splitMethod3 c.trans).1 ≤ 0 := by omega
  unfold sent3 rowTrans3
  simp only [hlam, if_neg hneg, Pi.add_apply, hf, if_neg ho]
  rw [part_advection2 v w _ h3 rfl rfl icoor hi dtw 2 (Or.inr rfl),
    part_advection2 v w _ h3 rfl rfl icoor hi dtw 1 (Or.inl rfl)]
  have e21 : ¬ ((2 : Nat) = 1) := by decide
  have e12 : ¬ ((1 : Nat) = 2) := by decide
  simp only [hF, if_true, if_neg e21, if_neg e12]
  rw [hs, hd]
  simp only [interfaces, advectionRp, Pi.smul_apply, Pi.sub_apply, smul_eq_mul, add_sub_cancel_right]
  split_ifs <;> simp only [upPart, corrPart] <;> ring

/-- The sweep in the first direction, in operator form. -/
theorem xIncrement3_advection (undef u v w : K) (c : Cfg3 K 1) (hf : c.fwave = false) (ho : c.order ≠ 1)
    (hl : ∀ p, ¬ 0 < c.limiter p)
    (m3 m4 : Int) (hm34 : splitMethod3 c.trans = (m3, m4)) (h3 : m3 ≤ 0 ∨ m3 = 1 ∨ m3 = 2)
    (stale : Int → Fin 1 → K) (q : Int → Int → Int → Fin 1 → K) (i j k : Int) :
    let U := fun h l => upPart (c.dt / c.dx) u (fun n => q n h l 0) i
    let C := fun h l => corrPart (c.dt / c.dx) u (fun n => q n h l 0) i
    xIncrement3 undef (advectionRp u) (advectionRt3 v w) (advectionRtt3 v w) c none stale (fun _ _ _ => ()) q i j k 0 =
      -U j k - C j k +
      (if 0 < m3 then
        1 / 2 * (upPart (c.dt / c.dy) v (fun h => U h k) j + upPart (c.dt / c.dz) w (fun l => U j l) k) +
        (if m3 = 2 then upPart (c.dt / c.dy) v (fun h => C h k) j + upPart (c.dt / c.dz) w (fun l => C j l) k else 0) -
        (if 0 < m4 then
          1 / 3 * upPart (c.dt / c.dz) w (fun l => upPart (c.dt / c.dy) v (fun h => U h l) j) k +
          (if m3 = 2 ∧ m4 = 2 then upPart (c.dt / c.dz) w (fun l => upPart (c.dt / c.dy) v (fun h => C h l) j) k else 0)
          else 0)
      else 0) := by
  intro U C
  have hm3 : (splitMethod3 c.trans).1 = m3 := by rw [hm34]
  have hm4 : (splitMethod3 c.trans).2 = m4 := by rw [hm34]
  have hrs := rowStep_advection undef u c.row hf ho hl (fun _ => ()) (fun i => q i j k) i
  have hc : c.row.dt = c.dt ∧ c.row.dx = c.dx := ⟨rfl, rfl⟩
  rw [hc.1, hc.2] at hrs
  unfold xIncrement3 flux2of3 flux3of3
  simp only [Pi.sub_apply, Pi.smul_apply, Pi.add_apply, smul_eq_mul, localRatio]
  rw [hrs]
  by_cases hm : 0 < m3
  · have h3' : (splitMethod3 c.trans).1 = 1 ∨ (splitMethod3 c.trans).1 = 2 := by
      rcases h3 with h | h
      · omega
      · rwa [hm3]
    rw [if_pos hm]
    simp only [sent3_advection2 undef u v w c hf ho hl h3' stale q 2 (Or.inl rfl),
      sent3_advection2 undef u v w c hf ho hl h3' stale q 3 (Or.inr rfl)]
    have hU : ∀ h l, upPart (c.dt / c.dx) u (fun n => q n h l 0) i = U h l := fun _ _ => rfl
    have hC : ∀ h l, corrPart (c.dt / c.dx) u (fun n => q n h l 0) i = C h l := fun _ _ => rfl
    clear_value U C
    have n1 : ¬((-1 : Int) = 0) := by decide
    have n2 : ¬((-1 : Int) = 1) := by decide
    have n3 : ¬((1 : Int) = 0) := by decide
    have n4 : ¬((3 : Nat) = 2) := by decide
    simp only [hU, hC, hm3, hm4, singleFactor, doubleFactor, if_true, if_neg n1, if_neg n2, if_neg n3, if_neg n4,
      Bool.false_eq_true, if_false, add_sub_cancel_right]
    by_cases e3 : m3 = 2
    · by_cases e4 : 0 < m4
      · by_cases e5 : m4 = 2
        · simp only [if_pos e3, if_pos e4, if_pos (And.intro e3 e5), upPart]; ring
        · simp only [if_pos e3, if_pos e4, if_neg (fun h : m3 = 2 ∧ m4 = 2 => e5 h.2), upPart]; ring
      · simp only [if_pos e3, if_neg e4, upPart]; ring
    · have e5 : ¬ (m3 = 2 ∧ m4 = 2) := fun h => e3 h.1
      by_cases e4 : 0 < m4
      · simp only [if_neg e3, if_pos e4, if_neg e5, upPart]; ring
      · simp only [if_neg e3, if_neg e4, upPart]; ring
  · have hz : ∀ icoor dtw up s h l, sent3 undef (advectionRp u) (advectionRt3 v w) (advectionRtt3 v w) c none stale
        (fun _ _ _ => ()) q icoor dtw up s i h l = 0 := by
      intro icoor dtw up s h l
      unfold sent3 rowTrans3
      exact if_pos (by show (splitMethod3 c.trans).1 ≤ 0; omega)
    rw [if_neg hm]
    simp only [hz, Pi.zero_apply, U, C]
    ring

/-- The operator form of the unsplit method in three dimensions; `m3`, `m4` are the two digits of `transverse_waves`. -/
def operators3 (m3 m4 : Int) (lx ly lz u v w : K) (q : Int → Int → Int → K) (i j k : Int) : K :=
  q i j k
    - upPart lx u (fun n => q n j k) i - upPart ly v (fun n => q i n k) j - upPart lz w (fun n => q i j n) k
    - corrPart lx u (fun n => q n j k) i - corrPart ly v (fun n => q i n k) j - corrPart lz w (fun n => q i j n) k
    + (if 0 < m3 then
        upPart lx u (fun a => upPart ly v (fun b => q a b k) j) i +
        upPart ly v (fun b => upPart lz w (fun e => q i b e) k) j +
        upPart lz w (fun e => upPart lx u (fun a => q a j e) i) k
      else 0)
    + (if m3 = 2 then
        upPart ly v (fun b => corrPart lx u (fun a => q a b k) i) j +
        upPart lz w (fun e => corrPart lx u (fun a => q a j e) i) k +
        upPart lz w (fun e => corrPart ly v (fun b => q i b e) j) k +
        upPart lx u (fun a => corrPart ly v (fun b => q a b k) j) i +
        upPart lx u (fun a => corrPart lz w (fun e => q a j e) k) i +
        upPart ly v (fun b => corrPart lz w (fun e => q i b e) k) j
      else 0)
    - (if 0 < m3 ∧ 0 < m4 then upPart lz w (fun e => upPart ly v (fun b => upPart lx u (fun a => q a b e) i) j) k
      else 0)
    - (if m3 = 2 ∧ m4 = 2 then
        upPart lz w (fun e => upPart ly v (fun b => corrPart lx u (fun a => q a b e) i) j) k +
        upPart lx u (fun a => upPart lz w (fun e => corrPart ly v (fun b => q a b e) j) k) i +
        upPart ly v (fun b => upPart lx u (fun a => corrPart lz w (fun e => q a b e) k) i) j
      else 0)

theorem upPart_comm (l l' u u' : K) (q : Int → Int → K) (i j : Int) :
    upPart l u (fun a => upPart l' u' (fun b => q a b) j) i = upPart l' u' (fun b => upPart l u (fun a => q a b) i) j := by
  simp only [upPart]; ring

theorem unsplit3_operators (undef u v w : K) (c : Cfg3 K 1) (hg : 1 ≤ c.g) (hf : c.fwave = false) (ho : c.order ≠ 1)
    (hl : ∀ p, ¬ 0 < c.limiter p)
    (m3 m4 : Int) (hm34 : splitMethod3 c.trans = (m3, m4)) (hm : m3 ≤ 0 ∨ m3 = 1 ∨ m3 = 2)
    (stale : Int → Fin 1 → K) (q : Int → Int → Int → Fin 1 → K) (i j k : Int) (h1 : 1 ≤ i) (h2 : i ≤ c.mx)
    (h3 : 1 ≤ j) (h4 : j ≤ c.my) (h5 : 1 ≤ k) (h6 : k ≤ c.mz) :
    (unsplitStep3 undef (advectionRp u) (advectionRp v) (advectionRp w) (advectionRt3 v w) (advectionRt3 w u)
      (advectionRt3 u v) (advectionRtt3 v w) (advectionRtt3 w u) (advectionRtt3 u v) c none stale (fun _ _ _ => ()) q).1
      i j k 0 = operators3 m3 m4 (c.dt / c.dx) (c.dt / c.dy) (c.dt / c.dz)
        u v w (fun i j k => q i j k 0) i j k := by
  rw [unsplitStep3_cell undef _ _ _ _ _ _ _ _ _ c hg none stale _ q i j k h1 h2 h3 h4 h5 h6]
  have k1 := xIncrement3_advection undef u v w c hf ho hl m3 m4 hm34 hm stale q i j k
  have k2 := xIncrement3_advection undef v w u c.rot hf ho hl m3 m4 hm34 hm stale (rot3 q) j k i
  have k3 := xIncrement3_advection undef w u v c.rot.rot hf ho hl m3 m4 hm34 hm stale (rot3 (rot3 q)) k i j
  simp only [rot3, Cfg3.rot] at k1 k2 k3 ⊢
  rw [Pi.add_apply, Pi.add_apply, Pi.add_apply, k1, k2, k3]
  unfold operators3
  clear k1 k2 k3
  have c1 := upPart_comm (c.dt / c.dx) (c.dt / c.dy) u v (fun a b => q a b k 0) i j
  have c2 := upPart_comm (c.dt / c.dy) (c.dt / c.dz) v w (fun a b => q i a b 0) j k
  have c3 := upPart_comm (c.dt / c.dx) (c.dt / c.dz) u w (fun a b => q a j b 0) i k
  have d1 : upPart (c.dt / c.dx) u (fun l => upPart (c.dt / c.dz) w (fun h => upPart (c.dt / c.dy) v
      (fun n => q l n h 0) j) k) i = upPart (c.dt / c.dz) w (fun e => upPart (c.dt / c.dy) v (fun b =>
        upPart (c.dt / c.dx) u (fun a => q a b e 0) i) j) k := by
    rw [upPart_comm (c.dt / c.dx) (c.dt / c.dz) u w (fun l h => upPart (c.dt / c.dy) v (fun n => q l n h 0) j)]
    congr 1
    funext h
    exact upPart_comm (c.dt / c.dx) (c.dt / c.dy) u v (fun l n => q l n h 0) i j
  have d2 : upPart (c.dt / c.dy) v (fun l => upPart (c.dt / c.dx) u (fun h => upPart (c.dt / c.dz) w
      (fun n => q h l n 0) k) i) j = upPart (c.dt / c.dz) w (fun e => upPart (c.dt / c.dy) v (fun b =>
        upPart (c.dt / c.dx) u (fun a => q a b e 0) i) j) k := by
    rw [← upPart_comm (c.dt / c.dy) (c.dt / c.dz) v w (fun b e => upPart (c.dt / c.dx) u (fun a => q a b e 0) i)]
    congr 1
    funext l
    exact upPart_comm (c.dt / c.dx) (c.dt / c.dz) u w (fun h n => q h l n 0) i k
  simp only [d1, d2]
  simp only [c1, c2, c3]
  by_cases hp : 0 < m3
  · by_cases e3 : m3 = 2
    · by_cases e4 : 0 < m4
      · by_cases e5 : m4 = 2
        · simp only [if_pos hp, if_pos e3, if_pos e4, if_pos (And.intro e3 e5), if_pos (And.intro hp e4)]
          ring
        · simp only [if_pos hp, if_pos e3, if_pos e4, if_neg (fun h : m3 = 2 ∧ m4 = 2 => e5 h.2),
            if_pos (And.intro hp e4)]
          ring
      · simp only [if_pos hp, if_pos e3, if_neg e4, if_neg (fun h : m3 = 2 ∧ m4 = 2 => e4 (by omega)),
          if_neg (fun h : 0 < m3 ∧ 0 < m4 => e4 h.2)]
        ring
    · have e5 : ¬ (m3 = 2 ∧ m4 = 2) := fun h => e3 h.1
      by_cases e4 : 0 < m4
      · simp only [if_pos hp, if_neg e3, if_pos e4, if_neg e5, if_pos (And.intro hp e4)]
        ring
      · simp only [if_pos hp, if_neg e3, if_neg e4, if_neg e5,
          if_neg (fun h : 0 < m3 ∧ 0 < m4 => e4 h.2)]
        ring
  · have e3 : ¬ m3 = 2 := by omega
    have e5 : ¬ (m3 = 2 ∧ m4 = 2) := fun h => e3 h.1
    simp only [if_neg hp, if_neg e3, if_neg e5,
      if_neg (fun h : 0 < m3 ∧ 0 < m4 => hp h.1)]
    ring

theorem operators3_add (m3 m4 : Int) (lx ly lz u v w : K) (q r : Int → Int → Int → K) (i j k : Int) :
    operators3 m3 m4 lx ly lz u v w (fun i j k => q i j k + r i j k) i j k =
      operators3 m3 m4 lx ly lz u v w q i j k + operators3 m3 m4 lx ly lz u v w r i j k := by
  have hu : ∀ (l u : K) (f g : Int → K) (i : Int), upPart l u (fun n => f n + g n) i = upPart l u f i + upPart l u g i := by
    intro l u f g i; simp only [upPart]; ring
  have hc : ∀ (l u : K) (f g : Int → K) (i : Int),
      corrPart l u (fun n => f n + g n) i = corrPart l u f i + corrPart l u g i := by
    intro l u f g i; simp only [corrPart]; ring
  unfold operators3
  simp only [hu, hc]
  split_ifs <;> ring

theorem operators3_zero (m3 m4 : Int) (lx ly lz u v w : K) (i j k : Int) :
    operators3 m3 m4 lx ly lz u v w (fun _ _ _ => 0) i j k = 0 := by
  have hu : ∀ (l u : K) (i : Int), upPart l u (fun _ => 0) i = 0 := by intro l u i; simp [upPart]
  have hc : ∀ (l u : K) (i : Int), corrPart l u (fun _ => 0) i = 0 := by intro l u i; simp [corrPart]
  unfold operators3
  simp only [hu, hc, add_zero, sub_zero, ite_self]

theorem operators3_tensor (m3 m4 : Int) (lx ly lz u v w r : K) (f g h : Int → K) (i j k : Int) :
    operators3 m3 m4 lx ly lz u v w (fun i j k => r * (f i * g j * h k)) i j k =
      r * (f i * g j * h k
        - upPart lx u f i * g j * h k - f i * upPart ly v g j * h k - f i * g j * upPart lz w h k
        - corrPart lx u f i * g j * h k - f i * corrPart ly v g j * h k - f i * g j * corrPart lz w h k
        + (if 0 < m3 then upPart lx u f i * upPart ly v g j * h k + f i * upPart ly v g j * upPart lz w h k +
            upPart lx u f i * g j * upPart lz w h k else 0)
        + (if m3 = 2 then
            upPart lx u f i * (corrPart ly v g j * h k + g j * corrPart lz w h k) +
            upPart ly v g j * (corrPart lx u f i * h k + f i * corrPart lz w h k) +
            upPart lz w h k * (corrPart lx u f i * g j + f i * corrPart ly v g j) else 0)
        - (if 0 < m3 ∧ 0 < m4 then upPart lx u f i * upPart ly v g j * upPart lz w h k else 0)
        - (if m3 = 2 ∧ m4 = 2 then corrPart lx u f i * upPart ly v g j * upPart lz w h k +
            upPart lx u f i * corrPart ly v g j * upPart lz w h k +
            upPart lx u f i * upPart ly v g j * corrPart lz w h k else 0)) := by
  have hu : ∀ (l u A : K) (f : Int → K) (i : Int), upPart l u (fun n => A * f n) i = A * upPart l u f i := by
    intro l u A f i; simp only [upPart]; ring
  have hc : ∀ (l u A : K) (f : Int → K) (i : Int), corrPart l u (fun n => A * f n) i = A * corrPart l u f i := by
    intro l u A f i; simp only [corrPart]; ring
  have e1 : ∀ x y : K, (fun n => r * (f n * x * y)) = fun n => (r * x * y) * f n := by intro x y; funext n; ring
  have e2 : ∀ x y : K, (fun n => r * (x * g n * y)) = fun n => (r * x * y) * g n := by intro x y; funext n; ring
  have e3 : ∀ x y : K, (fun n => r * (x * y * h n)) = fun n => (r * x * y) * h n := by intro x y; funext n; ring
  have mv : ∀ (A B C : K) (f : Int → K), (fun n => A * f n * B * C) = fun n => (A * B * C) * f n := by
    intro A B C f; funext n; ring
  have mv2 : ∀ (A B C : K) (f : Int → K), (fun n => A * B * f n * C) = fun n => (A * B * C) * f n := by
    intro A B C f; funext n; ring
  have mv3 : ∀ (A C : K) (f : Int → K), (fun n => A * f n * C) = fun n => (A * C) * f n := by
    intro A C f; funext n; ring
  unfold operators3
  simp only [e1, e2, e3, hu, hc]
  simp only [mv2, mv, hu]
  split_ifs <;> ring

theorem splitMethod3_values {trans : Int} (h : trans ∈ [0, 10, 11, 20, 21, 22]) :
    splitMethod3 trans = (0, 0) ∧ trans = 0 ∨ splitMethod3 trans = (1, 0) ∧ trans = 10 ∨
    splitMethod3 trans = (1, 1) ∧ trans = 11 ∨ splitMethod3 trans = (2, 0) ∧ trans = 20 ∨
    splitMethod3 trans = (2, 1) ∧ trans = 21 ∨ splitMethod3 trans = (2, 2) ∧ trans = 22 := by
  simp only [List.mem_cons, List.not_mem_nil, or_false] at h
  rcases h with rfl | rfl | rfl | rfl | rfl | rfl <;> decide

/-- C76, unsplit in three dimensions, advection with constant velocity: without limiter the step advances every
polynomial made of the monomials of `ExactFor3` exactly, for every documented value of `transverse_waves`. -/
theorem C76_unsplit3_polynomials (undef u v w : K) (c : Cfg3 K 1) (hg : 1 ≤ c.g) (hf : c.fwave = false)
    (ho : c.order ≠ 1) (hl : ∀ p, ¬ 0 < c.limiter p) (ht : c.trans ∈ [0, 10, 11, 20, 21, 22]) (hdx : c.dx ≠ 0)
    (hdy : c.dy ≠ 0) (hdz : c.dz ≠ 0) (stale : Int → Fin 1 → K) (p : List (K × Nat × Nat × Nat))
    (hp : ∀ t ∈ p, ExactFor3 c.trans t.2.1 t.2.2.1 t.2.2.2) (i j k : Int) (h1 : 1 ≤ i) (h2 : i ≤ c.mx) (h3 : 1 ≤ j)
    (h4 : j ≤ c.my) (h5 : 1 ≤ k) (h6 : k ≤ c.mz) :
    (unsplitStep3 undef (advectionRp u) (advectionRp v) (advectionRp w) (advectionRt3 v w) (advectionRt3 w u)
      (advectionRt3 u v) (advectionRtt3 v w) (advectionRtt3 w u) (advectionRtt3 u v) c none stale (fun _ _ _ => ())
      fun i j k _ => polyAt p (i * c.dx) (j * c.dy) (k * c.dz)).1 i j k 0 =
      polyAt p (i * c.dx - u * c.dt) (j * c.dy - v * c.dt) (k * c.dz - w * c.dt) := by
  have hv := splitMethod3_values ht
  obtain ⟨m3, m4, hm34⟩ : ∃ m3 m4, splitMethod3 c.trans = (m3, m4) := ⟨_, _, rfl⟩
  rw [hm34] at hv
  simp only [Prod.mk.injEq] at hv
  rw [unsplit3_operators undef u v w c hg hf ho hl m3 m4 hm34 (by omega) stale _ i j k h1 h2 h3 h4 h5 h6]
  clear h1 h2 h3 h4 h5 h6 hl hf hg
  induction p with
  | nil => simp only [polyAt, List.map_nil, List.sum_nil]; exact operators3_zero _ _ _ _ _ _ _ _ _ _ _
  | cons t p ih =>
    obtain ⟨r, a, b, e⟩ := t
    have ih := ih fun t ht => hp t (List.mem_cons_of_mem _ ht)
    have hx := hp _ (List.mem_cons_self)
    simp only [polyAt, List.map_cons, List.sum_cons] at ih hx ⊢
    rw [operators3_add, ih, operators3_tensor _ _ (c.dt / c.dx) (c.dt / c.dy) (c.dt / c.dz) u v w r
      (fun i => (i * c.dx) ^ a) (fun j => (j * c.dy) ^ b) (fun k => (k * c.dz) ^ e)]
    congr 1
    congr 1
    clear ih hp
    have hab : a ≤ 2 ∧ b ≤ 2 ∧ e ≤ 2 := by
      rcases hv with h | h | h | h | h | h <;> rw [h.2] at hx <;>
        simp only [ExactFor3, OneSquare, Int.reduceEq, if_false, if_true] at hx <;> omega
    obtain ⟨ha, hb, he⟩ := hab
    obtain ⟨e1, z1, y1⟩ := mono1 c.dt c.dx u hdx a ha i
    obtain ⟨e2, z2, y2⟩ := mono1 c.dt c.dy v hdy b hb j
    obtain ⟨e3, z3, y3⟩ := mono1 c.dt c.dz w hdz e he k
    rw [← e1, ← e2, ← e3]
    clear e1 e2 e3
    generalize upPart (c.dt / c.dx) u (fun i : Int => ((i : K) * c.dx) ^ a) i = U1 at *
    generalize corrPart (c.dt / c.dx) u (fun i : Int => ((i : K) * c.dx) ^ a) i = C1 at *
    generalize upPart (c.dt / c.dy) v (fun i : Int => ((i : K) * c.dy) ^ b) j = U2 at *
    generalize corrPart (c.dt / c.dy) v (fun i : Int => ((i : K) * c.dy) ^ b) j = C2 at *
    generalize upPart (c.dt / c.dz) w (fun i : Int => ((i : K) * c.dz) ^ e) k = U3 at *
    generalize corrPart (c.dt / c.dz) w (fun i : Int => ((i : K) * c.dz) ^ e) k = C3 at *
    dsimp only
    generalize ((i : K) * c.dx) ^ a = F at *
    generalize ((j : K) * c.dy) ^ b = G at *
    generalize ((k : K) * c.dz) ^ e = H at *
    have m0 : ∀ {x y : K} {A B : Prop}, (A → x = 0) → (B → y = 0) → A ∨ B → x * y = 0 := by
      intro x y A B hA hB h
      rcases h with h | h
      · rw [hA h, zero_mul]
      · rw [hB h, mul_zero]
    rcases hv with ⟨⟨rfl, rfl⟩, h⟩ | ⟨⟨rfl, rfl⟩, h⟩ | ⟨⟨rfl, rfl⟩, h⟩ | ⟨⟨rfl, rfl⟩, h⟩ | ⟨⟨rfl, rfl⟩, h⟩ |
        ⟨⟨rfl, rfl⟩, h⟩ <;> rw [h] at hx <;>
      simp only [ExactFor3, OneSquare, Int.reduceEq, Int.reduceLT, if_false, if_true, and_false, and_self,
        lt_self_iff_false] at hx ⊢
    · have p12 := m0 y1 y2 (by omega)
      have p13 := m0 y1 y3 (by omega)
      have p23 := m0 y2 y3 (by omega)
      have q1 := m0 (m0 y1 z2) z3 (by omega)
      have q2 := m0 (m0 z1 y2) z3 (by omega)
      have q3 := m0 (m0 z1 z2) y3 (by omega)
      have t := m0 (m0 z1 z2) z3 (by omega)
      have r1 := m0 y1 z2 (by omega)
      have r2 := m0 y1 z3 (by omega)
      have r3 := m0 y2 z1 (by omega)
      have r4 := m0 y2 z3 (by omega)
      have r5 := m0 y3 z1 (by omega)
      have r6 := m0 y3 z2 (by omega)
      have u1 := m0 z1 z2 (by omega)
      have u2 := m0 z2 z3 (by omega)
      have u3 := m0 z1 z3 (by omega)
      linear_combination -(H - U3 - C3) * p12 - (G - U2) * p13 - (F - U1) * p23 + q1 + q2 + q3 + t
        - H * r1 - G * r2 - H * r3 - F * r4 - G * r5 - F * r6 - H * u1 - F * u2 - G * u3
    · have p12 := m0 y1 y2 (by omega)
      have p13 := m0 y1 y3 (by omega)
      have p23 := m0 y2 y3 (by omega)
      have q1 := m0 (m0 y1 z2) z3 (by omega)
      have q2 := m0 (m0 z1 y2) z3 (by omega)
      have q3 := m0 (m0 z1 z2) y3 (by omega)
      have t := m0 (m0 z1 z2) z3 (by omega)
      have r1 := m0 y1 z2 (by omega)
      have r2 := m0 y1 z3 (by omega)
      have r3 := m0 y2 z1 (by omega)
      have r4 := m0 y2 z3 (by omega)
      have r5 := m0 y3 z1 (by omega)
      have r6 := m0 y3 z2 (by omega)
      linear_combination -(H - U3 - C3) * p12 - (G - U2) * p13 - (F - U1) * p23 + q1 + q2 + q3 + t
        - H * r1 - G * r2 - H * r3 - F * r4 - G * r5 - F * r6
    · have p12 := m0 y1 y2 (by omega)
      have p13 := m0 y1 y3 (by omega)
      have p23 := m0 y2 y3 (by omega)
      have q1 := m0 (m0 y1 z2) z3 (by omega)
      have q2 := m0 (m0 z1 y2) z3 (by omega)
      have q3 := m0 (m0 z1 z2) y3 (by omega)
      have r1 := m0 y1 z2 (by omega)
      have r2 := m0 y1 z3 (by omega)
      have r3 := m0 y2 z1 (by omega)
      have r4 := m0 y2 z3 (by omega)
      have r5 := m0 y3 z1 (by omega)
      have r6 := m0 y3 z2 (by omega)
      linear_combination -(H - U3 - C3) * p12 - (G - U2) * p13 - (F - U1) * p23 + q1 + q2 + q3
        - H * r1 - G * r2 - H * r3 - F * r4 - G * r5 - F * r6
    · have p12 := m0 y1 y2 (by omega)
      have p13 := m0 y1 y3 (by omega)
      have p23 := m0 y2 y3 (by omega)
      have q1 := m0 (m0 y1 z2) z3 (by omega)
      have q2 := m0 (m0 z1 y2) z3 (by omega)
      have q3 := m0 (m0 z1 z2) y3 (by omega)
      have t := m0 (m0 z1 z2) z3 (by omega)
      linear_combination -(H - U3 - C3) * p12 - (G - U2) * p13 - (F - U1) * p23 + q1 + q2 + q3 + t
    · have p12 := m0 y1 y2 (by omega)
      have p13 := m0 y1 y3 (by omega)
      have p23 := m0 y2 y3 (by omega)
      have q1 := m0 (m0 y1 z2) z3 (by omega)
      have q2 := m0 (m0 z1 y2) z3 (by omega)
      have q3 := m0 (m0 z1 z2) y3 (by omega)
      linear_combination -(H - U3 - C3) * p12 - (G - U2) * p13 - (F - U1) * p23 + q1 + q2 + q3
    · have p12 := m0 y1 y2 (by omega)
      have p13 := m0 y1 y3 (by omega)
      have p23 := m0 y2 y3 (by omega)
      linear_combination -(H - U3 - C3) * p12 - (G - U2) * p13 - (F - U1) * p23

def poly3Cfg (trans : Int) : Cfg3 ℚ 1 := ⟨3, 3, 3, 2, 1 / 2, 1, 1, 1, 2, trans, false, false, fun _ => 0⟩

/-- The hypotheses are met by `2 x² y z - x y z + 3 y²` with `transverse_waves = 22`. -/
example : (∀ t ∈ [((2 : ℚ), 2, 1, 1), (-1, 1, 1, 1), (3, 0, 2, 0)], ExactFor3 (poly3Cfg 22).trans t.2.1 t.2.2.1 t.2.2.2) ∧
    polyAt [((2 : ℚ), 2, 1, 1), (-1, 1, 1, 1), (3, 0, 2, 0)] 1 2 3 = 18 := by
  constructor
  · intro t ht
    simp only [List.mem_cons, List.not_mem_nil, or_false] at ht
    rcases ht with rfl | rfl | rfl <;> norm_num [ExactFor3, OneSquare, poly3Cfg]
  · norm_num [polyAt]

/-- The value 20 (no splitting of the transverse parts) is not exact for `x y z`: the cell with centre `(1,1,1)` gets the
value 1/4 in place of 1/8. -/
theorem C76_unsplit3_without_double :
    (unsplitStep3 0 (advectionRp 1) (advectionRp 1) (advectionRp 1) (advectionRt3 1 1) (advectionRt3 1 1)
      (advectionRt3 1 1) (advectionRtt3 1 1) (advectionRtt3 1 1) (advectionRtt3 1 1) (poly3Cfg 20) none (fun _ _ => 0)
      (fun _ _ _ => ()) fun i j k _ => polyAt [((1 : ℚ), 1, 1, 1)] (i * 1) (j * 1) (k * 1)).1 1 1 1 0 = 1 / 4 ∧
    polyAt [((1 : ℚ), 1, 1, 1)] (1 - 1 / 2) (1 - 1 / 2) (1 - 1 / 2) = 1 / 8 := by
  constructor
  · rw [unsplit3_operators 0 1 1 1 (poly3Cfg 20) (by decide) rfl (by decide) (fun p => by decide +revert) 2 0 rfl (by decide)
      _ _ 1 1 1 (by decide) (by decide) (by decide) (by decide) (by decide) (by decide)]
    norm_num [operators3, polyAt, upPart, corrPart, poly3Cfg]
  · norm_num [polyAt]

end PyClaw
