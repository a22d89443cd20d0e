import Verif.Spec.Tvd
import Verif.Model.SharpRecon
import Verif.Props.Limiters
import Mathlib.LinearAlgebra.Matrix.NonsingularInverse
import Mathlib.Data.Rat.Floor

/-!
C78: the TVD reconstructions of SharpClaw.
-/
set_option linter.unusedSectionVars false
namespace PyClaw
open Spec

variable {K : Type*} [Field K] [LinearOrder K] [IsStrictOrderedRing K] {m w : Nat}

/-- minmod, superbee, van Leer, MC. -/
def TvdLimiter (k : Int) : Prop := k = 1 ∨ k = 2 ∨ k = 3 ∨ k = 4

theorem tvdPhi_sweby (undef : K) {k : Int} (hk : TvdLimiter k) : SwebyLimiter (tvdPhi undef k) := by
  rcases hk with rfl | rfl | rfl | rfl
  · exact minmod_sweby
  · exact superbee_sweby
  · exact vanLeer_sweby
  · exact mc_sweby

theorem tvdPhi_symm (undef : K) {k : Int} (hk : TvdLimiter k) : SymmetricLimiter (tvdPhi undef k) := by
  rcases hk with rfl | rfl | rfl | rfl
  · exact minmod_symm
  · exact superbee_symm
  · exact vanLeer_symm
  · exact mc_symm

theorem sweby_bounds {phi : K → K} (h : SwebyLimiter phi) (r : K) : 0 ≤ phi r ∧ phi r ≤ 2 := by
  rcases le_or_gt r 0 with hr | hr
  · rw [h.zero r hr]; norm_num
  · exact ⟨h.nonneg r hr, h.le_two r hr⟩

/-- Half the limited difference lies between 0 and each of the two differences. -/
theorem limited_between {phi : K → K} (h : SwebyLimiter phi) {a b : K} (ha : a ≠ 0) :
    Between 0 a (1 / 2 * phi (b / a) * a) ∧ Between 0 b (1 / 2 * phi (b / a) * a) := by
  obtain ⟨h0, h2⟩ := sweby_bounds h (b / a)
  unfold Between
  constructor
  · rcases lt_or_gt_of_ne ha with hn | hp
    · rw [min_eq_right hn.le, max_eq_left hn.le]
      constructor <;> nlinarith
    · rw [min_eq_left hp.le, max_eq_right hp.le]
      constructor <;> nlinarith
  · rcases le_or_gt (b / a) 0 with hr | hr
    · rw [h.zero _ hr]
      simp only [mul_zero, zero_mul]
      exact ⟨min_le_left _ _, le_max_left _ _⟩
    · have h2r := h.le_two_r _ hr
      have hb : b = b / a * a := by field_simp
      rcases lt_or_gt_of_ne ha with hn | hp
      · have hbn : b < 0 := by rw [hb]; exact mul_neg_of_pos_of_neg hr hn
        rw [min_eq_right hbn.le, max_eq_left hbn.le]
        constructor
        · nlinarith
        · nlinarith
      · have hbp : 0 < b := by rw [hb]; exact mul_pos hr hp
        rw [min_eq_left hbp.le, max_eq_right hbp.le]
        constructor
        · positivity
        · nlinarith

theorem between_add {a b x : K} (c : K) (h : Between a b x) : Between (c + a) (c + b) (c + x) := by
  unfold Between at *
  rw [min_add_add_left, max_add_add_left]
  exact ⟨by linarith [h.1], by linarith [h.2]⟩

theorem between_sub {a b x : K} (c : K) (h : Between a b x) : Between (c - a) (c - b) (c - x) := by
  unfold Between at *
  rcases le_total a b with hab | hab
  · rw [min_eq_left hab, max_eq_right hab] at h
    rw [min_eq_right (by linarith), max_eq_left (by linarith)]
    exact ⟨by linarith [h.2], by linarith [h.1]⟩
  · rw [min_eq_right hab, max_eq_left hab] at h
    rw [min_eq_left (by linarith), max_eq_right (by linarith)]
    exact ⟨by linarith [h.2], by linarith [h.1]⟩

theorem between_comm {a b x : K} (h : Between a b x) : Between b a x := by
  unfold Between at *
  rw [min_comm, max_comm]
  exact h

/-- C78, component-wise. In every cell except the first and the last of the array, if the cell differs from its left
neighbour: the linear profile has the cell average as its mean, its end values lie between the averages of the
neighbouring cells, it is flat at extrema, and linear data are reproduced. (If the averages are equal the code
divides by zero.) -/
theorem C78_tvd2 (undef : K) (first : Fin m → K) (g n : Int) (mthlim : Fin m → Int) (old : Edges K m)
    (q : Int → Fin m → K) (c : Fin m) (hlim : TvdLimiter (mthlim c)) (i : Int) (h1 : 2 ≤ i)
    (h2 : i ≤ n + 2 * g - 1) (hne : q i c ≠ q (i - 1) c) :
    let e := fTvd2 undef first g n mthlim old q
    e.ql i c + e.qr i c = 2 * q i c ∧
    Between (q (i - 1) c) (q i c) (e.ql i c) ∧ Between (q i c) (q (i + 1) c) (e.qr i c) ∧
    ((q (i + 1) c - q i c) * (q i c - q (i - 1) c) ≤ 0 → e.ql i c = q i c ∧ e.qr i c = q i c) ∧
    (q (i + 1) c - q i c = q i c - q (i - 1) c →
      e.ql i c = (q (i - 1) c + q i c) / 2 ∧ e.qr i c = (q i c + q (i + 1) c) / 2) := by
  have hs := tvdPhi_sweby undef hlim
  have ha : q i c - q (i - 1) c ≠ 0 := sub_ne_zero.mpr hne
  have hi : (1 ≤ i ∧ i ≤ n + 2 * g - 1) := ⟨by omega, h2⟩
  have hi1 : i ≠ 1 := by omega
  simp only [fTvd2, hi, and_self, if_true, hi1, if_false]
  obtain ⟨b1, b2⟩ := limited_between hs (a := q i c - q (i - 1) c) (b := q (i + 1) c - q i c) ha
  refine ⟨by ring, ?_, ?_, ?_, ?_⟩
  · have := between_comm (between_sub (q i c) b1)
    simpa using this
  · have := between_add (q i c) b2
    simpa using this
  · intro h
    have hr : (q (i + 1) c - q i c) / (q i c - q (i - 1) c) ≤ 0 := by
      rw [div_eq_mul_inv, ← mul_self_mul_inv (q i c - q (i - 1) c)⁻¹, inv_inv]
      have : (q (i + 1) c - q i c) * ((q i c - q (i - 1) c)⁻¹ * (q i c - q (i - 1) c)⁻¹ * (q i c - q (i - 1) c)) =
          (q (i + 1) c - q i c) * (q i c - q (i - 1) c) * ((q i c - q (i - 1) c)⁻¹ * (q i c - q (i - 1) c)⁻¹) := by ring
      rw [this]
      exact mul_nonpos_of_nonpos_of_nonneg h (mul_self_nonneg _)
    rw [hs.zero _ hr]
    simp
  · intro h
    rw [h, div_self ha, hs.one]
    constructor
    · ring
    · have : q (i + 1) c = 2 * q i c - q (i - 1) c := by linarith
      rw [this]; ring

/-- C78, component-wise: mirrored data give the mirrored profile. -/
theorem C78_tvd2_mirror (undef : K) (first first' : Fin m → K) (g n : Int) (mthlim : Fin m → Int)
    (old old' : Edges K m) (q : Int → Fin m → K) (c : Fin m) (hlim : TvdLimiter (mthlim c)) (i : Int) (h1 : 2 ≤ i)
    (h2 : i ≤ n + 2 * g - 1) (hl : q i c ≠ q (i - 1) c) (hr : q i c ≠ q (i + 1) c) :
    let N := n + 2 * g + 1
    (fTvd2 undef first g n mthlim old q).ql i c =
      (fTvd2 undef first' g n mthlim old' (fun j => q (N - j))).qr (N - i) c := by
  have hs := tvdPhi_sweby undef hlim
  have hsym := tvdPhi_symm undef hlim
  have ha : q i c - q (i - 1) c ≠ 0 := sub_ne_zero.mpr hl
  have hb : q i c - q (i + 1) c ≠ 0 := sub_ne_zero.mpr hr
  have hi : (1 ≤ i ∧ i ≤ n + 2 * g - 1) := ⟨by omega, h2⟩
  have hi' : (1 ≤ n + 2 * g + 1 - i ∧ n + 2 * g + 1 - i ≤ n + 2 * g - 1) := ⟨by omega, by omega⟩
  have hi1 : i ≠ 1 := by omega
  have hi1' : n + 2 * g + 1 - i ≠ 1 := by omega
  simp only [fTvd2, hi, hi', and_self, if_true, hi1, hi1', if_false]
  have e1 : n + 2 * g + 1 - (n + 2 * g + 1 - i) = i := by ring
  have e2 : n + 2 * g + 1 - (n + 2 * g + 1 - i - 1) = i + 1 := by ring
  have e3 : n + 2 * g + 1 - (n + 2 * g + 1 - i + 1) = i - 1 := by ring
  rw [e1, e2, e3]
  set a := q i c - q (i - 1) c with hadef
  have hb' : q (i + 1) c - q i c ≠ 0 := fun h => hb (by linarith)
  set b := q (i + 1) c - q i c with hbdef
  have x1 : q (i - 1) c - q i c = -a := by rw [hadef]; ring
  have x2 : q i c - q (i + 1) c = -b := by rw [hbdef]; ring
  rw [x1, x2, neg_div_neg_eq, sub_eq_add_neg]
  congr 1
  rcases le_or_gt (b / a) 0 with h | h
  · have h' : a / b ≤ 0 := by
      rw [← inv_div]; exact inv_nonpos.mpr h
    rw [hs.zero _ h, hs.zero _ h']
    ring
  · have := hsym _ h
    rw [one_div, inv_div] at this
    rw [← this]
    field_simp

theorem dot_nonneg (u : Fin m → K) : 0 ≤ dot u u := Finset.sum_nonneg fun _ _ => mul_self_nonneg _

theorem foldl_add (x : Fin m → K) (f : Fin w → Fin m → K) :
    (List.finRange w).foldl (fun x p => x + f p) x = x + ∑ p, f p := by
  have : ∀ (l : List (Fin w)) (x : Fin m → K), l.foldl (fun x p => x + f p) x = x + (l.map f).sum := by
    intro l
    induction l with
    | nil => intro x; simp
    | cons a l ih => intro x; simp [ih, add_assoc]
  rw [this, ← List.ofFn_eq_map, List.sum_ofFn]

theorem foldl_sub (x : Fin m → K) (f : Fin w → Fin m → K) :
    (List.finRange w).foldl (fun x p => x - f p) x = x - ∑ p, f p := by
  have := foldl_add x (fun p => -f p)
  simpa [sub_eq_add_neg] using this

/-- C78, wave-based, any system. At every interface of the loop after the first: both edge values move by half the
reduced waves, towards each other; the reduction of each wave compares it with the wave of the same family at the
upwind interface. -/
theorem C78_tvd2_wave (undef : K) (g n : Int) (hg : 0 ≤ g) (mthlim : Fin w → Int)
    (hlim : ∀ p, TvdLimiter (mthlim p)) (old : Edges K m) (wave : Waves K m w) (s : Int → Fin w → K)
    (q : Int → Fin m → K) (i : Int) (h1 : g + 1 ≤ i) (h1' : 2 ≤ i) (h2 : i ≤ n + g) :
    let e := fTvdWave undef g n mthlim old wave s q
    ∃ phi : Fin w → K,
      e.qr (i - 1) = q (i - 1) + ∑ p, (phi p / 2) • wave i p ∧ e.ql i = q i - ∑ p, (phi p / 2) • wave i p ∧
      ∀ p, dot (wave i p) (wave i p) ≠ 0 →
        Reduces (if 0 < s i p then wave (i - 1) p else wave (i + 1) p) (wave i p) (phi p) := by
  let W : Fin w → K := fun p => dot (wave i p) (wave i p)
  let r : Fin w → K := fun p => dot (if 0 < s i p then wave (i - 1) p else wave (i + 1) p) (wave i p) / W p
  refine ⟨fun p => if W p = 0 then 0 else tvdPhi undef (mthlim p) (r p), ?_, ?_, ?_⟩
  pick_goal 3
  · intro p hp
    have hpos : 0 < W p := lt_of_le_of_ne (dot_nonneg _) (Ne.symm hp)
    have hs := tvdPhi_sweby undef (hlim p)
    simp only [show W p ≠ 0 from hp, if_false]
    constructor
    · exact (sweby_bounds hs _).1
    · exact (sweby_bounds hs _).2
    · intro h
      exact hs.zero _ (div_nonpos_of_nonpos_of_nonneg h hpos.le)
    · intro h
      have h3 := hs.le_two_r (r p) (div_pos h hpos)
      change tvdPhi undef (mthlim p) (r p) * W p ≤ _
      calc tvdPhi undef (mthlim p) (r p) * W p ≤ 2 * r p * W p := mul_le_mul_of_nonneg_right h3 hpos.le
        _ = _ := by simp only [r]; field_simp
    · intro h _
      simp only [r]
      rw [h]
      change tvdPhi undef (mthlim p) (W p / W p) = 1
      rw [div_self hpos.ne', hs.one]
  all_goals
    have hterm : ∀ p, fTvdWaveTerm undef g mthlim wave s i p =
        ((if W p = 0 then 0 else tvdPhi undef (mthlim p) (r p)) / 2) • wave i p := by
      intro p
      have hdot : ∀ u v : Fin m → K, wdot u v = dot u v := fun _ _ => rfl
      have hcomm : ∀ u v : Fin m → K, dot u v = dot v u := fun u v => Finset.sum_congr rfl fun _ _ => mul_comm _ _
      unfold fTvdWaveTerm
      simp only [hdot, show i ≠ g by omega, if_false]
      by_cases hW : W p = 0
      · rw [if_pos (Or.inr hW), if_pos hW]
        simp
      · rw [if_neg (by rintro (h | h); · omega
                       · exact hW h), if_neg hW]
        funext c
        simp only [Pi.smul_apply, smul_eq_mul, r]
        by_cases hs : 0 < s i p
        · simp only [hs, if_true]; ring
        · simp only [hs, if_false, hcomm (wave i p) (wave (i + 1) p)]; ring
    simp only [fTvdWave]
  · rw [if_pos ⟨by omega, by omega⟩, if_pos ⟨by omega, by omega⟩]
    simp only [show i - 1 + 1 = i by ring]
    rw [foldl_add]
    simp only [hterm]
  · rw [if_pos ⟨by omega, by omega⟩, if_pos ⟨by omega, by omega⟩, foldl_sub]
    simp only [hterm]

/-- C78, wave-based, scalar problems whose wave is the jump: the edge values lie between the neighbouring cell
averages, and they do not differ from the cell average by more than the jump at the upwind interface. -/
theorem C78_tvd2_wave_scalar (undef : K) (g n : Int) (hg : 0 ≤ g) (mthlim : Fin 1 → Int)
    (hlim : TvdLimiter (mthlim 0)) (old : Edges K 1) (wave : Waves K 1 1) (s : Int → Fin 1 → K)
    (q : Int → Fin 1 → K) (hw : ∀ j, wave j 0 = q j - q (j - 1)) (i : Int) (h1 : g + 1 ≤ i) (h1' : 2 ≤ i)
    (h2 : i ≤ n + g) (hne : q i 0 ≠ q (i - 1) 0) :
    let e := fTvdWave undef g n mthlim old wave s q
    let up := if 0 < s i 0 then q (i - 1) 0 - q (i - 2) 0 else q (i + 1) 0 - q i 0
    Between (q (i - 1) 0) (q i 0) (e.qr (i - 1) 0) ∧ Between (q (i - 1) 0) (q i 0) (e.ql i 0) ∧
    Between (q (i - 1) 0) (q (i - 1) 0 + up) (e.qr (i - 1) 0) ∧ Between (q i 0) (q i 0 - up) (e.ql i 0) ∧
    (up = q i 0 - q (i - 1) 0 → e.qr (i - 1) 0 = (q (i - 1) 0 + q i 0) / 2 ∧ e.ql i 0 = (q (i - 1) 0 + q i 0) / 2) := by
  intro e up
  obtain ⟨phi, e1, e2, e3⟩ := C78_tvd2_wave undef g n hg mthlim (fun p => by rw [Subsingleton.elim p 0]; exact hlim)
    old wave s q i h1 h1' h2
  have hd : ∀ u v : Fin 1 → K, dot u v = u 0 * v 0 := fun u v => by simp [dot]
  have ha : q i 0 - q (i - 1) 0 ≠ 0 := sub_ne_zero.mpr hne
  have hr := e3 0 (by rw [hd, hw]; exact mul_ne_zero ha ha)
  have hup : (if 0 < s i 0 then wave (i - 1) 0 else wave (i + 1) 0) 0 = up := by
    simp only [up]
    split
    · rw [hw]; simp only [Pi.sub_apply]; rw [show i - 1 - 1 = i - 2 by ring]
    · rw [hw]; simp only [Pi.sub_apply]; rw [show i + 1 - 1 = i by ring]
  have hw0 : wave i 0 0 = q i 0 - q (i - 1) 0 := by rw [hw]; rfl
  have q1 : e.qr (i - 1) 0 = q (i - 1) 0 + phi 0 / 2 * (q i 0 - q (i - 1) 0) := by
    simp only [e, e1]
    simp [hw]
  have q2 : e.ql i 0 = q i 0 - phi 0 / 2 * (q i 0 - q (i - 1) 0) := by
    simp only [e, e2]
    simp [hw]
  set a := q i 0 - q (i - 1) 0 with hadef
  have p0 := hr.nonneg
  have p2 := hr.le_two
  have p3 := hr.opposed
  have p4 := hr.projected
  have p5 := hr.equal
  rw [hd, hup, hw0] at p3 p4
  rw [hd, hw0] at p4
  -- half the reduced jump lies between 0 and each jump
  have b1 : Between 0 a (phi 0 / 2 * a) := by
    unfold Between
    rcases lt_or_gt_of_ne ha with hn | hp
    · rw [min_eq_right hn.le, max_eq_left hn.le]; constructor <;> nlinarith
    · rw [min_eq_left hp.le, max_eq_right hp.le]; constructor <;> nlinarith
  have b2 : Between 0 up (phi 0 / 2 * a) := by
    unfold Between
    rcases le_or_gt (up * a) 0 with h | h
    · rw [p3 h]; simp
    · have h4 := p4 h
      rcases lt_or_gt_of_ne ha with hn | hp
      · have hun : up < 0 := by
          by_contra hc
          exact absurd h (not_lt.mpr (mul_nonpos_of_nonneg_of_nonpos (not_lt.mp hc) hn.le))
        rw [min_eq_right hun.le, max_eq_left hun.le]
        constructor
        · have : (phi 0 * a - 2 * up) * a ≤ 0 := by nlinarith
          have : 0 ≤ phi 0 * a - 2 * up := nonneg_of_mul_nonpos_left this hn
          linarith
        · nlinarith
      · have hup' : 0 < up := by
          by_contra hc
          exact absurd h (not_lt.mpr (mul_nonpos_of_nonpos_of_nonneg (not_lt.mp hc) hp.le))
        rw [min_eq_left hup'.le, max_eq_right hup'.le]
        constructor
        · positivity
        · have : (phi 0 * a - 2 * up) * a ≤ 0 := by nlinarith
          have : phi 0 * a - 2 * up ≤ 0 := nonpos_of_mul_nonpos_left this hp
          linarith
  refine ⟨?_, ?_, ?_, ?_, ?_⟩
  · rw [q1]
    have := between_add (q (i - 1) 0) b1
    rw [hadef] at this ⊢
    simpa using this
  · rw [q2]
    have := between_comm (between_sub (q i 0) b1)
    rw [hadef] at this ⊢
    simpa using this
  · rw [q1]; simpa using between_add (q (i - 1) 0) b2
  · rw [q2]; simpa using between_sub (q i 0) b2
  · intro h
    have : phi 0 = 1 := by
      refine p5 ?_ ?_
      · funext c
        rw [Subsingleton.elim c 0, hup, hw0, h]
      · rw [hd, hw0]; exact mul_ne_zero ha ha
    rw [q1, q2, this, hadef]
    constructor <;> ring

/-- C78 fails for the wave-based reconstruction at the last interface of the grid: the loop ends one interface too
early, so the edge values there are the cell averages, whatever the waves. (The grid consists of the positions
`g+1 … g+n`; its last interface is `n+g+1`.) -/
theorem C78_tvd2_wave_last_violated (undef : K) (g n : Int) (hg : 2 ≤ g) (hn : 0 ≤ n) (mthlim : Fin w → Int)
    (old : Edges K m) (wave : Waves K m w) (s : Int → Fin w → K) (q : Int → Fin m → K) :
    (fTvdWave undef g n mthlim old wave s q).qr (n + g) = q (n + g) ∧
    (fTvdWave undef g n mthlim old wave s q).ql (n + g + 1) = q (n + g + 1) := by
  simp only [fTvdWave]
  rw [if_pos ⟨by omega, by omega⟩, if_neg (by omega), if_pos ⟨by omega, by omega⟩, if_neg (by omega)]
  exact ⟨rfl, rfl⟩

/-- C78, characteristic-wise, any system and any matrices. At each interface of the loop the edge values move by a
combination of the columns of `evr`. The coefficient of each field is between 0 and each of the two characteristic
jumps that enter. If both are the same (and not tiny) it is half of them. -/
theorem C78_tvd2_char (undef tol : K) (htol : 0 ≤ tol) (g n : Int) (mthlim : Fin m → Int)
    (hlim : ∀ p, TvdLimiter (mthlim p)) (old : Edges K m) (evl evr : Int → Fin m → Fin m → K) (q : Int → Fin m → K)
    (i : Int) (h1 : g + 1 ≤ i) (h2 : i ≤ n + 2 * g - 1) :
    let e := fTvdChar undef tol g n mthlim old evl evr q
    -- the jump at interface `j` in the characteristic fields of interface `i`
    let J : Int → Fin m → K := fun j p => ∑ c, evl i p c * (q j c - q (j - 1) c)
    ∃ u v : Fin m → K,
      (∀ c, e.qr (i - 1) c = q (i - 1) c + ∑ p, evr i c p * u p) ∧ (∀ c, e.ql i c = q i c - ∑ p, evr i c p * v p) ∧
      ∀ p, Between 0 (J (i - 1) p) (u p) ∧ Between 0 (J i p) (u p) ∧ Between 0 (J i p) (v p) ∧
        Between 0 (J (i + 1) p) (v p) ∧
        (J (i - 1) p = J i p → tol < |J i p| → u p = J i p / 2) ∧
        (J (i + 1) p = J i p → tol < |J i p| → v p = J i p / 2) := by
  intro e J
  have key : ∀ (p : Fin m) (a b : K), let x := 1 / 2 * tvdPhi undef (mthlim p) (charRatio tol a b) * a
      Between 0 a x ∧ Between 0 b x ∧ (b = a → tol < |a| → x = a / 2) := by
    intro p a b
    have hs := tvdPhi_sweby undef (hlim p)
    simp only [charRatio]
    by_cases h : tol < |a|
    · rw [if_pos h]
      have ha : a ≠ 0 := by
        rintro rfl
        rw [abs_zero] at h
        exact absurd htol (not_le.mpr h)
      obtain ⟨k1, k2⟩ := limited_between hs (b := b) ha
      refine ⟨k1, k2, fun hb _ => ?_⟩
      rw [hb, div_self ha, hs.one]; ring
    · rw [if_neg h, hs.zero 0 le_rfl]
      simp only [mul_zero, zero_mul]
      exact ⟨⟨min_le_left _ _, le_max_left _ _⟩, ⟨min_le_left _ _, le_max_left _ _⟩, fun _ h' => absurd h' h⟩
  have hJ : ∀ p k, charJump evl q p k i = J (i + k) p := fun p k => rfl
  refine ⟨fun p => 1 / 2 * tvdPhi undef (mthlim p) (charRatio tol (J (i - 1) p) (J i p)) * J (i - 1) p,
    fun p => 1 / 2 * tvdPhi undef (mthlim p) (charRatio tol (J i p) (J (i + 1) p)) * J i p, ?_, ?_, ?_⟩
  · intro c
    simp only [e, fTvdChar]
    rw [if_pos ⟨by omega, by omega⟩]
    simp only [show i - 1 + 1 = i by ring]
    congr 1
    refine Finset.sum_congr rfl fun p _ => ?_
    simp only [tvdCharU, hJ, if_true]
    rw [show i + (1 - 2) = i - 1 by ring, show i + (1 - 1) = i by ring, one_mul]
  · intro c
    simp only [e, fTvdChar]
    rw [if_pos ⟨by omega, by omega⟩, sub_eq_add_neg, ← Finset.sum_neg_distrib]
    congr 1
    refine Finset.sum_congr rfl fun p _ => ?_
    simp only [tvdCharU, hJ]
    rw [show i + (2 - 2) = i by ring, show i + (2 - 1) = i + 1 by ring]
    norm_num
  · intro p
    obtain ⟨a1, a2, a3⟩ := key p (J (i - 1) p) (J i p)
    obtain ⟨b1, b2, b3⟩ := key p (J i p) (J (i + 1) p)
    refine ⟨a1, a2, b1, b2, fun h h' => ?_, fun h h' => b3 h h'⟩
    have := a3 h.symm (by rw [h]; exact h')
    simp only at this ⊢
    rw [this, h]

/-- C78 fails for the limiter of Čada and Torrilhon (number 5): at an extremum the profile is not flat, and the edge
value lies outside the neighbouring averages. -/
theorem C78_limiter5_violated :
    let q : Int → Fin 1 → ℚ := fun i _ => if i = 3 then 1 else 0
    let e := fTvd2 (0 : ℚ) (fun _ => 0) 2 4 (fun _ => 5) ⟨fun _ _ => 0, fun _ _ => 0⟩ q
    e.qr 3 0 = 7 / 6 ∧ ¬ Between (q 3 0) (q 4 0) (e.qr 3 0) := by
  unfold Between
  decide +kernel

/-- The hypotheses can be met: a monotone profile with the superbee limiter. -/
example :
    let q : Int → Fin 1 → ℚ := fun i _ => (i : ℚ) ^ 2
    let e := fTvd2 (0 : ℚ) (fun _ => 0) 2 4 (fun _ => 2) ⟨fun _ _ => 0, fun _ _ => 0⟩ q
    TvdLimiter 2 ∧ q 3 0 ≠ q 2 0 ∧ e.qr 3 0 = 25 / 2 ∧ e.ql 3 0 = 11 / 2 := by
  refine ⟨Or.inr (Or.inl rfl), by decide +kernel, by decide +kernel, by decide +kernel⟩

example :
    let q : Int → Fin 1 → ℚ := fun i _ => (i : ℚ) ^ 2
    let e := fTvdWave (w := 1) (0 : ℚ) 2 4 (fun _ => 1) ⟨fun _ _ => 0, fun _ _ => 0⟩ (fun i _ => q i - q (i - 1))
      (fun _ _ => 1) q
    e.qr 3 0 = 9 + 5 / 2 ∧ e.ql 4 0 = 16 - 5 / 2 := by
  refine ⟨by decide +kernel, by decide +kernel⟩

end PyClaw
