import Verif.Model.SharpRecon
import Verif.Props.Weno
import Mathlib.Data.Rat.Floor

/-!
C79: the fifth-order reconstructions in characteristic fields.
-/
set_option linter.unusedSectionVars false
namespace PyClaw
open Spec Polynomial

variable {K : Type*} [Field K] [LinearOrder K] [IsStrictOrderedRing K] {m w : Nat}

/-- `l · v`. -/
def pair (l v : Fin m → K) : K := ∑ c, l c * v c

/-- The rows of `L` and the columns of `R` are dual bases. -/
def Dual (L : Fin w → Fin m → K) (R : Fin m → Fin w → K) : Prop :=
  ∀ p p', pair (L p) (fun c => R c p') = if p = p' then 1 else 0

theorem pair_add (l u v : Fin m → K) : pair l (u + v) = pair l u + pair l v := by
  simp only [pair, Pi.add_apply, mul_add, Finset.sum_add_distrib]

theorem pair_combination {L : Fin w → Fin m → K} {R : Fin m → Fin w → K} (h : Dual L R) (p : Fin w) (a : Fin w → K) :
    pair (L p) (fun c => ∑ p', R c p' * a p') = a p := by
  unfold pair
  simp only [Finset.mul_sum]
  rw [Finset.sum_comm]
  have : ∀ p', ∑ c, L p c * (R c p' * a p') = (if p = p' then 1 else 0) * a p' := by
    intro p'
    rw [← h p p', pair, Finset.sum_mul]
    exact Finset.sum_congr rfl fun _ _ => by ring
  simp only [this]
  simp

theorem pair_central4 (l : Fin m → K) (q : Int → Fin m → K) (i : Int) :
    pair l (central4 q i) = (-pair l (q (i - 2)) + 7 * (pair l (q (i - 1)) + pair l (q i)) - pair l (q (i + 1))) / 12 := by
  have : ∀ c, l c * central4 q i c = (-(l c * q (i - 2) c) + 7 * (l c * q (i - 1) c + l c * q i c)
      - l c * q (i + 1) c) * 12⁻¹ := by
    intro c
    simp only [central4]
    ring
  simp only [pair, this]
  rw [← Finset.sum_mul, Finset.sum_sub_distrib, Finset.sum_add_distrib, Finset.sum_neg_distrib, ← Finset.mul_sum,
    Finset.sum_add_distrib, div_eq_mul_inv]

theorem pair_sub (l u v : Fin m → K) : pair l (fun c => u c - v c) = pair l u - pair l v := by
  simp only [pair, mul_sub, Finset.sum_sub_distrib]

theorem shuValue_core (eps : K) (v : Int → K) (im i : Int) :
    shuValue eps v im i =
      shuCore eps im (shuDiff v (i - 2 * im)) (shuDiff v (i - im)) (shuDiff v i) (shuDiff v (i + im))
        + (-v (i - 2) + 7 * (v (i - 1) + v i) - v (i + 1)) / 12 := rfl

theorem shuValue_good_right (eps : K) (he : 0 < eps) (v : Int → K) (i : Int) :
    WenoGood rightEdge v (i - 1) (shuValue eps v 1 i) := by
  obtain ⟨n0, n1, n2⟩ := wSigma_nonneg v (i - 1)
  have := shuValue_right eps he v (i - 1)
  rw [sub_add_cancel] at this
  rw [this]
  exact wCombineR_good _ _ _ _ _ _ (by positivity) (by positivity) (by positivity)

theorem shuValue_good_left (eps : K) (he : 0 < eps) (v : Int → K) (i : Int) :
    WenoGood leftEdge v i (shuValue eps v (-1) i) := by
  obtain ⟨n0, n1, n2⟩ := wSigma_nonneg v i
  rw [shuValue_left eps he v i]
  exact wCombineL_good _ _ _ _ _ _ (by positivity) (by positivity) (by positivity)

/-- A common factor of the differences changes only the small number. -/
theorem shuCore_scale (eps im k a b c d : K) (hk : k ≠ 0) :
    shuCore eps im (a * k) (b * k) (c * k) (d * k) = k * shuCore (eps / k ^ 2) im a b c d := by
  unfold shuCore
  have hX : ∀ X Y : K, Y = k ^ 2 * X → (eps + Y) ^ 2 = k ^ 4 * (eps / k ^ 2 + X) ^ 2 := by
    intro X Y h
    subst h
    field_simp
  simp only []
  rw [hX (13 * (im * (a - b)) ^ 2 + 3 * (a - 3 * b) ^ 2)
      (13 * (im * (a * k - b * k)) ^ 2 + 3 * (a * k - 3 * (b * k)) ^ 2) (by ring),
    hX (13 * (im * (b - c)) ^ 2 + 3 * (b + c) ^ 2)
      (13 * (im * (b * k - c * k)) ^ 2 + 3 * (b * k + c * k) ^ 2) (by ring),
    hX (13 * (im * (c - d)) ^ 2 + 3 * (3 * c - d) ^ 2)
      (13 * (im * (c * k - d * k)) ^ 2 + 3 * (3 * (c * k) - d * k) ^ 2) (by ring)]
  generalize (eps / k ^ 2 + (13 * (im * (a - b)) ^ 2 + 3 * (a - 3 * b) ^ 2)) ^ 2 = A
  generalize (eps / k ^ 2 + (13 * (im * (b - c)) ^ 2 + 3 * (b + c) ^ 2)) ^ 2 = B
  generalize (eps / k ^ 2 + (13 * (im * (c - d)) ^ 2 + 3 * (3 * c - d) ^ 2)) ^ 2 = C
  have hS : 1 / (k ^ 4 * B * (k ^ 4 * C) + 6 * (k ^ 4 * A) * (k ^ 4 * C) + 3 * (k ^ 4 * A) * (k ^ 4 * B)) =
      (k ^ 8)⁻¹ * (1 / (B * C + 6 * A * C + 3 * A * B)) := by
    rw [one_div, one_div, ← mul_inv]
    congr 1
    ring
  rw [hS]
  generalize 1 / (B * C + 6 * A * C + 3 * A * B) = T
  field_simp

/-- In every characteristic field, the values of `weno5_char` are those of the scalar scheme. -/
theorem weno_char_value (eps : K) (stale : Fin m → Int → Int → K) (g n : Int) (hg : 3 ≤ g)
    (old : Edges K m) (evl evr : Int → Fin m → Fin m → K) (q : Int → Fin m → K) (i : Int) (h1 : g + 1 ≤ i)
    (h2 : i ≤ n + g + 1) (hd : Dual (evl i) (evr i)) (p : Fin m) :
    let e := fWenoChar eps stale g n old evl evr q
    let v : Int → K := fun j => pair (evl i p) (q j)
    pair (evl i p) (e.qr (i - 1)) = shuValue eps v 1 i ∧ pair (evl i p) (e.ql i) = shuValue eps v (-1) i := by
  intro e v
  have hj : ∀ p' k, hhOr (stale p') g n (charJump evl q p') k i = shuDiff (fun j => pair (evl i p') (q j)) (i + k) := by
    intro p' k
    rw [hhOr, if_pos ⟨h1, by omega⟩, shuDiff, ← pair_sub]
    rfl
  constructor
  · have : pair (evl i p) (e.qr (i - 1)) = shuValue eps v 1 i := by
      have hq : e.qr (i - 1) = central4 q i + fun c => ∑ p', evr i c p' *
          charCore eps (hhOr (stale p') g n (charJump evl q p')) 1 i := by
        funext c
        simp only [e, fWenoChar]
        rw [if_pos ⟨by omega, by omega⟩, sub_add_cancel]
        rfl
      rw [hq, pair_add, pair_combination hd, pair_central4, shuValue_core]
      simp only [charCore, hj]
      rw [show i + -2 * 1 = i - 2 * 1 by ring, show i + -1 = i - 1 by ring, add_zero]
      exact add_comm _ _
    exact this
  · have : pair (evl i p) (e.ql i) = shuValue eps v (-1) i := by
      have hq : e.ql i = central4 q i + fun c => ∑ p', evr i c p' *
          charCore eps (hhOr (stale p') g n (charJump evl q p')) (-1) i := by
        funext c
        simp only [e, fWenoChar]
        rw [if_pos ⟨by omega, by omega⟩]
        rfl
      rw [hq, pair_add, pair_combination hd, pair_central4, shuValue_core]
      simp only [charCore, hj]
      rw [show i + -2 * (-1) = i - 2 * (-1) by ring, show i + -(-1) = i - (-1) by ring, add_zero]
      exact add_comm _ _
    exact this

/-- C79, `weno5_char`, any system with any dual eigenvectors, also if they differ from interface to interface: in
every characteristic field of the interface, the values at the two sides of the interface are convex combinations,
with positive weights, of the values of the three quadratics with the given averages (of the characteristic
variable) in three consecutive cells that contain the cell next to the interface. -/
theorem C79_weno_char (eps : K) (he : 0 < eps) (stale : Fin m → Int → Int → K) (g n : Int) (hg : 3 ≤ g)
    (old : Edges K m) (evl evr : Int → Fin m → Fin m → K) (q : Int → Fin m → K) (i : Int) (h1 : g + 1 ≤ i)
    (h2 : i ≤ n + g + 1) (hd : Dual (evl i) (evr i)) (p : Fin m) :
    let e := fWenoChar eps stale g n old evl evr q
    let v : Int → K := fun j => pair (evl i p) (q j)
    WenoGood rightEdge v (i - 1) (pair (evl i p) (e.qr (i - 1))) ∧ WenoGood leftEdge v i (pair (evl i p) (e.ql i)) := by
  intro e v
  obtain ⟨a, b⟩ := weno_char_value eps stale g n hg old evl evr q i h1 h2 hd p
  exact ⟨a ▸ shuValue_good_right eps he v i, b ▸ shuValue_good_left eps he v i⟩

theorem shuCore_linear (eps im x d : K) :
    shuCore eps im (x - 2 * d) (x - d) x (x + d) = 0 := by
  have e : (x - 2 * d) - (x - d) = (x - d) - x := by ring
  have e' : x - (x + d) = (x - d) - x := by ring
  unfold shuCore
  simp only [e, e', sub_self, mul_zero, zero_div, add_zero]

/-- C79, `weno5_char` is exact on quadratics (component by component), whatever matrices it is given. -/
theorem C79_weno_char_quadratics (eps : K) (stale : Fin m → Int → Int → K) (g n : Int) (hg : 3 ≤ g)
    (old : Edges K m) (evl evr : Int → Fin m → Fin m → K) (q : Int → Fin m → K) (i : Int) (h1 : g + 1 ≤ i)
    (h2 : i ≤ n + g + 1) (h : K) (hh : h ≠ 0) (P : Fin m → K[X])
    (hP : ∀ c, Interpolates h (fun j => q j c) 2 (i - 3) (i + 2) (P c)) (c : Fin m) :
    let e := fWenoChar eps stale g n old evl evr q
    e.qr (i - 1) c = rightEdge h (P c) (i - 1) ∧ e.ql i c = leftEdge h (P c) i := by
  -- the differences are linear in the position
  have hq : ∀ c (j : Int), i - 3 ≤ j → j ≤ i + 2 → q j c = (P c).coeff 1 + 2 * (P c).coeff 2 * (j * h)
      + (P c).coeff 3 * (3 * (j * h) ^ 2 + h ^ 2 / 4) := by
    intro c j k1 k2
    obtain ⟨d, a⟩ := hP c
    have h4 : (P c).coeff 4 = 0 := coeff_eq_zero_of_natDegree_lt (by omega)
    have h5 : (P c).coeff 5 = 0 := coeff_eq_zero_of_natDegree_lt (by omega)
    refine (a j k1 k2).symm.trans ?_
    unfold cellAverage
    simp only [(eval_deg5 (P c) (by omega) _).1, h4, h5]
    field_simp
    ring
  have hj : ∀ k : Int, -2 ≤ k → k ≤ 2 → ∀ c, jump q (i + k) c = jump q i c + k * (6 * (P c).coeff 3 * h ^ 2) := by
    intro k k1 k2 c
    simp only [jump]
    rw [hq c (i + k) (by omega) (by omega), hq c (i + k - 1) (by omega) (by omega), hq c i (by omega) (by omega),
      hq c (i - 1) (by omega) (by omega)]
    push_cast
    ring
  have hc : ∀ p (k : Int), -2 ≤ k → k ≤ 2 → hhOr (stale p) g n (charJump evl q p) k i =
      charJump evl q p 0 i + k * ∑ c, evl i p c * (6 * (P c).coeff 3 * h ^ 2) := by
    intro p k k1 k2
    rw [hhOr, if_pos ⟨h1, by omega⟩]
    simp only [charJump, hj k k1 k2, add_zero, mul_add, Finset.sum_add_distrib]
    congr 1
    rw [Finset.mul_sum]
    exact Finset.sum_congr rfl fun _ _ => by ring
  have z1 : ∀ p, charCore eps (hhOr (stale p) g n (charJump evl q p)) 1 i = 0 := by
    intro p
    simp only [charCore]
    rw [hc p _ (by norm_num) (by norm_num), hc p _ (by norm_num) (by norm_num), hc p _ (by norm_num) (by norm_num),
      hc p _ (by norm_num) (by norm_num)]
    have := shuCore_linear eps 1 (charJump evl q p 0 i) (∑ c, evl i p c * (6 * (P c).coeff 3 * h ^ 2))
    rw [← this]
    push_cast
    congr 1 <;> ring
  have z2 : ∀ p, charCore eps (hhOr (stale p) g n (charJump evl q p)) (-1) i = 0 := by
    intro p
    simp only [charCore]
    rw [hc p _ (by norm_num) (by norm_num), hc p _ (by norm_num) (by norm_num), hc p _ (by norm_num) (by norm_num),
      hc p _ (by norm_num) (by norm_num)]
    have := shuCore_linear eps (-1) (charJump evl q p 0 i) (-∑ c, evl i p c * (6 * (P c).coeff 3 * h ^ 2))
    rw [← this]
    push_cast
    congr 1 <;> ring
  have hcen : central4 q i c = rightEdge h (P c) (i - 1) := by
    have d := (hP c).1
    have h4 : (P c).coeff 4 = 0 := coeff_eq_zero_of_natDegree_lt (by omega)
    have h5 : (P c).coeff 5 = 0 := coeff_eq_zero_of_natDegree_lt (by omega)
    simp only [central4]
    rw [hq c (i - 2) (by omega) (by omega), hq c (i - 1) (by omega) (by omega), hq c i (by omega) (by omega),
      hq c (i + 1) (by omega) (by omega)]
    unfold rightEdge
    rw [(eval_deg5 (P c) (by omega) _).2, h4, h5]
    push_cast
    ring
  simp only [fWenoChar]
  rw [if_pos ⟨by omega, by omega⟩, if_pos ⟨by omega, by omega⟩, sub_add_cancel]
  simp only [z1, z2, mul_zero, Finset.sum_const_zero, add_zero]
  exact ⟨hcen, by rw [hcen, edge_shift]⟩

/-! ### Waves -/

theorem foldl_sum (x : Fin m → K) (f : Fin w → Fin m → K) :
    (List.finRange w).foldl (fun x p => x + f p) x = x + fun c => ∑ p, f p c := by
  have : ∀ (l : List (Fin w)) (x : Fin m → K), l.foldl (fun x p => x + f p) x = x + (l.map f).sum := by
    intro l
    induction l with
    | nil => intro x; simp
    | cons a l ih => intro x; simp [ih, add_assoc]
  rw [this, ← List.ofFn_eq_map, List.sum_ofFn]
  congr 1
  funext c
  rw [Finset.sum_apply]

/-- The waves of a linear system with constant eigenvectors: `L p · (jump)` times column `p` of `R`. -/
def EigenWaves (L : Fin w → Fin m → K) (R : Fin m → Fin w → K) (q : Int → Fin m → K) (wave : Waves K m w) : Prop :=
  ∀ j p, wave j p = fun c => pair (L p) (fun c => q j c - q (j - 1) c) * R c p

theorem waveProj_eigen {L : Fin w → Fin m → K} {R : Fin m → Fin w → K} {q : Int → Fin m → K} {wave : Waves K m w}
    (h : EigenWaves L R q wave) (i j : Int) (p : Fin w) :
    waveProj wave i j p = shuDiff (fun j => pair (L p) (q j)) j *
      (shuDiff (fun j => pair (L p) (q j)) i * pair (fun c => R c p) (fun c => R c p)) := by
  simp only [waveProj, wdot, h i p, h j p, pair_sub, shuDiff]
  generalize pair (L p) (q j) - pair (L p) (q (j - 1)) = x
  generalize pair (L p) (q i) - pair (L p) (q (i - 1)) = y
  simp only [pair]
  rw [Finset.mul_sum, Finset.mul_sum]
  exact Finset.sum_congr rfl fun _ _ => by ring

/-- The nonlinear part of the reconstruction by waves, for a wave above the threshold. -/
theorem shuCore_waves {L : Fin w → Fin m → K} {R : Fin m → Fin w → K} {q : Int → Fin m → K} {wave : Waves K m w}
    (h : EigenWaves L R q wave) (eps im : K) (i a b d : Int) (p : Fin w) (hw : waveProj wave i i p ≠ 0) (c : Fin m) :
    let v : Int → K := fun j => pair (L p) (q j)
    let k := shuDiff v i * pair (fun c => R c p) (fun c => R c p)
    k ≠ 0 ∧ shuCore eps im (waveProj wave i a p) (waveProj wave i b p) (waveProj wave i i p) (waveProj wave i d p)
        * wave i p c * (1 / waveProj wave i i p) =
      R c p * shuCore (eps / k ^ 2) im (shuDiff v a) (shuDiff v b) (shuDiff v i) (shuDiff v d) := by
  intro v k
  have e : ∀ j, waveProj wave i j p = shuDiff v j * k := fun j => waveProj_eigen h i j p
  have hk : k ≠ 0 := fun h0 => hw (by rw [e, h0, mul_zero])
  have hv : shuDiff v i ≠ 0 := fun h0 => hw (by rw [e, h0, zero_mul])
  refine ⟨hk, ?_⟩
  simp only [e]
  rw [shuCore_scale eps im k _ _ _ _ hk, h i p]
  simp only [pair_sub]
  change k * _ * (shuDiff v i * R c p) * (1 / (shuDiff v i * k)) = _
  field_simp

/-- The values of `weno5_wave` are those of the scalar scheme, with a small number that depends on the wave. -/
theorem weno_wave_value (eps tol : K) (he : 0 < eps) (ht : 0 ≤ tol) (g n : Int) (hg : 3 ≤ g) (old : Edges K m)
    (L : Fin w → Fin m → K) (R : Fin m → Fin w → K) (hd : Dual L R) (q : Int → Fin m → K) (wave : Waves K m w)
    (hw : EigenWaves L R q wave) (i : Int) (h1 : g + 1 ≤ i) (h2 : i ≤ n + g + 1) (p : Fin w)
    (hp : tol < pair (wave i p) (wave i p)) :
    let e := fWenoWave eps tol g n old wave q
    let v : Int → K := fun j => pair (L p) (q j)
    let k := shuDiff v i * pair (fun c => R c p) (fun c => R c p)
    0 < eps / k ^ 2 ∧ pair (L p) (e.qr (i - 1)) = shuValue (eps / k ^ 2) v 1 i ∧
      pair (L p) (e.ql i) = shuValue (eps / k ^ 2) v (-1) i := by
  intro e v k
  let Z : K → Int → Fin w → K := fun im s p' => if tol < waveProj wave i i p' then
      shuCore (eps / (shuDiff (fun j => pair (L p') (q j)) i * pair (fun c => R c p') (fun c => R c p')) ^ 2) im
        (shuDiff (fun j => pair (L p') (q j)) (i - 2 * s)) (shuDiff (fun j => pair (L p') (q j)) (i - s))
        (shuDiff (fun j => pair (L p') (q j)) i) (shuDiff (fun j => pair (L p') (q j)) (i + s)) else 0
  have hterm : ∀ (s : Int) p' c, fWaveTerm eps tol wave s i p' c = R c p' * Z s s p' := by
    intro s p' c
    simp only [fWaveTerm, Z]
    split
    · rename_i hlt
      exact (shuCore_waves hw eps s i _ _ _ p' (lt_of_le_of_lt ht hlt).ne' c).2
    · simp
  have hp' : tol < waveProj wave i i p := hp
  have hk : k ≠ 0 := by
    intro h0
    have := waveProj_eigen hw i i p
    rw [show shuDiff (fun j => pair (L p) (q j)) i * pair (fun c => R c p) (fun c => R c p) = k from rfl, h0,
      mul_zero] at this
    rw [this] at hp'
    exact absurd hp' (not_lt.mpr ht)
  have hek : 0 < eps / k ^ 2 := by positivity
  refine ⟨hek, ?_, ?_⟩
  · have : pair (L p) (e.qr (i - 1)) = shuValue (eps / k ^ 2) v 1 i := by
      simp only [e, fWenoWave]
      rw [if_pos ⟨by omega, by omega⟩, foldl_sum, sub_add_cancel]
      simp only [hterm]
      rw [pair_add, pair_combination hd, pair_central4, shuValue_core]
      simp only [Z, if_pos hp']
      exact add_comm _ _
    exact this
  · have : pair (L p) (e.ql i) = shuValue (eps / k ^ 2) v (-1) i := by
      simp only [e, fWenoWave]
      rw [if_pos ⟨by omega, by omega⟩, foldl_sum]
      simp only [hterm]
      rw [pair_add, pair_combination hd, pair_central4, shuValue_core]
      simp only [Z, if_pos hp']
      exact add_comm _ _
    exact this

/-- C79, `weno5_wave`, linear systems with constant eigenvectors: at every interface of the grid where the wave of
field `p` is above the threshold `1.e-14`, the values of the characteristic variable on both sides are convex
combinations of the three quadratic reconstructions. -/
theorem C79_weno_wave (eps tol : K) (he : 0 < eps) (ht : 0 ≤ tol) (g n : Int) (hg : 3 ≤ g) (old : Edges K m)
    (L : Fin w → Fin m → K) (R : Fin m → Fin w → K) (hd : Dual L R) (q : Int → Fin m → K) (wave : Waves K m w)
    (hw : EigenWaves L R q wave) (i : Int) (h1 : g + 1 ≤ i) (h2 : i ≤ n + g + 1) (p : Fin w)
    (hp : tol < pair (wave i p) (wave i p)) :
    let e := fWenoWave eps tol g n old wave q
    let v : Int → K := fun j => pair (L p) (q j)
    WenoGood rightEdge v (i - 1) (pair (L p) (e.qr (i - 1))) ∧ WenoGood leftEdge v i (pair (L p) (e.ql i)) := by
  intro e v
  obtain ⟨hek, a, b⟩ := weno_wave_value eps tol he ht g n hg old L R hd q wave hw i h1 h2 p hp
  exact ⟨a ▸ shuValue_good_right _ hek v i, b ▸ shuValue_good_left _ hek v i⟩

/-- The same for `weno5_fwave`. -/
theorem weno_fwave_value (eps tol : K) (he : 0 < eps) (ht : 0 ≤ tol) (g n : Int) (hg : 3 ≤ g) (old : Edges K m)
    (L : Fin w → Fin m → K) (R : Fin m → Fin w → K) (hd : Dual L R) (q : Int → Fin m → K) (wave fwave : Waves K m w)
    (s : Int → Fin w → K) (hs : ∀ j p, s j p ≠ 0) (hf : ∀ j p c, fwave j p c = s j p * wave j p c)
    (hw : EigenWaves L R q wave) (i : Int) (h1 : g + 1 ≤ i) (h2 : i ≤ n + g + 1) (p : Fin w)
    (hp : tol < pair (wave i p) (wave i p)) :
    let e := fWenoFwave eps tol g n old fwave s q
    let v : Int → K := fun j => pair (L p) (q j)
    let k := shuDiff v i * pair (fun c => R c p) (fun c => R c p)
    0 < eps / k ^ 2 ∧ pair (L p) (e.qr (i - 1)) = shuValue (eps / k ^ 2) v 1 i ∧
      pair (L p) (e.ql i) = shuValue (eps / k ^ 2) v (-1) i := by
  intro e v k
  have hww : fwaveToWave fwave s = wave := by
    funext j p c
    simp only [fwaveToWave, hf]
    field_simp [hs j p]
  let Z : Int → Fin w → K := fun s p' => if tol < waveProj wave i i p' then
      shuCore (eps / (shuDiff (fun j => pair (L p') (q j)) i * pair (fun c => R c p') (fun c => R c p')) ^ 2) s
        (shuDiff (fun j => pair (L p') (q j)) (i - 2 * s)) (shuDiff (fun j => pair (L p') (q j)) (i - s))
        (shuDiff (fun j => pair (L p') (q j)) i) (shuDiff (fun j => pair (L p') (q j)) (i + s))
      + (s : K) * (shuDiff (fun j => pair (L p') (q j)) (i - s) + 6 * shuDiff (fun j => pair (L p') (q j)) i
        - shuDiff (fun j => pair (L p') (q j)) (i + s)) / 12 else 0
  have hterm : ∀ (s : Int) p' c, fFwaveTerm eps tol wave s i p' c = R c p' * Z s p' := by
    intro s p' c
    simp only [fFwaveTerm, pyWaveZ, Z]
    split
    · rename_i hlt
      have hne : waveProj wave i i p' ≠ 0 := (lt_of_le_of_lt ht hlt).ne'
      obtain ⟨hk, hcore⟩ := shuCore_waves hw eps s i (i - 2 * s) (i - s) (i + s) p' hne c
      rw [add_mul, add_mul, hcore, mul_add]
      congr 1
      have hv : shuDiff (fun j => pair (L p') (q j)) i ≠ 0 := fun h0 => hk (by rw [h0, zero_mul])
      simp only [waveProj_eigen hw]
      rw [hw i p']
      simp only [pair_sub]
      set kk := shuDiff (fun j => pair (L p') (q j)) i * pair (fun c => R c p') (fun c => R c p') with hkk
      change _ * (shuDiff (fun j => pair (L p') (q j)) i * R c p') * _ = _
      field_simp
    · simp
  have hp' : tol < waveProj wave i i p := hp
  have hk : k ≠ 0 := by
    intro h0
    have := waveProj_eigen hw i i p
    rw [show shuDiff (fun j => pair (L p) (q j)) i * pair (fun c => R c p) (fun c => R c p) = k from rfl, h0,
      mul_zero] at this
    rw [this] at hp'
    exact absurd hp' (not_lt.mpr ht)
  have hek : 0 < eps / k ^ 2 := by positivity
  refine ⟨hek, ?_, ?_⟩
  · have : pair (L p) (e.qr (i - 1)) = shuValue (eps / k ^ 2) v 1 i := by
      simp only [e, fWenoFwave, hww]
      rw [if_pos ⟨by omega, by omega⟩, foldl_sum, sub_add_cancel]
      simp only [hterm]
      rw [pair_add, pair_combination hd, shuValue_core]
      simp only [Z, if_pos hp']
      change v (i - 1) + (_ + _) = _
      rw [add_left_comm]
      congr 1
      simp only [shuDiff]
      rw [show i - 1 - 1 = i - 2 by ring, show i + 1 - 1 = i by ring]
      push_cast
      ring
    exact this
  · have : pair (L p) (e.ql i) = shuValue (eps / k ^ 2) v (-1) i := by
      simp only [e, fWenoFwave, hww]
      rw [if_pos ⟨by omega, by omega⟩, foldl_sum]
      simp only [hterm]
      rw [pair_add, pair_combination hd, shuValue_core]
      simp only [Z, if_pos hp']
      change v i + (_ + _) = _
      rw [add_left_comm]
      congr 1
      simp only [shuDiff]
      rw [show i - -1 = i + 1 by ring, show i + -1 = i - 1 by ring, show i - 1 - 1 = i - 2 by ring,
        show i + 1 - 1 = i by ring]
      push_cast
      ring
    exact this

/-- C79, `weno5_fwave`: the same if the f-waves are the waves times nonzero speeds. -/
theorem C79_weno_fwave (eps tol : K) (he : 0 < eps) (ht : 0 ≤ tol) (g n : Int) (hg : 3 ≤ g) (old : Edges K m)
    (L : Fin w → Fin m → K) (R : Fin m → Fin w → K) (hd : Dual L R) (q : Int → Fin m → K) (wave fwave : Waves K m w)
    (s : Int → Fin w → K) (hs : ∀ j p, s j p ≠ 0) (hf : ∀ j p c, fwave j p c = s j p * wave j p c)
    (hw : EigenWaves L R q wave) (i : Int) (h1 : g + 1 ≤ i) (h2 : i ≤ n + g + 1) (p : Fin w)
    (hp : tol < pair (wave i p) (wave i p)) :
    let e := fWenoFwave eps tol g n old fwave s q
    let v : Int → K := fun j => pair (L p) (q j)
    WenoGood rightEdge v (i - 1) (pair (L p) (e.qr (i - 1))) ∧ WenoGood leftEdge v i (pair (L p) (e.ql i)) := by
  intro e v
  obtain ⟨hek, a, b⟩ := weno_fwave_value eps tol he ht g n hg old L R hd q wave fwave s hs hf hw i h1 h2 p hp
  exact ⟨a ▸ shuValue_good_right _ hek v i, b ▸ shuValue_good_left _ hek v i⟩

/-! ### `weno5_trans` -/

/-- With constant eigenvectors the transmission-based reconstruction is the characteristic-wise one, provided that
each row of `evl` and the row (not the column) of `evr` with the same number have product 1. -/
theorem C79_weno_trans_partial (eps : K) (stale : Fin m → Int → Int → K) (n2 : Int) (old : Edges K m)
    (evl evr : Int → Fin m → Fin m → K) (hl : ∀ j, evl j = evl 0) (hr : ∀ j, evr j = evr 0)
    (hrow : ∀ p, pair (evl 0 p) (evr 0 p) = 1) (q : Int → Fin m → K) :
    fWenoTrans eps stale n2 old evl evr q = fWenoChar eps stale 3 (n2 - 6) old evl evr q := by
  have e : ∀ p, transJump evl evr q p = charJump evl q p := by
    intro p
    funext m1 i
    simp only [transJump, charJump, strength, hl i, hl (i + m1), hr (i + m1)]
    have := hrow p
    simp only [pair] at this
    calc _ = (∑ c, evl 0 p c * evr 0 p c) * ∑ c, evl 0 p c * jump q (i + m1) c := by
          rw [Finset.sum_mul]; exact Finset.sum_congr rfl fun _ _ => by ring
      _ = _ := by rw [this, one_mul]
  unfold fWenoTrans fWenoChar
  simp only [e]
  rw [show n2 - 6 + 3 + 1 = n2 - 2 by ring]

/-- Otherwise it is not a fifth-order reconstruction of the characteristic variables: the code uses the row instead of
the column of `evr`, for the eigenvectors below the second field is not seen at all, and its value is not a
convex combination with positive weights. -/
theorem C79_weno_trans_violated :
    let L : Int → Fin 2 → Fin 2 → ℚ := fun _ => ![![1, 0], ![1, 1]]
    let R : Int → Fin 2 → Fin 2 → ℚ := fun _ => ![![1, 0], ![-1, 1]]
    let q : Int → Fin 2 → ℚ := fun j => ![0, if j ≤ 4 then 1 else 0]
    let e := fWenoTrans (1 / 10 ^ 36) (fun _ _ _ => 0) 13 ⟨fun _ _ => 0, fun _ _ => 0⟩ L R q
    Dual (L 7) (R 7) ∧ ¬ WenoGood rightEdge (fun j => pair (L 7 1) (q j)) 6 (pair (L 7 1) (e.qr 6)) := by
  intro L R q e
  refine ⟨?_, fun hgood => ?_⟩
  · intro p p'
    fin_cases p <;> fin_cases p' <;> simp [pair, L, R]
  · have hv : pair (L 7 1) (e.qr 6) = 0 := by decide +kernel
    rw [hv] at hgood
    set v : Int → ℚ := fun j => pair (L 7 1) (q j) with hvdef
    have v4 : v 4 = 1 := by decide +kernel
    have v5 : v 5 = 0 := by decide +kernel
    have v6 : v 6 = 0 := by decide +kernel
    have v7 : v 7 = 0 := by decide +kernel
    have v8 : v 8 = 0 := by decide +kernel
    obtain ⟨P0, hP0⟩ := (C45_candidates v 5 1 one_ne_zero).1
    have k := quadratic_edges 1 one_ne_zero P0 hP0.1 5 _ _ _ (hP0.2 (5 - 1) (by omega) (by omega))
      (hP0.2 5 (by omega) (by omega)) (hP0.2 (5 + 1) (by omega) (by omega))
    norm_num [v4, v5, v6] at k
    have hz : ∀ a b : Int, (∀ j, a ≤ j → j ≤ b → v j = 0) → Interpolates 1 v 2 a b 0 := by
      intro a b h
      refine ⟨by simp, fun j h1 h2 => ?_⟩
      rw [h j h1 h2]
      simp [cellAverage]
    have h56 : ∀ j : Int, 5 ≤ j → j ≤ 8 → v j = 0 := by
      intro j h1 h2
      obtain rfl | rfl | rfl | rfl : j = 5 ∨ j = 6 ∨ j = 7 ∨ j = 8 := by omega
      all_goals assumption
    obtain ⟨a, b, d, ha, -, -, -, h0⟩ := hgood 1 one_ne_zero P0 0 0 hP0
      (hz _ _ fun j h1 h2 => h56 j (by omega) (by omega)) (hz _ _ fun j h1 h2 => h56 j (by omega) (by omega))
    rw [k.2.2.1] at h0
    simp only [rightEdge, derivative_zero, eval_zero, mul_zero, add_zero] at h0
    linarith

/-- The hypotheses can be met: left and right going waves, steps that are not small. -/
example :
    let L : Fin 2 → Fin 2 → ℚ := ![![1 / 2, -1 / 2], ![1 / 2, 1 / 2]]
    let R : Fin 2 → Fin 2 → ℚ := ![![1, 1], ![-1, 1]]
    let q : Int → Fin 2 → ℚ := fun j => ![(j : ℚ) ^ 3, 1]
    let wave : Waves ℚ 2 2 := fun j p c => pair (L p) (fun c => q j c - q (j - 1) c) * R c p
    Dual L R ∧ EigenWaves L R q wave ∧ (1 : ℚ) / 10 ^ 14 < pair (wave 5 0) (wave 5 0) := by
  refine ⟨?_, fun _ _ => rfl, by decide +kernel⟩
  intro p p'
  fin_cases p <;> fin_cases p' <;> norm_num [pair]

/-- Rows of a symmetric orthogonal matrix. -/
example :
    let L : Int → Fin 2 → Fin 2 → ℚ := fun _ => ![![3 / 5, 4 / 5], ![4 / 5, -3 / 5]]
    (∀ j, L j = L 0) ∧ ∀ p, pair (L 0 p) (L 0 p) = 1 := by
  refine ⟨fun _ => rfl, fun p => ?_⟩
  fin_cases p <;> norm_num [pair]

/-- Averages of a quadratic. -/
example : ∃ P : ℚ[X], Interpolates 1 (fun j => (j : ℚ) ^ 2) 2 1 6 P := by
  refine ⟨C (1 / 3) * X ^ 3 - C (1 / 12) * X, by compute_degree, fun j _ _ => ?_⟩
  unfold cellAverage
  simp
  ring

end PyClaw
