import Verif.Lemmas.Units2
import Verif.Lemmas.Superpose3

/-! One step of the three-dimensional methods in other units. -/
set_option linter.unusedSectionVars false

namespace PyClaw
open Spec

variable {K : Type*} [Field K] [LinearOrder K] [IsStrictOrderedRing K] {A : Type*} {m w : Nat}

/-- The two parts of a splitting in other units. -/
def pairIn (σ : Fin m → K) (c : K) (p : (Fin m → K) × (Fin m → K)) : (Fin m → K) × (Fin m → K) :=
  (fun k => c * (σ k * p.1 k), fun k => c * (σ k * p.2 k))

theorem side_pairIn (σ : Fin m → K) (c : K) (u : Bool) (p : (Fin m → K) × (Fin m → K)) :
    side u (pairIn σ c p) = fun k => c * (σ k * side u p k) := by
  cases u <;> rfl

theorem part_unit (σ : Fin m → K) (T T' : Trans3 K m) (v₁ v₂ v₃ : K) (icoor : Nat) (hic : icoor = 2 ∨ icoor = 3) (dtw dtw' : K) (imp : Nat) (u : Bool)
    (s : Int) (lam lam' : K) (i : Int) (h3 : T'.m3 = T.m3) (h4 : T'.m4 = T.m4) (ha : T'.hasAux = T.hasAux)
    (hs : T'.asdq imp i = fun k => v₁ * (σ k * T.asdq imp i k))
    (hc : T.m3 = 2 → T'.cqxx i = fun k => v₁ * (σ k * T.cqxx i k))
    (ht : ∀ a, a = 2 ∨ a = 3 → ∀ b x, T'.t a b i (fun k => v₁ * (σ k * x k)) = pairIn σ (v₁ * if a = 2 then v₂ else v₃) (T.t a b i x))
    (htt : ∀ a, a = 2 ∨ a = 3 → ∀ b e x, T'.tt a b e i (fun k => v₁ * (if a = 2 then v₃ else v₂) * (σ k * x k)) =
      pairIn σ (v₁ * (v₂ * v₃)) (T.tt a b e i x))
    (hlam : lam = v₁ * lam') (hdt : dtw = (if icoor = 2 then v₃ else v₂) * dtw') :
    T'.part icoor dtw' imp u s lam' i = fun k => (if icoor = 2 then v₂ else v₃) * (σ k * T.part icoor dtw imp u s lam i k) := by
  have e1 : ∀ ic, ic = 2 ∨ ic = 3 → T'.inc ic imp i = pairIn σ (v₁ * if ic = 2 then v₂ else v₃) (T.inc ic imp i) := fun ic h => by
    unfold Trans3.inc; rw [hs, ht ic h]
  have e2 : ∀ ic, ic = 2 ∨ ic = 3 → ∀ im, T'.cor ic im i = pairIn σ (v₁ * if ic = 2 then v₂ else v₃) (T.cor ic im i) := fun ic h im => by
    unfold Trans3.cor
    rw [h3, ha]
    by_cases h2 : T.m3 = 2
    · simp only [if_pos h2]
      rw [hc h2, ht ic h]
    · simp only [if_neg h2]
      refine Prod.ext ?_ ?_ <;> funext k <;> simp [pairIn]
  have e3 : ∀ ic, ic = 2 ∨ ic = 3 → T'.second ic imp i = pairIn σ (v₁ * if ic = 2 then v₂ else v₃) (T.second ic imp i) := fun ic h => by
    unfold Trans3.second
    rw [h4, e1 ic h, e2 ic h]
    split
    · split <;> refine Prod.ext ?_ ?_ <;> funext k <;>
      simp only [pairIn, Prod.fst_add, Prod.snd_add, Prod.fst_sub, Prod.snd_sub, Prod.smul_fst, Prod.smul_snd, Pi.add_apply, Pi.sub_apply,
        Pi.smul_apply, smul_eq_mul] <;> ring
    · rfl
  have e4 : ∀ it, T'.double icoor imp it i = pairIn σ (v₁ * (v₂ * v₃)) (T.double icoor imp it i) := fun it => by
    unfold Trans3.double
    rw [e3 _ (by split <;> simp), side_pairIn]
    rw [show (v₁ * if (if icoor = 2 then 3 else 2) = 2 then v₂ else v₃) = v₁ * (if icoor = 2 then v₃ else v₂) by
      rcases hic with rfl | rfl <;> simp]
    exact htt icoor hic imp it _
  unfold Trans3.part
  dsimp only
  rw [h3, h4, e1 icoor hic, e2 icoor hic, e2 icoor hic, e4, e4]
  simp only [side_pairIn]
  subst hlam hdt
  rcases hic with rfl | rfl <;>
  · simp only [if_true, show ¬ (3 = 2) by decide, if_false]
    split
    · split <;> split <;> (try split) <;> funext k <;>
      simp only [Pi.add_apply, Pi.sub_apply, Pi.neg_apply, Pi.smul_apply, Pi.zero_apply, smul_eq_mul] <;> ring
    · split
      · split <;> funext k <;>
        simp only [Pi.add_apply, Pi.sub_apply, Pi.neg_apply, Pi.smul_apply, Pi.zero_apply, smul_eq_mul] <;> ring
      · split
        · split <;> funext k <;>
          simp only [Pi.add_apply, Pi.sub_apply, Pi.neg_apply, Pi.smul_apply, Pi.zero_apply, smul_eq_mul] <;> ring
        · funext k; simp

section
variable {σ : Fin m → K} {v₁ v₂ v₃ : K} {RA : A → A} {rp rp' : Riemann K A m w} {rt rt' : Transverse3 K A m} {rtt rtt' : Transverse33 K A m}

/-- What a row sends to its neighbours, in other units. -/
theorem unit_sent3 (hv : 0 < v₁) {b₁ b₂ b₃ t : K} (hb₁ : 0 < b₁) (hvt₁ : v₁ * t = b₁) (undef : K)
    (c c' : Cfg3 K w) (hM : InUnits σ v₁ RA c.fwave rp rp') (hT : Transverse3InUnits σ v₁ v₂ v₃ RA rt rt' rtt rtt')
    (hc' : c' = { c with dt := t * c.dt, dx := b₁ * c.dx, dy := b₂ * c.dy, dz := b₃ * c.dz }) (hσ : UnitsAllowed σ c.order c.limiter)
    (hst : c.order ≠ 1 ∨ c.trans / 10 ≠ 2) (capa : Option (A → K)) (hc : ∀ κ, capa = some κ → ∀ z, κ (RA z) = κ z)
    (stale stale' : Int → Fin m → K) (aux : Int → Int → Int → A) (q : Int → Int → Int → Fin m → K) (icoor : Nat) (hic : icoor = 2 ∨ icoor = 3)
    (dtw dtw' : K) (hdt : dtw = (if icoor = 2 then v₃ else v₂) * dtw') (u : Bool) (s i j k : Int) :
    sent3 undef rp' rt' rtt' c' capa stale' (fun i j k => RA (aux i j k)) (fun i j k => signed σ (q i j k)) icoor dtw' u s i j k =
      fun l => (if icoor = 2 then v₂ else v₃) * (σ l * sent3 undef rp rt rtt c capa stale aux q icoor dtw u s i j k l) := by
  subst hc'
  have hL := ratio_in_units hb₁.ne' hvt₁ c.dt c.dx capa hc fun i => aux i j k
  have key : ∀ (imp : Nat) (lam lam' : K) (i : Int), lam = v₁ * lam' →
      (rowTrans3 undef rp' rt' rtt' { c with dt := t * c.dt, dx := b₁ * c.dx, dy := b₂ * c.dy, dz := b₃ * c.dz } capa stale'
        (fun i j k => RA (aux i j k)) (fun i j k => signed σ (q i j k)) j k).part icoor dtw' imp u s lam' i =
      fun l => (if icoor = 2 then v₂ else v₃) * (σ l * (rowTrans3 undef rp rt rtt c capa stale aux q j k).part icoor dtw imp u s lam i l) := by
    intro imp lam lam' i hlam
    have hI := unit_interface hM (fun i => aux i j k) (fun i => q i j k) i
    refine part_unit σ _ _ v₁ v₂ v₃ icoor hic dtw dtw' imp u s lam lam' i rfl rfl rfl ?_ (fun h3 => ?_) (fun a ha b x => ?_)
      (fun a ha b e x => ?_) hlam hdt
    · unfold rowTrans3
      dsimp only
      split
      · exact hI.2.2.1
      · exact hI.2.2.2
    · have ho : c.order ≠ 1 := hst.resolve_right fun hne => splitMethod3_ne hne h3
      unfold rowTrans3
      simp only [if_neg ho]
      exact unit_sliceFlux hv hM undef _ _ hσ _ _ hL (fun i => aux i j k) (fun i => q i j k) i
    · refine ((hT a ha b (q (i - 1) j k) (q i j k) (aux9 aux j k (i - 1)) (aux9 aux j k i) x).1).trans ?_
      refine Prod.ext ?_ ?_ <;> funext l <;> simp only [pairIn, rowTrans3] <;> ring
    · have := (hT a ha b (q (i - 1) j k) (q i j k) (aux9 aux j k (i - 1)) (aux9 aux j k i) x).2 e
      rcases ha with rfl | rfl <;>
      · simp only [if_true, show ¬ (3 = 2) by decide, if_false] at this ⊢
        simp only [mul_assoc]
        refine this.trans ?_
        refine Prod.ext ?_ ?_ <;> funext l <;> simp only [pairIn, rowTrans3] <;> ring
  unfold sent3
  dsimp only
  rw [key 2 _ _ i (hL i), key 1 _ _ (i + 1) (hL i)]
  show (if (splitMethod3 c.trans).1 ≤ 0 then (0 : Fin m → K) else _) = fun l => _ * (σ l * (if (splitMethod3 c.trans).1 ≤ 0 then (0 : Fin m → K) else _) l)
  split
  · funext l; simp
  · funext l
    simp only [Pi.add_apply]
    ring

theorem unit_increment3 (hv₁ : 0 < v₁) (hv₂ : 0 < v₂) (hv₃ : 0 < v₃) {b₁ b₂ b₃ t : K} (hb₁ : 0 < b₁) (hb₂ : 0 < b₂) (hb₃ : 0 < b₃)
    (h₁ : v₁ * t = b₁) (h₂ : v₂ * t = b₂) (h₃ : v₃ * t = b₃) (undef : K)
    (c c' : Cfg3 K w) (hM : InUnits σ v₁ RA c.fwave rp rp') (hT : Transverse3InUnits σ v₁ v₂ v₃ RA rt rt' rtt rtt')
    (hc' : c' = { c with dt := t * c.dt, dx := b₁ * c.dx, dy := b₂ * c.dy, dz := b₃ * c.dz }) (hσ : UnitsAllowed σ c.order c.limiter)
    (hst : c.order ≠ 1 ∨ c.trans / 10 ≠ 2) (capa : Option (A → K)) (hc : ∀ κ, capa = some κ → ∀ z, κ (RA z) = κ z)
    (stale stale' : Int → Fin m → K) (aux : Int → Int → Int → A) (q : Int → Int → Int → Fin m → K) (i j k : Int) :
    xIncrement3 undef rp' rt' rtt' c' capa stale' (fun i j k => RA (aux i j k)) (fun i j k => signed σ (q i j k)) i j k =
      signed σ (xIncrement3 undef rp rt rtt c capa stale aux q i j k) := by
  have hrow := unit_row hv₁ hb₁ h₁ undef c.row c'.row hM (by rw [hc']; rfl) hσ capa hc (fun i => aux i j k) (fun i => q i j k) i
  have ht : t ≠ 0 := fun h0 => hb₁.ne' (by rw [← h₁, h0, mul_zero])
  have d2 : c.dt / c.dz = v₃ * (c'.dt / c'.dz) := by
    rw [hc']; dsimp only
    rw [← h₃, mul_comm v₃ t, mul_assoc, mul_div_mul_left _ _ ht, ← mul_div_assoc, mul_div_mul_left _ _ hv₃.ne']
  have d3 : c.dt / c.dy = v₂ * (c'.dt / c'.dy) := by
    rw [hc']; dsimp only
    rw [← h₂, mul_comm v₂ t, mul_assoc, mul_div_mul_left _ _ ht, ← mul_div_assoc, mul_div_mul_left _ _ hv₂.ne']
  have g2 : ∀ u s i j k, sent3 undef rp' rt' rtt' c' capa stale' (fun i j k => RA (aux i j k)) (fun i j k => signed σ (q i j k)) 2
      (c'.dt / c'.dz) u s i j k = fun l => v₂ * (σ l * sent3 undef rp rt rtt c capa stale aux q 2 (c.dt / c.dz) u s i j k l) := fun u s i j k =>
    unit_sent3 hv₁ hb₁ h₁ undef c c' hM hT hc' hσ hst capa hc stale stale' aux q 2 (Or.inl rfl) _ _ d2 u s i j k
  have g3 : ∀ u s i j k, sent3 undef rp' rt' rtt' c' capa stale' (fun i j k => RA (aux i j k)) (fun i j k => signed σ (q i j k)) 3
      (c'.dt / c'.dy) u s i j k = fun l => v₃ * (σ l * sent3 undef rp rt rtt c capa stale aux q 3 (c.dt / c.dy) u s i j k l) := fun u s i j k =>
    unit_sent3 hv₁ hb₁ h₁ undef c c' hM hT hc' hσ hst capa hc stale stale' aux q 3 (Or.inr rfl) _ _ d3 u s i j k
  have r2 : localRatio c.dt c.dy capa (fun j => aux i j k) j = v₂ * localRatio c'.dt c'.dy capa (fun j => RA (aux i j k)) j := by
    rw [hc']; exact ratio_in_units hb₂.ne' h₂ c.dt c.dy capa hc (fun j => aux i j k) j
  have r3 : localRatio c.dt c.dz capa (fun k => aux i j k) k = v₃ * localRatio c'.dt c'.dz capa (fun k => RA (aux i j k)) k := by
    rw [hc']; exact ratio_in_units hb₃.ne' h₃ c.dt c.dz capa hc (fun k => aux i j k) k
  unfold xIncrement3 flux2of3 flux3of3
  simp only [hrow, g2, g3, r2, r3]
  funext l
  simp only [signed, Pi.add_apply, Pi.sub_apply, Pi.smul_apply, smul_eq_mul]
  ring

end

section
variable {σ : Fin m → K} {RA : A → A} {rpx rpx' rpy rpy' rpz rpz' : Riemann K A m w} {rtx rtx' rty rty' rtz rtz' : Transverse3 K A m}
  {rttx rttx' rtty rtty' rttz rttz' : Transverse33 K A m}

/-- A step of the unsplit method in other units. -/
theorem unit_unsplit3 {vx vy vz lx ly lz tx : K} (hvx : 0 < vx) (hvy : 0 < vy) (hvz : 0 < vz) (hlx : 0 < lx) (hly : 0 < ly) (hlz : 0 < lz)
    (hx : vx * tx = lx) (hy : vy * tx = ly) (hz : vz * tx = lz) (undef : K) (c : Cfg3 K w) (hg : 1 ≤ c.g)
    (hMx : InUnits σ vx RA c.fwave rpx rpx') (hMy : InUnits σ vy RA c.fwave rpy rpy') (hMz : InUnits σ vz RA c.fwave rpz rpz')
    (hTx : Transverse3InUnits σ vx vy vz RA rtx rtx' rttx rttx') (hTy : Transverse3InUnits σ vy vz vx RA rty rty' rtty rtty')
    (hTz : Transverse3InUnits σ vz vx vy RA rtz rtz' rttz rttz')
    (hσ : UnitsAllowed σ c.order c.limiter) (hst : c.order ≠ 1 ∨ c.trans / 10 ≠ 2) (capa : Option (A → K))
    (hc : ∀ κ, capa = some κ → ∀ z, κ (RA z) = κ z) (stale stale' : Int → Fin m → K)
    (aux : Int → Int → Int → A) (q : Int → Int → Int → Fin m → K) :
    (∀ i j k : Int, 1 ≤ i → i ≤ c.mx → 1 ≤ j → j ≤ c.my → 1 ≤ k → k ≤ c.mz →
      (unsplitStep3 undef rpx' rpy' rpz' rtx' rty' rtz' rttx' rtty' rttz'
        { c with dt := tx * c.dt, dx := lx * c.dx, dy := ly * c.dy, dz := lz * c.dz } capa stale'
        (fun i j k => RA (aux i j k)) (fun i j k => signed σ (q i j k))).1 i j k =
      signed σ ((unsplitStep3 undef rpx rpy rpz rtx rty rtz rttx rtty rttz c capa stale aux q).1 i j k)) ∧
    (unsplitStep3 undef rpx' rpy' rpz' rtx' rty' rtz' rttx' rtty' rttz'
        { c with dt := tx * c.dt, dx := lx * c.dx, dy := ly * c.dy, dz := lz * c.dz } capa stale'
        (fun i j k => RA (aux i j k)) (fun i j k => signed σ (q i j k))).2 =
      (unsplitStep3 undef rpx rpy rpz rtx rty rtz rttx rtty rttz c capa stale aux q).2 := by
  constructor
  · intro i j k i1 i2 j1 j2 k1 k2
    rw [unsplitStep3_cell undef rpx' rpy' rpz' rtx' rty' rtz' rttx' rtty' rttz'
        { c with dt := tx * c.dt, dx := lx * c.dx, dy := ly * c.dy, dz := lz * c.dz } hg capa stale' _ _ i j k i1 i2 j1 j2 k1 k2,
      unsplitStep3_cell undef rpx rpy rpz rtx rty rtz rttx rtty rttz c hg capa stale aux q i j k i1 i2 j1 j2 k1 k2,
      unit_increment3 hvx hvy hvz hlx hly hlz hx hy hz undef c _ hMx hTx rfl hσ hst capa hc stale stale' aux q i j k]
    have ey := unit_increment3 hvy hvz hvx hly hlz hlx hy hz hx undef c.rot
      ({ c with dt := tx * c.dt, dx := lx * c.dx, dy := ly * c.dy, dz := lz * c.dz } : Cfg3 K w).rot hMy hTy rfl hσ hst capa hc stale stale'
      (rot3 aux) (rot3 q) j k i
    have ez := unit_increment3 hvz hvx hvy hlz hlx hly hz hx hy undef c.rot.rot
      ({ c with dt := tx * c.dt, dx := lx * c.dx, dy := ly * c.dy, dz := lz * c.dz } : Cfg3 K w).rot.rot hMz hTz rfl hσ hst capa hc stale stale'
      (rot3 (rot3 aux)) (rot3 (rot3 q)) k i j
    refine Eq.trans (congrArg₂ (· + ·) (congrArg₂ (· + ·) rfl ey) ez) ?_
    funext l
    simp only [signed, Pi.add_apply]
    ring
  · refine isMax_unique (unsplitStep3_isMax undef { c with dt := tx * c.dt, dx := lx * c.dx, dy := ly * c.dy, dz := lz * c.dz } capa stale' _ _)
      (isMax_congr (fun x => or_congr (or_congr ?_ ?_) ?_) (unsplitStep3_isMax undef c capa stale aux q))
    · refine exists_congr fun i => exists_congr fun j => exists_congr fun k => and_congr_right fun _ => and_congr_right fun _ =>
        and_congr_right fun _ => ?_
      exact (unit_number hlx hx hMx c.dt c.dx capa hc (fun i => aux i j k) (fun i => q i j k) i x).symm
    · refine exists_congr fun j => exists_congr fun k => exists_congr fun i => and_congr_right fun _ => and_congr_right fun _ =>
        and_congr_right fun _ => ?_
      exact (unit_number hly hy hMy c.dt c.dy capa hc (fun j => aux i j k) (fun j => q i j k) j x).symm
    · refine exists_congr fun k => exists_congr fun i => exists_congr fun j => and_congr_right fun _ => and_congr_right fun _ =>
        and_congr_right fun _ => ?_
      exact (unit_number hlz hz hMz c.dt c.dz capa hc (fun k => aux i j k) (fun k => q i j k) k x).symm

/-- A step of dimensional splitting in other units. -/
theorem unit_split3 {vx vy vz lx ly lz tx : K} (hvx : 0 < vx) (hvy : 0 < vy) (hvz : 0 < vz) (hlx : 0 < lx) (hly : 0 < ly) (hlz : 0 < lz)
    (hx : vx * tx = lx) (hy : vy * tx = ly) (hz : vz * tx = lz) (undef : K) (c : Cfg3 K w) (hg : 1 ≤ c.g)
    (hMx : InUnits σ vx RA c.fwave rpx rpx') (hMy : InUnits σ vy RA c.fwave rpy rpy') (hMz : InUnits σ vz RA c.fwave rpz rpz')
    (hσ : UnitsAllowed σ c.order c.limiter) (capa : Option (A → K))
    (hc : ∀ κ, capa = some κ → ∀ z, κ (RA z) = κ z) (aux : Int → Int → Int → A) (q : Int → Int → Int → Fin m → K) :
    (∀ i j k : Int,
      (splitStep3 undef rpx' rpy' rpz' { c with dt := tx * c.dt, dx := lx * c.dx, dy := ly * c.dy, dz := lz * c.dz } capa
        (fun i j k => RA (aux i j k)) (fun i j k => signed σ (q i j k))).1 i j k =
      signed σ ((splitStep3 undef rpx rpy rpz c capa aux q).1 i j k)) ∧
    (splitStep3 undef rpx' rpy' rpz' { c with dt := tx * c.dt, dx := lx * c.dx, dy := ly * c.dy, dz := lz * c.dz } capa
        (fun i j k => RA (aux i j k)) (fun i j k => signed σ (q i j k))).2 = (splitStep3 undef rpx rpy rpz c capa aux q).2 := by
  let C : Cfg3 K w := { c with dt := tx * c.dt, dx := lx * c.dx, dy := ly * c.dy, dz := lz * c.dz }
  have hX : ∀ i j k : Int, afterX undef rpx' C capa (fun i j k => RA (aux i j k)) (fun i j k => signed σ (q i j k)) i j k =
      signed σ (afterX undef rpx c capa aux q i j k) := by
    intro i j k
    unfold afterX
    dsimp only [C]
    split
    · exact unit_row hvx hlx hx undef c.row C.row hMx rfl hσ capa hc (fun i => aux i j k) (fun i => q i j k) i
    · rfl
  have hY : ∀ i j k : Int, afterY undef rpx' rpy' C capa (fun i j k => RA (aux i j k)) (fun i j k => signed σ (q i j k)) i j k =
      signed σ (afterY undef rpx rpy c capa aux q i j k) := by
    intro i j k
    unfold afterY
    simp only [hX]
    dsimp only [C]
    split
    · exact unit_row hvy hly hy undef c.rot.row C.rot.row hMy rfl hσ capa hc (fun j => aux i j k)
        (fun j => afterX undef rpx c capa aux q i j k) j
    · rfl
  constructor
  · intro i j k
    rw [splitStep3_eq undef rpx' rpy' rpz' C hg, splitStep3_eq undef rpx rpy rpz c hg]
    simp only [hY]
    dsimp only [C]
    split
    · exact unit_row hvz hlz hz undef c.rot.rot.row C.rot.rot.row hMz rfl hσ capa hc (fun k => aux i j k)
        (fun k => afterY undef rpx rpy c capa aux q i j k) k
    · rfl
  · refine isMax_unique (splitStep3_isMax undef C hg capa _ _)
      (isMax_congr (fun x => or_congr (or_congr ?_ ?_) ?_) (splitStep3_isMax undef c hg capa aux q))
    · refine exists_congr fun i => exists_congr fun j => exists_congr fun k => and_congr_right fun _ => and_congr_right fun _ =>
        and_congr_right fun _ => ?_
      exact (unit_number hlx hx hMx c.dt c.dx capa hc (fun i => aux i j k) (fun i => q i j k) i x).symm
    · simp only [hX]
      refine exists_congr fun j => exists_congr fun k => exists_congr fun i => and_congr_right fun _ => and_congr_right fun _ =>
        and_congr_right fun _ => ?_
      exact (unit_number hly hy hMy c.dt c.dy capa hc (fun j => aux i j k) (fun j => afterX undef rpx c capa aux q i j k) j x).symm
    · simp only [hY]
      refine exists_congr fun k => exists_congr fun i => exists_congr fun j => and_congr_right fun _ => and_congr_right fun _ =>
        and_congr_right fun _ => ?_
      exact (unit_number hlz hz hMz c.dt c.dz capa hc (fun k => aux i j k) (fun k => afterY undef rpx rpy c capa aux q i j k) k x).symm

end
end PyClaw
