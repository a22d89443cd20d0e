import Verif.Lemmas.Turn
import Verif.Lemmas.Superpose3
import Verif.Lemmas.SplitMirror

/-! The increments of the unsplit three-dimensional method in other components and in mirrors. -/
set_option linter.unusedSectionVars false

namespace PyClaw
open Spec

variable {K : Type*} [Field K] [LinearOrder K] [IsStrictOrderedRing K] {A : Type*} {m w : Nat}

/-! ### Other components -/

/-- Both parts of a splitting in other components. -/
def pairMap (T : (Fin m → K) → Fin m → K) (p : (Fin m → K) × (Fin m → K)) : (Fin m → K) × (Fin m → K) := (T p.1, T p.2)

theorem side_pairMap (T : (Fin m → K) → Fin m → K) (u : Bool) (p : (Fin m → K) × (Fin m → K)) : side u (pairMap T p) = T (side u p) := by
  cases u <;> rfl

theorem part_turn {R : (Fin m → K) → Fin m → K} (hR : Rigid R) (T T' : Trans3 K m) (icoor : Nat) (dtw : K) (imp : Nat) (u : Bool) (s : Int)
    (lam : K) (i : Int) (h3 : T'.m3 = T.m3) (h4 : T'.m4 = T.m4) (ha : T'.hasAux = T.hasAux)
    (hs : T'.asdq imp i = R (T.asdq imp i)) (hc : T.m3 = 2 → T'.cqxx i = R (T.cqxx i))
    (hic : icoor = 2 ∨ icoor = 3) (ht : ∀ a, a = 2 ∨ a = 3 → ∀ b x, T'.t a b i (R x) = pairMap R (T.t a b i x))
    (htt : ∀ a, a = 2 ∨ a = 3 → ∀ b e, e = 1 ∨ e = 2 → ∀ x, T'.tt a b e i (R x) = pairMap R (T.tt a b e i x)) :
    T'.part icoor dtw imp u s lam i = R (T.part icoor dtw imp u s lam i) := by
  have e1 : ∀ ic, ic = 2 ∨ ic = 3 → T'.inc ic imp i = pairMap R (T.inc ic imp i) := fun ic h => by
    unfold Trans3.inc; rw [hs, ht ic h]
  have e2 : ∀ ic, ic = 2 ∨ ic = 3 → ∀ im, T'.cor ic im i = pairMap R (T.cor ic im i) := fun ic h im => by
    unfold Trans3.cor
    rw [h3, ha]
    by_cases h2 : T.m3 = 2
    · simp only [if_pos h2]
      rw [hc h2, ht ic h]
    · simp only [if_neg h2]
      exact Prod.ext hR.zero.symm hR.zero.symm
  have e3 : ∀ ic, ic = 2 ∨ ic = 3 → T'.second ic imp i = pairMap R (T.second ic imp i) := fun ic h => by
    unfold Trans3.second
    rw [h4, e1 ic h, e2 ic h]
    split
    · split <;> refine Prod.ext ?_ ?_ <;>
      simp only [pairMap, Prod.fst_add, Prod.snd_add, Prod.fst_sub, Prod.snd_sub, Prod.smul_fst, Prod.smul_snd, hR.add, hR.sub, hR.smul]
    · rfl
  have e4 : ∀ it, it = 1 ∨ it = 2 → T'.double icoor imp it i = pairMap R (T.double icoor imp it i) := fun it h => by
    unfold Trans3.double
    rw [e3 _ (by split <;> simp), side_pairMap, htt icoor hic imp it h]
  unfold Trans3.part
  dsimp only
  rw [h3, h4, e1 _ hic, e2 _ hic, e2 _ hic, e4 2 (Or.inr rfl), e4 1 (Or.inl rfl)]
  simp only [side_pairMap]
  split
  · split <;> split <;> (try split) <;> simp only [hR.add, hR.sub, hR.smul, hR.neg, hR.zero]
  · split
    · split <;> simp only [hR.smul, hR.neg, hR.zero]
    · split
      · split <;> simp only [hR.smul, hR.zero]
      · exact hR.zero.symm

section
variable {R : (Fin m → K) → Fin m → K} {RA : A → A} {π : Equiv.Perm (Fin w)} {rp rp' : Riemann K A m w} {rt rt' : Transverse3 K A m}
  {rtt rtt' : Transverse33 K A m}

theorem turn_sent3 (hR : Rigid R) (hM : TurnedImage R RA π rp rp') (hT : TurnedTransverse3 R RA rt rt' rtt rtt') (undef : K) (c c' : Cfg3 K w)
    (hc' : c' = { c with limiter := c'.limiter }) (hl : ∀ p, c'.limiter (π p) = c.limiter p)
    (hst : c.order ≠ 1 ∨ c.trans / 10 ≠ 2) (capa : Option (A → K)) (hc : ∀ κ, capa = some κ → ∀ z, κ (RA z) = κ z)
    (stale stale' : Int → Fin m → K) (aux : Int → Int → Int → A) (q : Int → Int → Int → Fin m → K) (icoor : Nat)
    (hic : icoor = 2 ∨ icoor = 3) (dtw : K) (u : Bool) (s i j k : Int) :
    sent3 undef rp' rt' rtt' c' capa stale' (fun i j k => RA (aux i j k)) (fun i j k => R (q i j k)) icoor dtw u s i j k =
      R (sent3 undef rp rt rtt c capa stale aux q icoor dtw u s i j k) := by
  have e1 : c'.dt = c.dt := by rw [hc']
  have e2 : c'.dx = c.dx := by rw [hc']
  have e3 : c'.order = c.order := by rw [hc']
  have e4 : c'.fwave = c.fwave := by rw [hc']
  have e5 : c'.trans = c.trans := by rw [hc']
  have e6 : c'.hasAux = c.hasAux := by rw [hc']
  have key : ∀ (imp : Nat) (lam : K) (i : Int),
      (rowTrans3 undef rp' rt' rtt' c' capa stale' (fun i j k => RA (aux i j k)) (fun i j k => R (q i j k)) j k).part icoor dtw imp u s lam i =
      R ((rowTrans3 undef rp rt rtt c capa stale aux q j k).part icoor dtw imp u s lam i) := by
    intro imp lam i
    have hI := turn_interface hM (fun i => aux i j k) (fun i => q i j k) i
    refine part_turn hR _ _ icoor dtw imp u s lam i ?_ ?_ ?_ ?_ (fun h3 => ?_) hic (fun a h b x => ?_) (fun a h b e he x => ?_)
    · unfold rowTrans3; dsimp only; rw [e5]
    · unfold rowTrans3; dsimp only; rw [e5]
    · unfold rowTrans3; dsimp only; rw [e6]
    · unfold rowTrans3
      dsimp only
      split
      · exact hI.2.2.1
      · exact hI.2.2.2
    · have ho : c.order ≠ 1 := hst.resolve_right fun hne => splitMethod3_ne hne h3
      unfold rowTrans3
      simp only [e1, e2, e3, e4, if_neg ho]
      rw [turn_ratio c.dt c.dx capa hc fun i => aux i j k]
      exact turn_sliceFlux hR hM undef _ _ _ _ hl _ (fun i => aux i j k) (fun i => q i j k) i
    · exact (hT a h b (q (i - 1) j k) (q i j k) (aux9 aux j k (i - 1)) (aux9 aux j k i) x).1
    · exact (hT a h b (q (i - 1) j k) (q i j k) (aux9 aux j k (i - 1)) (aux9 aux j k i) x).2 e he
  unfold sent3
  dsimp only
  rw [key, key, e1, e2, turn_ratio c.dt c.dx capa hc fun i => aux i j k]
  show (if (splitMethod3 c'.trans).1 ≤ 0 then (0 : Fin m → K) else _) = R (if (splitMethod3 c.trans).1 ≤ 0 then (0 : Fin m → K) else _)
  rw [e5]
  split
  · exact hR.zero.symm
  · exact (hR.add _ _).symm

/-- The increment in other components. -/
theorem turn_increment3 (hR : Rigid R) (hM : TurnedImage R RA π rp rp') (hT : TurnedTransverse3 R RA rt rt' rtt rtt') (undef : K)
    (c c' : Cfg3 K w) (hc' : c' = { c with limiter := c'.limiter }) (hl : ∀ p, c'.limiter (π p) = c.limiter p)
    (hst : c.order ≠ 1 ∨ c.trans / 10 ≠ 2) (capa : Option (A → K)) (hc : ∀ κ, capa = some κ → ∀ z, κ (RA z) = κ z)
    (stale stale' : Int → Fin m → K) (aux : Int → Int → Int → A) (q : Int → Int → Int → Fin m → K) (i j k : Int) :
    xIncrement3 undef rp' rt' rtt' c' capa stale' (fun i j k => RA (aux i j k)) (fun i j k => R (q i j k)) i j k =
      R (xIncrement3 undef rp rt rtt c capa stale aux q i j k) := by
  have e1 : c'.dt = c.dt := by rw [hc']
  have e2 : c'.dy = c.dy := by rw [hc']
  have e3 : c'.dz = c.dz := by rw [hc']
  have hrow := turn_row hR hM undef c.row c'.row (by rw [hc']; rfl) hl capa hc (fun i => aux i j k) (fun i => q i j k) i
  unfold xIncrement3 flux2of3 flux3of3
  simp only [turn_sent3 hR hM hT undef c c' hc' hl hst capa hc stale stale' aux q 2 (Or.inl rfl),
    turn_sent3 hR hM hT undef c c' hc' hl hst capa hc stale stale' aux q 3 (Or.inr rfl)]
  rw [hrow, e1, e2, e3, turn_ratio _ _ capa hc fun j => aux i j k, turn_ratio _ _ capa hc fun k => aux i j k]
  simp only [hR.sub, hR.smul, hR.add]

end

/-! ### The two directions across the sweep exchanged -/

theorem part_exchange (T T' : Trans3 K m) (icoor : Nat) (hic : icoor = 2 ∨ icoor = 3) (dtw : K) (imp : Nat) (u : Bool) (s : Int) (lam : K)
    (i : Int) (h3 : T'.m3 = T.m3) (h4 : T'.m4 = T.m4) (ha : T'.hasAux = T.hasAux) (hs : T'.asdq = T.asdq) (hc : T'.cqxx = T.cqxx)
    (ht : ∀ a, a = 2 ∨ a = 3 → ∀ b, T'.t a b i = T.t (if a = 2 then 3 else 2) b i)
    (htt : ∀ a, a = 2 ∨ a = 3 → ∀ b e, T'.tt a b e i = T.tt (if a = 2 then 3 else 2) b e i) :
    T'.part icoor dtw imp u s lam i = T.part (if icoor = 2 then 3 else 2) dtw imp u s lam i := by
  have e1 : ∀ a, a = 2 ∨ a = 3 → T'.inc a imp i = T.inc (if a = 2 then 3 else 2) imp i := fun a h => by
    unfold Trans3.inc; rw [hs, ht a h]
  have e2 : ∀ a, a = 2 ∨ a = 3 → ∀ im, T'.cor a im i = T.cor (if a = 2 then 3 else 2) im i := fun a h im => by
    unfold Trans3.cor; rw [hc, ht a h, h3, ha]
  have e3 : ∀ a, a = 2 ∨ a = 3 → T'.second a imp i = T.second (if a = 2 then 3 else 2) imp i := fun a h => by
    unfold Trans3.second; rw [h4, e1 a h, e2 a h]
  have e4 : ∀ it, T'.double icoor imp it i = T.double (if icoor = 2 then 3 else 2) imp it i := fun it => by
    unfold Trans3.double
    rw [e3 _ (by split <;> simp), htt icoor hic]
  unfold Trans3.part
  dsimp only
  rw [h3, h4, e1 _ hic, e2 _ hic, e2 _ hic, e4, e4]

/-- The directions `(x, z, y)` in place of `(x, y, z)`. -/
def _root_.PyClaw.Cfg3.exch (c : Cfg3 K w) : Cfg3 K w := { c with my := c.mz, mz := c.my, dy := c.dz, dz := c.dy }

theorem exchange_sent3 (undef : K) (rp : Riemann K A m w) (rt : Transverse3 K A m) (rtt : Transverse33 K A m) (c : Cfg3 K w)
    (capa : Option (A → K)) (stale : Int → Fin m → K) (aux : Int → Int → Int → A) (q : Int → Int → Int → Fin m → K) (icoor : Nat)
    (hic : icoor = 2 ∨ icoor = 3) (dtw : K) (u : Bool) (s i j k : Int) :
    sent3 undef rp (exchanged rt) (exchanged₂ rtt) c.exch capa stale (fun i k j => aux i j k) (fun i k j => q i j k) icoor dtw u s i k j =
      sent3 undef rp rt rtt c capa stale aux q (if icoor = 2 then 3 else 2) dtw u s i j k := by
  have key : ∀ (imp : Nat) (lam : K) (i : Int),
      (rowTrans3 undef rp (exchanged rt) (exchanged₂ rtt) c.exch capa stale (fun i k j => aux i j k) (fun i k j => q i j k) k j).part
        icoor dtw imp u s lam i = (rowTrans3 undef rp rt rtt c capa stale aux q j k).part (if icoor = 2 then 3 else 2) dtw imp u s lam i :=
    fun imp lam i => part_exchange _ _ icoor hic dtw imp u s lam i rfl rfl rfl rfl rfl (fun _ _ _ => rfl) (fun _ _ _ _ => rfl)
  unfold sent3
  dsimp only
  rw [key, key]
  rfl

/-- The increment with the two directions across the sweep exchanged. -/
theorem exchange_increment3 (undef : K) (rp : Riemann K A m w) (rt : Transverse3 K A m) (rtt : Transverse33 K A m) (c : Cfg3 K w)
    (capa : Option (A → K)) (stale : Int → Fin m → K) (aux : Int → Int → Int → A) (q : Int → Int → Int → Fin m → K) (i j k : Int) :
    xIncrement3 undef rp (exchanged rt) (exchanged₂ rtt) c.exch capa stale (fun i k j => aux i j k) (fun i k j => q i j k) i k j =
      xIncrement3 undef rp rt rtt c capa stale aux q i j k := by
  have h2 : ∀ dtw u s i j k, _ := exchange_sent3 undef rp rt rtt c capa stale aux q 2 (Or.inl rfl)
  have h3 : ∀ dtw u s i j k, _ := exchange_sent3 undef rp rt rtt c capa stale aux q 3 (Or.inr rfl)
  simp only [if_true, show ¬ (3 = 2) by decide, if_false] at h2 h3
  have f2 : ∀ i j k, flux2of3 undef rp (exchanged rt) (exchanged₂ rtt) c.exch capa stale (fun i k j => aux i j k) (fun i k j => q i j k) i k j =
      flux3of3 undef rp rt rtt c capa stale aux q i j k := fun i j k => by
    unfold flux2of3 flux3of3
    simp only [h2]
    rfl
  have f3 : ∀ i j k, flux3of3 undef rp (exchanged rt) (exchanged₂ rtt) c.exch capa stale (fun i k j => aux i j k) (fun i k j => q i j k) i k j =
      flux2of3 undef rp rt rtt c capa stale aux q i j k := fun i j k => by
    unfold flux2of3 flux3of3
    simp only [h3]
    rfl
  unfold xIncrement3
  simp only [f2, f3]
  exact sub_right_comm _ _ _

/-! ### The first direction across the sweep reversed -/

/-- The transverse solver with down and up exchanged. -/
def flipTransverse3 (rt : Transverse3 K A m) : Transverse3 K A m := fun icoor imp ql qr al ar a =>
  if icoor = 2 then (-(rt 2 imp ql qr (turnedOver al) (turnedOver ar) a).2, -(rt 2 imp ql qr (turnedOver al) (turnedOver ar) a).1)
  else rt icoor imp ql qr (turnedOver al) (turnedOver ar) a

@[inherit_doc flipTransverse3]
def flipTransverse33 (rtt : Transverse33 K A m) : Transverse33 K A m := fun icoor imp impt ql qr al ar a =>
  if icoor = 2 then
    (-(rtt 2 imp impt ql qr (turnedOver al) (turnedOver ar) a).2, -(rtt 2 imp impt ql qr (turnedOver al) (turnedOver ar) a).1)
  else -(rtt icoor imp (if impt = 2 then 1 else 2) ql qr (turnedOver al) (turnedOver ar) (-a))

/-- Both parts of a splitting exchanged and negated. -/
def pairFlip (p : (Fin m → K) × (Fin m → K)) : (Fin m → K) × (Fin m → K) := (-p.2, -p.1)

theorem side_pairFlip (u : Bool) (p : (Fin m → K) × (Fin m → K)) : side u (pairFlip p) = -side (!u) p := by
  cases u <;> rfl

theorem part_flip (T T' : Trans3 K m) (dtw : K) (imp : Nat) (u : Bool) (s : Int) (lam : K)
    (i : Int) (h3 : T'.m3 = T.m3) (h4 : T'.m4 = T.m4) (ha : T'.hasAux = T.hasAux) (hs : T'.asdq = T.asdq) (hc : T'.cqxx = T.cqxx)
    (ht2 : ∀ b x, T'.t 2 b i x = pairFlip (T.t 2 b i x)) (ht3 : ∀ b x, T'.t 3 b i x = T.t 3 b i x)
    (htt2 : ∀ b e x, T'.tt 2 b e i x = pairFlip (T.tt 2 b e i x)) (htt3 : ∀ b e x, T'.tt 3 b e i x = -T.tt 3 b (if e = 2 then 1 else 2) i (-x)) :
    T'.part 2 dtw imp u s lam i = -T.part 2 dtw imp (!u) s lam i ∧ T'.part 3 dtw imp u s lam i = T.part 3 dtw imp u (-s) lam i := by
  have i2 : T'.inc 2 imp i = pairFlip (T.inc 2 imp i) := by unfold Trans3.inc; rw [hs, ht2]
  have i3 : T'.inc 3 imp i = T.inc 3 imp i := by unfold Trans3.inc; rw [hs, ht3]
  have c2 : ∀ im, T'.cor 2 im i = pairFlip (T.cor 2 im i) := fun im => by
    unfold Trans3.cor
    rw [hc, ht2, h3, ha]
    split
    · rfl
    · simp [pairFlip, Prod.ext_iff]
  have c3 : ∀ im, T'.cor 3 im i = T.cor 3 im i := fun im => by unfold Trans3.cor; rw [hc, ht3, h3, ha]
  have s2 : T'.second 2 imp i = pairFlip (T.second 2 imp i) := by
    unfold Trans3.second
    rw [h4, i2, c2]
    split
    · split <;> refine Prod.ext ?_ ?_ <;>
      simp only [pairFlip, Prod.fst_add, Prod.snd_add, Prod.fst_sub, Prod.snd_sub, Prod.smul_fst, Prod.smul_snd] <;> module
    · rfl
  have s3 : T'.second 3 imp i = T.second 3 imp i := by unfold Trans3.second; rw [h4, i3, c3]
  have d2 : ∀ it, T'.double 2 imp it i = pairFlip (T.double 2 imp it i) := fun it => by
    unfold Trans3.double
    simp only [if_true]
    rw [s3, htt2]
  have d32 : T'.double 3 imp 2 i = -T.double 3 imp 1 i := by
    unfold Trans3.double
    simp only [show ¬ (3 = 2) by decide, if_false]
    rw [s2, htt3, side_pairFlip, neg_neg]
    simp
  have d31 : T'.double 3 imp 1 i = -T.double 3 imp 2 i := by
    unfold Trans3.double
    simp only [show ¬ (3 = 2) by decide, if_false]
    rw [s2, htt3, side_pairFlip, neg_neg]
    simp
  have sn : ∀ (u : Bool) (p : (Fin m → K) × (Fin m → K)), side u (-p) = -side u p := fun u p => by cases u <;> rfl
  constructor
  · unfold Trans3.part
    dsimp only
    rw [h3, h4, i2, c2, c2, d2, d2]
    simp only [side_pairFlip]
    split
    · split <;> split <;> (try split) <;> module
    · split
      · split <;> module
      · split
        · split <;> module
        · module
  · unfold Trans3.part
    dsimp only
    rw [h3, h4, i3, c3, c3, d32, d31]
    simp only [sn]
    by_cases h0 : s = 0
    · subst h0
      simp only [neg_zero, if_true]
      split <;> split <;> (try split) <;> module
    · have h0' : -s ≠ 0 := fun h => h0 (neg_eq_zero.mp h)
      rw [if_neg h0, if_neg h0']
      by_cases h1 : s = 1
      · subst h1
        simp only [if_true, show ¬ ((-1 : Int) = 1) by decide, if_false]
        split <;> module
      · rw [if_neg h1]
        by_cases hm : s = -1
        · subst hm
          simp only [if_true, neg_neg]
          split <;> module
        · rw [if_neg hm, if_neg (fun h => hm (by omega)), if_neg (fun h => h1 (by omega))]

theorem aux9_flip (aux : Int → Int → Int → A) (N j k i : Int) : turnedOver (aux9 (fun i j k => aux i (N - j) k) j k i) = aux9 aux (N - j) k i := by
  funext a b
  unfold turnedOver aux9
  have : (a.rev.val : Int) = 2 - a.val := by rw [Fin.val_rev]; omega
  rw [this]
  ring_nf

theorem flip_sent3 (undef : K) (rp : Riemann K A m w) (rt : Transverse3 K A m) (rtt : Transverse33 K A m) (c : Cfg3 K w)
    (capa : Option (A → K)) (stale : Int → Fin m → K) (aux : Int → Int → Int → A) (q : Int → Int → Int → Fin m → K) (N : Int)
    (dtw : K) (u : Bool) (s i j k : Int) :
    sent3 undef rp (flipTransverse3 rt) (flipTransverse33 rtt) c capa stale (fun i j k => aux i (N - j) k) (fun i j k => q i (N - j) k) 2 dtw u s
        i j k = -sent3 undef rp rt rtt c capa stale aux q 2 dtw (!u) s i (N - j) k ∧
    sent3 undef rp (flipTransverse3 rt) (flipTransverse33 rtt) c capa stale (fun i j k => aux i (N - j) k) (fun i j k => q i (N - j) k) 3 dtw u s
        i j k = sent3 undef rp rt rtt c capa stale aux q 3 dtw u (-s) i (N - j) k := by
  have key : ∀ (imp : Nat) (lam : K) (i : Int),
      (rowTrans3 undef rp (flipTransverse3 rt) (flipTransverse33 rtt) c capa stale (fun i j k => aux i (N - j) k)
        (fun i j k => q i (N - j) k) j k).part 2 dtw imp u s lam i =
        -(rowTrans3 undef rp rt rtt c capa stale aux q (N - j) k).part 2 dtw imp (!u) s lam i ∧
      (rowTrans3 undef rp (flipTransverse3 rt) (flipTransverse33 rtt) c capa stale (fun i j k => aux i (N - j) k)
        (fun i j k => q i (N - j) k) j k).part 3 dtw imp u s lam i =
        (rowTrans3 undef rp rt rtt c capa stale aux q (N - j) k).part 3 dtw imp u (-s) lam i := by
    intro imp lam i
    refine part_flip _ _ dtw imp u s lam i rfl rfl rfl rfl rfl (fun b x => ?_) (fun b x => ?_) (fun b e x => ?_) (fun b e x => ?_) <;>
    · unfold rowTrans3 flipTransverse3 flipTransverse33
      simp only [aux9_flip, if_true, show ¬ (3 = 2) by decide, if_false]
      try rfl
  unfold sent3
  dsimp only
  constructor
  · rw [(key _ _ _).1, (key _ _ _).1]
    show (if (splitMethod3 c.trans).1 ≤ 0 then (0 : Fin m → K) else _) = -(if (splitMethod3 c.trans).1 ≤ 0 then (0 : Fin m → K) else _)
    split
    · exact neg_zero.symm
    · exact (neg_add _ _).symm
  · rw [(key _ _ _).2, (key _ _ _).2]
    rfl

theorem flip_increment3 (undef : K) (rp : Riemann K A m w) (rt : Transverse3 K A m) (rtt : Transverse33 K A m) (c : Cfg3 K w)
    (capa : Option (A → K)) (stale : Int → Fin m → K) (aux : Int → Int → Int → A) (q : Int → Int → Int → Fin m → K) (N i j k : Int) :
    xIncrement3 undef rp (flipTransverse3 rt) (flipTransverse33 rtt) c capa stale (fun i j k => aux i (N - j) k) (fun i j k => q i (N - j) k)
      i j k = xIncrement3 undef rp rt rtt c capa stale aux q i (N - j) k := by
  have h2 := fun dtw u s i j k => (flip_sent3 undef rp rt rtt c capa stale aux q N dtw u s i j k).1
  have h3 := fun dtw u s i j k => (flip_sent3 undef rp rt rtt c capa stale aux q N dtw u s i j k).2
  have f2 : ∀ i j k, flux2of3 undef rp (flipTransverse3 rt) (flipTransverse33 rtt) c capa stale (fun i j k => aux i (N - j) k)
      (fun i j k => q i (N - j) k) i j k = -flux2of3 undef rp rt rtt c capa stale aux q i (N - j + 1) k := fun i j k => by
    unfold flux2of3
    simp only [h2, Bool.not_true, Bool.not_false]
    rw [show N - (j - 1) = N - j + 1 by ring, show N - j + 1 - 1 = N - j by ring]
    module
  have f3 : ∀ i j k, flux3of3 undef rp (flipTransverse3 rt) (flipTransverse33 rtt) c capa stale (fun i j k => aux i (N - j) k)
      (fun i j k => q i (N - j) k) i j k = flux3of3 undef rp rt rtt c capa stale aux q i (N - j) k := fun i j k => by
    unfold flux3of3
    simp only [h3, neg_zero, neg_neg]
    rw [show N - (j - 1) = N - j + 1 by ring, show N - (j + 1) = N - j - 1 by ring]
    module
  unfold xIncrement3
  simp only [f2, f3]
  rw [show N - (j + 1) + 1 = N - j by ring]
  have e : localRatio c.dt c.dy capa (fun j => aux i (N - j) k) j = localRatio c.dt c.dy capa (fun j => aux i j k) (N - j) := rfl
  rw [e]
  module

theorem sideways_turned3 {σ : Fin m → K} (hσ : IsSign σ) {RA : A → A} {rt rt' : Transverse3 K A m} {rtt rtt' : Transverse33 K A m}
    (h : SidewaysTransverse3 σ RA rt rt' rtt rtt') (icoor : Nat) (hic : icoor = 2 ∨ icoor = 3) (imp : Nat) (ql qr : Fin m → K)
    (al ar : Fin 3 → Fin 3 → A) (a : Fin m → K) :
    rt' icoor imp (signed σ ql) (signed σ qr) (onNine RA al) (onNine RA ar) (signed σ a) =
      (signed σ (flipTransverse3 rt icoor imp ql qr al ar a).1, signed σ (flipTransverse3 rt icoor imp ql qr al ar a).2) ∧
    ∀ impt, impt = 1 ∨ impt = 2 → rtt' icoor imp impt (signed σ ql) (signed σ qr) (onNine RA al) (onNine RA ar) (signed σ a) =
      (signed σ (flipTransverse33 rtt icoor imp impt ql qr al ar a).1, signed σ (flipTransverse33 rtt icoor imp impt ql qr al ar a).2) := by
  have hR := signed_rigid (K := K) hσ
  have ov : ∀ z : Fin 3 → Fin 3 → A, turnedOver (onNine RA (turnedOver z)) = onNine RA z := fun z => by
    funext a b; simp only [turnedOver, onNine, Fin.rev_rev]
  have h' := h imp ql qr (turnedOver al) (turnedOver ar) a
  have hn := h imp ql qr (turnedOver al) (turnedOver ar) (-a)
  rw [ov, ov] at h' hn
  unfold flipTransverse3 flipTransverse33
  rcases hic with rfl | rfl
  · simp only [if_true]
    refine ⟨?_, fun impt hi => ?_⟩
    · rw [h'.1, hR.neg, hR.neg]
    · rw [h'.2.2.1 impt hi, hR.neg, hR.neg]
  · simp only [show ¬ (3 = 2) by decide, if_false]
    refine ⟨h'.2.1, fun impt hi => ?_⟩
    have := hn.2.2.2 (if impt = 2 then 1 else 2) impt (by rcases hi with rfl | rfl <;> simp)
    rw [hR.neg, neg_neg] at this
    rw [this]
    simp only [Prod.fst_neg, Prod.snd_neg, hR.neg]

/-- The increment in a mirror that reverses the first direction across the sweep. -/
theorem sideways_increment3 {σ : Fin m → K} (hσ : IsSign σ) {RA : A → A} {π : Equiv.Perm (Fin w)} {rp rp' : Riemann K A m w}
    {rt rt' : Transverse3 K A m} {rtt rtt' : Transverse33 K A m} (hM : TurnedImage (signed σ) RA π rp rp')
    (hT : SidewaysTransverse3 σ RA rt rt' rtt rtt') (undef : K)
    (c c' : Cfg3 K w) (hc' : c' = { c with limiter := c'.limiter }) (hl : ∀ p, c'.limiter (π p) = c.limiter p)
    (hst : c.order ≠ 1 ∨ c.trans / 10 ≠ 2) (capa : Option (A → K)) (hc : ∀ κ, capa = some κ → ∀ z, κ (RA z) = κ z)
    (stale stale' : Int → Fin m → K) (aux : Int → Int → Int → A) (q : Int → Int → Int → Fin m → K) (N i j k : Int) :
    xIncrement3 undef rp' rt' rtt' c' capa stale' (fun i j k => RA (aux i (N - j) k)) (fun i j k => signed σ (q i (N - j) k)) i j k =
      signed σ (xIncrement3 undef rp rt rtt c capa stale aux q i (N - j) k) := by
  rw [turn_increment3 (signed_rigid hσ) hM (fun icoor hic imp ql qr al ar a => sideways_turned3 hσ hT icoor hic imp ql qr al ar a) undef c c' hc' hl
    hst capa hc stale stale' (fun i j k => aux i (N - j) k) (fun i j k => q i (N - j) k) i j k, flip_increment3]

/-- The increment in a mirror that reverses the second direction across the sweep. -/
theorem sideways_increment3' {σ : Fin m → K} (hσ : IsSign σ) {RA : A → A} {π : Equiv.Perm (Fin w)} {rp rp' : Riemann K A m w}
    {rt rt' : Transverse3 K A m} {rtt rtt' : Transverse33 K A m} (hM : TurnedImage (signed σ) RA π rp rp')
    (hT : SidewaysTransverse3 σ RA (exchanged rt) (exchanged rt') (exchanged₂ rtt) (exchanged₂ rtt')) (undef : K)
    (c c' : Cfg3 K w) (hc' : c' = { c with limiter := c'.limiter }) (hl : ∀ p, c'.limiter (π p) = c.limiter p)
    (hst : c.order ≠ 1 ∨ c.trans / 10 ≠ 2) (capa : Option (A → K)) (hc : ∀ κ, capa = some κ → ∀ z, κ (RA z) = κ z)
    (stale stale' : Int → Fin m → K) (aux : Int → Int → Int → A) (q : Int → Int → Int → Fin m → K) (N i j k : Int) :
    xIncrement3 undef rp' rt' rtt' c' capa stale' (fun i j k => RA (aux i j (N - k))) (fun i j k => signed σ (q i j (N - k))) i j k =
      signed σ (xIncrement3 undef rp rt rtt c capa stale aux q i j (N - k)) := by
  rw [← exchange_increment3 undef rp' rt' rtt' c' capa stale' _ _ i j k, ← exchange_increment3 undef rp rt rtt c capa stale aux q i j (N - k)]
  exact sideways_increment3 hσ hM hT undef c.exch c'.exch (by rw [hc']; rfl) hl hst capa hc stale stale' (fun i k j => aux i j k)
    (fun i k j => q i j k) N i k j

/-! ### Left and right exchanged -/

theorem part_mirror {σ : Fin m → K} (hσ : IsSign σ) (T T' : Trans3 K m) (icoor : Nat) (dtw : K) (imp imp' : Nat)
    (hi : (imp = 1 ∧ imp' = 2) ∨ (imp = 2 ∧ imp' = 1)) (u : Bool) (s : Int)
    (lam : K) (i j : Int) (h3 : T'.m3 = T.m3) (h4 : T'.m4 = T.m4) (ha : T'.hasAux = T.hasAux)
    (hs : T'.asdq imp' i = signed σ (T.asdq imp j)) (hc : T.m3 = 2 → T'.cqxx i = -signed σ (T.cqxx j))
    (hic : icoor = 2 ∨ icoor = 3) (ht : ∀ a, a = 2 ∨ a = 3 → ∀ x, T'.t a imp' i (signed σ x) = pairMap (signed σ) (T.t a imp j x))
    (htn : ∀ a, a = 2 ∨ a = 3 → ∀ x b b', (b = imp ∧ b' = imp') ∨ (b = 0 ∧ b' = 0) → T'.t a b' i (-signed σ x) = -pairMap (signed σ) (T.t a b j x))
    (htt : ∀ a, a = 2 ∨ a = 3 → ∀ e, e = 1 ∨ e = 2 → ∀ x, T'.tt a imp' e i (signed σ x) = pairMap (signed σ) (T.tt a imp e j x)) :
    T'.part icoor dtw imp' u s lam i = signed σ (T.part icoor dtw imp u s lam j) := by
  have hR := signed_rigid (K := K) hσ
  have sn : ∀ (u : Bool) (p : (Fin m → K) × (Fin m → K)), side u (-p) = -side u p := fun u p => by cases u <;> rfl
  have e1 : ∀ ic, ic = 2 ∨ ic = 3 → T'.inc ic imp' i = pairMap (signed σ) (T.inc ic imp j) := fun ic h => by
    unfold Trans3.inc; rw [hs, ht ic h]
  have e2 : ∀ ic, ic = 2 ∨ ic = 3 → T'.cor ic imp' i = -pairMap (signed σ) (T.cor ic imp j) := fun ic h => by
    unfold Trans3.cor
    rw [h3, ha]
    by_cases h2 : T.m3 = 2
    · simp only [if_pos h2]
      rw [hc h2]
      split
      · exact htn _ h _ _ _ (Or.inl ⟨rfl, rfl⟩)
      · exact htn _ h _ _ _ (Or.inr ⟨rfl, rfl⟩)
    · simp only [if_neg h2]
      refine Prod.ext ?_ ?_ <;> simp [pairMap, hR.zero]
  have e3 : ∀ ic, ic = 2 ∨ ic = 3 → T'.second ic imp' i = pairMap (signed σ) (T.second ic imp j) := fun ic h => by
    unfold Trans3.second
    rw [h4, e1 ic h, e2 ic h]
    split
    · rcases hi with ⟨rfl, rfl⟩ | ⟨rfl, rfl⟩ <;> simp only [if_true, show ¬ (1 = 2) by decide, if_false] <;> refine Prod.ext ?_ ?_ <;>
      simp only [pairMap, Prod.fst_add, Prod.snd_add, Prod.fst_sub, Prod.snd_sub, Prod.fst_neg, Prod.snd_neg, Prod.smul_fst, Prod.smul_snd,
        hR.add, hR.sub, hR.smul] <;> module
    · rfl
  have e4 : ∀ it, it = 1 ∨ it = 2 → T'.double icoor imp' it i = pairMap (signed σ) (T.double icoor imp it j) := fun it h => by
    unfold Trans3.double
    rw [e3 _ (by split <;> simp), side_pairMap, htt icoor hic it h]
  have hk : (2 ≤ T.m3 → (if imp' = 2 then lam • side u (T'.cor icoor 2 i) else -(lam • side u (T'.cor icoor 1 i))) =
      signed σ (if imp = 2 then lam • side u (T.cor icoor 2 j) else -(lam • side u (T.cor icoor 1 j)))) := fun _ => by
    rcases hi with ⟨rfl, rfl⟩ | ⟨rfl, rfl⟩ <;> simp only [if_true, show ¬ (1 = 2) by decide, if_false, e2 _ hic, sn, side_pairMap, hR.neg, hR.smul] <;>
      module
  have hk' : (if 2 ≤ T'.m3 then (if imp' = 2 then lam • side u (T'.cor icoor 2 i) else -(lam • side u (T'.cor icoor 1 i))) else 0) =
      signed σ (if 2 ≤ T.m3 then (if imp = 2 then lam • side u (T.cor icoor 2 j) else -(lam • side u (T.cor icoor 1 j))) else 0) := by
    rw [h3]
    split
    · next h => exact hk h
    · exact hR.zero.symm
  unfold Trans3.part
  dsimp only
  rw [hk', h4, e1 _ hic, e4 2 (Or.inr rfl), e4 1 (Or.inl rfl)]
  simp only [side_pairMap]
  split
  · split <;> simp only [hR.add, hR.sub, hR.smul, hR.neg, hR.zero]
  · split
    · split <;> simp only [hR.smul, hR.neg, hR.zero]
    · split
      · split <;> simp only [hR.smul, hR.zero]
      · exact hR.zero.symm

section mirror
variable {σ : Fin m → K} {RA : A → A} {π : Equiv.Perm (Fin w)} {rp rp' : Riemann K A m w} {rt rt' : Transverse3 K A m}
  {rtt rtt' : Transverse33 K A m}

theorem mirror_sent3 (hσ : IsSign σ) (undef : K) (c c' : Cfg3 K w) (hM : MirrorImage σ RA π c.fwave rp rp')
    (hT : MirrorTransverse3 σ RA rt rt' rtt rtt') (hc' : c' = { c with limiter := c'.limiter }) (hl : ∀ p, c'.limiter (π p) = c.limiter p)
    (hf : c.fwave = true → c.order ≠ 1 → ∀ ql qr al ar p, (rp ql qr al ar).s p ≠ 0)
    (hst : c.order ≠ 1 ∨ c.trans / 10 ≠ 2) (capa : Option (A → K)) (hc : ∀ κ, capa = some κ → ∀ z, κ (RA z) = κ z)
    (stale stale' : Int → Fin m → K) (aux : Int → Int → Int → A) (q : Int → Int → Int → Fin m → K) (N : Int) (icoor : Nat)
    (hic : icoor = 2 ∨ icoor = 3) (dtw : K) (u : Bool) (s i j k : Int) :
    sent3 undef rp' rt' rtt' c' capa stale' (fun i j k => RA (aux (N - i) j k)) (fun i j k => signed σ (q (N - i) j k)) icoor dtw u s i j k =
      signed σ (sent3 undef rp rt rtt c capa stale aux q icoor dtw u s (N - i) j k) := by
  have hR := signed_rigid (K := K) hσ
  have e1 : c'.dt = c.dt := by rw [hc']
  have e2 : c'.dx = c.dx := by rw [hc']
  have e3 : c'.order = c.order := by rw [hc']
  have e4 : c'.fwave = c.fwave := by rw [hc']
  have e5 : c'.trans = c.trans := by rw [hc']
  have e6 : c'.hasAux = c.hasAux := by rw [hc']
  have key : ∀ (imp imp' : Nat) (_ : (imp = 1 ∧ imp' = 2) ∨ (imp = 2 ∧ imp' = 1)) (lam : K) (i : Int),
      (rowTrans3 undef rp' rt' rtt' c' capa stale' (fun i j k => RA (aux (N - i) j k)) (fun i j k => signed σ (q (N - i) j k)) j k).part
        icoor dtw imp' u s lam i = signed σ ((rowTrans3 undef rp rt rtt c capa stale aux q j k).part icoor dtw imp u s lam (N + 1 - i)) := by
    intro imp imp' hi lam i
    have hI := mirror_interface hM N (fun i => aux i j k) (fun i => q i j k) i
    have hV : ∀ b b', (b = 1 ∧ b' = 2) ∨ (b = 2 ∧ b' = 1) ∨ (b = 0 ∧ b' = 0) → ∀ a, a = 2 ∨ a = 3 → ∀ x, _ := fun b b' h a h' x =>
      hT b b' h a h' (q (N + 1 - i - 1) j k) (q (N + 1 - i) j k) (aux9 aux j k (N + 1 - i - 1)) (aux9 aux j k (N + 1 - i)) x
    have hW : ∀ b b', (b = imp ∧ b' = imp') ∨ (b = 0 ∧ b' = 0) → (b = 1 ∧ b' = 2) ∨ (b = 2 ∧ b' = 1) ∨ (b = 0 ∧ b' = 0) := by
      clear hV hI; omega
    have n1 : N - i = N + 1 - i - 1 := by ring
    have n2 : N - (i - 1) = N + 1 - i := by ring
    have x1 : aux9 (fun i j k => RA (aux (N - i) j k)) j k i = onNine RA (aux9 aux j k (N + 1 - i - 1)) := by
      rw [← n1]; rfl
    have x2 : aux9 (fun i j k => RA (aux (N - i) j k)) j k (i - 1) = onNine RA (aux9 aux j k (N + 1 - i)) := by
      rw [← n2]; rfl
    refine part_mirror hσ _ _ icoor dtw imp imp' hi u s lam i (N + 1 - i) ?_ ?_ ?_ ?_ (fun h3 => ?_) hic (fun a h x => ?_)
      (fun a h x b b' hb => ?_) (fun a h e he x => ?_)
    · unfold rowTrans3; dsimp only; rw [e5]
    · unfold rowTrans3; dsimp only; rw [e5]
    · unfold rowTrans3; dsimp only; rw [e6]
    · unfold rowTrans3
      dsimp only
      rcases hi with ⟨rfl, rfl⟩ | ⟨rfl, rfl⟩
      · exact hI.2.2.2
      · exact hI.2.2.1
    · have ho : c.order ≠ 1 := hst.resolve_right fun hne => splitMethod3_ne hne h3
      unfold rowTrans3
      simp only [e1, e2, e3, e4, if_neg ho]
      exact mirror_sliceFlux hσ hM undef c.order c.limiter c'.limiter hl c.dt c.dx capa hc N (fun i => aux i j k) (fun i => q i j k) i hf
    · unfold rowTrans3
      dsimp only
      rw [x1, x2, n1, n2]
      exact (hV imp imp' (hi.imp_right Or.inl) a h x).1
    · unfold rowTrans3
      dsimp only
      rw [x1, x2, n1, n2]
      exact (hV b b' (hW b b' hb) a h x).2.1
    · unfold rowTrans3
      dsimp only
      rw [x1, x2, n1, n2]
      exact (hV imp imp' (hi.imp_right Or.inl) a h x).2.2 e he
  have hr := mirror_ratio c.dt c.dx capa hc N (fun i => aux i j k) i
  unfold sent3
  dsimp only
  rw [e1, e2, hr, key 1 2 (Or.inl ⟨rfl, rfl⟩), key 2 1 (Or.inr ⟨rfl, rfl⟩), show N + 1 - (i + 1) = N - i by ring,
    show N + 1 - i = N - i + 1 by ring]
  show (if (splitMethod3 c'.trans).1 ≤ 0 then (0 : Fin m → K) else _) = signed σ (if (splitMethod3 c.trans).1 ≤ 0 then (0 : Fin m → K) else _)
  rw [e5]
  split
  · exact hR.zero.symm
  · rw [hR.add, add_comm]

/-- The increment in a mirror that exchanges left and right. -/
theorem mirror_increment3 (hσ : IsSign σ) (undef : K) (c c' : Cfg3 K w) (hM : MirrorImage σ RA π c.fwave rp rp')
    (hT : MirrorTransverse3 σ RA rt rt' rtt rtt') (hc' : c' = { c with limiter := c'.limiter }) (hl : ∀ p, c'.limiter (π p) = c.limiter p)
    (hf : c.fwave = true → c.order ≠ 1 → ∀ ql qr al ar p, (rp ql qr al ar).s p ≠ 0)
    (hst : c.order ≠ 1 ∨ c.trans / 10 ≠ 2) (capa : Option (A → K)) (hc : ∀ κ, capa = some κ → ∀ z, κ (RA z) = κ z)
    (stale stale' : Int → Fin m → K) (aux : Int → Int → Int → A) (q : Int → Int → Int → Fin m → K) (N i j k : Int) :
    xIncrement3 undef rp' rt' rtt' c' capa stale' (fun i j k => RA (aux (N - i) j k)) (fun i j k => signed σ (q (N - i) j k)) i j k =
      signed σ (xIncrement3 undef rp rt rtt c capa stale aux q (N - i) j k) := by
  have hR := signed_rigid (K := K) hσ
  have e1 : c'.dt = c.dt := by rw [hc']
  have e2 : c'.dy = c.dy := by rw [hc']
  have e3 : c'.dz = c.dz := by rw [hc']
  have hrow := mirror_row hσ undef c.row c'.row hM (by rw [hc']; rfl) hl hf capa hc (fun i => aux i j k) (fun i => q i j k) N i
  unfold xIncrement3 flux2of3 flux3of3
  simp only [mirror_sent3 hσ undef c c' hM hT hc' hl hf hst capa hc stale stale' aux q N 2 (Or.inl rfl),
    mirror_sent3 hσ undef c c' hM hT hc' hl hf hst capa hc stale stale' aux q N 3 (Or.inr rfl)]
  rw [hrow, e1, e2, e3, turn_ratio _ _ capa hc fun j => aux (N - i) j k, turn_ratio _ _ capa hc fun k => aux (N - i) j k]
  simp only [hR.sub, hR.smul, hR.add]

end mirror

end PyClaw
