import Verif.Props.Split3

/-!
C72 (unsplit three-dimensional method), with the three-dimensional parts of C35, C37 and C40 for it.
-/
set_option linter.unusedSectionVars false

namespace PyClaw
open Spec

variable {K A : Type*} [Field K] [LinearOrder K] [IsStrictOrderedRing K] {m w : Nat}

/-! ### The sweeps in closed form -/

/-- The data of the transverse part for the row `(j,k)`. -/
def Spec.rowTrans3 (undef : K) (rp : Riemann K A m w) (rt : Transverse3 K A m) (rtt : Transverse33 K A m)
    (c : Cfg3 K w) (capa : Option (A → K)) (stale : Int → Fin m → K) (aux : Int → Int → Int → A)
    (q : Int → Int → Int → Fin m → K) (j k : Int) : Trans3 K m :=
  let lam := localRatio c.dt c.dx capa fun i => aux i j k
  let d := interfaces rp (fun i => aux i j k) (fun i => q i j k)
  ⟨(splitMethod3 c.trans).1, (splitMethod3 c.trans).2, c.hasAux,
    fun imp i => if imp = 1 then (d i).amdq else (d i).apdq,
    fun i => if c.order = 1 then stale i else sliceFlux undef c.order c.fwave c.limiter lam d i,
    fun icoor imp i a => rt icoor imp (q (i - 1) j k) (q i j k) (aux9 aux j k (i - 1)) (aux9 aux j k i) a,
    fun icoor imp impt i a =>
      rtt icoor imp impt (q (i - 1) j k) (q i j k) (aux9 aux j k (i - 1)) (aux9 aux j k i) a⟩

/-- What the sweep along row `(j,k)` sends from cell `(i,j,k)` up (`u`) or down in direction 2 (`icoor = 2`) into the
slice at offset `s` in direction 3, or in direction 3 (`icoor = 3`) into the slice at offset `s` in direction 2. -/
def Spec.sent3 (undef : K) (rp : Riemann K A m w) (rt : Transverse3 K A m) (rtt : Transverse33 K A m)
    (c : Cfg3 K w) (capa : Option (A → K)) (stale : Int → Fin m → K) (aux : Int → Int → Int → A)
    (q : Int → Int → Int → Fin m → K) (icoor : Nat) (dtw : K) (u : Bool) (s : Int) (i j k : Int) : Fin m → K :=
  let T := rowTrans3 undef rp rt rtt c capa stale aux q j k
  let lam := localRatio c.dt c.dx capa (fun i => aux i j k) i
  if T.m3 ≤ 0 then 0 else T.part icoor dtw 2 u s lam i + T.part icoor dtw 1 u s lam (i + 1)

theorem part_congr (T T' : Trans3 K m) (icoor : Nat) (dtw : K) (imp : Nat) (u : Bool) (s : Int)
    (lam : K) (i i' : Int) (h3 : T.m3 = T'.m3) (h4 : T.m4 = T'.m4) (ha : T.hasAux = T'.hasAux)
    (hs : T.asdq imp i = T'.asdq imp i') (hc : T.cqxx i = T'.cqxx i') (ht : ∀ a b, T.t a b i = T'.t a b i')
    (htt : ∀ a b e, T.tt a b e i = T'.tt a b e i') :
    T.part icoor dtw imp u s lam i = T'.part icoor dtw imp u s lam i' := by
  have e1 : ∀ ic, T.inc ic imp i = T'.inc ic imp i' := fun ic => by
    unfold Trans3.inc; rw [hs, ht]
  have e2 : ∀ ic im, T.cor ic im i = T'.cor ic im i' := fun ic im => by
    unfold Trans3.cor; rw [hc, ht, h3, ha]
  have e3 : ∀ ic, T.second ic imp i = T'.second ic imp i' := fun ic => by
    unfold Trans3.second; rw [h4, e1, e2]
  have e4 : ∀ ic it, T.double ic imp it i = T'.double ic imp it i' := fun ic it => by
    unfold Trans3.double; rw [e3, htt]
  unfold Trans3.part
  dsimp only
  rw [h3, h4, e1, e2, e2, e4, e4]

theorem unsplitSlice3_add (undef : K) (rp : Riemann K A m w) (rt : Transverse3 K A m) (rtt : Transverse33 K A m)
    (c : Cfg3 K w) (hg : 1 ≤ c.g) (capa : Option (A → K)) (stale : Int → Fin m → K) (aux : Int → Int → Int → A)
    (q : Int → Int → Int → Fin m → K) (u : Bool) (s i j k : Int) (h1 : 1 ≤ i) (h2 : i ≤ c.mx) :
    (unsplitSlice3 undef rp rt rtt c capa stale aux q j k).gadd u s i =
      sent3 undef rp rt rtt c capa stale aux q 2 (c.dt / c.dz) u s i j k ∧
    (unsplitSlice3 undef rp rt rtt c capa stale aux q j k).hadd u s i =
      sent3 undef rp rt rtt c capa stale aux q 3 (c.dt / c.dy) u s i j k := by
  have hc : ∀ n : Int, 1 ≤ n → n ≤ c.mx + 1 → cqxx3 undef c.mx c.g c.order c.fwave c.limiter
      (localRatio c.dt c.dx capa fun i => aux i j k) (interfaces rp (fun i => aux i j k) (fun i => q i j k)) stale n =
      (rowTrans3 undef rp rt rtt c capa stale aux q j k).cqxx n := by
    intro n n1 n2
    unfold rowTrans3
    dsimp only
    by_cases ho : c.order = 1
    · rw [if_pos ho]; simp only [cqxx3, if_pos ho]
    · rw [if_neg ho]
      exact cqxx3_eq undef c.mx c.g hg c.order ho c.fwave c.limiter _ _ stale n n1 n2
  have key : ∀ (icoor : Nat) (dtw : K),
      (Trans3.mk (splitMethod3 c.trans).1 (splitMethod3 c.trans).2 c.hasAux
        (fun imp i => if imp = 1 then (interfaces rp (fun i => aux i j k) (fun i => q i j k) i).amdq
          else (interfaces rp (fun i => aux i j k) (fun i => q i j k) i).apdq)
        (cqxx3 undef c.mx c.g c.order c.fwave c.limiter (localRatio c.dt c.dx capa fun i => aux i j k)
          (interfaces rp (fun i => aux i j k) (fun i => q i j k)) stale)
        (fun icoor imp i a => rt icoor imp (q (i - 1) j k) (q i j k) (aux9 aux j k (i - 1)) (aux9 aux j k i) a)
        (fun icoor imp impt i a =>
          rtt icoor imp impt (q (i - 1) j k) (q i j k) (aux9 aux j k (i - 1)) (aux9 aux j k i) a)).add c.mx icoor dtw
        (localRatio c.dt c.dx capa fun i => aux i j k) u s i =
      sent3 undef rp rt rtt c capa stale aux q icoor dtw u s i j k := by
    intro icoor dtw
    unfold Trans3.add sent3
    dsimp only
    rw [if_pos (show 1 ≤ i ∧ i ≤ (c.mx : Int) + 1 by omega),
      if_pos (show 1 ≤ i + 1 ∧ i + 1 ≤ (c.mx : Int) + 1 by omega)]
    refine if_congr Iff.rfl rfl ?_
    congr 1
    · exact part_congr _ _ icoor dtw 2 u s _ i i rfl rfl rfl rfl (hc i h1 (by omega)) (fun _ _ => rfl)
        (fun _ _ _ => rfl)
    · exact part_congr _ _ icoor dtw 1 u s _ (i + 1) (i + 1) rfl rfl rfl rfl
        (hc (i + 1) (by omega) (by omega)) (fun _ _ => rfl) (fun _ _ _ => rfl)
  have k2 := key 2 (c.dt / c.dz)
  have k3 := key 3 (c.dt / c.dy)
  unfold unsplitSlice3 flux3Slice
  rw [sliceRatio_eq]
  exact ⟨k2, k3⟩

/-- The transverse correction flux in direction 2 between `(i,j-1,k)` and `(i,j,k)`: what comes up from below and what
goes down from above, sent by the rows `k`, `k-1` and `k+1`. -/
def Spec.flux2of3 (undef : K) (rp : Riemann K A m w) (rt : Transverse3 K A m) (rtt : Transverse33 K A m)
    (c : Cfg3 K w) (capa : Option (A → K)) (stale : Int → Fin m → K) (aux : Int → Int → Int → A)
    (q : Int → Int → Int → Fin m → K) (i j k : Int) : Fin m → K :=
  let g := fun u s j k => sent3 undef rp rt rtt c capa stale aux q 2 (c.dt / c.dz) u s i j k
  (g true 0 (j - 1) k + g false 0 j k) + (g true (-1) (j - 1) (k + 1) + g false (-1) j (k + 1)) +
    (g true 1 (j - 1) (k - 1) + g false 1 j (k - 1))

/-- The transverse correction flux in direction 3 between `(i,j,k-1)` and `(i,j,k)`. -/
def Spec.flux3of3 (undef : K) (rp : Riemann K A m w) (rt : Transverse3 K A m) (rtt : Transverse33 K A m)
    (c : Cfg3 K w) (capa : Option (A → K)) (stale : Int → Fin m → K) (aux : Int → Int → Int → A)
    (q : Int → Int → Int → Fin m → K) (i j k : Int) : Fin m → K :=
  let h := fun u s j k => sent3 undef rp rt rtt c capa stale aux q 3 (c.dt / c.dy) u s i j k
  (h true 0 j (k - 1) + h false 0 j k) + (h true (-1) (j + 1) (k - 1) + h false (-1) (j + 1) k) +
    (h true 1 (j - 1) (k - 1) + h false 1 (j - 1) k)

/-- The increment of cell `(i,j,k)` by the sweeps in `x`: the one-dimensional step along the row and the differences of
the transverse correction fluxes in the two other directions. -/
def Spec.xIncrement3 (undef : K) (rp : Riemann K A m w) (rt : Transverse3 K A m) (rtt : Transverse33 K A m)
    (c : Cfg3 K w) (capa : Option (A → K)) (stale : Int → Fin m → K) (aux : Int → Int → Int → A)
    (q : Int → Int → Int → Fin m → K) (i j k : Int) : Fin m → K :=
  rowStep undef rp c.row capa (fun i => aux i j k) (fun i => q i j k) i - q i j k -
    localRatio c.dt c.dy capa (fun j => aux i j k) j •
      (flux2of3 undef rp rt rtt c capa stale aux q i (j + 1) k - flux2of3 undef rp rt rtt c capa stale aux q i j k) -
    localRatio c.dt c.dz capa (fun k => aux i j k) k •
      (flux3of3 undef rp rt rtt c capa stale aux q i j (k + 1) - flux3of3 undef rp rt rtt c capa stale aux q i j k)

theorem foldl_additive' {α V X : Type*} [AddCommMonoid V] (f : (X → V) → α → X → V) (δ : α → X → V)
    (hf : ∀ q j x, f q j x = q x + δ j x) (l : List α) (q : X → V) (x : X) :
    l.foldl f q x = q x + (l.map fun j => δ j x).sum := by
  induction l generalizing q with
  | nil => simp
  | cons a l ih => rw [List.foldl_cons, ih, hf, List.map_cons, List.sum_cons, add_assoc]

theorem pairs_sum {V : Type*} [AddCommMonoid V] (lo1 hi1 lo2 hi2 : Int) (f : Int × Int → V) :
    ((pairs lo1 hi1 lo2 hi2).map f).sum =
      ((irange lo2 hi2).map fun k => ((irange lo1 hi1).map fun j => f (j, k)).sum).sum := by
  unfold pairs
  generalize irange lo2 hi2 = l
  induction l with
  | nil => simp
  | cons a l ih =>
    rw [List.flatMap_cons, List.map_append, List.sum_append, ih, List.map_cons, List.sum_cons, List.map_map]
    rfl

/-- One of four values, by the position of `k` relative to `k'`. -/
def pick {V : Type*} [Zero V] (k k' : Int) (a b e : V) : V :=
  if k = k' then a else if k = k' - 1 then b else if k = k' + 1 then e else 0

/-- The sum over the rows `0 … my+1`, `0 … mz+1` of contributions to the nine neighbours. -/
theorem rows_sum3 {V : Type*} [AddCommGroup V] (my mz : Nat) (a : Fin 3 → Fin 3 → Int → Int → V) (j k : Int)
    (h1 : 1 ≤ j) (h2 : j ≤ my) (h3 : 1 ≤ k) (h4 : k ≤ mz) :
    ((pairs 0 ((my : Int) + 2) 0 (mz + 2)).map fun y =>
      pick k y.2 (pick j y.1 (a 0 0 y.1 y.2) (a 1 0 y.1 y.2) (a 2 0 y.1 y.2))
        (pick j y.1 (a 0 1 y.1 y.2) (a 1 1 y.1 y.2) (a 2 1 y.1 y.2))
        (pick j y.1 (a 0 2 y.1 y.2) (a 1 2 y.1 y.2) (a 2 2 y.1 y.2))).sum =
      (a 0 0 j k + a 1 0 (j + 1) k + a 2 0 (j - 1) k) +
      (a 0 1 j (k + 1) + a 1 1 (j + 1) (k + 1) + a 2 1 (j - 1) (k + 1)) +
      (a 0 2 j (k - 1) + a 1 2 (j + 1) (k - 1) + a 2 2 (j - 1) (k - 1)) := by
  rw [pairs_sum]
  have inner : ∀ k' : Int, ((irange 0 ((my : Int) + 2)).map fun j' =>
      pick k k' (pick j j' (a 0 0 j' k') (a 1 0 j' k') (a 2 0 j' k'))
        (pick j j' (a 0 1 j' k') (a 1 1 j' k') (a 2 1 j' k'))
        (pick j j' (a 0 2 j' k') (a 1 2 j' k') (a 2 2 j' k'))).sum =
      if k = k' then a 0 0 j k' + a 1 0 (j + 1) k' + a 2 0 (j - 1) k'
      else if k = k' - 1 then a 0 1 j k' + a 1 1 (j + 1) k' + a 2 1 (j - 1) k'
      else if k = k' + 1 then a 0 2 j k' + a 1 2 (j + 1) k' + a 2 2 (j - 1) k' else 0 := by
    intro k'
    unfold pick
    split
    · exact rows_sum my (fun j' => a 0 0 j' k') (fun j' => a 1 0 j' k') (fun j' => a 2 0 j' k') j h1 h2
    · split
      · exact rows_sum my (fun j' => a 0 1 j' k') (fun j' => a 1 1 j' k') (fun j' => a 2 1 j' k') j h1 h2
      · split
        · exact rows_sum my (fun j' => a 0 2 j' k') (fun j' => a 1 2 j' k') (fun j' => a 2 2 j' k') j h1 h2
        · simp
  dsimp only
  simp only [inner]
  exact rows_sum mz (fun k' => a 0 0 j k' + a 1 0 (j + 1) k' + a 2 0 (j - 1) k')
    (fun k' => a 0 1 j k' + a 1 1 (j + 1) k' + a 2 1 (j - 1) k')
    (fun k' => a 0 2 j k' + a 1 2 (j + 1) k' + a 2 2 (j - 1) k') k h3 h4

theorem capDiv_eq (capa : Option (A → K)) (a : A) :
    ∃ r : K, (∀ x : Fin m → K, capDiv capa a x = r • x) ∧
      ∀ (dt dx : K) (aux : Int → A) (i : Int), aux i = a → localRatio dt dx capa aux i = r * (dt / dx) := by
  cases capa with
  | none =>
    refine ⟨1, fun x => by simp [capDiv], fun dt dx aux i _ => ?_⟩
    unfold localRatio
    rw [one_mul]
  | some κ =>
    refine ⟨(κ a)⁻¹, fun x => rfl, fun dt dx aux i h => ?_⟩
    unfold localRatio
    simp only
    rw [h, ← div_div, div_eq_mul_inv (dt / dx), mul_comm]

theorem chain9 {V : Type*} [AddCommGroup V] (j j' k k' : Int) (v : V) (f : Fin 3 → Fin 3 → V) :
    (if j = j' ∧ k = k' then v + f 0 0
    else if j = j' - 1 ∧ k = k' then v + f 1 0
    else if j = j' - 1 ∧ k = k' - 1 then v + f 1 1
    else if j = j' ∧ k = k' - 1 then v + f 0 1
    else if j = j' + 1 ∧ k = k' - 1 then v + f 2 1
    else if j = j' + 1 ∧ k = k' then v + f 2 0
    else if j = j' + 1 ∧ k = k' + 1 then v + f 2 2
    else if j = j' ∧ k = k' + 1 then v + f 0 2
    else if j = j' - 1 ∧ k = k' + 1 then v + f 1 2
    else v) =
    v + pick k k' (pick j j' (f 0 0) (f 1 0) (f 2 0)) (pick j j' (f 0 1) (f 1 1) (f 2 1))
      (pick j j' (f 0 2) (f 1 2) (f 2 2)) := by
  unfold pick
  rcases (by omega : j = j' ∨ j = j' - 1 ∨ j = j' + 1 ∨ (j ≠ j' ∧ j ≠ j' - 1 ∧ j ≠ j' + 1)) with hj | hj | hj | hj <;>
  rcases (by omega : k = k' ∨ k = k' - 1 ∨ k = k' + 1 ∨ (k ≠ k' ∧ k ≠ k' - 1 ∧ k ≠ k' + 1)) with hk | hk | hk | hk <;>
  simp (disch := omega) only [if_pos, if_neg, add_zero]

/-- The contribution of the row `(j',k')` to the cell `x` at offset `0`, `-1`, `+1` (index `0`, `1`, `2`) in the two
transverse directions. -/
def contrib3 (c : Cfg3 K w) (capa : Option (A → K)) (aux : Int → Int → Int → A) (S : Slice3 K m) (i j k : Int)
    (a b : Fin 3) : Fin m → K :=
  let cd := capDiv (m := m) capa (aux i j k)
  let y : K := c.dt / c.dy
  let z : K := c.dt / c.dz
  let g1 := fun n => S.gadd false n i
  let g2 := fun n => S.gadd true n i
  let h1 := fun n => S.hadd false n i
  let h2 := fun n => S.hadd true n i
  match b, a with
  | 0, 0 => S.qadd i - cd ((c.dt / c.dx) • (S.fadd (i + 1) - S.fadd i) + y • (g2 0 - g1 0) + z • (h2 0 - h1 0))
  | 0, 1 => - cd (y • g1 0 + z • (h2 (-1) - h1 (-1)))
  | 0, 2 => cd (y • g2 0 - z • (h2 1 - h1 1))
  | 1, 0 => - cd (y • (g2 (-1) - g1 (-1)) + z • h1 0)
  | 1, 1 => - cd (y • g1 (-1) + z • h1 (-1))
  | 1, 2 => cd (y • g2 (-1) - z • h1 1)
  | 2, 0 => - cd (y • (g2 1 - g1 1) - z • h2 0)
  | 2, 1 => - cd (y • g1 1 - z • h2 (-1))
  | 2, 2 => cd (y • g2 1 + z • h2 1)

theorem unsplitUpdate3_pick (c : Cfg3 K w) (capa : Option (A → K)) (aux : Int → Int → Int → A) (S : Slice3 K m)
    (v : Int → Int → Int → Fin m → K) (i j k j' k' : Int) :
    unsplitUpdate3 c capa aux j' k' S v i j k = v i j k + (if 1 ≤ i ∧ i ≤ (c.mx : Int) then
      pick k k' (pick j j' (contrib3 c capa aux S i j k 0 0) (contrib3 c capa aux S i j k 1 0)
          (contrib3 c capa aux S i j k 2 0))
        (pick j j' (contrib3 c capa aux S i j k 0 1) (contrib3 c capa aux S i j k 1 1) (contrib3 c capa aux S i j k 2 1))
        (pick j j' (contrib3 c capa aux S i j k 0 2) (contrib3 c capa aux S i j k 1 2) (contrib3 c capa aux S i j k 2 2))
      else 0) := by
  by_cases hi : 1 ≤ i ∧ i ≤ (c.mx : Int)
  · rw [if_pos hi, ← chain9 j j' k k' (v i j k) (contrib3 c capa aux S i j k)]
    unfold unsplitUpdate3
    dsimp only
    rw [if_pos hi]
    simp only [contrib3, ← sub_eq_add_neg, add_sub_assoc]
  · rw [if_neg hi, add_zero]
    unfold unsplitUpdate3
    dsimp only
    rw [if_neg hi]

/-- The sweeps in `x`, on the interior. -/
theorem step3X_eq (undef : K) (rp : Riemann K A m w) (rt : Transverse3 K A m) (rtt : Transverse33 K A m)
    (c : Cfg3 K w) (hg : 1 ≤ c.g) (capa : Option (A → K)) (stale : Int → Fin m → K) (aux : Int → Int → Int → A)
    (q qn : Int → Int → Int → Fin m → K) (i j k : Int) (h1 : 1 ≤ i) (h2 : i ≤ c.mx) (h3 : 1 ≤ j) (h4 : j ≤ c.my)
    (h5 : 1 ≤ k) (h6 : k ≤ c.mz) :
    (step3X undef rp rt rtt c capa stale aux q qn).1 i j k =
      qn i j k + xIncrement3 undef rp rt rtt c capa stale aux q i j k := by
  let S := fun j k => unsplitSlice3 undef rp rt rtt c capa stale aux q j k
  have e : (step3X undef rp rt rtt c capa stale aux q qn).1 =
      (pairs 0 (c.my + 2) 0 (c.mz + 2)).foldl (fun v y => unsplitUpdate3 c capa aux y.1 y.2 (S y.1 y.2) v) qn := by
    unfold step3X
    have := foldl_pairs (fun (st : (Int → Int → Int → Fin m → K) × K) (y : Int × Int) =>
      (unsplitUpdate3 c capa aux y.1 y.2 (S y.1 y.2) st.1, max st.2 (S y.1 y.2).cfl)) 0 (c.my + 2) 0 (c.mz + 2) (qn, 0)
    refine (congrArg Prod.fst this).trans ?_
    exact foldl_max_prod (fun v (y : Int × Int) => unsplitUpdate3 c capa aux y.1 y.2 (S y.1 y.2) v)
      (fun _ (y : Int × Int) => (S y.1 y.2).cfl) _ qn 0
  have e2 : ∀ (l : List (Int × Int)) (qn : Int → Int → Int → Fin m → K),
      l.foldl (fun v y => unsplitUpdate3 c capa aux y.1 y.2 (S y.1 y.2) v) qn i j k =
      l.foldl (fun (v : Int × Int × Int → Fin m → K) y => fun x =>
        unsplitUpdate3 c capa aux y.1 y.2 (S y.1 y.2) (fun i j k => v (i, j, k)) x.1 x.2.1 x.2.2)
        (fun x => qn x.1 x.2.1 x.2.2) (i, j, k) := by
    intro l
    induction l with
    | nil => intro qn; rfl
    | cons a l ih =>
      intro qn
      rw [List.foldl_cons, List.foldl_cons]
      exact ih (unsplitUpdate3 c capa aux a.1 a.2 (S a.1 a.2) qn)
  obtain ⟨r, hr, hl⟩ := capDiv_eq (m := m) capa (aux i j k)
  have hadd : ∀ (v : Int × Int × Int → Fin m → K) (y : Int × Int) (x : Int × Int × Int), _ = _ := fun v y x =>
    unsplitUpdate3_pick c capa aux (S y.1 y.2) (fun i j k => v (i, j, k)) x.1 x.2.1 x.2.2 y.1 y.2
  rw [e, e2, foldl_additive' _ _ hadd]
  congr 1
  have hin : 1 ≤ i ∧ i ≤ (c.mx : Int) := ⟨h1, h2⟩
  simp only [if_pos hin]
  rw [rows_sum3 c.my c.mz (fun a b j' k' => contrib3 c capa aux (S j' k') i j k a b) j k h3 h4 h5 h6]
  simp only [contrib3, hr]
  have hs := slice_update3 undef c.mx c.g hg c.order c.trans c.hasAux c.fwave c.limiter c.dt c.dx (c.dt / c.dy)
    (c.dt / c.dz) capa (fun i => aux i j k) rp
    (fun icoor imp i a => rt icoor imp (q (i - 1) j k) (q i j k) (aux9 aux j k (i - 1)) (aux9 aux j k i) a)
    (fun icoor imp impt i a =>
      rtt icoor imp impt (q (i - 1) j k) (q i j k) (aux9 aux j k (i - 1)) (aux9 aux j k i) a)
    stale (fun i => q i j k) i h1 h2
  change q i j k + (S j k).qadd i - capDiv capa (aux i j k) ((c.dt / c.dx) • ((S j k).fadd (i + 1) - (S j k).fadd i)) = _ at hs
  rw [hr] at hs
  have hs' : (S j k).qadd i = rowStep undef rp c.row capa (fun i => aux i j k) (fun i => q i j k) i - q i j k +
      r • ((c.dt / c.dx) • ((S j k).fadd (i + 1) - (S j k).fadd i)) := by
    have h : rowStep undef rp c.row capa (fun i => aux i j k) (fun i => q i j k) i = _ := hs.symm
    rw [h]; abel
  have G : ∀ u s j k, (S j k).gadd u s i = sent3 undef rp rt rtt c capa stale aux q 2 (c.dt / c.dz) u s i j k :=
    fun u s j k => (unsplitSlice3_add undef rp rt rtt c hg capa stale aux q u s i j k h1 h2).1
  have H : ∀ u s j k, (S j k).hadd u s i = sent3 undef rp rt rtt c capa stale aux q 3 (c.dt / c.dy) u s i j k :=
    fun u s j k => (unsplitSlice3_add undef rp rt rtt c hg capa stale aux q u s i j k h1 h2).2
  rw [hs']
  simp only [G, H]
  unfold xIncrement3 flux2of3 flux3of3
  rw [hl c.dt c.dy (fun j => aux i j k) j rfl, hl c.dt c.dz (fun k => aux i j k) k rfl]
  simp only [show j + 1 - 1 = j by ring, show k + 1 - 1 = k by ring]
  generalize sent3 undef rp rt rtt c capa stale aux q 2 (c.dt / c.dz) = g
  generalize sent3 undef rp rt rtt c capa stale aux q 3 (c.dt / c.dy) = h
  module

theorem unsplitStep3_cell (undef : K) (rpx rpy rpz : Riemann K A m w) (rtx rty rtz : Transverse3 K A m)
    (rttx rtty rttz : Transverse33 K A m) (c : Cfg3 K w) (hg : 1 ≤ c.g) (capa : Option (A → K))
    (stale : Int → Fin m → K) (aux : Int → Int → Int → A) (q : Int → Int → Int → Fin m → K) (i j k : Int)
    (h1 : 1 ≤ i) (h2 : i ≤ c.mx) (h3 : 1 ≤ j) (h4 : j ≤ c.my) (h5 : 1 ≤ k) (h6 : k ≤ c.mz) :
    (unsplitStep3 undef rpx rpy rpz rtx rty rtz rttx rtty rttz c capa stale aux q).1 i j k =
      q i j k + xIncrement3 undef rpx rtx rttx c capa stale aux q i j k +
        xIncrement3 undef rpy rty rtty c.rot capa stale (rot3 aux) (rot3 q) j k i +
        xIncrement3 undef rpz rtz rttz c.rot.rot capa stale (rot3 (rot3 aux)) (rot3 (rot3 q)) k i j := by
  unfold unsplitStep3
  simp only [unrot3]
  rw [step3X_eq undef rpz rtz rttz c.rot.rot hg capa stale (rot3 (rot3 aux)) (rot3 (rot3 q)) _ k i j h5 h6 h1 h2 h3 h4]
  congr 1
  simp only [rot3]
  refine (step3X_eq undef rpy rty rtty c.rot hg capa stale (rot3 aux) (rot3 q) _ j k i h3 h4 h5 h6 h1 h2).trans ?_
  congr 1
  simp only [rot3]
  exact step3X_eq undef rpx rtx rttx c hg capa stale aux q q i j k h1 h2 h3 h4 h5 h6

/-- C72: a cell of the unsplit step. The one-dimensional increments along the three directions and the differences of
the transverse correction fluxes through its six sides, two for each of the sweeps. -/
theorem C72_update (undef : K) (rpx rpy rpz : Riemann K A m w) (rtx rty rtz : Transverse3 K A m)
    (rttx rtty rttz : Transverse33 K A m) (c : Cfg3 K w) (hg : 1 ≤ c.g) (capa : Option (A → K))
    (stale : Int → Fin m → K) (aux : Int → Int → Int → A) (q : Int → Int → Int → Fin m → K) (i j k : Int)
    (h1 : 1 ≤ i) (h2 : i ≤ c.mx) (h3 : 1 ≤ j) (h4 : j ≤ c.my) (h5 : 1 ≤ k) (h6 : k ≤ c.mz) :
    (unsplitStep3 undef rpx rpy rpz rtx rty rtz rttx rtty rttz c capa stale aux q).1 i j k =
      q i j k + xIncrement3 undef rpx rtx rttx c capa stale aux q i j k +
        xIncrement3 undef rpy rty rtty { c with mx := c.my, my := c.mz, mz := c.mx, dx := c.dy, dy := c.dz, dz := c.dx } capa stale (fun j k i => aux i j k) (fun j k i => q i j k) j k i +
        xIncrement3 undef rpz rtz rttz { c with mx := c.mz, my := c.mx, mz := c.my, dx := c.dz, dy := c.dx, dz := c.dy } capa stale (fun k i j => aux i j k) (fun k i j => q i j k) k i j :=
  unsplitStep3_cell undef rpx rpy rpz rtx rty rtz rttx rtty rttz c hg capa stale aux q i j k h1 h2 h3 h4 h5 h6

theorem aux9_center (aux aux' : Int → Int → Int → A) (j j' k k' i i' : Int)
    (h : aux9 aux j k i = aux9 aux' j' k' i') : aux i j k = aux' i' j' k' := by
  have := congrFun (congrFun h 1) 1
  unfold aux9 at this
  simpa using this

/-- What a row sends depends on the data of the row and the aux values of the nine rows around it only. -/
theorem sent3_congr (undef : K) (rp : Riemann K A m w) (rt : Transverse3 K A m) (rtt : Transverse33 K A m)
    (c : Cfg3 K w) (capa : Option (A → K)) (stale : Int → Fin m → K) (aux aux' : Int → Int → Int → A)
    (q q' : Int → Int → Int → Fin m → K) (icoor : Nat) (dtw : K) (u : Bool) (s : Int) (i j k j' k' : Int)
    (hq : ∀ n : Int, i - 2 ≤ n → n ≤ i + 2 → q n j k = q' n j' k')
    (ha : ∀ n : Int, i - 2 ≤ n → n ≤ i + 2 → aux9 aux j k n = aux9 aux' j' k' n) :
    sent3 undef rp rt rtt c capa stale aux q icoor dtw u s i j k =
      sent3 undef rp rt rtt c capa stale aux' q' icoor dtw u s i j' k' := by
  have ha' : ∀ n : Int, i - 2 ≤ n → n ≤ i + 2 → aux n j k = aux' n j' k' := fun n a b =>
    aux9_center _ _ _ _ _ _ _ _ (ha n a b)
  have hd : ∀ n : Int, i - 1 ≤ n → n ≤ i + 2 → interfaces rp (fun i => aux i j k) (fun i => q i j k) n =
      interfaces rp (fun i => aux' i j' k') (fun i => q' i j' k') n := by
    intro n a b
    unfold interfaces
    dsimp only
    rw [hq (n - 1) (by omega) (by omega), hq n (by omega) (by omega), ha' (n - 1) (by omega) (by omega),
      ha' n (by omega) (by omega)]
  have hl : ∀ n : Int, i - 1 ≤ n → n ≤ i + 1 →
      localRatio c.dt c.dx capa (fun i => aux i j k) n = localRatio c.dt c.dx capa (fun i => aux' i j' k') n := by
    intro n a b
    unfold localRatio
    dsimp only
    rw [ha' n (by omega) (by omega)]
  have hF : ∀ n : Int, i ≤ n → n ≤ i + 1 →
      sliceFlux undef c.order c.fwave c.limiter (localRatio c.dt c.dx capa fun i => aux i j k)
        (interfaces rp (fun i => aux i j k) (fun i => q i j k)) n =
      sliceFlux undef c.order c.fwave c.limiter (localRatio c.dt c.dx capa fun i => aux' i j' k')
        (interfaces rp (fun i => aux' i j' k') (fun i => q' i j' k')) n := by
    intro n a b
    unfold sliceFlux
    split
    · rfl
    · simp only [correctionFlux, limitedWave]
      rw [hd n (by omega) (by omega), hd (n - 1) (by omega) (by omega), hd (n + 1) (by omega) (by omega),
        hl n (by omega) (by omega), hl (n - 1) (by omega) (by omega)]
  have hp : ∀ (imp : Nat) (lam : K) (n : Int), i ≤ n → n ≤ i + 1 →
      (rowTrans3 undef rp rt rtt c capa stale aux q j k).part icoor dtw imp u s lam n =
      (rowTrans3 undef rp rt rtt c capa stale aux' q' j' k').part icoor dtw imp u s lam n := by
    intro imp lam n a b
    refine part_congr _ _ icoor dtw imp u s lam n n rfl rfl rfl ?_ ?_ (fun e f => ?_) (fun e f g => ?_)
    · simp only [rowTrans3]; rw [hd n (by omega) (by omega)]
    · simp only [rowTrans3]; rw [hF n a b]
    · simp only [rowTrans3]
      rw [hq n (by omega) (by omega), hq (n - 1) (by omega) (by omega), ha n (by omega) (by omega),
        ha (n - 1) (by omega) (by omega)]
    · simp only [rowTrans3]
      rw [hq n (by omega) (by omega), hq (n - 1) (by omega) (by omega), ha n (by omega) (by omega),
        ha (n - 1) (by omega) (by omega)]
  unfold sent3
  dsimp only
  rw [hl i (by omega) (by omega), hp 2 _ i (by omega) (by omega), hp 1 _ (i + 1) (by omega) (by omega)]
  rfl

/-- The increments by the sweeps in `x` have total zero for periodic data. -/
theorem xIncrement3_total (undef : K) (rp : Riemann K A m w) (rt : Transverse3 K A m) (rtt : Transverse33 K A m)
    (fl : (Fin m → K) → A → Fin m → K) (hf : FluxDifference rp fl) (c : Cfg3 K w) (hg : 2 ≤ c.g) (hdx : c.dx ≠ 0)
    (hdy : c.dy ≠ 0) (hdz : c.dz ≠ 0) (capa : Option (A → K)) (stale : Int → Fin m → K) (aux : Int → Int → Int → A)
    (q : Int → Int → Int → Fin m → K)
    (hk : ∀ κ, capa = some κ → ∀ i j k : Int, 1 ≤ i → i ≤ c.mx → 1 ≤ j → j ≤ c.my → 1 ≤ k → k ≤ c.mz →
      κ (aux i j k) ≠ 0)
    (hqx : ∀ j k : Int, 1 - (c.g : Int) ≤ j → j ≤ c.my + c.g → 1 - (c.g : Int) ≤ k → k ≤ c.mz + c.g →
      PeriodicGhost 1 c.g c.mx (fun i => q i j k))
    (hqy : ∀ i k : Int, 1 - (c.g : Int) ≤ i → i ≤ c.mx + c.g → 1 - (c.g : Int) ≤ k → k ≤ c.mz + c.g →
      PeriodicGhost 1 c.g c.my (fun j => q i j k))
    (hqz : ∀ i j : Int, 1 - (c.g : Int) ≤ i → i ≤ c.mx + c.g → 1 - (c.g : Int) ≤ j → j ≤ c.my + c.g →
      PeriodicGhost 1 c.g c.mz (fun k => q i j k))
    (hax : ∀ j k : Int, 1 - (c.g : Int) ≤ j → j ≤ c.my + c.g → 1 - (c.g : Int) ≤ k → k ≤ c.mz + c.g →
      PeriodicGhost 1 c.g c.mx (fun i => aux i j k))
    (hay : ∀ i k : Int, 1 - (c.g : Int) ≤ i → i ≤ c.mx + c.g → 1 - (c.g : Int) ≤ k → k ≤ c.mz + c.g →
      PeriodicGhost 1 c.g c.my (fun j => aux i j k))
    (haz : ∀ i j : Int, 1 - (c.g : Int) ≤ i → i ≤ c.mx + c.g → 1 - (c.g : Int) ≤ j → j ≤ c.my + c.g →
      PeriodicGhost 1 c.g c.mz (fun k => aux i j k)) :
    total3 c.mx c.my c.mz (fun i j k => c.dx * c.dy * c.dz * capacity capa (aux i j k))
      (xIncrement3 undef rp rt rtt c capa stale aux q) = 0 := by
  have hgg : (2 : Int) ≤ c.g := by exact_mod_cast hg
  -- one-dimensional part
  have s1 : total3 c.mx c.my c.mz (fun i j k => c.dx * c.dy * c.dz * capacity capa (aux i j k))
      (fun i j k => rowStep undef rp c.row capa (fun i => aux i j k) (fun i => q i j k) i) =
      total3 c.mx c.my c.mz (fun i j k => c.dx * c.dy * c.dz * capacity capa (aux i j k)) q := by
    have v1 : (fun i j k => c.dx * c.dy * c.dz * capacity capa (aux i j k)) =
        fun i j k => c.dy * c.dz * (c.dx * capacity capa (aux i j k)) := by funext i j k; ring
    rw [v1]
    refine sweep_total c.mx c.my c.mz c.dx (c.dy * c.dz) capa aux q _ fun j k a1 a2 b1 b2 => ?_
    exact rowStep_conserves undef rp c.row capa (fun i => aux i j k) (fun i => q i j k) fl hf hg hdx
      (fun κ h i e f => hk κ h i j k e f a1 a2 b1 b2) (hqx j k (by omega) (by omega) (by omega) (by omega))
      (hax j k (by omega) (by omega) (by omega) (by omega))
  -- volume times ratio
  have wy : ∀ i j k : Int, 1 ≤ i → i ≤ c.mx → 1 ≤ j → j ≤ c.my → 1 ≤ k → k ≤ c.mz →
      c.dx * c.dy * c.dz * capacity capa (aux i j k) * localRatio c.dt c.dy capa (fun j => aux i j k) j =
        c.dx * c.dz * c.dt := by
    intro i j k a1 a2 b1 b2 c1 c2
    have hv := vol_mul_dtdx c.dt c.dy capa (fun j => aux i j k) j hdy (fun κ h => hk κ h i j k a1 a2 b1 b2 c1 c2)
    have hc : c.dy * capacity capa (aux i j k) = cellVolume c.dy capa (fun j => aux i j k) j := by
      unfold capacity cellVolume; cases capa <;> simp
    calc _ = c.dx * c.dz * ((c.dy * capacity capa (aux i j k)) * localRatio c.dt c.dy capa (fun j => aux i j k) j) := by
          ring
      _ = _ := by rw [hc, hv]
  have wz : ∀ i j k : Int, 1 ≤ i → i ≤ c.mx → 1 ≤ j → j ≤ c.my → 1 ≤ k → k ≤ c.mz →
      c.dx * c.dy * c.dz * capacity capa (aux i j k) * localRatio c.dt c.dz capa (fun k => aux i j k) k =
        c.dx * c.dy * c.dt := by
    intro i j k a1 a2 b1 b2 c1 c2
    have hv := vol_mul_dtdx c.dt c.dz capa (fun k => aux i j k) k hdz (fun κ h => hk κ h i j k a1 a2 b1 b2 c1 c2)
    have hc : c.dz * capacity capa (aux i j k) = cellVolume c.dz capa (fun k => aux i j k) k := by
      unfold capacity cellVolume; cases capa <;> simp
    calc _ = c.dx * c.dy * ((c.dz * capacity capa (aux i j k)) * localRatio c.dt c.dz capa (fun k => aux i j k) k) := by
          ring
      _ = _ := by rw [hc, hv]
  -- what the rows send is periodic
  have sy : ∀ (icoor : Nat) (dtw : K) (u : Bool) (s i j k : Int), 1 ≤ i → i ≤ c.mx → 0 ≤ j → j ≤ 1 → 0 ≤ k →
      k ≤ c.mz + 1 → sent3 undef rp rt rtt c capa stale aux q icoor dtw u s i (j + c.my) k =
        sent3 undef rp rt rtt c capa stale aux q icoor dtw u s i j k := by
    intro icoor dtw u s i j k a1 a2 b1 b2 c1 c2
    refine sent3_congr undef rp rt rtt c capa stale aux aux q q icoor dtw u s i _ _ _ _
      (fun n n1 n2 => hqy n k (by omega) (by omega) (by omega) (by omega) j (by omega) (by omega)) (fun n n1 n2 => ?_)
    funext e f
    have he := e.isLt
    have hf := f.isLt
    unfold aux9
    have := hay n (k - 1 + f.val) (by omega) (by omega) (by omega) (by omega) (j - 1 + e.val) (by omega) (by omega)
    refine Eq.trans ?_ this
    dsimp only
    congr 1
    ring
  have sz : ∀ (icoor : Nat) (dtw : K) (u : Bool) (s i j k : Int), 1 ≤ i → i ≤ c.mx → 0 ≤ j → j ≤ c.my + 1 → 0 ≤ k →
      k ≤ 1 → sent3 undef rp rt rtt c capa stale aux q icoor dtw u s i j (k + c.mz) =
        sent3 undef rp rt rtt c capa stale aux q icoor dtw u s i j k := by
    intro icoor dtw u s i j k a1 a2 b1 b2 c1 c2
    refine sent3_congr undef rp rt rtt c capa stale aux aux q q icoor dtw u s i _ _ _ _
      (fun n n1 n2 => hqz n j (by omega) (by omega) (by omega) (by omega) k (by omega) (by omega)) (fun n n1 n2 => ?_)
    funext e f
    have he := e.isLt
    have hf := f.isLt
    unfold aux9
    have := haz n (j - 1 + e.val) (by omega) (by omega) (by omega) (by omega) (k - 1 + f.val) (by omega) (by omega)
    refine Eq.trans ?_ this
    dsimp only
    congr 1
    ring
  have fy : ∀ i k : Int, 1 ≤ i → i ≤ c.mx → 1 ≤ k → k ≤ c.mz →
      flux2of3 undef rp rt rtt c capa stale aux q i (1 + c.my) k = flux2of3 undef rp rt rtt c capa stale aux q i 1 k := by
    intro i k a1 a2 b1 b2
    unfold flux2of3
    dsimp only
    have e1 : (1 : Int) + c.my - 1 = 0 + c.my := by ring
    rw [e1, sy 2 _ true 0 i 0 k a1 a2 (by omega) (by omega) (by omega) (by omega),
      sy 2 _ false 0 i 1 k a1 a2 (by omega) (by omega) (by omega) (by omega),
      sy 2 _ true (-1) i 0 (k + 1) a1 a2 (by omega) (by omega) (by omega) (by omega),
      sy 2 _ false (-1) i 1 (k + 1) a1 a2 (by omega) (by omega) (by omega) (by omega),
      sy 2 _ true 1 i 0 (k - 1) a1 a2 (by omega) (by omega) (by omega) (by omega),
      sy 2 _ false 1 i 1 (k - 1) a1 a2 (by omega) (by omega) (by omega) (by omega)]
    rfl
  have fz : ∀ i j : Int, 1 ≤ i → i ≤ c.mx → 1 ≤ j → j ≤ c.my →
      flux3of3 undef rp rt rtt c capa stale aux q i j (1 + c.mz) = flux3of3 undef rp rt rtt c capa stale aux q i j 1 := by
    intro i j a1 a2 b1 b2
    unfold flux3of3
    dsimp only
    have e1 : (1 : Int) + c.mz - 1 = 0 + c.mz := by ring
    rw [e1, sz 3 _ true 0 i j 0 a1 a2 (by omega) (by omega) (by omega) (by omega),
      sz 3 _ false 0 i j 1 a1 a2 (by omega) (by omega) (by omega) (by omega),
      sz 3 _ true (-1) i (j + 1) 0 a1 a2 (by omega) (by omega) (by omega) (by omega),
      sz 3 _ false (-1) i (j + 1) 1 a1 a2 (by omega) (by omega) (by omega) (by omega),
      sz 3 _ true 1 i (j - 1) 0 a1 a2 (by omega) (by omega) (by omega) (by omega),
      sz 3 _ false 1 i (j - 1) 1 a1 a2 (by omega) (by omega) (by omega) (by omega)]
    rfl
  generalize hF2 : flux2of3 undef rp rt rtt c capa stale aux q = F2 at fy
  generalize hF3 : flux3of3 undef rp rt rtt c capa stale aux q = F3 at fz
  -- transverse parts
  have s2 : (∑ i ∈ Finset.range c.mx, ∑ j ∈ Finset.range c.my, ∑ k ∈ Finset.range c.mz,
      (c.dx * c.dy * c.dz * capacity capa (aux (1 + i) (1 + j) (1 + k))) •
      (localRatio c.dt c.dy capa (fun j => aux (1 + i) j (1 + k)) (1 + j) •
        (F2 (1 + i) (1 + j + 1) (1 + k) - F2 (1 + i) (1 + j) (1 + k)))) = 0 := by
    refine Finset.sum_eq_zero fun i hi => ?_
    rw [Finset.sum_comm]
    refine Finset.sum_eq_zero fun k hk' => ?_
    have hi' := Finset.mem_range.mp hi
    have hk'' := Finset.mem_range.mp hk'
    have hv : ∀ j ∈ Finset.range c.my, (c.dx * c.dy * c.dz * capacity capa (aux (1 + i) (1 + j) (1 + k))) •
      (localRatio c.dt c.dy capa (fun j => aux (1 + i) j (1 + k)) (1 + j) •
        (F2 (1 + i) (1 + j + 1) (1 + k) - F2 (1 + i) (1 + j) (1 + k))) =
      (c.dx * c.dz * c.dt) • ((fun n : Nat => F2 (1 + i) (1 + n) (1 + k)) (j + 1) -
        (fun n : Nat => F2 (1 + i) (1 + n) (1 + k)) j) := by
      intro j hj
      have hj' := Finset.mem_range.mp hj
      rw [smul_smul, wy _ _ _ (by omega) (by omega) (by omega) (by omega) (by omega) (by omega)]
      simp only
      rw [show (1 : Int) + ((j + 1 : Nat) : Int) = 1 + j + 1 by push_cast; ring]
    rw [Finset.sum_congr rfl hv, ← Finset.smul_sum,
      Finset.sum_range_sub (fun n : Nat => F2 (1 + i) (1 + n) (1 + k)),
      fy (1 + i) (1 + k) (by omega) (by omega) (by omega) (by omega)]
    simp
  have s3 : (∑ i ∈ Finset.range c.mx, ∑ j ∈ Finset.range c.my, ∑ k ∈ Finset.range c.mz,
      (c.dx * c.dy * c.dz * capacity capa (aux (1 + i) (1 + j) (1 + k))) •
      (localRatio c.dt c.dz capa (fun k => aux (1 + i) (1 + j) k) (1 + k) •
        (F3 (1 + i) (1 + j) (1 + k + 1) - F3 (1 + i) (1 + j) (1 + k)))) = 0 := by
    refine Finset.sum_eq_zero fun i hi => ?_
    refine Finset.sum_eq_zero fun j hj => ?_
    have hi' := Finset.mem_range.mp hi
    have hj' := Finset.mem_range.mp hj
    have hv : ∀ k ∈ Finset.range c.mz, (c.dx * c.dy * c.dz * capacity capa (aux (1 + i) (1 + j) (1 + k))) •
      (localRatio c.dt c.dz capa (fun k => aux (1 + i) (1 + j) k) (1 + k) •
        (F3 (1 + i) (1 + j) (1 + k + 1) - F3 (1 + i) (1 + j) (1 + k))) =
      (c.dx * c.dy * c.dt) • ((fun n : Nat => F3 (1 + i) (1 + j) (1 + n)) (k + 1) -
        (fun n : Nat => F3 (1 + i) (1 + j) (1 + n)) k) := by
      intro k hk'
      have hk'' := Finset.mem_range.mp hk'
      rw [smul_smul, wz _ _ _ (by omega) (by omega) (by omega) (by omega) (by omega) (by omega)]
      simp only
      rw [show (1 : Int) + ((k + 1 : Nat) : Int) = 1 + k + 1 by push_cast; ring]
    rw [Finset.sum_congr rfl hv, ← Finset.smul_sum,
      Finset.sum_range_sub (fun n : Nat => F3 (1 + i) (1 + j) (1 + n)),
      fz (1 + i) (1 + j) (by omega) (by omega) (by omega) (by omega)]
    simp
  have s1' := sub_eq_zero.mpr s1
  unfold total3 at s1' ⊢
  refine Eq.trans ?_ ((congrArg₂ (fun x y => x - y) (congrArg₂ (fun x y => x - y) s1' s2) s3).trans (by simp))
  simp only [← Finset.sum_sub_distrib]
  refine Finset.sum_congr rfl fun i _ => Finset.sum_congr rfl fun j _ => Finset.sum_congr rfl fun k _ => ?_
  unfold xIncrement3
  rw [hF2, hF3]
  simp only [smul_sub]

theorem total3_add (mx my mz : Nat) (vol : Int → Int → Int → K) (a b : Int → Int → Int → Fin m → K) :
    total3 mx my mz vol (fun i j k => a i j k + b i j k) = total3 mx my mz vol a + total3 mx my mz vol b := by
  unfold total3
  simp only [← Finset.sum_add_distrib, smul_add]

/-- C72: for triply periodic data with periodic aux values the unsplit step preserves the total of every component,
weighted with the cell volumes, for every `transverse_waves`, order and limiter. The transverse solvers are arbitrary. -/
theorem C72_conserves (undef : K) (rpx rpy rpz : Riemann K A m w) (rtx rty rtz : Transverse3 K A m)
    (rttx rtty rttz : Transverse33 K A m)
    (flx fly flz : (Fin m → K) → A → Fin m → K) (hfx : FluxDifference rpx flx) (hfy : FluxDifference rpy fly)
    (hfz : FluxDifference rpz flz) (c : Cfg3 K w) (hg : 2 ≤ c.g)
    (hdx : c.dx ≠ 0) (hdy : c.dy ≠ 0) (hdz : c.dz ≠ 0) (capa : Option (A → K)) (stale : Int → Fin m → K)
    (aux : Int → Int → Int → A) (q : Int → Int → Int → Fin m → K)
    (hk : ∀ κ, capa = some κ → ∀ i j k : Int, 1 ≤ i → i ≤ c.mx → 1 ≤ j → j ≤ c.my → 1 ≤ k → k ≤ c.mz →
      κ (aux i j k) ≠ 0)
    (hqx : ∀ j k : Int, 1 - (c.g : Int) ≤ j → j ≤ c.my + c.g → 1 - (c.g : Int) ≤ k → k ≤ c.mz + c.g →
      PeriodicGhost 1 c.g c.mx (fun i => q i j k))
    (hqy : ∀ i k : Int, 1 - (c.g : Int) ≤ i → i ≤ c.mx + c.g → 1 - (c.g : Int) ≤ k → k ≤ c.mz + c.g →
      PeriodicGhost 1 c.g c.my (fun j => q i j k))
    (hqz : ∀ i j : Int, 1 - (c.g : Int) ≤ i → i ≤ c.mx + c.g → 1 - (c.g : Int) ≤ j → j ≤ c.my + c.g →
      PeriodicGhost 1 c.g c.mz (fun k => q i j k))
    (hax : ∀ j k : Int, 1 - (c.g : Int) ≤ j → j ≤ c.my + c.g → 1 - (c.g : Int) ≤ k → k ≤ c.mz + c.g →
      PeriodicGhost 1 c.g c.mx (fun i => aux i j k))
    (hay : ∀ i k : Int, 1 - (c.g : Int) ≤ i → i ≤ c.mx + c.g → 1 - (c.g : Int) ≤ k → k ≤ c.mz + c.g →
      PeriodicGhost 1 c.g c.my (fun j => aux i j k))
    (haz : ∀ i j : Int, 1 - (c.g : Int) ≤ i → i ≤ c.mx + c.g → 1 - (c.g : Int) ≤ j → j ≤ c.my + c.g →
      PeriodicGhost 1 c.g c.mz (fun k => aux i j k)) :
    total3 c.mx c.my c.mz (fun i j k => c.dx * c.dy * c.dz * capacity capa (aux i j k))
      (unsplitStep3 undef rpx rpy rpz rtx rty rtz rttx rtty rttz c capa stale aux q).1 =
      total3 c.mx c.my c.mz (fun i j k => c.dx * c.dy * c.dz * capacity capa (aux i j k)) q := by
  have t1 := xIncrement3_total undef rpx rtx rttx flx hfx c hg hdx hdy hdz capa stale aux q hk hqx hqy hqz hax hay haz
  have t2 := xIncrement3_total undef rpy rty rtty fly hfy c.rot hg hdy hdz hdx capa stale (rot3 aux) (rot3 q)
    (fun κ h j k i a1 a2 b1 b2 c1 c2 => hk κ h i j k c1 c2 a1 a2 b1 b2)
    (fun k i a1 a2 b1 b2 => hqy i k b1 b2 a1 a2) (fun j i a1 a2 b1 b2 => hqz i j b1 b2 a1 a2)
    (fun j k a1 a2 b1 b2 => hqx j k a1 a2 b1 b2)
    (fun k i a1 a2 b1 b2 => hay i k b1 b2 a1 a2) (fun j i a1 a2 b1 b2 => haz i j b1 b2 a1 a2)
    (fun j k a1 a2 b1 b2 => hax j k a1 a2 b1 b2)
  have t3 := xIncrement3_total undef rpz rtz rttz flz hfz c.rot.rot hg hdz hdx hdy capa stale (rot3 (rot3 aux))
    (rot3 (rot3 q))
    (fun κ h k i j a1 a2 b1 b2 c1 c2 => hk κ h i j k b1 b2 c1 c2 a1 a2)
    (fun i j a1 a2 b1 b2 => hqz i j a1 a2 b1 b2) (fun k j a1 a2 b1 b2 => hqx j k b1 b2 a1 a2)
    (fun k i a1 a2 b1 b2 => hqy i k b1 b2 a1 a2)
    (fun i j a1 a2 b1 b2 => haz i j a1 a2 b1 b2) (fun k j a1 a2 b1 b2 => hax j k b1 b2 a1 a2)
    (fun k i a1 a2 b1 b2 => hay i k b1 b2 a1 a2)
  rw [total3_congr c.mx c.my c.mz _ _ _ fun i j k a b e f g h =>
    unsplitStep3_cell undef rpx rpy rpz rtx rty rtz rttx rtty rttz c (by omega) capa stale aux q i j k a b e f g h,
    total3_add, total3_add, total3_add, t1, add_zero]
  have t2' : total3 c.mx c.my c.mz (fun i j k => c.dx * c.dy * c.dz * capacity capa (aux i j k))
      (fun i j k => xIncrement3 undef rpy rty rtty c.rot capa stale (rot3 aux) (rot3 q) j k i) = 0 := by
    rw [← total3_rot]
    refine Eq.trans ?_ t2
    congr 1
    funext j k i
    simp only [rot3, Cfg3.rot]
    ring
  have t3' : total3 c.mx c.my c.mz (fun i j k => c.dx * c.dy * c.dz * capacity capa (aux i j k))
      (fun i j k => xIncrement3 undef rpz rtz rttz c.rot.rot capa stale (rot3 (rot3 aux)) (rot3 (rot3 q)) k i j) = 0 := by
    rw [← total3_rot, ← total3_rot]
    refine Eq.trans ?_ t3
    congr 1
    funext k i j
    simp only [rot3, Cfg3.rot]
    ring
  rw [t2', t3', add_zero, add_zero]

/-! ### Uniform states -/

/-- Transverse solvers that split nothing into nothing. -/
def Spec.QuietTransverse3 (rt : Transverse3 K A m) (rtt : Transverse33 K A m) : Prop :=
  (∀ icoor imp ql qr al ar, rt icoor imp ql qr al ar 0 = 0) ∧
  (∀ icoor imp impt ql qr al ar, rtt icoor imp impt ql qr al ar 0 = 0)

/-- The step does not read the uninitialised part of the work array: the scheme is not of first order, or the
correction terms are not propagated transversally, or the array happens to hold zeros. -/
def Spec.StaleUnused (c : Cfg3 K w) (stale : Int → Fin m → K) : Prop :=
  c.order ≠ 1 ∨ c.trans / 10 ≠ 2 ∨ stale = 0

theorem side_zero (u : Bool) : side u (0 : (Fin m → K) × (Fin m → K)) = 0 := by
  unfold side; cases u <;> rfl

theorem part_quiet (T : Trans3 K m) (icoor : Nat) (dtw : K) (imp : Nat) (u : Bool) (s : Int) (lam : K) (i : Int)
    (hs : T.asdq imp i = 0) (hc : T.m3 = 2 → T.cqxx i = 0) (ht : ∀ a b, T.t a b i 0 = 0)
    (htt : ∀ a b e, T.tt a b e i 0 = 0) : T.part icoor dtw imp u s lam i = 0 := by
  have e1 : ∀ ic, T.inc ic imp i = 0 := fun ic => by unfold Trans3.inc; rw [hs, ht]
  have e2 : ∀ ic im, T.cor ic im i = 0 := fun ic im => by
    unfold Trans3.cor
    split
    · rw [hc (by assumption), ht]
    · rfl
  have e3 : ∀ ic, T.second ic imp i = 0 := fun ic => by
    unfold Trans3.second; rw [e1, e2]; simp
  have e4 : ∀ ic it, T.double ic imp it i = 0 := fun ic it => by
    unfold Trans3.double; rw [e3, side_zero, htt]
  unfold Trans3.part
  dsimp only
  rw [e1, e2, e2, e4, e4, side_zero]
  simp

theorem sent3_quiet (undef : K) (rp : Riemann K A m w) (hr : Quiet rp) (rt : Transverse3 K A m)
    (rtt : Transverse33 K A m) (ht : QuietTransverse3 rt rtt) (c : Cfg3 K w) (capa : Option (A → K))
    (stale : Int → Fin m → K) (hst : StaleUnused c stale) (aux : Int → Int → Int → A)
    (q : Int → Int → Int → Fin m → K) (v : Fin m → K) (icoor : Nat) (dtw : K) (u : Bool) (s i j k : Int)
    (hq : ∀ n, i - 1 ≤ n → n ≤ i + 1 → q n j k = v) :
    sent3 undef rp rt rtt c capa stale aux q icoor dtw u s i j k = 0 := by
  have hd : ∀ n : Int, i ≤ n → n ≤ i + 1 →
      ∃ al ar, interfaces rp (fun i => aux i j k) (fun i => q i j k) n = rp v v al ar := by
    intro n a b
    refine ⟨aux (n - 1) j k, aux n j k, ?_⟩
    unfold interfaces
    dsimp only
    rw [hq n (by omega) (by omega), hq (n - 1) (by omega) (by omega)]
  have hp : ∀ (imp : Nat) (lam : K) (n : Int), i ≤ n → n ≤ i + 1 →
      (rowTrans3 undef rp rt rtt c capa stale aux q j k).part icoor dtw imp u s lam n = 0 := by
    intro imp lam n a b
    obtain ⟨al, ar, e⟩ := hd n a b
    refine part_quiet _ icoor dtw imp u s lam n ?_ (fun h3 => ?_) (fun e f => ht.1 ..) (fun e f g => ht.2 ..)
    · simp only [rowTrans3]
      rw [e, (hr v al ar).2.2, (hr v al ar).2.1, ite_self]
    · simp only [rowTrans3] at h3 ⊢
      split
      · rcases hst with h | h | h
        · exact absurd (by assumption) h
        · exact absurd h3 (splitMethod3_ne h)
        · rw [h]; rfl
      · unfold sliceFlux
        split
        · rfl
        · simp only [correctionFlux, limitedWave]
          rw [e]
          simp [(hr v al ar).1]
  unfold sent3
  dsimp only
  rw [hp 2 _ i (by omega) (by omega), hp 1 _ (i + 1) (by omega) (by omega), add_zero, ite_self]

theorem xIncrement3_quiet (undef : K) (rp : Riemann K A m w) (hr : Quiet rp) (rt : Transverse3 K A m)
    (rtt : Transverse33 K A m) (ht : QuietTransverse3 rt rtt) (c : Cfg3 K w) (capa : Option (A → K))
    (stale : Int → Fin m → K) (hst : StaleUnused c stale) (aux : Int → Int → Int → A)
    (q : Int → Int → Int → Fin m → K) (v : Fin m → K) (i j k : Int)
    (hq : ∀ a b e, i - 1 ≤ a → a ≤ i + 1 → j - 1 ≤ b → b ≤ j + 1 → k - 1 ≤ e → e ≤ k + 1 → q a b e = v) :
    xIncrement3 undef rp rt rtt c capa stale aux q i j k = 0 := by
  have h : ∀ (icoor : Nat) (dtw : K) (u : Bool) (s b e : Int), j - 1 ≤ b → b ≤ j + 1 → k - 1 ≤ e → e ≤ k + 1 →
      sent3 undef rp rt rtt c capa stale aux q icoor dtw u s i b e = 0 := fun icoor dtw u s b e b1 b2 e1 e2 =>
    sent3_quiet undef rp hr rt rtt ht c capa stale hst aux q v icoor dtw u s i b e
      fun n n1 n2 => hq n b e n1 n2 b1 b2 e1 e2
  unfold xIncrement3
  rw [rowStep_quiet undef rp hr c.row capa _ _ v i (fun n a b => hq n j k a b (by omega) (by omega) (by omega) (by omega)),
    hq i j k (by omega) (by omega) (by omega) (by omega) (by omega) (by omega)]
  unfold flux2of3 flux3of3
  dsimp only
  simp (disch := omega) only [h]
  simp

/-- C35 in three dimensions: the unsplit step leaves a uniform state unchanged, next to any aux values and capacities,
provided the step does not read the uninitialised part of the work array. -/
theorem C35_unsplit3_uniform_partial (undef : K) (rpx rpy rpz : Riemann K A m w) (hx : Quiet rpx) (hy : Quiet rpy)
    (hz : Quiet rpz) (rtx rty rtz : Transverse3 K A m) (rttx rtty rttz : Transverse33 K A m)
    (htx : QuietTransverse3 rtx rttx) (hty : QuietTransverse3 rty rtty) (htz : QuietTransverse3 rtz rttz)
    (c : Cfg3 K w) (hg : 1 ≤ c.g) (capa : Option (A → K)) (stale : Int → Fin m → K) (hst : StaleUnused c stale)
    (aux : Int → Int → Int → A) (q : Int → Int → Int → Fin m → K) (v : Fin m → K)
    (hq : ∀ i j k : Int, 0 ≤ i → i ≤ c.mx + 1 → 0 ≤ j → j ≤ c.my + 1 → 0 ≤ k → k ≤ c.mz + 1 → q i j k = v) (i j k : Int)
    (h1 : 1 ≤ i) (h2 : i ≤ c.mx) (h3 : 1 ≤ j) (h4 : j ≤ c.my) (h5 : 1 ≤ k) (h6 : k ≤ c.mz) :
    (unsplitStep3 undef rpx rpy rpz rtx rty rtz rttx rtty rttz c capa stale aux q).1 i j k = v := by
  rw [unsplitStep3_cell undef rpx rpy rpz rtx rty rtz rttx rtty rttz c hg capa stale aux q i j k h1 h2 h3 h4 h5 h6,
    xIncrement3_quiet undef rpx hx rtx rttx htx c capa stale hst aux q v i j k
      (fun a b e a1 a2 b1 b2 e1 e2 => hq a b e (by omega) (by omega) (by omega) (by omega) (by omega) (by omega)),
    xIncrement3_quiet undef rpy hy rty rtty hty c.rot capa stale hst (rot3 aux) (rot3 q) v j k i
      (fun b e a b1 b2 e1 e2 a1 a2 => hq a b e (by omega) (by omega) (by omega) (by omega) (by omega) (by omega)),
    xIncrement3_quiet undef rpz hz rtz rttz htz c.rot.rot capa stale hst (rot3 (rot3 aux)) (rot3 (rot3 q)) v k i j
      (fun e a b e1 e2 a1 a2 b1 b2 => hq a b e (by omega) (by omega) (by omega) (by omega) (by omega) (by omega)),
    hq i j k (by omega) (by omega) (by omega) (by omega) (by omega) (by omega)]
  simp

/-! ### Locality, one-dimensional data -/

theorem xIncrement3_congr (undef : K) (rp : Riemann K A m w) (rt : Transverse3 K A m) (rtt : Transverse33 K A m)
    (c : Cfg3 K w) (capa : Option (A → K)) (stale : Int → Fin m → K) (aux aux' : Int → Int → Int → A)
    (q q' : Int → Int → Int → Fin m → K) (i j k : Int)
    (hq : ∀ a b e : Int, i - 2 ≤ a → a ≤ i + 2 → j - 1 ≤ b → b ≤ j + 1 → k - 1 ≤ e → e ≤ k + 1 → q a b e = q' a b e)
    (ha : ∀ a b e : Int, i - 2 ≤ a → a ≤ i + 2 → j - 2 ≤ b → b ≤ j + 2 → k - 2 ≤ e → e ≤ k + 2 →
      aux a b e = aux' a b e) :
    xIncrement3 undef rp rt rtt c capa stale aux q i j k = xIncrement3 undef rp rt rtt c capa stale aux' q' i j k := by
  have h : ∀ (icoor : Nat) (dtw : K) (u : Bool) (s b e : Int), j - 1 ≤ b → b ≤ j + 1 → k - 1 ≤ e → e ≤ k + 1 →
      sent3 undef rp rt rtt c capa stale aux q icoor dtw u s i b e =
        sent3 undef rp rt rtt c capa stale aux' q' icoor dtw u s i b e := fun icoor dtw u s b e b1 b2 e1 e2 =>
    sent3_congr undef rp rt rtt c capa stale aux aux' q q' icoor dtw u s i b e b e
      (fun n n1 n2 => hq n b e n1 n2 b1 b2 e1 e2) fun n n1 n2 => by
        funext x y
        have hx := x.isLt
        have hy := y.isLt
        exact ha n _ _ n1 n2 (by omega) (by omega) (by omega) (by omega)
  have a0 : ∀ a : Int, i - 2 ≤ a → a ≤ i + 2 → aux a j k = aux' a j k := fun a a1 a2 =>
    ha a j k a1 a2 (by omega) (by omega) (by omega) (by omega)
  have q0 : ∀ a : Int, i - 2 ≤ a → a ≤ i + 2 → q a j k = q' a j k := fun a a1 a2 =>
    hq a j k a1 a2 (by omega) (by omega) (by omega) (by omega)
  have l2 : localRatio c.dt c.dy capa (fun j => aux i j k) j = localRatio c.dt c.dy capa (fun j => aux' i j k) j := by
    unfold localRatio; dsimp only; rw [a0 i (by omega) (by omega)]
  have l3 : localRatio c.dt c.dz capa (fun k => aux i j k) k = localRatio c.dt c.dz capa (fun k => aux' i j k) k := by
    unfold localRatio; dsimp only; rw [a0 i (by omega) (by omega)]
  unfold xIncrement3
  rw [rowStep_local undef rp c.row capa _ (fun i => aux' i j k) _ (fun i => q' i j k) i a0 q0, l2, l3,
    q0 i (by omega) (by omega)]
  unfold flux2of3 flux3of3
  dsimp only
  simp (disch := omega) only [h]

/-- C40 in three dimensions: a cell of the unsplit step depends on the data and aux values of the cells at distance at
most two in each direction. -/
theorem C40_unsplit3_local (undef : K) (rpx rpy rpz : Riemann K A m w) (rtx rty rtz : Transverse3 K A m)
    (rttx rtty rttz : Transverse33 K A m) (c : Cfg3 K w) (hg : 1 ≤ c.g) (capa : Option (A → K))
    (stale : Int → Fin m → K) (aux aux' : Int → Int → Int → A) (q q' : Int → Int → Int → Fin m → K) (i j k : Int)
    (h1 : 1 ≤ i) (h2 : i ≤ c.mx) (h3 : 1 ≤ j) (h4 : j ≤ c.my) (h5 : 1 ≤ k) (h6 : k ≤ c.mz)
    (hq : ∀ a b e : Int, i - 2 ≤ a → a ≤ i + 2 → j - 2 ≤ b → b ≤ j + 2 → k - 2 ≤ e → e ≤ k + 2 → q a b e = q' a b e)
    (ha : ∀ a b e : Int, i - 2 ≤ a → a ≤ i + 2 → j - 2 ≤ b → b ≤ j + 2 → k - 2 ≤ e → e ≤ k + 2 →
      aux a b e = aux' a b e) :
    (unsplitStep3 undef rpx rpy rpz rtx rty rtz rttx rtty rttz c capa stale aux q).1 i j k =
      (unsplitStep3 undef rpx rpy rpz rtx rty rtz rttx rtty rttz c capa stale aux' q').1 i j k := by
  rw [unsplitStep3_cell undef rpx rpy rpz rtx rty rtz rttx rtty rttz c hg capa stale aux q i j k h1 h2 h3 h4 h5 h6,
    unsplitStep3_cell undef rpx rpy rpz rtx rty rtz rttx rtty rttz c hg capa stale aux' q' i j k h1 h2 h3 h4 h5 h6,
    xIncrement3_congr undef rpx rtx rttx c capa stale aux aux' q q' i j k
      (fun a b e a1 a2 b1 b2 e1 e2 => hq a b e (by omega) (by omega) (by omega) (by omega) (by omega) (by omega)) ha,
    xIncrement3_congr undef rpy rty rtty c.rot capa stale (rot3 aux) (rot3 aux') (rot3 q) (rot3 q') j k i
      (fun b e a b1 b2 e1 e2 a1 a2 => hq a b e (by omega) (by omega) (by omega) (by omega) (by omega) (by omega))
      (fun b e a b1 b2 e1 e2 a1 a2 => ha a b e a1 a2 b1 b2 e1 e2),
    xIncrement3_congr undef rpz rtz rttz c.rot.rot capa stale (rot3 (rot3 aux)) (rot3 (rot3 aux')) (rot3 (rot3 q))
      (rot3 (rot3 q')) k i j
      (fun e a b e1 e2 a1 a2 b1 b2 => hq a b e (by omega) (by omega) (by omega) (by omega) (by omega) (by omega))
      (fun e a b e1 e2 a1 a2 b1 b2 => ha a b e a1 a2 b1 b2 e1 e2),
    hq i j k (by omega) (by omega) (by omega) (by omega) (by omega) (by omega)]

/-- C72: data and aux values that depend on `x` only are advanced as by the one-dimensional step along `x`. -/
theorem C72_one_dimensional_data (undef : K) (rpx rpy rpz : Riemann K A m w) (hy : Quiet rpy) (hz : Quiet rpz)
    (rtx rty rtz : Transverse3 K A m) (rttx rtty rttz : Transverse33 K A m) (hty : QuietTransverse3 rty rtty)
    (htz : QuietTransverse3 rtz rttz) (c : Cfg3 K w) (hg : 1 ≤ c.g) (capa : Option (A → K)) (stale : Int → Fin m → K)
    (hst : StaleUnused c stale) (a1 : Int → A) (q1 : Int → Fin m → K) (i j k : Int)
    (h1 : 1 ≤ i) (h2 : i ≤ c.mx) (h3 : 1 ≤ j) (h4 : j ≤ c.my) (h5 : 1 ≤ k) (h6 : k ≤ c.mz) :
    (unsplitStep3 undef rpx rpy rpz rtx rty rtz rttx rtty rttz c capa stale (fun i _ _ => a1 i) (fun i _ _ => q1 i)).1
      i j k = rowStep undef rpx c.row capa a1 q1 i := by
  rw [unsplitStep3_cell undef rpx rpy rpz rtx rty rtz rttx rtty rttz c hg capa stale _ _ i j k h1 h2 h3 h4 h5 h6]
  have sx : ∀ (icoor : Nat) (dtw : K) (u : Bool) (s b e b' e' : Int),
      sent3 undef rpx rtx rttx c capa stale (fun i _ _ => a1 i) (fun i _ _ => q1 i) icoor dtw u s i b e =
        sent3 undef rpx rtx rttx c capa stale (fun i _ _ => a1 i) (fun i _ _ => q1 i) icoor dtw u s i b' e' :=
    fun icoor dtw u s b e b' e' => sent3_congr undef rpx rtx rttx c capa stale _ _ _ _ icoor dtw u s i b e b' e'
      (fun _ _ _ => rfl) (fun _ _ _ => rfl)
  have hx : xIncrement3 undef rpx rtx rttx c capa stale (fun i _ _ => a1 i) (fun i _ _ => q1 i) i j k =
      rowStep undef rpx c.row capa a1 q1 i - q1 i := by
    have e2 : flux2of3 undef rpx rtx rttx c capa stale (fun i _ _ => a1 i) (fun i _ _ => q1 i) i (j + 1) k =
        flux2of3 undef rpx rtx rttx c capa stale (fun i _ _ => a1 i) (fun i _ _ => q1 i) i j k := by
      unfold flux2of3
      exact congrArg₂ (· + ·) (congrArg₂ (· + ·) (congrArg₂ (· + ·) (sx ..) (sx ..))
        (congrArg₂ (· + ·) (sx ..) (sx ..))) (congrArg₂ (· + ·) (sx ..) (sx ..))
    have e3 : flux3of3 undef rpx rtx rttx c capa stale (fun i _ _ => a1 i) (fun i _ _ => q1 i) i j (k + 1) =
        flux3of3 undef rpx rtx rttx c capa stale (fun i _ _ => a1 i) (fun i _ _ => q1 i) i j k := by
      unfold flux3of3
      exact congrArg₂ (· + ·) (congrArg₂ (· + ·) (congrArg₂ (· + ·) (sx ..) (sx ..))
        (congrArg₂ (· + ·) (sx ..) (sx ..))) (congrArg₂ (· + ·) (sx ..) (sx ..))
    unfold xIncrement3
    rw [e2, e3]
    simp
  have key : ∀ (rp : Riemann K A m w) (_ : Quiet rp) (rt : Transverse3 K A m) (rtt : Transverse33 K A m)
      (_ : QuietTransverse3 rt rtt) (c' : Cfg3 K w) (_ : StaleUnused c' stale) (aux : Int → Int → Int → A)
      (q : Int → Int → Int → Fin m → K) (a b e : Int), (∀ n b e, q n b e = q a b e) →
      (∀ (icoor : Nat) (dtw : K) (u : Bool) (s b e : Int),
        sent3 undef rp rt rtt c' capa stale aux q icoor dtw u s a b e = 0) ∧
      rowStep undef rp c'.row capa (fun i => aux i b e) (fun i => q i b e) a - q a b e = 0 := by
    intro rp hr rt rtt ht c' hst' aux q a b e hq
    refine ⟨fun icoor dtw u s b e => sent3_quiet undef rp hr rt rtt ht c' capa stale hst' aux q (q a b e) icoor dtw u s
      a b e fun n _ _ => hq n b e, ?_⟩
    rw [rowStep_quiet undef rp hr c'.row capa _ _ (q a b e) a fun n _ _ => hq n b e, sub_self]
  obtain ⟨y1, y2⟩ := key rpy hy rty rtty hty c.rot hst (rot3 fun i _ _ => a1 i) (rot3 fun i _ _ => q1 i) j k i
    (fun _ _ _ => rfl)
  obtain ⟨z1, z2⟩ := key rpz hz rtz rttz htz c.rot.rot hst (rot3 (rot3 fun i _ _ => a1 i))
    (rot3 (rot3 fun i _ _ => q1 i)) k i j (fun _ _ _ => rfl)
  have hy0 : xIncrement3 undef rpy rty rtty c.rot capa stale (rot3 fun i _ _ => a1 i) (rot3 fun i _ _ => q1 i) j k i = 0 := by
    unfold xIncrement3 flux2of3 flux3of3
    rw [y2]
    simp only [y1]
    simp
  have hz0 : xIncrement3 undef rpz rtz rttz c.rot.rot capa stale (rot3 (rot3 fun i _ _ => a1 i))
      (rot3 (rot3 fun i _ _ => q1 i)) k i j = 0 := by
    unfold xIncrement3 flux2of3 flux3of3
    rw [z2]
    simp only [z1]
    simp
  rw [hx, hy0, hz0]
  simp

/-! ### Courant numbers -/

theorem step3X_cfl (undef : K) (rp : Riemann K A m w) (rt : Transverse3 K A m) (rtt : Transverse33 K A m)
    (c : Cfg3 K w) (hdt : 0 ≤ c.dt) (hdx : 0 < c.dx) (capa : Option (A → K)) (stale : Int → Fin m → K)
    (aux : Int → Int → Int → A) (q qn : Int → Int → Int → Fin m → K)
    (hk : ∀ κ, capa = some κ → ∀ i j k : Int, 0 ≤ i → i ≤ c.mx + 1 → 0 ≤ j → j ≤ c.my + 1 → 0 ≤ k → k ≤ c.mz + 1 →
      0 < κ (aux i j k)) :
    IsLargest (rowCourants3 rp c.dt c.dx capa aux q c.mx (c.my + 1) (c.mz + 1))
      (step3X undef rp rt rtt c capa stale aux q qn).2 := by
  let S := fun j k => unsplitSlice3 undef rp rt rtt c capa stale aux q j k
  have e : (step3X undef rp rt rtt c capa stale aux q qn).2 =
      (pairs 0 (c.my + 2) 0 (c.mz + 2)).foldl (fun x (y : Int × Int) => max x (S y.1 y.2).cfl) 0 := by
    unfold step3X
    have := foldl_pairs (fun (st : (Int → Int → Int → Fin m → K) × K) (y : Int × Int) =>
      (unsplitUpdate3 c capa aux y.1 y.2 (S y.1 y.2) st.1, max st.2 (S y.1 y.2).cfl)) 0 (c.my + 2) 0 (c.mz + 2) (qn, 0)
    refine (congrArg Prod.snd this).trans ?_
    exact foldl_max_snd (fun v (y : Int × Int) => unsplitUpdate3 c capa aux y.1 y.2 (S y.1 y.2) v)
      (fun (y : Int × Int) => (S y.1 y.2).cfl) _ qn 0
  have e2 : ∀ j k, (S j k).cfl = fCfl c.mx (localRatio c.dt c.dx capa fun i => aux i j k)
      (interfaces rp (fun i => aux i j k) (fun i => q i j k)) := by
    intro j k
    show (unsplitSlice3 undef rp rt rtt c capa stale aux q j k).cfl = _
    unfold unsplitSlice3
    rw [flux3Slice_cfl, sliceRatio_eq]
    rfl
  rw [e]
  simp only [e2]
  exact rows_max3 rp c.dt c.dx hdt hdx capa aux q c.mx c.my c.mz hk

/-- C37 in three dimensions: the Courant number reported by the unsplit step is the largest over the waves at the
interfaces of the initial data in the three directions, in the interior rows and one row of ghost cells on each side,
or 0. -/
theorem C37_unsplit3_cfl (undef : K) (rpx rpy rpz : Riemann K A m w) (rtx rty rtz : Transverse3 K A m)
    (rttx rtty rttz : Transverse33 K A m) (c : Cfg3 K w) (hdt : 0 ≤ c.dt)
    (hdx : 0 < c.dx) (hdy : 0 < c.dy) (hdz : 0 < c.dz) (capa : Option (A → K)) (stale : Int → Fin m → K)
    (aux : Int → Int → Int → A) (q : Int → Int → Int → Fin m → K)
    (hk : ∀ κ, capa = some κ → ∀ i j k : Int, 0 ≤ i → i ≤ c.mx + 1 → 0 ≤ j → j ≤ c.my + 1 → 0 ≤ k → k ≤ c.mz + 1 →
      0 < κ (aux i j k)) :
    IsLargest (rowCourants3 rpx c.dt c.dx capa aux q c.mx (c.my + 1) (c.mz + 1) ∪
      rowCourants3 rpy c.dt c.dy capa (fun j k i => aux i j k) (fun j k i => q i j k) c.my (c.mz + 1) (c.mx + 1) ∪
      rowCourants3 rpz c.dt c.dz capa (fun k i j => aux i j k) (fun k i j => q i j k) c.mz (c.mx + 1) (c.my + 1))
      (unsplitStep3 undef rpx rpy rpz rtx rty rtz rttx rtty rttz c capa stale aux q).2 :=
  isLargest_max _ _ _ _ (isLargest_max _ _ _ _ (step3X_cfl undef rpx rtx rttx c hdt hdx capa stale aux q q hk)
    (step3X_cfl undef rpy rty rtty c.rot hdt hdy capa stale (rot3 aux) (rot3 q) _
      fun κ h j k i a1 a2 b1 b2 c1 c2 => hk κ h i j k c1 c2 a1 a2 b1 b2))
    (step3X_cfl undef rpz rtz rttz c.rot.rot hdt hdz capa stale (rot3 (rot3 aux)) (rot3 (rot3 q)) _
      fun κ h k i j a1 a2 b1 b2 c1 c2 => hk κ h i j k b1 b2 c1 c2 a1 a2)

/-! ### The hypotheses are met -/

/-- Transverse solvers that depend on everything they can. -/
def ex3Rt : Transverse3 ℚ Unit 1 := fun icoor imp ql qr _ _ a =>
  if imp = 1 then ((icoor : ℚ) • a, ql 0 • a) else (a, (qr 0 + icoor) • a)

/-- A double transverse solver. -/
def ex3Rtt : Transverse33 ℚ Unit 1 := fun icoor imp impt _ qr _ _ a =>
  if imp = impt then ((icoor : ℚ) • a, qr 0 • a) else (a, (2 : ℚ) • a)

theorem ex3_quiet : QuietTransverse3 ex3Rt ex3Rtt := by
  constructor
  · intro icoor imp ql qr al ar
    unfold ex3Rt
    split <;> simp
  · intro icoor imp impt ql qr al ar
    unfold ex3Rtt
    split <;> simp

example : FluxDifference (advectionRp (2 : ℚ)) (fun q _ => (2 : ℚ) • q) ∧ Quiet (advectionRp (2 : ℚ)) ∧
    QuietTransverse3 ex3Rt ex3Rtt ∧ StaleUnused ex3Cfg (fun (_ : Int) (_ : Fin 1) => (5 : ℚ)) :=
  ⟨advectionRp_flux 2, advectionRp_quiet 2, ex3_quiet, Or.inl (by decide)⟩

/-- A 3 by 4 by 3 grid, second order, all transverse corrections, MC limiter. -/
def ex33Cfg : Cfg3 ℚ 1 := ⟨3, 4, 3, 2, 1 / 2, 1, 1, 1 / 2, 2, 22, false, false, fun _ => 4⟩

/-- Triply periodic data. -/
def ex33Q : Int → Int → Int → Fin 1 → ℚ := fun i j k _ =>
  (i % 3 : Int) + 2 * (j % 4 : Int) * (j % 4 : Int) + 5 * (k % 3 : Int) * (i % 3 : Int) + (j % 4 : Int) * (k % 3 : Int)

theorem ex33_periodic : (∀ j k, PeriodicGhost 1 ex33Cfg.g ex33Cfg.mx (fun i => ex33Q i j k)) ∧
    (∀ i k, PeriodicGhost 1 ex33Cfg.g ex33Cfg.my (fun j => ex33Q i j k)) ∧
    (∀ i j, PeriodicGhost 1 ex33Cfg.g ex33Cfg.mz (fun k => ex33Q i j k)) := by
  refine ⟨fun j k i _ _ => ?_, fun i k j _ _ => ?_, fun i j k _ _ => ?_⟩ <;> funext n <;> simp [ex33Q, ex33Cfg]

/-- The parameters of the example with another order and `transverse_waves`. -/
def ex33With (order trans : Int) : Cfg3 ℚ 1 := { ex33Cfg with order := order, trans := trans }

/-- The step on these data. -/
def ex33Step (order trans : Int) (stale : ℚ) : (Int → Int → Int → Fin 1 → ℚ) × ℚ :=
  unsplitStep3 0 (advectionRp 1) (advectionRp (-1)) (advectionRp 3) ex3Rt ex3Rt ex3Rt ex3Rtt ex3Rtt ex3Rtt
      (ex33With order trans) none (fun _ _ => stale) (fun _ _ _ => ()) ex33Q

/-- The value in the cell `(1,2,1)`, in the form of `C72_update`. -/
def ex33Value (order trans : Int) (stale : ℚ) : ℚ :=
  let c := ex33With order trans
  let s : Int → Fin 1 → ℚ := fun _ _ => stale
  let u : Int → Int → Int → Unit := fun _ _ _ => ()
  (ex33Q 1 2 1 + xIncrement3 0 (advectionRp 1) ex3Rt ex3Rtt c none s u ex33Q 1 2 1 +
    xIncrement3 0 (advectionRp (-1)) ex3Rt ex3Rtt c.rot none s (rot3 u) (rot3 ex33Q) 2 1 1 +
    xIncrement3 0 (advectionRp 3) ex3Rt ex3Rtt c.rot.rot none s (rot3 (rot3 u)) (rot3 (rot3 ex33Q)) 1 1 2) 0

theorem ex33Value_eq (order trans : Int) (stale : ℚ) :
    (ex33Step order trans stale).1 1 2 1 0 = ex33Value order trans stale := by
  unfold ex33Step
  rw [unsplitStep3_cell 0 (advectionRp 1) (advectionRp (-1)) (advectionRp 3) ex3Rt ex3Rt ex3Rt ex3Rtt ex3Rtt ex3Rtt
    (ex33With order trans) (by simp [ex33With, ex33Cfg]) none _ _ _ 1 2 1 (by simp) (by simp [ex33With, ex33Cfg])
    (by simp) (by simp [ex33With, ex33Cfg]) (by simp) (by simp [ex33With, ex33Cfg])]
  rfl

/-- The step is not trivial on these data: all parts of the transverse corrections change the result. -/
theorem ex33_nontrivial : ([0, 10, 11, 20, 21, 22].map fun t => (ex33Step 2 t 0).1 1 2 1 0) =
    [151 / 8, 1179 / 8, -2101 / 8, -371 / 2, -1191 / 2, -2753 / 8] := by
  simp only [List.map, ex33Value_eq]
  decide +kernel

/-! ### The uninitialised work array -/

/-- C72, the result is determined by the data and the parameters: two runs of the step on the same data give the same
result if the scheme is not of first order or does not propagate correction terms. -/
theorem C72_determined_partial (undef : K) (rpx rpy rpz : Riemann K A m w) (rtx rty rtz : Transverse3 K A m)
    (rttx rtty rttz : Transverse33 K A m) (c : Cfg3 K w) (hg : 1 ≤ c.g) (capa : Option (A → K))
    (stale stale' : Int → Fin m → K) (hst : c.order ≠ 1 ∨ c.trans / 10 ≠ 2) (aux : Int → Int → Int → A)
    (q : Int → Int → Int → Fin m → K) (i j k : Int)
    (h1 : 1 ≤ i) (h2 : i ≤ c.mx) (h3 : 1 ≤ j) (h4 : j ≤ c.my) (h5 : 1 ≤ k) (h6 : k ≤ c.mz) :
    (unsplitStep3 undef rpx rpy rpz rtx rty rtz rttx rtty rttz c capa stale aux q).1 i j k =
      (unsplitStep3 undef rpx rpy rpz rtx rty rtz rttx rtty rttz c capa stale' aux q).1 i j k := by
  have hs : ∀ (rp : Riemann K A m w) (rt : Transverse3 K A m) (rtt : Transverse33 K A m) (c' : Cfg3 K w)
      (_ : c'.order ≠ 1 ∨ c'.trans / 10 ≠ 2) (aux : Int → Int → Int → A) (q : Int → Int → Int → Fin m → K)
      (icoor : Nat) (dtw : K) (u : Bool) (s i j k : Int),
      sent3 undef rp rt rtt c' capa stale aux q icoor dtw u s i j k =
        sent3 undef rp rt rtt c' capa stale' aux q icoor dtw u s i j k := by
    intro rp rt rtt c' h aux q icoor dtw u s i j k
    have hp : ∀ (imp : Nat) (lam : K) (n : Int),
        (rowTrans3 undef rp rt rtt c' capa stale aux q j k).part icoor dtw imp u s lam n =
        (rowTrans3 undef rp rt rtt c' capa stale' aux q j k).part icoor dtw imp u s lam n := by
      intro imp lam n
      have ecor : ∀ a b, (rowTrans3 undef rp rt rtt c' capa stale aux q j k).cor a b n =
          (rowTrans3 undef rp rt rtt c' capa stale' aux q j k).cor a b n := by
        intro a b
        unfold Trans3.cor
        rcases h with h | h
        · simp only [rowTrans3, if_neg h]
        · have h' : ¬ (splitMethod3 c'.trans).1 = 2 := splitMethod3_ne h
          exact (if_neg h').trans (if_neg h').symm
      have esec : ∀ a, (rowTrans3 undef rp rt rtt c' capa stale aux q j k).second a imp n =
          (rowTrans3 undef rp rt rtt c' capa stale' aux q j k).second a imp n := by
        intro a
        unfold Trans3.second
        rw [ecor]
        rfl
      have edbl : ∀ a b, (rowTrans3 undef rp rt rtt c' capa stale aux q j k).double a imp b n =
          (rowTrans3 undef rp rt rtt c' capa stale' aux q j k).double a imp b n := by
        intro a b
        unfold Trans3.double
        rw [esec]
        rfl
      unfold Trans3.part
      simp only [ecor, edbl]
      rfl
    unfold sent3
    simp only [hp]
    rfl
  rw [unsplitStep3_cell undef rpx rpy rpz rtx rty rtz rttx rtty rttz c hg capa stale aux q i j k h1 h2 h3 h4 h5 h6,
    unsplitStep3_cell undef rpx rpy rpz rtx rty rtz rttx rtty rttz c hg capa stale' aux q i j k h1 h2 h3 h4 h5 h6]
  unfold xIncrement3 flux2of3 flux3of3
  dsimp only
  simp only [hs rpx rtx rttx c hst, hs rpy rty rtty c.rot hst, hs rpz rtz rttz c.rot.rot hst]

/-- C72, determinacy, is false for `order = 1` with `transverse_waves = 22` (the default), when the transverse solver
depends on the states: what is in the uninitialised work array enters the result. -/
theorem C72_determined_violated : ∃ s s' : ℚ, (ex33Step 1 22 s).1 1 2 1 0 ≠ (ex33Step 1 22 s').1 1 2 1 0 := by
  refine ⟨0, 1, ?_⟩
  rw [ex33Value_eq, ex33Value_eq]
  decide +kernel

/-- The conservation theorem applies to the example, whatever the work array holds. -/
example (order trans : Int) (stale : ℚ) :
    total3 3 4 3 (fun _ _ _ => (1 * 1 * (1 / 2) * 1 : ℚ)) (ex33Step order trans stale).1 =
      total3 3 4 3 (fun _ _ _ => (1 * 1 * (1 / 2) * 1 : ℚ)) ex33Q :=
  C72_conserves 0 (advectionRp 1) (advectionRp (-1)) (advectionRp 3) ex3Rt ex3Rt ex3Rt ex3Rtt ex3Rtt ex3Rtt _ _ _
    (advectionRp_flux 1) (advectionRp_flux (-1)) (advectionRp_flux 3) (ex33With order trans) (le_refl 2)
    (by simp [ex33With, ex33Cfg]) (by simp [ex33With, ex33Cfg]) (by simp [ex33With, ex33Cfg]) none _ _ _
    (fun _ h => by simp at h) (fun j k _ _ _ _ => ex33_periodic.1 j k) (fun i k _ _ _ _ => ex33_periodic.2.1 i k)
    (fun i j _ _ _ _ => ex33_periodic.2.2 i j) (fun _ _ _ _ _ _ _ _ _ => rfl) (fun _ _ _ _ _ _ _ _ _ => rfl)
    (fun _ _ _ _ _ _ _ _ _ => rfl)

/-- C35 is false for `order = 1` with `transverse_waves = 22` when the aux values vary: a uniform state, at rest for the
solvers (no waves at all), is changed by what the work array holds. The aux value is the transverse speed. -/
theorem C35_unsplit3_uniform_violated :
    let rt : Transverse3 ℚ ℚ 1 := fun _ _ _ _ _ ar a => (0, ar 1 1 • a)
    let rtt : Transverse33 ℚ ℚ 1 := fun _ _ _ _ _ _ _ _ => 0
    QuietTransverse3 rt rtt ∧
    (unsplitStep3 0 (fun _ _ _ _ => (⟨fun _ => 0, fun _ => 0, 0, 0⟩ : Rp ℚ 1 1)) (fun _ _ _ _ => ⟨fun _ => 0, fun _ => 0, 0, 0⟩)
      (fun _ _ _ _ => ⟨fun _ => 0, fun _ => 0, 0, 0⟩) rt rt rt rtt rtt rtt (ex33With 1 22) none (fun i _ => (i : ℚ))
      (fun _ j _ => (j : ℚ)) (fun _ _ _ _ => 7)).1 1 2 1 0 ≠ 7 := by
  refine ⟨⟨fun _ _ _ _ _ _ => by simp, fun _ _ _ _ _ _ _ => rfl⟩, ?_⟩
  rw [unsplitStep3_cell _ _ _ _ _ _ _ _ _ _ (ex33With 1 22) (by simp [ex33With, ex33Cfg]) none _ _ _ 1 2 1 (by simp)
    (by simp [ex33With, ex33Cfg]) (by simp) (by simp [ex33With, ex33Cfg]) (by simp) (by simp [ex33With, ex33Cfg])]
  decide +kernel

end PyClaw
