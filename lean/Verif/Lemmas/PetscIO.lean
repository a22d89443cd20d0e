import Verif.Model.PetscIO
import Verif.Spec.PetscIO
import Verif.Lemmas.Hdf5
import Verif.Props.Hdf5

/-!
Lemmas for C97: cutting grids into boxes, and vectors in natural order.
-/
set_option linter.unusedSectionVars false

namespace PyClaw

variable {V X : Type}

/-! ### One axis -/

theorem countP_bounds (c : List Nat) (hs : c.Pairwise (· < ·)) (k x : Nat) (h1 : k < c.length) (h2 : c.getD k 0 ≤ x)
    (h3 : ∀ y, c[k + 1]? = some y → x < y) : c.countP (fun b => decide (b ≤ x)) = k + 1 := by
  induction c generalizing k with
  | nil => simp at h1
  | cons b c ih =>
    rw [List.pairwise_cons] at hs
    cases k with
    | zero =>
      simp only [List.getD_cons_zero] at h2
      have h0 : c.countP (fun b => decide (b ≤ x)) = 0 := by
        rw [List.countP_eq_zero]
        intro y hy
        cases c with
        | nil => simp at hy
        | cons d c =>
          have hd := h3 d (by simp)
          rw [List.pairwise_cons] at hs
          rcases List.mem_cons.mp hy with rfl | hy
          · simpa using hd
          · have := hs.2.1 y hy
            simp
            omega
      rw [List.countP_cons_of_pos (by simpa using h2), h0]
    | succ k =>
      rw [List.getD_cons_succ] at h2
      have hk : k < c.length := by simpa using h1
      have hb : b ≤ x := by
        have := hs.1 (c.getD k 0) (by rw [List.getD_eq_getElem _ _ hk]; exact List.getElem_mem hk)
        omega
      rw [List.countP_cons_of_pos (by simpa using hb), ih hs.2 k hk h2 (fun y hy => h3 y (by simpa using hy))]

/-- The bounds along one axis. -/
def GoodBounds (c : List Nat) (n : Nat) : Prop := c.head? = some 0 ∧ c.getLast? = some n ∧ c.Pairwise (· < ·)

theorem owner_axis (c : List Nat) (n : Nat) (h : GoodBounds c n) (k i x : Nat) (hk : k < c.length - 1)
    (hi : i < c.getD (k + 1) 0 - c.getD k 0) (hx : x = i + c.getD k 0) :
    c.tail.countP (fun b => decide (b ≤ x)) = k ∧ x - c.getD k 0 = i ∧ x < n := by
  obtain ⟨h0, hl, hs⟩ := h
  have hk1 : k + 1 < c.length := by omega
  have hc := countP_bounds c hs k x (by omega) (by omega) (fun y hy => by
    rw [List.getD_eq_getElem?_getD, hy] at hi
    simp only [Option.getD_some] at hi
    omega)
  refine ⟨?_, by omega, ?_⟩
  · cases c with
    | nil => simp at hk
    | cons b c =>
      simp only [List.head?_cons, Option.some.injEq] at h0
      subst h0
      rw [List.countP_cons_of_pos (by simp)] at hc
      simpa using hc
  · have hle : c.getD (k + 1) 0 ≤ n := by
      have hlen : 0 < c.length := by omega
      have hn : c[c.length - 1]'(by omega) = n := by
        rw [List.getLast?_eq_getElem?, List.getElem?_eq_getElem (by omega)] at hl
        exact Option.some.inj hl
      rw [List.getD_eq_getElem _ _ hk1]
      rcases Nat.lt_or_ge (k + 1) (c.length - 1) with h | h
      · have := List.pairwise_iff_getElem.mp hs (k + 1) (c.length - 1) hk1 (by omega) h
        omega
      · have : k + 1 = c.length - 1 := by omega
        simp only [this, hn, le_refl]
    omega

theorem owner_axis_exists (c : List Nat) (n : Nat) (h : GoodBounds c n) (x : Nat) (hx : x < n) :
    ∃ k < c.length - 1, c.getD k 0 ≤ x ∧ x < c.getD (k + 1) 0 := by
  obtain ⟨h0, hl, hs⟩ := h
  have main : ∀ c : List Nat, c.getLast? = some n → (∀ b, c.head? = some b → b ≤ x) →
      ∃ k < c.length - 1, c.getD k 0 ≤ x ∧ x < c.getD (k + 1) 0 := by
    intro c
    induction c with
    | nil => intro h; simp at h
    | cons b c ih =>
      intro hl hb
      have hb := hb b rfl
      cases c with
      | nil => simp at hl; omega
      | cons d c =>
        by_cases hd : x < d
        · exact ⟨0, by simp, by simpa using hb, by simpa using hd⟩
        · obtain ⟨k, hk, h1, h2⟩ := ih (by simpa using hl) (fun y hy => by simp at hy; omega)
          refine ⟨k + 1, by simp at hk ⊢; omega, by simpa using h1, by simpa using h2⟩
  exact main c hl (fun b hb => by rw [h0] at hb; simp at hb; omega)

/-! ### All axes -/

theorem unrankF_lt (shape : List Nat) (k : Nat) (h : k < shape.prod) : List.Forall₂ (· < ·) (unrankF shape k) shape := by
  induction shape generalizing k with
  | nil => exact .nil
  | cons n ns ih =>
    rw [List.prod_cons] at h
    have hn : 0 < n := by
      rcases Nat.eq_zero_or_pos n with h0 | h0
      · subst h0; simp at h
      · exact h0
    exact .cons (Nat.mod_lt _ hn) (ih _ (Nat.div_lt_of_lt_mul h))

theorem rankF_unrankF (shape : List Nat) (k : Nat) (h : k < shape.prod) : rankF shape (unrankF shape k) = k := by
  induction shape generalizing k with
  | nil => simp at h; simp [unrankF, rankF, h]
  | cons n ns ih =>
    rw [List.prod_cons] at h
    unfold unrankF rankF
    rw [ih _ (Nat.div_lt_of_lt_mul h), Nat.mod_add_div]

theorem axes_owner {L : CutGrid} {sizes : List Nat} (hL : Spec.GoodCut L sizes) (ks : List Nat)
    (hk : List.Forall₂ (· < ·) ks L.procs) (i x : List Nat)
    (hi : List.Forall₂ (· < ·) i (List.zipWith (fun c k => c.getD (k + 1) 0 - c.getD k 0) L ks))
    (hx : x = List.zipWith (fun a b => a + b) i (List.zipWith (fun c k => c.getD k 0) L ks)) :
    List.zipWith (fun c x => c.tail.countP fun b => decide (b ≤ x)) L x = ks ∧
      List.zipWith (fun x l => x - l) x (List.zipWith (fun c k => c.getD k 0) L ks) = i ∧ List.Forall₂ (· < ·) x sizes := by
  induction hL generalizing ks i x with
  | nil =>
    cases hk
    cases hi
    subst hx
    exact ⟨rfl, rfl, .nil⟩
  | cons hc _ ih =>
    rename_i c n L ns _
    cases hk with
    | cons hk hks =>
      rename_i k ks
      rw [List.zipWith_cons_cons] at hi
      cases hi with
      | cons hi his =>
        rename_i i is
        obtain ⟨h1, h2, h3⟩ := ih ks hks is _ his rfl
        obtain ⟨a1, a2, a3⟩ := owner_axis c n hc k i _ hk hi rfl
        subst hx
        simp only [List.zipWith_cons_cons]
        refine ⟨by rw [a1, h1], by rw [a2, h2], .cons a3 h3⟩

theorem axes_exist {L : CutGrid} {sizes : List Nat} (hL : Spec.GoodCut L sizes) (x : List Nat) (hx : List.Forall₂ (· < ·) x sizes) :
    ∃ ks, List.Forall₂ (· < ·) ks L.procs ∧
      List.Forall₂ (· < ·) (List.zipWith (fun x l => x - l) x (List.zipWith (fun c k => c.getD k 0) L ks))
        (List.zipWith (fun c k => c.getD (k + 1) 0 - c.getD k 0) L ks) ∧
      x = List.zipWith (fun a b => a + b) (List.zipWith (fun x l => x - l) x (List.zipWith (fun c k => c.getD k 0) L ks))
        (List.zipWith (fun c k => c.getD k 0) L ks) := by
  induction hL generalizing x with
  | nil => cases hx; exact ⟨[], .nil, .nil, rfl⟩
  | cons hc _ ih =>
    rename_i c n L ns _
    cases hx with
    | cons hx hxs =>
      rename_i x xs
      obtain ⟨ks, h1, h2, h3⟩ := ih xs hxs
      obtain ⟨k, a1, a2, a3⟩ := owner_axis_exists c n hc x hx
      refine ⟨k :: ks, .cons a1 h1, ?_, ?_⟩
      · simp only [List.zipWith_cons_cons]
        exact .cons (by omega) h2
      · simp only [List.zipWith_cons_cons]
        rw [← h3, Nat.sub_add_cancel a2]

/-- The process that has a cell is the one found, and it has it at that place. -/
theorem cell_owner {L : CutGrid} {sizes : List Nat} (hL : Spec.GoodCut L sizes) {r : Nat} {i x : List Nat} (h : Spec.IsCell L r i x) :
    L.owner x = r ∧ List.zipWith (fun x l => x - l) x (L.lo r) = i ∧ List.Forall₂ (· < ·) x sizes := by
  obtain ⟨hr, hi, hx⟩ := h
  obtain ⟨h1, h2, h3⟩ := axes_owner hL (unrankF L.procs r) (unrankF_lt _ _ hr) i x hi hx
  refine ⟨?_, h2, h3⟩
  unfold CutGrid.owner
  rw [h1, rankF_unrankF _ _ hr]

/-- Every cell is on some process. -/
theorem owner_cell {L : CutGrid} {sizes : List Nat} (hL : Spec.GoodCut L sizes) {x : List Nat} (hx : List.Forall₂ (· < ·) x sizes) :
    ∃ r i, Spec.IsCell L r i x := by
  obtain ⟨ks, h1, h2, h3⟩ := axes_exist hL x hx
  have hlo : L.lo (rankF L.procs ks) = List.zipWith (fun c k => c.getD k 0) L ks := by
    unfold CutGrid.lo
    rw [unrankF_rankF _ _ h1]
  refine ⟨rankF L.procs ks, List.zipWith (fun x l => x - l) x (L.lo (rankF L.procs ks)), rankF_lt _ _ h1, ?_, ?_⟩
  · unfold CutGrid.size
    rw [hlo, unrankF_rankF _ _ h1]
    exact h2
  · rw [hlo]
    exact h3

/-! ### Vectors -/

theorem gvec_get (zero : V) (L : CutGrid) (m : Nat) (a : Nat → List Nat → V) (r c : Nat) (i : List Nat) (hc : c < m)
    (hi : List.Forall₂ (· < ·) i (L.size r)) : (gvec L m a r).getD (rankF (m :: L.size r) (c :: i)) zero = a r (c :: i) := by
  have hf : List.Forall₂ (· < ·) (c :: i) (m :: L.size r) := .cons hc hi
  have hlt := rankF_lt _ _ hf
  unfold gvec ravelF
  rw [List.getD_eq_getElem _ _ (by simpa using hlt), List.getElem_map, List.getElem_range, unrankF_rankF _ _ hf]

theorem garray_gvec (zero : V) (L : CutGrid) (m : Nat) (a : Nat → List Nat → V) (r c : Nat) (i : List Nat) (hc : c < m)
    (hi : List.Forall₂ (· < ·) i (L.size r)) : garray zero L m (gvec L m a) r (c :: i) = a r (c :: i) :=
  gvec_get zero L m a r c i hc hi

theorem toNatural_length (zero : V) (L : CutGrid) (sizes : List Nat) (m : Nat) (vec : Nat → List V) :
    (toNatural zero L sizes m vec).length = (m :: sizes).prod := by simp [toNatural]

theorem toNatural_get (zero : V) {L : CutGrid} {sizes : List Nat} (hL : Spec.GoodCut L sizes) (m : Nat) (a : Nat → List Nat → V)
    (c : Nat) (hc : c < m) {r : Nat} {i x : List Nat} (h : Spec.IsCell L r i x) :
    (toNatural zero L sizes m (gvec L m a)).getD (rankF (m :: sizes) (c :: x)) zero = a r (c :: i) := by
  obtain ⟨h1, h2, h3⟩ := cell_owner hL h
  have hf : List.Forall₂ (· < ·) (c :: x) (m :: sizes) := .cons hc h3
  have hlt := rankF_lt _ _ hf
  unfold toNatural
  rw [List.getD_eq_getElem _ _ (by simpa using hlt), List.getElem_map, List.getElem_range, unrankF_rankF _ _ hf]
  simp only [h1, h2]
  exact gvec_get zero L m a r c i hc h.2.1

theorem fromNatural_get (zero : V) (L : CutGrid) (sizes : List Nat) (m : Nat) (l : List V) (c : Nat) (hc : c < m) {r : Nat}
    {i x : List Nat} (h : Spec.IsCell L r i x) :
    garray zero L m (fromNatural zero L sizes m l) r (c :: i) = l.getD (rankF (m :: sizes) (c :: x)) zero := by
  have hf : List.Forall₂ (· < ·) (c :: i) (m :: L.size r) := .cons hc h.2.1
  have hlt := rankF_lt _ _ hf
  unfold garray fromNatural
  rw [List.getD_eq_getElem _ _ (by simpa using hlt), List.getElem_map, List.getElem_range, unrankF_rankF _ _ hf]
  simp only [h.2.2]

/-- Viewing by one group of processes and loading by another keeps every value. -/
theorem load_view (zero : V) {L L' : CutGrid} {sizes : List Nat} (hL : Spec.GoodCut L sizes) (m : Nat) (a : Nat → List Nat → V) :
    Spec.SameValues L a L' (garray zero L' m (fromNatural zero L' sizes m (toNatural zero L sizes m (gvec L m a)))) m := by
  intro c hc x r i r' i' h h'
  rw [fromNatural_get zero L' sizes m _ c hc h', toNatural_get zero hL m a c hc h]

/-! ### Dimensions -/

/-- A dimension as it is read back. -/
def noUnits (d : HDim) : HDim := ⟨d.name, d.lower, d.upper, d.numCells, none⟩

theorem ptcDims_written (pi lv : Int) (pre suf : List HDim) (h : ∀ d ∈ suf, 0 < d.numCells ∧ d.lower < d.upper) :
    ptcDims (ptcRec ⟨pi, lv, pre ++ suf⟩) (List.range' pre.length suf.length) = .ok (suf.map noUnits) := by
  induction suf generalizing pre with
  | nil => simp [ptcDims]
  | cons d suf ih =>
    obtain ⟨hn, hb⟩ := h d (by simp)
    have hup : d.lower + (d.numCells : ℚ) * ((d.upper - d.lower) / d.numCells) = d.upper := by
      have : (d.numCells : ℚ) ≠ 0 := by exact_mod_cast hn.ne'
      rw [mul_div_cancel₀ _ this]
      ring
    have ih' := ih (pre ++ [d]) (fun e he => h e (by simp [he]))
    rw [List.append_assoc, List.singleton_append, List.length_append, List.length_singleton] at ih'
    rw [List.length_cons, List.range'_succ]
    unfold ptcDims
    rw [ih']
    simp only [ptcRec, List.map_append, List.map_cons]
    simp only [List.getElem?_append_right (show (List.map (fun d : HDim => d.lower) pre).length ≤ pre.length by simp),
      List.getElem?_append_right (show (List.map (fun d : HDim => d.numCells) pre).length ≤ pre.length by simp),
      List.getElem?_append_right (show (List.map (fun d : HDim => (d.upper - d.lower) / d.numCells) pre).length ≤ pre.length by simp),
      List.getElem?_append_right (show (List.map (fun d : HDim => d.name) pre).length ≤ pre.length by simp),
      List.length_map, Nat.sub_self, List.getElem?_cons_zero, hup]
    rw [if_pos ⟨hn, hb⟩]
    rfl

theorem ptcDims_patch (p : HPatch) (h : ∀ d ∈ p.dims, 0 < d.numCells ∧ d.lower < d.upper) :
    ptcDims (ptcRec p) (List.range p.dims.length) = .ok (p.dims.map noUnits) := by
  have := ptcDims_written p.patchIndex p.level [] p.dims h
  rw [List.range_eq_range']
  exact this

theorem samePDims (dims : List HDim) : List.Forall₂ Spec.SamePDim dims (dims.map noUnits) := by
  induction dims with
  | nil => exact .nil
  | cons d l ih => exact .cons ⟨rfl, rfl, rfl, rfl, rfl⟩ ih

theorem checkDims_noUnits (dims : List HDim) (h1 : dims.length ≤ 3) (h2 : (dims.map fun d => d.name).Nodup) :
    checkDims (dims.map noUnits) = .ok () := by
  have : (dims.map noUnits).map (fun d => d.name) = dims.map fun d => d.name := by
    rw [List.map_map]
    rfl
  unfold checkDims
  rw [this, if_neg (by simpa using h2), if_pos (by simpa using h1)]

/-- The patch as it is read back. -/
def readPatch (p : HPatch) : HPatch := ⟨1, p.level, p.dims.map noUnits⟩

theorem readPatch_sizes (p : HPatch) : (readPatch p).sizes = p.sizes := by
  unfold readPatch HPatch.sizes
  rw [List.map_map]
  rfl

/-! ### Lists of states -/

/-- The vector of a field of a state. -/
def fieldVec (zero : V) (m : PState V X → Nat) (a : PState V X → Nat → List Nat → V) (s : PState V X) : List V :=
  toNatural zero s.layout s.patch.sizes (m s) (gvec s.layout (m s) (a s))

theorem viewStates_ok (zero : V) (wa wp : Bool) (l : List (PState V X)) (ha : wa = true → ∀ s ∈ l, s.numAux ≠ 0)
    (hp : wp = true → ∀ s ∈ l, s.numP ≠ 0) :
    viewStates zero wa wp l = ((l.map (if wp then fieldVec zero PState.numP PState.p else fieldVec zero PState.numEqn PState.q),
      if wa then l.map (fieldVec zero PState.numAux PState.aux) else []), .ok ()) := by
  induction l with
  | nil => cases wa <;> rfl
  | cons s l ih =>
    unfold viewStates
    rw [ih (fun h x hx => ha h x (by simp [hx])) (fun h x hx => hp h x (by simp [hx]))]
    rw [if_neg (by rintro ⟨h1, h2⟩; exact hp h1 s (by simp) h2)]
    simp only
    rw [if_neg (by rintro ⟨h1, h2⟩; exact ha h1 s (by simp) h2)]
    cases wa <;> cases wp <;> rfl

/-- The state as it is read back by processes that cut the grids as `lay`, from the vectors in the two files. -/
def readBack (zero : V) (lay : HPatch → CutGrid) (h : PHead V X) (ra : Bool) (x : PState V X × List V × List V) : PState V X where
  patch := readPatch x.1.patch
  layout := lay (readPatch x.1.patch)
  t := h.t
  problemData := h.problemData
  mapc2p := h.mapc2p
  numEqn := h.numEqn
  numAux := h.numAux
  numP := 0
  q := garray zero (lay (readPatch x.1.patch)) h.numEqn (fromNatural zero (lay (readPatch x.1.patch)) x.1.patch.sizes h.numEqn x.2.1)
  aux := if ra then garray zero (lay (readPatch x.1.patch)) h.numAux
      (fromNatural zero (lay (readPatch x.1.patch)) x.1.patch.sizes h.numAux x.2.2) else fun _ _ => zero
  p := fun _ _ => zero

theorem ptcStates_ok (zero : V) (lay : HPatch → CutGrid) (h : PHead V X) (ra : Bool) (T : List (PState V X × List V × List V))
    (hg : ∀ x ∈ T, Spec.GoodPState x.1) (hd : ∀ x ∈ T, x.1.patch.dims.length = h.numDim)
    (hv : ∀ x ∈ T, x.2.1.length = (h.numEqn :: x.1.patch.sizes).prod)
    (hw : ra = true → h.numAux ≠ 0 ∧ ∀ x ∈ T, x.2.2.length = (h.numAux :: x.1.patch.sizes).prod) (as : Option (List (List V)))
    (has : ra = true → as = some (T.map fun x => x.2.2)) :
    ptcStates zero lay h ra T.length (T.map fun x => ptcRec x.1.patch) (some (T.map fun x => x.2.1)) as =
      (T.map (readBack zero lay h ra), .ok ()) := by
  induction T generalizing as with
  | nil => rfl
  | cons x T ih =>
    obtain ⟨g1, g2, g3, g4, g5⟩ := hg x (by simp)
    rw [List.length_cons, List.map_cons, List.map_cons]
    unfold ptcStates
    rw [← hd x (by simp), ptcDims_patch x.1.patch g3]
    simp only [checkDims_noUnits _ g1 g2]
    have hps : (⟨1, (ptcRec x.1.patch).level, x.1.patch.dims.map noUnits⟩ : HPatch) = readPatch x.1.patch := rfl
    rw [hps, readPatch_sizes]
    have hq : ptcLoad zero (lay (readPatch x.1.patch)) x.1.patch.sizes h.numEqn (some (x.2.1 :: T.map fun x => x.2.1)) =
        .ok (garray zero (lay (readPatch x.1.patch)) h.numEqn
          (fromNatural zero (lay (readPatch x.1.patch)) x.1.patch.sizes h.numEqn x.2.1), some (T.map fun x => x.2.1)) := by
      exact if_pos (hv x (by simp))
    rw [hq]
    simp only
    cases ra with
    | false =>
      simp only [Bool.false_eq_true, if_false]
      rw [ih (fun y hy => hg y (by simp [hy])) (fun y hy => hd y (by simp [hy])) (fun y hy => hv y (by simp [hy]))
        (fun h => by simp at h) as (fun h => by simp at h)]
      rfl
    | true =>
      obtain ⟨h0, h1⟩ := hw rfl
      rw [has rfl, List.map_cons]
      have ha : ptcLoad zero (lay (readPatch x.1.patch)) x.1.patch.sizes h.numAux (some (x.2.2 :: T.map fun x => x.2.2)) =
          .ok (garray zero (lay (readPatch x.1.patch)) h.numAux
            (fromNatural zero (lay (readPatch x.1.patch)) x.1.patch.sizes h.numAux x.2.2), some (T.map fun x => x.2.2)) := by
        exact if_pos (h1 x (by simp))
      rw [if_pos rfl, if_neg h0, ha]
      simp only
      rw [ih (fun y hy => hg y (by simp [hy])) (fun y hy => hd y (by simp [hy])) (fun y hy => hv y (by simp [hy]))
        (fun _ => ⟨h0, fun y hy => h1 y (by simp [hy])⟩) _ (fun _ => rfl)]
      rfl

/-! ### Names of files -/

theorem frameText_inj {a b : Nat} (h : frameText a = frameText b) : a = b := by
  have := congrArg digitsValue h
  unfold frameText at this
  rwa [zeroPad_value, zeroPad_value, digitsValue_natDigits, digitsValue_natDigits] at this

theorem frameText_digits (a : Nat) : ∀ c ∈ frameText a, isDigit c = true := zeroPad_digits _ _ (natDigits_digits _)

theorem frameText_cons (a : Nat) : ∃ c r, frameText a = c :: r ∧ isDigit c = true := by
  cases h : frameText a with
  | nil =>
    exact absurd h (zeroPad_ne_nil 4 _ (natDigits_ne_nil a))
  | cons c r => exact ⟨c, r, rfl, frameText_digits a c (by rw [h]; simp)⟩

theorem metaName_inj {pre : List Char} {a b : Nat} (h : metaName pre a = metaName pre b) : a = b :=
  frameText_inj (List.append_cancel_left h)

theorem auxName_inj {pre : List Char} {a b : Nat} (h : auxName pre a = auxName pre b) : a = b :=
  frameText_inj (List.append_cancel_left h)

theorem dataName_inj {pre : List Char} {fmt : PFormat} {a b : Nat} (h : dataName pre fmt a = dataName pre fmt b) : a = b := by
  unfold dataName at h
  split at h
  · exact frameText_inj (List.append_cancel_left (List.append_cancel_right h))
  · exact frameText_inj (List.append_cancel_left h)

theorem meta_ne_aux (pre : List Char) (a b : Nat) : metaName pre a ≠ auxName pre b := by
  intro h
  unfold metaName auxName at h
  rw [List.append_assoc, List.append_assoc] at h
  have := List.append_cancel_left h
  simp at this

theorem meta_ne_data (pre : List Char) (fmt : PFormat) (a b : Nat) : metaName pre a ≠ dataName pre fmt b := by
  intro h
  unfold metaName dataName at h
  split at h
  · rw [List.append_assoc, List.append_assoc] at h
    have := List.append_cancel_left h
    obtain ⟨c, r, h1, h2⟩ := frameText_cons b
    rw [h1] at this
    simp at this
    rw [← this.1] at h2
    exact absurd h2 (by decide)
  · rw [List.append_assoc, List.append_assoc] at h
    have := List.append_cancel_left h
    simp at this

theorem aux_ne_data (pre : List Char) (fmt : PFormat) (a b : Nat) : auxName pre a ≠ dataName pre fmt b := by
  intro h
  unfold auxName dataName at h
  split at h
  · rw [List.append_assoc, List.append_assoc] at h
    have := List.append_cancel_left h
    obtain ⟨c, r, h1, h2⟩ := frameText_cons b
    rw [h1] at this
    simp at this
    rw [← this.1] at h2
    exact absurd h2 (by decide)
  · rw [List.append_assoc, List.append_assoc] at h
    have := List.append_cancel_left h
    simp at this

end PyClaw
