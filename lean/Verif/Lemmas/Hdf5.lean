import Verif.Model.Hdf5
import Verif.Spec.Hdf5
import Verif.Lemmas.Text
import Mathlib.Tactic.Linarith
import Mathlib.Tactic.Ring
import Mathlib.Data.List.GetD

/-!
Lemmas for C88.
-/
namespace PyClaw

variable {V : Type}

/-! ### Fortran order -/

theorem unrankF_rankF (shape idx : List Nat) (h : List.Forall₂ (· < ·) idx shape) : unrankF shape (rankF shape idx) = idx := by
  induction h with
  | nil => rfl
  | cons hx _ ih =>
    rename_i i n is ns _
    unfold rankF unrankF
    have hn : 0 < n := by omega
    rw [Nat.add_mul_mod_self_left, Nat.mod_eq_of_lt hx, Nat.add_mul_div_left _ _ hn, Nat.div_eq_of_lt hx, Nat.zero_add, ih]

theorem rankF_lt (shape idx : List Nat) (h : List.Forall₂ (· < ·) idx shape) : rankF shape idx < shape.prod := by
  induction h with
  | nil => simp [rankF]
  | cons hx _ ih =>
    rename_i i n is ns _
    unfold rankF
    rw [List.prod_cons]
    calc i + n * rankF ns is < n + n * rankF ns is := by omega
      _ = n * (rankF ns is + 1) := by ring
      _ ≤ n * ns.prod := Nat.mul_le_mul_left _ ih

/-- Reshaping what was flattened gives the array back, and shapes of different sizes raise. -/
theorem reshape_ravel (junk : V) (shape : List Nat) (val : List Nat → V) :
    ∃ a, h5ReshapeF junk shape (ravelF ⟨shape, val⟩) = .ok a ∧ ∀ idx, List.Forall₂ (· < ·) idx shape → a idx = val idx := by
  refine ⟨_, if_pos (by simp [ravelF]), ?_⟩
  intro idx h
  have hlt := rankF_lt shape idx h
  simp only [ravelF]
  rw [List.getD_eq_getElem _ _ (by simpa using hlt), List.getElem_map, List.getElem_range, unrankF_rankF _ _ h]

/-! ### Names of attributes -/

theorem dimKey_inj (n n' a a' : List Char) (ha : '.' ∉ a) (ha' : '.' ∉ a') (h : dimKey n a = dimKey n' a') :
    n = n' ∧ a = a' := by
  unfold dimKey at h
  rcases List.append_eq_append_iff.1 h with ⟨l, h1, h2⟩ | ⟨l, h1, h2⟩
  · cases l with
    | nil => simp at h1 h2; exact ⟨h1.symm, h2⟩
    | cons c l =>
      simp only [List.cons_append, List.cons.injEq] at h2
      exact absurd (by rw [h2.2]; simp) ha
  · cases l with
    | nil => simp at h1 h2; exact ⟨h1, h2.symm⟩
    | cons c l =>
      simp only [List.cons_append, List.cons.injEq] at h2
      exact absurd (by rw [h2.2]; simp) ha'

theorem dimKey_dot (n a : List Char) : '.' ∈ dimKey n a := by simp [dimKey]

theorem attr_setAttr (g : HGroup V) (k k' : List Char) (v : HVal V) :
    (g.setAttr k v).attr k' = if k' = k then .ok v else g.attr k' := by
  unfold HGroup.attr HGroup.setAttr
  simp only
  rw [List.lookup_cons]
  by_cases h : k' = k
  · subst h; simp
  · rw [if_neg h]
    have : (k' == k) = false := by simpa using h
    rw [this]

/-- The keys of a dimension other than the given one. -/
theorem attr_setDim_other (g : HGroup V) (d : HDim) (k : List Char)
    (hk : ∀ a, '.' ∉ a → k ≠ dimKey d.name a) : (setDim g d).attr k = g.attr k := by
  unfold setDim
  cases d.units with
  | none =>
    simp only [attr_setAttr]
    rw [if_neg (hk _ (by decide)), if_neg (hk _ (by decide)), if_neg (hk _ (by decide)), if_neg (hk _ (by decide))]
  | some u =>
    simp only [attr_setAttr]
    rw [if_neg (hk _ (by decide)), if_neg (hk _ (by decide)), if_neg (hk _ (by decide)), if_neg (hk _ (by decide)),
      if_neg (hk _ (by decide))]

theorem key_ne (n a b : List Char) (ha : '.' ∉ a) (hb : '.' ∉ b) (h : a ≠ b) : dimKey n a ≠ dimKey n b :=
  fun he => h (dimKey_inj n n a b ha hb he).2

theorem attr_setDim_lower (g : HGroup V) (d : HDim) :
    (setDim g d).attr (dimKey d.name "lower".toList) = .ok (.real d.lower) ∧
      (setDim g d).attr (dimKey d.name "upper".toList) = .ok (.real d.upper) ∧
      (setDim g d).attr (dimKey d.name "num_cells".toList) = .ok (.int d.numCells) := by
  unfold setDim
  cases d.units with
  | none =>
    simp only [attr_setAttr]
    refine ⟨?_, ?_, ?_⟩
    · rw [if_neg (key_ne _ _ _ (by decide) (by decide) (by decide)), if_neg (key_ne _ _ _ (by decide) (by decide) (by decide)),
        if_pos trivial]
    · rw [if_pos trivial]
    · rw [if_neg (key_ne _ _ _ (by decide) (by decide) (by decide)), if_neg (key_ne _ _ _ (by decide) (by decide) (by decide)),
        if_neg (key_ne _ _ _ (by decide) (by decide) (by decide)), if_pos trivial]
  | some u =>
    simp only [attr_setAttr]
    refine ⟨?_, ?_, ?_⟩
    · rw [if_neg (key_ne _ _ _ (by decide) (by decide) (by decide)), if_neg (key_ne _ _ _ (by decide) (by decide) (by decide)),
        if_neg (key_ne _ _ _ (by decide) (by decide) (by decide)), if_pos trivial]
    · rw [if_neg (key_ne _ _ _ (by decide) (by decide) (by decide)), if_pos trivial]
    · rw [if_neg (key_ne _ _ _ (by decide) (by decide) (by decide)), if_neg (key_ne _ _ _ (by decide) (by decide) (by decide)),
        if_neg (key_ne _ _ _ (by decide) (by decide) (by decide)), if_neg (key_ne _ _ _ (by decide) (by decide) (by decide)),
        if_pos trivial]

theorem attr_setDim_units (g : HGroup V) (d : HDim) :
    (setDim g d).attr (dimKey d.name "units".toList) = match d.units with
      | none => g.attr (dimKey d.name "units".toList)
      | some u => .ok (.text u) := by
  unfold setDim
  cases d.units with
  | none =>
    simp only [attr_setAttr]
    rw [if_neg (key_ne _ _ _ (by decide) (by decide) (by decide)), if_neg (key_ne _ _ _ (by decide) (by decide) (by decide)),
      if_neg (key_ne _ _ _ (by decide) (by decide) (by decide)), if_neg (key_ne _ _ _ (by decide) (by decide) (by decide))]
  | some u =>
    simp only [attr_setAttr]
    rw [if_pos trivial]

/-- The keys of dimensions with other names, and keys without a dot. -/
theorem attr_foldl_other (dims : List HDim) (g : HGroup V) (k : List Char)
    (hk : ∀ d ∈ dims, ∀ a, '.' ∉ a → k ≠ dimKey d.name a) : (dims.foldl setDim g).attr k = g.attr k := by
  induction dims generalizing g with
  | nil => rfl
  | cons d dims ih =>
    rw [List.foldl_cons, ih _ (fun e he => hk e (by simp [he])), attr_setDim_other g d k (hk d (by simp))]

theorem real_ok (g : HGroup V) (k : List Char) (x : ℚ) (h : g.attr k = .ok (.real x)) : g.real k = .ok x := by
  unfold HGroup.real; rw [h]

theorem int_ok (g : HGroup V) (k : List Char) (n : Int) (h : g.attr k = .ok (.int n)) : g.int k = .ok n := by
  unfold HGroup.int; rw [h]

theorem float_ok (g : HGroup V) (k : List Char) (x : V) (h : g.attr k = .ok (.float x)) : g.float k = .ok x := by
  unfold HGroup.float; rw [h]

/-- What is read of a dimension that was written. -/
theorem readDim_written (dims : List HDim) (g : HGroup V) (hn : (dims.map fun d => d.name).Nodup)
    (hu : ∀ d ∈ dims, ∃ e, g.attr (dimKey d.name "units".toList) = .error e)
    (d : HDim) (hd : d ∈ dims) (hv : 0 < d.numCells ∧ d.lower < d.upper) :
    ∃ e, readDim (dims.foldl setDim g) d.name = .ok e ∧ Spec.SameHDim d e := by
  have key : ∃ g' : HGroup V, (∃ e, g'.attr (dimKey d.name "units".toList) = .error e) ∧
      ∀ a, '.' ∉ a → (dims.foldl setDim g).attr (dimKey d.name a) = (setDim g' d).attr (dimKey d.name a) := by
    induction dims generalizing g with
    | nil => simp at hd
    | cons x dims ih =>
      rw [List.foldl_cons]
      rw [List.map_cons, List.nodup_cons] at hn
      rcases List.mem_cons.1 hd with rfl | hd'
      · refine ⟨g, hu d (by simp), fun a ha => ?_⟩
        apply attr_foldl_other
        intro y hy b hb he
        exact hn.1 (List.mem_map.2 ⟨y, hy, (dimKey_inj _ _ _ _ ha hb he).1.symm⟩)
      · refine ih (setDim g x) hn.2 (fun y hy => ?_) hd'
        obtain ⟨e, he⟩ := hu y (by simp [hy])
        refine ⟨e, ?_⟩
        rw [attr_setDim_other]
        · exact he
        · intro a ha hk
          exact hn.1 (List.mem_map.2 ⟨y, hy, (dimKey_inj _ _ _ _ (by decide) ha hk).1⟩)
  obtain ⟨g', ⟨e0, he0⟩, hg⟩ := key
  obtain ⟨h1, h2, h3⟩ := attr_setDim_lower g' d
  have h4 := attr_setDim_units g' d
  rw [← hg _ (by decide)] at h1 h2 h3 h4
  unfold readDim
  rw [real_ok _ _ _ h1, real_ok _ _ _ h2, int_ok _ _ _ h3]
  simp only
  rw [if_pos hv, h4]
  refine ⟨_, rfl, rfl, rfl, rfl, rfl, ?_⟩
  cases hun : d.units with
  | none => simp only [he0]; rfl
  | some u =>
    simp only [Option.some.injEq]

theorem readDims_written (g : HGroup V) (dims : List HDim)
    (h : ∀ d ∈ dims, ∃ e, readDim g d.name = .ok e ∧ Spec.SameHDim d e) :
    ∃ l, readDims g (dims.map fun d => d.name) = .ok l ∧ List.Forall₂ Spec.SameHDim dims l := by
  induction dims with
  | nil => exact ⟨[], rfl, List.Forall₂.nil⟩
  | cons d dims ih =>
    obtain ⟨l, h1, h2⟩ := ih fun x hx => h x (by simp [hx])
    obtain ⟨e, h3, h4⟩ := h d (by simp)
    refine ⟨e :: l, ?_, List.Forall₂.cons h4 h2⟩
    simp only [List.map_cons, readDims, h3, h1]

theorem sameHDims_names {dims l : List HDim} (h : List.Forall₂ Spec.SameHDim dims l) :
    (l.map fun d => d.name) = dims.map fun d => d.name := by
  induction h with
  | nil => rfl
  | cons hx _ ih => simp [hx.1, ih]

theorem sameHDims_cells {dims l : List HDim} (h : List.Forall₂ Spec.SameHDim dims l) :
    (l.map fun d => d.numCells.toNat) = dims.map fun d => d.numCells.toNat := by
  induction h with
  | nil => rfl
  | cons hx _ ih => simp [hx.2.2.2.1, ih]

theorem index_ok {idx : List Nat} {dims : List HDim}
    (h : List.Forall₂ (fun (i : Nat) (d : HDim) => (i : Int) < d.numCells) idx dims) :
    List.Forall₂ (· < ·) idx (dims.map fun d => d.numCells.toNat) := by
  induction h with
  | nil => exact List.Forall₂.nil
  | cons hx _ ih => exact List.Forall₂.cons (by simp only; omega) ih

/-- The attributes of a group before those of the dimensions. -/
def baseGroup (s : HState V) : HGroup V :=
  ((((((HGroup.setAttr {} "t".toList (.float s.t)).setAttr "num_eqn".toList (.int s.numEqn)).setAttr "num_aux".toList
    (.int s.numAux)).setAttr "patch_index".toList (.int s.patch.patchIndex)).setAttr "level".toList
    (.int s.patch.level)).setAttr "dimensions".toList (.names (s.patch.dims.map fun d => d.name)))

theorem setAttrs_eq (s : HState V) : setAttrs {} s = s.patch.dims.foldl setDim (baseGroup s) := rfl

theorem setAttrs_plain (s : HState V) (k : List Char) (hk : '.' ∉ k) : (setAttrs {} s).attr k = (baseGroup s).attr k := by
  rw [setAttrs_eq]
  apply attr_foldl_other
  rintro d _ a _ rfl
  exact hk (dimKey_dot _ _)

theorem attr_congr {g g' : HGroup V} (h : g.attrs = g'.attrs) (k : List Char) : g.attr k = g'.attr k := by
  unfold HGroup.attr; rw [h]

theorem readDim_congr {g g' : HGroup V} (h : g.attrs = g'.attrs) (n : List Char) : readDim g n = readDim g' n := by
  unfold readDim HGroup.real HGroup.int
  simp only [attr_congr h]

theorem readDims_congr {g g' : HGroup V} (h : g.attrs = g'.attrs) (l : List (List Char)) : readDims g l = readDims g' l := by
  induction l with
  | nil => rfl
  | cons n l ih => simp only [readDims, readDim_congr h, ih]

/-- The group of a good state, and what is read from it. -/
theorem group_round_trip (junk : V) (s : HState V) (hs : Spec.GoodHState s) (wa ra : Bool) :
    ∃ g s', writeGroup s wa false = (g, .ok ()) ∧ readGroup junk ra g = .ok s' ∧ Spec.SameHState s s' ∧
      (wa = true ∧ ra = true → Spec.SameHAux s s') ∧ (wa = false ∨ ra = false ∨ s.numAux = 0 → s'.aux = fun _ => junk) := by
  obtain ⟨hlen, hnd, hdims, hne⟩ := hs
  -- the attributes
  have hb : ∀ k, '.' ∉ k → (setAttrs {} s).attr k = (baseGroup s).attr k := setAttrs_plain s
  have ht : (setAttrs {} s).attr "t".toList = .ok (.float s.t) := by
    rw [hb _ (by decide)]; simp [baseGroup, attr_setAttr]
  have hneq : (setAttrs {} s).attr "num_eqn".toList = .ok (.int s.numEqn) := by
    rw [hb _ (by decide)]; simp [baseGroup, attr_setAttr]
  have hna : (setAttrs {} s).attr "num_aux".toList = .ok (.int s.numAux) := by
    rw [hb _ (by decide)]; simp [baseGroup, attr_setAttr]
  have hpi : (setAttrs {} s).attr "patch_index".toList = .ok (.int s.patch.patchIndex) := by
    rw [hb _ (by decide)]; simp [baseGroup, attr_setAttr]
  have hlv : (setAttrs {} s).attr "level".toList = .ok (.int s.patch.level) := by
    rw [hb _ (by decide)]; simp [baseGroup, attr_setAttr]
  have hdn : (setAttrs {} s).attr "dimensions".toList = .ok (.names (s.patch.dims.map fun d => d.name)) := by
    rw [hb _ (by decide)]; simp [baseGroup, attr_setAttr]
  -- the dimensions
  obtain ⟨l, hl, hsame⟩ := readDims_written (setAttrs {} s) s.patch.dims (by
    intro d hd
    rw [setAttrs_eq]
    refine readDim_written s.patch.dims (baseGroup s) hnd (fun x hx => ⟨.keyError, ?_⟩) d hd (hdims d hd)
    have hk : ∀ k, '.' ∉ k → ¬ dimKey x.name "units".toList = k := by
      rintro k hk rfl
      exact hk (dimKey_dot _ _)
    simp only [baseGroup, attr_setAttr]
    rw [if_neg (hk _ (by decide)), if_neg (hk _ (by decide)), if_neg (hk _ (by decide)), if_neg (hk _ (by decide)),
      if_neg (hk _ (by decide)), if_neg (hk _ (by decide))]
    rfl)
  have hck : checkDims l = .ok () := by
    unfold checkDims
    rw [sameHDims_names hsame, if_neg (by simpa using hnd), if_pos (by rw [← hsame.length_eq]; exact hlen)]
  have hshape : ∀ m, HPatch.shape ⟨s.patch.patchIndex, s.patch.level, l⟩ m = s.patch.shape m := by
    intro m; unfold HPatch.shape; simp only; rw [sameHDims_cells hsame]
  obtain ⟨a, ha1, ha2⟩ := reshape_ravel junk (s.patch.shape s.numEqn) s.q
  obtain ⟨b, hb1, hb2⟩ := reshape_ravel junk (s.patch.shape s.numAux) s.aux
  have hq : ∀ m < s.numEqn, ∀ idx,
      List.Forall₂ (fun (i : Nat) (d : HDim) => (i : Int) < d.numCells) idx s.patch.dims → a (m :: idx) = s.q (m :: idx) :=
    fun m hm idx hi => ha2 _ (List.Forall₂.cons hm (index_ok hi))
  have hax : ∀ m < s.numAux, ∀ idx,
      List.Forall₂ (fun (i : Nat) (d : HDim) => (i : Int) < d.numCells) idx s.patch.dims → b (m :: idx) = s.aux (m :: idx) :=
    fun m hm idx hi => hb2 _ (List.Forall₂.cons hm (index_ok hi))
  -- reading any group with these attributes
  have hread : ∀ g : HGroup V, g.attrs = (setAttrs {} s).attrs → g.q = some ⟨s.patch.shape s.numEqn, s.q⟩ →
      readGroup junk ra g =
        (let st : HState V := ⟨⟨s.patch.patchIndex, s.patch.level, l⟩, s.t, s.numEqn, s.numAux, 0, a, fun _ => junk,
          fun _ => junk⟩
        if ra then
          match g.aux with
          | none => .ok st
          | some ad =>
            if (s.numAux : Int) = 0 then .error .attributeError
            else match h5ReshapeF junk (s.patch.shape s.numAux) (ravelF ad) with
              | .error e => .error e
              | .ok x => .ok { st with aux := x }
        else .ok st) := by
    intro g hg hgq
    have hat := fun k => attr_congr hg k
    unfold readGroup HGroup.dimNames
    rw [hat, hdn]
    simp only
    rw [readDims_congr hg, hl]
    simp only [hck]
    rw [float_ok g _ s.t (by rw [hat]; exact ht)]
    simp only
    rw [int_ok g _ _ (by rw [hat]; exact hneq)]
    simp only
    rw [int_ok g _ _ (by rw [hat]; exact hpi)]
    simp only
    rw [int_ok g _ _ (by rw [hat]; exact hlv)]
    simp only
    rw [int_ok g _ _ (by rw [hat]; exact hna)]
    simp only
    rw [if_neg (by omega), if_neg (by omega), hgq]
    simp only [Int.toNat_natCast, hshape, ha1]
    rfl
  have hst : ∀ x : List Nat → V, Spec.SameHState s
      ⟨⟨s.patch.patchIndex, s.patch.level, l⟩, s.t, s.numEqn, s.numAux, 0, a, x, fun _ => junk⟩ :=
    fun x => ⟨rfl, rfl, hsame, rfl, rfl, rfl, hq⟩
  have haux0 : (setAttrs ({} : HGroup V) s).aux = none := by
    rw [setAttrs_eq]
    have : ∀ (dims : List HDim) (g : HGroup V), g.aux = none → (dims.foldl setDim g).aux = none := by
      intro dims
      induction dims with
      | nil => exact fun g h => h
      | cons d dims ih =>
        intro g h
        rw [List.foldl_cons]
        apply ih
        unfold setDim
        cases d.units <;> exact h
    exact this _ _ rfl
  have hw0 : writeGroup s wa false =
      if wa = true ∧ 0 < s.numAux then
        (⟨(setAttrs {} s).attrs, some ⟨s.patch.shape s.numEqn, s.q⟩, some ⟨s.patch.shape s.numAux, s.aux⟩⟩, .ok ())
      else (⟨(setAttrs {} s).attrs, some ⟨s.patch.shape s.numEqn, s.q⟩, none⟩, .ok ()) := by
    unfold writeGroup
    rw [if_neg (by omega)]
    simp only [Bool.false_eq_true, false_and, if_false, haux0]
  have hread' := fun ad => hread ⟨(setAttrs {} s).attrs, some ⟨s.patch.shape s.numEqn, s.q⟩, ad⟩ rfl rfl
  by_cases hc : wa = true ∧ 0 < s.numAux
  · rw [hw0, if_pos hc]
    cases ra with
    | false => exact ⟨_, _, rfl, hread' _, hst _, by simp, fun _ => rfl⟩
    | true =>
      refine ⟨_, _, rfl, (hread' _).trans ?_, hst b, fun _ => hax, ?_⟩
      · simp only [if_true]
        rw [if_neg (by omega), hb1]
      · rintro (h | h | h)
        · rw [hc.1] at h; cases h
        · cases h
        · omega
  · rw [hw0, if_neg hc]
    refine ⟨_, _, rfl, (hread' _).trans (by exact ite_self _), hst _, ?_, fun _ => rfl⟩
    rintro ⟨h1, _⟩ m hm
    exact absurd ⟨h1, by omega⟩ hc

/-! ### Names of groups -/

theorem intText_inj (a b : Int) (h : intText a = intText b) : a = b := by
  have := parseInt_intText a
  rw [h, parseInt_intText] at this
  simpa using this.symm

theorem groupName_inj (p p' : HPatch) (h : groupName p = groupName p') : p.patchIndex = p'.patchIndex :=
  intText_inj _ _ (List.append_cancel_left h)

theorem lexLe_total (a b : List Char) : lexLe a b = true ∨ lexLe b a = true := by
  induction a generalizing b with
  | nil => left; unfold lexLe; rfl
  | cons c s ih =>
    cases b with
    | nil => right; unfold lexLe; rfl
    | cons d t =>
      simp only [lexLe, Bool.or_eq_true, Bool.and_eq_true, decide_eq_true_eq]
      rcases lt_trichotomy c.toNat d.toNat with h | h | h
      · exact Or.inl (Or.inl h)
      · rcases ih t with h2 | h2
        · exact Or.inl (Or.inr ⟨h, h2⟩)
        · exact Or.inr (Or.inr ⟨h.symm, h2⟩)
      · exact Or.inr (Or.inl h)

theorem lexLe_trans (a b c : List Char) (h1 : lexLe a b = true) (h2 : lexLe b c = true) : lexLe a c = true := by
  induction a generalizing b c with
  | nil => unfold lexLe; rfl
  | cons x s ih =>
    cases b with
    | nil => unfold lexLe at h1; cases h1
    | cons y t =>
      cases c with
      | nil => unfold lexLe at h2; cases h2
      | cons z u =>
        simp only [lexLe, Bool.or_eq_true, Bool.and_eq_true, decide_eq_true_eq] at h1 h2 ⊢
        rcases h1 with h1 | ⟨h1, h1'⟩ <;> rcases h2 with h2 | ⟨h2, h2'⟩
        · left; omega
        · left; omega
        · left; omega
        · right; exact ⟨by omega, ih t u h1' h2'⟩

end PyClaw
