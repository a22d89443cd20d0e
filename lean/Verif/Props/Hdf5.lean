import Verif.Lemmas.Hdf5

/-!
C88: HDF5 frames round-trip.
-/
namespace PyClaw

variable {V : Type}

/-- The entry of the file for a state. -/
def groupOf (wa : Bool) (s : HState V) : List Char × HGroup V := (groupName s.patch, (writeGroup s wa false).1)

theorem writeGroups_ok (junk : V) (wa : Bool) (l : List (HState V)) (hg : ∀ s ∈ l, Spec.GoodHState s) (f : HFile V)
    (hn : (f.map Prod.fst ++ l.map fun s => groupName s.patch).Nodup) :
    writeGroups wa false f l = (f ++ l.map (groupOf wa), .ok ()) := by
  induction l generalizing f with
  | nil => simp [writeGroups]
  | cons s l ih =>
    obtain ⟨g, s', h1, _⟩ := group_round_trip junk s (hg s (by simp)) wa true
    have hnot : groupName s.patch ∉ f.map Prod.fst := by
      intro hm
      rw [List.map_cons, List.nodup_append] at hn
      exact hn.2.2 _ hm _ (by simp) rfl
    have hgo : groupOf wa s = (groupName s.patch, g) := by unfold groupOf; rw [h1]
    unfold writeGroups
    rw [if_neg hnot, h1]
    simp only
    rw [ih (fun x hx => hg x (by simp [hx]))]
    · rw [List.map_cons, hgo, List.append_assoc, List.singleton_append]
    · rw [List.map_append, List.map_singleton, List.append_assoc, List.singleton_append]
      exact hn

theorem readGroups_ok (junk : V) (wa ra : Bool) (l : List (HState V)) (hg : ∀ s ∈ l, Spec.GoodHState s) :
    ∃ l', readGroups junk ra (l.map (groupOf wa)) = (l', .ok ()) ∧ List.Forall₂ Spec.SameHState l l' ∧
      (wa = true ∧ ra = true → List.Forall₂ Spec.SameHAux l l') ∧
      List.Forall₂ (fun s s' => wa = false ∨ ra = false ∨ s.numAux = 0 → s'.aux = fun _ => junk) l l' := by
  induction l with
  | nil => exact ⟨[], rfl, .nil, fun _ => .nil, .nil⟩
  | cons s l ih =>
    obtain ⟨l', h1, h2, h3, h4⟩ := ih fun x hx => hg x (by simp [hx])
    obtain ⟨g, s', h5, h6, h7, h8, h9⟩ := group_round_trip junk s (hg s (by simp)) wa ra
    have hgo : groupOf wa s = (groupName s.patch, g) := by unfold groupOf; rw [h5]
    refine ⟨s' :: l', ?_, .cons h7 h2, fun h => .cons (h8 h) (h3 h), .cons h9 h4⟩
    rw [List.map_cons, hgo]
    unfold readGroups
    simp only [h6, h1]

theorem names_nodup (l : List (HState V)) (h : (l.map fun s => s.patch.patchIndex).Nodup) :
    (l.map fun s => groupName s.patch).Nodup := by
  have hl : l.Nodup := List.Nodup.of_map _ h
  rw [List.nodup_map_iff_inj_on hl] at h ⊢
  exact fun x hx y hy he => h x hx y hy (groupName_inj _ _ he)

/-- The states in the order of the names of their groups. -/
def byName (l : List (HState V)) : List (HState V) :=
  l.insertionSort fun a b => lexLe (groupName a.patch) (groupName b.patch)

theorem round_trip (junk : V) (sol : HSol V) (hs : Spec.GoodHSol sol) (frame : Nat) (wa ra : Bool)
    (fs : Nat → Option (HFile V)) :
    ∃ fs' sol', h5Write sol frame wa false fs = (fs', .ok ()) ∧ h5Read junk fs' frame ra ⟨[], none⟩ = (sol', .ok ()) ∧
      List.Forall₂ Spec.SameHState (byName sol.states) sol'.states ∧
      (wa = true ∧ ra = true → List.Forall₂ Spec.SameHAux (byName sol.states) sol'.states) ∧
      List.Forall₂ (fun s s' => wa = false ∨ ra = false ∨ s.numAux = 0 → s'.aux = fun _ => junk)
        (byName sol.states) sol'.states ∧
      sol'.domain = some (sol'.states.map HState.patch) ∧ (∀ other ≠ frame, fs' other = fs other) := by
  obtain ⟨h0, hg, hn⟩ := hs
  have hw := writeGroups_ok junk wa sol.states hg [] (by simpa using names_nodup _ hn)
  have hsort : groupsByName (sol.states.map (groupOf wa)) = (byName sol.states).map (groupOf wa) := by
    unfold groupsByName byName
    exact (List.map_insertionSort (fun a b => lexLe (groupName a.patch) (groupName b.patch) = true)
      (fun a b => lexLe a.1 b.1 = true) (groupOf wa) sol.states (fun a _ b _ => by rfl)).symm
  have hmem : ∀ s ∈ byName sol.states, Spec.GoodHState s := by
    intro s hm
    unfold byName at hm
    rw [List.mem_insertionSort] at hm
    exact hg s hm
  obtain ⟨l', h1, h2, h3, h4⟩ := readGroups_ok junk wa ra _ hmem
  have hne : l' ≠ [] := by
    intro he
    rw [he] at h2
    have := h2.length_eq
    unfold byName at this
    rw [List.length_insertionSort] at this
    exact h0 (List.length_eq_zero_iff.1 this)
  refine ⟨Function.update fs frame (some (sol.states.map (groupOf wa))), ⟨l', some (l'.map HState.patch)⟩, ?_, ?_, h2, h3, h4,
    rfl, ?_⟩
  · unfold h5Write; rw [hw]; rfl
  · unfold h5Read
    simp only [Function.update_self, List.nil_append]
    rw [hsort, h1]
    simp only
    rw [if_neg hne]
  · intro other ho
    rw [Function.update_of_ne ho]

/-- **C88** (partial: the order of the states, see below). Writing a solution in HDF5 and reading it into a new one gives
back every state once: patch number, level, dimensions (name, bounds, cells, units), time, numbers of fields and all
values, exactly; with `write_aux` and `read_aux` all auxiliary values as well, otherwise these are undefined (`junk`).
The states come in the order of the texts `patch<number>`. The other frames are not touched. -/
theorem C88_round_trip_partial (junk : V) (sol : HSol V) (hs : Spec.GoodHSol sol) (frame : Nat) (wa ra : Bool)
    (fs : Nat → Option (HFile V)) :
    ∃ fs' sol' l, h5Write sol frame wa false fs = (fs', .ok ()) ∧ h5Read junk fs' frame ra ⟨[], none⟩ = (sol', .ok ()) ∧
      l.Perm sol.states ∧ (l.Pairwise fun a b => lexLe (groupName a.patch) (groupName b.patch) = true) ∧
      List.Forall₂ Spec.SameHState l sol'.states ∧
      (wa = true ∧ ra = true → List.Forall₂ Spec.SameHAux l sol'.states) ∧
      List.Forall₂ (fun s s' => wa = false ∨ ra = false ∨ s.numAux = 0 → s'.aux = fun _ => junk) l sol'.states ∧
      sol'.domain = some (sol'.states.map HState.patch) ∧ (∀ other ≠ frame, fs' other = fs other) := by
  obtain ⟨fs', sol', h1, h2, h3⟩ := round_trip junk sol hs frame wa ra fs
  refine ⟨fs', sol', byName sol.states, h1, h2, List.perm_insertionSort _ _, ?_, h3⟩
  unfold byName
  have : Std.Total (fun a b : HState V => lexLe (groupName a.patch) (groupName b.patch) = true) :=
    ⟨fun a b => lexLe_total _ _⟩
  have : IsTrans (HState V) (fun a b => lexLe (groupName a.patch) (groupName b.patch) = true) :=
    ⟨fun a b c => lexLe_trans _ _ _⟩
  exact List.pairwise_insertionSort _ _

/-! ### The order of the states -/

theorem digitsValue_cons (c : Char) (s : List Char) : digitsValue (c :: s) = (c.toNat - 48) * 10 ^ s.length + digitsValue s := by
  rw [← List.singleton_append, digitsValue_append]
  simp [digitsValue]

theorem digitsValue_lt (s : List Char) (h : ∀ c ∈ s, isDigit c = true) : digitsValue s < 10 ^ s.length := by
  induction s with
  | nil => simp [digitsValue]
  | cons c s ih =>
    rw [digitsValue_cons, List.length_cons, pow_succ]
    have h1 := ih fun x hx => h x (by simp [hx])
    have h2 := h c (by simp)
    unfold isDigit at h2
    simp only [Bool.and_eq_true, decide_eq_true_eq] at h2
    have h3 : c.toNat - 48 ≤ 9 := by omega
    calc (c.toNat - 48) * 10 ^ s.length + digitsValue s < (c.toNat - 48) * 10 ^ s.length + 10 ^ s.length := by omega
      _ = (c.toNat - 48 + 1) * 10 ^ s.length := by ring
      _ ≤ 10 * 10 ^ s.length := Nat.mul_le_mul_right _ (by omega)
      _ = 10 ^ s.length * 10 := by ring

theorem lexLe_of_value (a b : List Char) (hl : a.length = b.length) (ha : ∀ c ∈ a, isDigit c = true)
    (hb : ∀ c ∈ b, isDigit c = true) (h : digitsValue a ≤ digitsValue b) : lexLe a b = true := by
  induction a generalizing b with
  | nil => unfold lexLe; rfl
  | cons c s ih =>
    cases b with
    | nil => simp at hl
    | cons d t =>
      have hl' : s.length = t.length := by simpa using hl
      rw [digitsValue_cons, digitsValue_cons, hl'] at h
      have h1 := digitsValue_lt t fun x hx => hb x (by simp [hx])
      have hc := ha c (by simp)
      have hd := hb d (by simp)
      unfold isDigit at hc hd
      simp only [Bool.and_eq_true, decide_eq_true_eq] at hc hd
      simp only [lexLe, Bool.or_eq_true, Bool.and_eq_true, decide_eq_true_eq]
      rcases lt_trichotomy c.toNat d.toNat with hlt | heq | hgt
      · exact Or.inl hlt
      · right
        refine ⟨heq, ih t hl' (fun x hx => ha x (by simp [hx])) (fun x hx => hb x (by simp [hx])) ?_⟩
        rw [heq] at h
        omega
      · exfalso
        have : (d.toNat - 48 + 1) * 10 ^ t.length ≤ (c.toNat - 48) * 10 ^ t.length := Nat.mul_le_mul_right _ (by omega)
        rw [Nat.add_mul, Nat.one_mul] at this
        omega

theorem lexLe_prefix (p a b : List Char) (h : lexLe a b = true) : lexLe (p ++ a) (p ++ b) = true := by
  induction p with
  | nil => exact h
  | cons c p ih => simp [lexLe, ih]

/-- **C88.** If the patch numbers are increasing and have the same number of digits (one patch, or patches 1 to 9, for
instance), the states come back in the order in which they were written. -/
theorem C88_order (junk : V) (sol : HSol V) (hs : Spec.GoodHSol sol) (frame : Nat) (wa ra : Bool)
    (fs : Nat → Option (HFile V)) (hpos : ∀ s ∈ sol.states, 0 ≤ s.patch.patchIndex) (digits : Nat)
    (hd : ∀ s ∈ sol.states, (natDigits s.patch.patchIndex.toNat).length = digits)
    (hinc : sol.states.Pairwise fun a b => a.patch.patchIndex ≤ b.patch.patchIndex) :
    ∃ fs' sol', h5Write sol frame wa false fs = (fs', .ok ()) ∧ h5Read junk fs' frame ra ⟨[], none⟩ = (sol', .ok ()) ∧
      List.Forall₂ Spec.SameHState sol.states sol'.states ∧
      (wa = true ∧ ra = true → List.Forall₂ Spec.SameHAux sol.states sol'.states) := by
  obtain ⟨fs', sol', h1, h2, h3, h4, _⟩ := round_trip junk sol hs frame wa ra fs
  have hid : byName sol.states = sol.states := by
    unfold byName
    apply List.Pairwise.insertionSort_eq
    refine hinc.imp_of_mem ?_
    intro a b ha hb hab
    have pa := hpos a ha
    have pb := hpos b hb
    have text : ∀ n : Int, 0 ≤ n → intText n = natDigits n.toNat := by
      intro n hn
      unfold intText
      rw [if_neg (by omega)]
      congr 1
      omega
    unfold groupName
    apply lexLe_prefix
    rw [text _ pa, text _ pb]
    apply lexLe_of_value _ _ (by rw [hd a ha, hd b hb]) (natDigits_digits _) (natDigits_digits _)
    rw [digitsValue_natDigits, digitsValue_natDigits]
    omega
  rw [hid] at h3 h4
  exact ⟨fs', sol', h1, h2, h3, h4⟩

/-- **C88 fails** for the order: of any two states on patches 2 and 10, written in this order, the second comes back
first. -/
theorem C88_order_violated (junk : V) (a b : HState V) (ha : Spec.GoodHState a) (hb : Spec.GoodHState b)
    (ia : a.patch.patchIndex = 2) (ib : b.patch.patchIndex = 10) (dom : Option (List HPatch)) (frame : Nat) (wa ra : Bool)
    (fs : Nat → Option (HFile V)) :
    ∃ fs' sol', h5Write ⟨[a, b], dom⟩ frame wa false fs = (fs', .ok ()) ∧
      h5Read junk fs' frame ra ⟨[], none⟩ = (sol', .ok ()) ∧ (sol'.states.map fun s => s.patch.patchIndex) = [10, 2] := by
  obtain ⟨fs', sol', h1, h2, h3, _⟩ := round_trip junk ⟨[a, b], dom⟩ ⟨by simp, by
    intro s hs
    simp only [List.mem_cons, List.not_mem_nil, or_false] at hs
    rcases hs with rfl | rfl
    · exact ha
    · exact hb, by simp [ia, ib]⟩ frame wa ra fs
  refine ⟨fs', sol', h1, h2, ?_⟩
  have hsort : byName [a, b] = [b, a] := by
    have hn : lexLe (groupName a.patch) (groupName b.patch) = false := by
      unfold groupName; rw [ia, ib]; decide +kernel
    unfold byName
    simp [List.insertionSort, hn]
  simp only [hsort] at h3
  obtain ⟨states, dom'⟩ := sol'
  cases h3 with
  | cons h4 h5 =>
    cases h5 with
    | cons h6 h7 =>
      cases h7
      simp [h4.1, h6.1, ia, ib]

/-- **C88 fails** for patches with equal numbers (1 is the default of all patches): writing raises. -/
theorem C88_equal_numbers_violated (junk : V) (a b : HState V) (l : List (HState V)) (ha : Spec.GoodHState a)
    (hi : a.patch.patchIndex = b.patch.patchIndex) (dom : Option (List HPatch)) (frame : Nat) (wa : Bool)
    (fs : Nat → Option (HFile V)) : (h5Write ⟨a :: b :: l, dom⟩ frame wa false fs).2 = .error .valueError := by
  obtain ⟨g, s', h1, _⟩ := group_round_trip junk a ha wa true
  unfold h5Write
  simp only
  unfold writeGroups
  rw [if_neg (by simp), h1]
  simp only [List.nil_append]
  unfold writeGroups
  rw [if_pos (by simp [groupName, hi])]

/-- Reading appends: the states after reading are those that were there, followed by those that reading into an empty
solution gives, with the same outcome; for any file, also when reading fails, and with auxiliary data. -/
theorem C88_append (junk : V) (fs : Nat → Option (HFile V)) (frame : Nat) (ra : Bool) (sol : HSol V) :
    (h5Read junk fs frame ra sol).1.states = sol.states ++ (h5Read junk fs frame ra ⟨[], none⟩).1.states ∧
      (h5Read junk fs frame ra sol).2 = (h5Read junk fs frame ra ⟨[], none⟩).2 := by
  unfold h5Read
  cases fs frame with
  | none => simp
  | some f =>
    simp only [List.nil_append]
    cases (readGroups junk ra (groupsByName f)).2 with
    | error e => simp
    | ok _ =>
      simp only
      by_cases h : (readGroups junk ra (groupsByName f)).1 = []
      · rw [if_pos h, if_pos h]; simp
      · rw [if_neg h, if_neg h]; simp

/-! ### Derived quantities -/

theorem cells_prod_pos (dims : List HDim) (h : ∀ d ∈ dims, 0 < d.numCells ∧ d.lower < d.upper) :
    0 < (dims.map fun d => d.numCells.toNat).prod := by
  induction dims with
  | nil => simp
  | cons d dims ih =>
    rw [List.map_cons, List.prod_cons]
    have := (h d (by simp)).1
    exact Nat.mul_pos (by omega) (ih fun x hx => h x (by simp [hx]))

/-- A group whose `q` has another size than `num_eqn` and the dimensions say cannot be read. -/
theorem readGroup_other_size (junk : V) (ra : Bool) (g : HGroup V) (s' : HState V) (h : readGroup junk ra g = .ok s')
    (d : HData V) (hd : d.shape.prod ≠ (s'.patch.shape s'.numEqn).prod) :
    readGroup junk ra { g with q := some d } = .error .valueError := by
  have hlen : (ravelF d).length = d.shape.prod := by simp [ravelF]
  have e1 : ∀ k, HGroup.attr { g with q := some d } k = g.attr k := fun k => rfl
  have e2 : HGroup.dimNames { g with q := some d } = g.dimNames := rfl
  have e3 : ∀ l, readDims { g with q := some d } l = readDims g l := fun l =>
    readDims_congr (g := { g with q := some d }) (g' := g) rfl l
  have e4 : ∀ k, HGroup.float { g with q := some d } k = g.float k := fun k => rfl
  have e5 : ∀ k, HGroup.int { g with q := some d } k = g.int k := fun k => rfl
  unfold readGroup at h ⊢
  rw [e2]
  cases h1 : g.dimNames with
  | error e => rw [h1] at h; cases h
  | ok names =>
  rw [h1] at h
  simp only [e3] at h ⊢
  cases h2 : readDims g names with
  | error e => rw [h2] at h; cases h
  | ok dims =>
  rw [h2] at h
  simp only at h ⊢
  cases h3 : checkDims dims with
  | error e => rw [h3] at h; cases h
  | ok _ =>
  rw [h3] at h
  simp only [e4] at h ⊢
  cases h4 : g.float "t".toList with
  | error e => rw [h4] at h; cases h
  | ok t =>
  rw [h4] at h
  simp only [e5] at h ⊢
  cases h5 : g.int "num_eqn".toList with
  | error e => rw [h5] at h; cases h
  | ok ne =>
  rw [h5] at h
  simp only at h ⊢
  cases h6 : g.int "patch_index".toList with
  | error e => rw [h6] at h; cases h
  | ok pi =>
  rw [h6] at h
  simp only at h ⊢
  cases h7 : g.int "level".toList with
  | error e => rw [h7] at h; cases h
  | ok lv =>
  rw [h7] at h
  simp only at h ⊢
  cases h8 : g.int "num_aux".toList with
  | error e => rw [h8] at h; cases h
  | ok na =>
  rw [h8] at h
  simp only at h ⊢
  by_cases hneg : ne < 0 ∨ na < 0
  · rw [if_pos hneg] at h; cases h
  rw [if_neg hneg] at h ⊢
  by_cases hz : ne = 0
  · rw [if_pos hz] at h; cases h
  rw [if_neg hz] at h ⊢
  have hs : s'.patch = ⟨pi, lv, dims⟩ ∧ s'.numEqn = ne.toNat := by
    cases hq : g.q with
    | none => rw [hq] at h; cases h
    | some qd =>
    rw [hq] at h
    simp only at h
    cases hr : h5ReshapeF junk (HPatch.shape ⟨pi, lv, dims⟩ ne.toNat) (ravelF qd) with
    | error e => rw [hr] at h; cases h
    | ok q =>
    rw [hr] at h
    simp only at h
    by_cases hra : ra = true
    · rw [if_pos hra] at h
      cases ha : g.aux with
      | none => rw [ha] at h; cases h; exact ⟨rfl, rfl⟩
      | some ad =>
      rw [ha] at h
      simp only at h
      by_cases hz2 : na = 0
      · rw [if_pos hz2] at h; cases h
      rw [if_neg hz2] at h
      cases hr2 : h5ReshapeF junk (HPatch.shape ⟨pi, lv, dims⟩ na.toNat) (ravelF ad) with
      | error e => rw [hr2] at h; cases h
      | ok a => rw [hr2] at h; cases h; exact ⟨rfl, rfl⟩
    · rw [if_neg hra] at h
      cases h
      exact ⟨rfl, rfl⟩
  rw [hs.1, hs.2] at hd
  have : h5ReshapeF junk (HPatch.shape ⟨pi, lv, dims⟩ ne.toNat) (ravelF d) = .error .valueError := by
    unfold h5ReshapeF
    rw [if_neg (by rw [hlen]; exact hd)]
  rw [this]

/-- **C88** (partial: as many derived quantities as equations). Derived quantities (`write_p=True`) of a solution with one
state: if there are as many as equations, they come back as `q`. -/
theorem C88_derived_partial (junk : V) (s : HState V) (hs : Spec.GoodHState s) (hp : s.numP = s.numEqn)
    (dom : Option (List HPatch)) (frame : Nat) (wa ra : Bool) (fs : Nat → Option (HFile V)) :
    ∃ fs' s' dom', h5Write ⟨[s], dom⟩ frame wa true fs = (fs', .ok ()) ∧
      h5Read junk fs' frame ra ⟨[], none⟩ = (⟨[s'], dom'⟩, .ok ()) ∧ Spec.SameHState { s with q := s.p } s' := by
  obtain ⟨fs', sol', h1, h2, h3, _⟩ := round_trip junk ⟨[{ s with q := s.p }], dom⟩ ⟨by simp, by
    intro x hx
    simp only [List.mem_cons, List.not_mem_nil, or_false] at hx
    subst hx
    exact hs, by simp⟩ frame wa ra fs
  have hw : writeGroup s wa true = writeGroup { s with q := s.p } wa false := by
    have := hs.2.2.2
    unfold writeGroup
    have h1 : ¬ s.numEqn = 0 := by omega
    have hsa : setAttrs {} (⟨s.patch, s.t, s.numEqn, s.numAux, s.numEqn, s.p, s.aux, s.p⟩ : HState V) = setAttrs {} s := rfl
    simp [hp, h1, hsa]
  have hww : h5Write ⟨[s], dom⟩ frame wa true fs = h5Write ⟨[{ s with q := s.p }], dom⟩ frame wa false fs := by
    simp only [h5Write, writeGroups, hw]
  have hb : byName [({ s with q := s.p } : HState V)] = [{ s with q := s.p }] := by simp [byName, List.insertionSort]
  simp only [hb] at h3
  obtain ⟨states, dom'⟩ := sol'
  cases h3 with
  | cons h4 h5 =>
    cases h5
    exact ⟨fs', _, dom', by rw [hww]; exact h1, h2, h4⟩

/-- **C88 fails** for derived quantities when there are not as many as equations: the frame is written, and cannot be
read. -/
theorem C88_derived_violated (junk : V) (s : HState V) (hs : Spec.GoodHState s) (hp : 0 < s.numP) (hne : s.numP ≠ s.numEqn)
    (dom : Option (List HPatch)) (frame : Nat) (wa ra : Bool) (fs : Nat → Option (HFile V)) :
    ∃ fs' sol', h5Write ⟨[s], dom⟩ frame wa true fs = (fs', .ok ()) ∧
      h5Read junk fs' frame ra ⟨[], none⟩ = (sol', .error .valueError) := by
  obtain ⟨g, s', h1, h2, h3, _⟩ := group_round_trip junk s hs wa ra
  have hw : writeGroup s wa true = ({ g with q := some ⟨s.patch.shape s.numP, s.p⟩ }, .ok ()) := by
    have := hs.2.2.2
    unfold writeGroup at h1 ⊢
    rw [if_neg (by omega)] at h1 ⊢
    have h0 : ¬ (true = true ∧ s.numP = 0) := by omega
    have h0' : ¬ (false = true ∧ s.numP = 0) := by simp
    have hp0 : ¬ s.numP = 0 := by omega
    by_cases hc : wa = true ∧ 0 < s.numAux
    · simp [hc] at h1
      simp [hp0, hc, ← h1]
    · rw [if_neg h0', if_neg hc] at h1
      rw [if_neg h0, if_neg hc]
      simp at h1
      simp [← h1]
  have hsize : (s.patch.shape s.numP).prod ≠ (s'.patch.shape s'.numEqn).prod := by
    obtain ⟨_, _, h4, _, h5, _⟩ := h3
    unfold HPatch.shape
    rw [sameHDims_cells h4, h5, List.prod_cons, List.prod_cons]
    intro he
    exact hne (Nat.eq_of_mul_eq_mul_right (cells_prod_pos _ hs.2.2.1) he)
  have hr := readGroup_other_size junk ra g s' h2 ⟨s.patch.shape s.numP, s.p⟩ hsize
  refine ⟨Function.update fs frame (some [(groupName s.patch, { g with q := some ⟨s.patch.shape s.numP, s.p⟩ })]),
    ⟨[], none⟩, ?_, ?_⟩
  · simp only [h5Write, writeGroups, List.map_nil, List.not_mem_nil, if_false, hw, List.nil_append]
  · unfold h5Read
    simp only [Function.update_self, groupsByName, List.insertionSort, List.orderedInsert, List.foldr, readGroups, hr,
      List.append_nil]

/-! Concrete cases. -/

/-- A state on a grid of 2 by 3 cells with metres along `x`. -/
def h5State (i : Int) : HState Int :=
  ⟨⟨i, 1, [⟨['x'], 0, 1, 2, some ['m']⟩, ⟨['y'], -1, 1 / 2, 3, none⟩]⟩, 7, 2, 1, 1, fun l => l.sum + 10 * i, fun _ => 5, fun _ => 6⟩

theorem h5State_good (i : Int) : Spec.GoodHState (h5State i) :=
  ⟨by simp [h5State], by simp [h5State], by
    intro d hd
    simp only [h5State, List.mem_cons, List.not_mem_nil, or_false] at hd
    rcases hd with rfl | rfl <;> norm_num, by simp [h5State]⟩

example : Spec.GoodHSol (⟨[h5State 1, h5State 2], none⟩ : HSol Int) :=
  ⟨by simp, by
    intro s hs
    simp only [List.mem_cons, List.not_mem_nil, or_false] at hs
    rcases hs with rfl | rfl <;> exact h5State_good _, by simp [h5State]⟩

/-- Both states come back in order, and with their values. -/
example : ∃ fs' sol', h5Write ⟨[h5State 1, h5State 2], none⟩ 4 true false (fun _ => none) = (fs', .ok ()) ∧
    h5Read 0 fs' 4 true ⟨[], none⟩ = (sol', .ok ()) ∧
    List.Forall₂ Spec.SameHState [h5State 1, h5State 2] sol'.states ∧
    (true = true ∧ true = true → List.Forall₂ Spec.SameHAux [h5State 1, h5State 2] sol'.states) :=
  C88_order 0 ⟨[h5State 1, h5State 2], none⟩ ⟨by simp, by
    intro s hs
    simp only [List.mem_cons, List.not_mem_nil, or_false] at hs
    rcases hs with rfl | rfl <;> exact h5State_good _, by simp [h5State]⟩ 4 true true _ (by
      intro s hs
      simp only [List.mem_cons, List.not_mem_nil, or_false] at hs
      rcases hs with rfl | rfl <;> decide) 1 (by
      intro s hs
      simp only [List.mem_cons, List.not_mem_nil, or_false] at hs
      rcases hs with rfl | rfl <;> decide +kernel) (by simp [h5State])

/-- Patches 2 and 10 change places; two patches with number 1 cannot be written; one derived quantity instead of two
cannot be read. -/
example : ∃ fs' sol', h5Write ⟨[h5State 2, h5State 10], none⟩ 0 false false (fun _ => none) = (fs', .ok ()) ∧
    h5Read 0 fs' 0 true ⟨[], none⟩ = (sol', .ok ()) ∧ (sol'.states.map fun s => s.patch.patchIndex) = [10, 2] :=
  C88_order_violated 0 (h5State 2) (h5State 10) (h5State_good _) (h5State_good _) rfl rfl none 0 false true _

example : (h5Write ⟨[h5State 1, h5State 1], none⟩ 0 false false (fun _ => none)).2 = .error .valueError :=
  C88_equal_numbers_violated 0 (h5State 1) (h5State 1) [] (h5State_good _) rfl none 0 false _

example : ∃ fs' sol', h5Write ⟨[h5State 1], none⟩ 0 false true (fun _ => none) = (fs', .ok ()) ∧
    h5Read 0 fs' 0 true ⟨[], none⟩ = (sol', .error .valueError) :=
  C88_derived_violated 0 (h5State 1) (h5State_good _) (by decide) (by decide) none 0 false true _

end PyClaw
