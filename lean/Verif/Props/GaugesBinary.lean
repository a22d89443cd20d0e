import Verif.Props.Gauges

set_option linter.unusedSectionVars false

/-!
C56, gauges that GeoClaw wrote with binary data: a text file with the header, and a binary file with the records.
-/
namespace PyClaw

variable {Raw : Type}

/-- `occurs` is Python's `in` for texts. -/
theorem occurs_iff (pat s : List Char) : occurs pat s = true ↔ pat <:+: s := by
  induction s with
  | nil =>
    unfold occurs
    rw [List.isPrefixOf_iff_prefix]
    constructor
    · exact fun h => h.isInfix
    · intro h
      rw [List.infix_nil.mp h]
  | cons c s ih =>
    unfold occurs
    rw [Bool.or_eq_true, List.isPrefixOf_iff_prefix, ih, List.infix_cons_iff]

theorem infix_line (pat f : List Char) (hp : '\n' ∉ pat) : pat <:+: f ++ ['\n'] ↔ pat <:+: f := by
  constructor
  · rintro ⟨a, b, h⟩
    rcases List.eq_nil_or_concat b with rfl | ⟨b', x, rfl⟩
    · rcases List.eq_nil_or_concat pat with rfl | ⟨p', y, rfl⟩
      · exact List.nil_infix
      · rw [List.append_nil, List.concat_eq_append, ← List.append_assoc] at h
        have := List.append_inj_right' h rfl
        simp only [List.cons.injEq, and_true] at this
        subst this
        simp at hp
    · rw [List.concat_eq_append, ← List.append_assoc] at h
      exact ⟨a, b', List.append_inj_left' h rfl⟩
  · exact fun h => h.trans (List.prefix_append f ['\n']).isInfix

theorem chunks_records (m : Nat) (records : List (Int × Num × List Num)) (h : ∀ r ∈ records, r.2.2.length = m) :
    (records.flatMap fun r => Num.fin r.1 :: r.2.1 :: r.2.2).length = records.length * (2 + m) ∧
    chunks (2 + m) (records.flatMap fun r => Num.fin r.1 :: r.2.1 :: r.2.2) records.length =
      records.map fun r => Num.fin r.1 :: r.2.1 :: r.2.2 := by
  induction records with
  | nil => simp [chunks]
  | cons r l ih =>
    obtain ⟨i1, i2⟩ := ih fun x hx => h x (List.mem_cons_of_mem _ hx)
    have hr := h r (by simp)
    have hlen : (Num.fin (r.1 : ℚ) :: r.2.1 :: r.2.2).length = 2 + m := by simp [hr]; omega
    constructor
    · rw [List.flatMap_cons, List.length_append, i1, hlen, List.length_cons]
      ring
    · rw [List.flatMap_cons, List.length_cons, chunks, List.map_cons]
      rw [← hlen, List.take_left, List.drop_left, hlen, i2]

/-- **C56.** A gauge with binary data: the header names its kind, and the format in the fourth line. With `binary32` in that
line the numbers are single, otherwise with `binary` double ones; the records follow one another, each with level, time and
values. All of them are read; the path of the gauge is the point of the header at the first time, or, for a Lagrangian
gauge, the second and third values. -/
theorem C56_binary (dec64 dec32 : Raw → List Num) (bin : Int → Option Raw) (repr : Num → List Char) (id : Int) (x y : Num)
    (m : Nat) (hx : Spec.GoodRepr repr x) (hy : Spec.GoodRepr repr y) (kind columns format rest : List Char)
    (hk : '\n' ∉ kind) (hc : '\n' ∉ columns) (hf : '\n' ∉ format) (lagrangian : Bool)
    (hkind : if lagrangian then "lagrangian".toList <:+: lowerText kind else
      "stationary".toList <:+: lowerText kind ∧ ¬ "lagrangian".toList <:+: lowerText kind) (single : Bool)
    (hformat : if single then "binary32".toList <:+: format else
      "binary".toList <:+: format ∧ ¬ "binary32".toList <:+: format)
    (fs : Int → Option (List Char))
    (hfs : fs id = some (gaugeHeader repr id x y m ++ (kind ++ '\n' :: (columns ++ '\n' :: (format ++ '\n' :: rest)))))
    (raw : Raw) (hraw : bin id = some raw) (r0 : Int × Num × List Num) (records : List (Int × Num × List Num))
    (hrec : ∀ r ∈ r0 :: records, r.2.2.length = m) (hm : lagrangian = true → 3 ≤ m)
    (hdata : (if single then dec32 raw else dec64 raw) = (r0 :: records).flatMap fun r => Num.fin r.1 :: r.2.1 :: r.2.2)
    (old : GaugeSol) :
    ∃ g' q, gaugeRead dec64 dec32 bin fs id false old = (g', .ok ()) ∧ g'.id = some id ∧ g'.location = some [x, y] ∧
      g'.lagrangian = lagrangian ∧ g'.level = some ((r0 :: records).map fun r => r.1) ∧
      g'.t = some ((r0 :: records).map fun r => r.2.1) ∧ g'.q = some q ∧ q.m = m ∧ q.n = records.length + 1 ∧
      (∀ i (hi : i < (r0 :: records).length) (k : Nat), k < m → q.get k i = nth .nan ((r0 :: records)[i]).2.2 k) ∧
      g'.path = some (if lagrangian then (r0 :: records).map fun r => (r.2.1, nth .nan r.2.2 1, nth .nan r.2.2 2)
        else [(r0.2.1, x, y)]) := by
  obtain ⟨h1, h2⟩ := gaugeHeader_words repr id x y m hx hy (kind ++ '\n' :: (columns ++ '\n' :: (format ++ '\n' :: rest)))
  have hne : parseInt (natDigits m) = .ok (m : Int) := by
    rw [parseInt_digits _ (natDigits_digits m) (natDigits_ne_nil m), digitsValue_natDigits]
  have hlow : lowerText (kind ++ ['\n']) = lowerText kind ++ ['\n'] := by
    unfold lowerText
    rw [List.map_append]
    rfl
  have hlag : occurs "lagrangian".toList (lowerText (kind ++ ['\n'])) = lagrangian := by
    rw [hlow]
    cases lagrangian with
    | true =>
      rw [occurs_iff, infix_line _ _ (by decide)]
      simpa using hkind
    | false =>
      rw [← Bool.not_eq_true, occurs_iff, infix_line _ _ (by decide)]
      simp only [Bool.false_eq_true, if_false] at hkind
      exact hkind.2
  have hst : lagrangian = true ∨ occurs "stationary".toList (lowerText (kind ++ ['\n'])) = true := by
    rw [hlow]
    cases lagrangian with
    | true => exact .inl rfl
    | false =>
      right
      rw [occurs_iff, infix_line _ _ (by decide)]
      simp only [Bool.false_eq_true, if_false] at hkind
      exact hkind.1
  have hfmt : gaugeFormat (format ++ ['\n']) = if single then .binary32 else .binary64 := by
    unfold gaugeFormat
    rw [if_neg (by simp)]
    cases single with
    | true =>
      rw [if_pos]
      · rfl
      · rw [occurs_iff, infix_line _ _ (by decide)]
        simpa using hformat
    | false =>
      simp only [Bool.false_eq_true, if_false] at hformat ⊢
      rw [if_neg, if_pos]
      · rw [occurs_iff, infix_line _ _ (by decide)]; exact hformat.1
      · rw [occurs_iff, infix_line _ _ (by decide)]; exact hformat.2
  have hread : gaugeRead dec64 dec32 bin fs id false old =
      gaugeBody dec64 dec32 bin (gaugeHeader repr id x y m ++ (kind ++ '\n' :: (columns ++ '\n' :: (format ++ '\n' :: rest))))
        (if single then .binary32 else .binary64) (some m) id false
        { old with id := some id, location := some [x, y], lagrangian := lagrangian } := by
    unfold gaugeRead
    rw [hfs]
    dsimp only
    rw [h1]
    dsimp only
    rw [h2]
    dsimp only [List.getElem?_cons_succ, List.getElem?_cons_zero]
    rw [parseInt_intText]
    dsimp only
    have hw : gaugeWhere ["#".toList, "gauge_id=".toList, intText id, "location=(".toList, repr x, repr y, ")".toList,
        "num_eqn=".toList, natDigits m] = some ([repr x, repr y], natDigits m) := rfl
    rw [hw]
    dsimp only
    rw [mapM_two repr x y hx hy]
    dsimp only
    rw [hne, readline_line _ _ hk]
    dsimp only
    rw [hlag, if_pos hst, readline_line _ _ hc]
    dsimp only
    rw [readline_line _ _ hf]
    dsimp only
    rw [hfmt]
  obtain ⟨c1, c2⟩ := chunks_records m (r0 :: records) hrec
  have hdata' : (if (if single then GFormat.binary32 else .binary64) = .binary32 then dec32 raw else dec64 raw) =
      (r0 :: records).flatMap fun r => Num.fin r.1 :: r.2.1 :: r.2.2 := by
    rw [← hdata]
    cases single <;> rfl
  have hw : ((2 : Int) + (m : Int)).toNat = 2 + m := by omega
  have hlev : ((r0 :: records).map fun r => Num.fin (r.1 : ℚ) :: r.2.1 :: r.2.2).map (fun r => toInt64 (nth .nan r 0)) =
      (r0 :: records).map fun r => r.1 := by
    rw [List.map_map]
    exact List.map_congr_left fun r _ => toInt64_int r.1
  have ht : ((r0 :: records).map fun r => Num.fin (r.1 : ℚ) :: r.2.1 :: r.2.2).map (fun r => nth .nan r 1) =
      (r0 :: records).map fun r => r.2.1 := by
    rw [List.map_map]
    rfl
  have hget : ∀ i (hi : i < (r0 :: records).length) (k : Nat),
      nth Num.nan (nth [] ((r0 :: records).map fun r => Num.fin (r.1 : ℚ) :: r.2.1 :: r.2.2) i) (2 + k) =
        nth .nan ((r0 :: records)[i]).2.2 k := by
    intro i hi k
    have e : nth [] ((r0 :: records).map fun r => Num.fin (r.1 : ℚ) :: r.2.1 :: r.2.2) i =
        Num.fin (((r0 :: records)[i]).1 : ℚ) :: ((r0 :: records)[i]).2.1 :: ((r0 :: records)[i]).2.2 := by
      unfold nth
      rw [List.getD_eq_getElem?_getD, List.getElem?_map, List.getElem?_eq_getElem hi]
      rfl
    rw [e, Nat.add_comm 2 k]
    rfl
  refine ⟨{ old with
      id := some id
      location := some [x, y]
      lagrangian := lagrangian
      level := some ((r0 :: records).map fun r => r.1)
      t := some ((r0 :: records).map fun r => r.2.1)
      q := some ⟨m, records.length + 1, fun k i =>
        nth .nan (nth [] ((r0 :: records).map fun r => Num.fin (r.1 : ℚ) :: r.2.1 :: r.2.2) i) (2 + k)⟩
      path := some (if lagrangian then (r0 :: records).map fun r => (r.2.1, nth .nan r.2.2 1, nth .nan r.2.2 2)
        else [(r0.2.1, x, y)]) }, ⟨m, records.length + 1, fun k i =>
    nth .nan (nth [] ((r0 :: records).map fun r => Num.fin (r.1 : ℚ) :: r.2.1 :: r.2.2) i) (2 + k)⟩,
    ?_, rfl, rfl, rfl, rfl, rfl, rfl, rfl, rfl, fun i hi k _ => hget i hi k, rfl⟩
  rw [hread]
  unfold gaugeBody
  rw [if_neg (by simp)]
  simp only [Bool.false_eq_true, if_false]
  have hm' : ∀ (f : GFormat), f = (if single then .binary32 else .binary64) → f ≠ .ascii := by
    intro f hf
    rw [hf]
    cases single <;> simp
  have hdd : ∀ f, f = (if single then GFormat.binary32 else .binary64) → (if f = .binary32 then dec32 raw else dec64 raw) =
      (r0 :: records).flatMap fun r => Num.fin r.1 :: r.2.1 :: r.2.2 := fun f h => by rw [h]; exact hdata'
  generalize hff : (if single = true then GFormat.binary32 else GFormat.binary64) = f at hm' hdd
  have hfin : gaugeFinish (some (m : Int)) (2 + m) ((r0 :: records).map fun r => Num.fin (r.1 : ℚ) :: r.2.1 :: r.2.2)
      { old with id := some id, location := some [x, y], lagrangian := lagrangian } = ({ old with
      id := some id
      location := some [x, y]
      lagrangian := lagrangian
      level := some ((r0 :: records).map fun r => r.1)
      t := some ((r0 :: records).map fun r => r.2.1)
      q := some ⟨m, records.length + 1, fun k i =>
        nth .nan (nth [] ((r0 :: records).map fun r => Num.fin (r.1 : ℚ) :: r.2.1 :: r.2.2) i) (2 + k)⟩
      path := some (if lagrangian then (r0 :: records).map fun r => (r.2.1, nth .nan r.2.2 1, nth .nan r.2.2 2)
        else [(r0.2.1, x, y)]) }, .ok ()) := by
    unfold gaugeFinish
    rw [if_neg (by omega)]
    dsimp only
    rw [if_neg (by omega), hlev, ht, if_neg (by simp)]
    rw [show 2 + m - 2 = m by omega, List.length_map, List.length_cons]
    cases lagrangian with
    | false => simp [nth]
    | true =>
      have := hm rfl
      simp only [List.length_cons, List.length_nil, if_true]
      rw [if_neg (by omega)]
      refine Prod.ext ?_ rfl
      dsimp only
      congr 2
      refine List.ext_getElem (by simp) fun i h1 h2 => ?_
      rw [List.getElem_map, List.getElem_range, List.getElem_map]
      have hi : i < (r0 :: records).length := by simpa using h2
      refine Prod.ext ?_ (Prod.ext ?_ ?_)
      · show nth _ _ i = _
        unfold nth
        rw [List.getD_eq_getElem?_getD, List.getElem?_map, List.getElem?_eq_getElem hi]
        rfl
      · exact hget i hi 1
      · exact hget i hi 2
  have hmod : ((r0 :: records).flatMap fun r => Num.fin (r.1 : ℚ) :: r.2.1 :: r.2.2).length % (2 + m) = 0 := by
    rw [c1, Nat.mul_mod_left]
  have hdiv : ((r0 :: records).flatMap fun r => Num.fin (r.1 : ℚ) :: r.2.1 :: r.2.2).length / (2 + m) = (r0 :: records).length := by
    rw [c1, Nat.mul_div_cancel _ (by omega)]
  have hdd := hdd f rfl
  cases f with
  | ascii => exact absurd rfl (hm' _ rfl)
  | binary64 =>
    dsimp only
    rw [hraw]
    dsimp only
    rw [hdd, hw, if_neg (by simpa using hmod), hdiv, c2]
    exact hfin
  | binary32 =>
    dsimp only
    rw [hraw]
    dsimp only
    rw [hdd, hw, if_neg (by simpa using hmod), hdiv, c2]
    exact hfin

/-- The fourth line of a file of GeoClaw names the format. -/
example : "binary32".toList <:+: "# file format binary32".toList ∧ "stationary".toList <:+: lowerText "# Stationary gauge".toList ∧
    ¬ "binary32".toList <:+: "# file format binary64".toList := by
  refine ⟨?_, ?_, ?_⟩
  · rw [← occurs_iff]; decide
  · rw [← occurs_iff]; decide
  · rw [← occurs_iff]; decide

end PyClaw
