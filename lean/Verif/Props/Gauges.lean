import Verif.Lemmas.Gauges
import Verif.Lemmas.AsciiFrame

set_option linter.unusedSectionVars false

/-!
C56: gauge files.
-/
namespace PyClaw

variable {Raw : Type}

/-- The words of the first line. -/
theorem gaugeHeader_words (repr : Num → List Char) (id : Int) (x y : Num) (m : Nat) (hx : Spec.GoodRepr repr x)
    (hy : Spec.GoodRepr repr y) (s : List Char) :
    readline (gaugeHeader repr id x y m ++ s) =
      (gaugeHeader repr id x y m, s) ∧
    splitWs (gaugeHeader repr id x y m) = ["#".toList, "gauge_id=".toList, intText id, "location=(".toList, repr x, repr y,
      ")".toList, "num_eqn=".toList, natDigits m] := by
  have hm : NoWs (natDigits m) := fun c hc => (isDigit_cases c (natDigits_digits m c hc)).1
  have e : gaugeHeader repr id x y m = joinSp ["#".toList, "gauge_id=".toList, intText id, "location=(".toList, repr x, repr y,
      ")".toList, "num_eqn=".toList, natDigits m] ++ ['\n'] := by
    unfold gaugeHeader
    simp [joinSp]
  have hw : ∀ w ∈ ["#".toList, "gauge_id=".toList, intText id, "location=(".toList, repr x, repr y,
      ")".toList, "num_eqn=".toList, natDigits m], NoWs w ∧ w ≠ [] := by
    intro w hw
    simp only [List.mem_cons, List.not_mem_nil, or_false] at hw
    rcases hw with rfl | rfl | rfl | rfl | rfl | rfl | rfl | rfl | rfl
    · unfold NoWs; decide
    · unfold NoWs; decide
    · exact ⟨intText_noWs id, intText_ne_nil id⟩
    · unfold NoWs; decide
    · exact ⟨hx.word, hx.nonempty⟩
    · exact ⟨hy.word, hy.nonempty⟩
    · unfold NoWs; decide
    · unfold NoWs; decide
    · exact ⟨hm, natDigits_ne_nil m⟩
  refine ⟨?_, ?_⟩
  · rw [e, List.append_assoc]
    show readline (_ ++ '\n' :: s) = _
    rw [readline_line]
    · intro h
      rcases mem_joinSp _ _ h with h | ⟨w, h1, h2⟩
      · revert h; decide
      · exact noWs_no_newline w (hw w h1).1 h2
  · rw [e, splitWs_newline, splitWs_joinSp _ hw]

theorem gaugeColumns_line (s : List Char) : readline (gaugeColumns ++ s) = (gaugeColumns, s) := by
  have e : gaugeColumns = "# Columns: level time q(1 ... num_eqn)".toList ++ ['\n'] := by decide
  rw [e, List.append_assoc]
  exact readline_line _ s (by decide)

/-- Neither header line gives data. -/
theorem header_rows (repr : Num → List Char) (id : Int) (x y : Num) (m : Nat) (hx : Spec.GoodRepr repr x)
    (hy : Spec.GoodRepr repr y) (s : List Char) :
    ((textLines (gaugeHeader repr id x y m ++ (gaugeColumns ++ s))).map fun l => splitWs (l.takeWhile (· ≠ '#'))).filter
      (· ≠ []) = ((textLines s).map fun l => splitWs (l.takeWhile (· ≠ '#'))).filter (· ≠ []) := by
  obtain ⟨body, hb, hn⟩ : ∃ body, gaugeHeader repr id x y m = ('#' :: body) ++ ['\n'] ∧ '\n' ∉ '#' :: body := by
    refine ⟨" gauge_id= ".toList ++ (intText id ++ (" location=( ".toList ++ (repr x ++ (' ' :: (repr y ++
        (" ) num_eqn= ".toList ++ natDigits m)))))), ?_, ?_⟩
    · have e1 : "# gauge_id= ".toList = '#' :: " gauge_id= ".toList := by decide
      unfold gaugeHeader
      rw [e1]
      simp only [List.cons_append, List.append_assoc]
    intro h
    simp only [List.mem_cons, List.mem_append] at h
    rcases h with h | h | h | h | h | h | h | h | h
    · revert h; decide
    · revert h; decide
    · exact noWs_no_newline _ (intText_noWs id) h
    · revert h; decide
    · exact noWs_no_newline _ hx.word h
    · revert h; decide
    · exact noWs_no_newline _ hy.word h
    · revert h; decide
    · exact (isDigit_cases _ (natDigits_digits m _ h)).2.2.2.2.2.2.2 rfl
  have e : gaugeColumns = ('#' :: " Columns: level time q(1 ... num_eqn)".toList) ++ ['\n'] := by decide
  have hw : ∀ b : List Char, splitWs (('#' :: b).takeWhile (· ≠ '#')) = [] := by
    intro b
    simp [splitWs, splitAux]
  rw [hb, e, List.append_assoc, List.append_assoc]
  show ((textLines (('#' :: body) ++ '\n' :: (_ ++ '\n' :: s))).map _).filter _ = _
  rw [textLines_line _ _ hn, textLines_line _ _ (by decide), List.map_cons, List.map_cons, hw, hw]
  simp

theorem mapM_two (repr : Num → List Char) (x y : Num) (hx : Spec.GoodRepr repr x) (hy : Spec.GoodRepr repr y) :
    floats [repr x, repr y] = .ok [x, y] := by
  simp [floats, hx.back, hy.back]

/-- Reading the header of a written file: what remains is the treatment of the data. -/
theorem read_header (dec64 dec32 : Raw → List Num) (bin : Int → Option Raw) (repr : Num → List Char) (id : Int) (x y : Num)
    (m : Nat) (hx : Spec.GoodRepr repr x) (hy : Spec.GoodRepr repr y) (s : List Char) (fs : Int → Option (List Char))
    (hfs : fs id = some (gaugeHeader repr id x y m ++ (gaugeColumns ++ s))) (pandas : Bool) (old : GaugeSol) :
    gaugeRead dec64 dec32 bin fs id pandas old =
      gaugeBody dec64 dec32 bin (gaugeHeader repr id x y m ++ (gaugeColumns ++ s)) (gaugeFormat (readline s).1) (some m) id pandas
        { old with id := some id, location := some [x, y], lagrangian := false } := by
  obtain ⟨h1, h2⟩ := gaugeHeader_words repr id x y m hx hy (gaugeColumns ++ s)
  have hlag : occurs "lagrangian".toList (lowerText gaugeColumns) = false := by decide
  have hst : occurs "stationary".toList (lowerText gaugeColumns) = false := by decide
  have hne : parseInt (natDigits m) = .ok (m : Int) := by
    rw [parseInt_digits _ (natDigits_digits m) (natDigits_ne_nil m), digitsValue_natDigits]
  unfold gaugeRead
  rw [hfs]
  dsimp only
  rw [h1]
  dsimp only
  rw [h2]
  dsimp only [List.getElem?_cons_succ, List.getElem?_cons_zero]
  rw [parseInt_intText]
  dsimp only
  have hw : gaugeWhere ["#".toList, "gauge_id=".toList, intText id, "location=(".toList, repr x, repr y, ")".toList,
      "num_eqn=".toList, natDigits m] = some ([repr x, repr y], natDigits m) := rfl
  rw [hw]
  dsimp only
  rw [mapM_two repr x y hx hy]
  dsimp only
  rw [hne, gaugeColumns_line]
  dsimp only
  rw [hlag, hst]
  simp

/-- The file that `write` makes. -/
theorem write_file {fmt : Num → List Char} {P : Nat} (hf : GoodFmt fmt P) (repr : Num → List Char) {g : GaugeSol} {id : Int}
    {x y : Num} {level : List Int} {t : List Num} {q : GaugeArr} (hg : Spec.Recorded g id x y level t q)
    (fs : Int → Option (List Char)) :
    gaugeWrite repr fmt g fs = (Function.update fs id (some (gaugeHeader repr id x y q.m ++ (gaugeColumns ++
      (gaugeRows fmt level t q q.n 0).1))), .ok ()) := by
  unfold gaugeWrite
  rw [hg.hid, hg.hlocation, hg.hlevel, hg.ht, hg.hq]
  dsimp only
  rw [(gaugeRows_read hf level t q q.n 0 (by rw [hg.levels]; omega) (by rw [hg.times]; omega)).1]

theorem nth_range' {α : Type} (d : α) (f : Nat → α) (k i j : Nat) (h : j < k) :
    nth d ((List.range' i k).map f) j = f (i + j) := by
  unfold nth
  rw [List.getD_eq_getElem?_getD, List.getElem?_map, List.getElem?_range' (by omega)]
  simp

/-- **C56.** A gauge in two dimensions with at least one record is recovered from the file that `write` made, whatever the gauge
object it is read into contained and whatever else is in the directory. -/
theorem C56_round_trip (dec64 dec32 : Raw → List Num) (bin : Int → Option Raw) (repr : Num → List Char) (plus : Bool) (P : Nat)
    (hP : 1 ≤ P) (g : GaugeSol) (id : Int) (x y : Num) (level : List Int) (t : List Num) (q : GaugeArr)
    (hg : Spec.Recorded g id x y level t q) (hx : Spec.GoodRepr repr x) (hy : Spec.GoodRepr repr y) (hn : 1 ≤ q.n)
    (fs : Int → Option (List Char)) (old : GaugeSol) :
    ∃ fs' g', gaugeWrite repr (sciText plus P) g fs = (fs', .ok ()) ∧ (∀ i, i ≠ id → fs' i = fs i) ∧
      gaugeRead dec64 dec32 bin fs' id false old = (g', .ok ()) ∧ Spec.SameGauge P g g' := by
  have hf := goodFmt plus P hP
  obtain ⟨-, r2, r3⟩ := gaugeRows_read hf level t q q.n 0 (by rw [hg.levels]; omega) (by rw [hg.times]; omega)
  obtain ⟨r4, r5⟩ := r3 hn
  set rows := (gaugeRows (sciText plus P) level t q q.n 0).1 with hrows
  have hfmt : gaugeFormat (readline rows).1 = .ascii := by
    unfold gaugeFormat
    rw [if_neg, occurs_not _ _ 'b' rfl r5, occurs_not _ _ 'b' rfl r5]
    · rfl
    · intro e
      cases hr : rows with
      | nil => exact r4 hr
      | cons c s =>
        rw [hr] at e
        unfold readline at e
        split at e <;> cases e
  have hload : loadData (gaugeHeader repr id x y q.m ++ (gaugeColumns ++ rows)) =
      .ok (q.m + 2, (List.range' 0 q.n).map (rowNums P level t q)) := by
    unfold loadData
    rw [header_rows repr id x y q.m hx hy, r2]
    obtain ⟨k, hk⟩ : ∃ k, q.n = k + 1 := ⟨q.n - 1, by omega⟩
    rw [hk, List.range'_succ, List.map_cons]
    dsimp only
    have hlen : ∀ i, (rowNums P level t q i).length = q.m + 2 := by
      intro i
      simp [rowNums, record]
    rw [if_pos, if_neg, hlen]
    · rw [hlen]; omega
    · rw [List.all_eq_true]
      intro r hr
      obtain ⟨i, _, rfl⟩ := List.mem_map.mp hr
      rw [decide_eq_true_eq, hlen, hlen]
  set fs' := Function.update fs id (some (gaugeHeader repr id x y q.m ++ (gaugeColumns ++ rows))) with hfs'
  have hread := read_header dec64 dec32 bin repr id x y q.m hx hy rows fs' (Function.update_self ..) false old
  have hlev : ((List.range' 0 q.n).map (rowNums P level t q)).map (fun r => toInt64 (nth .nan r 0)) = level := by
    rw [List.map_map]
    refine List.ext_getElem (by simp [hg.levels]) fun i h1 h2 => ?_
    rw [List.getElem_map, List.getElem_range']
    show toInt64 (.fin ((nth 0 level (0 + 1 * i) : Int) : ℚ)) = _
    rw [toInt64_int]
    simp [nth, h2]
  have ht : List.Forall₂ (Spec.CloseTo 15) t
      (((List.range' 0 q.n).map (rowNums P level t q)).map fun r => nth .nan r 1) := by
    rw [List.map_map, List.forall₂_iff_get]
    refine ⟨by simp [hg.times], fun i h1 h2 => ?_⟩
    have e : (List.map ((fun r => nth Num.nan r 1) ∘ rowNums P level t q) (List.range' 0 q.n)).get ⟨i, h2⟩ =
        roundNum 15 (t.get ⟨i, h1⟩) := by
      simp only [List.get_eq_getElem, List.getElem_map, List.getElem_range', Function.comp]
      show roundNum 15 (nth .nan t (0 + 1 * i)) = _
      congr 1
      simp [nth, h1]
    rw [e]
    exact close_round' 15 _
  obtain ⟨t0, ts, ht0⟩ : ∃ t0 ts, (((List.range' 0 q.n).map (rowNums P level t q)).map fun r => nth .nan r 1) = t0 :: ts := by
    cases hc : (((List.range' 0 q.n).map (rowNums P level t q)).map fun r => nth Num.nan r 1) with
    | nil =>
      have := congrArg List.length hc
      simp at this
      omega
    | cons a b => exact ⟨a, b, rfl⟩
  rw [ht0] at ht
  refine ⟨fs', { old with
      id := some id
      location := some [x, y]
      lagrangian := false
      level := some level
      t := some (t0 :: ts)
      q := some ⟨q.m, q.n, fun m i => nth .nan (nth [] ((List.range' 0 q.n).map (rowNums P level t q)) i) (2 + m)⟩
      path := some [(t0, x, y)] }, ?_, ?_, ?_, ?_⟩
  · rw [write_file hf repr hg]
  · intro i hi
    exact Function.update_of_ne hi _ _
  · rw [hread, hfmt]
    unfold gaugeBody
    rw [if_neg (by simp)]
    simp only [Bool.false_eq_true, if_false]
    rw [hload]
    dsimp only
    unfold gaugeFinish
    rw [if_neg (by omega)]
    dsimp only
    rw [if_neg (by omega), hlev, ht0]
    simp [nth]
  · refine ⟨hg.hid.symm, hg.hlocation.symm, hg.hlevel.symm, ⟨t, _, hg.ht, rfl, ht⟩, ⟨q, _, hg.hq, rfl, rfl, rfl, ?_⟩⟩
    intro m hm i hi
    dsimp only
    rw [nth_range' [] _ q.n 0 i hi]
    have e : nth .nan (rowNums P level t q (0 + i)) (2 + m) = roundNum P (q.get m i) := by
      unfold rowNums record nth
      rw [Nat.zero_add, Nat.add_comm 2 m]
      simp [hm]
    rw [e]
    exact close_round' P _

/-- **C56 fails** for gauges without records: the file that was written is taken for the header of a binary file; without one,
`read` warns and returns, and the gauge keeps the data it had before. -/
theorem C56_no_records_violated (dec64 dec32 : Raw → List Num) (bin : Int → Option Raw) (repr : Num → List Char) (plus : Bool)
    (P : Nat) (hP : 1 ≤ P) (g : GaugeSol) (id : Int) (x y : Num) (level : List Int) (t : List Num) (q : GaugeArr)
    (hg : Spec.Recorded g id x y level t q) (hx : Spec.GoodRepr repr x) (hy : Spec.GoodRepr repr y) (hn : q.n = 0)
    (hbin : bin id = none) (fs : Int → Option (List Char)) (old : GaugeSol) :
    ∃ fs' g', gaugeWrite repr (sciText plus P) g fs = (fs', .ok ()) ∧ gaugeRead dec64 dec32 bin fs' id false old = (g', .ok ()) ∧
      g'.level = old.level ∧ g'.t = old.t ∧ (∀ m n, g'.q = some ⟨m, n, fun _ _ => .nan⟩ ↔ old.q = some ⟨m, n, fun _ _ => .nan⟩) ∧
      (old = {} → g'.level = none ∧ g'.t = none ∧ g'.q = none) := by
  have hf := goodFmt plus P hP
  have hread := read_header dec64 dec32 bin repr id x y q.m hx hy [] (Function.update fs id
    (some (gaugeHeader repr id x y q.m ++ (gaugeColumns ++ [])))) (Function.update_self ..) false old
  refine ⟨_, { old with id := some id, location := some [x, y], lagrangian := false }, write_file hf repr hg fs, ?_, rfl, rfl,
    fun _ _ => Iff.rfl, ?_⟩
  · rw [hn]
    change gaugeRead dec64 dec32 bin (Function.update fs id
      (some (gaugeHeader repr id x y q.m ++ (gaugeColumns ++ [])))) id false old = _
    rw [hread]
    have : gaugeFormat (readline []).1 = .binary64 := rfl
    rw [this]
    unfold gaugeBody
    rw [if_neg (by simp)]
    simp only [Bool.false_eq_true, if_false]
    rw [hbin]
  · rintro rfl
    exact ⟨rfl, rfl, rfl⟩

/-- **C56 fails** for Lagrangian gauges: they come back as stationary ones. -/
theorem C56_lagrangian_violated (dec64 dec32 : Raw → List Num) (bin : Int → Option Raw) (repr : Num → List Char) (plus : Bool)
    (P : Nat) (hP : 1 ≤ P) (g : GaugeSol) (id : Int) (x y : Num) (level : List Int) (t : List Num) (q : GaugeArr)
    (hg : Spec.Recorded g id x y level t q) (hx : Spec.GoodRepr repr x) (hy : Spec.GoodRepr repr y)
    (fs : Int → Option (List Char)) (old : GaugeSol) :
    (gaugeRead dec64 dec32 bin (gaugeWrite repr (sciText plus P) g fs).1 id false old).1.lagrangian = false := by
  have hf := goodFmt plus P hP
  rw [write_file hf repr hg]
  dsimp only
  rw [read_header dec64 dec32 bin repr id x y q.m hx hy _ _ (Function.update_self ..)]
  have key : ∀ (ne : Option Int) w rows (g : GaugeSol), g.lagrangian = false → (gaugeFinish ne w rows g).1.lagrangian = false := by
    intro ne w rows g h
    unfold gaugeFinish
    dsimp only
    repeat' split
    all_goals exact h
  unfold gaugeBody
  dsimp only
  repeat' split
  all_goals first | rfl | exact key _ _ _ _ rfl

/-- **C56 fails** in one dimension (`write` raises, leaving an empty file in place of the old one) and in three (the third
coordinate is lost). -/
theorem C56_other_dimensions_violated (repr fmt : Num → List Char) (g : GaugeSol) (id : Int) (loc : List Num)
    (h1 : g.id = some id) (h2 : g.location = some loc) (h3 : g.level ≠ none) (h4 : g.t ≠ none) (h5 : g.q ≠ none)
    (fs : Int → Option (List Char)) :
    (loc.length = 1 → gaugeWrite repr fmt g fs = (Function.update fs id (some []), .error .indexError)) ∧
      (∀ x y z, loc = [x, y, z] → gaugeWrite repr fmt g fs = gaugeWrite repr fmt { g with location := some [x, y] } fs) := by
  obtain ⟨lv, h3⟩ := Option.ne_none_iff_exists'.mp h3
  obtain ⟨t, h4⟩ := Option.ne_none_iff_exists'.mp h4
  obtain ⟨q, h5⟩ := Option.ne_none_iff_exists'.mp h5
  constructor
  · intro h
    unfold gaugeWrite
    rw [h1, h2, h3, h4, h5]
    match loc, h with
    | [x], _ => rfl
  · rintro x y z rfl
    unfold gaugeWrite
    rw [h1, h2, h3, h4, h5]

/-- **C56.** A file with another id than the one asked for raises. -/
theorem C56_wrong_id (dec64 dec32 : Raw → List Num) (bin : Int → Option Raw) (repr : Num → List Char) (id gid : Int) (hne : id ≠ gid)
    (x y : Num) (m : Nat) (hx : Spec.GoodRepr repr x) (hy : Spec.GoodRepr repr y) (s : List Char)
    (fs : Int → Option (List Char)) (hfs : fs gid = some (gaugeHeader repr id x y m ++ (gaugeColumns ++ s))) (pandas : Bool)
    (old : GaugeSol) : (gaugeRead dec64 dec32 bin fs gid pandas old).2 = .error .valueError := by
  obtain ⟨h1, h2⟩ := gaugeHeader_words repr id x y m hx hy (gaugeColumns ++ s)
  have hne' : parseInt (natDigits m) = .ok (m : Int) := by
    rw [parseInt_digits _ (natDigits_digits m) (natDigits_ne_nil m), digitsValue_natDigits]
  unfold gaugeRead
  rw [hfs]
  dsimp only
  rw [h1]
  dsimp only
  rw [h2]
  dsimp only [List.getElem?_cons_succ, List.getElem?_cons_zero]
  rw [parseInt_intText]
  dsimp only
  have hw : gaugeWhere ["#".toList, "gauge_id=".toList, intText id, "location=(".toList, repr x, repr y, ")".toList,
      "num_eqn=".toList, natDigits m] = some ([repr x, repr y], natDigits m) := rfl
  rw [hw]
  dsimp only
  rw [mapM_two repr x y hx hy]
  dsimp only
  rw [hne']
  dsimp only
  unfold gaugeBody
  rw [if_pos]
  intro e
  injection e with e
  exact hne e

/-! ### A concrete gauge -/

/-- A gauge with three records of two values. -/
def exGauge : GaugeSol where
  id := some 7
  location := some [.fin (1 / 2), .fin (-3)]
  level := some [1, 1, 12]
  t := some [.fin 0, .fin (1 / 3), .fin (2 / 3)]
  q := some ⟨2, 3, fun m i => if i = 2 then .nan else .fin (m + i / 7)⟩

/-- The text Python gives for the two coordinates. -/
def exRepr : Num → List Char
  | .fin x => if x = 1 / 2 then "0.5".toList else "-3.0".toList
  | _ => "nan".toList

example : Spec.Recorded exGauge 7 (.fin (1 / 2)) (.fin (-3)) [1, 1, 12] [.fin 0, .fin (1 / 3), .fin (2 / 3)]
    ⟨2, 3, fun m i => if i = 2 then .nan else .fin (m + i / 7)⟩ :=
  ⟨rfl, rfl, rfl, rfl, rfl, rfl, rfl, by decide⟩

example : Spec.GoodRepr exRepr (.fin (1 / 2)) ∧ Spec.GoodRepr exRepr (.fin (-3)) := by
  have e1 : exRepr (.fin (1 / 2)) = "0.5".toList := by unfold exRepr; norm_num
  have e2 : exRepr (.fin (-3)) = "-3.0".toList := by unfold exRepr; norm_num
  refine ⟨⟨?_, ?_, ?_⟩, ⟨?_, ?_, ?_⟩⟩
  · rw [e1]
    have h : (parseFloat "0.5".toList).toOption = some (.fin (1 / 2)) := by decide +kernel
    cases hr : parseFloat "0.5".toList with
    | error e => rw [hr] at h; cases h
    | ok i => rw [hr] at h; injection h with h; rw [h]
  · rw [e1]; decide
  · rw [e1]; decide
  · rw [e2]
    have h : (parseFloat "-3.0".toList).toOption = some (.fin (-3)) := by decide +kernel
    cases hr : parseFloat "-3.0".toList with
    | error e => rw [hr] at h; cases h
    | ok i => rw [hr] at h; injection h with h; rw [h]
  · rw [e2]; decide
  · rw [e2]; decide

end PyClaw
