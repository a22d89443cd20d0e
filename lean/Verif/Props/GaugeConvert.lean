import Verif.Model.GaugeConvert
import Verif.Spec.GaugeConvert
import Verif.Props.Gauges

/-!
C105: converting gauge files of older versions, and comparing an old file with a new one.
-/
set_option linter.unusedSectionVars false
namespace PyClaw

variable {Raw : Type}

theorem newGauge_recorded (id : Int) (rows : List (List Num)) (w : Nat) (h : Spec.OldTable rows w) :
    Spec.Recorded (newGauge id rows) id .nan .nan ((rowsOfGauge id rows).map fun r => toInt64 (nth .nan r 1))
      ((rowsOfGauge id rows).map fun r => nth .nan r 2)
      ⟨(rows.headD []).length - 3, (rowsOfGauge id rows).length, fun m i => nth .nan (nth [] (rowsOfGauge id rows) i) (3 + m)⟩ where
  hid := rfl
  hlocation := rfl
  hlevel := rfl
  ht := rfl
  hq := rfl
  levels := by simp
  times := by simp
  small := by
    intro l hl
    obtain ⟨r, hr, rfl⟩ := List.mem_map.mp hl
    exact h.levels r (List.mem_of_mem_filter hr)

theorem oldTable_head {rows : List (List Num)} {w : Nat} (h : Spec.OldTable rows w) : (rows.headD []).length = w := by
  cases rows with
  | nil => exact absurd h.two (by simp)
  | cons r l => exact h.width r (by simp)

/-- **C105, partial.** For the first gauge in the list of ids, `convert_gauges` writes a file from which `GaugeSolution` reads the
levels, times and values of the records of that gauge, in the order of the old file, to 16 digits; the files of other gauges are not
touched. Missing: the other gauges, since the call ends in `ValueError` after the first one unless the name of the old file has two
characters. -/
theorem C105_first_gauge_partial (dec64 dec32 : Raw → List Num) (bin : Int → Option Raw) (repr : Num → List Char)
    (hr : Spec.GoodRepr repr .nan) (path : List Char) (hp : path.length ≠ 2) (cmp : Except PyErr Unit) (id : Int) (ids : List Int)
    (txt : List Char) (rows : List (List Num)) (w : Nat) (hread : oldRows txt = .ok rows) (hf : Spec.OldTable rows w)
    (hid : Spec.recordsOf id rows ≠ []) (fs : Int → Option (List Char)) :
    ∃ fs' g, convertGauges repr path cmp (id :: ids) txt fs = (fs', .error .valueError) ∧ (∀ i, i ≠ id → fs' i = fs i) ∧
      gaugeRead dec64 dec32 bin fs' id false {} = (g, .ok ()) ∧ Spec.Converted (Spec.recordsOf id rows) w id g := by
  have hhead := oldTable_head hf
  have hn : 1 ≤ (rowsOfGauge id rows).length := List.length_pos_iff.mpr hid
  obtain ⟨fs', g', h1, h2, h3, h4⟩ := C56_round_trip dec64 dec32 bin repr true 15 (by norm_num) (newGauge id rows) id .nan .nan _ _ _
    (newGauge_recorded id rows w hf) hr hr hn fs {}
  refine ⟨fs', g', ?_, h2, h3, ⟨h4.id, h4.level, ?_, ?_⟩⟩
  · unfold convertGauges
    rw [hread]
    simp only [hhead, if_neg (not_lt.mpr hf.wide), convertLoop, h1, compareCall, if_pos hp]
  · obtain ⟨t, t', e, e', h⟩ := h4.t
    cases e
    exact ⟨t', e', h⟩
  · obtain ⟨q, q', e, e', hm, hn', h⟩ := h4.q
    cases e
    simp only [hhead] at hm hn' h
    exact ⟨q', e', hm, hn', h⟩

/-- C105 fails: whatever order the ids come in, in an empty directory every gauge except the first is left without a file. -/
theorem C105_other_gauges_violated (repr : Num → List Char) (hr : Spec.GoodRepr repr .nan) (path : List Char) (hp : path.length ≠ 2)
    (cmp : Except PyErr Unit) (id : Int) (ids : List Int) (txt : List Char) (rows : List (List Num)) (w : Nat)
    (hread : oldRows txt = .ok rows) (hf : Spec.OldTable rows w) (hid : Spec.recordsOf id rows ≠ []) (other : Int) (ho : other ≠ id) :
    (convertGauges repr path cmp (id :: ids) txt fun _ => none).1 other = none := by
  obtain ⟨fs', g, h1, h2, -⟩ := C105_first_gauge_partial (Raw := Unit) (fun _ => []) (fun _ => []) (fun _ => none) repr hr path hp
    cmp id ids txt rows w hread hf hid fun _ => none
  rw [h1]
  exact h2 other ho

/-- C105 fails: an old file with a single record raises `IndexError`, and nothing is written. -/
theorem C105_one_record_violated (repr : Num → List Char) (path : List Char) (cmp : Except PyErr Unit) (order : List Int)
    (fs : Int → Option (List Char)) :
    convertGauges repr path cmp order "1 1 0.0 5.0\n".toList fs = (fs, .error .indexError) := by
  have h : oldRows "1 1 0.0 5.0\n".toList = .error .indexError := by decide +kernel
  unfold convertGauges
  rw [h]

theorem closeNum_iff (atol rtol : ℚ) (a b : Num) : closeNum atol rtol a b = true ↔ Spec.Near atol rtol a b := by
  cases a <;> cases b <;> simp [closeNum, Spec.Near]

/-- **C105.** `compare_old_gauges` answers `True` exactly if every value of the gauge in the new file is near the one in the old file, for
files with the same number of records and of values. -/
theorem C105_compare (dec64 dec32 : Raw → List Num) (bin : Int → Option Raw) (fs : Int → Option (List Char)) (txt : List Char)
    (id : Int) (atol rtol : ℚ) (rows : List (List Num)) (w : Nat) (hread : oldRows txt = .ok rows) (hf : Spec.OldTable rows w)
    (g : GaugeSol) (hg : gaugeRead dec64 dec32 bin fs id false {} = (g, .ok ())) (q : GaugeArr) (hq : g.q = some q)
    (hn : q.n = (Spec.recordsOf id rows).length) (hm : q.m = w - 3) :
    ∃ b, compareOld dec64 dec32 bin fs txt id atol rtol = .ok b ∧
      (b = true ↔ ∀ i < q.n, ∀ m < q.m, Spec.Near atol rtol (((Spec.recordsOf id rows).getD i []).getD (3 + m) .nan) (q.get m i)) := by
  refine ⟨(List.range q.n).all fun i => (List.range q.m).all fun m =>
    closeNum atol rtol (nth .nan (nth [] (rowsOfGauge id rows) i) (3 + m)) (q.get m i), ?_, ?_⟩
  · unfold compareOld
    rw [hread]
    dsimp only
    rw [hg]
    dsimp only
    rw [hq]
    dsimp only
    rw [if_pos ⟨hn, by rw [hm, oldTable_head hf]⟩]
  · simp only [List.all_eq_true, List.mem_range, closeNum_iff]
    rfl

/-- **C105.** A gauge whose values have at most 16 digits passes the comparison after its conversion, with any tolerances. -/
theorem C105_converted_passes (dec64 dec32 : Raw → List Num) (bin : Int → Option Raw) (repr : Num → List Char)
    (hr : Spec.GoodRepr repr .nan) (path : List Char) (hp : path.length ≠ 2) (cmp : Except PyErr Unit) (id : Int) (ids : List Int)
    (txt : List Char) (rows : List (List Num)) (w : Nat) (hread : oldRows txt = .ok rows) (hf : Spec.OldTable rows w)
    (hid : Spec.recordsOf id rows ≠ []) (fs : Int → Option (List Char)) (atol rtol : ℚ) (ha : 0 ≤ atol) (hrt : 0 ≤ rtol)
    (hs : ∀ r ∈ Spec.recordsOf id rows, ∀ m < w - 3, Spec.Short (r.getD (3 + m) .nan)) :
    compareOld dec64 dec32 bin (convertGauges repr path cmp (id :: ids) txt fs).1 txt id atol rtol = .ok true := by
  obtain ⟨fs', g, h1, -, h3, h4⟩ := C105_first_gauge_partial dec64 dec32 bin repr hr path hp cmp id ids txt rows w hread hf hid fs
  obtain ⟨q, e, hm, hn, hc⟩ := h4.q
  rw [h1]
  obtain ⟨b, hb, hiff⟩ := C105_compare dec64 dec32 bin fs' txt id atol rtol rows w hread hf g h3 q e hn hm
  have : b = true := by
    rw [hiff]
    intro i hi m hmm
    rw [hn] at hi
    rw [hm] at hmm
    have c := hc m hmm i hi
    have hmem : (Spec.recordsOf id rows).getD i [] ∈ Spec.recordsOf id rows := by
      rw [List.getD_eq_getElem?_getD, List.getElem?_eq_getElem hi]
      exact List.getElem_mem hi
    obtain ⟨k, n, hk, hx⟩ := hs _ hmem m hmm
    rw [hx] at c ⊢
    generalize q.get m i = y at c ⊢
    cases y with
    | fin y =>
      have := c.2 k n (by simpa using hk) rfl
      subst this
      simp only [Spec.Near, sub_self, abs_zero]
      positivity
    | _ => simp [Spec.CloseTo] at c
  rw [hb, this]

/-- C105 fails for the comparison: levels and times are not compared. New files with the same values get the same answer, at
whatever levels and times. -/
theorem C105_times_not_compared_violated (dec64 dec32 : Raw → List Num) (bin : Int → Option Raw) (fs fs' : Int → Option (List Char))
    (txt : List Char) (id : Int) (atol rtol : ℚ) (g g' : GaugeSol) (hg : gaugeRead dec64 dec32 bin fs id false {} = (g, .ok ()))
    (hg' : gaugeRead dec64 dec32 bin fs' id false {} = (g', .ok ())) (q q' : GaugeArr) (hq : g.q = some q) (hq' : g'.q = some q')
    (hm : q'.m = q.m) (hn : q'.n = q.n) (h : ∀ i < q.n, ∀ m < q.m, q'.get m i = q.get m i) :
    compareOld dec64 dec32 bin fs' txt id atol rtol = compareOld dec64 dec32 bin fs txt id atol rtol := by
  unfold compareOld
  rw [hg, hg']
  simp only [hq, hq', hm, hn]
  cases oldRows txt with
  | error e => rfl
  | ok rows =>
    dsimp only
    congr 2
    rw [Bool.eq_iff_iff]
    simp only [List.all_eq_true, List.mem_range]
    refine forall₂_congr fun i hi => forall₂_congr fun m hm => ?_
    rw [h i hi m hm]

/-! A file with two gauges meets the hypotheses. -/

def exOld : List Char := "1 1 0.0 5.0\n2 1 0.0 6.5\n1 2 0.5 7.25\n".toList

def exOldRows : List (List Num) :=
  [[.fin 1, .fin 1, .fin 0, .fin 5], [.fin 2, .fin 1, .fin 0, .fin (13 / 2)], [.fin 1, .fin 2, .fin (1 / 2), .fin (29 / 4)]]

example : oldRows exOld = .ok exOldRows := by decide +kernel

example : Spec.OldTable exOldRows 4 := ⟨by decide, by decide, by decide, by decide +kernel⟩

example : Spec.recordsOf 1 exOldRows =
    [[.fin 1, .fin 1, .fin 0, .fin 5], [.fin 1, .fin 2, .fin (1 / 2), .fin (29 / 4)]] ∧ Spec.recordsOf 2 exOldRows ≠ [] := by
  decide +kernel

example : Spec.GoodRepr (fun _ => "nan".toList) .nan := ⟨by decide +kernel, by decide +kernel, by decide⟩

/-- Two files of gauge 1 with the same values, at different levels and times. -/
def exNew (l1 l2 : List Char) : Int → Option (List Char) := fun _ =>
  some (gaugeHeader (fun _ => "nan".toList) 1 .nan .nan 1 ++ (gaugeColumns ++ (l1 ++ " 5.0\n".toList ++ l2 ++ " 7.25\n".toList)))

example :
    let a := gaugeRead (Raw := Unit) (fun _ => []) (fun _ => []) (fun _ => none) (exNew "1 0.0".toList "2 0.5".toList) 1 false {}
    let b := gaugeRead (Raw := Unit) (fun _ => []) (fun _ => []) (fun _ => none) (exNew "3 8.0".toList "4 9.0".toList) 1 false {}
    a.2 = .ok () ∧ b.2 = .ok () ∧ a.1.t = some [.fin 0, .fin (1 / 2)] ∧ b.1.t = some [.fin 8, .fin 9] ∧
      a.1.q.map (fun q => (q.m, q.n, q.get 0 0, q.get 0 1)) = some (1, 2, .fin 5, .fin (29 / 4)) ∧
      b.1.q.map (fun q => (q.m, q.n, q.get 0 0, q.get 0 1)) = some (1, 2, .fin 5, .fin (29 / 4)) := by
  decide +kernel

example : Spec.Short (.fin (29 / 4)) := ⟨725, -2, by norm_num, by norm_num⟩

end PyClaw
