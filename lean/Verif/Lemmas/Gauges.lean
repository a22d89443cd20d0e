import Verif.Spec.Gauges
import Verif.Lemmas.Ascii

set_option linter.unusedSectionVars false

namespace PyClaw

/-! ### Words -/

theorem splitWs_cons (w s : List Char) (c : Char) (h : NoWs w) (hw : w ≠ []) (hc : isWs c = true) :
    splitWs (w ++ c :: s) = w :: splitWs s := by
  have := splitWs_word 0 w c s h hw hc
  simpa using this

theorem splitWs_joinSp (l : List (List Char)) (h : ∀ w ∈ l, NoWs w ∧ w ≠ []) : splitWs (joinSp l) = l := by
  induction l with
  | nil => rfl
  | cons w l ih =>
    obtain ⟨h1, h2⟩ := h w (by simp)
    cases l with
    | nil =>
      show splitWs w = [w]
      have := splitAux_word [] w [] h1
      unfold splitWs
      rw [List.append_nil] at this
      rw [this]
      unfold splitAux
      rw [if_neg (by simpa using h2)]
      simp
    | cons w' l =>
      show splitWs (w ++ ' ' :: joinSp (w' :: l)) = _
      rw [splitWs_cons _ _ _ h1 h2 (by decide), ih fun x hx => h x (by simp [hx])]

theorem mem_joinSp (l : List (List Char)) (c : Char) (hc : c ∈ joinSp l) : c = ' ' ∨ ∃ w ∈ l, c ∈ w := by
  induction l with
  | nil => cases hc
  | cons w l ih =>
    cases l with
    | nil => exact .inr ⟨w, by simp, hc⟩
    | cons w' l =>
      have hc : c ∈ w ++ ' ' :: joinSp (w' :: l) := hc
      rcases List.mem_append.mp hc with h | h
      · exact .inr ⟨w, by simp, h⟩
      · rcases List.mem_cons.mp h with h | h
        · exact .inl h
        · rcases ih h with h | ⟨v, hv, h⟩
          · exact .inl h
          · exact .inr ⟨v, by simp [hv], h⟩

theorem splitWs_newline (s : List Char) : splitWs (s ++ ['\n']) = splitWs s := by
  have key : ∀ (s cur : List Char), splitAux cur (s ++ ['\n']) = splitAux cur s := by
    intro s
    induction s with
    | nil =>
      intro cur
      show splitAux cur ['\n'] = splitAux cur []
      unfold splitAux
      rw [if_pos (by decide)]
      split <;> simp [splitAux]
    | cons c s ih =>
      intro cur
      rw [List.cons_append]
      unfold splitAux
      rw [ih, ih]
  exact key s []

/-! ### Lines -/

theorem textLines_line (a s : List Char) (h : '\n' ∉ a) : textLines (a ++ '\n' :: s) = a :: textLines s := by
  induction a with
  | nil => rw [List.nil_append]; conv_lhs => unfold textLines
           rw [if_pos rfl]
  | cons c a ih =>
    have hc : c ≠ '\n' := fun e => h (by simp [e])
    rw [List.cons_append]
    conv_lhs => unfold textLines
    rw [if_neg hc, ih fun e => h (by simp [e])]

theorem occurs_not (pat : List Char) (s : List Char) (b : Char) (hb : pat.head? = some b) (h : b ∉ s) :
    occurs pat s = false := by
  cases pat with
  | nil => cases hb
  | cons p pat =>
    injection hb with hb
    subst hb
    induction s with
    | nil => rfl
    | cons c s ih =>
      unfold occurs
      rw [ih fun e => h (by simp [e]), Bool.or_false]
      have : p ≠ c := fun e => h (by simp [e])
      simp [List.isPrefixOf, this]

theorem whileAll (p : Char → Bool) (s : List Char) (h : ∀ c ∈ s, p c = true) : s.takeWhile p = s ∧ s.dropWhile p = [] := by
  induction s with
  | nil => exact ⟨rfl, rfl⟩
  | cons c s ih =>
    obtain ⟨h1, h2⟩ := ih fun x hx => h x (by simp [hx])
    have hc := h c (by simp)
    exact ⟨by rw [List.takeWhile_cons, if_pos hc, h1], by rw [List.dropWhile_cons, if_pos hc, h2]⟩

/-! ### Numbers -/

/-- The characters of formatted numbers. -/
def NumChar (c : Char) : Prop := isWs c = false ∧ c ≠ 'b' ∧ c ≠ '#'

theorem numChar_digit (c : Char) (h : isDigit c = true) : NumChar c := by
  refine ⟨(isDigit_cases c h).1, ?_, ?_⟩
  · rintro rfl; revert h; decide
  · rintro rfl; revert h; decide

theorem sciText_chars (plus : Bool) (P : Nat) (v : Num) : ∀ c ∈ sciText plus P v, NumChar c := by
  intro c hc
  refine ⟨sciText_noWs plus P v c hc, ?_⟩
  cases v with
  | nan =>
    have : ∀ p : Bool, ∀ c ∈ sciText p P .nan, c ≠ 'b' ∧ c ≠ '#' := by
      simp only [sciText]; decide
    exact this plus c hc
  | inf neg =>
    have : ∀ p n : Bool, ∀ c ∈ sciText p P (.inf n), c ≠ 'b' ∧ c ≠ '#' := by
      simp only [sciText]; decide
    exact this plus neg c hc
  | fin x =>
    simp only [sciText, expText, List.mem_append, List.mem_cons] at hc
    have hs : c ∈ (if x < 0 then ['-'] else if plus then ['+'] else []) → c ≠ 'b' ∧ c ≠ '#' := by
      intro h
      split at h
      · simp only [List.mem_singleton] at h; subst h; decide
      · split at h
        · simp only [List.mem_singleton] at h; subst h; decide
        · simp at h
    rcases hc with ((h | h) | h | h) | h | h | h
    · exact hs h
    · exact (numChar_digit c (natDigits_digits _ c h)).2
    · subst h; decide
    · exact (numChar_digit c (zeroPad_digits _ _ (natDigits_digits _) c h)).2
    · subst h; decide
    · split at h <;> subst h <;> decide
    · exact (numChar_digit c (zeroPad_digits _ _ (natDigits_digits _) c h)).2

theorem levelText_chars (n : Int) : ∀ c ∈ levelText n, NumChar c := by
  intro c hc
  unfold levelText at hc
  split at hc
  · rcases List.mem_cons.mp hc with h | h
    · subst h; unfold NumChar; decide
    · exact numChar_digit c (natDigits_digits _ c h)
  · exact numChar_digit c (zeroPad_digits _ _ (natDigits_digits _) c hc)

theorem levelText_ne_nil (n : Int) : levelText n ≠ [] := by
  unfold levelText
  split
  · simp
  · exact zeroPad_ne_nil _ _ (natDigits_ne_nil _)

/-- `float` of digits. -/
theorem parseFloat_digits (s : List Char) (h : ∀ c ∈ s, isDigit c = true) (hs : s ≠ []) :
    parseFloat s = .ok (.fin (digitsValue s)) ∧ parseFloat ('-' :: s) = .ok (.fin (-(digitsValue s : ℚ))) := by
  obtain ⟨d, s', rfl⟩ : ∃ d s', s = d :: s' := by
    cases s with
    | nil => exact absurd rfl hs
    | cons d s' => exact ⟨d, s', rfl⟩
  have hd := h d (by simp)
  obtain ⟨_, _, _, _, _, hdn, hdi, _⟩ := isDigit_cases d hd
  have t1 : (d :: s').takeWhile (fun c => decide (c ≠ 'e')) = d :: s' := by
    refine (whileAll _ _ ?_).1
    intro c hc
    rw [decide_eq_true_eq]
    exact (isDigit_cases c (h c hc)).2.1
  have t2 : (d :: s').dropWhile (fun c => decide (c ≠ 'e')) = [] := by
    refine (whileAll _ _ ?_).2
    intro c hc
    rw [decide_eq_true_eq]
    exact (isDigit_cases c (h c hc)).2.1
  have t3 : (d :: s').takeWhile (fun c => decide (c ≠ '.')) = d :: s' := by
    refine (whileAll _ _ ?_).1
    intro c hc
    rw [decide_eq_true_eq]
    exact (isDigit_cases c (h c hc)).2.2.1
  have t4 : (d :: s').dropWhile (fun c => decide (c ≠ '.')) = [] := by
    refine (whileAll _ _ ?_).2
    intro c hc
    rw [decide_eq_true_eq]
    exact (isDigit_cases c (h c hc)).2.2.1
  have hn : d :: s' ≠ ['n', 'a', 'n'] := by intro e; injection e with e1; exact hdn e1
  have hi : d :: s' ≠ ['i', 'n', 'f'] := by intro e; injection e with e1; exact hdi e1
  have hall : (d :: s').all isDigit = true := List.all_eq_true.mpr h
  constructor
  · unfold parseFloat
    rw [takeSign_digits _ h]
    dsimp only
    rw [if_neg hn, if_neg hi, t1, t2, t3, t4]
    simp only [List.drop_nil, List.append_nil, parseExp, List.length_nil]
    rw [if_pos ⟨by simp, hall⟩]
    simp
  · unfold parseFloat
    have hts : takeSign ('-' :: d :: s') = (true, d :: s') := rfl
    rw [hts]
    dsimp only
    rw [if_neg hn, if_neg hi, t1, t2, t3, t4]
    simp only [List.drop_nil, List.append_nil, parseExp, List.length_nil]
    rw [if_pos ⟨by simp, hall⟩]
    simp

theorem parseFloat_levelText (n : Int) : parseFloat (levelText n) = .ok (.fin n) := by
  unfold levelText
  split
  · rename_i h
    rw [(parseFloat_digits _ (natDigits_digits _) (natDigits_ne_nil _)).2, digitsValue_natDigits]
    congr 2
    have : (n.natAbs : Int) = -n := by omega
    rw [← Int.cast_natCast, this]
    push_cast
    ring
  · rename_i h
    rw [(parseFloat_digits _ (zeroPad_digits _ _ (natDigits_digits _)) (zeroPad_ne_nil _ _ (natDigits_ne_nil _))).1,
      zeroPad_value, digitsValue_natDigits]
    congr 2
    have : (n.natAbs : Int) = n := by omega
    rw [← Int.cast_natCast, this]

theorem toInt64_int (n : Int) : toInt64 (.fin n) = n := by
  show (if (n : ℚ) < 0 then ⌈(n : ℚ)⌉ else ⌊(n : ℚ)⌋) = n
  rw [Int.ceil_intCast, Int.floor_intCast, ite_self]

theorem close_round' (P : Nat) (v : Num) : Spec.CloseTo P v (roundNum P v) := by
  cases v with
  | fin x =>
    refine ⟨roundSci_err P x, ?_⟩
    rintro k n hk rfl
    exact roundSci_exact P k n hk
  | inf n => rfl
  | nan => rfl

/-! ### Rows -/

/-- A format for values: its texts are numbers, rounded to `P + 1` digits. -/
structure GoodFmt (fmt : Num → List Char) (P : Nat) : Prop where
  chars : ∀ v, ∀ c ∈ fmt v, NumChar c
  nonempty : ∀ v, fmt v ≠ []
  back : ∀ v, parseFloat (fmt v) = .ok (roundNum P v)

theorem goodFmt (plus : Bool) (P : Nat) (hP : 1 ≤ P) : GoodFmt (sciText plus P) P :=
  ⟨sciText_chars plus P, sciText_ne_nil plus P, parseFloat_sciText plus P hP⟩

/-- A row without its newline. -/
def rowBody (fmt : Num → List Char) (l : Int) (t : Num) (vals : List Num) : List Char :=
  levelText l ++ ' ' :: (sciText true 15 t ++ ' ' :: joinSp (vals.map fmt))

theorem gaugeRow_eq (fmt : Num → List Char) (l : Int) (t : Num) (vals : List Num) (s : List Char) :
    gaugeRow fmt l t vals ++ s = rowBody fmt l t vals ++ '\n' :: s := by
  unfold gaugeRow rowBody
  simp

theorem rowBody_chars {fmt : Num → List Char} {P : Nat} (hf : GoodFmt fmt P) (l : Int) (t : Num) (vals : List Num) :
    ∀ c ∈ rowBody fmt l t vals, c = ' ' ∨ NumChar c := by
  intro c hc
  unfold rowBody at hc
  simp only [List.mem_append, List.mem_cons] at hc
  rcases hc with h | h | h | h | h
  · exact .inr (levelText_chars l c h)
  · exact .inl h
  · exact .inr (sciText_chars _ _ _ c h)
  · exact .inl h
  · rcases mem_joinSp _ c h with h | ⟨w, hw, h⟩
    · exact .inl h
    · obtain ⟨v, _, rfl⟩ := List.mem_map.mp hw
      exact .inr (hf.chars v c h)

theorem rowBody_no {fmt : Num → List Char} {P : Nat} (hf : GoodFmt fmt P) (l : Int) (t : Num) (vals : List Num) :
    '\n' ∉ rowBody fmt l t vals ∧ 'b' ∉ rowBody fmt l t vals ∧ '#' ∉ rowBody fmt l t vals := by
  refine ⟨fun h => ?_, fun h => ?_, fun h => ?_⟩
  · rcases rowBody_chars hf l t vals _ h with h | h
    · revert h; decide
    · have := h.1; revert this; decide
  · rcases rowBody_chars hf l t vals _ h with h | h
    · revert h; decide
    · exact h.2.1 rfl
  · rcases rowBody_chars hf l t vals _ h with h | h
    · revert h; decide
    · exact h.2.2 rfl

theorem rowBody_words {fmt : Num → List Char} {P : Nat} (hf : GoodFmt fmt P) (l : Int) (t : Num) (vals : List Num) :
    splitWs ((rowBody fmt l t vals).takeWhile (· ≠ '#')) = levelText l :: sciText true 15 t :: vals.map fmt := by
  have h1 : (rowBody fmt l t vals).takeWhile (· ≠ '#') = rowBody fmt l t vals := by
    refine (whileAll _ _ ?_).1
    intro c hc
    rw [decide_eq_true_eq]
    rintro rfl
    exact (rowBody_no hf l t vals).2.2 hc
  rw [h1]
  unfold rowBody
  rw [splitWs_cons _ _ _ (fun c hc => (levelText_chars l c hc).1) (levelText_ne_nil l) (by decide),
    splitWs_cons _ _ _ (sciText_noWs _ _ _) (sciText_ne_nil _ _ _) (by decide), splitWs_joinSp]
  intro w hw
  obtain ⟨v, _, rfl⟩ := List.mem_map.mp hw
  exact ⟨fun c hc => (hf.chars v c hc).1, hf.nonempty v⟩

theorem floats_fmt {fmt : Num → List Char} {P : Nat} (hf : GoodFmt fmt P) (vals : List Num) :
    floats (vals.map fmt) = .ok (vals.map (roundNum P)) := by
  induction vals with
  | nil => rfl
  | cons v l ih =>
    rw [List.map_cons]
    unfold floats
    rw [hf.back, ih]
    rfl

theorem floats_row {fmt : Num → List Char} {P : Nat} (hf : GoodFmt fmt P) (l : Int) (t : Num) (vals : List Num) :
    floats (levelText l :: sciText true 15 t :: vals.map fmt) = .ok (.fin l :: roundNum 15 t :: vals.map (roundNum P)) := by
  unfold floats
  rw [parseFloat_levelText]
  unfold floats
  rw [parseFloat_sciText _ _ (by norm_num), floats_fmt hf]

/-- The values of record `i`. -/
def record (q : GaugeArr) (i : Nat) : List Num := (List.range q.m).map fun m => q.get m i

/-- The rows of a gauge as numbers. -/
def rowNums (P : Nat) (level : List Int) (t : List Num) (q : GaugeArr) (i : Nat) : List Num :=
  .fin (nth 0 level i : Int) :: roundNum 15 (nth .nan t i) :: (record q i).map (roundNum P)

theorem gaugeRows_read {fmt : Num → List Char} {P : Nat} (hf : GoodFmt fmt P) (level : List Int) (t : List Num) (q : GaugeArr)
    (k i : Nat) (hl : i + k ≤ level.length) (ht : i + k ≤ t.length) :
    (gaugeRows fmt level t q k i).2 = .ok () ∧
      rowsOf (((textLines (gaugeRows fmt level t q k i).1).map fun l => splitWs (l.takeWhile (· ≠ '#'))).filter (· ≠ [])) =
        .ok ((List.range' i k).map (rowNums P level t q)) ∧
      (0 < k → (gaugeRows fmt level t q k i).1 ≠ [] ∧ 'b' ∉ (readline (gaugeRows fmt level t q k i).1).1) := by
  induction k generalizing i with
  | zero => exact ⟨rfl, rfl, fun h => absurd h (by omega)⟩
  | succ k ih =>
    have e1 : level[i]? = some (nth 0 level i) := by
      unfold nth
      rw [List.getD_eq_getElem?_getD, List.getElem?_eq_getElem (by omega)]
      rfl
    have e2 : t[i]? = some (nth .nan t i) := by
      unfold nth
      rw [List.getD_eq_getElem?_getD, List.getElem?_eq_getElem (by omega)]
      rfl
    have hr : gaugeRows fmt level t q (k + 1) i = (gaugeRow fmt (nth 0 level i) (nth .nan t i) (record q i) ++
        (gaugeRows fmt level t q k (i + 1)).1, (gaugeRows fmt level t q k (i + 1)).2) := by
      conv_lhs => unfold gaugeRows
      rw [e1, e2]
      rfl
    obtain ⟨i1, i2, _⟩ := ih (i + 1) (by omega) (by omega)
    obtain ⟨n1, n2, n3⟩ := rowBody_no hf (nth 0 level i) (nth .nan t i) (record q i)
    rw [hr]
    refine ⟨i1, ?_, fun _ => ⟨?_, ?_⟩⟩
    · dsimp only
      rw [gaugeRow_eq, textLines_line _ _ n1, List.map_cons, rowBody_words hf, List.filter_cons_of_pos (by simp),
        List.range'_succ, List.map_cons]
      conv_lhs => unfold rowsOf
      rw [floats_row hf]
      dsimp only
      rw [i2]
      rfl
    · dsimp only
      rw [gaugeRow_eq]
      simp
    · dsimp only
      rw [gaugeRow_eq, readline_line _ _ n1]
      dsimp only
      intro h
      rcases List.mem_append.mp h with h | h
      · exact n2 h
      · revert h; decide

end PyClaw
