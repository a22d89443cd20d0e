import Verif.Model.Ascii
import Verif.Lemmas.Text

set_option linter.unusedSectionVars false

/-! Lemmas on the ASCII files: what each reading operation makes of what the corresponding writing operation wrote. -/
namespace PyClaw

/-- The operation reads exactly the text `t`, whatever follows, and returns `v`. -/
def Reads {α : Type*} (p : Rd α) (t : List Char) (v : α) : Prop := ∀ rest, p (t ++ rest) = .ok (v, rest)

theorem Reads.andThen {α β : Type*} {p : Rd α} {f : α → Rd β} {t t' : List Char} {v : α} {w : β} (h : Reads p t v)
    (h' : Reads (f v) t' w) : Reads (Rd.andThen p f) (t ++ t') w := by
  intro rest
  unfold Rd.andThen
  rw [List.append_assoc, h]
  exact h' rest

theorem Reads.of_eq {α : Type*} {p p' : Rd α} {t : List Char} {v : α} (e : p' = p) (h : Reads p t v) : Reads p' t v := by
  rw [e]; exact h

theorem Reads.pure {α : Type*} (v : α) : Reads (fun s => .ok (v, s)) [] v := fun _ => rfl

theorem reads_many {α ι : Type*} {p : Rd α} (l : List ι) (f : ι → List Char) (g : ι → α)
    (h : ∀ i ∈ l, Reads p (f i) (g i)) : Reads (Rd.many p l.length) (l.flatMap f) (l.map g) := by
  induction l with
  | nil => intro rest; rfl
  | cons i l ih =>
    intro rest
    have h1 := h i (by simp) (l.flatMap f ++ rest)
    have h2 := ih (fun j hj => h j (by simp [hj])) rest
    rw [List.flatMap_cons, List.append_assoc]
    show Rd.many p (l.length + 1) _ = _
    unfold Rd.many
    rw [h1]
    dsimp only
    rw [h2]
    rfl

theorem reads_skip : Reads skipLine ['\n'] () := by
  intro rest
  simp [skipLine, readline]

/-- A line whose first word is `w`. -/
theorem nextWords_first (k j : Nat) (hj : 0 < j) (w label rest : List Char) (hw : NoWs w) (hn : w ≠ []) (hl : '\n' ∉ label) :
    ∃ l, nextWords ((List.replicate k ' ' ++ w ++ List.replicate j ' ' ++ label ++ ['\n']) ++ rest) = .ok (w :: l, rest) := by
  obtain ⟨j, rfl⟩ : ∃ i, j = i + 1 := ⟨j - 1, by omega⟩
  have e : (List.replicate k ' ' ++ w ++ List.replicate (j + 1) ' ' ++ label ++ ['\n']) ++ rest =
      (List.replicate k ' ' ++ (w ++ ' ' :: (List.replicate j ' ' ++ label))) ++ '\n' :: rest := by
    simp [List.replicate_succ]
  have hs : splitWs ((List.replicate k ' ' ++ (w ++ ' ' :: (List.replicate j ' ' ++ label))) ++ ['\n']) =
      w :: splitWs (List.replicate j ' ' ++ label ++ ['\n']) := by
    rw [← splitWs_word k w ' ' _ hw hn (by decide)]
    simp
  refine ⟨splitWs (List.replicate j ' ' ++ label ++ ['\n']), ?_⟩
  rw [e, nextWords_line, hs]
  · intro h
    simp only [List.mem_append, List.mem_replicate, List.mem_cons] at h
    rcases h with ⟨_, h⟩ | h | h | ⟨_, h⟩ | h
    · revert h; decide
    · exact noWs_no_newline w hw h
    · revert h; decide
    · revert h; decide
    · exact hl h
  · rw [hs]; simp

theorem reads_int (n : Int) (label : List Char) (hl : '\n' ∉ label) : Reads readIntLine (intLine n label) n := by
  intro rest
  obtain ⟨l, hl⟩ := nextWords_first (5 - (intText n).length) 18 (by norm_num) (intText n) label rest (intText_noWs n)
    (intText_ne_nil n) hl
  unfold readIntLine intLine padLeft
  rw [hl]
  dsimp only
  rw [List.headD_cons, parseInt_intText]

theorem reads_float (v : Num) (label : List Char) (hl : '\n' ∉ label) :
    Reads readFloatLine (floatLine v label) (roundNum 8 v) := by
  intro rest
  obtain ⟨l, hl⟩ := nextWords_first (18 - (sciText false 8 v).length) 5 (by norm_num) (sciText false 8 v) label rest
    (sciText_noWs _ _ v) (sciText_ne_nil _ _ v) hl
  unfold readFloatLine floatLine padLeft
  rw [hl]
  dsimp only
  rw [List.headD_cons, parseFloat_sciText _ _ (by norm_num)]

/-! ### Headers -/

/-- What becomes of a dimension. -/
def roundedDim (d : Dim ℚ) (name : String) : Dim ℚ :=
  { lower := roundSci 8 d.lower, upper := roundSci 8 d.lower + d.numCells * roundSci 8 (cellSize d)
    numCells := d.numCells, name := name }

/-- What becomes of a patch. -/
def roundedPatch (p : IOPatch) : IOPatch :=
  { patchIndex := p.patchIndex, level := p.level, dims := List.zipWith roundedDim p.dims ["x", "y", "z"] }

/-- A patch that can be written: one to three valid dimensions with names on one line. -/
structure GoodPatch (p : IOPatch) : Prop where
  pos : 1 ≤ p.dims.length
  le : p.dims.length ≤ 3
  cells : ∀ d ∈ p.dims, 0 < d.numCells
  order : ∀ d ∈ p.dims, d.lower < d.upper
  name : ∀ d ∈ p.dims, '\n' ∉ d.name.toList

theorem cellSize_pos (d : Dim ℚ) (h : 0 < d.numCells) (h' : d.lower < d.upper) : 0 < cellSize d := by
  unfold cellSize
  have : (0 : ℚ) < d.numCells := by exact_mod_cast h
  exact div_pos (by linarith) this

theorem mkDim_ok (d : Dim ℚ) (name : String) (h : 0 < d.numCells) (h' : d.lower < d.upper) :
    mkDim d.numCells (roundNum 8 (.fin d.lower)) (roundNum 8 (.fin (cellSize d))) name = .ok (roundedDim d name) := by
  have h1 := roundSci_pos 8 _ (cellSize_pos d h h')
  have h2 : (0 : ℚ) < d.numCells := by exact_mod_cast h
  have h3 := mul_pos h2 h1
  unfold roundNum mkDim Dim.new Dim.checkValidity Dim.valid
  simp only [h, decide_true, Bool.true_and]
  rw [if_pos (by rw [decide_eq_true_eq]; linarith)]
  rfl

theorem mkDims_ok (ds : List (Dim ℚ)) (names : List String) (hl : ds.length ≤ names.length)
    (h : ∀ d ∈ ds, 0 < d.numCells) (h' : ∀ d ∈ ds, d.lower < d.upper) :
    mkDims (ds.map fun d => d.numCells) (ds.map fun d => roundNum 8 (.fin d.lower))
      (ds.map fun d => roundNum 8 (.fin (cellSize d))) names = .ok (List.zipWith roundedDim ds names) := by
  induction ds generalizing names with
  | nil => cases names <;> rfl
  | cons d ds ih =>
    cases names with
    | nil => simp at hl
    | cons nm names =>
      have := ih names (by simpa using hl) (fun x hx => h x (by simp [hx])) (fun x hx => h' x (by simp [hx]))
      simp only [List.map_cons, List.zipWith_cons_cons]
      unfold mkDims
      rw [mkDim_ok d nm (h d (by simp)) (h' d (by simp)), this]

theorem reads_header (p : IOPatch) (hp : GoodPatch p) :
    Reads (readHeader p.dims.length) (headerText p) (roundedPatch p) := by
  have e : headerText p = intLine p.patchIndex "patch_number".toList ++ (intLine p.level "AMR_level".toList ++
      (p.dims.flatMap (fun d => intLine d.numCells ('m' :: d.name.toList)) ++
      (p.dims.flatMap (fun d => floatLine (.fin d.lower) (d.name.toList ++ "low".toList)) ++
      (p.dims.flatMap (fun d => floatLine (.fin (cellSize d)) ('d' :: d.name.toList)) ++ (['\n'] ++ []))))) := by
    unfold headerText; simp
  rw [e]
  unfold readHeader
  refine Reads.andThen (reads_int _ _ (by decide)) (Reads.andThen (reads_int _ _ (by decide)) ?_)
  refine Reads.andThen (reads_many p.dims _ (fun d => d.numCells) fun d hd => reads_int _ _ ?_) ?_
  · simp [hp.name d hd]
  refine Reads.andThen (reads_many p.dims _ (fun d => roundNum 8 (.fin d.lower)) fun d hd => reads_float _ _ ?_) ?_
  · simp [hp.name d hd]
  refine Reads.andThen (reads_many p.dims _ (fun d => roundNum 8 (.fin (cellSize d))) fun d hd => reads_float _ _ ?_) ?_
  · simp [hp.name d hd]
  refine Reads.andThen reads_skip ?_
  rw [mkDims_ok p.dims ["x", "y", "z"] hp.le hp.cells hp.order]
  exact Reads.pure _

/-! ### Arrays -/

theorem splitWs_ws (c : Char) (s : List Char) (hc : isWs c = true) : splitWs (c :: s) = splitWs s := by
  unfold splitWs
  conv_lhs => unfold splitAux
  rw [if_pos hc, if_pos rfl]

/-- The words of a line of fields that are wide enough. -/
theorem splitWs_fields (l : List (List Char)) (h : ∀ w ∈ l, NoWs w ∧ w ≠ [] ∧ w.length < 18) :
    splitWs (l.flatMap (padLeft 18) ++ ['\n']) = l ∧
      ∃ c s, l.flatMap (padLeft 18) ++ ['\n'] = c :: s ∧ isWs c = true := by
  induction l with
  | nil => exact ⟨by decide, '\n', [], rfl, by decide⟩
  | cons w l ih =>
    obtain ⟨i1, c, s, i2, i3⟩ := ih fun x hx => h x (by simp [hx])
    obtain ⟨h1, h2, h3⟩ := h w (by simp)
    have e : (w :: l).flatMap (padLeft 18) ++ ['\n'] = List.replicate (18 - w.length) ' ' ++ (w ++ c :: s) := by
      rw [← i2]; simp [padLeft]
    obtain ⟨k, hk⟩ : ∃ k, 18 - w.length = k + 1 := ⟨17 - w.length, by omega⟩
    refine ⟨?_, ' ', List.replicate k ' ' ++ (w ++ c :: s), ?_, by decide⟩
    · rw [e, splitWs_word _ _ _ _ h1 h2 i3, ← splitWs_ws c s i3, ← i2, i1]
    · rw [e, hk, List.replicate_succ]; rfl

theorem fields_no_newline (l : List (List Char)) (h : ∀ w ∈ l, NoWs w) : '\n' ∉ l.flatMap (padLeft 18) := by
  intro hc
  obtain ⟨w, hw, hc⟩ := List.mem_flatMap.mp hc
  rcases List.mem_append.mp hc with hc | hc
  · have := (List.mem_replicate.mp hc).2
    revert this; decide
  · exact noWs_no_newline w (h w hw) hc

theorem floats_ok (l : List Num) : floats (l.map fun v => sciText false 8 v) = .ok (l.map (roundNum 8)) := by
  induction l with
  | nil => rfl
  | cons v l ih =>
    rw [List.map_cons, List.map_cons]
    unfold floats
    rw [parseFloat_sciText _ _ (by norm_num), ih]

theorem reads_cell (num : Nat) (hnum : 1 ≤ num) (q : IOArr) (idx : List Nat) (h : ∀ m < num, InRange (q m idx)) :
    Reads (readCell num) (cellLine num q idx) ((List.range num).map fun m => roundNum 8 (q m idx)) := by
  intro rest
  set l := (List.range num).map fun m => sciText false 8 (q m idx) with hl
  have hlen : l.length = num := by simp [hl]
  have hw : ∀ w ∈ l, NoWs w ∧ w ≠ [] ∧ w.length < 18 := by
    intro w hw
    obtain ⟨m, hm, rfl⟩ := List.mem_map.mp hw
    have := sciText_length false 8 (by norm_num) _ (h m (List.mem_range.mp hm))
    exact ⟨sciText_noWs _ _ _, sciText_ne_nil _ _ _, by omega⟩
  have ht : cellLine num q idx = l.flatMap (padLeft 18) ++ ['\n'] := by
    rw [hl, List.flatMap_map]; rfl
  have hnn := fields_no_newline l fun w h => (hw w h).1
  have hr : readWords num [] (cellLine num q idx ++ rest) = .ok (l, rest) := by
    unfold readWords
    rw [if_neg (by simp; omega), dif_neg (by rw [ht]; simp)]
    have : cellLine num q idx ++ rest = l.flatMap (padLeft 18) ++ '\n' :: rest := by rw [ht]; simp
    rw [this, readline_line _ _ hnn, (splitWs_fields l hw).1, List.nil_append]
    unfold readWords
    rw [if_pos (by omega)]
  unfold readCell
  rw [hr]
  dsimp only
  have e : l = ((List.range num).map fun m => q m idx).map fun v => sciText false 8 v := by
    rw [hl, List.map_map]; rfl
  rw [List.take_of_length_le (by omega), e, floats_ok, List.map_map]
  rfl

/-- The cells of a patch. -/
def InPatch (p : IOPatch) (idx : List Nat) : Prop :=
  idx.length = p.dims.length ∧ ∀ i < p.dims.length, nth 0 idx i < cellsOf p i

theorem nth_map_range {α : Type} (d : α) (f : Nat → α) (n i : Nat) (h : i < n) :
    nth d ((List.range n).map f) i = f i := by
  unfold nth
  simp [h]

theorem reads_range {α : Type*} {p : Rd α} (n : Nat) (f : Nat → List Char) (g : Nat → α)
    (h : ∀ i < n, Reads p (f i) (g i)) : Reads (Rd.many p n) ((List.range n).flatMap f) ((List.range n).map g) := by
  have := reads_many (p := p) (List.range n) f g fun i hi => h i (List.mem_range.mp hi)
  rwa [List.length_range] at this

theorem reads_row {α : Type*} {p : Rd α} {t : List Char} {v : α} (h : Reads p t v) :
    Reads (Rd.andThen p fun row => Rd.andThen skipLine fun _ s => .ok (row, s)) (t ++ ['\n']) v := by
  refine Reads.andThen h ?_
  have := Reads.andThen (f := fun _ s => .ok (v, s)) reads_skip (Reads.pure v)
  rwa [List.append_nil] at this

theorem Reads.mapVal {α β : Type*} {p : Rd α} {t : List Char} {v : α} (h : Reads p t v) (g : α → β) :
    Reads (Rd.andThen p fun x s => .ok (g x, s)) t (g v) := by
  have := Reads.andThen (f := fun x s => .ok (g x, s)) h (Reads.pure (g v))
  rwa [List.append_nil] at this

/-- What `read_array` makes of what `write_array` wrote. -/
theorem reads_array (p p' : IOPatch) (num : Nat) (hnum : 1 ≤ num) (q : IOArr) (hd : p'.dims.length = p.dims.length)
    (hc : ∀ i, cellsOf p' i = cellsOf p i) (h1 : 1 ≤ p.dims.length) (h3 : p.dims.length ≤ 3)
    (hr : ∀ m < num, ∀ idx, InPatch p idx → InRange (q m idx)) :
    ∃ txt a, arrayText p num q = .ok txt ∧ Reads (readArray p' num) txt a ∧
      ∀ m < num, ∀ idx, InPatch p idx → a m idx = roundNum 8 (q m idx) := by
  have lift : ∀ (txt : List Char) (a : IOArr), Reads (readArrayBody p' num) txt a → Reads (readArray p' num) txt a := by
    intro txt a h rest
    unfold readArray
    rw [h rest]
  have hcase : p.dims.length = 1 ∨ p.dims.length = 2 ∨ p.dims.length = 3 := by omega
  rcases hcase with hn | hn | hn
  · have hin : ∀ k, k < cellsOf p 0 → InPatch p [k] := by
      intro k hk
      refine ⟨by simp [hn], fun i hi => ?_⟩
      obtain rfl : i = 0 := by omega
      exact hk
    have key := Reads.mapVal (reads_range (p := readCell num) (cellsOf p 0) (fun k => cellLine num q [k])
        (fun k => (List.range num).map fun m => roundNum 8 (q m [k]))
        fun k hk => reads_cell num hnum q [k] fun m hm => hr m hm _ (hin k hk))
      (fun (v : List (List Num)) => (fun (m : Nat) (idx : List Nat) => nth (Num.fin 0) (nth [] v (nth 0 idx 0)) m : IOArr))
    refine ⟨_, _, ?_, lift _ _ (Reads.of_eq ?_ key), ?_⟩
    · unfold arrayText
      rw [if_pos hn]
    · unfold readArrayBody
      rw [if_pos (hd.trans hn), hc 0]
    · rintro m hm idx ⟨hl, hi⟩
      obtain ⟨k, rfl⟩ := List.length_eq_one_iff.mp (hl.trans hn)
      have hi0 : k < cellsOf p 0 := hi 0 (by omega)
      show nth (Num.fin 0) (nth [] ((List.range (cellsOf p 0)).map _) k) m = _
      rw [nth_map_range _ _ _ _ hi0, nth_map_range _ _ _ _ hm]
  · have hin : ∀ k j, k < cellsOf p 0 → j < cellsOf p 1 → InPatch p [k, j] := by
      intro k j hk hj
      refine ⟨by simp [hn], fun i hi => ?_⟩
      have : i = 0 ∨ i = 1 := by omega
      rcases this with rfl | rfl
      · exact hk
      · exact hj
    have key := Reads.mapVal (reads_range (cellsOf p 1)
        (fun j => (List.range (cellsOf p 0)).flatMap (fun k => cellLine num q [k, j]) ++ ['\n'])
        (fun j => (List.range (cellsOf p 0)).map fun k => (List.range num).map fun m => roundNum 8 (q m [k, j]))
        fun j hj => reads_row (reads_range (p := readCell num) (cellsOf p 0) (fun k => cellLine num q [k, j])
          (fun k => (List.range num).map fun m => roundNum 8 (q m [k, j]))
          fun k hk => reads_cell num hnum q [k, j] fun m hm => hr m hm _ (hin k j hk hj)))
      (fun (v : List (List (List Num))) =>
        (fun (m : Nat) (idx : List Nat) => nth (Num.fin 0) (nth [] (nth [] v (nth 0 idx 1)) (nth 0 idx 0)) m : IOArr))
    refine ⟨_, _, ?_, lift _ _ (Reads.of_eq ?_ key), ?_⟩
    · unfold arrayText
      rw [if_neg (by omega), if_pos hn]
    · unfold readArrayBody
      rw [if_neg (by omega), if_pos (hd.trans hn), hc 0, hc 1]
    · rintro m hm idx ⟨hl, hi⟩
      obtain ⟨k, j, rfl⟩ := List.length_eq_two.mp (hl.trans hn)
      have hi0 : k < cellsOf p 0 := hi 0 (by omega)
      have hi1 : j < cellsOf p 1 := hi 1 (by omega)
      show nth (Num.fin 0) (nth [] (nth [] ((List.range (cellsOf p 1)).map _) j) k) m = _
      rw [nth_map_range _ _ _ _ hi1, nth_map_range _ _ _ _ hi0, nth_map_range _ _ _ _ hm]
  · have hin : ∀ k j l, k < cellsOf p 0 → j < cellsOf p 1 → l < cellsOf p 2 → InPatch p [k, j, l] := by
      intro k j l hk hj hl
      refine ⟨by simp [hn], fun i hi => ?_⟩
      have : i = 0 ∨ i = 1 ∨ i = 2 := by omega
      rcases this with rfl | rfl | rfl
      · exact hk
      · exact hj
      · exact hl
    have key := Reads.mapVal (reads_range (cellsOf p 2)
        (fun l => ((List.range (cellsOf p 1)).flatMap fun j =>
          (List.range (cellsOf p 0)).flatMap (fun k => cellLine num q [k, j, l]) ++ ['\n']) ++ ['\n'])
        (fun l => (List.range (cellsOf p 1)).map fun j => (List.range (cellsOf p 0)).map fun k =>
          (List.range num).map fun m => roundNum 8 (q m [k, j, l]))
        fun l hl => reads_row (reads_range (cellsOf p 1)
          (fun j => (List.range (cellsOf p 0)).flatMap (fun k => cellLine num q [k, j, l]) ++ ['\n'])
          (fun j => (List.range (cellsOf p 0)).map fun k => (List.range num).map fun m => roundNum 8 (q m [k, j, l]))
          fun j hj => reads_row (reads_range (p := readCell num) (cellsOf p 0) (fun k => cellLine num q [k, j, l])
            (fun k => (List.range num).map fun m => roundNum 8 (q m [k, j, l]))
            fun k hk => reads_cell num hnum q [k, j, l] fun m hm => hr m hm _ (hin k j l hk hj hl))))
      (fun (v : List (List (List (List Num)))) => (fun (m : Nat) (idx : List Nat) =>
        nth (Num.fin 0) (nth [] (nth [] (nth [] v (nth 0 idx 2)) (nth 0 idx 1)) (nth 0 idx 0)) m : IOArr))
    refine ⟨_, _, ?_, lift _ _ (Reads.of_eq ?_ key), ?_⟩
    · unfold arrayText
      rw [if_neg (by omega), if_neg (by omega), if_pos hn]
    · unfold readArrayBody
      rw [if_neg (by omega), if_neg (by omega), if_pos (hd.trans hn), hc 0, hc 1, hc 2]
    · rintro m hm idx ⟨hl, hi⟩
      obtain ⟨k, j, l, rfl⟩ := List.length_eq_three.mp (hl.trans hn)
      have hi0 : k < cellsOf p 0 := hi 0 (by omega)
      have hi1 : j < cellsOf p 1 := hi 1 (by omega)
      have hi2 : l < cellsOf p 2 := hi 2 (by omega)
      show nth (Num.fin 0) (nth [] (nth [] (nth [] ((List.range (cellsOf p 2)).map _) l) j) k) m = _
      rw [nth_map_range _ _ _ _ hi2, nth_map_range _ _ _ _ hi1, nth_map_range _ _ _ _ hi0, nth_map_range _ _ _ _ hm]

end PyClaw
