import Verif.Lemmas.AsciiFrame

set_option linter.unusedSectionVars false

/-!
C53: ASCII frames read back as they were written, to nine digits. C55: reading appends.
-/
namespace PyClaw

variable {D M : Type}

theorem back_first {sol : IOSol D M} {s0 : IOState D M} {l l1 : List (IOState D M)} {R : IOState D M → IOState D M → Prop}
    (hs : sol.states = s0 :: l) (hb : List.Forall₂ R sol.states l1) : ∃ b l', l1 = b :: l' ∧ R s0 b := by
  rw [hs] at hb
  cases hb with
  | cons h _ => exact ⟨_, _, rfl, h⟩

/-- **C53.** Writing a solution and reading it into a new one gives the same number of states, in the same order, each
with the same patch number, level, cells, bounds, time, `num_eqn`, `num_aux` and values; with `write_aux` and `read_aux`
also the auxiliary values (otherwise they are NaN); and problem data and mapping of the first state. All of this for
any previous contents of the directory, except that when auxiliary data are asked for without having been written there
must be no older aux files (see `C53_stale_aux_violated`). -/
theorem C53_round_trip (idMap : M) (sol : IOSol D M) (hw : Spec.Writable sol) (frame : Nat) (wa ra : Bool)
    (fs : Files D M) (hstale : ra = true → wa = true ∨ (fs.a frame = none ∧ fs.a 0 = none)) :
    ∃ fs' sol', asciiWrite sol frame wa false fs = (fs', .ok ()) ∧
      asciiRead idMap fs' frame ra (IOSol.empty D M) = (sol', .ok ()) ∧
      List.Forall₂ Spec.SameState sol.states sol'.states ∧
      (wa = true ∧ ra = true → List.Forall₂ Spec.SameAux sol.states sol'.states) ∧
      (wa = false ∨ ra = false → ∀ s ∈ sol'.states, ∀ m idx, s.aux m idx = .nan) ∧
      sol'.domain = some (sol'.states.map IOState.patch) ∧
      ∀ s0 l, sol.states = s0 :: l → ∀ s ∈ sol'.states, s.problemData = s0.problemData ∧ s.mapc2p = s0.mapc2p := by
  obtain ⟨s0, l, fs', qt, l1, hs, hwrite, h⟩ := written sol hw frame wa fs idMap
  have h0 : s0 ∈ sol.states := by rw [hs]; simp
  have hread := read_written h hw.states ra (IOSol.empty D M)
  obtain ⟨b, l', hl1, hb⟩ := back_first hs h.back
  have hba : b.numAux = s0.numAux := hb.1.numAux
  have hsame1 : List.Forall₂ Spec.SameState sol.states l1 :=
    forall₂_imp_mem h.back fun s hm y hy => sameState_of hy.1 (good_patch sol hw s hm) (by
      show roundNum 8 s0.t = _; rw [(hw.same s0 h0 s hm).1])
  have hprob : ∀ lx : List (IOState D M), List.Forall₂ OnlyAux l1 lx → ∀ s0' l', sol.states = s0' :: l' → ∀ s ∈ lx,
      s.problemData = s0'.problemData ∧ s.mapc2p = s0'.mapc2p := by
    intro lx hx s0' l' hs' s hm
    rw [hs] at hs'
    injection hs' with e1 e2
    subst e1
    obtain ⟨y, hy, e⟩ := forall₂_mem hx s hm
    obtain ⟨z, _, hz⟩ := forall₂_mem h.back y hy
    have := hz.1.problem _ rfl
    rw [e]
    exact this
  have hrefl : List.Forall₂ OnlyAux l1 l1 := by
    clear hread hl1 hsame1 hprob h
    induction l1 with
    | nil => exact .nil
    | cons x l ih => exact .cons rfl ih
  have hnan : ∀ s ∈ l1, ∀ m idx, s.aux m idx = .nan := by
    intro s hm m idx
    obtain ⟨z, _, hz⟩ := forall₂_mem h.back s hm
    rw [hz.2]
  by_contra hno
  have hdone : ∀ _ : asciiRead idMap fs' frame ra (IOSol.empty D M) = (⟨l1, some (l1.map IOState.patch)⟩, .ok ()),
      (wa = true ∧ ra = true → s0.numAux = 0) → False := fun hfin h00 => hno
    ⟨fs', ⟨l1, some (l1.map IOState.patch)⟩, hwrite, hfin, hsame1, fun hwr => by
      refine forall₂_imp_mem h.back fun s hm y _ m hmm => ?_
      have := (hw.same s0 h0 s hm).2.2.1
      have := h00 hwr
      omega, fun _ => hnan, rfl, hprob l1 hrefl⟩
  have hst : (IOSol.empty D M).states ++ l1 = b :: l' := by rw [hl1]; rfl
  rw [hst] at hread
  dsimp only at hread
  rw [hba] at hread
  by_cases hc : 0 < s0.numAux ∧ ra = true
  · rw [if_pos hc] at hread
    by_cases hwa : wa = true
    · -- the aux file of this frame
      have haf : auxFile fs' frame = some (auxText sol) := by
        unfold auxFile
        rw [h.a, if_pos ⟨hc.1, hwa⟩, Function.update_self]
      obtain ⟨ly, r1, r2, r3⟩ := h.auxStates hc.1 l1 (h.back.imp fun _ _ h => h.1.patch)
      have r1' := r1 [] []
      rw [List.append_nil, List.append_nil] at r1'
      rw [haf] at hread
      dsimp only at hread
      rw [← hl1, r1'] at hread
      have hp := onlyAux_patches r2
      refine hno ⟨fs', _, hwrite, hread, ?_, ?_, ?_, ?_, ?_⟩
      · show List.Forall₂ _ sol.states (ly ++ [])
        rw [List.append_nil]
        refine forall₂_comp hsame1 r2 fun x y z h1 h2 => ?_
        rw [h2]
        exact ⟨h1.index, h1.level, h1.dims, h1.t, h1.numEqn, h1.numAux, h1.q⟩
      · intro _
        show List.Forall₂ _ sol.states (ly ++ [])
        rw [List.append_nil]
        refine r3.imp fun s y hy m hm idx hi => ?_
        rw [hy m hm idx ((cell_iff _ _).mp hi)]
        exact close_round _
      · rintro (e | e)
        · rw [hwa] at e; cases e
        · rw [hc.2] at e; cases e
      · show some _ = some (List.map IOState.patch (ly ++ []))
        rw [List.append_nil, hp]
      · show ∀ s0' l', _ → ∀ s ∈ ly ++ [], _
        rw [List.append_nil]
        exact hprob ly r2
    · have hnone := (hstale hc.2).resolve_left hwa
      have haf : auxFile fs' frame = none := by
        unfold auxFile
        rw [h.a, if_neg (fun h => hwa h.2), hnone.1, hnone.2]
      rw [haf] at hread
      dsimp only at hread
      rw [← hl1] at hread
      exact hdone hread fun h => absurd h.1 hwa
  · rw [if_neg hc] at hread
    rw [← hl1] at hread
    refine hdone hread fun h => ?_
    by_contra h'
    exact hc ⟨by omega, h.2⟩

/-! ### Aux data of the first frame -/

/-- Frames written without auxiliary data take them from frame 0 (`write_aux_init`), when the patches are the same. -/
theorem C53_aux_of_first_frame (idMap : M) (init sol : IOSol D M) (hi : Spec.Writable init) (hw : Spec.Writable sol)
    (hsame : sol.states.map IOState.patch = init.states.map IOState.patch)
    (haux : ∀ s ∈ sol.states, ∀ s' ∈ init.states, s.numAux = s'.numAux ∧ 0 < s.numAux) (frame : Nat) (hf : frame ≠ 0)
    (fs : Files D M) (hfresh : fs.a frame = none) :
    ∃ fs0 fs' sol', asciiWrite init 0 true false fs = (fs0, .ok ()) ∧ asciiWrite sol frame false false fs0 = (fs', .ok ()) ∧
      asciiRead idMap fs' frame true (IOSol.empty D M) = (sol', .ok ()) ∧
      List.Forall₂ Spec.SameState sol.states sol'.states ∧ List.Forall₂ Spec.SameAux init.states sol'.states := by
  obtain ⟨i0, li, fs0, qt0, l0, hs0, hw0, h0⟩ := written init hi 0 true fs idMap
  obtain ⟨s0, l, fs', qt, l1, hs, hwrite, h⟩ := written sol hw frame false fs0 idMap
  have hi0 : i0 ∈ init.states := by rw [hs0]; simp
  have hm0 : s0 ∈ sol.states := by rw [hs]; simp
  obtain ⟨ha, hpos⟩ := haux s0 hm0 i0 hi0
  have hread := read_written h hw.states true (IOSol.empty D M)
  obtain ⟨b, l', hl1, hb⟩ := back_first hs h.back
  have hst : (IOSol.empty D M).states ++ l1 = b :: l' := by rw [hl1]; rfl
  have haf : auxFile fs' frame = some (auxText init) := by
    unfold auxFile
    rw [h.a, if_neg (fun h => by cases h.2), h0.a, if_pos ⟨by omega, rfl⟩, Function.update_of_ne hf, hfresh,
      Function.update_self]
  have hdim : (timeInfo sol s0).numDim = (timeInfo init i0).numDim := by
    rw [hs, hs0, List.map_cons, List.map_cons] at hsame
    injection hsame with e _
    show ((s0.patch.dims.length : Nat) : Int) = ((i0.patch.dims.length : Nat) : Int)
    rw [e]
  have hna : (timeInfo sol s0).numAux = (timeInfo init i0).numAux := by
    show ((s0.numAux : Nat) : Int) = ((i0.numAux : Nat) : Int)
    rw [ha]
  have hpat : List.Forall₂ (fun s x : IOState D M => x.patch = roundedPatch s.patch) init.states l1 := by
    have hb := h.back
    generalize sol.states = a at hsame hb
    generalize init.states = c at hsame
    clear * - hsame hb
    induction hb generalizing c with
    | nil =>
      cases c with
      | nil => exact .nil
      | cons => simp at hsame
    | cons hx _ ih =>
      cases c with
      | nil => simp at hsame
      | cons y c =>
        rw [List.map_cons, List.map_cons] at hsame
        injection hsame with e1 e2
        exact .cons (by rw [hx.1.patch, e1]) (ih c e2)
  obtain ⟨ly, r1, r2, r3⟩ := h0.auxStates (by omega) l1 hpat
  have r1' := r1 [] []
  rw [List.append_nil, List.append_nil] at r1'
  rw [hst] at hread
  dsimp only at hread
  rw [hb.1.numAux, if_pos ⟨hpos, rfl⟩, haf] at hread
  dsimp only at hread
  rw [← hl1, hdim, hna, r1'] at hread
  refine ⟨fs0, fs', _, hw0, hwrite, hread, ?_, ?_⟩
  · show List.Forall₂ _ sol.states (ly ++ [])
    rw [List.append_nil]
    refine forall₂_comp (forall₂_imp_mem h.back fun s hm y hy => sameState_of hy.1 (good_patch sol hw s hm) (by
      show roundNum 8 s0.t = _; rw [(hw.same s0 hm0 s hm).1])) r2 fun x y z h1 h2 => ?_
    rw [h2]
    exact ⟨h1.index, h1.level, h1.dims, h1.t, h1.numEqn, h1.numAux, h1.q⟩
  · show List.Forall₂ _ init.states (ly ++ [])
    rw [List.append_nil]
    refine r3.imp fun s y hy m hm idx hi => ?_
    rw [hy m hm idx ((cell_iff _ _).mp hi)]
    exact close_round _

/-- Writing a frame leaves the other frames alone. -/
theorem C53_other_frames (sol : IOSol D M) (hw : Spec.Writable sol) (frame : Nat) (wa : Bool) (fs : Files D M)
    (other : Nat) (ho : other ≠ frame) :
    (asciiWrite sol frame wa false fs).1.t other = fs.t other ∧ (asciiWrite sol frame wa false fs).1.q other = fs.q other ∧
      (asciiWrite sol frame wa false fs).1.a other = fs.a other ∧
      (asciiWrite sol frame wa false fs).1.pkl other = fs.pkl other := by
  have idm : Nonempty M := by
    cases h : sol.states with
    | nil => exact absurd h hw.states
    | cons s _ => exact ⟨s.mapc2p⟩
  obtain ⟨idMap⟩ := idm
  obtain ⟨s0, l, fs', qt, l1, hs, hwrite, h⟩ := written sol hw frame wa fs idMap
  rw [hwrite]
  refine ⟨h.tOther _ ho, h.qOther _ ho, ?_, h.pOther _ ho⟩
  show fs'.a other = _
  rw [h.a]
  split
  · exact Function.update_of_ne ho _ _
  · rfl

/-! ### Stale aux files -/

theorem dimsMatch_differ (ds es : List (Dim ℚ)) (hl : ds.length = es.length)
    (h : ds.map Dim.numCells ≠ es.map Dim.numCells) : dimsMatch ds es = .error .assertion := by
  induction ds generalizing es with
  | nil =>
    cases es with
    | nil => exact absurd rfl h
    | cons => simp at hl
  | cons d ds ih =>
    cases es with
    | nil => simp at hl
    | cons e es =>
      unfold dimsMatch
      by_cases hd : d.numCells = e.numCells
      · split
        · refine ih es (by simpa using hl) fun h' => h ?_
          rw [List.map_cons, List.map_cons, hd, h']
        · rfl
      · rw [if_neg fun h => hd h.1]

theorem rounded_numCells (p : IOPatch) (h : p.dims.length ≤ 3) :
    (roundedPatch p).dims.map Dim.numCells = p.dims.map Dim.numCells := by
  refine List.ext_getElem? fun i => ?_
  rw [List.getElem?_map, List.getElem?_map]
  exact zipWith_cells p.dims ["x", "y", "z"] h i

/-- **C53 fails** when auxiliary data are not written: an aux file that an earlier run left in the directory is used.
Here a run with another resolution wrote frame `frame` with auxiliary data, and the new frame cannot be read (with
`read_aux=True`, the default of `Solution.read`). -/
theorem C53_stale_aux_violated (idMap : M) (old sol : IOSol D M) (ho : Spec.Writable old) (hw : Spec.Writable sol)
    (o0 s0 : IOState D M) (lo l : List (IOState D M)) (hs0 : old.states = o0 :: lo) (hs : sol.states = s0 :: l)
    (hd : s0.patch.dims.length = o0.patch.dims.length)
    (hc : s0.patch.dims.map Dim.numCells ≠ o0.patch.dims.map Dim.numCells) (ha : 0 < o0.numAux) (hb : 0 < s0.numAux)
    (frame : Nat) (fs : Files D M) :
    ∃ fs0 fs' sol', asciiWrite old frame true false fs = (fs0, .ok ()) ∧
      asciiWrite sol frame false false fs0 = (fs', .ok ()) ∧
      asciiRead idMap fs' frame true (IOSol.empty D M) = (sol', .error .assertion) := by
  obtain ⟨o0', lo', fs0, qt0, l0, hso, hw0, h0⟩ := written old ho frame true fs idMap
  obtain ⟨s0', l', fs', qt, l1, hss, hwrite, h⟩ := written sol hw frame false fs0 idMap
  rw [hs0] at hso; rw [hs] at hss
  injection hso with e1 e2; subst e1
  injection hss with e1 e3; subst e1
  have hmo : o0 ∈ old.states := by rw [hs0]; simp
  have hms : s0 ∈ sol.states := by rw [hs]; simp
  have hread := read_written h hw.states true (IOSol.empty D M)
  obtain ⟨b, l2, hl1, hbk⟩ := back_first hs h.back
  have hst : (IOSol.empty D M).states ++ l1 = b :: l2 := by rw [hl1]; rfl
  have haf : auxFile fs' frame = some (auxText old) := by
    unfold auxFile
    rw [h.a, if_neg (fun h => by cases h.2), h0.a, if_pos ⟨ha, rfl⟩, Function.update_self]
  obtain ⟨rest, hrest⟩ : ∃ rest, auxText old = headerText o0.patch ++ rest := by
    unfold auxText
    rw [hs0]
    unfold statesText
    dsimp only
    cases arrayText o0.patch o0.numAux o0.aux with
    | error e => exact ⟨[], by simp⟩
    | ok t => exact ⟨_, List.append_assoc ..⟩
  have hgo := good_patch old ho o0 hmo
  have hgs := good_patch sol hw s0 hms
  have hrd : ∀ na, readAuxState (timeInfo sol s0).numDim na b (auxText old) = .error .assertion := by
    intro na
    unfold readAuxState Rd.andThen
    have : (timeInfo sol s0).numDim.toNat = o0.patch.dims.length := by
      show ((s0.patch.dims.length : Nat) : Int).toNat = _
      omega
    rw [this, hrest, reads_header o0.patch hgo]
    dsimp only
    by_cases hlev : b.patch.level ≠ (roundedPatch o0.patch).level
    · rw [if_pos hlev]
    · rw [if_neg hlev, dimsMatch_differ]
      · rw [hbk.1.patch, rounded_length _ hgs.le, rounded_length _ hgo.le, hd]
      · rw [hbk.1.patch, rounded_numCells _ hgs.le, rounded_numCells _ hgo.le]
        exact hc
  rw [hst] at hread
  dsimp only at hread
  rw [hbk.1.numAux, if_pos ⟨hb, rfl⟩, haf] at hread
  dsimp only at hread
  have hx : (readAuxStates (timeInfo sol s0).numDim (timeInfo sol s0).numAux (b :: l2) (auxText old)).2 =
      .error .assertion := by
    unfold readAuxStates
    rw [hrd]
  rw [hx] at hread
  exact ⟨fs0, fs', _, hw0, hwrite, hread⟩

/-! ### Derived quantities -/

/-- The lines of the cells in `ks`. -/
def cellLines (num : Nat) (q : IOArr) (ks : List Nat) : List Char := ks.flatMap fun k => cellLine num q [k]

theorem cellLine_words (num : Nat) (q : IOArr) (k : Nat) (h : ∀ m < num, InRange (q m [k])) :
    ∃ a, '\n' ∉ a ∧ cellLine num q [k] = a ++ ['\n'] ∧ (splitWs (a ++ ['\n'])).length = num := by
  set l := (List.range num).map fun m => sciText false 8 (q m [k]) with hl
  have hw : ∀ w ∈ l, NoWs w ∧ w ≠ [] ∧ w.length < 18 := by
    intro w hw
    obtain ⟨m, hm, rfl⟩ := List.mem_map.mp hw
    have := sciText_length false 8 (by norm_num) _ (h m (List.mem_range.mp hm))
    exact ⟨sciText_noWs _ _ _, sciText_ne_nil _ _ _, by omega⟩
  refine ⟨l.flatMap (padLeft 18), fields_no_newline l fun w h => (hw w h).1, ?_, ?_⟩
  · rw [hl, List.flatMap_map]; rfl
  · rw [(splitWs_fields l hw).1]; simp [hl]

/-- Reading `want` words from lines of `num` words each. -/
theorem readWords_lines (num want : Nat) (q : IOArr) (ks : List Nat) (h : ∀ k ∈ ks, ∀ m < num, InRange (q m [k]))
    (l : List (List Char)) :
    (∃ e, readWords want l (cellLines num q ks) = .error e) ∨
      ∃ l' ks', readWords want l (cellLines num q ks) = .ok (l', cellLines num q ks') ∧ want ≤ l'.length ∧
        l'.length + num * ks'.length = l.length + num * ks.length ∧ ∀ k ∈ ks', k ∈ ks := by
  induction ks generalizing l with
  | nil =>
    unfold readWords
    by_cases hl : want ≤ l.length
    · right
      exact ⟨l, [], by rw [if_pos hl], hl, rfl, fun _ h => h⟩
    · left
      refine ⟨.ioError, ?_⟩
      rw [if_neg hl]
      exact dif_pos rfl
  | cons k ks ih =>
    by_cases hl : want ≤ l.length
    · right
      refine ⟨l, k :: ks, ?_, hl, rfl, fun _ h => h⟩
      unfold readWords
      rw [if_pos hl]
    · obtain ⟨a, ha, e, hn⟩ := cellLine_words num q k (h k (by simp))
      have e' : cellLines num q (k :: ks) = a ++ '\n' :: cellLines num q ks := by
        unfold cellLines
        rw [List.flatMap_cons, e]
        simp
      have step : readWords want l (cellLines num q (k :: ks)) =
          readWords want (l ++ splitWs (a ++ ['\n'])) (cellLines num q ks) := by
        conv_lhs => unfold readWords
        rw [if_neg hl, dif_neg (by rw [e']; simp), e', readline_line _ _ ha]
      rw [step]
      rcases ih (fun x hx => h x (by simp [hx])) (l ++ splitWs (a ++ ['\n'])) with herr | ⟨l', ks', h1, h2, h3, h4⟩
      · exact Or.inl herr
      · right
        refine ⟨l', ks', h1, h2, ?_, fun x hx => by simp [h4 x hx]⟩
        rw [h3, List.length_append, hn, List.length_cons]
        ring

/-- Too few lines for the cells that are asked for. -/
theorem many_lines_error (num want : Nat) (hlt : num < want) (q : IOArr) (c : Nat) (ks : List Nat)
    (h : ∀ k ∈ ks, ∀ m < num, InRange (q m [k])) (hc : ks.length < 2 * c) :
    ∃ e, Rd.many (readCell want) c (cellLines num q ks) = .error e := by
  induction c generalizing ks with
  | zero => omega
  | succ c ih =>
    unfold Rd.many readCell
    rcases readWords_lines num want q ks h [] with ⟨e, he⟩ | ⟨l', ks', h1, h2, h3, h4⟩
    · rw [he]; exact ⟨e, rfl⟩
    · rw [h1]
      dsimp only
      cases floats (l'.take want) with
      | error e => exact ⟨e, rfl⟩
      | ok v =>
        dsimp only
        have hlen : ks'.length + 2 ≤ ks.length := by
          simp only [List.length_nil, zero_add] at h3
          by_contra hcon
          have : ks.length ≤ ks'.length + 1 := by omega
          have : num * ks.length ≤ num * (ks'.length + 1) := Nat.mul_le_mul_left _ this
          rw [mul_add, mul_one] at this
          omega
        obtain ⟨e, he⟩ := ih ks' (fun k hk => h k (h4 k hk)) (by omega)
        unfold readCell at he
        rw [he]
        exact ⟨e, rfl⟩

/-- **C53 fails** for frames of derived quantities (`write_p=True`): `fort.t` says `num_eqn`, the lines have `mp` values.
A one-dimensional frame with fewer derived quantities than equations cannot be read. -/
theorem C53_derived_frames_violated (idMap : M) (s : IOState D M) (dom : List IOPatch) (hp : GoodPatch s.patch)
    (h1 : s.patch.dims.length = 1) (hpos : 0 < s.numP) (hlt : s.numP < s.numEqn)
    (hr : ∀ m < s.numP, ∀ k, InRange (s.p m [k])) (frame : Nat) (fs : Files D M) :
    ∃ fs' sol', asciiWrite ⟨[s], some (s.patch :: dom)⟩ frame false true fs = (fs', .ok ()) ∧
      asciiRead idMap fs' frame false (IOSol.empty D M) = (sol', .error .ioError) := by
  set sol : IOSol D M := ⟨[s], some (s.patch :: dom)⟩ with hsol
  have htxt : arrayText s.patch s.numP s.p = .ok (cellLines s.numP s.p (List.range (cellsOf s.patch 0))) := by
    unfold arrayText
    rw [if_pos h1]
    rfl
  have hst : statesText (qShape true) (fun x : IOState D M => if true then x.p else x.q) [s] =
      (headerText s.patch ++ cellLines s.numP s.p (List.range (cellsOf s.patch 0)), .ok ()) := by
    unfold statesText
    have : qShape true s = .ok s.numP := by simp [qShape, hpos.ne']
    rw [this]
    dsimp only
    rw [if_pos rfl, htxt]
    simp [statesText]
  have hwrite : asciiWrite sol frame false true fs =
      ({ t := Function.update fs.t frame (some (timeText s.t s.numEqn (1 : Nat) s.numAux s.patch.dims.length))
         q := Function.update fs.q frame
           (some (headerText s.patch ++ cellLines s.numP s.p (List.range (cellsOf s.patch 0))))
         a := fs.a
         pkl := Function.update fs.pkl frame (some ⟨s.problemData, s.mapc2p⟩) }, .ok ()) := by
    unfold asciiWrite
    rw [hsol]
    dsimp only
    rw [hst]
    simp only [Bool.false_eq_true, and_false, if_false]
    rfl
  refine ⟨_, ⟨[], none⟩, hwrite, ?_⟩
  have hcells : 0 < cellsOf s.patch 0 := by
    obtain ⟨d, hd⟩ := List.length_eq_one_iff.mp h1
    have : cellsOf s.patch 0 = d.numCells.toNat := by simp [cellsOf, hd]
    have := hp.cells d (by simp [hd])
    omega
  have hstate : ∀ pk : Option (Pickle D M), readState idMap ⟨roundNum 8 s.t, s.numEqn, (1 : Nat), s.numAux, s.patch.dims.length, 0,
      some "ascii".toList⟩ pk (headerText s.patch ++ cellLines s.numP s.p (List.range (cellsOf s.patch 0))) =
        .error .ioError := by
    intro pk
    unfold readState Rd.andThen
    rw [show ((s.patch.dims.length : Nat) : Int).toNat = s.patch.dims.length from rfl, reads_header s.patch hp]
    dsimp only
    rw [if_neg (by omega), show ((s.numEqn : Nat) : Int).toNat = s.numEqn from rfl]
    obtain ⟨e, he⟩ := many_lines_error s.numP s.numEqn hlt s.p (cellsOf s.patch 0) (List.range (cellsOf s.patch 0))
      (fun k _ m hm => hr m hm k) (by rw [List.length_range]; omega)
    have : readArray (roundedPatch s.patch) s.numEqn (cellLines s.numP s.p (List.range (cellsOf s.patch 0))) =
        .error .ioError := by
      unfold readArray readArrayBody
      rw [if_pos (by rw [rounded_length _ hp.le]; exact h1), rounded_cells _ hp.le]
      unfold Rd.andThen
      rw [he]
    rw [this]
  unfold asciiRead
  simp only [Function.update_self]
  rw [readT_timeText]
  dsimp only
  rw [show ((1 : Nat) : Int).toNat = 0 + 1 from rfl]
  unfold readStates
  rw [hstate]
  rfl

/-! ### C55 -/

/-- **C55.** Reading a frame (without auxiliary data) appends the states that reading it into an empty solution gives,
after those already there, and has the same outcome. This holds for any files, also when reading fails on the way. -/
theorem C55_append_partial (idMap : M) (fs : Files D M) (frame : Nat) (sol : IOSol D M) :
    (asciiRead idMap fs frame false sol).1.states =
        sol.states ++ (asciiRead idMap fs frame false (IOSol.empty D M)).1.states ∧
      (asciiRead idMap fs frame false sol).2 = (asciiRead idMap fs frame false (IOSol.empty D M)).2 := by
  unfold asciiRead
  cases fs.t frame with
  | none => exact ⟨(List.append_nil _).symm, rfl⟩
  | some tt =>
    dsimp only
    cases readT tt with
    | error e => exact ⟨(List.append_nil _).symm, rfl⟩
    | ok ti =>
      dsimp only
      cases fs.q frame with
      | none => exact ⟨(List.append_nil _).symm, rfl⟩
      | some qt =>
        dsimp only
        generalize readStates (readState idMap ti (fs.pkl frame)) ti.nstates.toNat qt = r
        cases r.2 with
        | error e => exact ⟨rfl, rfl⟩
        | ok u =>
          dsimp only
          by_cases hr : r.1 = []
          · rw [if_pos hr, if_pos hr]
            exact ⟨rfl, rfl⟩
          · rw [if_neg hr, if_neg hr]
            obtain ⟨x, l, hx⟩ : ∃ x l, r.1 = x :: l := by
              cases h : r.1 with
              | nil => exact absurd h hr
              | cons x l => exact ⟨x, l, rfl⟩
            simp only [Bool.false_eq_true, and_false, if_false, IOSol.empty, List.nil_append]
            rw [hx]
            cases sol.states with
            | nil => exact ⟨rfl, rfl⟩
            | cons y l' => exact ⟨rfl, rfl⟩

/-- **C55**, for any sequence of reads: the states are those of the frames one after the other. -/
theorem C55_sequence_partial (idMap : M) (fs : Files D M) (frames : List Nat) (sol : IOSol D M) :
    (frames.foldl (fun s f => (asciiRead idMap fs f false s).1) sol).states =
      sol.states ++ frames.flatMap fun f => (asciiRead idMap fs f false (IOSol.empty D M)).1.states := by
  induction frames generalizing sol with
  | nil => simp
  | cons f frames ih =>
    rw [List.foldl_cons, ih, (C55_append_partial idMap fs f sol).1, List.flatMap_cons, List.append_assoc]

theorem readStates_facts (rd : Rd (IOState D M)) (P : IOState D M → Prop) (h : ∀ s st r, rd s = .ok (st, r) → P st)
    (n : Nat) (s : List Char) : (∀ x ∈ (readStates rd n s).1, P x) ∧
      ((readStates rd n s).2 = .ok () → (readStates rd n s).1.length = n) := by
  induction n generalizing s with
  | zero => exact ⟨fun x hx => (List.not_mem_nil hx).elim, fun _ => rfl⟩
  | succ n ih =>
    unfold readStates
    cases hr : rd s with
    | error e => exact ⟨fun x hx => (List.not_mem_nil hx).elim, fun h => by cases h⟩
    | ok v =>
      obtain ⟨st, r⟩ := v
      dsimp only
      obtain ⟨i1, i2⟩ := ih r
      refine ⟨fun x hx => ?_, fun hok => ?_⟩
      · rcases List.mem_cons.mp hx with rfl | hx
        · exact h _ _ _ hr
        · exact i1 x hx
      · rw [List.length_cons, i2 hok]

/-- **C55.** Every state read has the time, `num_eqn` and `num_aux` of `fort.t`, and there are as many as `fort.t` says. -/
theorem C55_time (idMap : M) (fs : Files D M) (frame : Nat) (sol' : IOSol D M)
    (h : asciiRead idMap fs frame false (IOSol.empty D M) = (sol', .ok ())) :
    ∃ tt ti, fs.t frame = some tt ∧ readT tt = .ok ti ∧ (sol'.states.length : Int) = ti.nstates ∧ 0 < sol'.states.length ∧
      sol'.domain = some (sol'.states.map IOState.patch) ∧
      ∀ s ∈ sol'.states, s.t = ti.t ∧ (s.numEqn : Int) = ti.numEqn ∧ (s.numAux : Int) = ti.numAux := by
  unfold asciiRead at h
  cases ht : fs.t frame with
  | none => rw [ht] at h; cases h
  | some tt =>
    rw [ht] at h
    dsimp only at h
    cases hti : readT tt with
    | error e => rw [hti] at h; cases h
    | ok ti =>
      rw [hti] at h
      dsimp only at h
      cases hq : fs.q frame with
      | none => rw [hq] at h; cases h
      | some qt =>
        rw [hq] at h
        dsimp only at h
        obtain ⟨f1, f2⟩ := readStates_facts (readState idMap ti (fs.pkl frame))
          (fun s => s.t = ti.t ∧ (s.numEqn : Int) = ti.numEqn ∧ (s.numAux : Int) = ti.numAux) (by
            intro s st r hst
            unfold readState Rd.andThen at hst
            cases hh : readHeader ti.numDim.toNat s with
            | error e => rw [hh] at hst; cases hst
            | ok v =>
              obtain ⟨patch, s'⟩ := v
              rw [hh] at hst
              dsimp only at hst
              by_cases hneg : ti.numEqn < 0 ∨ ti.numAux < 0
              · rw [if_pos hneg] at hst; cases hst
              · rw [if_neg hneg] at hst
                cases ha : readArray patch ti.numEqn.toNat s' with
                | error e => rw [ha] at hst; cases hst
                | ok v =>
                  obtain ⟨q, r'⟩ := v
                  rw [ha] at hst
                  dsimp only at hst
                  injection hst with hst
                  injection hst with h1 h2
                  subst h1
                  refine ⟨rfl, ?_, ?_⟩
                  · show ((ti.numEqn.toNat : Nat) : Int) = _; omega
                  · show ((ti.numAux.toNat : Nat) : Int) = _; omega) ti.nstates.toNat qt
        generalize readStates (readState idMap ti (fs.pkl frame)) ti.nstates.toNat qt = r at h f1 f2
        cases hr2 : r.2 with
        | error e => rw [hr2] at h; cases h
        | ok u =>
          rw [hr2] at h
          dsimp only at h
          by_cases hr : r.1 = []
          · rw [if_pos hr] at h; cases h
          · rw [if_neg hr] at h
            simp only [IOSol.empty, List.nil_append] at h
            have hres : sol' = ⟨r.1, some (r.1.map IOState.patch)⟩ := by
              obtain ⟨x, l, hx⟩ : ∃ x l, r.1 = x :: l := by
                cases h : r.1 with
                | nil => exact absurd h hr
                | cons x l => exact ⟨x, l, rfl⟩
              rw [hx] at h
              simp only [Bool.false_eq_true, and_false, if_false] at h
              injection h with h1 h2
              rw [← h1, hx]
            rw [hres]
            have hlen := f2 hr2
            have hpos : 0 < r.1.length := List.length_pos_iff.mpr hr
            exact ⟨tt, ti, rfl, hti, by show ((r.1.length : Nat) : Int) = _; omega, hpos, rfl, f1⟩

/-- **C55 fails** for solutions with auxiliary data (`read_aux=True` is the default): the aux file is read again for all
states of the solution, the old ones first. Reading any frame with auxiliary data twice into the same solution raises,
after its states have been appended. -/
theorem C55_second_read_violated (idMap : M) (sol : IOSol D M) (hw : Spec.Writable sol)
    (haux : ∀ s ∈ sol.states, 0 < s.numAux) (frame : Nat) (fs : Files D M) :
    ∃ fs' sol1 sol2, asciiWrite sol frame true false fs = (fs', .ok ()) ∧
      asciiRead idMap fs' frame true (IOSol.empty D M) = (sol1, .ok ()) ∧
      asciiRead idMap fs' frame true sol1 = (sol2, .error .ioError) ∧
      sol1.states.length = sol.states.length ∧ sol2.states.length = 2 * sol.states.length := by
  obtain ⟨s0, l, fs', qt, l1, hs, hwrite, h⟩ := written sol hw frame true fs idMap
  have h0 : s0 ∈ sol.states := by rw [hs]; simp
  have hpos := haux s0 h0
  obtain ⟨b, l', hl1, hb⟩ := back_first hs h.back
  have haf : auxFile fs' frame = some (auxText sol) := by
    unfold auxFile
    rw [h.a, if_pos ⟨hpos, rfl⟩, Function.update_self]
  obtain ⟨ly, r1, r2, r3⟩ := h.auxStates hpos l1 (h.back.imp fun _ _ h => h.1.patch)
  have r1' := r1 [] []
  rw [List.append_nil, List.append_nil] at r1'
  have hread := read_written h hw.states true (IOSol.empty D M)
  have hst : (IOSol.empty D M).states ++ l1 = b :: l' := by rw [hl1]; rfl
  rw [hst] at hread
  dsimp only at hread
  rw [hb.1.numAux, if_pos ⟨hpos, rfl⟩, haf] at hread
  dsimp only at hread
  rw [← hl1, r1'] at hread
  -- the second time
  have hpat : List.Forall₂ (fun s x : IOState D M => x.patch = roundedPatch s.patch) sol.states ly :=
    forall₂_comp h.back r2 fun x y z h1 h2 => by rw [h2]; exact h1.1.patch
  obtain ⟨lz, z1, z2, z3⟩ := h.auxStates hpos ly hpat
  have z1' := z1 l1 []
  rw [List.append_nil] at z1'
  have hend : readAuxStates (timeInfo sol s0).numDim (timeInfo sol s0).numAux l1 [] = (l1, .error .ioError) := by
    have hx : ∀ x : IOState D M, readAuxState (timeInfo sol s0).numDim (timeInfo sol s0).numAux x [] =
        .error .ioError := by
      intro x
      unfold readAuxState readHeader
      have : readIntLine [] = .error .ioError := by
        unfold readIntLine nextWords
        rw [dif_pos rfl]
      simp only [Rd.andThen, this]
    rw [hl1]
    unfold readAuxStates
    rw [hx]
  rw [hend] at z1'
  obtain ⟨y, ly', hly, hy⟩ := back_first (sol := ⟨l1, none⟩) hl1 r2
  have hread2 := read_written h hw.states true ⟨ly ++ [], some (l1.map IOState.patch)⟩
  have hst2 : (⟨ly ++ [], some (l1.map IOState.patch)⟩ : IOSol D M).states ++ l1 = y :: (ly' ++ l1) := by
    show (ly ++ []) ++ l1 = _
    rw [List.append_nil, hly]
    rfl
  have hst3 : ly ++ l1 = y :: (ly' ++ l1) := by rw [hly]; rfl
  rw [hst2] at hread2
  dsimp only at hread2
  have hyaux : y.numAux = s0.numAux := by rw [hy]; exact hb.1.numAux
  rw [hyaux, if_pos ⟨hpos, rfl⟩, haf] at hread2
  dsimp only at hread2
  rw [← hst3, z1'] at hread2
  refine ⟨fs', _, _, hwrite, hread, hread2, ?_, ?_⟩
  · show (ly ++ []).length = _
    rw [List.append_nil, ← r2.length_eq, ← h.back.length_eq]
  · show (lz ++ l1).length = _
    rw [List.length_append, ← z2.length_eq, ← r2.length_eq, ← h.back.length_eq]
    ring

/-! ### The hypotheses are met -/

/-- Two patches in two dimensions, two equations and one auxiliary variable; values depend on the cell, one is infinite. -/
def ioExDim (lo : ℚ) (n : Int) (name : String) : Dim ℚ := { lower := lo, upper := lo + 1, numCells := n, name := name }

def ioExState (k : Int) : IOState Unit Unit where
  patch := ⟨k, 2, [ioExDim (k / 3) 4 "x", ioExDim (-k) 3 "y"]⟩
  t := .fin (7 / 10)
  numEqn := 2
  numAux := 1
  numP := 1
  q := fun m idx => if m = 1 ∧ idx = [0, 0] then .inf true else .fin (m + idx.sum + 1)
  aux := fun _ idx => .fin (idx.sum + 1)
  p := fun _ _ => .fin 1
  problemData := some ()
  mapc2p := ()

def ioExSol : IOSol Unit Unit := ⟨[ioExState 1, ioExState 2], some [(ioExState 1).patch, (ioExState 2).patch]⟩

theorem double_nat (n : Nat) (h : n ≤ 10 ^ 6) : Spec.Double (.fin ((n : ℚ) + 1)) := by
  right
  have h0 : (0 : ℚ) ≤ n := by positivity
  have h1 : (n : ℚ) ≤ 10 ^ 6 := by exact_mod_cast h
  rw [abs_of_nonneg (by linarith)]
  constructor
  · refine le_trans ?_ (by linarith : (1 : ℚ) ≤ n + 1)
    rw [zpow_neg]
    exact inv_le_one_of_one_le₀ (one_le_zpow₀ (by norm_num) (by norm_num))
  · have h2 : (10 : ℚ) ^ (7 : Int) ≤ (10 : ℚ) ^ (400 : Int) := zpow_le_zpow_right₀ (by norm_num) (by norm_num)
    have h3 : (10 : ℚ) ^ (7 : Int) = 10 ^ 7 := by norm_num
    rw [h3] at h2
    refine le_trans ?_ h2
    linarith

theorem ioExSol_writable : Spec.Writable ioExSol := by
  have hmem : ∀ s ∈ ioExSol.states, s = ioExState 1 ∨ s = ioExState 2 := by
    intro s hs
    simpa [ioExSol] using hs
  have hcell : ∀ k idx, Spec.Cell (ioExState k).patch idx → idx.sum ≤ 5 := by
    intro k idx h
    unfold Spec.Cell at h
    cases h with
    | cons h1 h =>
      cases h with
      | cons h2 h =>
        cases h
        simp only [ioExDim] at h1 h2
        simp only [List.sum_cons, List.sum_nil]
        omega
  refine ⟨by simp [ioExSol], rfl, ?_, ?_, ?_, ?_, ?_, ?_⟩
  · intro s hs s' hs'
    rcases hmem s hs with rfl | rfl <;> rcases hmem s' hs' with rfl | rfl <;> exact ⟨rfl, rfl, rfl, rfl⟩
  · intro s hs
    rcases hmem s hs with rfl | rfl <;> simp [ioExState]
  · intro s hs
    rcases hmem s hs with rfl | rfl <;> simp [ioExState]
  · intro s hs d hd
    rcases hmem s hs with rfl | rfl <;> simp only [ioExState, List.mem_cons, List.not_mem_nil, or_false] at hd <;>
      rcases hd with rfl | rfl <;> simp [ioExDim]
  · intro s hs m hm idx hi
    rcases hmem s hs with rfl | rfl <;>
    · have := hcell _ _ hi
      have hm' : m < 2 := hm
      show Spec.Double (if m = 1 ∧ idx = [0, 0] then .inf true else .fin (m + idx.sum + 1))
      split
      · trivial
      · have h := double_nat (m + idx.sum) (by omega)
        push_cast at h
        exact h
  · intro s hs m hm idx hi
    rcases hmem s hs with rfl | rfl <;>
    · have := hcell _ _ hi
      exact double_nat idx.sum (by omega)

/-- The round trip of a frame with two patches. -/
example := C53_round_trip () ioExSol ioExSol_writable 7 true true (Files.none Unit Unit) fun _ => Or.inl rfl

/-- A text as it is written. -/
example : String.ofList (floatLine (.fin (-7 / 3)) "xlow".toList) = "   -2.33333333e+00     xlow\n" := by decide +kernel

example : String.ofList (cellLine 2 (fun m _ => if m = 0 then .fin 100 else .nan) [0]) =
    "    1.00000000e+02               nan\n" := by decide +kernel

end PyClaw
