import Verif.Spec.Forest
import Verif.Lemmas.AsciiFrame

set_option linter.unusedSectionVars false

/-! Lemmas on frames with the headers of ForestClaw. -/
namespace PyClaw

variable {D M : Type}

theorem reads_forest_header (p : IOPatch) (i : ForestIds) (hp : GoodPatch p) :
    Reads (readForestHeader p.dims.length) (forestHeaderText p i) (roundedPatch p, some i) := by
  have e : forestHeaderText p i = intLine p.patchIndex "patch_number".toList ++ (intLine p.level "AMR_level".toList ++
      (intLine i.block "block_number".toList ++ (intLine i.rank "mpi_rank".toList ++
      (p.dims.flatMap (fun d => intLine d.numCells ('m' :: d.name.toList)) ++
      (p.dims.flatMap (fun d => floatLine (.fin d.lower) (d.name.toList ++ "low".toList)) ++
      (p.dims.flatMap (fun d => floatLine (.fin (cellSize d)) ('d' :: d.name.toList)) ++ (['\n'] ++ []))))))) := by
    unfold forestHeaderText; simp
  rw [e]
  unfold readForestHeader
  refine Reads.andThen (reads_int _ _ (by decide)) (Reads.andThen (reads_int _ _ (by decide)) ?_)
  refine Reads.andThen (reads_int _ _ (by decide)) (Reads.andThen (reads_int _ _ (by decide)) ?_)
  refine Reads.andThen (reads_many p.dims _ (fun d => d.numCells) fun d hd => reads_int _ _ ?_) ?_
  · simp [hp.name d hd]
  refine Reads.andThen (reads_many p.dims _ (fun d => roundNum 8 (.fin d.lower)) fun d hd => reads_float _ _ ?_) ?_
  · simp [hp.name d hd]
  refine Reads.andThen (reads_many p.dims _ (fun d => roundNum 8 (.fin (cellSize d))) fun d hd => reads_float _ _ ?_) ?_
  · simp [hp.name d hd]
  refine Reads.andThen reads_skip ?_
  rw [mkDims_ok p.dims ["x", "y", "z"] hp.le hp.cells hp.order]
  exact Reads.pure _

/-- The kind of patches that goes with the bindings. -/
def Headers.kind : Headers → Bool
  | .plain => false
  | .forest => true

theorem reads_headerF (h : Headers) (p : IOPatch) (ids : Option ForestIds) (hp : GoodPatch p)
    (hk : ids.isSome = h.kind) :
    ∃ t, headerFor h p ids = (t, .ok ()) ∧ Reads (readHeaderF h p.dims.length) t (roundedPatch p, ids) := by
  cases h with
  | plain =>
    cases ids with
    | some i => cases hk
    | none =>
      refine ⟨headerText p, rfl, ?_⟩
      show Reads (Rd.andThen (readHeader p.dims.length) fun p s => .ok ((p, (none : Option ForestIds)), s)) _ _
      rw [← List.append_nil (headerText p)]
      exact Reads.andThen (reads_header p hp) (Reads.pure _)
  | forest =>
    cases ids with
    | none => cases hk
    | some i => exact ⟨_, rfl, reads_forest_header p i hp⟩

/-- What a state becomes. -/
def FBack (ti : TimeInfo) (pk : Option (Pickle D M)) (s s' : FState D M) : Prop :=
  ReadBack ti pk s.st s'.st ∧ s'.ids = s.ids

theorem reads_stateF (h : Headers) (idMap : M) (ti : TimeInfo) (pk : Option (Pickle D M)) (s : FState D M)
    (hk : s.ids.isSome = h.kind) (hp : GoodPatch s.st.patch) (hd : ti.numDim = s.st.patch.dims.length)
    (hq : ti.numEqn = s.st.numEqn) (ha : ti.numAux = s.st.numAux) (h1 : 1 ≤ s.st.numEqn)
    (hr : ∀ m < s.st.numEqn, ∀ idx, InPatch s.st.patch idx → InRange (s.st.q m idx)) :
    ∃ t txt s', headerFor h s.st.patch s.ids = (t, .ok ()) ∧ arrayText s.st.patch s.st.numEqn s.st.q = .ok txt ∧
      Reads (readStateF h idMap ti pk) (t ++ txt) s' ∧ FBack ti pk s s' := by
  obtain ⟨txt, a, e, hread, ha'⟩ := reads_array s.st.patch (roundedPatch s.st.patch) s.st.numEqn h1 s.st.q
    (rounded_length _ hp.le) (rounded_cells _ hp.le) hp.pos hp.le hr
  obtain ⟨t, ht, hhead⟩ := reads_headerF h s.st.patch s.ids hp hk
  refine ⟨t, txt, ⟨newState idMap ti pk (roundedPatch s.st.patch) a, s.ids⟩, ht, e, ?_,
    ⟨rfl, rfl, ?_, ?_, ha', ?_⟩, rfl⟩
  · unfold readStateF
    have : ti.numDim.toNat = s.st.patch.dims.length := by omega
    rw [this]
    refine Reads.andThen hhead ?_
    intro rest
    dsimp only
    have hn : ti.numEqn.toNat = s.st.numEqn := by omega
    rw [if_neg (by omega), hn, hread rest]
  · show ti.numEqn.toNat = _; omega
  · show ti.numAux.toNat = _; omega
  · rintro k rfl; exact ⟨rfl, rfl⟩

theorem readStatesF_ok (h : Headers) (rd : Rd (FState D M)) (R : FState D M → FState D M → Prop) (l : FSol D M)
    (hl : ∀ s ∈ l, ∃ t txt s', headerFor h s.st.patch s.ids = (t, .ok ()) ∧
      arrayText s.st.patch s.st.numEqn s.st.q = .ok txt ∧ Reads rd (t ++ txt) s' ∧ R s s') :
    ∃ txt l', statesTextF h l = (txt, .ok ()) ∧ (∀ rest, readStatesF rd l.length (txt ++ rest) = (l', .ok ())) ∧
      List.Forall₂ R l l' := by
  induction l with
  | nil => exact ⟨[], [], rfl, fun _ => rfl, .nil⟩
  | cons s l ih =>
    obtain ⟨txt, l', i1, i2, i3⟩ := ih fun x hx => hl x (by simp [hx])
    obtain ⟨t, tx, s', h1, h2, h3, h4⟩ := hl s (by simp)
    refine ⟨t ++ tx ++ txt, s' :: l', ?_, ?_, .cons h4 i3⟩
    · unfold statesTextF
      rw [h1]
      dsimp only
      rw [h2]
      dsimp only
      rw [i1]
    · intro rest
      show readStatesF rd (l.length + 1) _ = _
      unfold readStatesF
      rw [List.append_assoc, h3]
      dsimp only
      rw [i2]

/-- The text of `fort.t` of a solution. -/
def fTime (sol : FSol D M) (s0 : FState D M) : List Char :=
  timeText s0.st.t s0.st.numEqn sol.length s0.st.numAux s0.st.patch.dims.length

/-- What is in the files of a frame, if it was written with the bindings `h`. -/
def Stored (h : Headers) (sol : FSol D M) (frame : Nat) (fs : Files D M) : Prop :=
  ∃ s0 l, sol = s0 :: l ∧ fs.t frame = some (fTime sol s0) ∧ fs.q frame = some (statesTextF h sol).1 ∧
    fs.pkl frame = some ⟨s0.st.problemData, s0.st.mapc2p⟩

theorem good_patchF {sol : FSol D M} {k : Bool} (hw : Spec.FWritable k sol) (s : FState D M) (hs : s ∈ sol) :
    GoodPatch s.st.patch :=
  good_patch _ hw.writable s.st (List.mem_map.mpr ⟨s, hs, rfl⟩)

theorem states_ok (h : Headers) (idMap : M) {sol : FSol D M} (hw : Spec.FWritable h.kind sol) (s0 : FState D M)
    (l : FSol D M) (hs : sol = s0 :: l) :
    ∃ txt l', statesTextF h sol = (txt, .ok ()) ∧
      (∀ rest, readStatesF (readStateF h idMap
        ⟨roundNum 8 s0.st.t, s0.st.numEqn, sol.length, s0.st.numAux, s0.st.patch.dims.length, 0, some "ascii".toList⟩
        (some ⟨s0.st.problemData, s0.st.mapc2p⟩)) sol.length (txt ++ rest) = (l', .ok ())) ∧
      List.Forall₂ (fun s s' => Spec.SameFState s s' ∧ s'.st.problemData = s0.st.problemData ∧
        s'.st.mapc2p = s0.st.mapc2p) sol l' := by
  have h0 : s0.st ∈ sol.map FState.st := by rw [hs]; simp
  obtain ⟨txt, l', i1, i2, i3⟩ := readStatesF_ok h (readStateF h idMap
        ⟨roundNum 8 s0.st.t, s0.st.numEqn, sol.length, s0.st.numAux, s0.st.patch.dims.length, 0, some "ascii".toList⟩
        (some ⟨s0.st.problemData, s0.st.mapc2p⟩)) (FBack _ _) sol (by
      intro s hmem
      have hm : s.st ∈ sol.map FState.st := List.mem_map.mpr ⟨s, hmem, rfl⟩
      obtain ⟨_, e2, e3, e4⟩ := hw.writable.same s0.st h0 s.st hm
      exact reads_stateF h idMap _ _ s (hw.kind s hmem) (good_patchF hw s hmem)
        (by show ((s0.st.patch.dims.length : Nat) : Int) = _; rw [e4]) (by show ((s0.st.numEqn : Nat) : Int) = _; rw [e2])
        (by show ((s0.st.numAux : Nat) : Int) = _; rw [e3]) (hw.writable.eqns s.st hm)
        fun m hm' idx hi => (double_iff _).mp (hw.writable.q s.st hm m hm' idx ((cell_iff _ _).mpr hi)))
  refine ⟨txt, l', i1, i2, forall₂_imp_mem i3 ?_⟩
  intro s hmem s' hb
  have hm : s.st ∈ sol.map FState.st := List.mem_map.mpr ⟨s, hmem, rfl⟩
  refine ⟨⟨sameState_of hb.1 (good_patchF hw s hmem) ?_, hb.2⟩, hb.1.problem _ rfl⟩
  rw [(hw.writable.same s0.st h0 s.st hm).1]

theorem write_stored (h : Headers) {sol : FSol D M} (hw : Spec.FWritable h.kind sol) (frame : Nat) (fs : Files D M) :
    (writeF h sol frame fs).2 = .ok () ∧ Stored h sol frame (writeF h sol frame fs).1 := by
  cases hs : sol with
  | nil =>
    exfalso
    have := hw.writable.states
    rw [hs] at this
    exact this rfl
  | cons s0 l =>
    obtain ⟨txt, l', i1, -, -⟩ := states_ok h s0.st.mapc2p hw s0 l hs
    rw [hs] at i1
    unfold writeF
    dsimp only
    rw [i1]
    refine ⟨rfl, s0, l, rfl, Function.update_self .., ?_, Function.update_self ..⟩
    rw [i1]
    exact Function.update_self ..

theorem read_stored (h : Headers) (idMap : M) {sol : FSol D M} (hw : Spec.FWritable h.kind sol) (frame : Nat)
    (fs : Files D M) (hst : Stored h sol frame fs) :
    ∃ l', readF h idMap fs frame = (l', .ok ()) ∧ List.Forall₂ Spec.SameFState sol l' ∧
      ∀ s0 l, sol = s0 :: l → ∀ s ∈ l', s.st.problemData = s0.st.problemData ∧ s.st.mapc2p = s0.st.mapc2p := by
  obtain ⟨s0, l, hs, ht, hq, hp⟩ := hst
  obtain ⟨txt, l', i1, i2, i3⟩ := states_ok h idMap hw s0 l hs
  refine ⟨l', ?_, i3.imp fun _ _ h => h.1, ?_⟩
  · have hne : l' ≠ [] := by
      intro e
      have := i3.length_eq
      rw [hs, e] at this
      cases this
    have hr := i2 []
    rw [List.append_nil] at hr
    unfold readF
    rw [ht]
    dsimp only
    unfold fTime
    rw [readT_timeText]
    dsimp only
    rw [hq, i1]
    dsimp only
    rw [hp]
    have hn : ((sol.length : Int)).toNat = sol.length := by omega
    rw [hn, hr]
    dsimp only
    rw [if_neg hne]
  · intro s0' l0 hs' s hmem
    have : s0' = s0 := by rw [hs] at hs'; exact (List.cons.inj hs').1.symm
    subst this
    obtain ⟨x, _, hx⟩ := forall₂_mem i3 s hmem
    exact hx.2

theorem recorded_stored {h : Headers} {sol : FSol D M} {frame : Nat} {fs : Files D M} (hst : Stored h sol frame fs) :
    recordedText fs frame = some .ascii := by
  obtain ⟨s0, l, hs, ht, -, -⟩ := hst
  unfold recordedText
  rw [ht]
  dsimp only
  unfold fTime
  rw [readT_timeText]
  rfl

/-! ### Sessions -/

/-- Files of a frame that nobody writes stay. -/
theorem writeF_other (h : Headers) (sol : FSol D M) (frame : Nat) (fs : Files D M) (f : Nat) (hf : f ≠ frame) :
    (writeF h sol frame fs).1.t f = fs.t f ∧ (writeF h sol frame fs).1.q f = fs.q f ∧
      (writeF h sol frame fs).1.pkl f = fs.pkl f := by
  unfold writeF
  cases sol with
  | nil => exact ⟨Function.update_of_ne hf _ _, rfl, rfl⟩
  | cons s0 l =>
    dsimp only
    cases (statesTextF h (s0 :: l)).2 with
    | error e => exact ⟨Function.update_of_ne hf _ _, Function.update_of_ne hf _ _, rfl⟩
    | ok u => exact ⟨Function.update_of_ne hf _ _, Function.update_of_ne hf _ _, Function.update_of_ne hf _ _⟩

theorem after_other (idMap : M) (p : Process D M) (op : TextOp D M) (f : Nat) (hf : ¬ Spec.Writes f op) :
    (p.after idMap op).files.t f = p.files.t f ∧ (p.after idMap op).files.q f = p.files.q f ∧
      (p.after idMap op).files.pkl f = p.files.pkl f := by
  cases op with
  | write fm sol frame => exact writeF_other _ _ _ _ _ fun e => hf e.symm
  | read fm frame => exact ⟨rfl, rfl, rfl⟩

theorem session_other (idMap : M) (f : Nat) (ops : List (TextOp D M)) (p : Process D M)
    (hf : ∀ op ∈ ops, ¬ Spec.Writes f op) :
    (ops.foldl (Process.after idMap) p).files.t f = p.files.t f ∧
      (ops.foldl (Process.after idMap) p).files.q f = p.files.q f ∧
      (ops.foldl (Process.after idMap) p).files.pkl f = p.files.pkl f := by
  induction ops generalizing p with
  | nil => exact ⟨rfl, rfl, rfl⟩
  | cons op ops ih =>
    have h1 := after_other idMap p op f (hf op (by simp))
    have h2 := ih (p.after idMap op) fun o ho => hf o (by simp [ho])
    rw [h1.1, h1.2.1, h1.2.2] at h2
    exact h2

theorem stored_congr {h : Headers} {sol : FSol D M} {frame : Nat} {fs fs' : Files D M}
    (he : fs'.t frame = fs.t frame ∧ fs'.q frame = fs.q frame ∧ fs'.pkl frame = fs.pkl frame)
    (hst : Stored h sol frame fs) : Stored h sol frame fs' := by
  obtain ⟨s0, l, hs, ht, hq, hp⟩ := hst
  exact ⟨s0, l, hs, by rw [he.1, ht], by rw [he.2.1, hq], by rw [he.2.2, hp]⟩

/-- The bindings of ForestClaw stay. -/
theorem bind_forest (f : TextFormat) : f.bind .forest = .forest := by unfold TextFormat.bind; split <;> rfl

theorem after_forest (idMap : M) (p : Process D M) (op : TextOp D M) (h : p.headers = .forest) :
    (p.after idMap op).headers = .forest := by
  cases op with
  | write fm sol frame => show fm.bind p.headers = _; rw [h, bind_forest]
  | read fm frame => show TextFormat.bind _ p.headers = _; rw [h, bind_forest]

theorem session_forest (idMap : M) (ops : List (TextOp D M)) (p : Process D M) (h : p.headers = .forest) :
    (ops.foldl (Process.after idMap) p).headers = .forest := by
  induction ops generalizing p with
  | nil => exact h
  | cons op ops ih => exact ih _ (after_forest idMap p op h)

/-- No frame on the disk is recorded as ForestClaw's. -/
def NoForest (fs : Files D M) : Prop := ∀ f, recordedText fs f ≠ some .forestclaw

theorem recorded_congr {fs fs' : Files D M} {f : Nat} (h : fs'.t f = fs.t f) :
    recordedText fs' f = recordedText fs f := by
  unfold recordedText; rw [h]

theorem recorded_fTime {fs : Files D M} {f : Nat} {sol : FSol D M} {s0 : FState D M} (h : fs.t f = some (fTime sol s0)) :
    recordedText fs f = some .ascii := by
  unfold recordedText
  rw [h]
  dsimp only
  unfold fTime
  rw [readT_timeText]
  rfl

theorem writeF_noForest (h : Headers) (sol : FSol D M) (frame : Nat) (fs : Files D M) (hn : NoForest fs) :
    NoForest (writeF h sol frame fs).1 := by
  intro f
  by_cases hf : f = frame
  · subst hf
    cases sol with
    | nil =>
      have e : (writeF h ([] : FSol D M) f fs).1.t f = some [] := Function.update_self ..
      unfold recordedText
      rw [e]
      have e2 : ∃ e, readT [] = .error e := by
        refine ⟨.ioError, ?_⟩
        have hw : nextWords [] = .error .ioError := by unfold nextWords; rw [dif_pos rfl]
        unfold readT readFloatLine
        rw [hw]
      obtain ⟨x, hx⟩ := e2
      dsimp only
      rw [hx]
      simp
    | cons s0 l =>
      have e : (writeF h (s0 :: l) f fs).1.t f = some (fTime (s0 :: l) s0) := by
        unfold writeF
        dsimp only
        cases (statesTextF h (s0 :: l)).2 with
        | error e => exact Function.update_self ..
        | ok u => exact Function.update_self ..
      rw [recorded_fTime e]
      simp
  · rw [recorded_congr (writeF_other h sol frame fs f hf).1]
    exact hn f

theorem after_plain (idMap : M) (p : Process D M) (op : TextOp D M) (h : p.headers = .plain) (hn : NoForest p.files)
    (ho : ¬ Spec.AsksForest op) : (p.after idMap op).headers = .plain ∧ NoForest (p.after idMap op).files := by
  cases op with
  | write fm sol frame =>
    refine ⟨?_, writeF_noForest _ _ _ _ hn⟩
    show fm.bind p.headers = _
    unfold TextFormat.bind
    have ho' : ¬ fm = .forestclaw := ho
    rw [if_neg ho', h]
  | read fm frame =>
    refine ⟨?_, hn⟩
    show TextFormat.bind _ p.headers = _
    unfold TextFormat.bind
    rw [if_neg, h]
    have := hn frame
    cases hr : recordedText p.files frame with
    | none => exact ho
    | some x => intro e; rw [hr] at this; exact this (by rw [← e]; rfl)

theorem session_plain (idMap : M) (ops : List (TextOp D M)) (p : Process D M) (h : p.headers = .plain)
    (hn : NoForest p.files) (ho : ∀ op ∈ ops, ¬ Spec.AsksForest op) :
    (ops.foldl (Process.after idMap) p).headers = .plain ∧ NoForest (ops.foldl (Process.after idMap) p).files := by
  induction ops generalizing p with
  | nil => exact ⟨h, hn⟩
  | cons op ops ih =>
    obtain ⟨h1, h2⟩ := after_plain idMap p op h hn (ho op (by simp))
    exact ih _ h1 h2 fun o ho' => ho o (by simp [ho'])

/-! ### Headers of the other kind -/

/-- A number in scientific notation is not an integer. -/
theorem parseInt_sciText (v : Num) : parseInt (sciText false 8 v) = .error .valueError := by
  unfold parseInt
  dsimp only
  rw [if_neg]
  rintro ⟨-, h⟩
  cases v with
  | nan => revert h; decide
  | inf n => cases n <;> revert h <;> decide
  | fin x =>
    have hdot : '.' ∈ (takeSign (sciText false 8 (.fin x))).2 := by
      have key : ∀ s : List Char, '.' ∈ s → '.' ∈ (takeSign s).2 := by
        intro s hs
        unfold takeSign
        split
        · rcases List.mem_cons.mp hs with h | h
          · exact absurd h (by decide)
          · exact h
        · rcases List.mem_cons.mp hs with h | h
          · exact absurd h (by decide)
          · exact h
        · exact hs
      apply key
      unfold sciText
      simp
    have := List.all_eq_true.mp h '.' hdot
    revert this; decide

theorem readInt_floatLine (v : Num) (label : List Char) (hl : '\n' ∉ label) (rest : List Char) :
    readIntLine (floatLine v label ++ rest) = .error .valueError := by
  obtain ⟨l, hl⟩ := nextWords_first (18 - (sciText false 8 v).length) 5 (by norm_num) (sciText false 8 v) label rest
    (sciText_noWs _ _ v) (sciText_ne_nil _ _ v) hl
  unfold readIntLine floatLine padLeft
  rw [hl]
  dsimp only
  rw [List.headD_cons, parseInt_sciText]

/-- Where integers are expected, `n` of them come and then a number in scientific notation. -/
theorem many_ints_fail (t : List Char) (hf : ∀ rest, readIntLine (t ++ rest) = .error .valueError) (ls : List (List Char))
    (vs : List Int) (h : List.Forall₂ (fun l v => Reads readIntLine l v) ls vs) (k : Nat) (hk : ls.length < k)
    (rest : List Char) : Rd.many readIntLine k (ls.flatten ++ (t ++ rest)) = .error .valueError := by
  induction h generalizing k with
  | nil =>
    obtain ⟨k, rfl⟩ : ∃ j, k = j + 1 := ⟨k - 1, by simp at hk; omega⟩
    unfold Rd.many
    rw [List.flatten_nil, List.nil_append, hf]
  | @cons l v ls vs h1 _ ih =>
    obtain ⟨k, rfl⟩ : ∃ j, k = j + 1 := ⟨k - 1, by simp at hk; omega⟩
    unfold Rd.many
    rw [List.flatten_cons, List.append_assoc, h1]
    dsimp only
    rw [ih k (by simp at hk; omega)]

/-- The header of PyClaw, read as ForestClaw's: two integers are missing. -/
theorem forest_reads_plain (p : IOPatch) (hp : GoodPatch p) (rest : List Char) :
    readForestHeader p.dims.length (headerText p ++ rest) = .error .valueError := by
  obtain ⟨pi, lv, ds⟩ := p
  obtain ⟨h1, h2, h3, h4, h5⟩ := hp
  dsimp only at h1 h2 h5 ⊢
  cases ds with
  | nil => simp at h1
  | cons d1 ds =>
    have n1 : ∀ s : List Char, '\n' ∉ s → '\n' ∉ d1.name.toList ++ s := by
      intro s hs; simp [h5 d1 (by simp), hs]
    have hlow : ∀ rest, readIntLine (floatLine (.fin d1.lower) (d1.name.toList ++ "low".toList) ++ rest) =
        .error .valueError := readInt_floatLine _ _ (n1 _ (by decide))
    have hm1 : '\n' ∉ 'm' :: d1.name.toList := by simp [h5 d1 (by simp)]
    unfold headerText readForestHeader
    simp only [List.append_assoc, List.flatMap_cons]
    unfold Rd.andThen
    rw [reads_int _ _ (by decide)]
    dsimp only
    rw [reads_int _ _ (by decide)]
    dsimp only
    rw [reads_int _ _ hm1]
    dsimp only
    cases ds with
    | nil =>
      simp only [List.flatMap_nil, List.nil_append]
      rw [hlow]
    | cons d2 ds =>
      have hm2 : '\n' ∉ 'm' :: d2.name.toList := by simp [h5 d2 (by simp)]
      simp only [List.append_assoc, List.flatMap_cons]
      rw [reads_int _ _ hm2]
      dsimp only
      cases ds with
      | nil =>
        simp only [List.flatMap_nil, List.nil_append]
        have := many_ints_fail _ hlow [] [] .nil (2 : Nat) (by simp)
        simp only [List.flatten_nil, List.nil_append] at this
        have e : ([d1, d2] : List (Dim ℚ)).length = 2 := rfl
        rw [e, this]
      | cons d3 ds =>
        cases ds with
        | cons d4 ds => exfalso; simp at h2; omega
        | nil =>
          have hm3 : '\n' ∉ 'm' :: d3.name.toList := by simp [h5 d3 (by simp)]
          simp only [List.flatMap_nil, List.nil_append, List.append_assoc, List.flatMap_cons]
          have := many_ints_fail _ hlow [intLine d3.numCells ('m' :: d3.name.toList)] [d3.numCells]
            (.cons (reads_int _ _ hm3) .nil) (3 : Nat) (by simp)
          simp only [List.flatten_cons, List.flatten_nil, List.append_nil] at this
          have e : ([d1, d2, d3] : List (Dim ℚ)).length = 3 := rfl
          rw [e, this]

/-- The header of a patch in block 0 of ForestClaw, read as PyClaw's: a dimension without cells. -/
theorem plain_reads_forest (p : IOPatch) (i : ForestIds) (hp : GoodPatch p) (hb : i.block ≤ 0) (rest : List Char) :
    ∃ e, readHeader p.dims.length (forestHeaderText p i ++ rest) = .error e := by
  obtain ⟨n, hn⟩ : ∃ n, p.dims.length = n + 1 := ⟨p.dims.length - 1, by have := hp.pos; omega⟩
  rw [hn]
  unfold forestHeaderText readHeader
  simp only [List.append_assoc]
  unfold Rd.andThen
  rw [reads_int _ _ (by decide)]
  dsimp only
  rw [reads_int _ _ (by decide)]
  dsimp only
  generalize hrest : (intLine i.rank _ ++ _) = r0
  have hns : ∀ ns r, Rd.many readIntLine (n + 1) (intLine i.block "block_number".toList ++ r0) = .ok (ns, r) →
      ∃ l, ns = i.block :: l := by
    intro ns r h
    unfold Rd.many at h
    rw [reads_int _ _ (by decide)] at h
    dsimp only at h
    cases hm : Rd.many readIntLine n r0 with
    | error e => rw [hm] at h; cases h
    | ok x => rw [hm] at h; cases h; exact ⟨_, rfl⟩
  have hlen : ∀ s (v : List Num) r, Rd.many readFloatLine (n + 1) s = .ok (v, r) → ∃ a l, v = a :: l := by
    intro s v r h
    unfold Rd.many at h
    cases h1 : readFloatLine s with
    | error e => rw [h1] at h; cases h
    | ok x =>
      rw [h1] at h
      dsimp only at h
      cases hm : Rd.many readFloatLine n x.2 with
      | error e => rw [hm] at h; cases h
      | ok y => rw [hm] at h; cases h; exact ⟨_, _, rfl⟩
  cases h1 : Rd.many readIntLine (n + 1) (intLine i.block "block_number".toList ++ r0) with
  | error e => exact ⟨e, rfl⟩
  | ok x =>
    obtain ⟨ns, r1⟩ := x
    obtain ⟨nl, rfl⟩ := hns ns r1 h1
    dsimp only
    cases h2 : Rd.many readFloatLine (n + 1) r1 with
    | error e => exact ⟨e, rfl⟩
    | ok y =>
      obtain ⟨lo, r2⟩ := y
      obtain ⟨a, al, rfl⟩ := hlen _ _ _ h2
      dsimp only
      cases h3 : Rd.many readFloatLine (n + 1) r2 with
      | error e => exact ⟨e, rfl⟩
      | ok z =>
        obtain ⟨dl, r3⟩ := z
        obtain ⟨b, bl, rfl⟩ := hlen _ _ _ h3
        dsimp only
        have hdim : ∃ e, mkDim i.block a b "x" = .error e := by
          unfold mkDim
          split
          · refine ⟨.assertion, ?_⟩
            unfold Dim.new Dim.checkValidity Dim.valid
            have : decide (0 < i.block) = false := by rw [decide_eq_false_iff_not]; omega
            simp only [this, Bool.false_and]
            rfl
          · exact ⟨_, rfl⟩
        obtain ⟨e, he⟩ := hdim
        refine ⟨e, ?_⟩
        unfold skipLine
        dsimp only
        unfold mkDims
        rw [he]

/-- The text of the states begins with the header of the first. -/
theorem statesTextF_head (h : Headers) (s0 : FState D M) (l : FSol D M) (t : List Char)
    (ht : headerFor h s0.st.patch s0.ids = (t, .ok ())) : ∃ rest, (statesTextF h (s0 :: l)).1 = t ++ rest := by
  unfold statesTextF
  rw [ht]
  dsimp only
  generalize arrayText s0.st.patch s0.st.numEqn s0.st.q = a
  cases a with
  | error e => exact ⟨[], (List.append_nil _).symm⟩
  | ok x => exact ⟨x ++ (statesTextF h l).1, by dsimp only; rw [List.append_assoc]⟩

/-- A frame whose first header cannot be read. -/
theorem readF_fail (h : Headers) (idMap : M) (sol : FSol D M) (s0 : FState D M) (l : FSol D M) (hs : sol = s0 :: l)
    (frame : Nat) (fs : Files D M) (qt : List Char) (ht : fs.t frame = some (fTime sol s0))
    (hq : fs.q frame = some qt) (e : PyErr) (he : readHeaderF h s0.st.patch.dims.length qt = .error e) :
    readF h idMap fs frame = ([], .error e) := by
  have hn : (((sol.length : Nat)) : Int).toNat = l.length + 1 := by rw [hs]; simp
  have hd : ((s0.st.patch.dims.length : Nat) : Int).toNat = s0.st.patch.dims.length := by simp
  have hr : ∀ (ti : TimeInfo) (pk : Option (Pickle D M)), ti.numDim = ((s0.st.patch.dims.length : Nat) : Int) →
      readStateF h idMap ti pk qt = .error e := by
    intro ti pk hnd
    unfold readStateF Rd.andThen
    rw [hnd, hd, he]
  have hrs : ∀ (ti : TimeInfo) (pk : Option (Pickle D M)), ti.numDim = ((s0.st.patch.dims.length : Nat) : Int) →
      readStatesF (readStateF h idMap ti pk) (l.length + 1) qt = ([], .error e) := by
    intro ti pk hnd
    unfold readStatesF
    rw [hr ti pk hnd]
  unfold readF
  rw [ht]
  dsimp only
  unfold fTime
  rw [readT_timeText]
  dsimp only
  rw [hq]
  dsimp only
  rw [hn, hrs _ _ rfl]

end PyClaw
