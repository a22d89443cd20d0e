import Verif.Lemmas.Forest
import Verif.Props.Ascii

set_option linter.unusedSectionVars false

/-!
**C100.** What a write in ASCII or ForestClaw format puts on the disk, and what a read returns, depends on the arguments and the
files only, not on what the process did before: a frame that was written can be read, with all its attributes.
-/
namespace PyClaw

variable {D M : Type}

/-- The headers of PyClaw: with them the functions of this model are those of C53. -/
theorem C100_same_as_ascii (sol : FSol D M) (frame : Nat) (fs : Files D M) :
    writeF .plain sol frame fs =
      asciiWrite ⟨sol.map FState.st, some (sol.map fun s => s.st.patch)⟩ frame false false fs := by
  have hst : ∀ l : FSol D M, statesTextF .plain l =
      statesText (qShape false) (fun s => if false then s.p else s.q) (l.map FState.st) := by
    intro l
    induction l with
    | nil => rfl
    | cons s l ih =>
      rw [List.map_cons]
      unfold statesTextF statesText
      rw [← ih]
      rfl
  cases sol with
  | nil => rfl
  | cons s0 l =>
    unfold writeF asciiWrite
    rw [hst]
    simp only [List.map_cons, List.length_map, List.length_cons]
    cases (statesText (qShape false) (fun s => if false then s.p else s.q) (s0.st :: l.map FState.st)).2 with
    | error e => rfl
    | ok u => simp

/-- **C100, as long as nobody in the process asks for the format of ForestClaw** (and no frame found on the disk is recorded as
such): after any calls `before`, a solution on patches of PyClaw is written, and after any further calls that do not write the
same frame it is read back. Missing: processes that use both formats, see below. -/
theorem C100_ascii_history_partial (idMap : M) (fs : Files D M) (hfs : ∀ f, recordedText fs f ≠ some .forestclaw)
    (before between : List (TextOp D M)) (hb : ∀ op ∈ before, ¬ Spec.AsksForest op)
    (hc : ∀ op ∈ between, ¬ Spec.AsksForest op) (sol : FSol D M) (hw : Spec.FWritable false sol) (frame : Nat)
    (hn : ∀ op ∈ between, ¬ Spec.Writes frame op) :
    ∃ p1 p2 sol', (before.foldl (Process.after idMap) (Process.fresh fs)).write .ascii sol frame = (p1, .ok ()) ∧
      (between.foldl (Process.after idMap) p1).read idMap .ascii frame = (p2, sol', .ok ()) ∧
      List.Forall₂ Spec.SameFState sol sol' ∧
      ∀ s0 l, sol = s0 :: l → ∀ s ∈ sol', s.st.problemData = s0.st.problemData ∧ s.st.mapc2p = s0.st.mapc2p := by
  obtain ⟨b1, b2⟩ := session_plain idMap before (Process.fresh fs) rfl hfs hb
  set p := before.foldl (Process.after idMap) (Process.fresh fs) with hp
  have hk : Spec.FWritable Headers.plain.kind sol := hw
  obtain ⟨w1, w2⟩ := write_stored .plain hk frame p.files
  have hwr : p.write .ascii sol frame = (⟨.plain, (writeF .plain sol frame p.files).1⟩, .ok ()) := by
    show ((⟨TextFormat.bind .ascii p.headers, _⟩, _) : Ret (Process D M) Unit) = _
    have e : TextFormat.bind .ascii p.headers = .plain := b1
    rw [e]
    exact Prod.ext rfl w1
  have hnf : NoForest (writeF .plain sol frame p.files).1 := writeF_noForest _ _ _ _ b2
  obtain ⟨c1, c2⟩ := session_plain idMap between ⟨.plain, (writeF .plain sol frame p.files).1⟩ rfl hnf hc
  have hso := session_other idMap frame between ⟨.plain, (writeF .plain sol frame p.files).1⟩ hn
  set p2 := between.foldl (Process.after idMap) ⟨.plain, (writeF .plain sol frame p.files).1⟩ with hp2
  have hst2 : Stored .plain sol frame p2.files := stored_congr hso w2
  obtain ⟨l', r1, r2, r3⟩ := read_stored .plain idMap hk frame p2.files hst2
  refine ⟨_, ⟨.plain, p2.files⟩, l', hwr, ?_, r2, r3⟩
  show ((⟨TextFormat.bind ((recordedText p2.files frame).getD .ascii) p2.headers, p2.files⟩, readF _ idMap p2.files frame)
    : Process D M × Ret (FSol D M) Unit) = _
  rw [recorded_stored hst2]
  have e : TextFormat.bind ((some TextFormat.ascii).getD .ascii) p2.headers = .plain := c1
  rw [e, r1]

/-- **C100, in the process that wrote.** In any process, a solution on patches of ForestClaw that is written in the format
of ForestClaw is read back, with the block number and the MPI rank of every patch, by any later read of the process that
names either format, if the frame was not written again. -/
theorem C100_forest_round_trip_partial (idMap : M) (p : Process D M) (sol : FSol D M) (hw : Spec.FWritable true sol)
    (frame : Nat) (between : List (TextOp D M)) (hn : ∀ op ∈ between, ¬ Spec.Writes frame op) (f : TextFormat) :
    ∃ p1 p2 sol', p.write .forestclaw sol frame = (p1, .ok ()) ∧
      (between.foldl (Process.after idMap) p1).read idMap f frame = (p2, sol', .ok ()) ∧
      List.Forall₂ Spec.SameFState sol sol' ∧
      ∀ s0 l, sol = s0 :: l → ∀ s ∈ sol', s.st.problemData = s0.st.problemData ∧ s.st.mapc2p = s0.st.mapc2p := by
  have hk : Spec.FWritable Headers.forest.kind sol := hw
  obtain ⟨w1, w2⟩ := write_stored .forest hk frame p.files
  have hwr : p.write .forestclaw sol frame = (⟨.forest, (writeF .forest sol frame p.files).1⟩, .ok ()) :=
    Prod.ext rfl w1
  have c1 := session_forest idMap between ⟨.forest, (writeF .forest sol frame p.files).1⟩ rfl
  have hso := session_other idMap frame between ⟨.forest, (writeF .forest sol frame p.files).1⟩ hn
  set p2 := between.foldl (Process.after idMap) ⟨.forest, (writeF .forest sol frame p.files).1⟩ with hp2
  have hst2 : Stored .forest sol frame p2.files := stored_congr hso w2
  obtain ⟨l', r1, r2, r3⟩ := read_stored .forest idMap hk frame p2.files hst2
  refine ⟨_, ⟨.forest, p2.files⟩, l', hwr, ?_, r2, r3⟩
  show ((⟨TextFormat.bind _ p2.headers, p2.files⟩, readF (TextFormat.bind _ p2.headers) idMap p2.files frame)
    : Process D M × Ret (FSol D M) Unit) = _
  rw [c1, bind_forest, r1]

/-- **C100 fails: writing after ForestClaw.** Once the format of ForestClaw has been used for writing anything, every write of a
solution on patches of PyClaw raises `AttributeError`, now also in ASCII format; the frame is left with a complete `fort.t` and
two lines in `fort.q`, and what the frame contained before is lost. Reading it raises. -/
theorem C100_write_after_forest_violated (idMap : M) (p : Process D M) (any : FSol D M) (frame' : Nat)
    (between : List (TextOp D M)) (s0 : FState D M) (l : FSol D M) (hw : Spec.FWritable false (s0 :: l)) (frame : Nat) :
    let p1 := between.foldl (Process.after idMap) (p.write .forestclaw any frame').1
    (p1.write .ascii (s0 :: l) frame).2 = .error .attributeError ∧
      (p1.write .ascii (s0 :: l) frame).1.files.q frame =
        some (intLine s0.st.patch.patchIndex "patch_number".toList ++ intLine s0.st.patch.level "AMR_level".toList) ∧
      ((p1.write .ascii (s0 :: l) frame).1.read idMap .ascii frame).2 = ([], .error .ioError) := by
  intro p1
  have hh : p1.headers = .forest := session_forest idMap between _ rfl
  have hids : s0.ids = none := by
    have := hw.kind s0 (by simp)
    cases h : s0.ids with
    | none => rfl
    | some i => rw [h] at this; cases this
  have htxt : statesTextF .forest (s0 :: l) =
      (intLine s0.st.patch.patchIndex "patch_number".toList ++ intLine s0.st.patch.level "AMR_level".toList,
        .error .attributeError) := by
    unfold statesTextF
    rw [hids]
    rfl
  have hwr : p1.write .ascii (s0 :: l) frame =
      (⟨.forest, ⟨Function.update p1.files.t frame (some (fTime (s0 :: l) s0)), Function.update p1.files.q frame
        (some (intLine s0.st.patch.patchIndex "patch_number".toList ++ intLine s0.st.patch.level "AMR_level".toList)),
        p1.files.a, p1.files.pkl⟩⟩, .error .attributeError) := by
    unfold Process.write
    have e : TextFormat.bind .ascii p1.headers = .forest := hh
    rw [e]
    unfold writeF
    dsimp only
    rw [htxt]
    rfl
  rw [hwr]
  refine ⟨rfl, Function.update_self .., ?_⟩
  unfold Process.read
  dsimp only
  rw [bind_forest]
  refine readF_fail .forest idMap (s0 :: l) s0 l rfl frame _ _ (Function.update_self ..) (Function.update_self ..) _ ?_
  unfold readHeaderF readForestHeader Rd.andThen
  dsimp only
  rw [reads_int _ _ (by decide)]
  dsimp only
  have := reads_int s0.st.patch.level "AMR_level".toList (by decide) []
  rw [List.append_nil] at this
  rw [this]
  dsimp only
  have e : readIntLine [] = .error .ioError := by
    unfold readIntLine nextWords
    rw [dif_pos rfl]
  rw [e]

/-- **C100 fails: reading after ForestClaw.** Any frame that a process without ForestClaw wrote (`p.headers = .plain`) raises
`ValueError` when it is read after the format of ForestClaw has been used once for writing another frame, and no state is
read, whichever format the call names. -/
theorem C100_read_after_forest_violated (idMap : M) (p : Process D M) (hp : p.headers = .plain) (sol : FSol D M)
    (hw : Spec.FWritable false sol) (frame : Nat) (any : FSol D M) (frame' : Nat) (hf : frame' ≠ frame)
    (f : TextFormat) :
    ∃ p1, p.write .ascii sol frame = (p1, .ok ()) ∧
      ((p1.write .forestclaw any frame').1.read idMap f frame).2 = ([], .error .valueError) := by
  have hk : Spec.FWritable Headers.plain.kind sol := hw
  obtain ⟨w1, w2⟩ := write_stored .plain hk frame p.files
  have hwr : p.write .ascii sol frame = (⟨.plain, (writeF .plain sol frame p.files).1⟩, .ok ()) := by
    show ((⟨TextFormat.bind .ascii p.headers, _⟩, _) : Ret (Process D M) Unit) = _
    have e : TextFormat.bind .ascii p.headers = .plain := hp
    rw [e]
    exact Prod.ext rfl w1
  refine ⟨_, hwr, ?_⟩
  set fs1 := (writeF .plain sol frame p.files).1 with hfs1
  have hst : Stored .plain sol frame (writeF .forest any frame' fs1).1 :=
    stored_congr (writeF_other .forest any frame' fs1 frame (Ne.symm hf)) w2
  show readF (TextFormat.bind _ .forest) idMap (writeF .forest any frame' fs1).1 frame = _
  rw [bind_forest]
  obtain ⟨s0, l, hs, ht, hq, hpk⟩ := hst
  obtain ⟨rest, hrest⟩ := statesTextF_head .plain s0 l (headerText s0.st.patch) rfl
  refine readF_fail .forest idMap sol s0 l hs frame _ _ ht hq _ ?_
  rw [hs, hrest]
  exact forest_reads_plain s0.st.patch (good_patchF hw s0 (by rw [hs]; simp)) rest

/-- **C100 fails: another process.** A frame in the format of ForestClaw is recorded as `ascii` in `fort.t`, and this record takes
precedence over the format that the caller names: a new process reads it with the headers of PyClaw even when asked for
`forestclaw`. If the first patch lies in block 0 (the default of ForestClaw's patches) it raises and nothing is read. -/
theorem C100_forest_new_process_violated (idMap : M) (p : Process D M) (s0 : FState D M) (l : FSol D M)
    (hw : Spec.FWritable true (s0 :: l)) (h0 : ∃ r, s0.ids = some ⟨0, r⟩) (frame : Nat) (f : TextFormat) :
    ∃ p1 e, p.write .forestclaw (s0 :: l) frame = (p1, .ok ()) ∧
      ((Process.fresh p1.files).read idMap f frame).2 = ([], .error e) := by
  have hk : Spec.FWritable Headers.forest.kind (s0 :: l) := hw
  obtain ⟨w1, w2⟩ := write_stored .forest hk frame p.files
  have hwr : p.write .forestclaw (s0 :: l) frame = (⟨.forest, (writeF .forest (s0 :: l) frame p.files).1⟩, .ok ()) :=
    Prod.ext rfl w1
  set fs1 := (writeF .forest (s0 :: l) frame p.files).1 with hfs1
  obtain ⟨r, hr⟩ := h0
  obtain ⟨rest, hrest⟩ := statesTextF_head .forest s0 l (forestHeaderText s0.st.patch ⟨0, r⟩) (by rw [hr]; rfl)
  obtain ⟨e, he⟩ := plain_reads_forest s0.st.patch ⟨0, r⟩ (good_patchF hw s0 (by simp)) (le_refl 0) rest
  refine ⟨_, e, hwr, ?_⟩
  show readF (TextFormat.bind ((recordedText fs1 frame).getD f) .plain) idMap fs1 frame = _
  rw [recorded_stored w2]
  show readF .plain idMap fs1 frame = _
  obtain ⟨s0', l', hs, ht, hq, hpk⟩ := w2
  obtain ⟨rfl, rfl⟩ := List.cons.inj hs
  refine readF_fail .plain idMap (s0 :: l) s0 l rfl frame _ _ ht hq _ ?_
  rw [hrest]
  unfold readHeaderF
  dsimp only
  unfold Rd.andThen
  rw [he]

/-! ### The hypotheses are met -/

/-- Two patches of PyClaw, or the same of ForestClaw in blocks 0 and 1. -/
def forestExSol (forest : Bool) : FSol Unit Unit :=
  [⟨ioExState 1, if forest then some ⟨0, 3⟩ else none⟩, ⟨ioExState 2, if forest then some ⟨1, 2⟩ else none⟩]

theorem forestExSol_writable (b : Bool) : Spec.FWritable b (forestExSol b) := by
  refine ⟨ioExSol_writable, ?_⟩
  intro s hs
  simp only [forestExSol, List.mem_cons, List.not_mem_nil, or_false] at hs
  rcases hs with rfl | rfl <;> cases b <;> rfl

/-- A session in plain ASCII. -/
example := C100_ascii_history_partial () (Files.none Unit Unit) (fun f => by simp [recordedText, Files.none])
  [.write .ascii (forestExSol false) 3] [.read .ascii 3, .write .ascii (forestExSol false) 4]
  (by simp [Spec.AsksForest]) (by simp [Spec.AsksForest]) (forestExSol false) (forestExSol_writable false) 5
  (by simp [Spec.Writes])

/-- A session with ForestClaw, in which plain frames can no longer be written or read. -/
example := C100_forest_round_trip_partial () (Process.fresh (Files.none Unit Unit)) (forestExSol true)
  (forestExSol_writable true) 5 [.write .ascii (forestExSol false) 4] (by simp [Spec.Writes]) .ascii

example := C100_write_after_forest_violated () (Process.fresh (Files.none Unit Unit)) (forestExSol true) 1 [] _ _
  (forestExSol_writable false) 2

example := C100_read_after_forest_violated () (Process.fresh (Files.none Unit Unit)) rfl (forestExSol false)
  (forestExSol_writable false) 2 (forestExSol true) 1 (by decide) .ascii

example := C100_forest_new_process_violated () (Process.fresh (Files.none Unit Unit)) _ _ (forestExSol_writable true)
  ⟨3, rfl⟩ 2 .forestclaw

end PyClaw
