import Verif.Model.PetscSchedule
import Mathlib.Tactic.Common

/-!
C98: `clobber=False` in parallel, for every order in which the processes act.
-/
namespace PyClaw

variable {C : Type}

/-- A process that is still looking has found none of the files so far. -/
def LooksAt (names : List (List Char)) (files : List Char → Option C) (x : WPhase) : Prop :=
  ∃ pre rest, names = pre ++ rest ∧ x = .check rest ∧ ∀ g ∈ pre, files g = none

theorem refused_invariant (j : WriteJob C) (p : Nat) (files : List Char → Option C) (he : ∃ f ∈ j.names, (files f).isSome)
    (w : WriteRun C) (h : WriteReach j p (writeStart j false files) w) :
    w.files = files ∧ ∀ r < p, w.phase r = .raised ∨ LooksAt j.names files (w.phase r) := by
  induction h with
  | start => exact ⟨rfl, fun r _ => .inr ⟨[], j.names, rfl, rfl, by simp⟩⟩
  | step _ hs ih =>
    obtain ⟨hf, hph⟩ := ih
    have nolook : ∀ {x}, LooksAt j.names files x → x ≠ .check [] := by
      rintro x ⟨pre, rest, h1, h2, h3⟩ rfl
      cases h2
      obtain ⟨f, hm, hs⟩ := he
      rw [h1, List.append_nil] at hm
      rw [h3 f hm] at hs
      simp at hs
    cases hs with
    | found r f rest hr h hs =>
      refine ⟨hf, fun r' hr' => ?_⟩
      by_cases e : r' = r
      · subst e; simp
      · simpa [Function.update_of_ne e] using hph r' hr'
    | absent r f rest hr h hs =>
      refine ⟨hf, fun r' hr' => ?_⟩
      by_cases e : r' = r
      · subst e
        rcases hph r' hr' with h0 | ⟨pre, rest', h1, h2, h3⟩
        · rw [h] at h0; simp at h0
        · rw [h] at h2
          simp only [WPhase.check.injEq] at h2
          subst h2
          refine .inr ⟨pre ++ [f], rest, by simp [h1], by simp, ?_⟩
          intro g hg
          rcases List.mem_append.mp hg with hg | hg
          · exact h3 g hg
          · rw [List.mem_singleton.mp hg, ← hf]
            exact hs
      · simpa [Function.update_of_ne e] using hph r' hr'
    | checked r hr h =>
      rcases hph r hr with h0 | h0
      · rw [h] at h0; simp at h0
      · exact absurd h (nolook h0)
    | writeMeta hp h =>
      rcases hph 0 hp with h0 | ⟨_, _, _, h0, _⟩ <;> rw [h] at h0 <;> simp at h0
    | skipMeta r hr _ h =>
      rcases hph r hr with h0 | ⟨_, _, _, h0, _⟩ <;> rw [h] at h0 <;> simp at h0
    | collective hp h =>
      rcases hph 0 hp with h0 | ⟨_, _, _, h0, _⟩ <;> rw [h 0 hp] at h0 <;> simp at h0

/-- **C98.** With `clobber=False`, if a file of the frame exists, no file is ever changed, in whatever order the processes
act; and when nothing more can happen, every process has raised. -/
theorem C98_never_overwrites (j : WriteJob C) (p : Nat) (files : List Char → Option C) (he : ∃ f ∈ j.names, (files f).isSome)
    (w : WriteRun C) (h : WriteReach j p (writeStart j false files) w) :
    w.files = files ∧ (WriteStuck j p w → ∀ r < p, w.phase r = .raised) := by
  obtain ⟨hf, hph⟩ := refused_invariant j p files he w h
  refine ⟨hf, fun hst r hr => ?_⟩
  rcases hph r hr with h0 | ⟨pre, rest, h1, h2, h3⟩
  · exact h0
  · exfalso
    apply hst
    cases rest with
    | nil => exact ⟨_, .checked w r hr h2⟩
    | cons f rest =>
      cases hx : w.files f with
      | none => exact ⟨_, .absent w r f rest hr h2 hx⟩
      | some c => exact ⟨_, .found w r f rest hr h2 (by rw [hx]; rfl)⟩

/-- Process 0 on a new frame, and what the directory can look like. -/
theorem fresh_invariant (j : WriteJob C) (p : Nat) (hp : 0 < p) (files : List Char → Option C) (he : ∀ f ∈ j.names, files f = none)
    (w : WriteRun C) (h : WriteReach j p (writeStart j false files) w) :
    (w.files = files ∧ ((∃ rest, w.phase 0 = .check rest ∧ ∀ g ∈ rest, g ∈ j.names) ∨ w.phase 0 = .passed) ∧ ∀ r < p, w.phase r ≠ .raised ∧
        w.phase r ≠ .done ∧ ∀ rest, w.phase r = .check rest → ∀ g ∈ rest, g ∈ j.names) ∨
      (w.files = Function.update files j.metaFile (some (j.content j.metaFile)) ∧ w.phase 0 = .atViewer) ∨
      (w.files = j.writeData (Function.update files j.metaFile (some (j.content j.metaFile))) ∧ ∀ r < p, w.phase r = .done) := by
  induction h with
  | start =>
    refine .inl ⟨rfl, .inl ⟨j.names, rfl, fun _ h => h⟩, fun r _ => ⟨by simp [writeStart], by simp [writeStart], ?_⟩⟩
    intro rest hr g hg
    simp only [writeStart, Bool.false_eq_true, if_false, WPhase.check.injEq] at hr
    rw [hr]; exact hg
  | step _ hs ih =>
    cases hs with
    | found r f rest hr h hs =>
      rcases ih with ⟨hf, h0, hall⟩ | ⟨hf, h0⟩ | ⟨hf, h0⟩
      · exfalso
        have := (hall r hr).2.2 _ h f (by simp)
        rw [hf, he f this] at hs
        simp at hs
      · refine .inr (.inl ⟨hf, ?_⟩)
        have e : 0 ≠ r := by rintro rfl; rw [h] at h0; simp at h0
        simpa [Function.update_of_ne e] using h0
      · rw [h0 r hr] at h; simp at h
    | absent r f rest hr h hs =>
      rcases ih with ⟨hf, h0, hall⟩ | ⟨hf, h0⟩ | ⟨hf, h0⟩
      · refine .inl ⟨hf, ?_, ?_⟩
        · by_cases e : r = 0
          · subst e
            exact .inl ⟨rest, by simp, fun g hg => (hall 0 hr).2.2 _ h g (by simp [hg])⟩
          · simpa [Function.update_of_ne (Ne.symm e)] using h0
        · intro r' hr'
          by_cases e : r' = r
          · subst e
            refine ⟨by simp, by simp, ?_⟩
            intro rest' h' g hg
            simp only [Function.update_self, WPhase.check.injEq] at h'
            subst h'
            exact (hall r' hr').2.2 _ h g (by simp [hg])
          · simpa [Function.update_of_ne e] using hall r' hr'
      · refine .inr (.inl ⟨hf, ?_⟩)
        have e : 0 ≠ r := by rintro rfl; rw [h] at h0; simp at h0
        simpa [Function.update_of_ne e] using h0
      · rw [h0 r hr] at h; simp at h
    | checked r hr h =>
      rcases ih with ⟨hf, h0, hall⟩ | ⟨hf, h0⟩ | ⟨hf, h0⟩
      · refine .inl ⟨hf, ?_, ?_⟩
        · by_cases e : r = 0
          · subst e
            exact .inr (by simp)
          · simpa [Function.update_of_ne (Ne.symm e)] using h0
        · intro r' hr'
          by_cases e : r' = r
          · subst e
            exact ⟨by simp, by simp, by simp⟩
          · simpa [Function.update_of_ne e] using hall r' hr'
      · refine .inr (.inl ⟨hf, ?_⟩)
        have e : 0 ≠ r := by rintro rfl; rw [h] at h0; simp at h0
        simpa [Function.update_of_ne e] using h0
      · rw [h0 r hr] at h; simp at h
    | writeMeta _ h =>
      rcases ih with ⟨hf, h0, hall⟩ | ⟨hf, h0⟩ | ⟨hf, h0⟩
      · exact .inr (.inl ⟨by rw [hf], by simp⟩)
      · rw [h] at h0; simp at h0
      · rw [h0 0 hp] at h; simp at h
    | skipMeta r hr hr0 h =>
      rcases ih with ⟨hf, h0, hall⟩ | ⟨hf, h0⟩ | ⟨hf, h0⟩
      · refine .inl ⟨hf, by simpa [Function.update_of_ne (Ne.symm hr0)] using h0, ?_⟩
        intro r' hr'
        by_cases e : r' = r
        · subst e
          exact ⟨by simp, by simp, by simp⟩
        · simpa [Function.update_of_ne e] using hall r' hr'
      · exact .inr (.inl ⟨hf, by simpa [Function.update_of_ne (Ne.symm hr0)] using h0⟩)
      · rw [h0 r hr] at h; simp at h
    | collective _ h =>
      rcases ih with ⟨hf, h0, hall⟩ | ⟨hf, h0⟩ | ⟨hf, h0⟩
      · rcases h0 with ⟨_, h0, _⟩ | h0 <;> rw [h 0 hp] at h0 <;> simp at h0
      · exact .inr (.inr ⟨by rw [hf], fun _ _ => rfl⟩)
      · have := h 0 hp; rw [h0 0 hp] at this; simp at this

theorem written_files (j : WriteJob C) (files : List Char → Option C) (f : List Char) :
    j.writeData (Function.update files j.metaFile (some (j.content j.metaFile))) f = if f ∈ j.names then some (j.content f) else files f := by
  unfold WriteJob.writeData WriteJob.names
  by_cases h1 : f ∈ j.data
  · simp [h1]
  · by_cases h2 : f = j.metaFile
    · subst h2; simp
    · simp [h1, h2]

/-- **C98, partial.** On a new frame (none of its files exists) `clobber=False` makes process 0 never raise; another process
raises only after process 0 has written the metadata, and then no data file is ever written. A run of one process never
raises, and ends with all files written. What is missing: with more processes the others may raise
(`C98_race_violated`). -/
theorem C98_new_frame_partial (j : WriteJob C) (p : Nat) (hp : 0 < p) (files : List Char → Option C) (he : ∀ f ∈ j.names, files f = none)
    (w : WriteRun C) (h : WriteReach j p (writeStart j false files) w) :
    w.phase 0 ≠ .raised ∧
      (∀ r < p, w.phase r = .raised → w.files = Function.update files j.metaFile (some (j.content j.metaFile))) ∧
      (p = 1 → WriteStuck j p w → w.phase 0 = .done ∧
        ∀ f, w.files f = if f ∈ j.names then some (j.content f) else files f) := by
  rcases fresh_invariant j p hp files he w h with ⟨hf, h0, hall⟩ | ⟨hf, h0⟩ | ⟨hf, h0⟩
  · refine ⟨(hall 0 hp).1, fun r hr hx => absurd hx (hall r hr).1, ?_⟩
    intro _ hst
    exfalso
    apply hst
    rcases h0 with ⟨rest, h0, _⟩ | h0
    · cases rest with
      | nil => exact ⟨_, .checked w 0 hp h0⟩
      | cons f rest =>
        cases hx : w.files f with
        | none => exact ⟨_, .absent w 0 f rest hp h0 hx⟩
        | some c => exact ⟨_, .found w 0 f rest hp h0 (by rw [hx]; rfl)⟩
    · exact ⟨_, .writeMeta w hp h0⟩
  · refine ⟨by rw [h0]; simp, fun r hr hx => hf, ?_⟩
    intro h1 hst
    exfalso
    apply hst
    refine ⟨_, .collective w hp ?_⟩
    intro r hr
    rw [show r = 0 by omega]
    exact h0
  · refine ⟨by rw [h0 0 hp]; simp, fun r hr hx => by rw [h0 r hr] at hx; simp at hx, fun _ _ => ⟨h0 0 hp, fun f => by rw [hf]; exact written_files j files f⟩⟩

/-- All the others have raised. -/
theorem all_found (j : WriteJob C) (p : Nat) (w0 w : WriteRun C) (h : WriteReach j p w0 w) (hm : (w.files j.metaFile).isSome)
    (k : Nat) (hk : k ≤ p) (hph : ∀ r, 0 < r → w.phase r = .check j.names) :
    ∃ w', WriteReach j p w0 w' ∧ w'.files = w.files ∧ w'.phase 0 = w.phase 0 ∧ (∀ r, 0 < r → r < k → w'.phase r = .raised) ∧
      ∀ r, 0 < r → k ≤ r → w'.phase r = .check j.names := by
  induction k with
  | zero => exact ⟨w, h, rfl, rfl, fun r _ hr => by omega, fun r h0 _ => hph r h0⟩
  | succ k ih =>
    obtain ⟨w', h1, h2, h3, h4, h5⟩ := ih (by omega)
    rcases Nat.eq_zero_or_pos k with rfl | hk0
    · exact ⟨w', h1, h2, h3, fun r _ _ => by omega, fun r h0 _ => h5 r h0 (by omega)⟩
    · refine ⟨_, .step h1 (.found w' k j.metaFile j.data (by omega) (h5 k hk0 (Nat.le_refl _)) (by rw [h2]; exact hm)), h2, ?_, ?_, ?_⟩
      · simpa [Function.update_of_ne (show (0 : Nat) ≠ k by omega)] using h3
      · intro r hr0 hrk
        by_cases e : r = k
        · subst e; simp
        · simpa [Function.update_of_ne e] using h4 r hr0 (by omega)
      · intro r hr0 hrk
        simpa [Function.update_of_ne (show r ≠ k by omega)] using h5 r hr0 (by omega)

/-- Process 0 alone comes to the viewer. -/
theorem zero_first (j : WriteJob C) (p : Nat) (hp : 0 < p) (files : List Char → Option C) (he : ∀ f ∈ j.names, files f = none) :
    ∃ w, WriteReach j p (writeStart j false files) w ∧ w.files = Function.update files j.metaFile (some (j.content j.metaFile)) ∧
      w.phase 0 = .atViewer ∧ ∀ r, 0 < r → w.phase r = .check j.names := by
  have loop : ∀ (rest : List (List Char)) (w : WriteRun C), (∀ f ∈ rest, files f = none) → WriteReach j p (writeStart j false files) w →
      w.files = files → w.phase 0 = .check rest → (∀ r, 0 < r → w.phase r = .check j.names) →
      ∃ w', WriteReach j p (writeStart j false files) w' ∧ w'.files = files ∧ w'.phase 0 = .check [] ∧
        ∀ r, 0 < r → w'.phase r = .check j.names := by
    intro rest
    induction rest with
    | nil => exact fun w _ h1 h2 h3 h4 => ⟨w, h1, h2, h3, h4⟩
    | cons f rest ih =>
      intro w hn h1 h2 h3 h4
      refine ih _ (fun g hg => hn g (by simp [hg])) (.step h1 (.absent w 0 f rest hp h3 (by rw [h2]; exact hn f (by simp)))) h2 (by simp) ?_
      intro r hr
      simpa [Function.update_of_ne (show r ≠ 0 by omega)] using h4 r hr
  obtain ⟨w, h1, h2, h3, h4⟩ := loop j.names _ he .start rfl rfl (fun _ _ => rfl)
  refine ⟨_, .step (.step h1 (.checked w 0 hp h3)) (.writeMeta _ hp (by simp)), by rw [h2], by simp, ?_⟩
  intro r hr
  simpa [Function.update_of_ne (show r ≠ 0 by omega)] using h4 r hr

/-- **C98, violated.** With two or more processes and `clobber=False` there is an order in which all processes but process 0
raise on a new frame, because they find the metadata that process 0 has just written. Process 0 waits for ever, and no
data file is written. -/
theorem C98_race_violated (j : WriteJob C) (p : Nat) (hp : 2 ≤ p) (files : List Char → Option C) (he : ∀ f ∈ j.names, files f = none) :
    ∃ w, WriteReach j p (writeStart j false files) w ∧ (∀ r, 0 < r → r < p → w.phase r = .raised) ∧ w.phase 0 = .atViewer ∧
      w.files = Function.update files j.metaFile (some (j.content j.metaFile)) ∧ WriteStuck j p w := by
  obtain ⟨w1, a1, a2, a3, a4⟩ := zero_first j p (by omega) files he
  obtain ⟨w, b1, b2, b3, b4, b5⟩ := all_found j p _ w1 a1 (by rw [a2]; simp) p (Nat.le_refl _) a4
  refine ⟨w, b1, b4, by rw [b3, a3], by rw [b2, a2], ?_⟩
  rintro ⟨w', hs⟩
  have hcase : ∀ r < p, w.phase r = .raised ∨ w.phase r = .atViewer := by
    intro r hr
    rcases Nat.eq_zero_or_pos r with rfl | h0
    · exact .inr (by rw [b3, a3])
    · exact .inl (b4 r h0 hr)
  cases hs with
  | found r f rest hr h _ => rcases hcase r hr with h0 | h0 <;> rw [h] at h0 <;> simp at h0
  | absent r f rest hr h _ => rcases hcase r hr with h0 | h0 <;> rw [h] at h0 <;> simp at h0
  | checked r hr h => rcases hcase r hr with h0 | h0 <;> rw [h] at h0 <;> simp at h0
  | writeMeta h0 h => rcases hcase 0 h0 with h1 | h1 <;> rw [h] at h1 <;> simp at h1
  | skipMeta r hr _ h => rcases hcase r hr with h0 | h0 <;> rw [h] at h0 <;> simp at h0
  | collective h0 h =>
    have := h 1 (by omega)
    rw [b4 1 (by omega) (by omega)] at this
    simp at this

theorem clobber_invariant (j : WriteJob C) (p : Nat) (files : List Char → Option C) (w : WriteRun C)
    (h : WriteReach j p (writeStart j true files) w) :
    (w.files = j.writeData (Function.update files j.metaFile (some (j.content j.metaFile))) ∧ ∀ r < p, w.phase r = .done) ∨
      (∀ r < p, w.phase r = .passed ∨ w.phase r = .atViewer) ∧
        (w.phase 0 = .atViewer → w.files = Function.update files j.metaFile (some (j.content j.metaFile))) ∧
        (w.phase 0 = .passed → w.files = files) := by
  induction h with
  | start => exact .inr ⟨fun r _ => .inl rfl, fun h => by simp [writeStart] at h, fun _ => rfl⟩
  | step _ hs ih =>
    rcases ih with ⟨hf, hd⟩ | ⟨hall, h1, h2⟩
    · exfalso
      cases hs with
      | found r f rest hr h _ => rw [hd r hr] at h; simp at h
      | absent r f rest hr h _ => rw [hd r hr] at h; simp at h
      | checked r hr h => rw [hd r hr] at h; simp at h
      | writeMeta h0 h => rw [hd 0 h0] at h; simp at h
      | skipMeta r hr _ h => rw [hd r hr] at h; simp at h
      | collective h0 h => have := h 0 h0; rw [hd 0 h0] at this; simp at this
    · cases hs with
      | found r f rest hr h _ => rcases hall r hr with h0 | h0 <;> rw [h] at h0 <;> simp at h0
      | absent r f rest hr h _ => rcases hall r hr with h0 | h0 <;> rw [h] at h0 <;> simp at h0
      | checked r hr h => rcases hall r hr with h0 | h0 <;> rw [h] at h0 <;> simp at h0
      | writeMeta h0 h =>
        refine .inr ⟨?_, fun _ => by rw [h2 h], fun hx => by simp at hx⟩
        intro r hr
        by_cases e : r = 0
        · subst e; simp
        · simpa [Function.update_of_ne e] using hall r hr
      | skipMeta r hr h0 h =>
        refine .inr ⟨?_, by simpa [Function.update_of_ne (Ne.symm h0)] using h1, by simpa [Function.update_of_ne (Ne.symm h0)] using h2⟩
        intro r' hr'
        by_cases e : r' = r
        · subst e; simp
        · simpa [Function.update_of_ne e] using hall r' hr'
      | collective h0 h => exact .inl ⟨by rw [h1 (h 0 h0)], fun _ _ => rfl⟩

/-- **C98.** With `clobber=True` no process ever raises; when nothing more can happen, every process has finished, and every
file of the frame has its new contents, all others their old ones, in whatever order the processes act. -/
theorem C98_overwrites (j : WriteJob C) (p : Nat) (hp : 0 < p) (files : List Char → Option C) (w : WriteRun C)
    (h : WriteReach j p (writeStart j true files) w) :
    (∀ r < p, w.phase r ≠ .raised) ∧ (WriteStuck j p w → (∀ r < p, w.phase r = .done) ∧
      ∀ f, w.files f = if f ∈ j.names then some (j.content f) else files f) := by
  rcases clobber_invariant j p files w h with ⟨hf, hd⟩ | ⟨hall, h1, h2⟩
  · refine ⟨fun r hr => by rw [hd r hr]; simp, fun _ => ⟨hd, fun f => ?_⟩⟩
    rw [hf]
    exact written_files j files f
  · refine ⟨fun r hr => by rcases hall r hr with h0 | h0 <;> rw [h0] <;> simp, fun hst => ?_⟩
    exfalso
    apply hst
    by_cases hx : ∀ r < p, w.phase r = .atViewer
    · exact ⟨_, .collective w hp hx⟩
    · push Not at hx
      obtain ⟨r, hr, hne⟩ := hx
      have hps := (hall r hr).resolve_right hne
      by_cases h0 : r = 0
      · subst h0; exact ⟨_, .writeMeta w hp hps⟩
      · exact ⟨_, .skipMeta w r hr h0 hps⟩

/-! ### A concrete case -/

/-- Frame 3 with auxiliary data. -/
def exJob : WriteJob Nat := ⟨"claw.pkl0003".toList, ["claw.ptc0003".toList, "claw_aux.ptc0003".toList], fun _ => 7⟩

example : ∀ f ∈ exJob.names, (fun _ => none : List Char → Option Nat) f = none := fun _ _ => rfl
example : ∃ f ∈ exJob.names, ((fun g => if g = "claw.ptc0003".toList then some 1 else none : List Char → Option Nat) f).isSome :=
  ⟨"claw.ptc0003".toList, by decide, by decide⟩
example : exJob.metaFile ∉ exJob.data := by decide
/-- Two processes, a new frame: the second one is refused. -/
example : ∃ w, WriteReach exJob 2 (writeStart exJob false fun _ => none) w ∧ w.phase 1 = .raised := by
  obtain ⟨w, h1, h2, _⟩ := C98_race_violated exJob 2 (Nat.le_refl _) (fun _ => none) (fun _ _ => rfl)
  exact ⟨w, h1, h2 1 (by omega) (by omega)⟩

end PyClaw
