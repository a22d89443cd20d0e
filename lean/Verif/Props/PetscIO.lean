import Verif.Lemmas.PetscIO
import Mathlib.Data.Rat.Floor

/-!
C97: a frame in PETSc files comes back whatever the numbers of processes that write and read it.
-/
set_option linter.unusedSectionVars false

namespace PyClaw

variable {V X : Type}

/-- The files after a successful call. -/
def writtenFiles (zero : V) (sol : PSol V X) (pre : List Char) (frame : Nat) (wa : Bool) (fmt : PFormat) (wp : Bool) (h : PHead V X)
    (fs : PFS V X) : PFS V X :=
  let fs1 := Function.update fs (metaName pre frame) (some (.pickles (some h) (sol.states.map fun s => ptcRec s.patch)))
  let fs2 := Function.update fs1 (dataName pre fmt frame) (some (viewed fmt
    (sol.states.map (if wp then fieldVec zero PState.numP PState.p else fieldVec zero PState.numEqn PState.q))))
  if wa then Function.update fs2 (auxName pre frame) (some (viewed fmt (sol.states.map (fieldVec zero PState.numAux PState.aux)))) else fs2

theorem ptcWrite_ok (zero : V) (sol : PSol V X) (hs : Spec.GoodPSol sol) (pre : List Char) (frame : Nat) (wa : Bool) (fmt : PFormat)
    (hf : fmt ≠ .unknown) (clobber wp : Bool) (hp : wp = true → ∀ s ∈ sol.states, s.numP ≠ 0) (fs : PFS V X)
    (hc : clobber = true ∨ ∀ f ∈ ptcNames pre fmt frame (Spec.auxWritten sol wa), fs f = none) :
    ∃ h s0 l p0 ps, sol.states = s0 :: l ∧ sol.domain = some (p0 :: ps) ∧ h = ptcHead s0 sol.states.length p0.dims.length (Spec.auxWritten sol wa) wp ∧
      ptcWrite zero sol pre frame wa fmt clobber wp fs = (writtenFiles zero sol pre frame (Spec.auxWritten sol wa) fmt wp h fs, .ok ()) := by
  obtain ⟨⟨s0, l, p0, ps, h1, h2, h3⟩, h4⟩ := hs
  refine ⟨_, s0, l, p0, ps, h1, h2, rfl, ?_⟩
  have hw : Spec.auxWritten sol wa = if s0.numAux = 0 then false else wa := by simp only [Spec.auxWritten, h1]
  unfold ptcWrite
  rw [h1]
  simp only [← hw]
  rw [if_neg]
  · rw [h2]
    simp only
    rw [if_neg (by rintro ⟨a, b⟩; exact hp a s0 (by rw [h1]; simp) b), if_neg hf, viewStates_ok zero _ wp (s0 :: l)]
    · simp only [writtenFiles, h1, List.length_cons]
      cases Spec.auxWritten sol wa <;> rfl
    · intro ha s hm
      rw [hw] at ha
      split at ha
      · simp at ha
      · rename_i hne
        rw [(h3 s hm).2.1]
        exact hne
    · rw [← h1]
      exact hp
  · rintro ⟨a, f, hm, hf'⟩
    rcases hc with hc | hc
    · rw [hc] at a; simp at a
    · rw [hc f hm] at hf'
      simp at hf'

theorem written_meta (zero : V) (sol : PSol V X) (pre : List Char) (frame : Nat) (wa : Bool) (fmt : PFormat) (wp : Bool) (h : PHead V X)
    (fs : PFS V X) : writtenFiles zero sol pre frame wa fmt wp h fs (metaName pre frame) =
      some (.pickles (some h) (sol.states.map fun s => ptcRec s.patch)) := by
  unfold writtenFiles
  cases wa
  · simp [Function.update_of_ne (meta_ne_data pre fmt frame frame)]
  · simp [Function.update_of_ne (meta_ne_data pre fmt frame frame), Function.update_of_ne (meta_ne_aux pre frame frame)]

theorem written_data (zero : V) (sol : PSol V X) (pre : List Char) (frame : Nat) (wa : Bool) (fmt : PFormat) (wp : Bool) (h : PHead V X)
    (fs : PFS V X) : writtenFiles zero sol pre frame wa fmt wp h fs (dataName pre fmt frame) = some (viewed fmt
      (sol.states.map (if wp then fieldVec zero PState.numP PState.p else fieldVec zero PState.numEqn PState.q))) := by
  unfold writtenFiles
  cases wa
  · simp
  · simp [Function.update_of_ne (aux_ne_data pre fmt frame frame).symm]

theorem written_aux (zero : V) (sol : PSol V X) (pre : List Char) (frame : Nat) (fmt : PFormat) (wp : Bool) (h : PHead V X)
    (fs : PFS V X) : writtenFiles zero sol pre frame true fmt wp h fs (auxName pre frame) =
      some (viewed fmt (sol.states.map (fieldVec zero PState.numAux PState.aux))) := by
  simp [writtenFiles]

theorem written_other (zero : V) (sol : PSol V X) (pre : List Char) (frame : Nat) (wa : Bool) (fmt : PFormat) (wp : Bool) (h : PHead V X)
    (fs : PFS V X) (f : List Char) (h1 : f ≠ metaName pre frame) (h2 : f ≠ dataName pre fmt frame) (h3 : wa = true → f ≠ auxName pre frame) :
    writtenFiles zero sol pre frame wa fmt wp h fs f = fs f := by
  unfold writtenFiles
  cases wa
  · simp [Function.update_of_ne h1, Function.update_of_ne h2]
  · simp [Function.update_of_ne h1, Function.update_of_ne h2, Function.update_of_ne (h3 rfl)]

/-- Reading a frame whose auxiliary file holds the vectors of the list, or does not exist. -/
theorem ptcRead_ok (zero : V) (sol : PSol V X) (hs : Spec.GoodPSol sol) (pre : List Char) (frame : Nat)
    (T : List (PState V X × List V × List V)) (hT : T.map (fun x => x.1) = sol.states) (h : PHead V X) (hn : h.nstates = sol.states.length)
    (fs : PFS V X) (hm : fs (metaName pre frame) = some (.pickles (some h) (sol.states.map fun s => ptcRec s.patch)))
    (hd : fs (dataName pre .binary frame) = some (.vectors (T.map fun x => x.2.1))) (ra : Bool) (lay : HPatch → CutGrid)
    (hdim : ∀ x ∈ T, x.1.patch.dims.length = h.numDim)
    (hv : ∀ x ∈ T, x.2.1.length = (h.numEqn :: x.1.patch.sizes).prod) (af : List Char)
    (haf : af = if (fs (auxName pre frame)).isSome then auxName pre frame else auxName pre 0)
    (ha : ra = true → (fs af = none ∨ fs af = some (.vectors (T.map fun x => x.2.2)) ∧ h.numAux ≠ 0 ∧
      ∀ x ∈ T, x.2.2.length = (h.numAux :: x.1.patch.sizes).prod)) (start : PSol V X) :
    ptcRead zero lay fs pre frame ra .binary start =
      (⟨start.states ++ T.map (readBack zero lay h (ra && (fs af).isSome)),
        some ((T.map (readBack zero lay h (ra && (fs af).isSome))).map PState.patch)⟩, .ok ()) := by
  have hlen : T.length = sol.states.length := by rw [← hT, List.length_map]
  have hrec : (sol.states.map fun s => ptcRec s.patch) = T.map fun x => ptcRec x.1.patch := by
    rw [← hT, List.map_map]
    rfl
  unfold ptcRead
  rw [hm, hd]
  simp only [← haf, reduceCtorEq, if_false]
  rw [hn, show vectorsIn PFormat.binary (.vectors (T.map fun x => x.2.1) : PFile V X) = some (T.map fun x => x.2.1) from rfl, hrec,
    ← hlen, ptcStates_ok zero lay h (ra && (fs af).isSome) T
      (fun x hx => hs.2 x.1 (by rw [← hT]; exact List.mem_map_of_mem hx)) hdim hv]
  · simp only
    rw [if_neg]
    obtain ⟨⟨s0, l, p0, ps, h1, _⟩, _⟩ := hs
    intro hc
    have : T = [] := by simpa using hc
    rw [this, h1] at hT
    simp at hT
  · intro hr
    rw [Bool.and_eq_true] at hr
    rcases ha hr.1 with h0 | h0
    · rw [h0] at hr; simp at hr
    · exact h0.2
  · intro hr
    rw [Bool.and_eq_true] at hr
    rcases ha hr.1 with h0 | h0
    · rw [h0] at hr; simp at hr
    · rw [h0.1]; rfl

theorem forall2_map_of {α β : Type} {R : α → β → Prop} (l : List α) (f : α → β) (h : ∀ s ∈ l, R s (f s)) : List.Forall₂ R l (l.map f) := by
  induction l with
  | nil => exact .nil
  | cons a l ih => exact .cons (h a (by simp)) (ih fun s hs => h s (by simp [hs]))

theorem good_reader_read (lay : HPatch → CutGrid) (hl : Spec.GoodReader lay) (zero : V) (h : PHead V X) (ra : Bool)
    (x : PState V X × List V × List V) (hs : Spec.GoodPState x.1) :
    Spec.GoodCut (readBack zero lay h ra x).layout (readBack zero lay h ra x).patch.sizes := by
  apply hl
  intro d hd
  obtain ⟨e, he, rfl⟩ := List.mem_map.mp hd
  exact (hs.2.2.1 e he).1

/-- The states with the vectors of `q` and of `aux`. -/
def ownVecs (zero : V) (wp : Bool) (s : PState V X) : PState V X × List V × List V :=
  (s, (if wp then fieldVec zero PState.numP PState.p else fieldVec zero PState.numEqn PState.q) s, fieldVec zero PState.numAux PState.aux s)

/-- What the first state and the domain say about all states. -/
theorem good_all {sol : PSol V X} (hs : Spec.GoodPSol sol) {s0 : PState V X} {l : List (PState V X)} {p0 : HPatch} {ps : List HPatch}
    (h1 : sol.states = s0 :: l) (h2 : sol.domain = some (p0 :: ps)) :
    ∀ s ∈ sol.states, s.numEqn = s0.numEqn ∧ s.numAux = s0.numAux ∧ s.patch.dims.length = p0.dims.length := by
  obtain ⟨⟨a, b, c, d, e1, e2, e3⟩, _⟩ := hs
  rw [h1] at e1
  rw [h2] at e2
  cases e1
  cases e2
  rw [h1]
  exact e3

theorem auxWritten_ne {sol : PSol V X} {s0 : PState V X} {l : List (PState V X)} (h1 : sol.states = s0 :: l) {wa : Bool}
    (hx : Spec.auxWritten sol wa = true) : s0.numAux ≠ 0 := by
  unfold Spec.auxWritten at hx
  rw [h1] at hx
  simp only at hx
  split at hx
  · simp at hx
  · assumption

/-- **C97.** A frame written in PETSc format, by processes that cut the grids in any way, is read back by processes that cut
them in any other way: every patch with its level, names, bounds and cells, the time, `problem_data` and `mapc2p` of the
solution, the numbers of fields, and every value of `q`; also every value of `aux` if it is written and read. The states
read follow those that the solution had. Without `write_aux`, or without auxiliary fields, no file for `aux` is touched. If `aux` is read but neither this frame nor frame 0 has a file for it, it is zero. -/
theorem C97_round_trip (zero : V) (sol : PSol V X) (hs : Spec.GoodPSol sol) (pre : List Char) (frame : Nat) (wa ra : Bool)
    (fs : PFS V X) (lay : HPatch → CutGrid) (hl : Spec.GoodReader lay) (start : PSol V X)
    (ha : ra = true → Spec.auxWritten sol wa = true ∨ fs (auxName pre frame) = none ∧ fs (auxName pre 0) = none) :
    ∃ fs' sol' l', ptcWrite zero sol pre frame wa .binary true false fs = (fs', .ok ()) ∧
      ptcRead zero lay fs' pre frame ra .binary start = (sol', .ok ()) ∧
      sol'.states = start.states ++ l' ∧ sol'.domain = some (l'.map PState.patch) ∧
      (∀ first, sol.states.head? = some first → List.Forall₂ (Spec.SamePState first) sol.states l') ∧
      (∀ s' ∈ l', Spec.GoodCut s'.layout s'.patch.sizes) ∧
      (Spec.auxWritten sol wa = true → ra = true → List.Forall₂ Spec.SamePAux sol.states l') ∧
      (Spec.auxWritten sol wa = false ∨ ra = false → ∀ s' ∈ l', s'.aux = fun _ _ => zero) ∧
      (Spec.auxWritten sol wa = false → ∀ k, fs' (auxName pre k) = fs (auxName pre k)) := by
  obtain ⟨h, s0, l, p0, ps, h1, h2, h3, h4⟩ := ptcWrite_ok zero sol hs pre frame wa .binary (by simp) true false (by simp) fs (.inl rfl)
  have hsame := good_all hs h1 h2
  set fs' := writtenFiles zero sol pre frame (Spec.auxWritten sol wa) .binary false h fs with hfs'
  set af := if (fs' (auxName pre frame)).isSome then auxName pre frame else auxName pre 0 with haf
  set T := sol.states.map (ownVecs zero false) with hTd
  have hnx : Spec.auxWritten sol wa = true → s0.numAux ≠ 0 := auxWritten_ne h1
  have haux : Spec.auxWritten sol wa = true → fs' af = some (.vectors (T.map fun x => x.2.2)) := by
    intro hx
    have : fs' (auxName pre frame) = some (.vectors (T.map fun x => x.2.2)) := by
      rw [hfs', hx, written_aux, hTd, List.map_map]
      rfl
    rw [haf, this]
    exact this
  have hnone : Spec.auxWritten sol wa = false → ra = true → fs' af = none := by
    intro hx hr
    rcases ha hr with h | ⟨e1, e2⟩
    · rw [hx] at h; simp at h
    · have ho : ∀ k, fs' (auxName pre k) = fs (auxName pre k) := fun k => written_other _ _ _ _ _ _ _ _ _ _
        (meta_ne_aux pre frame k).symm (aux_ne_data pre _ k frame) (fun h => by rw [hx] at h; simp at h)
      rw [haf]
      split
      · rw [ho, e1]
      · rw [ho, e2]
  have hread := ptcRead_ok zero sol hs pre frame T (by rw [hTd, List.map_map]; exact List.map_id'' (fun _ => rfl) _) h (by rw [h3]; rfl) fs'
    (written_meta _ _ _ _ _ _ _ _ _) (by rw [hTd, List.map_map]; exact written_data _ _ _ _ _ _ _ _ _) ra lay
    (by intro x hx0; obtain ⟨s, hm, rfl⟩ := List.mem_map.mp hx0; rw [h3]; exact (hsame s hm).2.2)
    (by
      intro x hx0
      obtain ⟨s, hm, rfl⟩ := List.mem_map.mp hx0
      have : (fieldVec zero PState.numEqn PState.q s).length = (s.numEqn :: s.patch.sizes).prod := toNatural_length _ _ _ _ _
      rw [(hsame s hm).1] at this
      rw [h3]
      exact this) af haf
    (by
      intro hr
      cases hx : Spec.auxWritten sol wa with
      | false => exact .inl (hnone hx hr)
      | true =>
        refine .inr ⟨haux hx, by rw [h3]; exact hnx hx, ?_⟩
        intro x hx0
        obtain ⟨s, hm, rfl⟩ := List.mem_map.mp hx0
        have : (fieldVec zero PState.numAux PState.aux s).length = (s.numAux :: s.patch.sizes).prod := toNatural_length _ _ _ _ _
        rw [(hsame s hm).2.1] at this
        rw [h3]
        exact this) start
  rw [hTd, List.map_map] at hread
  refine ⟨fs', _, _, h4, hread, rfl, rfl, ?_, ?_, ?_, ?_, fun hx k => written_other _ _ _ _ _ _ _ _ _ _
    (meta_ne_aux pre frame k).symm (aux_ne_data pre _ k frame) (fun h => by rw [hx] at h; simp at h)⟩
  · intro first hf
    rw [h1] at hf
    simp only [List.head?_cons, Option.some.injEq] at hf
    subst hf
    apply forall2_map_of
    intro s hm
    refine ⟨rfl, rfl, samePDims _, by rw [h3]; rfl, by rw [h3]; rfl, by rw [h3]; rfl, ?_, ?_, ?_⟩
    · rw [(hsame s hm).1, h3]; rfl
    · rw [(hsame s hm).2.1, h3]; rfl
    · have he : h.numEqn = s.numEqn := by rw [(hsame s hm).1, h3]; rfl
      simp only [Function.comp, readBack, he]
      exact load_view zero (hs.2 s hm).2.2.2.2 s.numEqn s.q
  · intro s' hm
    obtain ⟨s, hm', rfl⟩ := List.mem_map.mp hm
    exact good_reader_read lay hl zero h _ _ (hs.2 s hm')
  · intro hx hr
    apply forall2_map_of
    intro s hm
    have he : h.numAux = s.numAux := by rw [(hsame s hm).2.1, h3]; rfl
    unfold Spec.SamePAux
    simp only [Function.comp, readBack, hr, haux hx, Option.isSome_some, Bool.and_self, if_true, he]
    exact load_view zero (hs.2 s hm).2.2.2.2 s.numAux s.aux
  · intro hx s' hm
    obtain ⟨s, hm, rfl⟩ := List.mem_map.mp hm
    have : (ra && (fs' af).isSome) = false := by
      cases hr : ra with
      | false => rfl
      | true =>
        rcases hx with hx | hx
        · rw [hnone hx hr]; rfl
        · rw [hr] at hx; simp at hx
    simp only [Function.comp, readBack, this, Bool.false_eq_true, if_false]

/-- **C97.** The numbers in the header are those of the solution. -/
theorem C97_header (zero : V) (sol : PSol V X) (hs : Spec.GoodPSol sol) (pre : List Char) (frame : Nat) (wa : Bool) (fs : PFS V X) :
    ∃ fs', ptcWrite zero sol pre frame wa .binary true false fs = (fs', .ok ()) ∧
      ∀ s ∈ sol.states, sol.states.head? = some s →
        ptcReadT fs' pre frame = .ok (s.t, s.numEqn, sol.states.length, s.numAux, s.patch.dims.length) := by
  obtain ⟨h, s0, l, p0, ps, h1, h2, h3, h4⟩ := ptcWrite_ok zero sol hs pre frame wa .binary (by simp) true false (by simp) fs (.inl rfl)
  refine ⟨_, h4, ?_⟩
  intro s hm hf
  rw [h1] at hf
  simp only [List.head?_cons, Option.some.injEq] at hf
  subst hf
  unfold ptcReadT
  rw [written_meta]
  simp only
  rw [h3, (good_all hs h1 h2 s0 hm).2.2]
  rfl

theorem zip_maps {α β : Type} {S : α → β → Prop} {l0 : List α} {l : List β} (h : List.Forall₂ S l0 l) :
    (List.zip l0 l).map Prod.fst = l0 ∧ (List.zip l0 l).map Prod.snd = l ∧ ∀ x ∈ List.zip l0 l, S x.1 x.2 := by
  induction h with
  | nil => exact ⟨rfl, rfl, by simp⟩
  | cons h1 _ ih =>
    obtain ⟨a, b, c⟩ := ih
    refine ⟨by simp [a], by simp [b], ?_⟩
    intro x hx
    rw [List.zip_cons_cons, List.mem_cons] at hx
    rcases hx with rfl | hx
    · exact h1
    · exact c x hx

/-- A frame written without `aux`, while the file that is used for `aux` holds that of the solution `sol0`. -/
theorem read_foreign_aux (zero : V) (sol sol0 : PSol V X) (hs : Spec.GoodPSol sol) (hs0 : Spec.GoodPSol sol0)
    (hsame : List.Forall₂ (fun s0 s : PState V X => s.patch.sizes = s0.patch.sizes ∧ s.numAux = s0.numAux ∧ s0.numAux ≠ 0) sol0.states sol.states)
    (pre : List Char) (frame : Nat) (fs : PFS V X) (lay : HPatch → CutGrid) (start : PSol V X)
    (ha : fs (if (fs (auxName pre frame)).isSome then auxName pre frame else auxName pre 0) =
      some (.vectors (sol0.states.map (fieldVec zero PState.numAux PState.aux)))) :
    ∃ fs' sol' l', ptcWrite zero sol pre frame false .binary true false fs = (fs', .ok ()) ∧
      ptcRead zero lay fs' pre frame true .binary start = (sol', .ok ()) ∧ sol'.states = start.states ++ l' ∧
      List.Forall₂ (fun s0 s' => Spec.SameValues s0.layout s0.aux s'.layout s'.aux s0.numAux) sol0.states l' := by
  obtain ⟨h, s1, l, p0, ps, h1, h2, h3, h4⟩ :=
    ptcWrite_ok zero sol hs pre frame false .binary (by simp) true false (by simp) fs (.inl rfl)
  have hno : Spec.auxWritten sol false = false := by
    unfold Spec.auxWritten
    split
    · rfl
    · split <;> rfl
  rw [hno] at h3 h4
  set fs' := writtenFiles zero sol pre frame false .binary false h fs with hfs'
  have ho : ∀ k, fs' (auxName pre k) = fs (auxName pre k) := fun k => written_other _ _ _ _ _ _ _ _ _ _
    (meta_ne_aux pre frame k).symm (aux_ne_data pre _ k frame) (fun h => by simp at h)
  have hall := good_all hs h1 h2
  obtain ⟨z1, z2, z3⟩ := zip_maps hsame
  set T := (List.zip sol0.states sol.states).map fun x =>
    (x.2, fieldVec zero PState.numEqn PState.q x.2, fieldVec zero PState.numAux PState.aux x.1) with hTd
  set af := if (fs' (auxName pre frame)).isSome then auxName pre frame else auxName pre 0 with haf
  have haf' : fs' af = some (.vectors (T.map fun x => x.2.2)) := by
    rw [ho] at haf
    have : fs' af = fs af := by
      rw [haf]
      split <;> exact ho _
    rw [this, haf, ha, hTd, List.map_map]
    conv_lhs => rw [← z1]
    rw [List.map_map]
    rfl
  have hmem : ∀ x ∈ List.zip sol0.states sol.states, x.1 ∈ sol0.states ∧ x.2 ∈ sol.states := fun x hx =>
    ⟨by rw [← z1]; exact List.mem_map_of_mem hx, by rw [← z2]; exact List.mem_map_of_mem hx⟩
  have hread := ptcRead_ok zero sol hs pre frame T (by rw [hTd, List.map_map]; exact z2) h (by rw [h3]; rfl) fs'
    (written_meta _ _ _ _ _ _ _ _ _)
    (by
      rw [hTd, List.map_map]
      rw [hfs', written_data]
      conv_lhs => rw [← z2]
      rw [List.map_map]
      rfl) true lay
    (by intro y hx0; obtain ⟨x, hm, rfl⟩ := List.mem_map.mp hx0; rw [h3]; exact (hall _ (hmem x hm).2).2.2)
    (by
      intro y hx0
      obtain ⟨x, hm, rfl⟩ := List.mem_map.mp hx0
      have : (fieldVec zero PState.numEqn PState.q x.2).length = (x.2.numEqn :: x.2.patch.sizes).prod := toNatural_length _ _ _ _ _
      rw [(hall _ (hmem x hm).2).1] at this
      rw [h3]
      exact this) af haf
    (by
      intro _
      refine .inr ⟨haf', ?_, ?_⟩
      · have hne : List.zip sol0.states sol.states ≠ [] := by
          intro hc
          rw [hc] at z2
          rw [h1] at z2
          simp at z2
        obtain ⟨x, hx⟩ := List.exists_mem_of_ne_nil _ hne
        rw [h3]
        have := (z3 x hx).2
        rw [(hall _ (hmem x hx).2).2.1] at this
        exact fun hc => this.2 (this.1 ▸ hc)
      · intro y hx0
        obtain ⟨x, hm, rfl⟩ := List.mem_map.mp hx0
        have : (fieldVec zero PState.numAux PState.aux x.1).length = (x.1.numAux :: x.1.patch.sizes).prod := toNatural_length _ _ _ _ _
        rw [← (z3 x hm).1, ← (z3 x hm).2.1, (hall _ (hmem x hm).2).2.1] at this
        rw [h3]
        exact this) start
  rw [hTd, List.map_map] at hread
  refine ⟨fs', _, _, h4, hread, rfl, ?_⟩
  conv => 
    arg 2
    rw [← z1]
  rw [List.forall₂_map_left_iff, List.forall₂_map_right_iff, List.forall₂_same]
  intro x hm
  have he : h.numAux = x.1.numAux := by rw [← (z3 x hm).2.1, (hall _ (hmem x hm).2).2.1, h3]; rfl
  simp only [Function.comp, readBack, haf', Option.isSome_some, Bool.and_self, if_true, he, (z3 x hm).1]
  exact load_view zero (hs0.2 x.1 (hmem x hm).1).2.2.2.2 x.1.numAux x.1.aux

/-- **C97.** A frame written without `aux` shows the auxiliary values that were written with frame 0, if it has no file of
its own. -/
theorem C97_aux_initial (zero : V) (sol sol0 : PSol V X) (hs : Spec.GoodPSol sol) (hs0 : Spec.GoodPSol sol0)
    (hsame : List.Forall₂ (fun s0 s : PState V X => s.patch.sizes = s0.patch.sizes ∧ s.numAux = s0.numAux ∧ s0.numAux ≠ 0) sol0.states sol.states)
    (pre : List Char) (frame : Nat) (fs : PFS V X) (hf : frame ≠ 0) (hn : fs (auxName pre frame) = none) (lay : HPatch → CutGrid)
    (start : PSol V X) :
    ∃ fs0 fs' sol' l', ptcWrite zero sol0 pre 0 true .binary true false fs = (fs0, .ok ()) ∧
      ptcWrite zero sol pre frame false .binary true false fs0 = (fs', .ok ()) ∧
      ptcRead zero lay fs' pre frame true .binary start = (sol', .ok ()) ∧ sol'.states = start.states ++ l' ∧
      List.Forall₂ (fun s0 s' => Spec.SameValues s0.layout s0.aux s'.layout s'.aux s0.numAux) sol0.states l' := by
  obtain ⟨h, s1, l, p0, ps, h1, h2, h3, h4⟩ :=
    ptcWrite_ok zero sol0 hs0 pre 0 true .binary (by simp) true false (by simp) fs (.inl rfl)
  have hyes : Spec.auxWritten sol0 true = true := by
    have hsm := hsame
    rw [h1] at hsm
    unfold Spec.auxWritten
    rw [h1]
    generalize sol.states = ss at hsm
    cases hsm with
    | cons a _ => simp [a.2.2]
  rw [hyes] at h4
  obtain ⟨fs', sol', l', e1, e2, e3, e4⟩ := read_foreign_aux zero sol sol0 hs hs0 hsame pre frame
    (writtenFiles zero sol0 pre 0 true .binary false h fs) lay start (by
      rw [written_other _ _ _ _ _ _ _ _ _ _ (meta_ne_aux pre 0 frame).symm (aux_ne_data pre _ frame 0) (fun _ hc => hf (auxName_inj hc)), hn]
      simp only [Option.isSome_none, Bool.false_eq_true, if_false]
      rw [written_aux]
      rfl)
  exact ⟨_, fs', sol', l', h4, e1, e2, e3, e4⟩

/-- **C97, violated** for files of an earlier run: a frame written without `aux` over one with `aux` shows the old values. -/
theorem C97_stale_violated (zero : V) (sol old : PSol V X) (hs : Spec.GoodPSol sol) (hs0 : Spec.GoodPSol old)
    (hsame : List.Forall₂ (fun s0 s : PState V X => s.patch.sizes = s0.patch.sizes ∧ s.numAux = s0.numAux ∧ s0.numAux ≠ 0) old.states sol.states)
    (pre : List Char) (frame : Nat) (fs : PFS V X) (lay : HPatch → CutGrid) (start : PSol V X) :
    ∃ fs0 fs' sol' l', ptcWrite zero old pre frame true .binary true false fs = (fs0, .ok ()) ∧
      ptcWrite zero sol pre frame false .binary true false fs0 = (fs', .ok ()) ∧
      ptcRead zero lay fs' pre frame true .binary start = (sol', .ok ()) ∧ sol'.states = start.states ++ l' ∧
      List.Forall₂ (fun s0 s' => Spec.SameValues s0.layout s0.aux s'.layout s'.aux s0.numAux) old.states l' := by
  obtain ⟨h, s1, l, p0, ps, h1, h2, h3, h4⟩ :=
    ptcWrite_ok zero old hs0 pre frame true .binary (by simp) true false (by simp) fs (.inl rfl)
  have hyes : Spec.auxWritten old true = true := by
    have hsm := hsame
    rw [h1] at hsm
    unfold Spec.auxWritten
    rw [h1]
    generalize sol.states = ss at hsm
    cases hsm with
    | cons a _ => simp [a.2.2]
  rw [hyes] at h4
  obtain ⟨fs', sol', l', e1, e2, e3, e4⟩ := read_foreign_aux zero sol old hs hs0 hsame pre frame
    (writtenFiles zero old pre frame true .binary false h fs) lay start (by
      rw [written_aux]
      simp only [Option.isSome_some, if_true]
      rw [written_aux]
      rfl)
  exact ⟨_, fs', sol', l', h4, e1, e2, e3, e4⟩

/-- **C97.** With `write_p` the derived quantities are written in place of `q`: the frame is read back with as many equations
as there are derived quantities, and their values. -/
theorem C97_derived (zero : V) (sol : PSol V X) (hs : Spec.GoodPSol sol) (pre : List Char) (frame : Nat) (m : Nat)
    (hp : 0 < m ∧ ∀ s ∈ sol.states, s.numP = m) (fs : PFS V X) (lay : HPatch → CutGrid) (start : PSol V X) :
    ∃ fs' sol' l', ptcWrite zero sol pre frame false .binary true true fs = (fs', .ok ()) ∧
      ptcRead zero lay fs' pre frame false .binary start = (sol', .ok ()) ∧ sol'.states = start.states ++ l' ∧
      List.Forall₂ (fun s s' => s'.numEqn = m ∧ Spec.SameValues s.layout s.p s'.layout s'.q m) sol.states l' := by
  obtain ⟨h, s0, l, p0, ps, h1, h2, h3, h4⟩ := ptcWrite_ok zero sol hs pre frame false .binary (by simp) true true
    (fun _ s hm => by rw [hp.2 s hm]; omega) fs (.inl rfl)
  have hsame := good_all hs h1 h2
  have hm0 : h.numEqn = m := by
    rw [h3, ← hp.2 s0 (by rw [h1]; simp)]
    rfl
  set fs' := writtenFiles zero sol pre frame (Spec.auxWritten sol false) .binary true h fs with hfs'
  have hread := ptcRead_ok zero sol hs pre frame (sol.states.map (ownVecs zero true))
    (by rw [List.map_map]; exact List.map_id'' (fun _ => rfl) _) h (by rw [h3]; rfl) fs'
    (written_meta _ _ _ _ _ _ _ _ _) (by rw [List.map_map]; exact written_data _ _ _ _ _ _ _ _ _) false lay
    (by intro x hx0; obtain ⟨s, hm, rfl⟩ := List.mem_map.mp hx0; rw [h3]; exact (hsame s hm).2.2)
    (by
      intro x hx0
      obtain ⟨s, hm, rfl⟩ := List.mem_map.mp hx0
      have : (fieldVec zero PState.numP PState.p s).length = (s.numP :: s.patch.sizes).prod := toNatural_length _ _ _ _ _
      rw [hp.2 s hm] at this
      rw [hm0]
      exact this) _ rfl (by simp) start
  rw [List.map_map] at hread
  refine ⟨fs', _, _, h4, hread, rfl, ?_⟩
  apply forall2_map_of
  intro s hm
  refine ⟨hm0, ?_⟩
  simp only [Function.comp, readBack, hm0, ← hp.2 s hm]
  exact load_view zero (hs.2 s hm).2.2.2.2 s.numP s.p

/-- A call of `write`, also one that raises, changes no files but those of its frame. -/
theorem write_other (zero : V) (sol : PSol V X) (pre : List Char) (frame : Nat) (wa : Bool) (fmt : PFormat) (clobber wp : Bool)
    (fs : PFS V X) (f : List Char) (h1 : f ≠ metaName pre frame) (h2 : f ≠ dataName pre fmt frame) (h3 : f ≠ auxName pre frame) :
    (ptcWrite zero sol pre frame wa fmt clobber wp fs).1 f = fs f := by
  unfold ptcWrite
  split
  · rfl
  · dsimp only
    generalize (if _ = 0 then false else wa : Bool) = wx
    split
    · rfl
    · split
      · exact Function.update_of_ne h1 _ _
      · exact Function.update_of_ne h1 _ _
      · split
        · exact Function.update_of_ne h1 _ _
        · split
          · exact Function.update_of_ne h1 _ _
          · dsimp only
            split
            · rw [Function.update_of_ne h3, Function.update_of_ne h2, Function.update_of_ne h1]
            · rw [Function.update_of_ne h2, Function.update_of_ne h1]

/-- Without `read_aux` the auxiliary file is not looked at. -/
theorem ptcStates_noaux (zero : V) (lay : HPatch → CutGrid) (h : PHead V X) (n : Nat) (recs : List PRec)
    (qs as as' : Option (List (List V))) : ptcStates zero lay h false n recs qs as = ptcStates zero lay h false n recs qs as' := by
  induction n generalizing recs qs with
  | zero => rfl
  | succ n ih =>
    cases recs with
    | nil => rfl
    | cons r recs =>
      unfold ptcStates
      simp only [Bool.false_eq_true, if_false]
      split
      · rfl
      · split
        · rfl
        · split
          · rfl
          · rw [ih]

/-- **C97.** Writing a frame does not change what is read from another one, unless that one takes its auxiliary values from
frame 0 and frame 0 is written. -/
theorem C97_other_frames (zero : V) (sol : PSol V X) (pre : List Char) (frame other : Nat) (wa : Bool) (fmt : PFormat)
    (clobber wp : Bool) (fs : PFS V X) (lay : HPatch → CutGrid) (ra : Bool) (start : PSol V X) (hne : other ≠ frame)
    (h0 : frame ≠ 0 ∨ ra = false ∨ (fs (auxName pre other)).isSome) :
    ptcRead zero lay (ptcWrite zero sol pre frame wa fmt clobber wp fs).1 pre other ra fmt start =
      ptcRead zero lay fs pre other ra fmt start := by
  set fs' := (ptcWrite zero sol pre frame wa fmt clobber wp fs).1 with hfs
  have hm : fs' (metaName pre other) = fs (metaName pre other) := write_other _ _ _ _ _ _ _ _ _ _
    (fun h => hne (metaName_inj h)) (meta_ne_data _ _ _ _) (meta_ne_aux _ _ _)
  have hd : fs' (dataName pre fmt other) = fs (dataName pre fmt other) := write_other _ _ _ _ _ _ _ _ _ _
    (meta_ne_data _ _ _ _).symm (fun h => hne (dataName_inj h)) (aux_ne_data _ _ _ _).symm
  have ha : fs' (auxName pre other) = fs (auxName pre other) := write_other _ _ _ _ _ _ _ _ _ _
    (meta_ne_aux _ _ _).symm (aux_ne_data _ _ _ _) (fun h => hne (auxName_inj h))
  unfold ptcRead
  rw [hm, hd, ha]
  by_cases hx : (fs (auxName pre other)).isSome
  · simp only [hx, if_true, ha]
  · have hxf : (fs (auxName pre other)).isSome = false := by simpa using hx
    simp only [hxf, Bool.false_eq_true, if_false]
    rcases h0 with h0 | h0 | h0
    · have hz : fs' (auxName pre 0) = fs (auxName pre 0) := write_other _ _ _ _ _ _ _ _ _ _
        (meta_ne_aux _ _ _).symm (aux_ne_data _ _ _ _) (fun h => h0 (auxName_inj h).symm)
      simp only [hz]
    · simp only [h0, Bool.false_and]
      cases fs (metaName pre other) with
      | none => rfl
      | some pf =>
        cases pf with
        | vectors _ => rfl
        | text => rfl
        | pickles hd recs =>
          cases hd with
          | none => rfl
          | some h =>
            simp only
            split
            · rfl
            · cases fs (dataName pre fmt other) with
              | none => rfl
              | some qf => simp only [ptcStates_noaux zero lay h h.nstates recs (vectorsIn fmt qf) ((fs' (auxName pre 0)).bind (vectorsIn fmt))
                  ((fs (auxName pre 0)).bind (vectorsIn fmt))]
    · exact absurd h0 hx

/-- **C97, violated** for text: frames in the formats `ascii` and `vtk` are written, but cannot be read. -/
theorem C97_text_violated (zero : V) (sol : PSol V X) (hs : Spec.GoodPSol sol) (pre : List Char) (frame : Nat) (wa ra : Bool)
    (fmt : PFormat) (hf : fmt = .ascii ∨ fmt = .vtk) (fs : PFS V X) (lay : HPatch → CutGrid) (start : PSol V X) :
    ∃ fs', ptcWrite zero sol pre frame wa fmt true false fs = (fs', .ok ()) ∧
      ptcRead zero lay fs' pre frame ra fmt start = (start, .error petscErr) := by
  have hb : fmt ≠ .unknown ∧ fmt ≠ .binary := by rcases hf with rfl | rfl <;> simp
  obtain ⟨h, s0, l, p0, ps, h1, h2, h3, h4⟩ := ptcWrite_ok zero sol hs pre frame wa fmt hb.1 true false (by simp) fs (.inl rfl)
  refine ⟨_, h4, ?_⟩
  unfold ptcRead
  rw [written_meta, written_data]
  simp only
  rw [if_neg hb.1]
  have hv : ∀ vs : List (List V), vectorsIn fmt (viewed fmt vs : PFile V X) = none := by
    intro vs
    unfold viewed
    rw [if_neg hb.2]
    rfl
  rw [hv]
  have hn : h.nstates = l.length + 1 := by rw [h3, h1]; rfl
  obtain ⟨g1, g2, g3, g4, g5⟩ := hs.2 s0 (by rw [h1]; simp)
  have hr : ∀ ra' as, ptcStates zero lay h ra' h.nstates (sol.states.map fun s => ptcRec s.patch) none as = ([], .error petscErr) := by
    intro ra' as
    have hd : h.numDim = s0.patch.dims.length := by
      rw [(good_all hs h1 h2 s0 (by rw [h1]; simp)).2.2, h3]
      rfl
    rw [hn, h1, List.map_cons]
    unfold ptcStates
    rw [hd, ptcDims_patch s0.patch g3]
    simp only [checkDims_noUnits _ g1 g2]
    rfl
  rw [hr]
  simp

/-- **C97, violated** with the default names: `Solution.write` uses the prefix `claw`, `Solution.read` the prefix `fort`. -/
theorem C97_default_prefix_violated (zero : V) (sol : PSol V X) (frame : Nat) (wa ra wp clobber : Bool)
    (fs : PFS V X) (hfs : fs (metaName "fort".toList frame) = none) (lay : HPatch → CutGrid) (start : PSol V X) :
    ptcRead zero lay (ptcWrite zero sol "claw".toList frame wa .binary clobber wp fs).1 "fort".toList frame ra .binary start =
      (start, .error .ioError) := by
  have hm : (ptcWrite zero sol "claw".toList frame wa .binary clobber wp fs).1 (metaName "fort".toList frame) = none := by
    rw [write_other _ _ _ _ _ _ _ _ _ _ (by simp [metaName]) (by simp [metaName, dataName]) (by simp [metaName, auxName]), hfs]
  unfold ptcRead
  rw [hm]

/-- **C97.** `get_q_global` gives process 0 the array of the whole grid: each value is the one of the process that has the
cell, and every cell is on some process. -/
theorem C97_global (zero : V) (s : PState V X) (hs : Spec.GoodPState s) :
    ∃ G, s.qGlobal zero = .ok G ∧ (∀ c < s.numEqn, ∀ r i x, Spec.IsCell s.layout r i x → G (c :: x) = s.q r (c :: i)) ∧
      ∀ x, List.Forall₂ (fun (i : Nat) (d : HDim) => (i : Int) < d.numCells) x s.patch.dims → ∃ r i, Spec.IsCell s.layout r i x := by
  refine ⟨_, if_pos (toNatural_length _ _ _ _ _), ?_, ?_⟩
  · intro c hc r i x h
    exact toNatural_get zero hs.2.2.2.2 s.numEqn s.q c hc h
  · intro x hx
    exact owner_cell hs.2.2.2.2 (index_ok hx)

/-- **C97.** So does `get_aux_global`, if there are auxiliary fields. -/
theorem C97_global_aux (zero : V) (s : PState V X) (hs : Spec.GoodPState s) (ha : s.numAux ≠ 0) :
    ∃ G, s.auxGlobal zero = .ok G ∧ ∀ c < s.numAux, ∀ r i x, Spec.IsCell s.layout r i x → G (c :: x) = s.aux r (c :: i) := by
  unfold PState.auxGlobal
  rw [if_neg ha]
  refine ⟨_, if_pos (toNatural_length _ _ _ _ _), ?_⟩
  intro c hc r i x h
  exact toNatural_get zero hs.2.2.2.2 s.numAux s.aux c hc h

/-! ### Concrete cases -/

/-- A grid of 3 × 2 cells, cut into two parts along `x`; one equation, two auxiliary fields, two derived quantities. -/
def ptcState : PState Int Unit where
  patch := ⟨1, 1, [⟨"x".toList, 0, 3, 3, none⟩, ⟨"y".toList, -1, 1, 2, none⟩]⟩
  layout := [[0, 2, 3], [0, 2]]
  t := 5
  problemData := ()
  mapc2p := ()
  numEqn := 1
  numAux := 2
  numP := 2
  q := fun r idx => 100 * r + (idx.foldl (fun a i => 10 * a + i) 0 : Nat)
  aux := fun r idx => 200 * r + (idx.foldl (fun a i => 10 * a + i) 0 : Nat)
  p := fun r idx => 300 * r + (idx.foldl (fun a i => 10 * a + i) 0 : Nat)

/-- The solution with this state. -/
def ptcSol : PSol Int Unit := ⟨[ptcState], some [ptcState.patch]⟩

theorem ptcState_good : Spec.GoodPState ptcState := by
  refine ⟨by decide, by decide, ?_, by decide, ?_⟩
  · intro d hd
    simp only [ptcState, List.mem_cons, List.not_mem_nil, or_false] at hd
    rcases hd with rfl | rfl <;> exact ⟨by decide, by norm_num⟩
  · exact .cons ⟨rfl, rfl, by decide⟩ (.cons ⟨rfl, rfl, by decide⟩ .nil)

theorem ptcSol_good : Spec.GoodPSol ptcSol :=
  ⟨⟨ptcState, [], ptcState.patch, [], rfl, rfl, by simp⟩, by simpa [ptcSol] using ptcState_good⟩

/-- One process reads. -/
def oneReader (p : HPatch) : CutGrid := p.sizes.map fun n => [0, n]

theorem oneReader_good : Spec.GoodReader oneReader := by
  intro p hp
  unfold oneReader Spec.GoodCut HPatch.sizes
  rw [List.map_map, List.forall₂_map_left_iff, List.forall₂_map_right_iff, List.forall₂_same]
  intro d hd
  have := hp d hd
  refine ⟨rfl, rfl, ?_⟩
  simp
  omega

/-- Two processes write, one reads: values of `q` and `aux`. -/
example : ((ptcRead 0 oneReader (ptcWrite 0 ptcSol "claw".toList 4 true .binary true false (fun _ => none)).1 "claw".toList 4 true
    .binary ⟨[], none⟩).1.states.map fun s => (s.q 0 [0, 2, 1], s.aux 0 [1, 1, 0], s.numEqn)) =
    [(ptcState.q 1 [0, 0, 1], ptcState.aux 0 [1, 1, 0], 1)] := by decide +kernel

end PyClaw
