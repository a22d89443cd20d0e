import Verif.Model.GhostCopy
import Verif.Lemmas.Aliasing
import Mathlib.Data.Rat.Defs
import Mathlib.Tactic.NormNum

/-!
Properties C09 (q and ghosted q), C10 (deep copies), C11 (mp and mF), C12 (one solver, several
solutions).
-/
set_option linter.unusedSectionVars false

namespace PyClaw

variable {K : Type*}

open Spec

/-! ### C09 -/

theorem sourceIdx_shift (g : Nat) (hg : 0 < g) (ns is : List Nat) (h : List.Forall₂ (· < ·) is ns) :
    insideSlice g (List.zipWith (fun i N => i + sliceStart g N) is (ns.map (· + 2 * g)))
        (ns.map (· + 2 * g)) = true ∧
      sourceIdx g ns (ns.map (· + 2 * g))
        (List.zipWith (fun i N => i + sliceStart g N) is (ns.map (· + 2 * g))) = is := by
  induction h with
  | nil => exact ⟨rfl, rfl⟩
  | @cons i n is ns hi _ ih =>
    obtain ⟨ih1, ih2⟩ := ih
    have hg0 : g ≠ 0 := by omega
    have hs : sliceStart g (n + 2 * g) = g := by simp [sliceStart, hg0]; omega
    have hl : sliceLen g (n + 2 * g) = n := by simp [sliceLen, hg0]
    constructor
    · simp only [List.map_cons, List.zipWith_cons_cons, insideSlice, hs, hl, ih1, Bool.and_true,
        decide_eq_true_eq]
      omega
    · simp only [List.map_cons, List.zipWith_cons_cons, sourceIdx, hs, ih2]
      congr 1
      split <;> omega

/-- **C09**. Copying `q` into the ghosted array and extracting it again returns `q` unchanged. For
one, two and three dimensions, all extents, all ghost widths `g ≥ 1`, all contents of `q` and of the
work array `qbc` (of extents `n + 2g`): `get_qbc_from_q` succeeds; the resulting array has the extents
of `qbc`, its entry at a cell whose index is in `[g, g+n)` in every dimension is the entry of `q` at
the index minus `g`; every other entry (ghost cells) is the one `qbc` had; and `set_q_from_qbc` of the
result is `q`. -/
theorem C09_ghost_copy_roundtrip (d g m : Nat) (ns : List Nat) (q qbc : Arr K)
    (hd : 1 ≤ d ∧ d ≤ 3) (hg : 1 ≤ g) (hq : q.shape = m :: ns) (hns : ns.length = d)
    (hqbc : qbc.shape = m :: ns.map (· + 2 * g)) :
    ∃ r, getQbcFromQ d g q qbc = .ok r ∧ r.shape = qbc.shape ∧
      (∀ c is, c < m → List.Forall₂ (· < ·) is ns → r.val (c :: is.map (· + g)) = q.val (c :: is)) ∧
      (∀ c is, List.Forall₂ (· < ·) is (ns.map (· + 2 * g)) →
        (¬ ∀ i (h : i < is.length) (h' : i < ns.length), g ≤ is[i] ∧ is[i] < g + ns[i]) →
        r.val (c :: is) = qbc.val (c :: is)) ∧
      ∃ q', setQFromQbc d g r = .ok q' ∧ q'.Same q := by
  have hg0 : g ≠ 0 := by omega
  have hdim : d = 1 ∨ d = 2 ∨ d = 3 := by omega
  have hfit : (List.zipWith (fun n N => axisFits n (sliceLen g N)) ns (ns.map (· + 2 * g))).all id
      = true := by
    rw [List.all_eq_true]
    intro b hb
    rw [List.zipWith_map_right] at hb
    simp only [List.zipWith_self, List.mem_map] at hb
    obtain ⟨n, _, rfl⟩ := hb
    simp [axisFits, sliceLen, hg0]
  have hset : ∀ a : Arr K, a.shape = m :: ns.map (· + 2 * g) →
      (interiorView g a).shape = m :: ns := by
    intro a ha
    simp only [interiorView, ha, List.map_map]
    congr 1
    conv_rhs => rw [← List.map_id ns]
    apply List.map_congr_left
    intro n _
    simp [sliceLen, hg0]
  have key : ∀ c is, c < m → List.Forall₂ (· < ·) is ns →
      (if m = 1 then 0 else c) = c := by
    intro c is hc _; split <;> omega
  have hshift : ∀ is, List.Forall₂ (· < ·) is ns →
      List.zipWith (fun i N => i + sliceStart g N) is (ns.map (· + 2 * g)) = is.map (· + g) := by
    intro is h
    clear key hset hfit hqbc hns hq
    induction h with
    | nil => rfl
    | @cons i n is ns hi _ ih =>
      have hs : sliceStart g (n + 2 * g) = g := by simp [sliceStart, hg0]; omega
      simp [hs, ih]
  refine ⟨assignedArr g q qbc m ns (ns.map (· + 2 * g)), ?_, rfl, ?_, ?_, ?_⟩
  · rw [getQbcFromQ, if_pos hdim, assignInterior, hq, hqbc]
    have h1 : axisFits m m = true := by simp [axisFits]
    simp only [List.length_cons, List.length_map, h1, true_and]
    rw [if_pos hfit]
  · intro c is hc his
    obtain ⟨h1, h2⟩ := sourceIdx_shift g (by omega) ns is his
    rw [hshift is his] at h1 h2
    simp only [assignedArr, h1, if_true, h2, key c is hc his]
  · intro c is his hout
    have : insideSlice g is (ns.map (· + 2 * g)) = false := by
      rw [Bool.eq_false_iff]
      intro hin
      apply hout
      clear hout hfit key hshift hset hq hqbc hns
      induction ns generalizing is with
      | nil =>
        intro i h h'
        simp at h'
      | cons n ns ih =>
        cases his with
        | @cons i _ is _ hi his =>
          simp only [List.map_cons, insideSlice, Bool.and_eq_true, decide_eq_true_eq] at hin
          have hs : sliceStart g (n + 2 * g) = g := by simp [sliceStart, hg0]; omega
          have hl : sliceLen g (n + 2 * g) = n := by simp [sliceLen, hg0]
          rw [hs, hl] at hin
          intro k hk hk'
          cases k with
          | zero => exact hin.1
          | succ k => exact ih is his hin.2 k (by simpa using hk) (by simpa using hk')
    simp only [assignedArr, this, Bool.false_eq_true, if_false]
  · refine ⟨_, by rw [setQFromQbc, if_pos hdim], ?_⟩
    have hsh := hset (assignedArr g q qbc m ns (ns.map (· + 2 * g))) hqbc
    refine ⟨by rw [hsh, hq], ?_⟩
    intro idx hidx
    simp only [Arr.Inside, hsh] at hidx
    cases hidx with
    | @cons c _ is _ hc his =>
      obtain ⟨h1, h2⟩ := sourceIdx_shift g (by omega) ns is his
      have hsh' : (assignedArr g q qbc m ns (ns.map (· + 2 * g))).shape = qbc.shape := rfl
      simp only [interiorView, hsh', hqbc, shiftIdx]
      simp only [assignedArr, h1, if_true, h2, key c is hc his]

/-- Non-vacuity: a 2-component, 3-cell array with two ghost cells on each side. -/
example : ∃ (q qbc : Arr ℚ), q.shape = 2 :: [3] ∧ qbc.shape = 2 :: [3].map (· + 2 * 2) ∧
    q.val [1, 2] ≠ qbc.val [1, 4] :=
  ⟨{ shape := [2, 3], val := fun _ => 1 }, { shape := [2, 7], val := fun _ => 0 }, rfl, rfl, by norm_num⟩

/-- **C09**, the excluded case: with no ghost cells the slice `0:-0` is empty, and copying a `q` of
three cells raises. -/
theorem C09_no_ghost_cells_raises :
    ∃ (q qbc : Arr ℚ), q.shape = [1, 3] ∧ qbc.shape = [1, 3] ∧
      getQbcFromQ 1 0 q qbc = .error .valueError := by
  refine ⟨{ shape := [1, 3], val := fun _ => 1 }, { shape := [1, 3], val := fun _ => 0 }, rfl, rfl, ?_⟩
  simp [getQbcFromQ, assignInterior, axisFits, sliceLen]

/-- **C09**, the excluded case again: with no ghost cells, a `q` of one cell is broadcast to the empty slice. Nothing is raised, and
nothing is copied. -/
theorem C09_no_ghost_cells_lost (m : Nat) (q qbc : Arr K) (hq : q.shape = [m, 1]) (hb : qbc.shape = [m, 1]) :
    ∃ r, getQbcFromQ 1 0 q qbc = .ok r ∧ r.shape = qbc.shape ∧ ∀ c i, r.val [c, i] = qbc.val [c, i] := by
  refine ⟨assignedArr 0 q qbc m [1] [1], ?_, rfl, fun c i => ?_⟩
  · rw [getQbcFromQ, if_pos (Or.inl rfl), assignInterior, hq, hb]
    simp [axisFits]
  · simp [assignedArr, insideSlice, sliceLen]

/-! ### C10 -/

/-- Later in-place changes: array elements assigned through a reference, a dictionary entry assigned,
or new arrays allocated. -/
inductive Later (K : Type*) where
  | write (r : Ref) (vs : List K)
  | dictSet (a : Nat) (key : String) (v : K)
  | alloc (vs : List K)

def Later.apply (junk : K) (h : Heap K) : Later K → Heap K
  | .write r vs => h.write r vs
  | .dictSet a key v => h.dictSet a key v
  | .alloc vs => (h.alloc vs junk).1

/-- The operation goes through one of the given arrays or dictionaries (or is an allocation). -/
def Later.through (addrs : Nat → Prop) : Later K → Prop
  | .write r _ => addrs r.addr
  | .dictSet a _ _ => addrs a
  | .alloc _ => True

theorem later_frame (junk : K) (ops : List (Later K)) (addrs : Nat → Prop)
    (ho : ∀ op ∈ ops, op.through addrs) (h : Heap K) (r : Ref) (hr : ¬ addrs r.addr)
    (hn : r.addr < h.next) :
    (ops.foldl (Later.apply junk) h).read r = h.read r := by
  induction ops generalizing h with
  | nil => rfl
  | cons op ops ih =>
    rw [List.foldl_cons]
    have h0 := ho op (by simp)
    have ho' : ∀ op ∈ ops, op.through addrs := fun o ho'' => ho o (by simp [ho''])
    cases op with
    | write r' vs =>
      rw [ih ho' _ (by exact hn)]
      exact Heap.write_frame _ _ _ _ (by rintro e; rw [e] at hr; exact hr h0)
    | dictSet a key v => rw [ih ho' _ (by exact hn)]; rfl
    | alloc vs =>
      rw [ih ho' _ (Nat.lt_succ_of_lt hn)]
      exact Heap.alloc_frame _ _ _ _ hn

theorem later_frame_dict (junk : K) (ops : List (Later K)) (addrs : Nat → Prop)
    (ho : ∀ op ∈ ops, op.through addrs) (h : Heap K) (a : Nat) (hr : ¬ addrs a) :
    (ops.foldl (Later.apply junk) h).dict a = h.dict a := by
  induction ops generalizing h with
  | nil => rfl
  | cons op ops ih =>
    rw [List.foldl_cons]
    have h0 := ho op (by simp)
    have ho' : ∀ op ∈ ops, op.through addrs := fun o ho'' => ho o (by simp [ho''])
    cases op with
    | write r' vs => rw [ih ho']; rfl
    | dictSet a' key v =>
      rw [ih ho']
      have : a ≠ a' := by rintro rfl; exact hr h0
      simp [Later.apply, Heap.dictSet, Function.update_of_ne this]
    | alloc vs => rw [ih ho']; rfl

/-- The arrays and the dictionary of a state live at these addresses. -/
def State.at {P : Type*} (s : State P K) (a : Nat) : Prop :=
  (∃ r, s.q = some r ∧ r.addr = a) ∨ (∃ r, s.aux = some r ∧ r.addr = a) ∨ s.problemData = a

/-- All objects reachable from the state have been allocated. -/
def State.Allocated {P : Type*} (s : State P K) (h : Heap K) : Prop := ∀ a, s.at a → a < h.next

/-- **C10** (part). A deep copy of a state with `q` set has the same `q`, `aux`, `t`, `problem_data`
and patch; it shares no array and no dictionary with anything that existed before; and no later
sequence of in-place writes to objects that existed before is visible through the copy, nor the other
way round.

Missing for "the copy equals the original": `index_capa`, `p`, `F`, `keep_gauges`, `gauge_data` are
not copied, see the next theorem. -/
theorem C10_deepcopy_independent_partial {P : Type*} (junk : K) (s : State P K) (h : Heap K)
    (hs : s.Allocated h) (hq : s.q ≠ none) :
    ∃ c h', s.deepcopy junk h = (h', .ok c) ∧
      c.patch = s.patch ∧ c.cells = s.cells ∧ c.t = s.t ∧
      c.q.map h'.read = s.q.map h.read ∧ c.aux.map h'.read = s.aux.map h.read ∧
      h'.dict c.problemData = h.dict s.problemData ∧
      (∀ a, c.at a → h.next ≤ a) ∧
      (∀ ops : List (Later K), (∀ op ∈ ops, op.through (· < h.next)) →
        let h'' := ops.foldl (Later.apply junk) h'
        c.q.map h''.read = c.q.map h'.read ∧ c.aux.map h''.read = c.aux.map h'.read ∧
          h''.dict c.problemData = h'.dict c.problemData) ∧
      (∀ ops : List (Later K), (∀ op ∈ ops, op.through c.at) →
        let h'' := ops.foldl (Later.apply junk) h'
        (∀ r : Ref, r.addr < h.next → h''.read r = h.read r) ∧
          ∀ a, a < h.next → h''.dict a = h.dict a) := by
  obtain ⟨rq, hrq⟩ := Option.ne_none_iff_exists'.1 hq
  have hdict : s.problemData < h.next := hs _ (.inr (.inr rfl))
  -- the optional array, copied
  have hcopy : ∀ (g : Heap K) (o : Option Ref), (∀ r, o = some r → r.addr < g.next) →
      (State.copyArr junk g o).2.map (State.copyArr junk g o).1.read = o.map g.read ∧
      (∀ r, (State.copyArr junk g o).2 = some r →
        g.next ≤ r.addr ∧ r.addr < (State.copyArr junk g o).1.next) ∧
      g.next ≤ (State.copyArr junk g o).1.next ∧
      (State.copyArr junk g o).1.dict = g.dict ∧
      (∀ r : Ref, r.addr < g.next → (State.copyArr junk g o).1.read r = g.read r) := by
    intro g o ho
    cases o with
    | none => exact ⟨rfl, by simp [State.copyArr], le_rfl, rfl, fun _ _ => rfl⟩
    | some r =>
      refine ⟨?_, ?_, ?_, rfl, fun r' hr' => Heap.alloc_frame _ _ _ _ hr'⟩
      · simp only [State.copyArr, Option.map_some]
        rw [Heap.alloc_read]
      · intro r' hr'
        simp only [State.copyArr, Option.some.injEq] at hr'
        subst hr'
        simp [Heap.alloc, State.copyArr]
      · simp [Heap.alloc, State.copyArr]
  obtain ⟨q1, q2, q3, q4, q5⟩ := hcopy h s.q (fun r hr => hs _ (.inl ⟨r, hr, rfl⟩))
  rcases e1 : State.copyArr junk h s.q with ⟨h1, cq⟩
  rw [e1] at q1 q2 q3 q4 q5
  simp only at q1 q2 q3 q4 q5
  obtain ⟨a1, a2, a3, a4, a5⟩ := hcopy h1 s.aux
    (fun r hr => lt_of_lt_of_le (hs _ (.inr (.inl ⟨r, hr, rfl⟩))) q3)
  rcases e2 : State.copyArr junk h1 s.aux with ⟨h2, ca⟩
  rw [e2] at a1 a2 a3 a4 a5
  simp only at a1 a2 a3 a4 a5
  let h3 := (h2.allocDict (h2.dict s.problemData)).1
  let c : State P K :=
    { patch := s.patch, cells := s.cells, t := s.t, q := cq, aux := ca, problemData := h2.next }
  have hread3 : ∀ r : Ref, h3.read r = h2.read r := fun r => rfl
  have hcat : ∀ a, c.at a → h.next ≤ a ∧ a < h3.next := by
    rintro a (⟨r, hr, rfl⟩ | ⟨r, hr, rfl⟩ | rfl)
    · have := q2 r hr
      refine ⟨this.1, ?_⟩
      show r.addr < h2.next + 1
      omega
    · have := a2 r hr
      refine ⟨le_trans q3 this.1, ?_⟩
      show r.addr < h2.next + 1
      omega
    · exact ⟨le_trans q3 a3, Nat.lt_succ_self _⟩
  have hcq : cq.map h2.read = s.q.map h.read := by
    rw [← q1]
    cases cq with
    | none => rfl
    | some r => simp only [Option.map_some]; rw [a5 r (q2 r rfl).2]
  have hca : ca.map h2.read = s.aux.map h.read := by
    rw [a1]
    cases hx : s.aux with
    | none => rfl
    | some r =>
      simp only [Option.map_some]; rw [q5 r (hs _ (.inr (.inl ⟨r, hx, rfl⟩)))]
  refine ⟨c, h3, ?_, rfl, rfl, rfl, hcq, hca, ?_, fun a ha => (hcat a ha).1, ?_, ?_⟩
  · simp only [State.deepcopy, hrq]
    rw [hrq] at e1
    simp only [e1, e2]
    rfl
  · show h3.dict h2.next = _
    simp only [h3, Heap.allocDict, Function.update_self]
    rw [a4, q4]
  · intro ops ho h''
    refine ⟨?_, ?_, ?_⟩
    · cases hcq' : c.q with
      | none => rfl
      | some r =>
        have := hcat r.addr (.inl ⟨r, hcq', rfl⟩)
        simp only [Option.map_some]
        exact congrArg _ (later_frame junk ops _ ho h3 r (by omega) this.2)
    · cases hcq' : c.aux with
      | none => rfl
      | some r =>
        have := hcat r.addr (.inr (.inl ⟨r, hcq', rfl⟩))
        simp only [Option.map_some]
        exact congrArg _ (later_frame junk ops _ ho h3 r (by omega) this.2)
    · have := hcat c.problemData (.inr (.inr rfl))
      exact later_frame_dict junk ops _ ho h3 _ (by omega)
  · intro ops ho h''
    refine ⟨?_, ?_⟩
    · intro r hr
      have hlt : r.addr < h3.next := by
        show r.addr < h2.next + 1
        omega
      have hnc : ¬ c.at r.addr := fun hc => by have := (hcat _ hc).1; omega
      rw [later_frame junk ops _ ho h3 r hnc hlt, hread3, a5 r (by omega), q5 r hr]
    · intro a ha
      have hnc : ¬ c.at a := fun hc => by have := (hcat _ hc).1; omega
      rw [later_frame_dict junk ops _ ho h3 a hnc]
      have : a ≠ h2.next := by omega
      simp only [h3, Heap.allocDict, Function.update_of_ne this]
      rw [a4, q4]

/-- Non-vacuity: a state whose `q` is a *view* into the middle of a larger buffer, and which has an
`aux` array and a dictionary. -/
def exState : State Unit ℚ :=
  { patch := (), cells := 3, t := 1, q := some { addr := 0, idx := [2, 3, 4] },
    aux := some { addr := 1, idx := [0, 1, 2] }, problemData := 2, indexCapa := 0 }

def exHeap : Heap ℚ := { mem := fun a i => 10 * a + i, dict := fun _ _ => some 5, next := 3 }

example : exState.Allocated exHeap ∧ exState.q ≠ none := by
  refine ⟨?_, by simp [exState]⟩
  rintro a (⟨r, hr, rfl⟩ | ⟨r, hr, rfl⟩ | rfl)
  · simp only [exState, Option.some.injEq] at hr; subst hr; simp [exHeap]
  · simp only [exState, Option.some.injEq] at hr; subst hr; simp [exHeap]
  · simp [exState, exHeap]

/-- **C10** fails as "the copy equals the original": the copy of any state with a capacity function
(`index_capa ≠ -1`) has lost it. -/
theorem C10_index_capa_lost_violated {P : Type*} (junk : K) (s : State P K) (h : Heap K)
    (hq : s.q ≠ none) (hc : s.indexCapa ≠ -1) :
    ∃ c h', s.deepcopy junk h = (h', .ok c) ∧ c.indexCapa ≠ s.indexCapa := by
  obtain ⟨rq, hrq⟩ := Option.ne_none_iff_exists'.1 hq
  simp only [State.deepcopy, hrq]
  exact ⟨_, _, rfl, fun h => hc h.symm⟩

/-! ### C11 -/

/-- A sequence of assignments to `state.mp` (resp. `mF`), exceptions caught. -/
def State.runMp {P : Type*} (junk : K) (sh : State P K × Heap K) (ns : List Int) : State P K × Heap K :=
  ns.foldl (fun sh n => (sh.1.setMp junk n sh.2).1) sh

def State.runMF {P : Type*} (junk : K) (sh : State P K × Heap K) (ns : List Int) : State P K × Heap K :=
  ns.foldl (fun sh n => (sh.1.setMF junk n sh.2).1) sh

theorem State.runMp_some {P : Type*} (junk : K) (s : State P K) (h : Heap K) (ns : List Int) (r : Ref)
    (hp : s.p = some r) : State.runMp junk (s, h) ns = (s, h) := by
  induction ns with
  | nil => rfl
  | cons n ns ih =>
    unfold State.runMp at *
    rw [List.foldl_cons]
    simp only [State.setMp, hp]
    exact ih

theorem State.runMF_some {P : Type*} (junk : K) (s : State P K) (h : Heap K) (ns : List Int) (r : Ref)
    (hp : s.F = some r) : State.runMF junk (s, h) ns = (s, h) := by
  induction ns with
  | nil => rfl
  | cons n ns ih =>
    unfold State.runMF at *
    rw [List.foldl_cons]
    simp only [State.setMF, hp]
    exact ih

theorem State.runMp_spec {P : Type*} (junk : K) (s : State P K) (h : Heap K) (hp : s.p = none)
    (ns : List Int) :
    match ns.find? (fun n => decide (0 < n)) with
    | none => State.runMp junk (s, h) ns = (s, h)
    | some k => ∃ r h', State.runMp junk (s, h) ns = ({ s with p := some r }, h') ∧
        r.idx.length = k.toNat * s.cells := by
  induction ns with
  | nil => rfl
  | cons n ns ih =>
    by_cases hn : 0 < n
    · rw [List.find?_cons_of_pos (by simpa using hn)]
      have h1 : ¬ n = 0 := by omega
      have h2 : ¬ n < 0 := by omega
      have hstep : s.setMp junk n h = (({ s with p := some (h.alloc (List.replicate (n.toNat * s.cells) junk) junk).2 },
          (h.alloc (List.replicate (n.toNat * s.cells) junk) junk).1), .ok ()) := by
        simp [State.setMp, hp, State.newArray, h1, h2]
      refine ⟨(h.alloc (List.replicate (n.toNat * s.cells) junk) junk).2,
        (h.alloc (List.replicate (n.toNat * s.cells) junk) junk).1, ?_, ?_⟩
      · have : State.runMp junk (s, h) (n :: ns) = State.runMp junk ({ s with p := some (h.alloc (List.replicate (n.toNat * s.cells) junk) junk).2 },
          (h.alloc (List.replicate (n.toNat * s.cells) junk) junk).1) ns := by
          unfold State.runMp
          rw [List.foldl_cons, hstep]
        rw [this]
        exact State.runMp_some junk _ _ ns _ rfl
      · simp [Heap.alloc]
    · rw [List.find?_cons_of_neg (by simpa using hn)]
      have hstep : (s.setMp junk n h).1 = (s, h) := by
        simp only [State.setMp, hp, State.newArray]
        by_cases h1 : n = 0
        · simp [h1]
          rw [← hp]
        · have h2 : n < 0 := by omega
          simp [h1, h2]
      have : State.runMp junk (s, h) (n :: ns) = State.runMp junk (s, h) ns := by
        unfold State.runMp
        rw [List.foldl_cons, hstep]
      rw [this]
      exact ih

theorem State.runMF_spec {P : Type*} (junk : K) (s : State P K) (h : Heap K) (hp : s.F = none)
    (ns : List Int) :
    match ns.find? (fun n => decide (0 < n)) with
    | none => State.runMF junk (s, h) ns = (s, h)
    | some k => ∃ r h', State.runMF junk (s, h) ns = ({ s with F := some r }, h') ∧
        r.idx.length = k.toNat * s.cells := by
  induction ns with
  | nil => rfl
  | cons n ns ih =>
    by_cases hn : 0 < n
    · rw [List.find?_cons_of_pos (by simpa using hn)]
      have h1 : ¬ n = 0 := by omega
      have h2 : ¬ n < 0 := by omega
      have hstep : s.setMF junk n h = (({ s with F := some (h.alloc (List.replicate (n.toNat * s.cells) junk) junk).2 },
          (h.alloc (List.replicate (n.toNat * s.cells) junk) junk).1), .ok ()) := by
        simp [State.setMF, hp, State.newArray, h1, h2]
      refine ⟨(h.alloc (List.replicate (n.toNat * s.cells) junk) junk).2,
        (h.alloc (List.replicate (n.toNat * s.cells) junk) junk).1, ?_, ?_⟩
      · have : State.runMF junk (s, h) (n :: ns) = State.runMF junk ({ s with F := some (h.alloc (List.replicate (n.toNat * s.cells) junk) junk).2 },
          (h.alloc (List.replicate (n.toNat * s.cells) junk) junk).1) ns := by
          unfold State.runMF
          rw [List.foldl_cons, hstep]
        rw [this]
        exact State.runMF_some junk _ _ ns _ rfl
      · simp [Heap.alloc]
    · rw [List.find?_cons_of_neg (by simpa using hn)]
      have hstep : (s.setMF junk n h).1 = (s, h) := by
        simp only [State.setMF, hp, State.newArray]
        by_cases h1 : n = 0
        · simp [h1]
          rw [← hp]
        · have h2 : n < 0 := by omega
          simp [h1, h2]
      have : State.runMF junk (s, h) (n :: ns) = State.runMF junk (s, h) ns := by
        unfold State.runMF
        rw [List.foldl_cons, hstep]
      rw [this]
      exact ih

/-- **C11**. `state.mp` is fixed by the first positive assignment. For a state without derived
quantities (on a nonempty patch) and every sequence of assignments: afterwards `mp` is the first
positive value assigned (0 if there was none); the next assignment, if a positive value had been
assigned, raises and leaves state and memory unchanged; if none had been, assigning a positive value
succeeds and sets `mp` to it, assigning 0 succeeds without effect, and a negative value raises without
effect. -/
theorem C11_mp_set_once {P : Type*} (junk : K) (s : State P K) (h : Heap K) (hp : s.p = none)
    (hc : 0 < s.cells) (ns : List Int) (n : Int) :
    let sh := State.runMp junk (s, h) ns
    let r := sh.1.setMp junk n sh.2
    sh.1.mp = ((ns.find? fun n => decide (0 < n)).getD 0).toNat ∧
    ((∃ k ∈ ns, 0 < k) → r.1 = sh ∧ ∃ e, r.2 = .error e) ∧
    ((∀ k ∈ ns, ¬ 0 < k) →
      (0 < n → r.2 = .ok () ∧ r.1.1.mp = n.toNat) ∧
      (n = 0 → r.2 = .ok () ∧ r.1 = sh) ∧
      (n < 0 → (∃ e, r.2 = .error e) ∧ r.1 = sh)) := by
  intro sh r
  have hs := State.runMp_spec junk s h hp ns
  cases hf : ns.find? (fun n => decide (0 < n)) with
  | none =>
    rw [hf] at hs
    simp only at hs
    have hsh : sh = (s, h) := hs
    have hno : ∀ k ∈ ns, ¬ 0 < k := by
      intro k hk
      have := List.find?_eq_none.1 hf k hk
      simpa using this
    refine ⟨by rw [hsh]; simp [State.mp, hp, State.extentOf], ?_, ?_⟩
    · rintro ⟨k, hk, hk'⟩; exact absurd hk' (hno k hk)
    · intro _
      simp only [r]
      rw [hsh]
      refine ⟨?_, ?_, ?_⟩
      · intro hn
        have h1 : ¬ n = 0 := by omega
        have h2 : ¬ n < 0 := by omega
        simp [State.setMp, hp, State.newArray, h1, h2, State.mp, State.extentOf, Heap.alloc,
          Nat.mul_div_cancel _ hc]
      · rintro rfl
        simp only [State.setMp, hp, State.newArray, if_true, true_and]
        rw [← hp]
      · intro hn
        have h1 : ¬ n = 0 := by omega
        refine ⟨⟨.valueError, ?_⟩, ?_⟩ <;> simp [State.setMp, hp, State.newArray, h1, hn]
  | some k =>
    rw [hf] at hs
    simp only at hs
    obtain ⟨ref, h', e, hl⟩ := hs
    have hsh : sh = ({ s with p := some ref }, h') := e
    have hk : k ∈ ns := List.mem_of_find?_eq_some hf
    have hk' : 0 < k := by simpa using List.find?_some hf
    refine ⟨?_, ?_, ?_⟩
    · rw [hsh]; simp [State.mp, State.extentOf, hl, Nat.mul_div_cancel _ hc]
    · intro _
      simp only [r]
      rw [hsh]
      exact ⟨rfl, _, rfl⟩
    · intro hno; exact absurd hk' (hno k hk)

/-- **C11** for `state.mF`. -/
theorem C11_mF_set_once {P : Type*} (junk : K) (s : State P K) (h : Heap K) (hp : s.F = none)
    (hc : 0 < s.cells) (ns : List Int) (n : Int) :
    let sh := State.runMF junk (s, h) ns
    let r := sh.1.setMF junk n sh.2
    sh.1.mF = ((ns.find? fun n => decide (0 < n)).getD 0).toNat ∧
    ((∃ k ∈ ns, 0 < k) → r.1 = sh ∧ ∃ e, r.2 = .error e) ∧
    ((∀ k ∈ ns, ¬ 0 < k) →
      (0 < n → r.2 = .ok () ∧ r.1.1.mF = n.toNat) ∧
      (n = 0 → r.2 = .ok () ∧ r.1 = sh) ∧
      (n < 0 → (∃ e, r.2 = .error e) ∧ r.1 = sh)) := by
  intro sh r
  have hs := State.runMF_spec junk s h hp ns
  cases hf : ns.find? (fun n => decide (0 < n)) with
  | none =>
    rw [hf] at hs
    simp only at hs
    have hsh : sh = (s, h) := hs
    have hno : ∀ k ∈ ns, ¬ 0 < k := by
      intro k hk
      have := List.find?_eq_none.1 hf k hk
      simpa using this
    refine ⟨by rw [hsh]; simp [State.mF, hp, State.extentOf], ?_, ?_⟩
    · rintro ⟨k, hk, hk'⟩; exact absurd hk' (hno k hk)
    · intro _
      simp only [r]
      rw [hsh]
      refine ⟨?_, ?_, ?_⟩
      · intro hn
        have h1 : ¬ n = 0 := by omega
        have h2 : ¬ n < 0 := by omega
        simp [State.setMF, hp, State.newArray, h1, h2, State.mF, State.extentOf, Heap.alloc,
          Nat.mul_div_cancel _ hc]
      · rintro rfl
        simp only [State.setMF, hp, State.newArray, if_true, true_and]
        rw [← hp]
      · intro hn
        have h1 : ¬ n = 0 := by omega
        refine ⟨⟨.valueError, ?_⟩, ?_⟩ <;> simp [State.setMF, hp, State.newArray, h1, hn]
  | some k =>
    rw [hf] at hs
    simp only at hs
    obtain ⟨ref, h', e, hl⟩ := hs
    have hsh : sh = ({ s with F := some ref }, h') := e
    have hk : k ∈ ns := List.mem_of_find?_eq_some hf
    have hk' : 0 < k := by simpa using List.find?_some hf
    refine ⟨?_, ?_, ?_⟩
    · rw [hsh]; simp [State.mF, State.extentOf, hl, Nat.mul_div_cancel _ hc]
    · intro _
      simp only [r]
      rw [hsh]
      exact ⟨rfl, _, rfl⟩
    · intro hno; exact absurd hk' (hno k hk)

/-- Non-vacuity for C11. -/
example : exState.p = none ∧ exState.F = none ∧ 0 < exState.cells := ⟨rfl, rfl, by simp [exState]⟩

/-! ### C12 -/

/-- A concrete classic solver: three cells, one ghost cell on each side, and a step that adds one to
every entry of the work array. -/
def exSolver : WorkSolver ℚ :=
  { addr := 0, size := 5, interior := [1, 2, 3], kernel := fun l => l.map (· + 1) }

/-- **C12** fails: one solver, two solutions. A step on solution 0 followed by a step on solution 1
changes `q` of solution 0, which has become a view of the solver's work array. -/
theorem C12_shared_solver_corrupts_violated :
    ∃ (s : ASys ℚ Bool) (solver : Unit → WorkSolver ℚ),
      (s.run 0 solver [.step () false]).value false ≠ (s.run 0 solver [.step () false, .step () true]).value false := by
  refine ⟨{ heap := { mem := fun a i => if a = 2 then 7 else 0, dict := fun _ _ => none, next := 3 },
            q := fun j => { addr := if j then 2 else 1, idx := [0, 1, 2] } }, fun _ => exSolver, ?_⟩
  simp [ASys.run, ASys.step, ASys.value, exSolver, WorkSolver.view, WorkSolver.qbc, Heap.read, Heap.write,
    Heap.poke, Function.update, List.range_succ]

/-- **C12** (part). If no solver is ever used for two different solutions (`owner i` is the solution of
solver `i`; a solution may use several solvers), then for every history of steps, in-place writes to
`solution.q` and rebindings of `solution.q` (as on a rejected step), what the user sees as
`solution.q` is what value semantics prescribes; in particular a further operation on solution `j`
leaves every other solution's `q` unchanged. Initially every solution has an array of its own.

Missing for the full property: sharing a solver, for which it fails (above). -/
theorem C12_separate_solvers_partial {W S : Type*} [DecidableEq W] [DecidableEq S] (junk : K) (m : Nat)
    (solver : W → WorkSolver K) (owner : W → S)
    (hok : ∀ i, (solver i).interior.Nodup ∧ (∀ p ∈ (solver i).interior, p < (solver i).size) ∧
      (solver i).interior.length = m ∧
      ∀ l : List K, l.length = (solver i).size → ((solver i).kernel l).length = (solver i).size)
    (hinj : ∀ i i', (solver i).addr = (solver i').addr → i = i')
    (s : ASys K S)
    (hfresh : ∀ j, (s.q j).idx.Nodup ∧ (s.q j).idx.length = m ∧ (s.q j).addr < s.heap.next ∧
      (∀ i, (s.q j).addr ≠ (solver i).addr) ∧ ∀ j', j' ≠ j → (s.q j').addr ≠ (s.q j).addr)
    (hsolv : ∀ i, (solver i).addr < s.heap.next)
    (ops : List (AOp K W S))
    (hop : ∀ op ∈ ops, match op with
      | .step i j => owner i = j
      | .write _ vs => vs.length = m
      | .rebind _ vs => vs.length = m) :
    (∀ j, (s.run junk solver ops).value j =
      (ops.foldl (init := ({ q := s.value, work := fun i => s.heap.mem (solver i).addr } : VSys K W S))
        fun v op => match op with
          | .step i j => v.stepSolver (fun i =>
              { size := (solver i).size, interior := (solver i).interior, kernel := (solver i).kernel }) i j
          | .write j vs => v.assign j vs
          | .rebind j vs => v.assign j vs).q j) ∧
    (∀ i j, owner i = j → ∀ j', j' ≠ j →
      (s.run junk solver (ops ++ [.step i j])).value j' = (s.run junk solver ops).value j') := by
  have hok' : ∀ i, (solver i).Ok m := fun i => ⟨(hok i).1, (hok i).2.1, (hok i).2.2.1, (hok i).2.2.2⟩
  let v0 : VSys K W S := { q := s.value, work := fun i => s.heap.mem (solver i).addr }
  have h0 : s.Inv m solver owner v0 :=
    ⟨fun j => rfl, fun j => (hfresh j).2.1, fun j => (hfresh j).1, fun j => (hfresh j).2.2.1, hsolv,
      fun j => .inr (hfresh j).2.2.2, fun i p _ _ => rfl⟩
  have hrun := ASys.run_inv junk hok' hinj ops h0 hop
  have heq : VSys.run solver v0 ops = ops.foldl (init := v0) (fun v op => match op with
          | .step i j => v.stepSolver (fun i =>
              { size := (solver i).size, interior := (solver i).interior, kernel := (solver i).kernel }) i j
          | .write j vs => v.assign j vs
          | .rebind j vs => v.assign j vs) := by
    unfold VSys.run
    congr 1
  refine ⟨?_, ?_⟩
  · intro j
    rw [← heq]
    exact hrun.val j
  · intro i j ho j' hj'
    have h2 := ASys.run_inv junk hok' hinj (ops ++ [.step i j]) h0 (by
      intro op hm
      rcases List.mem_append.1 hm with h | h
      · exact hop op h
      · rw [List.mem_singleton] at h; subst h; exact ho)
    show (s.run junk solver (ops ++ [.step i j])).heap.read _ = (s.run junk solver ops).heap.read _
    rw [h2.val j', hrun.val j']
    simp [VSys.run, VSys.stepOp, VSys.stepSolver, Function.update_of_ne hj']

/-- Non-vacuity: two solvers, two solutions, and a history that steps both, with a rejected step. All
hypotheses of the theorem hold of it. -/
def exPair : ASys ℚ Bool :=
  { heap := { mem := fun a i => a + i, dict := fun _ _ => none, next := 4 },
    q := fun j => { addr := if j then 1 else 0, idx := [0, 1, 2] } }

def exSolvers (i : Bool) : WorkSolver ℚ := { exSolver with addr := if i then 3 else 2 }

example : (∀ i, (exSolvers i).interior.Nodup ∧ (∀ p ∈ (exSolvers i).interior, p < (exSolvers i).size) ∧
      (exSolvers i).interior.length = 3 ∧
      ∀ l : List ℚ, l.length = (exSolvers i).size →
        ((exSolvers i).kernel l).length = (exSolvers i).size) ∧
    (∀ i i', (exSolvers i).addr = (exSolvers i').addr → i = i') ∧
    (∀ j, (exPair.q j).idx.Nodup ∧ (exPair.q j).idx.length = 3 ∧ (exPair.q j).addr < exPair.heap.next ∧
      (∀ i, (exPair.q j).addr ≠ (exSolvers i).addr) ∧
      ∀ j', j' ≠ j → (exPair.q j').addr ≠ (exPair.q j).addr) ∧
    (∀ i, (exSolvers i).addr < exPair.heap.next) ∧
    (exPair.run 0 exSolvers [.step false false, .step true true, .rebind true [1, 2, 3],
      .step true true]).value true = [2, 3, 4] := by
  refine ⟨?_, ?_, ?_, ?_, ?_⟩
  · intro i; cases i <;> simp [exSolvers, exSolver]
  · intro i i'; cases i <;> cases i' <;> simp [exSolvers]
  · intro j
    refine ⟨by simp [exPair], by simp [exPair], ?_, ?_, ?_⟩
    · cases j <;> simp [exPair]
    · intro i; cases i <;> cases j <;> simp [exPair, exSolvers]
    · intro j'; cases j <;> cases j' <;> simp [exPair]
  · intro i; cases i <;> simp [exPair, exSolvers]
  · simp [exPair, exSolvers, ASys.run, ASys.step, ASys.value, exSolver, WorkSolver.view, WorkSolver.qbc,
      Heap.read, Heap.write, Heap.poke, Heap.alloc, Function.update, List.range_succ]
    norm_num

end PyClaw
