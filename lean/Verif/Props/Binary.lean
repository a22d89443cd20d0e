import Verif.Lemmas.Binary
import Verif.Lemmas.AsciiFrame

set_option linter.unusedSectionVars false

/-!
C54: binary frames are decoded in Fortran order, without ghost cells. C73: the format recorded with the frame is used.
-/
namespace PyClaw

variable {Raw : Type}

/-! ### One patch -/

theorem within_of_cell (p : IOPatch) (g : Nat) (idx : List Nat) (h : Spec.Cell p idx) :
    Within (ghosted p g) (idx.map (· + g)) := by
  unfold Spec.Cell at h
  unfold Within ghosted
  generalize p.dims = ds at h
  induction h with
  | nil => exact .nil
  | cons h _ ih => exact .cons (by dsimp only; omega) ih

theorem extents_reverse (p : IOPatch) (g : Nat) : (Spec.extents p g).reverse = ghosted p g := by
  unfold Spec.extents ghosted
  rw [List.reverse_reverse]

theorem block_length (num g : Nat) (p : IOPatch) (v : Nat → List Nat → Num) :
    (Spec.fortranOrder num (Spec.extents p g) v).length = (num :: ghosted p g).prod := by
  rw [fortranOrder_length, List.prod_cons, ← extents_reverse, List.prod_reverse]

/-- `reshape` of the next block of the file. -/
theorem reshapeF_block (num g : Nat) (p : IOPatch) (v : Nat → List Nat → Num) (pre post : List Num) :
    ∃ a, reshapeF (pre ++ Spec.fortranOrder num (Spec.extents p g) v ++ post) pre.length (num :: ghosted p g) = .ok a ∧
      a.shape = num :: ghosted p g ∧ ∀ m < num, ∀ idx, Spec.Cell p idx → a.get m (idx.map (· + g)) = v m (idx.map (· + g)) := by
  have hb : ((pre ++ Spec.fortranOrder num (Spec.extents p g) v ++ post).drop pre.length).take (num :: ghosted p g).prod =
      Spec.fortranOrder num (Spec.extents p g) v := by
    rw [List.append_assoc, List.drop_left, List.take_left' (block_length num g p v)]
  unfold reshapeF
  rw [hb, if_pos (block_length num g p v)]
  refine ⟨_, rfl, rfl, ?_⟩
  intro m hm idx hi
  have := nth_fortranOrder .nan num (Spec.extents p g) v m hm (idx.map (· + g)) (by
    rw [extents_reverse]; exact within_of_cell p g idx hi)
  rw [extents_reverse] at this
  exact this

theorem cut_shape (p : IOPatch) (g : Nat) (hg : g ≠ 0) :
    (ghosted p g).map (fun n => if g = 0 then 0 else n - g - g) = p.dims.map fun d => d.numCells.toNat := by
  unfold ghosted
  rw [List.map_map]
  refine List.map_congr_left fun d _ => ?_
  simp only [Function.comp, if_neg hg]
  omega

theorem cutQ_holds (num g : Nat) (p : IOPatch) (h1 : 1 ≤ p.dims.length) (h3 : p.dims.length ≤ 3)
    (v : Nat → List Nat → Num) (a : BArr) (hs : a.shape = num :: ghosted p g)
    (hv : ∀ m < num, ∀ idx, Spec.Cell p idx → a.get m (idx.map (· + g)) = v m (idx.map (· + g))) :
    ∃ q, cutQ p.dims.length g a = .ok q ∧ Spec.Holds num g p v q := by
  unfold cutQ
  rw [if_pos (by omega)]
  refine ⟨_, rfl, ?_⟩
  by_cases hg : g = 0
  · subst hg
    rw [if_pos rfl]
    refine ⟨by rw [hs]; unfold ghosted; simp, ?_⟩
    intro m hm idx hi
    have := hv m hm idx hi
    simpa using this
  · rw [if_neg hg]
    refine ⟨?_, hv⟩
    simp only [cutGhost, hs]
    rw [cut_shape p g hg]

theorem cutAux_holds (num g : Nat) (hg : g ≠ 0) (p : IOPatch) (h1 : 1 ≤ p.dims.length) (h3 : p.dims.length ≤ 3)
    (v : Nat → List Nat → Num) (a : BArr) (hs : a.shape = num :: ghosted p g)
    (hv : ∀ m < num, ∀ idx, Spec.Cell p idx → a.get m (idx.map (· + g)) = v m (idx.map (· + g))) :
    ∃ q, cutAux p.dims.length g a = .ok q ∧ Spec.Holds num g p v q := by
  unfold cutAux
  rw [if_pos (by omega)]
  refine ⟨_, rfl, ?_, hv⟩
  simp only [cutGhost, hs]
  rw [cut_shape p g hg]

/-! ### All patches -/

/-- A state for a patch with given values. -/
def BackQ (ti : TimeInfo) (pv : IOPatch × (Nat → List Nat → Num)) (s : BState) : Prop :=
  s.patch = pv.1 ∧ s.t = ti.t ∧ (s.numEqn : Int) = ti.numEqn ∧ (s.numAux : Int) = ti.numAux ∧
    Spec.Holds s.numEqn ti.numGhost.toNat pv.1 pv.2 s.q

theorem readBinStates_ok (ti : TimeInfo) (hq : 0 ≤ ti.numEqn) (ha : 0 ≤ ti.numAux) (hg : 0 ≤ ti.numGhost)
    (l : List (IOPatch × (Nat → List Nat → Num))) (hd : ∀ pv ∈ l, 1 ≤ pv.1.dims.length ∧ pv.1.dims.length ≤ 3)
    (s rest : List Char) (hh : Rd.many (readHeader ti.numDim.toNat) l.length s = .ok (l.map Prod.fst, rest))
    (pre post : List Num) :
    ∃ new, readBinStates ti (pre ++ Spec.fileOf ti.numEqn.toNat ti.numGhost.toNat l ++ post) l.length pre.length s =
      (new, .ok ()) ∧ List.Forall₂ (BackQ ti) l new := by
  induction l generalizing s pre with
  | nil => exact ⟨[], rfl, .nil⟩
  | cons pv l ih =>
    rw [List.length_cons] at hh ⊢
    unfold Rd.many at hh
    cases hx : readHeader ti.numDim.toNat s with
    | error e => rw [hx] at hh; cases hh
    | ok w =>
      obtain ⟨p, r⟩ := w
      rw [hx] at hh
      dsimp only at hh
      cases hy : Rd.many (readHeader ti.numDim.toNat) l.length r with
      | error e => rw [hy] at hh; cases hh
      | ok w =>
        obtain ⟨ps, r'⟩ := w
        rw [hy] at hh
        dsimp only at hh
        injection hh with hh
        injection hh with e1 e2
        rw [List.map_cons] at e1
        injection e1 with e3 e4
        subst e3 e2
        obtain ⟨d1, d3⟩ := hd pv (by simp)
        obtain ⟨a, h1, h2, h3⟩ := reshapeF_block ti.numEqn.toNat ti.numGhost.toNat pv.1 pv.2 pre
          (Spec.fileOf ti.numEqn.toNat ti.numGhost.toNat l ++ post)
        obtain ⟨q, h4, h5⟩ := cutQ_holds _ _ pv.1 d1 d3 pv.2 a h2 h3
        have hlen : (pre ++ Spec.fortranOrder ti.numEqn.toNat (Spec.extents pv.1 ti.numGhost.toNat) pv.2).length =
            pre.length + (ti.numEqn.toNat :: ghosted pv.1 ti.numGhost.toNat).prod := by
          rw [List.length_append, block_length]
        obtain ⟨new, i1, i2⟩ := ih (fun x hx => hd x (by simp [hx])) r (by rw [hy, e4])
          (pre ++ Spec.fortranOrder ti.numEqn.toNat (Spec.extents pv.1 ti.numGhost.toNat) pv.2)
        have hfile : pre ++ Spec.fileOf ti.numEqn.toNat ti.numGhost.toNat (pv :: l) ++ post =
            pre ++ Spec.fortranOrder ti.numEqn.toNat (Spec.extents pv.1 ti.numGhost.toNat) pv.2 ++
              (Spec.fileOf ti.numEqn.toNat ti.numGhost.toNat l ++ post) := by
          unfold Spec.fileOf
          simp
        have hfile2 : pre ++ Spec.fileOf ti.numEqn.toNat ti.numGhost.toNat (pv :: l) ++ post =
            pre ++ Spec.fortranOrder ti.numEqn.toNat (Spec.extents pv.1 ti.numGhost.toNat) pv.2 ++
              Spec.fileOf ti.numEqn.toNat ti.numGhost.toNat l ++ post := by
          rw [hfile, List.append_assoc _ _ post]
        refine ⟨⟨pv.1, ti.t, ti.numEqn.toNat, ti.numAux.toNat, q,
          ⟨ti.numAux.toNat :: pv.1.dims.map (fun d => d.numCells.toNat), fun _ _ => .nan⟩⟩ :: new, ?_, .cons ?_ i2⟩
        · unfold readBinStates readBinState
          rw [hx]
          dsimp only
          rw [if_neg (by omega), hfile, h1]
          dsimp only
          rw [h4]
          dsimp only
          rw [← hfile, hfile2, ← hlen, i1]
        · exact ⟨rfl, rfl, by show ((ti.numEqn.toNat : Nat) : Int) = _; omega,
            by show ((ti.numAux.toNat : Nat) : Int) = _; omega, h5⟩

theorem readBinAux_ok (na g : Nat) (hg : g ≠ 0) (l : List (IOPatch × (Nat → List Nat → Num))) (states : List BState)
    (hs : List.Forall₂ (fun pv s => s.patch = pv.1 ∧ s.numAux = na) l states)
    (hd : ∀ pv ∈ l, 1 ≤ pv.1.dims.length ∧ pv.1.dims.length ≤ 3) (pre post : List Num) :
    ∃ new, readBinAux g (pre ++ Spec.fileOf na g l ++ post) pre.length states = (new, .ok ()) ∧
      List.Forall₂ (fun s s' : BState => s' = { s with aux := s'.aux }) states new ∧
      List.Forall₂ (fun pv s' => Spec.Holds na g pv.1 pv.2 s'.aux) l new := by
  induction hs generalizing pre with
  | nil => exact ⟨[], rfl, .nil, .nil⟩
  | @cons pv s l states h _ ih =>
    obtain ⟨hp, hn⟩ := h
    obtain ⟨d1, d3⟩ := hd pv (by simp)
    obtain ⟨a, h1, h2, h3⟩ := reshapeF_block na g pv.1 pv.2 pre (Spec.fileOf na g l ++ post)
    obtain ⟨q, h4, h5⟩ := cutAux_holds _ _ hg pv.1 d1 d3 pv.2 a h2 h3
    have hlen : (pre ++ Spec.fortranOrder na (Spec.extents pv.1 g) pv.2).length =
        pre.length + (na :: ghosted pv.1 g).prod := by
      rw [List.length_append, block_length]
    obtain ⟨new, i1, i2, i3⟩ := ih (fun x hx => hd x (by simp [hx]))
      (pre ++ Spec.fortranOrder na (Spec.extents pv.1 g) pv.2)
    have hfile : pre ++ Spec.fileOf na g (pv :: l) ++ post =
        pre ++ Spec.fortranOrder na (Spec.extents pv.1 g) pv.2 ++ (Spec.fileOf na g l ++ post) := by
      unfold Spec.fileOf
      simp
    have hfile2 : pre ++ Spec.fileOf na g (pv :: l) ++ post =
        pre ++ Spec.fortranOrder na (Spec.extents pv.1 g) pv.2 ++ Spec.fileOf na g l ++ post := by
      rw [hfile, List.append_assoc _ _ post]
    refine ⟨{ s with aux := q } :: new, ?_, .cons rfl i2, .cons h5 i3⟩
    unfold readBinAux
    rw [hp, hn]
    dsimp only
    rw [hfile, h1]
    dsimp only
    rw [h4]
    dsimp only
    rw [← hfile, hfile2, ← hlen, i1]

/-! ### Frames -/

/-- A frame as a Fortran program writes it: a `fort.t` that says `ti`, headers of the patches in `fort.q`, and the arrays of
the patches one after the other in `fort.b` (anything may follow). -/
structure BinFrame (decode : Raw → List Num) (fs : BFiles Raw) (frame : Nat) (ti : TimeInfo)
    (l : List (IOPatch × (Nat → List Nat → Num))) : Prop where
  t : ∃ tt, fs.t frame = some tt ∧ readT tt = .ok ti
  nstates : ti.nstates = l.length
  nonempty : l ≠ []
  eqn : 0 ≤ ti.numEqn
  aux : 0 ≤ ti.numAux
  ghost : 0 ≤ ti.numGhost
  dims : ∀ pv ∈ l, 1 ≤ pv.1.dims.length ∧ pv.1.dims.length ≤ 3
  headers : ∃ qt rest, fs.q frame = some qt ∧ Rd.many (readHeader ti.numDim.toNat) l.length qt = .ok (l.map Prod.fst, rest)
  data : ∃ raw post, fs.b frame = some raw ∧ decode raw = Spec.fileOf ti.numEqn.toNat ti.numGhost.toNat l ++ post

/-- The decoding chosen by the format. -/
def decoder (dec64 dec32 : Raw → List Num) (fmt : List Char) : Raw → List Num :=
  if fmt = "binary32".toList then dec32 else dec64

theorem fromFile_ok (dec64 dec32 : Raw → List Num) (fmt : List Char)
    (hf : fmt = "binary".toList ∨ fmt = "binary64".toList ∨ fmt = "binary32".toList) (raw : Raw) :
    fromFile dec64 dec32 fmt raw = .ok (decoder dec64 dec32 fmt raw) := by
  rcases hf with rfl | rfl | rfl
  · rfl
  · rfl
  · rfl

theorem binary_core (dec64 dec32 : Raw → List Num) (fmt : List Char)
    (hf : fmt = "binary".toList ∨ fmt = "binary64".toList ∨ fmt = "binary32".toList) (fs : BFiles Raw) (frame : Nat)
    (ti : TimeInfo) (l : List (IOPatch × (Nat → List Nat → Num)))
    (h : BinFrame (decoder dec64 dec32 fmt) fs frame ti l) :
    ∃ new, List.Forall₂ (BackQ ti) l new ∧ new ≠ [] ∧ ∀ ra sol, binaryRead dec64 dec32 fs frame ra fmt sol =
      match sol.states ++ new with
      | [] => (⟨sol.states ++ new, some (new.map BState.patch)⟩, .error .indexError)
      | s0 :: _ =>
        if 0 < s0.numAux ∧ ra then
          match (match fs.a frame with
            | some raw => some raw
            | .none => fs.a 0) with
          | .none => (⟨sol.states ++ new, some (new.map BState.patch)⟩, .ok ())
          | some raw => (⟨(readBinAux ti.numGhost.toNat (decoder dec64 dec32 fmt raw) 0 (sol.states ++ new)).1,
              some (new.map BState.patch)⟩,
              (readBinAux ti.numGhost.toNat (decoder dec64 dec32 fmt raw) 0 (sol.states ++ new)).2)
        else (⟨sol.states ++ new, some (new.map BState.patch)⟩, .ok ()) := by
  obtain ⟨tt, t1, t2⟩ := h.t
  obtain ⟨qt, rest, q1, q2⟩ := h.headers
  obtain ⟨raw, post, b1, b2⟩ := h.data
  obtain ⟨new, n1, n2⟩ := readBinStates_ok ti h.eqn h.aux h.ghost l h.dims qt rest q2 [] post
  have hns : ti.nstates.toNat = l.length := by rw [h.nstates]; rfl
  have hne : new ≠ [] := by
    intro e
    rw [e] at n2
    cases n2
    exact h.nonempty rfl
  refine ⟨new, n2, hne, ?_⟩
  intro ra sol
  unfold binaryRead
  rw [t1]
  dsimp only
  rw [t2]
  dsimp only
  rw [b1]
  dsimp only
  rw [fromFile_ok dec64 dec32 fmt hf]
  dsimp only
  rw [q1]
  dsimp only
  rw [b2, hns]
  rw [List.nil_append] at n1
  have n1' : readBinStates ti (Spec.fileOf ti.numEqn.toNat ti.numGhost.toNat l ++ post) l.length 0 qt = (new, .ok ()) := n1
  rw [n1']
  dsimp only
  rw [if_neg hne]
  cases hc : sol.states ++ new with
  | nil => rfl
  | cons b l' =>
    dsimp only
    split
    · cases fs.a frame with
      | some raw =>
        dsimp only
        rw [fromFile_ok dec64 dec32 fmt hf]
      | none =>
        dsimp only
        cases fs.a 0 with
        | some raw =>
          dsimp only
          rw [fromFile_ok dec64 dec32 fmt hf]
        | none => rfl
    · rfl

/-- **C54.** Reading a binary frame appends one state per patch, in order, with the time of the frame; its `q` has the
shape of the patch without ghost cells and holds, in cell `idx`, what the program that wrote the file had in cell
`idx + num_ghost` of its array. -/
theorem C54_decode (dec64 dec32 : Raw → List Num) (fmt : List Char)
    (hf : fmt = "binary".toList ∨ fmt = "binary64".toList ∨ fmt = "binary32".toList) (fs : BFiles Raw) (frame : Nat)
    (ti : TimeInfo) (l : List (IOPatch × (Nat → List Nat → Num)))
    (h : BinFrame (decoder dec64 dec32 fmt) fs frame ti l) (sol : BSol) :
    ∃ new, binaryRead dec64 dec32 fs frame false fmt sol = (⟨sol.states ++ new, some (l.map Prod.fst)⟩, .ok ()) ∧
      List.Forall₂ (fun pv s => s.patch = pv.1 ∧ s.t = ti.t ∧ (s.numEqn : Int) = ti.numEqn ∧
        (s.numAux : Int) = ti.numAux ∧ Spec.Holds s.numEqn ti.numGhost.toNat pv.1 pv.2 s.q) l new := by
  obtain ⟨new, n1, hne, n2⟩ := binary_core dec64 dec32 fmt hf fs frame ti l h
  refine ⟨new, ?_, n1⟩
  have hp : new.map BState.patch = l.map Prod.fst := by
    clear n2 hne h
    induction n1 with
    | nil => rfl
    | cons h _ ih => rw [List.map_cons, List.map_cons, ih, h.1]
  rw [n2 false sol, ← hp]
  cases hc : sol.states ++ new with
  | nil => exact absurd (List.append_eq_nil_iff.mp hc).2 hne
  | cons b l' => simp

/-- The state whose auxiliary array has been read. -/
theorem C54_aux_partial (dec64 dec32 : Raw → List Num) (fmt : List Char)
    (hf : fmt = "binary".toList ∨ fmt = "binary64".toList ∨ fmt = "binary32".toList) (fs : BFiles Raw) (frame : Nat)
    (ti : TimeInfo) (l : List (IOPatch × (Nat → List Nat → Num))) (h : BinFrame (decoder dec64 dec32 fmt) fs frame ti l)
    (hna : 0 < ti.numAux) (hg : 0 < ti.numGhost) (v : IOPatch × (Nat → List Nat → Num) → Nat → List Nat → Num) (raw : Raw)
    (ha : fs.a frame = some raw ∨ (fs.a frame = none ∧ fs.a 0 = some raw)) (post : List Num)
    (hdata : decoder dec64 dec32 fmt raw = Spec.fileOf ti.numAux.toNat ti.numGhost.toNat (l.map fun pv => (pv.1, v pv)) ++ post) :
    ∃ new dom, binaryRead dec64 dec32 fs frame true fmt ⟨[], none⟩ = (⟨new, dom⟩, .ok ()) ∧
      List.Forall₂ (fun pv s => s.patch = pv.1 ∧ s.t = ti.t ∧ Spec.Holds ti.numEqn.toNat ti.numGhost.toNat pv.1 pv.2 s.q ∧
        Spec.Holds ti.numAux.toNat ti.numGhost.toNat pv.1 (v pv) s.aux) l new := by
  obtain ⟨new, n1, hne, n2⟩ := binary_core dec64 dec32 fmt hf fs frame ti l h
  have hfile : (match fs.a frame with
      | some raw => some raw
      | .none => fs.a 0) = some raw := by
    rcases ha with ha | ⟨h1, h2⟩
    · rw [ha]
    · rw [h1]; exact h2
  have hst : List.Forall₂ (fun pv s => s.patch = pv.1 ∧ s.numAux = ti.numAux.toNat)
      (l.map fun pv => (pv.1, v pv)) new := by
    rw [List.forall₂_map_left_iff]
    refine n1.imp fun pv s hs => ⟨hs.1, ?_⟩
    have := hs.2.2.2.1
    omega
  obtain ⟨new2, m1, m2, m3⟩ := readBinAux_ok ti.numAux.toNat ti.numGhost.toNat (by omega) _ new hst (by
    intro pv hpv
    obtain ⟨x, hx, rfl⟩ := List.mem_map.mp hpv
    exact h.dims x hx) [] post
  have m1' : readBinAux ti.numGhost.toNat (decoder dec64 dec32 fmt raw) 0 new = (new2, .ok ()) := by
    rw [hdata]
    rw [List.nil_append] at m1
    exact m1
  refine ⟨new2, some (new.map BState.patch), ?_, ?_⟩
  · rw [n2 true ⟨[], none⟩]
    cases hc : new with
    | nil => exact absurd hc hne
    | cons b l' =>
      rw [hc] at n1 m1'
      have hb : 0 < b.numAux := by
        cases n1 with
        | cons hs _ =>
          have := hs.2.2.2.1
          omega
      simp only [List.nil_append]
      rw [if_pos ⟨hb, trivial⟩, hfile]
      dsimp only
      rw [m1']
  · rw [List.forall₂_map_left_iff] at m3
    have hqq : List.Forall₂ (fun pv s => s.patch = pv.1 ∧ s.t = ti.t ∧
        Spec.Holds ti.numEqn.toNat ti.numGhost.toNat pv.1 pv.2 s.q) l new2 := by
      refine forall₂_comp n1 m2 fun pv s s' h1 h2 => ?_
      rw [h2]
      obtain ⟨a1, a2, a3, a4, a5⟩ := h1
      have : s.numEqn = ti.numEqn.toNat := by omega
      rw [this] at a5
      exact ⟨a1, a2, a5⟩
    clear n2 n1 hst hne m1 m1' m2 h hdata
    induction hqq with
    | nil => exact .nil
    | cons h1 _ ih =>
      cases m3 with
      | cons h2 h3 => exact .cons ⟨h1.1, h1.2.1, h1.2.2, h2⟩ (ih h3)

/-- **C54 fails** for auxiliary arrays of files without ghost cells: `[:, 0:-0]` is empty. Whatever is in the file, the
auxiliary arrays read have no cells. -/
theorem C54_aux_without_ghosts_violated (data : List Num) (start : Nat) (st st' : BState) (l l' : List BState)
    (h : readBinAux 0 data start (st :: l) = (st' :: l', .ok ())) (hd : 1 ≤ st.patch.dims.length) :
    st'.aux.shape = st.numAux :: st.patch.dims.map (fun _ => 0) ∧ st'.aux.shape.prod = 0 := by
  unfold readBinAux at h
  dsimp only at h
  cases hr : reshapeF data start (st.numAux :: ghosted st.patch 0) with
  | error e => rw [hr] at h; simp at h
  | ok a =>
    rw [hr] at h
    dsimp only at h
    have hs : a.shape = st.numAux :: ghosted st.patch 0 := by
      unfold reshapeF at hr
      split at hr
      · injection hr with hr
        rw [← hr]
      · cases hr
    cases hc : cutAux st.patch.dims.length 0 a with
    | error e => rw [hc] at h; simp at h
    | ok aux =>
      rw [hc] at h
      dsimp only at h
      injection h with h1 h2
      injection h1 with h3 h4
      have e : st'.aux.shape = st.numAux :: st.patch.dims.map (fun _ => 0) := by
        rw [← h3]
        unfold cutAux at hc
        split at hc
        · injection hc with hc
          rw [← hc]
          simp only [cutGhost, hs, ghosted, if_true]
          rw [List.map_map]
          rfl
        · cases hc
      refine ⟨e, ?_⟩
      rw [e, List.prod_cons]
      cases hdim : st.patch.dims with
      | nil => rw [hdim] at hd; simp at hd
      | cons d ds => simp

/-! ### Truncated files -/

theorem readBinStates_short (ti : TimeInfo) (hq : 0 ≤ ti.numEqn) (ha : 0 ≤ ti.numAux) (hg : 0 ≤ ti.numGhost)
    (ps : List IOPatch) (hd : ∀ p ∈ ps, 1 ≤ p.dims.length ∧ p.dims.length ≤ 3) (s rest : List Char)
    (hh : Rd.many (readHeader ti.numDim.toNat) ps.length s = .ok (ps, rest)) (data : List Num) (start : Nat)
    (hs : start ≤ data.length)
    (hshort : data.length < start + (ps.map fun p => (ti.numEqn.toNat :: ghosted p ti.numGhost.toNat).prod).sum) :
    (readBinStates ti data ps.length start s).2 = .error .valueError ∧
      (readBinStates ti data ps.length start s).1.length < ps.length := by
  induction ps generalizing s start with
  | nil => simp at hshort; omega
  | cons p ps ih =>
    rw [List.length_cons] at hh ⊢
    unfold Rd.many at hh
    cases hx : readHeader ti.numDim.toNat s with
    | error e => rw [hx] at hh; cases hh
    | ok w =>
      obtain ⟨p', r⟩ := w
      rw [hx] at hh
      dsimp only at hh
      cases hy : Rd.many (readHeader ti.numDim.toNat) ps.length r with
      | error e => rw [hy] at hh; cases hh
      | ok w =>
        obtain ⟨ps', r'⟩ := w
        rw [hy] at hh
        dsimp only at hh
        injection hh with hh
        injection hh with e1 e2
        injection e1 with e3 e4
        subst e3 e4 e2
        unfold readBinStates readBinState
        rw [hx]
        dsimp only
        rw [if_neg (by omega)]
        by_cases hlen : start + (ti.numEqn.toNat :: ghosted p' ti.numGhost.toNat).prod ≤ data.length
        · unfold reshapeF
          rw [if_pos (by rw [List.length_take, List.length_drop]; omega)]
          dsimp only
          unfold cutQ
          obtain ⟨d1, d3⟩ := hd p' (by simp)
          rw [if_pos (by omega)]
          dsimp only
          rw [List.map_cons, List.sum_cons] at hshort
          obtain ⟨i1, i2⟩ := ih (fun x hx => hd x (by simp [hx])) r hy
            (start + (ti.numEqn.toNat :: ghosted p' ti.numGhost.toNat).prod) hlen (by omega)
          exact ⟨i1, Nat.succ_lt_succ i2⟩
        · unfold reshapeF
          rw [if_neg (by rw [List.length_take, List.length_drop]; omega)]
          exact ⟨rfl, Nat.succ_pos _⟩

/-- **C54.** A data file that is too short for the patches of the headers raises; no state is made up. -/
theorem C54_truncated (dec64 dec32 : Raw → List Num) (fmt : List Char)
    (hf : fmt = "binary".toList ∨ fmt = "binary64".toList ∨ fmt = "binary32".toList) (fs : BFiles Raw) (frame : Nat)
    (ti : TimeInfo) (tt : List Char) (ht : fs.t frame = some tt) (hti : readT tt = .ok ti) (hq : 0 ≤ ti.numEqn)
    (ha : 0 ≤ ti.numAux) (hg : 0 ≤ ti.numGhost) (ps : List IOPatch) (hns : ti.nstates = ps.length)
    (hd : ∀ p ∈ ps, 1 ≤ p.dims.length ∧ p.dims.length ≤ 3) (qt rest : List Char) (hqt : fs.q frame = some qt)
    (hh : Rd.many (readHeader ti.numDim.toNat) ps.length qt = .ok (ps, rest)) (raw : Raw) (hraw : fs.b frame = some raw)
    (hshort : (decoder dec64 dec32 fmt raw).length <
      (ps.map fun p => ti.numEqn.toNat * (p.dims.map fun d => d.numCells.toNat + 2 * ti.numGhost.toNat).prod).sum)
    (ra : Bool) (sol : BSol) :
    ∃ new, binaryRead dec64 dec32 fs frame ra fmt sol = ({ sol with states := sol.states ++ new }, .error .valueError) ∧
      new.length < ps.length := by
  have hns' : ti.nstates.toNat = ps.length := by omega
  have hsh : (decoder dec64 dec32 fmt raw).length <
      0 + (ps.map fun p => (ti.numEqn.toNat :: ghosted p ti.numGhost.toNat).prod).sum := by
    rw [Nat.zero_add]
    simpa [ghosted] using hshort
  obtain ⟨h1, h2⟩ := readBinStates_short ti hq ha hg ps hd qt rest hh _ 0 (Nat.zero_le _) hsh
  refine ⟨_, ?_, h2⟩
  unfold binaryRead
  rw [ht]
  dsimp only
  rw [hti]
  dsimp only
  rw [hraw]
  dsimp only
  rw [fromFile_ok dec64 dec32 fmt hf]
  dsimp only
  rw [hqt]
  dsimp only
  rw [hns', h1]

/-! ### C73 -/

/-- **C73.** When `fort.t` records a format, that format is used, whatever the caller asks for; otherwise the format the
caller asks for is used, and without one the call raises. -/
theorem C73_recorded_format_wins (tt : List Char) (ti : TimeInfo) (h : readT tt = .ok ti) (f : List Char)
    (hf : ti.format = some f) (arg arg' : Option (List Char)) :
    chooseReader (some tt) arg = chooseReader (some tt) arg' ∧
      (f = "ascii".toList → chooseReader (some tt) arg = .ok (.ascii, some f)) ∧
      (f.take 6 = "binary".toList → chooseReader (some tt) arg = .ok (.binary, some f)) := by
  have hr : recordedFormat (some tt) = some f := by
    unfold recordedFormat
    dsimp only
    rw [h]
    exact hf
  refine ⟨?_, ?_, ?_⟩
  · unfold chooseReader
    rw [hr]
  · rintro rfl
    unfold chooseReader
    rw [hr]
    rfl
  · intro hb
    unfold chooseReader getReadFunc
    rw [hr]
    dsimp only
    rw [if_pos hb]
    dsimp only
    rw [if_neg]
    intro e
    injection e with e
    rw [e] at hb
    revert hb
    decide

/-- **C73.** No record: the argument decides; `None` raises. -/
theorem C73_argument_decides (tfile : Option (List Char)) (h : recordedFormat tfile = none) :
    chooseReader tfile (some "ascii".toList) = .ok (.ascii, some "ascii".toList) ∧
      chooseReader tfile (some "hdf5".toList) = .ok (.hdf5, some "hdf5".toList) ∧
      chooseReader tfile (some "petsc".toList) = .ok (.petsc, some "binary".toList) ∧
      chooseReader tfile none = .error .typeError := by
  unfold chooseReader
  rw [h]
  exact ⟨rfl, rfl, rfl, rfl⟩

/-- **C73.** Headers of older programs end after the number of dimensions. They are read with no ghost cells and no recorded format, whatever
the entries and their labels, so the argument decides. -/
theorem C73_old_headers (t : Num) (ne ns na nd : Int) (l1 l2 l3 l4 l5 : List Char)
    (hl : ∀ l ∈ [l1, l2, l3, l4, l5], '\n' ∉ l) :
    let tt := floatLine t l1 ++ (intLine ne l2 ++ (intLine ns l3 ++ (intLine na l4 ++ (intLine nd l5 ++ []))))
    readT tt = .ok ⟨roundNum 8 t, ne, ns, na, nd, 0, none⟩ ∧
      chooseReader (some tt) (some "ascii".toList) = .ok (.ascii, some "ascii".toList) ∧
      chooseReader (some tt) none = .error .typeError := by
  intro tt
  have hr : readT tt = .ok ⟨roundNum 8 t, ne, ns, na, nd, 0, none⟩ := by
    unfold readT
    simp only [tt]
    rw [reads_float _ _ (hl _ (by simp))]
    dsimp only
    rw [reads_int _ _ (hl _ (by simp))]
    dsimp only
    rw [reads_int _ _ (hl _ (by simp))]
    dsimp only
    rw [reads_int _ _ (hl _ (by simp))]
    dsimp only
    rw [reads_int _ _ (hl _ (by simp))]
    have hn : nextWords [] = .error .ioError := by
      unfold nextWords
      rw [dif_pos rfl]
    simp only [readOptional, readIntLine, readStrLine, hn]
  have h := C73_argument_decides (some tt) (by unfold recordedFormat; dsimp only; rw [hr])
  exact ⟨hr, h.1, h.2.2.2⟩

/-- **C73.** A frame that was written by `write` in ASCII is read as ASCII, whatever the caller asks for. -/
theorem C73_ascii_frames {D M : Type} (sol : IOSol D M) (hw : Spec.Writable sol) (frame : Nat) (wa : Bool) (fs : Files D M)
    (arg : Option (List Char)) :
    chooseReader ((asciiWrite sol frame wa false fs).1.t frame) arg = .ok (.ascii, some "ascii".toList) := by
  have idm : Nonempty M := by
    cases h : sol.states with
    | nil => exact absurd h hw.states
    | cons s _ => exact ⟨s.mapc2p⟩
  obtain ⟨idMap⟩ := idm
  obtain ⟨s0, l, fs', qt, l1, hs, hwrite, h⟩ := written sol hw frame wa fs idMap
  obtain ⟨tt, t1, t2⟩ := h.t
  rw [hwrite]
  dsimp only
  rw [t1]
  exact (C73_recorded_format_wins tt _ t2 _ rfl arg arg).2.1 rfl

/-! ### A concrete frame -/

def binDims (k : Int) : List (Dim ℚ) := [{ lower := 0, upper := 1, numCells := k }, { lower := 0, upper := 1, numCells := 2, name := "y" }]

/-- Two patches of 3x2 and 1x2 cells with one ghost cell on each side and two equations. -/
def binPatches : List (IOPatch × (Nat → List Nat → Num)) :=
  [(roundedPatch ⟨1, 1, binDims 3⟩, fun m idx => .fin (m + 10 * idx.sum)), (roundedPatch ⟨2, 1, binDims 1⟩, fun m _ => .fin m)]

/-- A `fort.t` as AMRClaw writes it: one ghost cell, binary output. -/
def binTime : List Char :=
  floatLine (.fin 1) "time".toList ++ (intLine 2 "meqn".toList ++ (intLine 2 "ngrids".toList ++ (intLine 1 "naux".toList ++
    (intLine 2 "ndim".toList ++ (intLine 1 "nghost".toList ++ "binary64               format\n".toList)))))

def binInfo : TimeInfo := ⟨roundNum 8 (.fin 1), 2, 2, 1, 2, 1, some "binary64".toList⟩

theorem binTime_read : readT binTime = .ok binInfo := by
  unfold readT binTime
  rw [reads_float _ _ (by decide)]
  dsimp only
  rw [reads_int _ _ (by decide)]
  dsimp only
  rw [reads_int _ _ (by decide)]
  dsimp only
  rw [reads_int _ _ (by decide)]
  dsimp only
  rw [reads_int _ _ (by decide)]
  dsimp only
  have : readOptional (intLine 1 "nghost".toList ++ "binary64               format\n".toList) =
      (1, some "binary64".toList) := by
    unfold readOptional
    rw [reads_int _ _ (by decide)]
    dsimp only
    unfold readStrLine
    have e : "binary64               format\n".toList = (List.replicate 0 ' ' ++ "binary64".toList ++
      List.replicate 15 ' ' ++ "format".toList ++ ['\n']) ++ [] := by decide
    obtain ⟨l, hl⟩ := nextWords_first 0 15 (by norm_num) "binary64".toList "format".toList [] (by
      unfold NoWs; decide) (by decide) (by decide)
    rw [e, hl]
    rfl
  rw [this]
  rfl

def binAux : List (IOPatch × (Nat → List Nat → Num)) := binPatches.map fun pv => (pv.1, fun m idx => .fin (m + idx.length))

def binFiles : BFiles (List Num) where
  t := fun _ => some binTime
  q := fun _ => some (headerText ⟨1, 1, binDims 3⟩ ++ headerText ⟨2, 1, binDims 1⟩)
  b := fun _ => some (Spec.fileOf 2 1 binPatches)
  a := fun _ => some (Spec.fileOf 1 1 binAux)

theorem binGood (i : Int) (k : Int) (hk : 0 < k) : GoodPatch ⟨i, 1, binDims k⟩ := by
  refine ⟨by simp [binDims], by simp [binDims], ?_, ?_, ?_⟩
  · intro d hd
    simp only [binDims, List.mem_cons, List.not_mem_nil, or_false] at hd
    rcases hd with rfl | rfl
    · exact hk
    · norm_num
  · intro d hd
    simp only [binDims, List.mem_cons, List.not_mem_nil, or_false] at hd
    rcases hd with rfl | rfl <;> norm_num
  · intro d hd
    simp only [binDims, List.mem_cons, List.not_mem_nil, or_false] at hd
    rcases hd with rfl | rfl
    · show '\n' ∉ "x".toList
      decide
    · show '\n' ∉ "y".toList
      decide

/-- The hypotheses of C54 hold of these files. -/
theorem binFiles_frame : BinFrame (id : List Num → List Num) binFiles 0 binInfo binPatches := by
  refine ⟨⟨_, rfl, binTime_read⟩, rfl, by simp [binPatches], by decide, by decide, by decide, ?_, ?_,
    ⟨_, [], rfl, (List.append_nil _).symm⟩⟩
  · intro pv hpv
    simp only [binPatches, List.mem_cons, List.not_mem_nil, or_false] at hpv
    rcases hpv with rfl | rfl <;> simp [roundedPatch, binDims]
  · refine ⟨_, [], rfl, ?_⟩
    have := reads_many (p := readHeader 2) [(⟨1, 1, binDims 3⟩ : IOPatch), ⟨2, 1, binDims 1⟩] headerText roundedPatch (by
      intro p hp
      simp only [List.mem_cons, List.not_mem_nil, or_false] at hp
      rcases hp with rfl | rfl
      · exact reads_header _ (binGood 1 3 (by norm_num))
      · exact reads_header _ (binGood 2 1 (by norm_num))) []
    have h2 : binInfo.numDim.toNat = 2 := rfl
    rw [h2]
    simpa [binPatches] using this

/-- `C54_decode` on them. -/
example (fmt : List Char) (hf : fmt = "binary".toList ∨ fmt = "binary64".toList) (sol : BSol) :
    ∃ new, binaryRead id id binFiles 0 false fmt sol = (⟨sol.states ++ new, some (binPatches.map Prod.fst)⟩, .ok ()) ∧
      new.length = 2 := by
  have hd : decoder (id : List Num → List Num) id fmt = id := by unfold decoder; split <;> rfl
  obtain ⟨new, h1, h2⟩ := C54_decode id id fmt (by tauto) binFiles 0 binInfo binPatches (by rw [hd]; exact binFiles_frame) sol
  exact ⟨new, h1, h2.length_eq.symm⟩

/-- `C54_aux_partial` on them. -/
example : ∃ new dom, binaryRead id id binFiles 0 true "binary64".toList ⟨[], none⟩ = (⟨new, dom⟩, .ok ()) := by
  have hd : decoder (id : List Num → List Num) id "binary64".toList = id := by unfold decoder; split <;> rfl
  obtain ⟨new, dom, h1, _⟩ := C54_aux_partial id id "binary64".toList (by tauto) binFiles 0 binInfo binPatches
    (by rw [hd]; exact binFiles_frame) (by decide) (by decide) (fun _ m idx => .fin (m + idx.length)) (Spec.fileOf 1 1 binAux)
    (.inl rfl) [] (by rw [hd, List.append_nil]; rfl)
  exact ⟨new, dom, h1⟩

end PyClaw
