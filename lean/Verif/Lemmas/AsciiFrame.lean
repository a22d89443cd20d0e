import Verif.Spec.Ascii
import Verif.Lemmas.Ascii

set_option linter.unusedSectionVars false

/-! Whole frames: what `read` makes of what `write` wrote. -/
namespace PyClaw

variable {D M : Type}

/-! ### Specification and lemmas speak about the same things -/

theorem cell_iff (p : IOPatch) (idx : List Nat) : Spec.Cell p idx ↔ InPatch p idx := by
  unfold Spec.Cell InPatch
  rw [List.forall₂_iff_get]
  have hget : ∀ i (h1 : i < idx.length) (h2 : i < p.dims.length),
      (((idx.get ⟨i, h1⟩ : Nat) : Int) < (p.dims.get ⟨i, h2⟩).numCells ↔ nth 0 idx i < cellsOf p i) := by
    intro i h1 h2
    have e1 : nth 0 idx i = idx.get ⟨i, h1⟩ := by simp [nth, h1]
    have e2 : cellsOf p i = (p.dims.get ⟨i, h2⟩).numCells.toNat := by simp [cellsOf, h2]
    rw [e1, e2]
    omega
  constructor
  · rintro ⟨h, h'⟩
    exact ⟨h, fun i hi => (hget i (by omega) hi).mp (h' i (by omega) hi)⟩
  · rintro ⟨h, h'⟩
    exact ⟨h, fun i h1 h2 => (hget i h1 h2).mpr (h' i h2)⟩

theorem double_iff (v : Num) : Spec.Double v ↔ InRange v := by cases v <;> rfl

theorem close_round (v : Num) : Spec.Close v (roundNum 8 v) := by
  cases v with
  | fin x =>
    refine ⟨?_, ?_⟩
    · have := roundSci_err 8 x
      refine le_trans this (le_of_eq ?_)
      norm_num
    · rintro k n hk rfl
      exact roundSci_exact 8 k n hk
  | inf n => rfl
  | nan => rfl

theorem roundedDim_same (d : Dim ℚ) (name : String) (h : 0 < d.numCells) : Spec.SameDim d (roundedDim d name) := by
  have h2 : (d.numCells : ℚ) ≠ 0 := by exact_mod_cast h.ne'
  refine ⟨rfl, close_round (.fin d.lower), ?_⟩
  have : ((roundedDim d name).upper - (roundedDim d name).lower) / (roundedDim d name).numCells =
      roundSci 8 ((d.upper - d.lower) / d.numCells) := by
    simp only [roundedDim, cellSize]
    field_simp
    ring
  rw [this]
  exact close_round (.fin _)

theorem zipWith_same (ds : List (Dim ℚ)) (names : List String) (hl : ds.length ≤ names.length)
    (h : ∀ d ∈ ds, 0 < d.numCells) : List.Forall₂ Spec.SameDim ds (List.zipWith roundedDim ds names) := by
  induction ds generalizing names with
  | nil => simp
  | cons d ds ih =>
    cases names with
    | nil => simp at hl
    | cons nm names =>
      rw [List.zipWith_cons_cons]
      exact .cons (roundedDim_same d nm (h d (by simp))) (ih names (by simpa using hl) fun x hx => h x (by simp [hx]))

theorem zipWith_cells (ds : List (Dim ℚ)) (names : List String) (hl : ds.length ≤ names.length) (i : Nat) :
    ((List.zipWith roundedDim ds names)[i]?).map (fun d => d.numCells) = (ds[i]?).map fun d => d.numCells := by
  induction ds generalizing names i with
  | nil => simp
  | cons d ds ih =>
    cases names with
    | nil => simp at hl
    | cons nm names =>
      cases i with
      | zero => rfl
      | succ i => simpa using ih names (by simpa using hl) i

theorem cellsOf_eq (p : IOPatch) (i : Nat) :
    cellsOf p i = (((p.dims[i]?).map fun (d : Dim ℚ) => d.numCells).getD 0).toNat := by
  unfold cellsOf
  cases p.dims[i]? <;> rfl

theorem rounded_cells (p : IOPatch) (h : p.dims.length ≤ 3) (i : Nat) : cellsOf (roundedPatch p) i = cellsOf p i := by
  rw [cellsOf_eq, cellsOf_eq]
  have := zipWith_cells p.dims ["x", "y", "z"] h i
  simp only [roundedPatch]
  rw [this]

theorem rounded_length (p : IOPatch) (h : p.dims.length ≤ 3) : (roundedPatch p).dims.length = p.dims.length := by
  simp only [roundedPatch, List.length_zipWith, List.length_cons, List.length_nil]
  omega

/-! ### States -/

/-- What a state becomes; `aux` is left open. -/
structure ReadBack (ti : TimeInfo) (pk : Option (Pickle D M)) (s s' : IOState D M) : Prop where
  patch : s'.patch = roundedPatch s.patch
  t : s'.t = ti.t
  numEqn : s'.numEqn = s.numEqn
  numAux : s'.numAux = s.numAux
  q : ∀ m < s.numEqn, ∀ idx, InPatch s.patch idx → s'.q m idx = roundNum 8 (s.q m idx)
  problem : ∀ k, pk = some k → s'.problemData = k.problemData ∧ s'.mapc2p = k.mapc2p

theorem reads_state (idMap : M) (ti : TimeInfo) (pk : Option (Pickle D M)) (s : IOState D M) (hp : GoodPatch s.patch)
    (hd : ti.numDim = s.patch.dims.length) (hq : ti.numEqn = s.numEqn) (ha : ti.numAux = s.numAux) (h1 : 1 ≤ s.numEqn)
    (hr : ∀ m < s.numEqn, ∀ idx, InPatch s.patch idx → InRange (s.q m idx)) :
    ∃ txt s', arrayText s.patch s.numEqn s.q = .ok txt ∧
      Reads (readState idMap ti pk) (headerText s.patch ++ txt) s' ∧ ReadBack ti pk s s' ∧ s'.aux = fun _ _ => .nan := by
  obtain ⟨txt, a, e, hread, ha'⟩ := reads_array s.patch (roundedPatch s.patch) s.numEqn h1 s.q (rounded_length _ hp.le)
    (rounded_cells _ hp.le) hp.pos hp.le hr
  refine ⟨txt, newState idMap ti pk (roundedPatch s.patch) a, e, ?_, ⟨rfl, rfl, ?_, ?_, ha', ?_⟩, rfl⟩
  · unfold readState
    have hhead := reads_header s.patch hp
    have : ti.numDim.toNat = s.patch.dims.length := by omega
    rw [this]
    refine Reads.andThen hhead ?_
    intro rest
    dsimp only
    have hn : ti.numEqn.toNat = s.numEqn := by omega
    rw [if_neg (by omega), hn, hread rest]
  · show ti.numEqn.toNat = _; omega
  · show ti.numAux.toNat = _; omega
  · rintro k rfl; exact ⟨rfl, rfl⟩

theorem dimsMatch_self (ds : List (Dim ℚ)) : dimsMatch ds ds = .ok () := by
  induction ds with
  | nil => rfl
  | cons d ds ih =>
    have tol : ∀ x : ℚ, withinTol x x := by
      intro x
      unfold withinTol
      rw [sub_self, abs_zero]
      positivity
    unfold dimsMatch
    rw [if_pos ⟨rfl, tol _, tol _⟩, ih]

theorem reads_aux (nd na : Int) (s s1 : IOState D M) (hp : GoodPatch s.patch)
    (hd : nd = s.patch.dims.length) (ha : na = s.numAux) (h1 : 1 ≤ s.numAux)
    (hr : ∀ m < s.numAux, ∀ idx, InPatch s.patch idx → InRange (s.aux m idx)) (hb : s1.patch = roundedPatch s.patch) :
    ∃ txt a, arrayText s.patch s.numAux s.aux = .ok txt ∧
      Reads (readAuxState nd na s1) (headerText s.patch ++ txt) { s1 with aux := a } ∧
      ∀ m < s.numAux, ∀ idx, InPatch s.patch idx → a m idx = roundNum 8 (s.aux m idx) := by
  obtain ⟨txt, a, e, hread, ha'⟩ := reads_array s.patch (roundedPatch s.patch) s.numAux h1 s.aux (rounded_length _ hp.le)
    (rounded_cells _ hp.le) hp.pos hp.le hr
  refine ⟨txt, a, e, ?_, ha'⟩
  unfold readAuxState
  have : nd.toNat = s.patch.dims.length := by omega
  rw [this]
  refine Reads.andThen (reads_header s.patch hp) ?_
  intro rest
  have hn : na.toNat = s.numAux := by omega
  dsimp only
  rw [hb, if_neg (by simp), dimsMatch_self]
  dsimp only
  rw [hn, hread rest]

/-- The loop over the states. -/
theorem readStates_ok (num : IOState D M → Except PyErr Nat) (arr : IOState D M → IOArr) (rd : Rd (IOState D M))
    (R : IOState D M → IOState D M → Prop) (l : List (IOState D M))
    (h : ∀ s ∈ l, ∃ n txt s', num s = .ok n ∧ arrayText s.patch n (arr s) = .ok txt ∧
      Reads rd (headerText s.patch ++ txt) s' ∧ R s s') :
    ∃ txt l', statesText num arr l = (txt, .ok ()) ∧ (∀ rest, readStates rd l.length (txt ++ rest) = (l', .ok ())) ∧
      List.Forall₂ R l l' := by
  induction l with
  | nil => exact ⟨[], [], rfl, fun _ => rfl, .nil⟩
  | cons s l ih =>
    obtain ⟨txt, l', i1, i2, i3⟩ := ih fun x hx => h x (by simp [hx])
    obtain ⟨n, t, s', h1, h2, h3, h4⟩ := h s (by simp)
    refine ⟨headerText s.patch ++ t ++ txt, s' :: l', ?_, ?_, .cons h4 i3⟩
    · unfold statesText
      rw [h1]
      dsimp only
      rw [h2]
      dsimp only
      rw [i1]
    · intro rest
      show readStates rd (l.length + 1) _ = _
      unfold readStates
      rw [List.append_assoc, h3]
      dsimp only
      rw [i2]

/-- The same state with other auxiliary values. -/
def OnlyAux (x y : IOState D M) : Prop := y = { x with aux := y.aux }

/-- The auxiliary values of `y` are those of `s`, rounded. -/
def AuxBack (s y : IOState D M) : Prop :=
  ∀ m < s.numAux, ∀ idx, InPatch s.patch idx → y.aux m idx = roundNum 8 (s.aux m idx)

theorem readAuxStates_ok (nd na : Int) (l : List (IOState D M))
    (h : ∀ s ∈ l, ∀ s1 : IOState D M, s1.patch = roundedPatch s.patch →
      ∃ txt a, arrayText s.patch s.numAux s.aux = .ok txt ∧
        Reads (readAuxState nd na s1) (headerText s.patch ++ txt) { s1 with aux := a } ∧
        ∀ m < s.numAux, ∀ idx, InPatch s.patch idx → a m idx = roundNum 8 (s.aux m idx))
    (lx : List (IOState D M)) (hl : List.Forall₂ (fun s x => x.patch = roundedPatch s.patch) l lx) :
    ∃ ly, (statesText (fun s => .ok s.numAux) (fun s => s.aux) l).2 = .ok () ∧
      (∀ more rest, readAuxStates nd na (lx ++ more) ((statesText (fun s => .ok s.numAux) (fun s => s.aux) l).1 ++ rest) =
        (ly ++ (readAuxStates nd na more rest).1, (readAuxStates nd na more rest).2)) ∧
      List.Forall₂ OnlyAux lx ly ∧ List.Forall₂ AuxBack l ly := by
  induction hl with
  | nil => exact ⟨[], rfl, fun more rest => rfl, .nil, .nil⟩
  | @cons s s1 l l1 hs _ ih =>
    obtain ⟨ly, i1, i2, i3, i4⟩ := ih fun x hx => h x (by simp [hx])
    obtain ⟨t, a, h2, h3, h4⟩ := h s (by simp) s1 hs
    have e : statesText (fun s => .ok s.numAux) (fun s => s.aux) (s :: l) =
        (headerText s.patch ++ t ++ (statesText (fun s => .ok s.numAux) (fun s => s.aux) l).1,
          (statesText (fun s => .ok s.numAux) (fun s => s.aux) l).2) := by
      conv_lhs => unfold statesText
      dsimp only
      rw [h2]
    refine ⟨{ s1 with aux := a } :: ly, ?_, ?_, .cons rfl i3, .cons h4 i4⟩
    · rw [e]; exact i1
    · intro more rest
      rw [e, List.cons_append, List.append_assoc]
      conv_lhs => unfold readAuxStates
      rw [h3]
      dsimp only
      rw [i2]
      rfl

theorem forall₂_comp {α β γ : Type*} {R : α → β → Prop} {S : β → γ → Prop} {T : α → γ → Prop} {a : List α} {b : List β}
    {c : List γ} (h1 : List.Forall₂ R a b) (h2 : List.Forall₂ S b c) (h : ∀ x y z, R x y → S y z → T x z) :
    List.Forall₂ T a c := by
  induction h1 generalizing c with
  | nil => cases h2; exact .nil
  | cons h1 _ ih =>
    cases h2 with
    | cons h2 h2' => exact .cons (h _ _ _ h1 h2) (ih h2')

theorem forall₂_mem {α β : Type*} {R : α → β → Prop} {a : List α} {b : List β} (h : List.Forall₂ R a b) (y : β)
    (hy : y ∈ b) : ∃ x ∈ a, R x y := by
  induction h with
  | nil => cases hy
  | cons h _ ih =>
    rcases List.mem_cons.mp hy with rfl | hy
    · exact ⟨_, by simp, h⟩
    · obtain ⟨x, hx, hr⟩ := ih hy
      exact ⟨x, by simp [hx], hr⟩

theorem forall₂_imp_mem {α β : Type*} {R S : α → β → Prop} {a : List α} {b : List β} (h : List.Forall₂ R a b)
    (hi : ∀ x ∈ a, ∀ y, R x y → S x y) : List.Forall₂ S a b := by
  induction h with
  | nil => exact .nil
  | cons h _ ih => exact .cons (hi _ (by simp) _ h) (ih fun x hx => hi x (by simp [hx]))

theorem onlyAux_patches {a b : List (IOState D M)} (h : List.Forall₂ OnlyAux a b) :
    b.map IOState.patch = a.map IOState.patch := by
  induction h with
  | nil => rfl
  | cons h _ ih => rw [List.map_cons, List.map_cons, ih, h]

/-! ### fort.t -/

theorem readT_timeText (t : Num) (ne ns na nd : Int) :
    readT (timeText t ne ns na nd) = .ok ⟨roundNum 8 t, ne, ns, na, nd, 0, some "ascii".toList⟩ := by
  have e : timeText t ne ns na nd = floatLine t "time".toList ++ (intLine ne "num_eqn".toList ++
      (intLine ns "nstates".toList ++ (intLine na "num_aux".toList ++ (intLine nd "num_dim".toList ++
      (intLine 0 "num_ghost".toList ++ "ascii                  file_format\n".toList))))) := by
    unfold timeText; simp only [List.append_assoc]
  unfold readT
  rw [e, reads_float t _ (by decide)]
  dsimp only
  rw [reads_int _ _ (by decide)]
  dsimp only
  rw [reads_int _ _ (by decide)]
  dsimp only
  rw [reads_int _ _ (by decide)]
  dsimp only
  rw [reads_int _ _ (by decide)]
  dsimp only
  have : readOptional (intLine 0 "num_ghost".toList ++ "ascii                  file_format\n".toList) =
      (0, some "ascii".toList) := by
    unfold readOptional
    rw [reads_int _ _ (by decide)]
    dsimp only
    unfold readStrLine
    have e : "ascii                  file_format\n".toList = (List.replicate 0 ' ' ++ "ascii".toList ++
      List.replicate 18 ' ' ++ "file_format".toList ++ ['\n']) ++ [] := by decide
    obtain ⟨l, hl⟩ := nextWords_first 0 18 (by norm_num) "ascii".toList "file_format".toList [] (by
      unfold NoWs; decide) (by decide) (by decide)
    rw [e, hl]
    rfl
  rw [this]

/-! ### Frames -/

theorem good_patch (sol : IOSol D M) (hw : Spec.Writable sol) (s : IOState D M) (hs : s ∈ sol.states) :
    GoodPatch s.patch :=
  ⟨(hw.ndim s hs).1, (hw.ndim s hs).2, fun d hd => (hw.cells s hs d hd).1, fun d hd => (hw.cells s hs d hd).2.1,
    fun d hd => (hw.cells s hs d hd).2.2⟩

/-- The contents of `fort.t` of a solution. -/
def timeInfo (sol : IOSol D M) (s0 : IOState D M) : TimeInfo :=
  ⟨roundNum 8 s0.t, s0.numEqn, sol.states.length, s0.numAux, s0.patch.dims.length, 0, some "ascii".toList⟩

/-- A state without its auxiliary values. -/
def ReadBackNan (ti : TimeInfo) (pk : Option (Pickle D M)) (s s' : IOState D M) : Prop :=
  ReadBack ti pk s s' ∧ s'.aux = fun _ _ => .nan

/-- The text of the aux file. -/
def auxText (sol : IOSol D M) : List Char := (statesText (fun s => .ok s.numAux) (fun s => s.aux) sol.states).1

/-- What is in the files after a write, and how it is read. -/
structure Written (sol : IOSol D M) (s0 : IOState D M) (frame : Nat) (wa : Bool) (fs fs' : Files D M) (idMap : M)
    (qt : List Char) (l1 : List (IOState D M)) : Prop where
  t : ∃ tt, fs'.t frame = some tt ∧ readT tt = .ok (timeInfo sol s0)
  q : fs'.q frame = some qt
  pkl : fs'.pkl frame = some ⟨s0.problemData, s0.mapc2p⟩
  a : fs'.a = if 0 < s0.numAux ∧ wa then Function.update fs.a frame (some (auxText sol)) else fs.a
  tOther : ∀ f, f ≠ frame → fs'.t f = fs.t f
  qOther : ∀ f, f ≠ frame → fs'.q f = fs.q f
  pOther : ∀ f, f ≠ frame → fs'.pkl f = fs.pkl f
  states : ∀ rest, readStates (readState idMap (timeInfo sol s0) (some ⟨s0.problemData, s0.mapc2p⟩)) sol.states.length
    (qt ++ rest) = (l1, .ok ())
  back : List.Forall₂ (ReadBackNan (timeInfo sol s0) (some ⟨s0.problemData, s0.mapc2p⟩)) sol.states l1
  auxStates : 0 < s0.numAux → ∀ lx, List.Forall₂ (fun s x => x.patch = roundedPatch s.patch) sol.states lx →
    ∃ ly, (∀ more rest, readAuxStates (timeInfo sol s0).numDim (timeInfo sol s0).numAux (lx ++ more)
      (auxText sol ++ rest) = (ly ++ (readAuxStates (timeInfo sol s0).numDim (timeInfo sol s0).numAux more rest).1,
        (readAuxStates (timeInfo sol s0).numDim (timeInfo sol s0).numAux more rest).2)) ∧
      List.Forall₂ OnlyAux lx ly ∧ List.Forall₂ AuxBack sol.states ly

theorem written (sol : IOSol D M) (hw : Spec.Writable sol) (frame : Nat) (wa : Bool) (fs : Files D M) (idMap : M) :
    ∃ s0 l fs' qt l1, sol.states = s0 :: l ∧ asciiWrite sol frame wa false fs = (fs', .ok ()) ∧
      Written sol s0 frame wa fs fs' idMap qt l1 := by
  obtain ⟨s0, l, hs⟩ : ∃ s0 l, sol.states = s0 :: l := by
    cases h : sol.states with
    | nil => exact absurd h hw.states
    | cons s0 l => exact ⟨s0, l, rfl⟩
  have h0 : s0 ∈ sol.states := by rw [hs]; simp
  have hdom : sol.domain = some (s0.patch :: l.map IOState.patch) := by rw [hw.domain, hs]; rfl
  set ti := timeInfo sol s0 with hti
  set pk : Option (Pickle D M) := some ⟨s0.problemData, s0.mapc2p⟩ with hpk
  obtain ⟨qt, l1, q1, q2, q3⟩ := readStates_ok (qShape false) (fun s => if false then s.p else s.q)
    (readState idMap ti pk) (ReadBackNan ti pk) sol.states (by
      intro s hmem
      obtain ⟨_, e2, e3, e4⟩ := hw.same s0 h0 s hmem
      obtain ⟨txt, s', r1, r2, r3, r4⟩ := reads_state idMap ti pk s (good_patch sol hw s hmem)
        (by show ((s0.patch.dims.length : Nat) : Int) = _; rw [e4]) (by show ((s0.numEqn : Nat) : Int) = _; rw [e2])
        (by show ((s0.numAux : Nat) : Int) = _; rw [e3]) (hw.eqns s hmem)
        fun m hm idx hi => (double_iff _).mp (hw.q s hmem m hm idx ((cell_iff _ _).mpr hi))
      exact ⟨s.numEqn, txt, s', rfl, r1, r2, r3, r4⟩)
  have ha : 0 < s0.numAux → ∀ lx, List.Forall₂ (fun s x => x.patch = roundedPatch s.patch) sol.states lx →
      ∃ ly, (statesText (fun s => .ok s.numAux) (fun s => s.aux) sol.states).2 = .ok () ∧
      (∀ more rest, readAuxStates ti.numDim ti.numAux (lx ++ more) (auxText sol ++ rest) =
        (ly ++ (readAuxStates ti.numDim ti.numAux more rest).1, (readAuxStates ti.numDim ti.numAux more rest).2)) ∧
      List.Forall₂ OnlyAux lx ly ∧ List.Forall₂ AuxBack sol.states ly := by
    intro hpos lx hlx
    refine readAuxStates_ok _ _ _ ?_ lx hlx
    intro s hmem s1 hr
    obtain ⟨_, e2, e3, e4⟩ := hw.same s0 h0 s hmem
    exact reads_aux ti.numDim ti.numAux s s1 (good_patch sol hw s hmem)
      (by show ((s0.patch.dims.length : Nat) : Int) = _; rw [e4]) (by show ((s0.numAux : Nat) : Int) = _; rw [e3])
      (by omega) (fun m hm idx hi => (double_iff _).mp (hw.aux s hmem m hm idx ((cell_iff _ _).mpr hi))) hr
  have haok : 0 < s0.numAux → (statesText (fun s => .ok s.numAux) (fun s => s.aux) sol.states).2 = .ok () := by
    intro hpos
    obtain ⟨_, h, _⟩ := ha hpos l1 (q3.imp fun _ _ h => h.1.patch)
    exact h
  have hwrite : asciiWrite sol frame wa false fs =
      ({ t := Function.update fs.t frame (some (timeText s0.t s0.numEqn sol.states.length s0.numAux s0.patch.dims.length))
         q := Function.update fs.q frame (some qt)
         a := if 0 < s0.numAux ∧ wa then Function.update fs.a frame (some (auxText sol)) else fs.a
         pkl := Function.update fs.pkl frame (some ⟨s0.problemData, s0.mapc2p⟩) }, .ok ()) := by
    unfold asciiWrite
    rw [hs, hdom]
    dsimp only
    unfold auxText
    rw [hs] at q1 haok ⊢
    rw [q1]
    dsimp only
    by_cases hc : 0 < s0.numAux ∧ wa = true
    · simp only [hc, and_self, if_true]
      rw [haok hc.1]
    · simp only [hc, if_false]
  refine ⟨s0, l, _, qt, l1, hs, hwrite, ?_⟩
  refine ⟨⟨_, Function.update_self .., readT_timeText _ _ _ _ _⟩, Function.update_self .., Function.update_self .., rfl,
    fun f hf => Function.update_of_ne hf _ _, fun f hf => Function.update_of_ne hf _ _,
    fun f hf => Function.update_of_ne hf _ _, q2, q3, ?_⟩
  intro hpos lx hlx
  obtain ⟨ly, _, h2⟩ := ha hpos lx hlx
  exact ⟨ly, h2⟩

/-- Reading what was written. -/
theorem read_written {sol : IOSol D M} {s0 : IOState D M} {frame : Nat} {wa : Bool} {fs fs' : Files D M} {idMap : M}
    {qt : List Char} {l1 : List (IOState D M)} (h : Written sol s0 frame wa fs fs' idMap qt l1)
    (hne : sol.states ≠ []) (ra : Bool) (old : IOSol D M) :
    asciiRead idMap fs' frame ra old =
      match old.states ++ l1 with
      | [] => (old, .error .indexError)
      | b :: _ =>
        if 0 < b.numAux ∧ ra then
          match auxFile fs' frame with
          | .none => (⟨old.states ++ l1, some (l1.map IOState.patch)⟩, .ok ())
          | some at' => (⟨(readAuxStates (timeInfo sol s0).numDim (timeInfo sol s0).numAux (old.states ++ l1) at').1,
              some (l1.map IOState.patch)⟩,
              (readAuxStates (timeInfo sol s0).numDim (timeInfo sol s0).numAux (old.states ++ l1) at').2)
        else (⟨old.states ++ l1, some (l1.map IOState.patch)⟩, .ok ()) := by
  obtain ⟨tt, ht1, ht2⟩ := h.t
  have hst := h.states []
  rw [List.append_nil] at hst
  have hl1 : l1 ≠ [] := by
    intro e
    have := h.back.length_eq
    rw [e] at this
    exact hne (List.length_eq_zero_iff.mp this)
  have hns : (timeInfo sol s0).nstates.toNat = sol.states.length := by
    show ((sol.states.length : Nat) : Int).toNat = _
    omega
  unfold asciiRead
  rw [ht1]
  dsimp only
  rw [ht2]
  dsimp only
  rw [h.q]
  dsimp only
  rw [h.pkl, hns, hst]
  dsimp only
  rw [if_neg hl1]
  cases hcat : old.states ++ l1 with
  | nil => exact absurd (List.append_eq_nil_iff.mp hcat).2 hl1
  | cons b l => rfl

theorem sameState_of {ti : TimeInfo} {pk : Option (Pickle D M)} {s s' : IOState D M} (h : ReadBack ti pk s s')
    (hp : GoodPatch s.patch) (ht : ti.t = roundNum 8 s.t) : Spec.SameState s s' := by
  refine ⟨by rw [h.patch]; rfl, by rw [h.patch]; rfl, ?_, ?_, h.numEqn, h.numAux, ?_⟩
  · rw [h.patch]
    exact zipWith_same _ _ hp.le hp.cells
  · rw [h.t, ht]
    exact close_round _
  · intro m hm idx hi
    rw [h.q m hm idx ((cell_iff _ _).mp hi)]
    exact close_round _

end PyClaw
