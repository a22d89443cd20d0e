import Verif.Model.Validity
import Verif.Spec.Validity
import Mathlib.Tactic.Linarith
import Mathlib.Tactic.Ring

/-!
C86: a valid solution stays valid; a finished run can be continued.
-/
namespace PyClaw

theorem position_nil_left (idx : List Nat) : Spec.position [] idx = 0 := by simp [Spec.position]

theorem position_cons (s : Int) (ss : List Int) (i : Nat) (is : List Nat) :
    Spec.position (s :: ss) (i :: is) = s * i + Spec.position ss is := by simp [Spec.position]

theorem position_zeros (ss : List Int) (k : Nat) : Spec.position ss (List.replicate k 0) = 0 := by
  induction ss generalizing k with
  | nil => exact position_nil_left _
  | cons s ss ih => cases k with
    | zero => simp [Spec.position]
    | succ k => rw [List.replicate_succ, position_cons, ih]; simp

theorem fortranRank_zeros (ns : List Nat) (k : Nat) : Spec.fortranRank ns (List.replicate k 0) = 0 := by
  induction ns generalizing k with
  | nil => simp [Spec.fortranRank]
  | cons n ns ih => cases k with
    | zero => simp [Spec.fortranRank]
    | succ k => rw [List.replicate_succ, Spec.fortranRank, ih]; simp

theorem zeros_lt (ns : List Nat) (h : ∀ n ∈ ns, 0 < n) : List.Forall₂ (· < ·) (List.replicate ns.length 0) ns := by
  induction ns with
  | nil => exact List.Forall₂.nil
  | cons n ns ih =>
    rw [List.length_cons, List.replicate_succ]
    exact List.Forall₂.cons (h n (by simp)) (ih fun m hm => h m (by simp [hm]))

theorem fChain_iff (ns : List Nat) (ss : List Int) (hl : ss.length = ns.length) (hpos : ∀ n ∈ ns, 0 < n) (sd : Int) :
    fChain sd ns ss = true ↔
      ∀ idx, List.Forall₂ (· < ·) idx ns → Spec.position ss idx = sd * (Spec.fortranRank ns idx : Int) := by
  induction ns generalizing ss sd with
  | nil =>
    cases ss with
    | nil =>
      constructor
      · intro _ idx hi
        cases hi
        simp [Spec.position, Spec.fortranRank]
      · intro _; rfl
    | cons s ss => simp at hl
  | cons n ns ih =>
    cases ss with
    | nil => simp at hl
    | cons s ss =>
      have hl' : ss.length = ns.length := by simpa using hl
      have hpos' : ∀ m ∈ ns, 0 < m := fun m hm => hpos m (by simp [hm])
      have hn := hpos n (by simp)
      unfold fChain
      rw [Bool.and_eq_true, Bool.or_eq_true, decide_eq_true_eq, decide_eq_true_eq, ih ss hl' hpos']
      constructor
      · rintro ⟨h1, h2⟩ idx hi
        cases hi with
        | cons hx hy =>
          rename_i i is
          rw [position_cons, h2 _ hy, Spec.fortranRank]
          rcases h1 with h1 | h1
          · have : i = 0 := by omega
            subst this
            push_cast; ring
          · rw [h1]; push_cast; ring
      · intro h
        constructor
        · by_cases h1 : n = 1
          · exact Or.inl h1
          · right
            have := h (1 :: List.replicate ns.length 0) (List.Forall₂.cons (by omega) (zeros_lt ns hpos'))
            rw [position_cons, position_zeros, Spec.fortranRank, fortranRank_zeros] at this
            simpa using this
        · intro is hi
          have := h (0 :: is) (List.Forall₂.cons hn hi)
          rw [position_cons, Spec.fortranRank] at this
          push_cast at this
          simp only [mul_zero, zero_add] at this
          rw [this]; ring

theorem not_forall₂_lt_of_zero (ns : List Nat) (h : 0 ∈ ns) (idx : List Nat) : ¬ List.Forall₂ (· < ·) idx ns := by
  intro hf
  induction hf with
  | nil => simp at h
  | cons hx _ ih =>
    rcases List.mem_cons.1 h with h | h
    · omega
    · exact ih h

/-- **C86.** The flag that the checks look at says what it should: it is set exactly if the elements of the array lie one
after the other in Fortran order. -/
theorem C86_flag (a : Layout) (hl : a.strides.length = a.shape.length) :
    a.fContiguous = true ↔ Spec.FortranOrder a := by
  unfold Layout.fContiguous Spec.FortranOrder
  by_cases h0 : 0 ∈ a.shape
  · constructor
    · intro _ idx hi
      exact absurd hi (not_forall₂_lt_of_zero _ h0 idx)
    · intro _
      rw [Bool.or_eq_true]
      left
      rw [List.any_eq_true]
      exact ⟨0, h0, by simp⟩
  · have hpos : ∀ n ∈ a.shape, 0 < n := fun n hn => Nat.pos_of_ne_zero fun h => h0 (h ▸ hn)
    have : (a.shape.any fun n => decide (n = 0)) = false := by
      rw [List.any_eq_false]
      intro n hn
      have := hpos n hn
      simp; omega
    rw [this, Bool.false_or, fChain_iff a.shape a.strides hl hpos]
    simp only [one_mul]

theorem fStrides_length (sd : Int) (ns : List Nat) : (fStrides sd ns).length = ns.length := by
  induction ns generalizing sd with
  | nil => rfl
  | cons n ns ih => simp [fStrides, ih]

theorem fChain_fresh (sd : Int) (ns : List Nat) : fChain sd ns (fStrides sd ns) = true := by
  induction ns generalizing sd with
  | nil => rfl
  | cons n ns ih => simp [fStrides, fChain, ih]

theorem fresh_contiguous (ns : List Nat) : (Layout.fresh ns).fContiguous = true := by
  simp [Layout.fresh, Layout.fContiguous, fChain_fresh]

/-- **C86.** The answer of `is_valid` for a state with unknowns. It raises exactly for a mapped grid without auxiliary
data or with a capacity index that is not one of theirs; otherwise it says whether `q` and `aux` are in Fortran order. -/
theorem C86_is_valid (s : VState) (q : Layout) (hq : s.q = some q) (hl : q.strides.length = q.shape.length)
    (hla : ∀ a, s.aux = some a → a.strides.length = a.shape.length) :
    (s.isValid = .error .valueError ↔ s.mapped = true ∧ ¬ (0 ≤ s.indexCapa ∧ s.indexCapa < s.numAux)) ∧
      (s.isValid = .ok true ↔ (s.mapped = true → 0 ≤ s.indexCapa ∧ s.indexCapa < s.numAux) ∧ Spec.FortranOrder q ∧
        ∀ a, s.aux = some a → Spec.FortranOrder a) ∧
      (s.isValid = .ok false ↔ (s.mapped = true → 0 ≤ s.indexCapa ∧ s.indexCapa < s.numAux) ∧
        ¬ (Spec.FortranOrder q ∧ ∀ a, s.aux = some a → Spec.FortranOrder a)) := by
  have hv : (q.fContiguous && auxContiguous s.aux) = true ↔ (Spec.FortranOrder q ∧ ∀ a, s.aux = some a → Spec.FortranOrder a) := by
    rw [Bool.and_eq_true, C86_flag q hl]
    cases h : s.aux with
    | none => simp [auxContiguous]
    | some a => simp [auxContiguous, C86_flag a (hla a h)]
  have hvf : (q.fContiguous && auxContiguous s.aux) = false ↔ ¬ (Spec.FortranOrder q ∧ ∀ a, s.aux = some a → Spec.FortranOrder a) := by
    rw [← hv, Bool.not_eq_true]
  by_cases hm : s.mapped = true
  · have hval : s.isValid = if 0 ≤ s.indexCapa ∧ s.indexCapa < s.numAux then
        .ok (q.fContiguous && auxContiguous s.aux) else .error .valueError := by
      unfold VState.isValid
      rw [hq]
      simp only [hm, if_true]
      clear hv hvf
      cases h : s.aux with
      | none =>
        have : s.numAux = 0 := by simp [VState.numAux, h]
        simp only
        rw [if_neg (by omega)]
      | some a =>
        simp only
        by_cases h1 : s.indexCapa = -1
        · rw [if_pos h1, if_neg (by omega)]
        · rw [if_neg h1]
          by_cases h2 : s.indexCapa < 0 ∨ s.indexCapa > (s.numAux : Int) - 1
          · rw [if_pos h2, if_neg (by omega)]
          · rw [if_neg h2, if_pos (by omega)]
    rw [hval]
    by_cases hc : 0 ≤ s.indexCapa ∧ s.indexCapa < s.numAux
    · rw [if_pos hc]
      refine ⟨by simp [hc], ?_, ?_⟩
      · rw [Except.ok.injEq, hv]; simp [hc]
      · rw [Except.ok.injEq, hvf]; simp [hc]
    · rw [if_neg hc]
      refine ⟨by simp only [hm, hc]; simp, ?_, ?_⟩
      · simp only [hm, hc]; simp
      · simp only [hm, hc]; simp
  · have hval : s.isValid = .ok (q.fContiguous && auxContiguous s.aux) := by
      unfold VState.isValid
      rw [hq]
      simp [hm]
    rw [hval]
    refine ⟨by simp [hm], ?_, ?_⟩
    · rw [Except.ok.injEq, hv]; simp [hm]
    · rw [Except.ok.injEq, hvf]; simp [hm]

/-- A solution is valid exactly if all its states are, and it raises exactly if one of them does. -/
theorem C86_solution (states : List VState) :
    (solutionValid states = .ok true ↔ ∀ s ∈ states, s.isValid = .ok true) ∧
      (solutionValid states = .ok false ↔ (∀ s ∈ states, ∃ b, s.isValid = .ok b) ∧ ∃ s ∈ states, s.isValid = .ok false) := by
  unfold solutionValid
  induction states with
  | nil => simp [allValid]
  | cons s l ih =>
    unfold allValid
    cases hs : s.isValid with
    | error e => simp [hs]
    | ok b =>
      simp only
      cases hl : allValid l with
      | error e =>
        rw [hl] at ih
        simp only [reduceCtorEq, false_iff] at ih ⊢
        refine ⟨fun h => ih.1 fun x hx => h x (by simp [hx]), fun h => ?_⟩
        -- some later state raises
        have hex : ∃ x ∈ l, ∃ e, x.isValid = .error e := by
          clear ih h
          induction l generalizing e with
          | nil => simp [allValid] at hl
          | cons y l ih =>
            unfold allValid at hl
            cases hy : y.isValid with
            | error e' => exact ⟨y, by simp, e', hy⟩
            | ok b' =>
              rw [hy] at hl
              simp only at hl
              cases hl' : allValid l with
              | error e' =>
                obtain ⟨x, hx, e2, h2⟩ := ih e' hl'
                exact ⟨x, by simp [hx], e2, h2⟩
              | ok bs => rw [hl'] at hl; simp at hl
        obtain ⟨x, hx, e2, h2⟩ := hex
        obtain ⟨b', hb'⟩ := h.1 x (by simp [hx])
        rw [h2] at hb'
        cases hb'
      | ok bs =>
        rw [hl] at ih
        simp only [Except.ok.injEq] at ih ⊢
        have hall : ∀ x ∈ l, ∃ b, x.isValid = .ok b := by
          by_cases hb : bs.all id = true
          · exact fun x hx => ⟨true, ih.1.1 hb x hx⟩
          · exact (ih.2.1 (by simpa using hb)).1
        constructor
        · rw [List.all_cons, Bool.and_eq_true, ih.1]
          simp [hs]
        · constructor
          · intro h
            refine ⟨by
              intro x hx
              rcases List.mem_cons.1 hx with rfl | hx
              · exact ⟨b, hs⟩
              · exact hall x hx, ?_⟩
            rw [List.all_cons, Bool.and_eq_false_iff] at h
            rcases h with h | h
            · exact ⟨s, by simp, by rw [hs]; simpa using h⟩
            · obtain ⟨_, x, hx, h2⟩ := ih.2.1 h
              exact ⟨x, by simp [hx], h2⟩
          · rintro ⟨_, x, hx, h2⟩
            rw [List.all_cons, Bool.and_eq_false_iff]
            rcases List.mem_cons.1 hx with rfl | hx
            · left
              rw [hs] at h2
              simpa using h2
            · right
              exact ih.2.2 ⟨hall, x, hx, h2⟩

/-- **C86.** A new state with at least one unknown, on a grid without mapping, is valid, and the controller accepts it. -/
theorem C86_new (cells : List Nat) (numEqn numAux : Nat) (h : 0 < numEqn) :
    (VState.new cells numEqn numAux false).isValid = .ok true ∧
      checkValidity none [VState.new cells numEqn numAux false] = .ok () := by
  have hv : (VState.new cells numEqn numAux false).isValid = .ok true := by
    unfold VState.isValid VState.new vNewArray
    rw [if_neg (by omega : ¬ numEqn = 0)]
    by_cases ha : numAux = 0
    · simp [ha, fresh_contiguous, auxContiguous]
    · simp [ha, fresh_contiguous, auxContiguous]
  refine ⟨hv, ?_⟩
  simp [checkValidity, solutionValid, allValid, hv]

/-! ### After steps of a classic solver -/

theorem sliceExtent_bc (g n : Nat) (hg : 0 < g) : sliceExtent g (n + 2 * g) = n := by
  unfold sliceExtent
  rw [if_neg (by omega), Nat.min_eq_left (by omega)]
  omega

theorem interior_bc (g : Nat) (hg : 0 < g) (cells : List Nat) (m : Nat) :
    (bcLayout g cells m).interior g = ⟨m :: cells, fStrides 1 (m :: cells.map (· + 2 * g))⟩ := by
  unfold bcLayout Layout.interior Layout.fresh
  simp only [List.map_map]
  congr 2
  conv_rhs => rw [← List.map_id cells]
  apply List.map_congr_left
  intro n _
  exact sliceExtent_bc g n hg

/-- Strides that are too large: contiguous only if nothing moves along these axes. -/
theorem fChain_large (g : Nat) (ns : List Nat) (a b : Int) (hab : a < b) (ha : 0 < a) :
    fChain a ns (fStrides b (ns.map (· + 2 * g))) = true ↔ ∀ n ∈ ns, n = 1 := by
  induction ns generalizing a b with
  | nil => simp [fChain]
  | cons n ns ih =>
    simp only [List.map_cons, fStrides, fChain, Bool.and_eq_true, Bool.or_eq_true, decide_eq_true_eq]
    have hne : ¬ b = a := by omega
    by_cases h1 : n = 1
    · subst h1
      simp only [true_or, true_and, List.mem_cons, forall_eq_or_imp]
      refine ih _ _ ?_ ?_
      · have : (0 : Int) ≤ b * (2 * g) := mul_nonneg (by omega) (by positivity)
        push_cast
        nlinarith
      · simpa using ha
    · simp [h1, hne]

theorem interior_contiguous (g : Nat) (hg : 0 < g) (cells : List Nat) (m : Nat) (hm : 0 < m) (hc : ∀ n ∈ cells, 0 < n) :
    ((bcLayout g cells m).interior g).fContiguous = true ↔ ∀ n ∈ cells.tail, n = 1 := by
  rw [interior_bc g hg]
  unfold Layout.fContiguous
  have h0 : ((m :: cells).any fun n => decide (n = 0)) = false := by
    rw [List.any_eq_false]
    intro n hn
    rcases List.mem_cons.1 hn with rfl | hn
    · simp; omega
    · have := hc n hn; simp; omega
  rw [h0, Bool.false_or]
  cases hcs : cells with
  | nil => simp [fStrides, fChain]
  | cons n ns =>
    simp only [List.map_cons, fStrides, fChain, decide_true, Bool.or_true, Bool.true_and, List.tail_cons]
    have hn := hc n (by rw [hcs]; simp)
    refine fChain_large g ns _ _ ?_ ?_
    · push_cast
      have : (0 : Int) < m := by exact_mod_cast hm
      have : (0 : Int) < g := by exact_mod_cast hg
      nlinarith
    · have : (0 : Int) < m := by exact_mod_cast hm
      have : (0 : Int) < n := by exact_mod_cast hn
      positivity

theorem interior_shape (g : Nat) (hg : 0 < g) (cells : List Nat) (m : Nat) :
    ((bcLayout g cells m).interior g).shape = m :: cells := by rw [interior_bc g hg]

/-- What every state reached from a new one looks like. -/
structure Reached (cells : List Nat) (numEqn numAux : Nat) (mapped : Bool) (capa : Int) (s : VState) : Prop where
  hcells : s.cells = cells
  hq : ∃ q, s.q = some q ∧ q.shape = numEqn :: cells
  haux : (numAux = 0 ∧ s.aux = none) ∨ (0 < numAux ∧ ∃ a, s.aux = some a ∧ a.shape = numAux :: cells)
  hmapped : s.mapped = mapped
  hcapa : s.indexCapa = capa

variable {cells : List Nat} {numEqn numAux : Nat} {mapped : Bool} {capa : Int}

theorem Reached.numAux_eq {s : VState} (h : Reached cells numEqn numAux mapped capa s) : s.numAux = numAux := by
  unfold VState.numAux
  rcases h.haux with ⟨h1, h2⟩ | ⟨_, a, h2, h3⟩
  · rw [h2, h1]
  · rw [h2]; simp [h3]

/-- The state after a step that is accepted: both arrays are views. -/
theorem pass_accepted (g : Nat) (hg : 0 < g) (hd : 1 ≤ cells.length ∧ cells.length ≤ 3) {s : VState}
    (h : Reached cells numEqn numAux mapped capa s) :
    ∃ s', passViews g s true = (s', .ok ()) ∧ Reached cells numEqn numAux mapped capa s' ∧
      s'.q = some ((bcLayout g cells numEqn).interior g) ∧
      s'.aux = if numAux = 0 then none else some ((bcLayout g cells numAux).interior g) := by
  obtain ⟨q, hq, hqs⟩ := h.hq
  unfold passViews stepViews viewLayout
  simp only [hq, h.numAux_eq, h.hcells, if_pos hd, hqs, List.headD_cons]
  rcases h.haux with ⟨h1, h2⟩ | ⟨h1, a, h2, h3⟩
  · rw [if_neg (by omega)]
    refine ⟨_, rfl, ⟨by simp, ⟨_, rfl, by rw [interior_shape g hg]⟩, Or.inl ⟨h1, h2⟩, h.hmapped, h.hcapa⟩, ?_, ?_⟩
    · simp
    · simp [h1, h2]
  · rw [if_pos h1]
    refine ⟨_, rfl, ⟨by simp, ⟨_, rfl, by rw [interior_shape g hg]⟩,
      Or.inr ⟨h1, _, rfl, by rw [interior_shape g hg]⟩, h.hmapped, h.hcapa⟩, ?_, ?_⟩
    · simp
    · simp; omega

/-- The state after a step that is rejected: `q` is the backup. -/
theorem pass_rejected (g : Nat) (hg : 0 < g) (hd : 1 ≤ cells.length ∧ cells.length ≤ 3) {s : VState}
    (h : Reached cells numEqn numAux mapped capa s) :
    ∃ s', passViews g s false = (s', .ok ()) ∧ Reached cells numEqn numAux mapped capa s' ∧
      s'.q = some (Layout.fresh (numEqn :: cells)) ∧
      s'.aux = if numAux = 0 then none else some ((bcLayout g cells numAux).interior g) := by
  obtain ⟨q, hq, hqs⟩ := h.hq
  unfold passViews stepViews viewLayout
  simp only [hq, h.numAux_eq, h.hcells, if_pos hd, hqs, List.headD_cons]
  rcases h.haux with ⟨h1, h2⟩ | ⟨h1, a, h2, h3⟩
  · rw [if_neg (by omega)]
    refine ⟨_, rfl, ⟨by simp, ⟨_, rfl, by simp [Layout.fresh, hqs]⟩, Or.inl ⟨h1, h2⟩, h.hmapped, h.hcapa⟩, ?_, ?_⟩
    · simp [hqs]
    · simp [h1, h2]
  · rw [if_pos h1]
    refine ⟨_, rfl, ⟨by simp, ⟨_, rfl, by simp [Layout.fresh, hqs]⟩, Or.inr ⟨h1, _, rfl, by rw [interior_shape g hg]⟩, h.hmapped, h.hcapa⟩,
      ?_, ?_⟩
    · simp [hqs]
    · simp; omega

theorem new_reached (hne : 0 < numEqn) : Reached cells numEqn numAux mapped (-1) (VState.new cells numEqn numAux mapped) := by
  refine ⟨rfl, ⟨Layout.fresh (numEqn :: cells), ?_, rfl⟩, ?_, rfl, rfl⟩
  · simp [VState.new, vNewArray]; omega
  · by_cases h : numAux = 0
    · exact Or.inl ⟨h, by simp [VState.new, vNewArray, h]⟩
    · exact Or.inr ⟨by omega, Layout.fresh (numAux :: cells), by simp [VState.new, vNewArray, h], rfl⟩

theorem passes_reached (g : Nat) (hg : 0 < g) (hd : 1 ≤ cells.length ∧ cells.length ≤ 3) (l : List Bool) {s : VState}
    (h : Reached cells numEqn numAux mapped capa s) :
    ∃ s', passesViews g s l = (s', .ok ()) ∧ Reached cells numEqn numAux mapped capa s' := by
  induction l generalizing s with
  | nil => exact ⟨s, rfl, h⟩
  | cons a l ih =>
    unfold passesViews
    cases a with
    | true =>
      obtain ⟨s1, h1, h2, _⟩ := pass_accepted g hg hd h
      obtain ⟨s2, h3, h4⟩ := ih h2
      exact ⟨s2, by simp only [h1, h3], h4⟩
    | false =>
      obtain ⟨s1, h1, h2, _⟩ := pass_rejected g hg hd h
      obtain ⟨s2, h3, h4⟩ := ih h2
      exact ⟨s2, by simp only [h1, h3], h4⟩

theorem passes_append (g : Nat) (l l' : List Bool) (s s1 : VState) (h : passesViews g s l = (s1, .ok ())) :
    passesViews g s (l ++ l') = passesViews g s1 l' := by
  induction l generalizing s with
  | nil => simp only [passesViews, Prod.mk.injEq] at h; rw [List.nil_append, h.1]
  | cons a l ih =>
    rw [List.cons_append]
    unfold passesViews at h
    conv_lhs => unfold passesViews
    cases hp : passViews g s a with
    | mk s2 r => cases r with
      | error e => rw [hp] at h; simp at h
      | ok _ => rw [hp] at h; exact ih s2 h

/-- The state after a history that ends with an accepted step. -/
theorem passes_accepted (g : Nat) (hg : 0 < g) (hd : 1 ≤ cells.length ∧ cells.length ≤ 3) (l : List Bool) {s : VState}
    (h : Reached cells numEqn numAux mapped capa s) :
    ∃ s', passesViews g s (l ++ [true]) = (s', .ok ()) ∧ Reached cells numEqn numAux mapped capa s' ∧
      s'.q = some ((bcLayout g cells numEqn).interior g) ∧
      s'.aux = if numAux = 0 then none else some ((bcLayout g cells numAux).interior g) := by
  obtain ⟨s1, h1, h2⟩ := passes_reached g hg hd l h
  obtain ⟨s2, h3, h4, h5, h6⟩ := pass_accepted g hg hd h2
  refine ⟨s2, ?_, h4, h5, h6⟩
  rw [passes_append g l [true] s s1 h1]
  simp [passesViews, h3]

theorem accepted_valid (g : Nat) (hg : 0 < g) (hne : 0 < numEqn) (hc : ∀ n ∈ cells, 0 < n) {s : VState}
    (h : Reached cells numEqn numAux false capa s) (hq : s.q = some ((bcLayout g cells numEqn).interior g))
    (ha : s.aux = if numAux = 0 then none else some ((bcLayout g cells numAux).interior g)) :
    s.isValid = .ok (decide (∀ n ∈ cells.tail, n = 1)) := by
  have key : ∀ m, 0 < m → ((bcLayout g cells m).interior g).fContiguous = decide (∀ n ∈ cells.tail, n = 1) := by
    intro m hm
    rw [Bool.eq_iff_iff, interior_contiguous g hg cells m hm hc, decide_eq_true_eq]
  unfold VState.isValid
  rw [hq, ha]
  simp only [h.hmapped, Bool.false_eq_true, if_false, Except.ok.injEq]
  rw [key _ hne]
  unfold auxContiguous
  by_cases h0 : numAux = 0
  · simp [h0]
  · simp only [if_neg h0]
    rw [key _ (by omega), Bool.and_self]

/-- **C86** (partial: grids without mapping; classic solvers). After a run of a classic solver that took at least one
step, `q` and `aux` have the shapes they had, and the solution is valid exactly if the grid has one cell in every dimension
but the first. In particular in one dimension a run leaves a valid solution, and it can be run again: whatever the decisions
of both runs. -/
theorem C86_after_run_partial (g : Nat) (hg : 0 < g) (hne : 0 < numEqn) (hc : ∀ n ∈ cells, 0 < n)
    (hd : 1 ≤ cells.length ∧ cells.length ≤ 3) (decisions : List Bool) :
    ∃ s', runViews g none (VState.new cells numEqn numAux false) (decisions ++ [true]) = (s', .ok ()) ∧
      s'.q.map (·.shape) = some (numEqn :: cells) ∧
      s'.aux.map (·.shape) = (if numAux = 0 then none else some (numAux :: cells)) ∧
      (solutionValid [s'] = .ok true ↔ ∀ n ∈ cells.tail, n = 1) ∧
      (cells.length = 1 → ∀ more, ∃ s'', runViews g none s' more = (s'', .ok ())) := by
  obtain ⟨s', h1, h2, h3, h4⟩ :=
    passes_accepted (cells := cells) (numAux := numAux) g hg hd decisions (new_reached (mapped := false) hne)
  have hv := accepted_valid g hg hne hc h2 h3 h4
  refine ⟨s', ?_, ?_, ?_, ?_, ?_⟩
  · unfold runViews
    rw [(C86_new cells numEqn numAux hne).2]
    exact h1
  · rw [h3, Option.map_some, interior_shape g hg]
  · rw [h4]
    split <;> simp [interior_shape g hg]
  · rw [(C86_solution [s']).1]
    simp [hv]
  · intro h1d more
    have ht : cells.tail = [] := by
      match cells, h1d with
      | [_], _ => rfl
    rw [ht] at hv
    obtain ⟨s2, h5, _⟩ := passes_reached (cells := cells) g hg hd more h2
    refine ⟨s2, ?_⟩
    unfold runViews
    have : checkValidity none [s'] = .ok () := by
      simp [checkValidity, solutionValid, allValid, hv]
    rw [this]
    exact h5

/-- **C86 fails** in two and three dimensions: after any run of a classic solver whose last step was accepted (as it is when
`evolve_to_time` reaches its end time), on any grid with more than one cell in a dimension other than the first,
`solution.is_valid()` is false, and running the controller again raises `Initial solution is not valid.` without a step. -/
theorem C86_second_run_violated (g : Nat) (hg : 0 < g) (hne : 0 < numEqn) (hc : ∀ n ∈ cells, 0 < n)
    (hd : 1 ≤ cells.length ∧ cells.length ≤ 3) (hbig : ∃ n ∈ cells.tail, 1 < n) (decisions : List Bool) :
    ∃ s', runViews g none (VState.new cells numEqn numAux false) (decisions ++ [true]) = (s', .ok ()) ∧
      solutionValid [s'] = .ok false ∧
      ∀ more, runViews g none s' more = (s', .error (.exception "Initial solution is not valid.")) := by
  obtain ⟨s', h1, h2, h3, h4⟩ :=
    passes_accepted (cells := cells) (numAux := numAux) g hg hd decisions (new_reached (mapped := false) hne)
  have hv := accepted_valid g hg hne hc h2 h3 h4
  have hf : ¬ ∀ n ∈ cells.tail, n = 1 := by
    obtain ⟨n, hn, h⟩ := hbig
    intro hall
    have := hall n hn
    omega
  rw [decide_eq_false hf] at hv
  refine ⟨s', ?_, ?_, ?_⟩
  · unfold runViews
    rw [(C86_new cells numEqn numAux hne).2]
    exact h1
  · rw [(C86_solution [s']).2]
    simp [hv]
  · intro more
    unfold runViews
    simp [checkValidity, solutionValid, allValid, hv]

/-! Concrete cases. -/

/-- A 4 by 3 grid, three unknowns, two ghost cells: one accepted step makes the solution invalid. -/
example : ∃ s', runViews 2 none (VState.new [4, 3] 3 1 false) [true] = (s', .ok ()) ∧ solutionValid [s'] = .ok false :=
  ⟨_, rfl, by decide +kernel⟩

/-- The hypotheses of `C86_second_run_violated` are met by that grid. -/
example : ∃ s', runViews 2 none (VState.new [4, 3] 3 0 false) ([true, false] ++ [true]) = (s', .ok ()) ∧
    solutionValid [s'] = .ok false ∧
    ∀ more, runViews 2 none s' more = (s', .error (.exception "Initial solution is not valid.")) :=
  C86_second_run_violated 2 (by norm_num) (by norm_num) (by decide) (by decide) ⟨3, by simp, by norm_num⟩ [true, false]

/-- In one dimension the run can be repeated. -/
example : ∃ s', runViews 2 none (VState.new [5] 3 2 false) ([false] ++ [true]) = (s', .ok ()) ∧ solutionValid [s'] = .ok true :=
  ⟨_, rfl, by decide +kernel⟩

/-- A mapped grid with capacity index 0 of one auxiliary field is valid; with index 1 it raises. -/
example : ({ VState.new [4, 3] 3 1 true with indexCapa := 0 } : VState).isValid = .ok true ∧
    ({ VState.new [4, 3] 3 1 true with indexCapa := 1 } : VState).isValid = .error .valueError := by decide +kernel

end PyClaw
