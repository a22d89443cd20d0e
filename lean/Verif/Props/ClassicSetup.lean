import Verif.Spec.ClassicSetup
import Mathlib.Tactic.Ring

set_option linter.unusedSectionVars false

/-!
C110: the steps of a classic solver do what its attributes say.
-/
namespace PyClaw
open Spec

variable {R V : Type*} [DecidableEq R]

/-! ### Set-up -/

theorem mthlim_ok (s : ClassicSettings R) : (classicMthlim s).2.2 = true ↔ LimitersFit s := by
  unfold classicMthlim LimitersFit
  match h : s.limiters with
  | .one n => simp
  | .list l =>
    by_cases h1 : l.length = 1
    · simp [h1]
    · simp [h1]

theorem replicate_single (n : Nat) (x : Int) : (List.replicate n [x]).flatten = List.replicate n x := by
  induction n with
  | zero => rfl
  | succ n ih => rw [List.replicate_succ, List.flatten_cons, ih]; rfl

/-- The limiters that `_set_mthlim` leaves. -/
theorem mthlim_spec (s : ClassicSettings R) (h : (classicMthlim s).2.2 = true) :
    (classicMthlim s).1.length = s.numWaves ∧ (∀ p, p < s.numWaves → (classicMthlim s).1[p]? = limiterFor s.limiters p) ∧
    ((classicMthlim s).2.1 = true ↔ ∃ l, s.limiters = .list l ∧ l.length ≠ 1) ∧
    (∀ l, s.limiters = .list l → l.length ≠ 1 → (classicMthlim s).1 = l) := by
  have hl : (classicMthlim s).1.length = s.numWaves := by
    unfold classicMthlim at h ⊢
    simpa using h
  refine ⟨hl, ?_⟩
  unfold classicMthlim
  match e : s.limiters with
  | .one n =>
    refine ⟨fun p hp => ?_, by simp, by simp⟩
    simp [replicate_single, hp, limiterFor]
  | .list [] => simp [limiterFor]
  | .list [n] =>
    refine ⟨fun p hp => ?_, by simp, by simp⟩
    simp [replicate_single, hp, limiterFor]
  | .list (n :: n' :: l) => simp [limiterFor]

theorem setCparam_ok (block : R → Option (List String)) (r : R) (st : RunState V) (common : R → String → Option V) :
    (setCparam block r st common).isSome = true ↔ ∀ names, block r = some names → ∀ x ∈ names, st.data x ≠ none := by
  unfold setCparam
  match h : block r with
  | none => simp
  | some names =>
    simp only [Option.some.injEq, forall_eq']
    by_cases c : names.all fun x => (st.data x).isSome
    · simp only [c, if_true, Option.isSome_some, true_iff]
      intro x hx
      have := List.all_eq_true.1 c x hx
      exact Option.isSome_iff_ne_none.1 this
    · simp only [c]
      simp only [List.all_eq_true, not_forall] at c
      obtain ⟨x, hx, hc⟩ := c
      refine ⟨fun h => absurd h (by simp), fun h => absurd (Option.isSome_iff_ne_none.2 (h x hx)) hc⟩

theorem setCparam_spec (block : R → Option (List String)) (r : R) (st : RunState V) (common common' : R → String → Option V)
    (h : setCparam block r st common = some common') :
    (∀ names, block r = some names → ∀ x ∈ names, common' r x = st.data x) ∧ ∀ r', r' ≠ r → common' r' = common r' := by
  unfold setCparam at h
  match e : block r with
  | none =>
    rw [e] at h
    obtain rfl := Option.some.inj h
    exact ⟨by simp, fun _ _ => rfl⟩
  | some names =>
    rw [e] at h
    simp only at h
    split_ifs at h with c
    obtain rfl := Option.some.inj h
    refine ⟨fun l hl x hx => ?_, fun r' hr => Function.update_of_ne hr _ _⟩
    obtain rfl := Option.some.inj hl
    have := List.all_eq_true.1 c x hx
    rw [Function.update_self]
    match e2 : st.data x with
    | some v => rfl
    | none => simp [e2] at this

/-- Whether `setup` returns. -/
theorem setup_ok (block : R → Option (List String)) (p : SolverProcess R V) (i : Nat) (st : RunState V) :
    (classicSetup block p i st).2 = true ↔ Acceptable block (p.solver i).set st := by
  unfold Acceptable
  rw [← mthlim_ok]
  unfold classicSetup
  by_cases h1 : (classicMthlim (p.solver i).set).2.2 = true
  · by_cases h2 : (p.solver i).set.fortran = true
    · simp only [h1, h2, if_true, true_and, forall_const, reduceCtorEq, false_implies, and_true]
      rw [← setCparam_ok block _ st p.common]
      match e : setCparam block (p.solver i).set.rp st p.common with
      | none => simp
      | some c => simp
    · by_cases h3 : 1 < (p.solver i).set.numDim
      · simp [h1, h2, h3]
      · simp only [h1, h2, h3, if_true, if_false, Bool.false_eq_true, true_and, false_implies]
        simp only [true_iff]
        intro _; omega
  · simp [h1]

/-- What the object of solver `i` and the common blocks are after `setup`. -/
structure ReadyFor (block : R → Option (List String)) (i : Nat) (st : RunState V) (p : SolverProcess R V) : Prop where
  isSetUp : (p.solver i).isSetUp = true
  fits : (classicMthlim (p.solver i).set).2.2 = true
  mthlim : (p.solver i).mthlim = (classicMthlim (p.solver i).set).1
  shared : (p.solver i).shared = (classicMthlim (p.solver i).set).2.1
  method : (p.solver i).set.fortran = true → (p.solver i).method = some (classicMethod (p.solver i).set st)
  params : (p.solver i).set.fortran = true → ∀ names, block (p.solver i).set.rp = some names → ∀ x ∈ names,
    p.common (p.solver i).set.rp x = st.data x
  python : (p.solver i).set.fortran = false → (p.solver i).set.numDim ≤ 1

theorem setup_set (block : R → Option (List String)) (p : SolverProcess R V) (i : Nat) (st : RunState V) (j : Nat) :
    ((classicSetup block p i st).1.solver j).set = (p.solver j).set := by
  by_cases h : j = i
  · subst h
    unfold classicSetup
    dsimp only
    split_ifs <;> try split
    all_goals simp
  · unfold classicSetup
    dsimp only
    split_ifs <;> try split
    all_goals simp [Function.update_of_ne h]

theorem setup_other (block : R → Option (List String)) (p : SolverProcess R V) (i : Nat) (st : RunState V) (j : Nat) (h : j ≠ i) :
    (classicSetup block p i st).1.solver j = p.solver j := by
  unfold classicSetup
  dsimp only
  split_ifs <;> try split
  all_goals simp [Function.update_of_ne h]

theorem setup_log (block : R → Option (List String)) (p : SolverProcess R V) (i : Nat) (st : RunState V) :
    (classicSetup block p i st).1.log = p.log := by
  unfold classicSetup
  dsimp only
  split_ifs <;> try split
  all_goals rfl

theorem setup_common (block : R → Option (List String)) (p : SolverProcess R V) (i : Nat) (st : RunState V) :
    (∀ r, r ≠ (p.solver i).set.rp → (classicSetup block p i st).1.common r = p.common r) ∧
    ((classicSetup block p i st).1.common = p.common ∨
      ∀ names, block (p.solver i).set.rp = some names → ∀ x ∈ names, (classicSetup block p i st).1.common (p.solver i).set.rp x = st.data x) := by
  unfold classicSetup
  dsimp only
  split_ifs
  · match e : setCparam block (p.solver i).set.rp st p.common with
    | none => exact ⟨fun _ _ => rfl, Or.inl rfl⟩
    | some c =>
      have := setCparam_spec _ _ _ _ _ e
      exact ⟨this.2, Or.inr this.1⟩
  all_goals exact ⟨fun _ _ => rfl, Or.inl rfl⟩

theorem classicSetup_ready (block : R → Option (List String)) (p : SolverProcess R V) (i : Nat) (st : RunState V)
    (h : (classicSetup block p i st).2 = true) : ReadyFor block i st (classicSetup block p i st).1 := by
  have h1 : (classicMthlim (p.solver i).set).2.2 = true := by
    by_contra c
    unfold classicSetup at h
    simp [c] at h
  have hs := setup_set block p i st i
  by_cases h2 : (p.solver i).set.fortran = true
  · match e : setCparam block (p.solver i).set.rp st p.common with
    | none =>
      unfold classicSetup at h
      simp [h1, h2, e] at h
    | some c =>
      have e' : (classicSetup block p i st).1 = { p with
          solver := Function.update p.solver i { (p.solver i) with
            mthlim := (classicMthlim (p.solver i).set).1, shared := (classicMthlim (p.solver i).set).2.1
            method := some (classicMethod (p.solver i).set st), isSetUp := true }, common := c } := by
        unfold classicSetup
        simp only [h1, h2, if_true, e]
      rw [e']
      constructor <;> simp only [Function.update_self]
      · exact h1
      · intro _; trivial
      · intro _ names hn x hx
        exact (setCparam_spec _ _ _ _ _ e).1 names hn x hx
      · intro hf; rw [h2] at hf; cases hf
  · have h2' : (p.solver i).set.fortran = false := by simpa using h2
    have h3 : ¬ 1 < (p.solver i).set.numDim := by
      intro c
      unfold classicSetup at h
      simp [h1, h2', c] at h
    have e' : (classicSetup block p i st).1 = { p with
        solver := Function.update p.solver i { (p.solver i) with
          mthlim := (classicMthlim (p.solver i).set).1, shared := (classicMthlim (p.solver i).set).2.1, isSetUp := true } } := by
      unfold classicSetup
      simp only [h1, h2', h3, if_true, if_false, Bool.false_eq_true]
    rw [e']
    constructor <;> simp only [Function.update_self]
    · exact h1
    · intro hf; rw [h2'] at hf; cases hf
    · intro hf; rw [h2'] at hf; cases hf
    · intro _; omega

/-! ### Steps -/

theorem capaOf_succ (n : Int) : capaOf (n + 1) = if n < 0 then none else some n.toNat := by
  unfold capaOf
  by_cases h : n < 0
  · rw [if_pos h, if_neg (by omega)]
  · rw [if_neg h, if_pos (by omega)]
    congr 2
    omega

/-- A solver that is ready makes steps as its attributes say. -/
theorem ready_follows (block : R → Option (List String)) (i : Nat) (st st' : RunState V) (p : SolverProcess R V) (hp : ReadyFor block i st p)
    (hs : (p.solver i).set.fortran = true → SameFor (block (p.solver i).set.rp) st st') (hd : 0 < (p.solver i).set.numDim) :
    ∃ c, kernelCall (p.solver i) st' p.common = some c ∧ CallFollows block (p.solver i).set st' c := by
  have hl := mthlim_spec _ hp.fits
  by_cases hf : (p.solver i).set.fortran = true
  · obtain ⟨s1, s2, s3⟩ := hs hf
    unfold kernelCall
    rw [if_pos hf, hp.method hf]
    refine ⟨_, rfl, ⟨rfl, rfl, ?_, ?_, rfl, ?_, s2.symm, ?_, ?_, ?_, ?_⟩⟩
    · simp only [hp.mthlim]; exact hl.1
    · simp only [hp.mthlim]; exact hl.2.1
    · simp only [classicMethod]
      rw [capaOf_succ, s1]
    · intro names hn x hx
      exact (hp.params hf names hn x hx).trans (s3 names hn x hx).symm
    · simp
    · intro h
      simp only [classicMethod]
      split_ifs with h1 h2
      · exact le_refl 0
      · norm_num
      · rcases h with h | h
        · exact absurd h h1
        · exact absurd h h2
    · intro h1 h2
      simp only [classicMethod, if_neg h1, h2]
      simp [h1]
  · have hf' : (p.solver i).set.fortran = false := by simpa using hf
    have h1 : (p.solver i).set.numDim = 1 := by have := hp.python hf'; omega
    unfold kernelCall
    rw [if_neg hf, if_pos h1]
    refine ⟨_, rfl, ⟨rfl, rfl, ?_, ?_, rfl, ?_, rfl, fun _ _ _ _ => rfl, ?_, fun _ => le_refl 0, fun h => absurd h1 h⟩⟩
    · simp only [hp.mthlim]; exact hl.1
    · simp only [hp.mthlim]; exact hl.2.1
    · by_cases c : st'.indexCapa < 0
      · rw [if_pos c, if_neg (by omega)]
      · rw [if_neg c, if_pos (by omega)]
    · simp [h1]

theorem evolve_ready (block : R → Option (List String)) (i : Nat) (st : RunState V) (p : SolverProcess R V)
    (h : (p.solver i).isSetUp = true) (c : KernelCall R V) (hc : kernelCall (p.solver i) st p.common = some c) :
    p.act block (.evolve i st) = { p with log := p.log ++ [(i, c)] } := by
  simp only [SolverProcess.act, h, if_true, hc]

/-- C110, the first run of a solver: whatever the process did before, if the attributes fit each other then the steps do what they say;
otherwise the call raises before any step. -/
theorem C110_first_run (block : R → Option (List String)) (p : SolverProcess R V) (i : Nat) (st : RunState V)
    (hd : 0 < (p.solver i).set.numDim) (hn : (p.solver i).isSetUp = false) :
    let p' := p.act block (.evolve i st)
    (p'.solver i).set = (p.solver i).set ∧
    (Acceptable block (p.solver i).set st → (p'.solver i).isSetUp = true ∧
      ∃ c, p'.log = p.log ++ [(i, c)] ∧ CallFollows block (p.solver i).set st c) ∧
    (¬ Acceptable block (p.solver i).set st → (p'.solver i).isSetUp = false ∧ p'.log = p.log) := by
  have hset := setup_set block p i st i
  by_cases ok : (classicSetup block p i st).2 = true
  · have R := classicSetup_ready block p i st ok
    obtain ⟨c, hc, hF⟩ := ready_follows block i st st _ R (fun _ => ⟨rfl, rfl, fun _ _ _ _ => rfl⟩) (by rw [hset]; exact hd)
    have e : p.act block (.evolve i st) = { (classicSetup block p i st).1 with log := p.log ++ [(i, c)] } := by
      simp only [SolverProcess.act, hn, Bool.false_eq_true, if_false, ok, if_true, hc]
      rw [setup_log]
    simp only [e]
    rw [hset] at hF
    exact ⟨hset, fun _ => ⟨R.isSetUp, c, rfl, hF⟩, fun h => absurd ((setup_ok block p i st).1 ok) h⟩
  · have e : p.act block (.evolve i st) = (classicSetup block p i st).1 := by
      simp only [SolverProcess.act, hn, Bool.false_eq_true, if_false, ok]
    simp only [e]
    refine ⟨hset, fun h => absurd ((setup_ok block p i st).2 h) ok, fun _ => ⟨?_, setup_log ..⟩⟩
    unfold classicSetup at ok ⊢
    dsimp only at ok ⊢
    split_ifs <;> try split
    all_goals simp_all

/-! ### Later runs -/

theorem ready_same (block : R → Option (List String)) (i : Nat) (st st' : RunState V) (p : SolverProcess R V) (h : ReadyFor block i st' p)
    (hs : SameFor (block (p.solver i).set.rp) st st') : ReadyFor block i st p where
  isSetUp := h.isSetUp
  fits := h.fits
  mthlim := h.mthlim
  shared := h.shared
  method := fun hf => by
    rw [h.method hf]
    simp only [classicMethod, hs.1, hs.2.1]
  params := fun hf names hn x hx => (h.params hf names hn x hx).trans (hs.2.2 names hn x hx)
  python := h.python

theorem ready_of_same (block : R → Option (List String)) (i : Nat) (st : RunState V) (p p' : SolverProcess R V) (h : ReadyFor block i st p)
    (hi : p'.solver i = p.solver i)
    (hc : ∀ names, block (p.solver i).set.rp = some names → ∀ x ∈ names,
      p'.common (p.solver i).set.rp x = p.common (p.solver i).set.rp x ∨ p'.common (p.solver i).set.rp x = st.data x) :
    ReadyFor block i st p' := by
  constructor
  all_goals rw [hi]
  · exact h.isSetUp
  · exact h.fits
  · exact h.mthlim
  · exact h.shared
  · exact h.method
  · intro hf names hn x hx
    rcases hc names hn x hx with e | e
    · exact e.trans (h.params hf names hn x hx)
    · exact e
  · exact h.python

theorem common_after (block : R → Option (List String)) (i : Nat) (st : RunState V) (p : SolverProcess R V) (j : Nat) (st' : RunState V)
    (hd : (p.solver j).set.rp = (p.solver i).set.rp → ∀ l, block (p.solver i).set.rp = some l → ∀ x ∈ l, st'.data x = st.data x) :
    ∀ names, block (p.solver i).set.rp = some names → ∀ x ∈ names,
      (classicSetup block p j st').1.common (p.solver i).set.rp x = p.common (p.solver i).set.rp x ∨
      (classicSetup block p j st').1.common (p.solver i).set.rp x = st.data x := by
  intro names hn x hx
  have hc := setup_common block p j st'
  by_cases hr : (p.solver j).set.rp = (p.solver i).set.rp
  · rcases hc.2 with h | h
    · left; rw [h]
    · right
      rw [← hr] at hn ⊢
      rw [h names hn x hx]
      exact hd hr names (by rw [← hr]; exact hn) x hx
  · left
    rw [hc.1 _ fun e => hr e.symm]

/-- The set-up of a solver that is ready, with a state that gives it the same, changes nothing. -/
theorem setup_again (block : R → Option (List String)) (i : Nat) (st : RunState V) (p : SolverProcess R V) (h : ReadyFor block i st p)
    (st' : RunState V) (hs : SameFor (block (p.solver i).set.rp) st st') (hd : ¬ Acceptable block (p.solver i).set st') :
    (p.solver i).set.fortran = true ∧ ∃ names, block (p.solver i).set.rp = some names ∧ ∃ x ∈ names, st'.data x = none := by
  unfold Acceptable at hd
  rw [← mthlim_ok] at hd
  by_contra c
  apply hd
  refine ⟨h.fits, fun hf names hn x hx e => c ⟨hf, names, hn, x, hx, e⟩, h.python⟩

theorem harmless_act (block : R → Option (List String)) (i : Nat) (st : RunState V) (p : SolverProcess R V) (h : ReadyFor block i st p)
    (op : SolverOp R V) (ho : Harmless block i st p op) : ReadyFor block i st (p.act block op) := by
  match op with
  | .assign j a =>
    by_cases hj : j = i
    · subst hj
      have ha := ho rfl
      match a with
      | .fwave b =>
        constructor <;> simp only [SolverProcess.act, Function.update_self, ClassicObj.assign]
        · exact h.isSetUp
        · exact h.fits
        · exact h.mthlim
        · exact h.shared
        · exact h.method
        · exact h.params
        · exact h.python
      | .order n =>
        simp only at ha
        constructor <;> simp only [SolverProcess.act, Function.update_self, ClassicObj.assign]
        · exact h.isSetUp
        · exact h.fits
        · exact h.mthlim
        · exact h.shared
        · intro hf; rw [ha] at hf; cases hf
        · exact h.params
        · exact h.python
    · refine ready_of_same block i st p _ h ?_ fun _ _ _ _ => Or.inl rfl
      simp only [SolverProcess.act, Function.update_of_ne (Ne.symm hj)]
  | .setItem j k v =>
    by_cases hj : j = i
    · subst hj
      obtain ⟨l, hl, h1⟩ := ho rfl
      have hm := mthlim_spec _ h.fits
      have e1 : (p.solver j).mthlim = l := h.mthlim.trans (hm.2.2.2 l hl (by omega))
      have e2 : (p.solver j).shared = true := by rw [h.shared, hm.2.2.1]; exact ⟨l, hl, by omega⟩
      by_cases hk : k < l.length
      · have e3 : (p.solver j).setItem k v = { (p.solver j) with
            set := { (p.solver j).set with limiters := .list (l.set k v) }, mthlim := l.set k v } := by
          unfold ClassicObj.setItem
          simp only [hl, hk, if_true, e2, e1]
        have hlen : ¬ l.length = 1 := by omega
        have e4 : classicMthlim { (p.solver j).set with limiters := .list (l.set k v) } =
            (l.set k v, true, decide (l.length = (p.solver j).set.numWaves)) := by
          unfold classicMthlim
          simp [hlen]
        have hw : l.length = (p.solver j).set.numWaves := by
          have := hm.1
          rw [hm.2.2.2 l hl (by omega)] at this
          exact this
        constructor <;> simp only [SolverProcess.act, Function.update_self, e3]
        · exact h.isSetUp
        · rw [e4]; simp [hw]
        · rw [e4]
        · rw [e4]; exact e2
        · exact h.method
        · exact h.params
        · exact h.python
      · have e3 : (p.solver j).setItem k v = p.solver j := by
          unfold ClassicObj.setItem
          simp only [hl, hk, if_false]
        refine ready_of_same block j st p _ h ?_ fun _ _ _ _ => Or.inl rfl
        simp only [SolverProcess.act, e3, Function.update_self]
    · refine ready_of_same block i st p _ h ?_ fun _ _ _ _ => Or.inl rfl
      simp only [SolverProcess.act, Function.update_of_ne (Ne.symm hj)]
  | .setup j st' =>
    by_cases hj : j = i
    · subst hj
      have hs := ho.1 rfl
      by_cases ok : (classicSetup block p j st').2 = true
      · exact ready_same block j st st' _ (classicSetup_ready block p j st' ok) (by
          show SameFor (block ((classicSetup block p j st').1.solver j).set.rp) st st'
          rw [setup_set]; exact hs)
      · obtain ⟨hf, names, hn, x, hx, e⟩ := setup_again block j st p h st' hs (mt (setup_ok block p j st').2 ok)
        have hc : setCparam block (p.solver j).set.rp st' p.common = none := by
          by_contra c
          exact (setCparam_ok block _ st' p.common).1 (Option.isSome_iff_ne_none.2 c) names hn x hx e
        have e' : p.act block (.setup j st') = { p with solver := Function.update p.solver j { (p.solver j) with
            mthlim := (classicMthlim (p.solver j).set).1, shared := (classicMthlim (p.solver j).set).2.1
            method := some (classicMethod (p.solver j).set st') } } := by
          simp only [SolverProcess.act]
          unfold classicSetup
          simp only [h.fits, hf, if_true, hc]
        refine ready_of_same block j st p _ h ?_ ?_
        · rw [e']
          simp only [Function.update_self]
          have hm : classicMethod (p.solver j).set st' = classicMethod (p.solver j).set st := by
            simp only [classicMethod, hs.1, hs.2.1]
          rw [hm, ← h.method hf, ← h.mthlim, ← h.shared]
        · rw [e']
          exact fun _ _ _ _ => Or.inl rfl
    · exact ready_of_same block i st p _ h (setup_other block p j st' i (Ne.symm hj)) (common_after block i st p j st' ho.2)
  | .evolve j st' =>
    have key : ∀ q : SolverProcess R V, ∀ l, q.solver i = p.solver i →
        (∀ names, block (p.solver i).set.rp = some names → ∀ x ∈ names,
          q.common (p.solver i).set.rp x = p.common (p.solver i).set.rp x ∨ q.common (p.solver i).set.rp x = st.data x) →
        ReadyFor block i st { q with log := l } := fun q l h1 h2 => ready_of_same block i st p _ h h1 h2
    simp only [SolverProcess.act]
    by_cases hu : (p.solver j).isSetUp = true
    · simp only [hu, if_true]
      split
      · exact h
      · exact key p _ rfl fun _ _ _ _ => Or.inl rfl
    · have hj : i ≠ j := fun e => hu (e ▸ h.isSetUp)
      have K := fun l => key (classicSetup block p j st').1 l (setup_other block p j st' i hj) (common_after block i st p j st' ho)
      simp only [hu, Bool.false_eq_true, if_false]
      split_ifs
      · split
        · exact K _
        · exact K _
      · exact K _

theorem harmless_acts (block : R → Option (List String)) (i : Nat) (st : RunState V) (ops : List (SolverOp R V)) :
    ∀ p : SolverProcess R V, ReadyFor block i st p → HarmlessRun block i st p ops → ReadyFor block i st (p.acts block ops) := by
  induction ops with
  | nil => exact fun p h _ => h
  | cons op ops ih => exact fun p h ho => ih _ (harmless_act block i st p h op ho.1) ho.2

theorem assign_numDim (o : ClassicObj R) (a : ClassicAssign R) : (o.assign a).set.numDim = o.set.numDim := by
  cases a <;> rfl

theorem setItem_numDim (o : ClassicObj R) (k : Nat) (v : Int) : (o.setItem k v).set.numDim = o.set.numDim := by
  unfold ClassicObj.setItem
  split
  · rfl
  · split_ifs <;> rfl

theorem act_numDim (block : R → Option (List String)) (p : SolverProcess R V) (op : SolverOp R V) (i : Nat) :
    ((p.act block op).solver i).set.numDim = (p.solver i).set.numDim := by
  match op with
  | .assign j a =>
    simp only [SolverProcess.act]
    by_cases h : i = j
    · subst h; rw [Function.update_self, assign_numDim]
    · rw [Function.update_of_ne h]
  | .setItem j k v =>
    simp only [SolverProcess.act]
    by_cases h : i = j
    · subst h; rw [Function.update_self, setItem_numDim]
    · rw [Function.update_of_ne h]
  | .setup j st =>
    show ((classicSetup block p j st).1.solver i).set.numDim = _
    rw [setup_set]
  | .evolve j st =>
    simp only [SolverProcess.act]
    by_cases hu : (p.solver j).isSetUp = true
    · simp only [hu, if_true]
      split <;> rfl
    · simp only [hu, Bool.false_eq_true, if_false]
      have e := congrArg ClassicSettings.numDim (setup_set block p j st i)
      split_ifs
      · split <;> exact e
      · exact e

theorem acts_numDim (block : R → Option (List String)) (i : Nat) (ops : List (SolverOp R V)) :
    ∀ p : SolverProcess R V, ((p.acts block ops).solver i).set.numDim = (p.solver i).set.numDim := by
  induction ops with
  | nil => exact fun _ => rfl
  | cons op ops ih => exact fun p => (ih _).trans (act_numDim block p op i)

/-- C110, later runs: after `setup` with attributes that fit, and any actions that are `Harmless` for the solver, each run does what the attributes
then say. In particular a call of `setup` makes all assignments made before it effective. Full statement: also after assignments to `order`,
`limiters`, `transverse_waves` and `dimensional_split`, for other states, and after runs of other solvers. False for each of these:
`C110_order_violated`, `C110_limiters_violated`, `C110_splitting_violated`, `C110_parameters_violated`, `C110_two_solvers_violated`. -/
theorem C110_later_runs_partial (block : R → Option (List String)) (p : SolverProcess R V) (i : Nat) (st st' : RunState V)
    (hd : 0 < (p.solver i).set.numDim) (ha : Acceptable block (p.solver i).set st) (ops : List (SolverOp R V))
    (ho : HarmlessRun block i st (p.act block (.setup i st)) ops) :
    let p1 := (p.act block (.setup i st)).acts block ops
    ((p1.solver i).set.fortran = true → SameFor (block (p1.solver i).set.rp) st st') →
    ∃ c, p1.act block (.evolve i st') = { p1 with log := p1.log ++ [(i, c)] } ∧ CallFollows block (p1.solver i).set st' c := by
  intro p1 hs
  have h0 := classicSetup_ready block p i st ((setup_ok block p i st).2 ha)
  have h1 : ReadyFor block i st p1 := harmless_acts block i st ops _ h0 ho
  obtain ⟨c, hc, hF⟩ := ready_follows block i st st' p1 h1 hs (by
    rw [acts_numDim]
    show 0 < ((classicSetup block p i st).1.solver i).set.numDim
    rw [setup_set]; exact hd)
  exact ⟨c, evolve_ready block i st' p1 h1.isSetUp c hc, hF⟩

theorem frozen_act (block : R → Option (List String)) (i : Nat) (p : SolverProcess R V) (h : (p.solver i).isSetUp = true)
    (op : SolverOp R V) (ho : LeavesAlone i op) : ((p.act block op).solver i).isSetUp = true ∧
      ((p.act block op).solver i).method = (p.solver i).method ∧ ((p.act block op).solver i).mthlim = (p.solver i).mthlim := by
  match op with
  | .assign j a =>
    simp only [SolverProcess.act]
    by_cases hj : i = j
    · subst hj; rw [Function.update_self]; cases a <;> exact ⟨h, rfl, rfl⟩
    · rw [Function.update_of_ne hj]; exact ⟨h, rfl, rfl⟩
  | .setItem j k v =>
    simp only [SolverProcess.act, Function.update_of_ne (Ne.symm ho)]
    exact ⟨h, trivial, trivial⟩
  | .setup j st =>
    show ((classicSetup block p j st).1.solver i).isSetUp = true ∧ ((classicSetup block p j st).1.solver i).method = _ ∧
      ((classicSetup block p j st).1.solver i).mthlim = _
    rw [setup_other block p j st i (Ne.symm ho)]
    exact ⟨h, rfl, rfl⟩
  | .evolve j st =>
    simp only [SolverProcess.act]
    by_cases hu : (p.solver j).isSetUp = true
    · simp only [hu, if_true]
      split <;> exact ⟨h, rfl, rfl⟩
    · have hj : i ≠ j := fun e => hu (e ▸ h)
      simp only [hu, Bool.false_eq_true, if_false]
      have e := setup_other block p j st i hj
      split_ifs
      · split <;> simp only [e] <;> exact ⟨h, trivial, trivial⟩
      · rw [e]; exact ⟨h, rfl, rfl⟩

theorem frozen_acts (block : R → Option (List String)) (i : Nat) (ops : List (SolverOp R V)) (ho : ∀ op ∈ ops, LeavesAlone i op) :
    ∀ p : SolverProcess R V, (p.solver i).isSetUp = true → ((p.acts block ops).solver i).isSetUp = true ∧
      ((p.acts block ops).solver i).method = (p.solver i).method ∧ ((p.acts block ops).solver i).mthlim = (p.solver i).mthlim := by
  induction ops with
  | nil => exact fun p h => ⟨h, rfl, rfl⟩
  | cons op ops ih =>
    intro p h
    have h1 := frozen_act block i p h op (ho op (List.mem_cons_self ..))
    have h2 := ih (fun o hm => ho o (List.mem_cons_of_mem _ hm)) _ h1.1
    exact ⟨h2.1, h2.2.1.trans h1.2.1, h2.2.2.trans h1.2.2⟩

/-- What happens in every other history, with the Fortran kernels: `order`, the option for transverse waves, the capacity function and the
limiters are those of the set-up, whatever is assigned later and whatever state is given. -/
theorem C110_frozen (block : R → Option (List String)) (p : SolverProcess R V) (i : Nat) (st st' : RunState V)
    (ha : Acceptable block (p.solver i).set st) (hf : (p.solver i).set.fortran = true) (ops : List (SolverOp R V))
    (ho : ∀ op ∈ ops, LeavesAlone i op) (c : KernelCall R V) :
    let p1 := (p.act block (.setup i st)).acts block ops
    (p1.solver i).set.fortran = true → p1.act block (.evolve i st') = { p1 with log := p1.log ++ [(i, c)] } →
    c.order = (p.solver i).set.order ∧ c.limiters.length = (p.solver i).set.numWaves ∧
    (∀ w, w < (p.solver i).set.numWaves → c.limiters[w]? = limiterFor (p.solver i).set.limiters w) ∧
    (c.capa = if st.indexCapa < 0 then none else some st.indexCapa.toNat) ∧
    c.trans = if (p.solver i).set.numDim = 1 then 0 else if (p.solver i).set.dimensionalSplit then -1 else (p.solver i).set.transverseWaves := by
  intro p1 hf1 he
  have h0 := classicSetup_ready block p i st ((setup_ok block p i st).2 ha)
  have h1 := frozen_acts block i ops ho _ h0.isSetUp
  have hset : ((p.act block (.setup i st)).solver i).set = (p.solver i).set := setup_set block p i st i
  have hm : (p1.solver i).method = some (classicMethod (p.solver i).set st) := by
    rw [← hset]
    exact h1.2.1.trans (h0.method (by rw [setup_set]; exact hf))
  have hl := mthlim_spec _ h0.fits
  rw [← h0.mthlim] at hl
  have hl' : (p1.solver i).mthlim = ((classicSetup block p i st).1.solver i).mthlim := h1.2.2
  have hc : kernelCall (p1.solver i) st' p1.common = some c := by
    unfold SolverProcess.act at he
    have hu : (p1.solver i).isSetUp = true := h1.1
    simp only [hu, if_true] at he
    match e : kernelCall (p1.solver i) st' p1.common with
    | none =>
      rw [e] at he
      have := congrArg (fun q : SolverProcess R V => q.log.length) he
      simp at this
    | some c' =>
      rw [e] at he
      have := congrArg SolverProcess.log he
      simp at this
      rw [this]
  unfold kernelCall at hc
  rw [if_pos hf1, hm] at hc
  obtain rfl := Option.some.inj hc
  rw [setup_set] at hl
  refine ⟨rfl, ?_, ?_, capaOf_succ _, rfl⟩
  · rw [hl']; exact hl.1
  · rw [hl']; exact hl.2.1

/-! ### Concrete cases -/

/-- A solver of a two-dimensional problem with two waves, not set up. -/
def exClassic (split : Bool) : ClassicObj String where
  set := ⟨2, true, "euler", 2, 2, .one 4, split, 1, false⟩
  mthlim := []
  shared := false
  method := none
  isSetUp := false

/-- The Riemann solver has one parameter. -/
def exBlock : String → Option (List String) := fun r => if r = "euler" then some ["gamma"] else none

def exGamma (v : Nat) : RunState Nat := ⟨-1, 0, fun x => if x = "gamma" then some v else none⟩

def exProcess (split : Bool) : SolverProcess String Nat := ⟨fun _ => exClassic split, fun _ _ => none, []⟩

/-- Non-vacuity of `C110_first_run`: the attributes fit, with a list of one or of two limiters too; they do not with three, or without the
parameter. -/
example : Acceptable exBlock (exClassic true).set (exGamma 14) ∧
    Acceptable exBlock { (exClassic true).set with limiters := .list [3] } (exGamma 14) ∧
    Acceptable exBlock { (exClassic true).set with limiters := .list [3, 1] } (exGamma 14) ∧
    ¬ Acceptable exBlock { (exClassic true).set with limiters := .list [3, 1, 2] } (exGamma 14) ∧
    ¬ Acceptable exBlock (exClassic true).set (⟨-1, 0, fun _ => none⟩ : RunState Nat) ∧
    ¬ Acceptable exBlock { (exClassic true).set with fortran := false } (exGamma 14) := by
  simp [Acceptable, LimitersFit, exClassic, exBlock, exGamma]

/-- Non-vacuity of `C110_later_runs_partial`: limiters assigned one by one, another solver with the same parameter, then a run. -/
example : let p : SolverProcess String Nat := { exProcess true with
      solver := fun _ => { exClassic true with set := { (exClassic true).set with limiters := .list [3, 1] } } }
    let ops : List (SolverOp String Nat) := [.setItem 0 1 4, .assign 1 (.order 1), .evolve 1 (exGamma 14), .evolve 0 (exGamma 14), .assign 0 (.fwave true)]
    Acceptable exBlock (p.solver 0).set (exGamma 14) ∧ HarmlessRun exBlock 0 (exGamma 14) (p.act exBlock (.setup 0 (exGamma 14))) ops ∧
    (((p.act exBlock (.setup 0 (exGamma 14))).acts exBlock ops).act exBlock (.evolve 0 (exGamma 14))).log.map
      (fun c => (c.1, c.2.order, c.2.limiters, c.2.fwave, c.2.params "gamma")) =
      [(1, 1, [3, 1], false, some 14), (0, 2, [3, 4], false, some 14), (0, 2, [3, 4], true, some 14)] := by
  refine ⟨by simp [Acceptable, LimitersFit, exClassic, exBlock, exGamma], ?_, by decide +kernel⟩
  refine ⟨fun _ => ⟨[3, 1], by decide +kernel, by decide⟩, fun h => absurd h (by decide), fun _ _ _ _ _ => rfl, fun _ _ _ _ _ => rfl, fun _ => trivial, trivial⟩

/-- An assignment to `order` between two runs has no effect: both runs are of second order. -/
theorem C110_order_violated : ∃ (p : SolverProcess String Nat) (st : RunState Nat),
    Acceptable exBlock (p.solver 0).set st ∧ (p.solver 0).isSetUp = false ∧
    let p' := p.acts exBlock [.evolve 0 st, .assign 0 (.order 1), .evolve 0 st]
    (p'.solver 0).set.order = 1 ∧ p'.log.map (fun c => c.2.order) = [2, 2] :=
  ⟨exProcess true, exGamma 14, by simp [Acceptable, LimitersFit, exProcess, exClassic, exBlock, exGamma], rfl, by decide +kernel⟩

/-- Neither has an assignment to `limiters`; assigning to an entry of the list has one if the list is for more than one wave. -/
theorem C110_limiters_violated : ∃ (p : SolverProcess String Nat) (st : RunState Nat),
    Acceptable exBlock (p.solver 0).set st ∧ (p.solver 0).isSetUp = false ∧
    let p' := p.acts exBlock [.evolve 0 st, .assign 0 (.limiters (.list [1, 1])), .evolve 0 st]
    (p'.solver 0).set.limiters = .list [1, 1] ∧ p'.log.map (fun c => c.2.limiters) = [[4, 4], [4, 4]] :=
  ⟨exProcess true, exGamma 14, by simp [Acceptable, LimitersFit, exProcess, exClassic, exBlock, exGamma], rfl, by decide +kernel⟩

/-- If dimensional splitting is switched on between two runs then the steps of the second propagate waves transversally although they are split,
and the routine that they call for it is the normal Riemann solver. -/
theorem C110_splitting_violated : ∃ (p : SolverProcess String Nat) (st : RunState Nat),
    Acceptable exBlock (p.solver 0).set st ∧ (p.solver 0).isSetUp = false ∧
    let p' := p.acts exBlock [.evolve 0 st, .assign 0 (.dimensionalSplit true), .evolve 0 st]
    p'.log.map (fun c => (c.2.split, c.2.trans, c.2.transverseSolver)) = [(false, 1, true), (true, 1, false)] :=
  ⟨exProcess false, exGamma 14, by simp [Acceptable, LimitersFit, exProcess, exClassic, exBlock, exGamma], rfl, by decide +kernel⟩

/-- The second of two runs, with other values in `problem_data`, uses the values of the first. -/
theorem C110_parameters_violated : ∃ (p : SolverProcess String Nat) (st st' : RunState Nat),
    Acceptable exBlock (p.solver 0).set st ∧ Acceptable exBlock (p.solver 0).set st' ∧ st'.data "gamma" = some 17 ∧
    (p.acts exBlock [.evolve 0 st, .evolve 0 st']).log.map (fun c => c.2.params "gamma") = [some 14, some 14] :=
  ⟨exProcess true, exGamma 14, exGamma 17, by simp [Acceptable, LimitersFit, exProcess, exClassic, exBlock, exGamma],
    by simp [Acceptable, LimitersFit, exProcess, exClassic, exBlock, exGamma], rfl, by decide +kernel⟩

/-- Two solvers with the same Riemann solver: the set-up of the second changes the parameters of the first. -/
theorem C110_two_solvers_violated : ∃ (p : SolverProcess String Nat) (st st' : RunState Nat),
    Acceptable exBlock (p.solver 0).set st ∧ Acceptable exBlock (p.solver 1).set st' ∧ st.data "gamma" = some 14 ∧
    (p.acts exBlock [.evolve 0 st, .evolve 1 st', .evolve 0 st]).log.map (fun c => (c.1, c.2.params "gamma")) =
      [(0, some 14), (1, some 17), (0, some 17)] :=
  ⟨exProcess true, exGamma 14, exGamma 17, by simp [Acceptable, LimitersFit, exProcess, exClassic, exBlock, exGamma],
    by simp [Acceptable, LimitersFit, exProcess, exClassic, exBlock, exGamma], rfl, by decide +kernel⟩

end PyClaw
