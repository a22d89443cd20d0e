import Verif.Spec.Serialized
import Mathlib.Data.List.FinRange
import Mathlib.Data.List.Count
import Mathlib.Data.Fintype.Lattice
import Mathlib.Data.Fintype.EquivFin
import Mathlib.Tactic.IntervalCases
import Mathlib.Data.Fintype.Basic
import Mathlib.Data.Fin.VecNotation
import Mathlib.Tactic.FinCases

/-!
C112: a function that only the first process executes.
-/
set_option linter.unusedSectionVars false
namespace PyClaw

/-! ### The programs -/

/-- The calls number `s` to `s + n - 1`. -/
def progFrom (r s n : Nat) : List SAct := (List.range' s n).flatMap (serialFun true r)

theorem progFrom_succ (r s n : Nat) : progFrom r s (n + 1) = serialFun true r s ++ progFrom r (s + 1) n := by
  simp [progFrom, List.range'_succ]

theorem serialProg_eq (r n : Nat) : serialProg true r n = progFrom r 0 n := by
  simp [serialProg, progFrom, List.range_eq_range']

theorem serialFun_cases (r k : Nat) : r = 0 ∧ serialFun true r k = [.start k, .done k, .enter, .leave, .ret k] ∨
    r ≠ 0 ∧ serialFun true r k = [.enter, .leave, .ret k] := by
  by_cases h : r = 0 <;> simp [serialFun, h]

theorem prefix_blocks {α : Type*} {d a b : List α} (h : d <+: a ++ b) : (∃ i ≤ a.length, d = a.take i) ∨ ∃ d', d = a ++ d' ∧ d' <+: b := by
  rcases List.prefix_or_prefix_of_prefix h (List.prefix_append a b) with h1 | ⟨d', rfl⟩
  · exact Or.inl ⟨d.length, h1.length_le, List.prefix_iff_eq_take.mp h1⟩
  · exact Or.inr ⟨d', rfl, (List.prefix_append_right_inj a).mp h⟩

theorem count_enter (r s n : Nat) : (progFrom r s n).count .enter = n := by
  induction n generalizing s with
  | zero => simp [progFrom]
  | succ n ih =>
    rw [progFrom_succ, List.count_append, ih]
    rcases serialFun_cases r s with ⟨-, e⟩ | ⟨-, e⟩ <;> rw [e] <;> simp <;> omega

/-- The first process has ended the function before it enters the barrier. -/
theorem done_before_enter (n : Nat) : ∀ (s : Nat) (d : List SAct), d <+: progFrom 0 s n → ∀ j, j < d.count .enter → .done (s + j) ∈ d := by
  induction n with
  | zero =>
    intro s d h j hj
    rw [show d = [] by simpa [progFrom] using h] at hj
    simp at hj
  | succ n ih =>
    intro s d h j hj
    rw [progFrom_succ] at h
    have e : serialFun true 0 s = [.start s, .done s, .enter, .leave, .ret s] := by simp [serialFun]
    rw [e] at h
    rcases prefix_blocks h with ⟨i, hi, rfl⟩ | ⟨d', rfl, h'⟩
    · simp only [List.length_cons, List.length_nil] at hi
      interval_cases i <;> simp at hj <;> subst hj <;> simp
    · cases j with
      | zero => simp
      | succ j =>
        have := ih (s + 1) d' h' j (by simp at hj; omega)
        rw [show s + (j + 1) = s + 1 + j by omega]
        exact List.mem_append_right _ this

/-- A process has left the barrier of a call before it returns. -/
theorem leave_before_ret (r n : Nat) : ∀ (s k : Nat) (d : List SAct), d ++ [.ret k] <+: progFrom r s n → s ≤ k ∧ k - s + 1 ≤ d.count .leave := by
  induction n with
  | zero =>
    intro s k d h
    simp [progFrom] at h
  | succ n ih =>
    intro s k d h
    rw [progFrom_succ] at h
    rcases prefix_blocks h with ⟨i, hi, e⟩ | ⟨d', e, h'⟩
    · rcases serialFun_cases r s with ⟨-, e'⟩ | ⟨-, e'⟩ <;> rw [e'] at e hi <;> simp only [List.length_cons, List.length_nil] at hi <;>
        have hd := congrArg List.dropLast e <;> have hl := congrArg List.getLast? e <;> rw [List.dropLast_concat] at hd <;>
        rw [List.getLast?_concat] at hl <;> interval_cases i <;> simp at hl <;> subst hl <;> subst hd <;> simp
    · rcases List.eq_nil_or_concat d' with rfl | ⟨d'', x, rfl⟩
      · rcases serialFun_cases r s with ⟨-, e'⟩ | ⟨-, e'⟩ <;> rw [e'] at e <;>
          have hd := congrArg List.dropLast e <;> have hl := congrArg List.getLast? e <;> rw [List.dropLast_concat] at hd <;>
          rw [List.getLast?_concat] at hl <;> simp at hl <;> subst hl <;> subst hd <;> simp
      · rw [List.concat_eq_append, ← List.append_assoc] at e
        obtain ⟨rfl, e2⟩ := List.append_inj' e rfl
        simp only [List.cons.injEq, and_true] at e2
        subst e2
        obtain ⟨h1, h2⟩ := ih (s + 1) k d'' (by simpa using h')
        refine ⟨by omega, ?_⟩
        rcases serialFun_cases r s with ⟨-, e'⟩ | ⟨-, e'⟩ <;> rw [e'] <;> simp <;> omega

/-- A process leaves as many barriers as it has entered. -/
theorem leave_after_enter (r n : Nat) : ∀ (s : Nat) (d : List SAct), d ++ [.leave] <+: progFrom r s n →
    d.count .leave + [SAct.leave].count .leave ≤ d.count .enter := by
  induction n with
  | zero =>
    intro s d h
    simp [progFrom] at h
  | succ n ih =>
    intro s d h
    rw [progFrom_succ] at h
    rcases prefix_blocks h with ⟨i, hi, e⟩ | ⟨d', e, h'⟩
    · rcases serialFun_cases r s with ⟨-, e'⟩ | ⟨-, e'⟩ <;> rw [e'] at e hi <;> simp only [List.length_cons, List.length_nil] at hi <;>
        have hd := congrArg List.dropLast e <;> have hl := congrArg List.getLast? e <;> rw [List.dropLast_concat] at hd <;>
        rw [List.getLast?_concat] at hl <;> interval_cases i <;> simp at hl <;> subst hd <;> simp
    · rcases List.eq_nil_or_concat d' with rfl | ⟨d'', x, rfl⟩
      · rcases serialFun_cases r s with ⟨-, e'⟩ | ⟨-, e'⟩ <;> rw [e'] at e <;>
          have hl := congrArg List.getLast? e <;> rw [List.getLast?_concat] at hl <;> simp at hl
      · rw [List.concat_eq_append, ← List.append_assoc] at e
        obtain ⟨rfl, e2⟩ := List.append_inj' e rfl
        simp only [List.cons.injEq, and_true] at e2
        subst e2
        have h2 := ih (s + 1) d'' (by simpa using h')
        rcases serialFun_cases r s with ⟨-, e'⟩ | ⟨-, e'⟩ <;> rw [e'] <;> simp at h2 ⊢ <;> omega

/-! ### The invariant -/

variable {P : Nat}

/-- What the process `p` has done. -/
def didBy (log : List (Fin P × SAct)) (p : Fin P) : List SAct := (log.filter fun e => e.1 = p).map (·.2)

theorem didBy_snoc (log : List (Fin P × SAct)) (p q : Fin P) (a : SAct) :
    didBy (log ++ [(p, a)]) q = if q = p then didBy log q ++ [a] else didBy log q := by
  by_cases h : q = p
  · subst h
    simp [didBy, List.filter_append]
  · have : ¬ p = q := fun h' => h h'.symm
    simp [didBy, List.filter_append, h, this]

theorem mem_didBy (log : List (Fin P × SAct)) (p : Fin P) (a : SAct) : a ∈ didBy log p ↔ (p, a) ∈ log := by
  simp only [didBy, List.mem_map, List.mem_filter, decide_eq_true_eq, Prod.exists]
  constructor
  · rintro ⟨q, b, ⟨h, rfl⟩, rfl⟩
    exact h
  · exact fun h => ⟨p, a, ⟨h, rfl⟩, rfl⟩

/-- What holds in all states of a run in which the process `p` makes `n p` calls. -/
structure SInv (raises : Nat → Prop) (n : Fin (P + 1) → Nat) (w : SWorld (P + 1)) : Prop where
  enters : ∀ p, w.entered p = (didBy w.log p).count .enter
  prog : ∀ p, didBy w.log p ++ w.todo p = progFrom p 0 (n p) ∨
    ∃ d k rest, didBy w.log p = d ++ [.raised k] ∧ d ++ .done k :: rest = progFrom p 0 (n p) ∧ raises k ∧ w.todo p = []
  barrier : ∀ p p', (didBy w.log p).count .leave ≤ (didBy w.log p').count .enter
  order : ∀ p k, Spec.Precedes w.log (0, .done k) (p, .ret k)
  ended : ∀ p k, (p, .done k) ∈ w.log → ¬ raises k

theorem SInv.init (raises : Nat → Prop) (n : Fin (P + 1) → Nat) : SInv raises n (SWorld.init true n) where
  enters p := rfl
  prog p := Or.inl (by simp [SWorld.init, didBy, serialProg_eq])
  barrier p p' := by simp [SWorld.init, didBy]
  order p k l1 l2 h := by simp [SWorld.init] at h
  ended p k h := by simp [SWorld.init] at h

/-- What a process has done before a failure is a beginning of its program. -/
theorem SInv.begun {raises : Nat → Prop} {n : Fin (P + 1) → Nat} {w : SWorld (P + 1)} (h : SInv raises n w) (p : Fin (P + 1)) :
    ∃ d, d <+: progFrom p 0 (n p) ∧ (didBy w.log p = d ∨ ∃ k, didBy w.log p = d ++ [.raised k]) := by
  rcases h.prog p with e | ⟨d, k, rest, e1, e2, -⟩
  · exact ⟨_, ⟨_, e⟩, Or.inl rfl⟩
  · exact ⟨d, ⟨_, e2⟩, Or.inr ⟨k, e1⟩⟩

theorem SInv.done_of_enter {raises : Nat → Prop} {n : Fin (P + 1) → Nat} {w : SWorld (P + 1)} (h : SInv raises n w) (k : Nat)
    (hk : k < (didBy w.log 0).count .enter) : ((0 : Fin (P + 1)), SAct.done k) ∈ w.log := by
  obtain ⟨d, hd, e | ⟨j, e⟩⟩ := h.begun 0
  · rw [← mem_didBy, e]
    rw [e] at hk
    simpa using done_before_enter (n 0) 0 d hd k hk
  · rw [← mem_didBy, e]
    rw [e] at hk
    exact List.mem_append_left _ (by simpa using done_before_enter (n 0) 0 d hd k (by simpa using hk))

theorem precedes_snoc {E : Type*} {log : List E} {e f x : E} (h : Spec.Precedes log e f) (hx : x = f → e ∈ log) :
    Spec.Precedes (log ++ [x]) e f := by
  intro l1 l2 hl
  rcases List.eq_nil_or_concat l2 with rfl | ⟨l2', y, rfl⟩
  · obtain ⟨rfl, e2⟩ := List.append_inj' hl rfl
    exact hx (by simpa using e2)
  · rw [List.concat_eq_append, ← List.cons_append, ← List.append_assoc] at hl
    obtain ⟨e1, -⟩ := List.append_inj' hl rfl
    exact h l1 l2' e1

theorem SInv.step {raises : Nat → Prop} {n : Fin (P + 1) → Nat} {w w' : SWorld (P + 1)} (h : SInv raises n w) (hs : SStep raises w w') :
    SInv raises n w' := by
  have entersOf : ∀ (p : Fin (P + 1)) (a : SAct) (rest : List SAct) (q : Fin (P + 1)), (w.perform p a rest).entered q =
      (didBy (w.perform p a rest).log q).count .enter := by
    intro p a rest q
    simp only [SWorld.perform, didBy_snoc]
    by_cases hq : q = p
    · subst hq
      by_cases ha : a = .enter
      · subst ha
        simp [h.enters]
      · have : ¬ (a == SAct.enter) = true := by simpa using ha
        simp [ha, h.enters, List.count_append, List.count_singleton]
    · simp [hq, h.enters]
  have progOf : ∀ (p : Fin (P + 1)) (a : SAct) (rest : List SAct), w.todo p = a :: rest → ∀ q,
      didBy (w.perform p a rest).log q ++ (w.perform p a rest).todo q = progFrom q 0 (n q) ∨
      ∃ d k rest', didBy (w.perform p a rest).log q = d ++ [.raised k] ∧ d ++ .done k :: rest' = progFrom q 0 (n q) ∧ raises k ∧
        (w.perform p a rest).todo q = [] := by
    intro p a rest ht q
    simp only [SWorld.perform, didBy_snoc]
    by_cases hq : q = p
    · subst hq
      rcases h.prog q with e | ⟨d, k, r, -, -, -, e⟩
      · left
        simp [← e, ht]
      · rw [ht] at e
        cases e
    · simp only [hq, if_false, Function.update_of_ne hq]
      exact h.prog q
  have mono : ∀ (p : Fin (P + 1)) (a b : SAct) (q : Fin (P + 1)), (didBy w.log q).count b ≤ (didBy (w.log ++ [(p, a)]) q).count b := by
    intro p a b q
    rw [didBy_snoc]
    split_ifs
    · rw [List.count_append]
      omega
    · exact le_refl _
  have barOf : ∀ (p : Fin (P + 1)) (a : SAct), a ≠ .leave → ∀ q q',
      (didBy (w.log ++ [(p, a)]) q).count .leave ≤ (didBy (w.log ++ [(p, a)]) q').count .enter := by
    intro p a ha q q'
    refine le_trans ?_ (mono p a _ q')
    rw [didBy_snoc]
    split_ifs
    · rw [List.count_append, List.count_singleton]
      simpa [ha] using h.barrier q q'
    · exact h.barrier q q'
  have endOf : ∀ (p : Fin (P + 1)) (a : SAct), (∀ k, a = .done k → ¬ raises k) → ∀ q k, (q, .done k) ∈ w.log ++ [(p, a)] → ¬ raises k := by
    intro p a ha q k hm
    rcases List.mem_append.mp hm with hm | hm
    · exact h.ended q k hm
    · exact ha k (Prod.mk.inj (List.mem_singleton.mp hm)).2.symm
  cases hs with
  | act p a rest ht h1 h2 =>
    refine ⟨entersOf p a rest, progOf p a rest ht, barOf p a h1, fun q k => precedes_snoc (h.order q k) fun he => ?_, endOf p a h2⟩
    obtain ⟨rfl, rfl⟩ := Prod.mk.inj he
    rcases h.prog p with e | ⟨d, k', r, -, -, -, e⟩
    · have := leave_before_ret p (n p) 0 k (didBy w.log p) ⟨rest, by simp [← e, ht]⟩
      have hb := h.barrier p 0
      exact h.done_of_enter k (by omega)
    · rw [ht] at e
      cases e
  | leave p rest ht hb =>
    refine ⟨entersOf p _ rest, progOf p _ rest ht, fun q q' => ?_, fun q k => precedes_snoc (h.order q k) fun he => (by cases he),
      endOf p _ fun k he => by cases he⟩
    refine le_trans ?_ (mono p _ _ q')
    show (didBy (w.log ++ [(p, SAct.leave)]) q).count .leave ≤ _
    rw [didBy_snoc]
    split_ifs with hq
    · subst hq
      rw [List.count_append, ← h.enters q']
      refine le_trans ?_ (hb q')
      rw [h.enters]
      rcases h.prog q with e | ⟨d, k', r, -, -, -, e⟩
      · exact leave_after_enter q (n q) 0 (didBy w.log q) ⟨rest, by simp [← e, ht]⟩
      · rw [ht] at e
        cases e
    · exact h.barrier q q'
  | fail p k rest ht hr =>
    refine ⟨entersOf p _ [], fun q => ?_, barOf p _ (by simp), fun q k => precedes_snoc (h.order q k) fun he => (by cases he),
      endOf p _ fun k he => by cases he⟩
    simp only [SWorld.perform, didBy_snoc]
    by_cases hq : q = p
    · subst hq
      rcases h.prog q with e | ⟨d, k, r, -, -, -, e⟩
      · right
        exact ⟨didBy w.log q, k, rest, by simp, by rw [← e, ht], hr, by simp⟩
      · rw [ht] at e
        cases e
    · simp only [hq, if_false, Function.update_of_ne hq]
      exact h.prog q

theorem SInv.run {raises : Nat → Prop} {n : Fin (P + 1) → Nat} {w : SWorld (P + 1)}
    (h : Spec.Scheduled raises (SWorld.init true n) w) : SInv raises n w := by
  induction h with
  | refl => exact SInv.init raises n
  | tail _ hs ih => exact ih.step hs

theorem count_leave (r s n : Nat) : (progFrom r s n).count .leave = n := by
  induction n generalizing s with
  | zero => simp [progFrom]
  | succ n ih =>
    rw [progFrom_succ, List.count_append, ih]
    rcases serialFun_cases r s with ⟨-, e⟩ | ⟨-, e⟩ <;> rw [e] <;> simp <;> omega

theorem mem_progFrom (r s n : Nat) (a : SAct) : a ∈ progFrom r s n ↔ ∃ k, s ≤ k ∧ k < s + n ∧ a ∈ serialFun true r k := by
  simp only [progFrom, List.mem_flatMap, List.mem_range'_1, and_assoc]

/-- Does the function begin or end here? -/
def bodyAct : SAct → Bool
  | .start _ => true
  | .done _ => true
  | _ => false

theorem isBody_eq (e : Fin P × SAct) : Spec.isBody e = bodyAct e.2 := by
  obtain ⟨p, a⟩ := e
  cases a <;> rfl

theorem SInv.body_first {raises : Nat → Prop} {n : Fin (P + 1) → Nat} {w : SWorld (P + 1)} (h : SInv raises n w) {e : Fin (P + 1) × SAct}
    (he : e ∈ w.log) (hb : Spec.isBody e = true) : e.1 = 0 := by
  obtain ⟨p, a⟩ := e
  by_contra hp
  have ha := (mem_didBy w.log p a).mpr he
  have hb' : bodyAct a = true := by rw [← isBody_eq (p, a)]; exact hb
  have hp' : (p : Nat) ≠ 0 := fun h0 => hp (Fin.ext h0)
  obtain ⟨d, hd, e | ⟨j, e⟩⟩ := h.begun p
  · rw [e] at ha
    obtain ⟨k, -, -, hk⟩ := (mem_progFrom _ _ _ _).mp (hd.subset ha)
    simp only [serialFun, if_true, hp', if_false, List.mem_cons, List.not_mem_nil, or_false] at hk
    rcases hk with rfl | rfl | rfl <;> simp [bodyAct] at hb'
  · rw [e] at ha
    rcases List.mem_append.mp ha with ha | ha
    · obtain ⟨k, -, -, hk⟩ := (mem_progFrom _ _ _ _).mp (hd.subset ha)
      simp only [serialFun, if_true, hp', if_false, List.mem_cons, List.not_mem_nil, or_false] at hk
      rcases hk with rfl | rfl | rfl <;> simp [bodyAct] at hb'
    · rw [List.mem_singleton.mp ha] at hb'
      simp [bodyAct] at hb'

theorem SInv.body_eq {raises : Nat → Prop} {n : Fin (P + 1) → Nat} {w : SWorld (P + 1)} (h : SInv raises n w) :
    w.log.filter Spec.isBody = ((didBy w.log 0).filter bodyAct).map fun a => (0, a) := by
  have key : ∀ l : List (Fin (P + 1) × SAct), (∀ e ∈ l, Spec.isBody e = true → e.1 = 0) →
      l.filter Spec.isBody = ((didBy l 0).filter bodyAct).map fun a => (0, a) := by
    intro l
    induction l with
    | nil => exact fun _ => rfl
    | cons e l ih =>
      intro hl
      have ih := ih fun e' he' => hl e' (List.mem_cons_of_mem _ he')
      have he := hl e List.mem_cons_self
      obtain ⟨p, a⟩ := e
      rw [isBody_eq] at he
      have hb := isBody_eq (p, a)
      by_cases hba : bodyAct a = true
      · have hp : p = 0 := he hba
        subst hp
        simp [List.filter_cons, hb, hba, didBy] at ih ⊢
        exact ih
      · by_cases hp : p = 0
        · subst hp
          simp [List.filter_cons, hb, hba, didBy] at ih ⊢
          exact ih
        · simp [List.filter_cons, hb, hba, didBy, hp] at ih ⊢
          exact ih
  exact key _ fun e he hb => h.body_first he hb

theorem onFirst_eq (n : Nat) : Spec.onFirst P n = ((progFrom 0 0 n).filter bodyAct).map fun a => ((0 : Fin (P + 1)), a) := by
  simp [Spec.onFirst, progFrom, List.range_eq_range', List.filter_flatMap, List.map_flatMap, serialFun, bodyAct, List.filter_cons]

/-! ### The properties -/

/-- **C112.** Under every schedule: when a process returns from a call of the decorated function, the first process has ended the function in
that call; whatever the number of calls of each process, and whether the function raises exceptions in other calls or not. -/
theorem C112_returns_after (raises : Nat → Prop) (n : Fin (P + 1) → Nat) (w : SWorld (P + 1))
    (h : Spec.Scheduled raises (SWorld.init true n) w) (p : Fin (P + 1)) (k : Nat) : Spec.Precedes w.log (0, .done k) (p, .ret k) :=
  (SInv.run h).order p k

/-- **C112.** Under every schedule: the function is executed by the first process only, once for each of its calls, and in the order of the
calls. -/
theorem C112_first_only (raises : Nat → Prop) (n : Fin (P + 1) → Nat) (w : SWorld (P + 1))
    (h : Spec.Scheduled raises (SWorld.init true n) w) : w.log.filter Spec.isBody <+: Spec.onFirst P (n 0) := by
  have hi := SInv.run h
  rw [hi.body_eq, onFirst_eq]
  apply List.IsPrefix.map
  obtain ⟨d, hd, e | ⟨j, e⟩⟩ := hi.begun 0
  · rw [e]
    exact hd.filter _
  · rw [e, List.filter_append]
    simpa [bodyAct] using hd.filter bodyAct

/-- **C112.** If all processes make the same number of calls and the function raises no exception, then no process ever waits in vain: in
every state that some schedule leads to, all processes have returned from all calls, or some process can go on; and each step brings the end
nearer, so that every schedule ends, with the function executed once for each call. -/
theorem C112_no_deadlock_partial (n : Nat) (w : SWorld (P + 1))
    (h : Spec.Scheduled (fun _ => False) (SWorld.init true fun _ => n) w) :
    (Spec.Over w ∧ w.log.filter Spec.isBody = Spec.onFirst P n ∧ ∀ p k, k < n → (p, .ret k) ∈ w.log) ∨ ∃ w', SStep (fun _ => False) w w' := by
  have hi := SInv.run h
  have hp : ∀ p, didBy w.log p ++ w.todo p = progFrom p 0 n := fun p => by
    rcases hi.prog p with e | ⟨d, k, r, -, -, e, -⟩
    · exact e
    · exact e.elim
  by_cases hov : Spec.Over w
  · left
    have hd : ∀ p, didBy w.log p = progFrom p 0 n := fun p => by simpa [hov p] using hp p
    refine ⟨hov, by rw [hi.body_eq, onFirst_eq, hd]; rfl, fun p k hk => ?_⟩
    rw [← mem_didBy, hd]
    refine (mem_progFrom _ _ _ _).mpr ⟨k, Nat.zero_le _, by omega, ?_⟩
    rcases serialFun_cases p k with ⟨-, e⟩ | ⟨-, e⟩ <;> simp [e]
  · right
    by_contra hno
    have hhead : ∀ p, w.todo p = [] ∨ ∃ rest, w.todo p = .leave :: rest := by
      intro p
      rcases e : w.todo p with _ | ⟨a, rest⟩
      · exact Or.inl rfl
      · by_cases ha : a = .leave
        · exact Or.inr ⟨rest, by rw [ha]⟩
        · exact absurd ⟨_, SStep.act p a rest e ha fun _ _ h => h⟩ hno
    have hle : ∀ p, w.entered p ≤ n := by
      intro p
      rw [hi.enters, ← count_enter p 0 n, ← hp p, List.count_append]
      omega
    obtain ⟨m, hm⟩ : ∃ m, ∀ p, w.entered m ≤ w.entered p := Finite.exists_min w.entered
    obtain ⟨p, hpn⟩ := not_forall.mp hov
    rcases hhead m with e | ⟨rest, e⟩
    · have hmn : w.entered m = n := by
        have := hp m
        rw [e, List.append_nil] at this
        rw [hi.enters, this, count_enter]
      rcases hhead p with e' | ⟨rest, e'⟩
      · exact hpn e'
      · exact hno ⟨_, SStep.leave p rest e' fun q => le_trans (hle p) (by rw [← hmn]; exact hm q)⟩
    · exact hno ⟨_, SStep.leave m rest e hm⟩

theorem foldr_lt {ι : Type*} (l : List ι) (f g : ι → Nat) (hle : ∀ i, f i ≤ g i) (i : ι) (hi : i ∈ l) (hlt : f i < g i) :
    l.foldr (fun p s => f p + s) 0 < l.foldr (fun p s => g p + s) 0 := by
  have le : ∀ l : List ι, l.foldr (fun p s => f p + s) 0 ≤ l.foldr (fun p s => g p + s) 0 := by
    intro l
    induction l with
    | nil => exact le_refl _
    | cons x l ih => exact Nat.add_le_add (hle x) ih
  induction l with
  | nil => simp at hi
  | cons x l ih =>
    rcases List.mem_cons.mp hi with rfl | h
    · exact Nat.add_lt_add_of_lt_of_le hlt (le l)
    · exact Nat.add_lt_add_of_le_of_lt (hle x) (ih h)

/-- **C112.** Each step of each process brings the end nearer, so no schedule is infinite. -/
theorem C112_terminates {P : Nat} (raises : Nat → Prop) (w w' : SWorld P) (h : SStep raises w w') : Spec.left w' < Spec.left w := by
  have key : ∀ (p : Fin P) (a : SAct) (rest : List SAct), rest.length < (w.todo p).length → Spec.left (w.perform p a rest) < Spec.left w := by
    intro p a rest hr
    refine foldr_lt _ _ _ (fun q => ?_) p (List.mem_finRange p) (by simpa [SWorld.perform] using hr)
    by_cases hq : q = p
    · subst hq
      simpa [SWorld.perform] using hr.le
    · simp [SWorld.perform, Function.update_of_ne hq]
  cases h with
  | act p a rest h => exact key p a rest (by simp [h])
  | leave p rest h => exact key p _ rest (by simp [h])
  | fail p k rest h => exact key p _ [] (by simp [h])

/-- **C112.** Whatever the processes have done so far, if they go on they come to a state in which none of them can do anything. -/
theorem C112_comes_to_an_end {P : Nat} (raises : Nat → Prop) (w : SWorld P) : ∃ w', Spec.Scheduled raises w w' ∧ Spec.Blocked raises w' := by
  induction hN : Spec.left w using Nat.strong_induction_on generalizing w with
  | _ N ih =>
    by_cases h : ∃ w', SStep raises w w'
    · obtain ⟨w1, h1⟩ := h
      obtain ⟨w', h2, h3⟩ := ih _ (hN ▸ C112_terminates raises w w1 h1) w1 rfl
      exact ⟨w', .head h1 h2, h3⟩
    · exact ⟨w, .refl, fun w' h' => h ⟨w', h'⟩⟩

/-- Non-vacuity: four processes and five calls: there are schedules, and they end as `C112_no_deadlock_partial` says. -/
example : ∃ w, Spec.Scheduled (fun _ => False) (SWorld.init true fun _ : Fin 4 => 5) w ∧ Spec.Over w ∧
    w.log.filter Spec.isBody = Spec.onFirst 3 5 ∧ (2, .ret 4) ∈ w.log := by
  obtain ⟨w, h1, h2⟩ := C112_comes_to_an_end (fun _ => False) (SWorld.init true fun _ : Fin 4 => 5)
  rcases C112_no_deadlock_partial 5 w h1 with ⟨h3, h4, h5⟩ | ⟨w', h3⟩
  · exact ⟨w, h1, h3, h4, h5 2 4 (by decide)⟩
  · exact (h2 w' h3).elim

/-- C112 fails if the function raises an exception, as `inplace_build` does if the build fails: under every schedule the other processes wait
for the first one forever. -/
theorem C112_exception_violated (raises : Nat → Prop) (n : Fin (P + 1) → Nat) (w : SWorld (P + 1))
    (h : Spec.Scheduled raises (SWorld.init true n) w) (k : Nat) (hr : raises k) (p : Fin (P + 1)) (hp : p ≠ 0) (hk : k < n p) :
    (p, .ret k) ∉ w.log ∧ w.todo p ≠ [] := by
  have hi := SInv.run h
  have hno : (p, .ret k) ∉ w.log := by
    intro hm
    obtain ⟨l1, l2, e⟩ := List.append_of_mem hm
    exact hi.ended 0 k (e ▸ List.mem_append_left _ (hi.order p k l1 l2 e)) hr
  refine ⟨hno, fun he => hno ?_⟩
  have hp' : (p : Nat) ≠ 0 := fun h0 => hp (Fin.ext h0)
  rcases hi.prog p with e | ⟨d, j, r, -, e, -⟩
  · rw [← mem_didBy, show didBy w.log p = progFrom p 0 (n p) by simpa [he] using e]
    exact (mem_progFrom _ _ _ _).mpr ⟨k, Nat.zero_le _, by omega, by simp [serialFun, hp']⟩
  · have : SAct.done j ∈ progFrom p 0 (n p) := by rw [← e]; simp
    obtain ⟨i, -, -, hi⟩ := (mem_progFrom _ _ _ _).mp this
    simp [serialFun, hp'] at hi

/-- C112 fails if a process makes fewer calls than another, for instance because it finds the extension module that the first process has just
built: under every schedule the other process waits forever. -/
theorem C112_fewer_calls_violated (raises : Nat → Prop) (n : Fin (P + 1) → Nat) (p p' : Fin (P + 1)) (hn : n p < n p') (w : SWorld (P + 1))
    (h : Spec.Scheduled raises (SWorld.init true n) w) (hr : ∀ k, ¬ raises k) : w.todo p' ≠ [] := by
  intro he
  have hi := SInv.run h
  have hp : ∀ p, didBy w.log p ++ w.todo p = progFrom p 0 (n p) := fun p => by
    rcases hi.prog p with e | ⟨d, k, r, -, -, e, -⟩
    · exact e
    · exact (hr k e).elim
  have hb := hi.barrier p' p
  have h1 : (didBy w.log p').count .leave = n p' := by
    have := hp p'
    rw [he, List.append_nil] at this
    rw [this, count_leave]
  have h2 : (didBy w.log p).count .enter ≤ n p := by
    rw [← count_enter p 0 (n p), ← hp p, List.count_append]
    omega
  omega

/-- The two cases: two processes, a build that fails, and a call that the second process does not make. The processes end in a state in which
one of them waits. -/
example : (∃ w : SWorld 2, Spec.Scheduled (fun k => k = 0) (SWorld.init true fun _ => 1) w ∧ Spec.Blocked (fun k => k = 0) w ∧ w.todo 1 ≠ []) ∧
    ∃ w : SWorld 2, Spec.Scheduled (fun _ => False) (SWorld.init true ![1, 0]) w ∧ Spec.Blocked (fun _ => False) w ∧ w.todo 0 ≠ [] := by
  constructor
  · obtain ⟨w, h1, h2⟩ := C112_comes_to_an_end (fun k => k = 0) (SWorld.init true fun _ : Fin 2 => 1)
    exact ⟨w, h1, h2, (C112_exception_violated _ _ w h1 0 rfl 1 (by decide) (by decide)).2⟩
  · obtain ⟨w, h1, h2⟩ := C112_comes_to_an_end (fun _ => False) (SWorld.init true (![1, 0] : Fin 2 → Nat))
    exact ⟨w, h1, h2, C112_fewer_calls_violated _ _ 1 0 (by decide) w h1 fun _ h => h⟩

/-! ### One process without petsc4py -/

theorem serial_ret (n : Nat) : ∀ (s k : Nat) (d : List SAct), d ++ [.ret k] <+: (List.range' s n).flatMap (serialFun false 0) → .done k ∈ d := by
  induction n with
  | zero =>
    intro s k d h
    simp at h
  | succ n ih =>
    intro s k d h
    rw [List.range'_succ, List.flatMap_cons] at h
    have e' : serialFun false 0 s = [.start s, .done s, .ret s] := by simp [serialFun]
    rw [e'] at h
    rcases prefix_blocks h with ⟨i, hi, e⟩ | ⟨d', e, h'⟩
    · simp only [List.length_cons, List.length_nil] at hi
      have hd := congrArg List.dropLast e
      have hl := congrArg List.getLast? e
      rw [List.dropLast_concat] at hd
      rw [List.getLast?_concat] at hl
      interval_cases i <;> simp at hl <;> subst hl <;> subst hd <;> simp
    · rcases List.eq_nil_or_concat d' with rfl | ⟨d'', x, rfl⟩
      · have hd := congrArg List.dropLast e
        have hl := congrArg List.getLast? e
        rw [List.dropLast_concat] at hd
        rw [List.getLast?_concat] at hl
        simp at hl
        subst hl
        subst hd
        simp
      · rw [List.concat_eq_append, ← List.append_assoc] at e
        obtain ⟨rfl, e2⟩ := List.append_inj' e rfl
        simp only [List.cons.injEq, and_true] at e2
        subst e2
        exact List.mem_append_right _ (ih (s + 1) k d'' (by simpa using h'))

/-- **C112.** In a serial run without petsc4py the decorated function executes the function, once for each call, returns after it, and never
waits. -/
theorem C112_serial (n : Nat) (w : SWorld 1) (h : Spec.Scheduled (fun _ => False) (SWorld.init false fun _ => n) w) :
    w.log.filter Spec.isBody <+: Spec.onFirst 0 n ∧ (∀ k, Spec.Precedes w.log (0, .done k) (0, .ret k)) ∧
      (Spec.Over w ∨ ∃ w', SStep (fun _ => False) w w') := by
  have key : w.log ++ (w.todo 0).map (fun a => ((0 : Fin 1), a)) = (serialProg false 0 n).map fun a => ((0 : Fin 1), a) := by
    induction h with
    | refl => simp [SWorld.init]
    | tail _ hs ih =>
      rw [← ih]
      cases hs with
      | act p a rest ht => obtain rfl : p = 0 := Subsingleton.elim _ _; simp [SWorld.perform, ht]
      | leave p rest ht => obtain rfl : p = 0 := Subsingleton.elim _ _; simp [SWorld.perform, ht]
      | fail p k rest ht hr => exact hr.elim
  have hpre : w.log <+: (serialProg false 0 n).map fun a => ((0 : Fin 1), a) := ⟨_, key⟩
  refine ⟨?_, fun k l1 l2 e => ?_, ?_⟩
  · have e : Spec.onFirst 0 n = ((serialProg false 0 n).map fun a => ((0 : Fin 1), a)).filter Spec.isBody := by
      simp [Spec.onFirst, serialProg, List.map_flatMap, List.filter_flatMap, serialFun, Spec.isBody, List.filter_cons]
    rw [e]
    exact hpre.filter _
  · have h1 : l1 ++ [(0, SAct.ret k)] <+: (serialProg false 0 n).map fun a => ((0 : Fin 1), a) :=
      List.IsPrefix.trans ⟨l2, by simp [e]⟩ hpre
    have h2 := h1.map Prod.snd
    simp only [List.map_append, List.map_cons, List.map_nil, List.map_map] at h2
    have h3 := serial_ret n 0 k (l1.map Prod.snd) (by
      rw [← List.range_eq_range']
      simpa [Function.comp_def, serialProg] using h2)
    obtain ⟨⟨p, a⟩, hm, rfl⟩ := List.mem_map.mp h3
    obtain rfl : p = 0 := Subsingleton.elim _ _
    exact hm
  · rcases e : w.todo 0 with _ | ⟨a, rest⟩
    · left
      intro p
      obtain rfl : p = 0 := Subsingleton.elim _ _
      exact e
    · right
      refine ⟨_, SStep.act 0 a rest e ?_ fun _ _ h => h⟩
      rintro rfl
      have hm : ((0 : Fin 1), SAct.leave) ∈ (serialProg false 0 n).map fun a => ((0 : Fin 1), a) := by
        rw [← key, e]
        simp
      simp [serialProg, serialFun] at hm

end PyClaw
