import Verif.Model.Spmd
import Mathlib.Algebra.BigOperators.Group.Finset.Basic
import Mathlib.Algebra.Order.BigOperators.Group.Finset
import Mathlib.Algebra.Group.Action.Defs

/-!
Processes that make the same calls one after the other can be run in any order.
-/
set_option linter.unusedSectionVars false

namespace PyClaw

variable {I S C X R : Type*} [DecidableEq I]

/-- The run in lockstep from the given next actions: `M` calls made by all, then all end with `r`. -/
inductive Lock (p : Spmd I S C X R) (V : I → Prop) (r : I → R) : (I → R ⊕ (C × X × (X → S))) → Nat → Prop
  | done (a : I → R ⊕ (C × X × (X → S))) (h : ∀ i, V i → a i = .inl (r i)) : Lock p V r a 0
  | round (a : I → R ⊕ (C × X × (X → S))) (c : C) (x : I → X) (k : I → X → S) (M : Nat) (h : ∀ i, V i → a i = .inr (c, x i, k i))
      (l : Lock p V r (fun i => p.act i (k i (p.resp c x i))) M) : Lock p V r a (M + 1)

/-- What a process is in the middle of, in terms of the lockstep run: the states between the calls, the calls. -/
structure LockTrace (p : Spmd I S C X R) (V : I → Prop) (s : I → S) (r : I → R) (M : Nat) where
  st : Nat → I → S
  call : Nat → C
  arg : Nat → I → X
  cont : Nat → I → X → S
  first : ∀ i, V i → st 0 i = s i
  acts : ∀ m, m < M → ∀ i, V i → p.act i (st m i) = .inr (call m, arg m i, cont m i)
  next : ∀ m, m < M → ∀ i, V i → st (m + 1) i = cont m i (p.resp (call m) (arg m) i)
  last : ∀ i, V i → p.act i (st M i) = .inl (r i)

theorem lock_trace [Nonempty C] [Nonempty X] (p : Spmd I S C X R) (V : I → Prop) (r : I → R) :
    ∀ (a : I → R ⊕ (C × X × (X → S))) (M : Nat), Lock p V r a M → ∀ s : I → S, (∀ i, V i → p.act i (s i) = a i) →
      Nonempty (LockTrace p V s r M) := by
  intro a M h
  induction h with
  | done a h =>
    intro s hs
    exact ⟨⟨fun _ => s, fun _ => Classical.arbitrary C, fun _ _ => Classical.arbitrary X, fun _ i _ => s i, fun _ _ => rfl,
      fun m hm => absurd hm (Nat.not_lt_zero _), fun m hm => absurd hm (Nat.not_lt_zero _), fun i hi => by rw [hs i hi, h i hi]⟩⟩
  | round a c x k M h l ih =>
    intro s hs
    obtain ⟨t⟩ := ih (fun i => k i (p.resp c x i)) fun _ _ => rfl
    refine ⟨⟨fun m => match m with | 0 => s | m + 1 => t.st m, fun m => match m with | 0 => c | m + 1 => t.call m,
      fun m => match m with | 0 => x | m + 1 => t.arg m, fun m => match m with | 0 => k | m + 1 => t.cont m, fun _ _ => rfl, ?_, ?_, ?_⟩⟩
    · intro m hm i hi
      cases m with
      | zero => exact (hs i hi).trans (h i hi)
      | succ m => exact t.acts m (by omega) i hi
    · intro m hm i hi
      cases m with
      | zero => exact t.first i hi
      | succ m => exact t.next m (by omega) i hi
    · exact fun i hi => t.last i hi

/-- The calls process `i` has made before the `m`-th. -/
def LockTrace.calls {p : Spmd I S C X R} {V : I → Prop} {s : I → S} {r : I → R} {M : Nat} (t : LockTrace p V s r M) (i : I) (m : Nat) :
    List (C × X) := (List.range m).map fun j => (t.call j, t.arg j i)

/-- Process `i` is where the lockstep run brings it, after `μ` of its actions. -/
def LockTrace.At {p : Spmd I S C X R} {V : I → Prop} {s : I → S} {r : I → R} {M : Nat} (t : LockTrace p V s r M)
    (w : SpmdWorld I S C X R) (i : I) (μ : Nat) : Prop :=
  (∃ m, m ≤ M ∧ μ = 2 * m ∧ w.phase i = .ready (t.st m i) ∧ w.sent i = t.calls i m) ∨
  (∃ m, m < M ∧ μ = 2 * m + 1 ∧ w.phase i = .waiting (t.cont m i) ∧ w.sent i = t.calls i (m + 1)) ∨
  (μ = 2 * M + 1 ∧ w.phase i = .finished (r i) ∧ w.sent i = t.calls i M)

section
variable {p : Spmd I S C X R} {V : I → Prop} {s : I → S} {r : I → R} {M : Nat} (t : LockTrace p V s r M)

theorem calls_get (i : I) {m n : Nat} (h : m < n) : (t.calls i n)[m]? = some (t.call m, t.arg m i) := by
  simp [LockTrace.calls, h]

theorem calls_len (i : I) (n : Nat) : (t.calls i n).length = n := by simp [LockTrace.calls]

theorem calls_succ (i : I) (n : Nat) : t.calls i (n + 1) = t.calls i n ++ [(t.call n, t.arg n i)] := by
  simp [LockTrace.calls, List.range_succ]

theorem at_le {w : SpmdWorld I S C X R} {i : I} {μ : Nat} (h : t.At w i μ) : μ ≤ 2 * M + 1 := by
  rcases h with ⟨m, hm, e, _⟩ | ⟨m, hm, e, _⟩ | ⟨e, _⟩ <;> omega

theorem at_congr {w w' : SpmdWorld I S C X R} {i : I} {μ : Nat} (h : t.At w i μ) (h1 : w'.phase i = w.phase i)
    (h2 : w'.sent i = w.sent i) : t.At w' i μ := by
  unfold LockTrace.At
  rw [h1, h2]
  exact h

/-- Every action is one of the lockstep run. -/
theorem step_at (hr : ∀ c (x x' : I → X) i, V i → (∀ j, V j → x j = x' j) → p.resp c x i = p.resp c x' i) {w w' : SpmdWorld I S C X R}
    {μ : I → Nat} (h : ∀ i, V i → t.At w i (μ i)) (hs : SpmdStep p V w w') :
    ∃ i, V i ∧ (∀ j, V j → t.At w' j (Function.update μ i (μ i + 1) j)) := by
  have other : ∀ i : I, V i → t.At w' i (μ i + 1) → (∀ j, j ≠ i → w'.phase j = w.phase j ∧ w'.sent j = w.sent j) →
      ∃ i, V i ∧ (∀ j, V j → t.At w' j (Function.update μ i (μ i + 1) j)) := by
    intro i hi ha ho
    refine ⟨i, hi, fun j hj => ?_⟩
    by_cases e : j = i
    · subst e; rw [Function.update_self]; exact ha
    · rw [Function.update_of_ne e]
      exact at_congr t (h j hj) (ho j e).1 (ho j e).2
  cases hs with
  | finish i s' r' hi hp ha =>
    refine other i hi ?_ fun j e => ⟨Function.update_of_ne e _ _, rfl⟩
    rcases h i hi with ⟨m, hm, e, h1, h2⟩ | ⟨m, hm, e, h1, h2⟩ | ⟨e, h1, h2⟩
    · rw [h1, ProcPhase.ready.injEq] at hp
      subst hp
      rcases Nat.lt_or_ge m M with hlt | hge
      · rw [t.acts m hlt i hi] at ha
        exact absurd ha (by simp)
      · obtain rfl : m = M := by omega
        rw [t.last i hi, Sum.inl.injEq] at ha
        subst ha
        exact Or.inr (Or.inr ⟨by omega, Function.update_self .., h2⟩)
    · rw [h1] at hp; exact absurd hp (by simp)
    · rw [h1] at hp; exact absurd hp (by simp)
  | post i s' c x k hi hp ha =>
    refine other i hi ?_ fun j e => ⟨Function.update_of_ne e _ _, Function.update_of_ne e _ _⟩
    rcases h i hi with ⟨m, hm, e, h1, h2⟩ | ⟨m, hm, e, h1, h2⟩ | ⟨e, h1, h2⟩
    · rw [h1, ProcPhase.ready.injEq] at hp
      subst hp
      rcases Nat.lt_or_ge m M with hlt | hge
      · rw [t.acts m hlt i hi] at ha
        simp only [Sum.inr.injEq, Prod.mk.injEq] at ha
        obtain ⟨rfl, rfl, rfl⟩ := ha
        refine Or.inr (Or.inl ⟨m, hlt, by omega, Function.update_self .., ?_⟩)
        show Function.update w.sent i _ i = _
        rw [Function.update_self, h2, calls_succ]
      · obtain rfl : m = M := by omega
        rw [t.last i hi] at ha
        exact absurd ha (by simp)
    · rw [h1] at hp; exact absurd hp (by simp)
    · rw [h1] at hp; exact absurd hp (by simp)
  | answer i k m c x hi hp hm hx =>
    refine other i hi ?_ fun j e => ⟨Function.update_of_ne e _ _, rfl⟩
    rcases h i hi with ⟨m', hm', e, h1, h2⟩ | ⟨m', hm', e, h1, h2⟩ | ⟨e, h1, h2⟩
    · rw [h1] at hp; exact absurd hp (by simp)
    · rw [h1, ProcPhase.waiting.injEq] at hp
      subst hp
      rw [h2, calls_len] at hm
      obtain rfl : m' = m := by omega
      have hj : ∀ j, V j → (c, x j) = (t.call m', t.arg m' j) := by
        intro j hj
        have hg := hx j hj
        have hlen : m' < (w.sent j).length := by
          rw [List.getElem?_eq_some_iff] at hg
          exact hg.1
        rcases h j hj with ⟨n, _, _, _, g2⟩ | ⟨n, _, _, _, g2⟩ | ⟨_, _, g2⟩ <;>
        · rw [g2, calls_len] at hlen
          rw [g2, calls_get t j hlen, Option.some.injEq] at hg
          exact hg.symm
      have hc : c = t.call m' := (Prod.mk.inj (hj i hi)).1
      subst hc
      refine Or.inl ⟨m' + 1, by omega, by omega, ?_, h2⟩
      show Function.update w.phase i _ i = _
      rw [Function.update_self, t.next m' hm' i hi, hr (t.call m') x (t.arg m') i hi fun j h => (Prod.mk.inj (hj j h)).2]
    · rw [h1] at hp; exact absurd hp (by simp)

/-- If a process has not ended, one of them can act. -/
theorem some_acts {w : SpmdWorld I S C X R} {μ : I → Nat} (h : ∀ i, V i → t.At w i (μ i)) {i : I} (hi : V i) (hl : μ i < 2 * M + 1) :
    ∃ w', SpmdStep p V w w' := by
  -- the process that is furthest behind
  obtain ⟨j, hj, hmin⟩ : ∃ j, V j ∧ ∀ j', V j' → μ j ≤ μ j' := by
    obtain ⟨b, hb1, hb2⟩ : ∃ b, (∃ j, V j ∧ μ j = b) ∧ ∀ b', (∃ j, V j ∧ μ j = b') → b ≤ b' := by
      have hne : ∃ b, ∃ j, V j ∧ μ j = b := ⟨μ i, i, hi, rfl⟩
      classical
      exact ⟨Nat.find hne, Nat.find_spec hne, fun b' hb' => Nat.find_min' hne hb'⟩
    obtain ⟨j, hj, rfl⟩ := hb1
    exact ⟨j, hj, fun j' hj' => hb2 _ ⟨j', hj', rfl⟩⟩
  have hjl : μ j < 2 * M + 1 := lt_of_le_of_lt (hmin i hi) hl
  rcases h j hj with ⟨m, hm, e, h1, h2⟩ | ⟨m, hm, e, h1, h2⟩ | ⟨e, h1, h2⟩
  · rcases Nat.lt_or_ge m M with hlt | hge
    · exact ⟨_, SpmdStep.post w j _ _ _ _ hj h1 (t.acts m hlt j hj)⟩
    · obtain rfl : m = M := by omega
      exact ⟨_, SpmdStep.finish w j _ _ hj h1 (t.last j hj)⟩
  · refine ⟨_, SpmdStep.answer w j _ m (t.call m) (t.arg m) hj h1 (by rw [h2, calls_len]) ?_⟩
    intro j' hj'
    have := hmin j' hj'
    rcases h j' hj' with ⟨n, hn, e', _, g2⟩ | ⟨n, hn, e', _, g2⟩ | ⟨e', _, g2⟩ <;>
    · rw [g2]
      exact calls_get t j' (by omega)
  · omega

theorem runs_at (hr : ∀ c (x x' : I → X) i, V i → (∀ j, V j → x j = x' j) → p.resp c x i = p.resp c x' i) (A : Finset I)
    (hA : ∀ i, i ∈ A ↔ V i) {n : Nat} {w : SpmdWorld I S C X R} (h : SpmdRuns p V (spmdStart s) n w) :
    ∃ μ : I → Nat, (∀ i, V i → t.At w i (μ i)) ∧ n = ∑ i ∈ A, μ i := by
  induction h with
  | start =>
    refine ⟨fun _ => 0, fun i hi => Or.inl ⟨0, Nat.zero_le _, rfl, ?_, ?_⟩, by simp⟩
    · show ProcPhase.ready (s i) = _
      rw [t.first i hi]
    · simp [spmdStart, LockTrace.calls]
  | step _ hs ih =>
    obtain ⟨μ, hμ, hn⟩ := ih
    obtain ⟨i, hi, h'⟩ := step_at t hr hμ hs
    refine ⟨Function.update μ i (μ i + 1), h', ?_⟩
    rw [hn, ← Finset.add_sum_erase A μ ((hA i).mpr hi), ← Finset.add_sum_erase A (Function.update μ i (μ i + 1)) ((hA i).mpr hi),
      Function.update_self]
    have : ∑ j ∈ A.erase i, Function.update μ i (μ i + 1) j = ∑ j ∈ A.erase i, μ j :=
      Finset.sum_congr rfl fun j hj => Function.update_of_ne (Finset.ne_of_mem_erase hj) _ _
    rw [this]
    omega

end

/-- If the processes end in lockstep after `M` calls, then they end in every order of their actions, with the same results: no run
is longer than `|A| (2 M + 1)` actions, a process that has ended has its result, and when nothing more can happen all have ended
(after exactly that many actions). -/
theorem any_order [Nonempty C] [Nonempty X] (p : Spmd I S C X R) (V : I → Prop) (A : Finset I) (hA : ∀ i, i ∈ A ↔ V i)
    (hr : ∀ c (x x' : I → X) i, V i → (∀ j, V j → x j = x' j) → p.resp c x i = p.resp c x' i) (s : I → S) (r : I → R) (M : Nat)
    (hl : Lock p V r (fun i => p.act i (s i)) M) {n : Nat} {w : SpmdWorld I S C X R} (h : SpmdRuns p V (spmdStart s) n w) :
    n ≤ A.card * (2 * M + 1) ∧ (∀ i, V i → ∀ r', w.phase i = .finished r' → r' = r i) ∧
      (SpmdStuck p V w → n = A.card * (2 * M + 1) ∧ ∀ i, V i → w.phase i = .finished (r i)) := by
  obtain ⟨t⟩ := lock_trace p V r _ M hl s fun _ _ => rfl
  obtain ⟨μ, hμ, hn⟩ := runs_at t hr A hA h
  refine ⟨?_, ?_, ?_⟩
  · rw [hn, ← smul_eq_mul]
    exact Finset.sum_le_card_nsmul A μ _ fun i hi => at_le t (hμ i ((hA i).mp hi))
  · intro i hi r' hf
    rcases hμ i hi with ⟨m, hm, e, h1, h2⟩ | ⟨m, hm, e, h1, h2⟩ | ⟨e, h1, h2⟩
    · rw [h1] at hf; exact absurd hf (by simp)
    · rw [h1] at hf; exact absurd hf (by simp)
    · rw [h1, ProcPhase.finished.injEq] at hf
      exact hf.symm
  · intro hst
    have hall : ∀ i, V i → μ i = 2 * M + 1 := by
      intro i hi
      have h1 := at_le t (hμ i hi)
      by_contra hne
      exact hst (some_acts t hμ hi (by omega))
    constructor
    · rw [hn, Finset.sum_congr rfl fun i hi => hall i ((hA i).mp hi), Finset.sum_const, smul_eq_mul]
    · intro i hi
      rcases hμ i hi with ⟨m, hm, e, h1, h2⟩ | ⟨m, hm, e, h1, h2⟩ | ⟨e, h1, h2⟩
      · have := hall i hi; omega
      · have := hall i hi; omega
      · exact h1

end PyClaw
