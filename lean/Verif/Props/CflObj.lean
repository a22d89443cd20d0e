import Verif.Spec.CflObj
import Mathlib.Data.Rat.Floor
import Mathlib.Tactic.FinCases
import Mathlib.Tactic.NormNum
import Mathlib.Data.Fin.VecNotation

/-!
C106: the Courant number, in serial and in parallel.
-/
set_option linter.unusedSectionVars false
namespace PyClaw

variable {K : Type*} [LinearOrder K] {P : Type*} [Fintype P] [Nonempty P]

theorem reduceMax_isGreatest (x : P → K) : IsGreatest (Set.range x) (reduceMax x) := by
  refine ⟨?_, ?_⟩
  · obtain ⟨p, -, h⟩ := Finset.exists_mem_eq_sup' (Finset.univ_nonempty (α := P)) x
    exact ⟨p, h.symm⟩
  · rintro _ ⟨p, rfl⟩
    exact Finset.le_sup' x (Finset.mem_univ p)

/-- **C106.** After a reset to `c` and any number of reports, `get_cached_max` gives on every process the largest of `c` and of all numbers
that any process has reported since, whatever was done before. -/
theorem C106_cached_is_max (before : ParCfl P K) (c : K) (xs : List (P → K)) (p : P) :
    IsGreatest (Spec.Reported c xs) ((before.run (.setGlobal (fun _ => c) :: xs.map .update)).glob p) := by
  induction xs using List.reverseRecOn with
  | nil => exact ⟨Or.inl rfl, by rintro y (rfl | ⟨x, hx, -⟩); exacts [le_refl _, absurd hx (by simp)]⟩
  | append_singleton xs x ih =>
    have e : (before.run (.setGlobal (fun _ => c) :: (xs ++ [x]).map .update)).glob p =
        max ((before.run (.setGlobal (fun _ => c) :: xs.map .update)).glob p) (reduceMax x) := by
      simp [ParCfl.run, ParCfl.step, List.foldl_append]
    rw [e]
    obtain ⟨h1, h2⟩ := ih
    obtain ⟨⟨p', h3⟩, h4⟩ := reduceMax_isGreatest x
    constructor
    · rcases max_choice ((before.run (.setGlobal (fun _ => c) :: xs.map .update)).glob p) (reduceMax x) with h | h <;> rw [h]
      · rcases h1 with h1 | ⟨y, hy, q, h1⟩
        · exact Or.inl h1
        · exact Or.inr ⟨y, by simp [hy], q, h1⟩
      · exact Or.inr ⟨x, by simp, p', h3.symm⟩
    · rintro y (rfl | ⟨z, hz, q, rfl⟩)
      · exact le_max_of_le_left (h2 (Or.inl rfl))
      · rcases List.mem_append.mp hz with hz | hz
        · exact le_max_of_le_left (h2 (Or.inr ⟨z, hz, q, rfl⟩))
        · rw [List.mem_singleton.mp hz]
          exact le_max_of_le_right (h4 ⟨q, rfl⟩)

theorem cfl_agree (par : List (CflOp P K)) (ser : List (CflOp Unit K)) (h : Spec.SerialOf par ser) :
    ∀ (c : ParCfl P K) (g : K), (∀ p, c.glob p = g) → ∀ p, (c.run par).glob p = serialCflRun g ser := by
  induction h with
  | nil => exact fun c g h => h
  | reset x _ ih => exact fun c g hc => ih (c.step _) (serialCfl g _) fun p => rfl
  | report x y hy _ ih =>
    refine fun c g hc => ih (c.step _) (serialCfl g _) fun p => ?_
    simp only [ParCfl.step, serialCfl, hc, (reduceMax_isGreatest x).unique hy]
  | localThenGlobal x y hy _ ih =>
    refine fun c g hc => ih ((c.step _).step _) (serialCfl (serialCfl g _) _) fun p => ?_
    simp only [ParCfl.step, serialCfl, (reduceMax_isGreatest x).unique hy]

/-- **C106.** The parallel objects hold on every process what the object of the serial run holds, after every sequence of resets, reports and
calls of `set_local_max` followed by `get_global_max`; the serial run passes the largest number of all parts. -/
theorem C106_parallel_is_serial (x : K) (par : List (CflOp P K)) (ser : List (CflOp Unit K)) (h : Spec.SerialOf par ser)
    (p : P) : ((ParCfl.new x).run par).glob p = serialCflRun x ser :=
  cfl_agree par ser h _ x (fun _ => rfl) p

/-- **C106.** `set_local_max` followed by `get_global_max` gives the largest of the local numbers on every process. -/
theorem C106_local_then_global (before : ParCfl P K) (x : P → K) (p : P) :
    IsGreatest (Set.range x) ((before.run [.setLocal x, .getGlobal]).glob p) :=
  reduceMax_isGreatest x

/-- C106 fails for `get_global_max` after `update_global_max`: in a parallel run it forgets what was reported and returns the largest of the
numbers set by `set_local_max` (or the number given at the creation); the serial object returns the number that was reported. -/
theorem C106_get_after_update_violated :
    ((ParCfl.new 1 : ParCfl (Fin 2) ℚ).run [.setGlobal fun _ => 0, .update ![3, 2], .getGlobal]).glob 0 = 1 ∧
      serialCflRun (1 : ℚ) [.setGlobal fun _ => 0, .update fun _ => 3, .getGlobal] = 3 := by
  constructor
  · simp [ParCfl.run, ParCfl.step, ParCfl.new, reduceMax]
  · simp [serialCflRun, serialCfl]

/-- C106 fails for `get_cached_max` after `set_local_max`: the serial object returns the new number, the parallel ones the old one. -/
theorem C106_cached_after_local_violated :
    ((ParCfl.new 1 : ParCfl (Fin 2) ℚ).run [.setLocal fun _ => 5]).glob 0 = 1 ∧ serialCflRun (1 : ℚ) [.setLocal fun _ => 5] = 5 :=
  ⟨rfl, rfl⟩

/-! Two processes, a reset, two reports, and a local number. -/

example : Spec.SerialOf
    [.setGlobal fun _ => (0 : ℚ), .update (![3 / 4, 1 / 2] : Fin 2 → ℚ), .setLocal ![1 / 8, 1 / 4], .getGlobal, .update ![1 / 4, 1]]
    [.setGlobal fun _ => 0, .update fun _ => 3 / 4, .setLocal fun _ => 1 / 4, .getGlobal, .update fun _ => 1] := by
  refine .reset 0 (.report _ _ ⟨⟨0, by simp⟩, ?_⟩ (.localThenGlobal _ _ ⟨⟨1, by simp⟩, ?_⟩ (.report _ _ ⟨⟨1, by simp⟩, ?_⟩ .nil)))
  all_goals
    rintro _ ⟨i, rfl⟩
    fin_cases i <;> norm_num

end PyClaw
