import Verif.Spec.Util
import Mathlib.Data.List.Basic
import Mathlib.Data.List.Induction
import Mathlib.Data.List.Nodup
import Mathlib.Data.List.Forall2
import Mathlib.Tactic.Ring
set_option linter.unusedSectionVars false

/-!
# Utilities (C58–C62)
-/
namespace PyClaw
open Spec

/-! ### C58 -/

/-- C58. After any operations, then `set_counter(n)`, then `k` increments, the counter is `n + k`; after
`reset_counter` and `k` increments it is `k`; a new counter incremented `k` times is `k`. -/
theorem C58_counter (pre : List CounterOp) (n : Int) (k : Nat) :
    runCounter (pre ++ .set n :: List.replicate k .increment) = n + k ∧
    runCounter (pre ++ .reset :: List.replicate k .increment) = k ∧
    runCounter (List.replicate k .increment) = k := by
  have h : ∀ (k : Nat) (z : Int), (List.replicate k CounterOp.increment).foldl CounterOp.apply z = z + k := by
    intro k
    induction k with
    | zero => intro z; simp
    | succ k ih => intro z; simp only [List.replicate_succ, List.foldl_cons, ih, CounterOp.apply]; push_cast; ring
  refine ⟨?_, ?_, ?_⟩ <;> unfold runCounter
  · rw [List.foldl_append, List.foldl_cons, h]; rfl
  · rw [List.foldl_append, List.foldl_cons, h]; simp [CounterOp.apply]
  · rw [h]; simp

/-- C58 covers every history: each operation sequence has one of the three forms. -/
theorem C58_exhaustive (ops : List CounterOp) :
    (∃ k, ops = List.replicate k .increment) ∨
    (∃ pre n k, ops = pre ++ .set n :: List.replicate k .increment) ∨
    (∃ pre k, ops = pre ++ .reset :: List.replicate k .increment) := by
  induction ops using List.reverseRecOn with
  | nil => exact Or.inl ⟨0, rfl⟩
  | append_singleton ops o ih =>
    cases o with
    | set n => exact Or.inr (Or.inl ⟨ops, n, 0, rfl⟩)
    | reset => exact Or.inr (Or.inr ⟨ops, 0, rfl⟩)
    | increment =>
      rcases ih with ⟨k, rfl⟩ | ⟨pre, n, k, rfl⟩ | ⟨pre, k, rfl⟩
      · exact Or.inl ⟨k + 1, by rw [List.replicate_succ']⟩
      · exact Or.inr (Or.inl ⟨pre, n, k + 1, by rw [List.replicate_succ']; simp⟩)
      · exact Or.inr (Or.inr ⟨pre, k + 1, by rw [List.replicate_succ']; simp⟩)

example : runCounter [.increment, .set 7, .increment, .increment] = 9 := by decide

/-! ### C59 -/

variable {J : Type}

theorem splitEq_append (k v : List Char) (hk : '=' ∉ k) : splitEq (k ++ '=' :: v) = (k, v) := by
  induction k with
  | nil => simp [splitEq]
  | cons c cs ih =>
    simp only [List.mem_cons, not_or] at hk
    simp [splitEq, ih hk.2, Ne.symm hk.1]

theorem argParts_keyword {s k v : List Char} (h : IsKeyword s k v) : argParts s = (some k, v) := by
  obtain ⟨rfl, h1, h2, _⟩ := h
  unfold argParts
  rw [if_pos (by simp [List.count_eq_zero.mpr h1, List.count_eq_zero.mpr h2]), splitEq_append _ _ h1]

theorem splitEq_spec (s : List Char) (h : s.count '=' = 1) :
    s = (splitEq s).1 ++ '=' :: (splitEq s).2 ∧ '=' ∉ (splitEq s).1 ∧ '=' ∉ (splitEq s).2 := by
  induction s with
  | nil => simp at h
  | cons c cs ih =>
    by_cases hc : c = '='
    · subst hc
      simp at h
      simp [splitEq]
      exact List.count_eq_zero.mp h
    · rw [List.count_cons_of_ne hc] at h
      obtain ⟨h1, h2, h3⟩ := ih h
      simp only [splitEq, hc, if_false]
      exact ⟨by rw [List.cons_append, ← h1], by simp [h2, Ne.symm hc], h3⟩

/-- Which arguments are not keyword arguments, and the text of their value. -/
theorem argParts_cases (s : List Char) :
    (∃ k v, IsKeyword s k v ∧ argParts s = (some k, v)) ∨
    ((∀ k v, ¬ IsKeyword s k v) ∧
      (argParts s = (none, s) ∨ ∃ v, s = '=' :: v ∧ '=' ∉ v ∧ argParts s = (some [], v))) := by
  by_cases h : s.count '=' = 1
  · obtain ⟨h1, h2, h3⟩ := splitEq_spec s h
    by_cases hk : (splitEq s).1 = []
    · right
      rw [hk, List.nil_append] at h1
      refine ⟨?_, Or.inr ⟨(splitEq s).2, h1, h3, by unfold argParts; rw [if_pos h, hk]⟩⟩
      rintro k v ⟨e, hk1, hk2, hk3⟩
      have := splitEq_append k v hk1
      rw [← e] at this
      rw [this] at hk
      exact hk3 hk
    · left
      exact ⟨_, _, ⟨h1, h2, h3, hk⟩, by unfold argParts; rw [if_pos h]⟩
  · right
    refine ⟨?_, Or.inl (by unfold argParts; rw [if_neg h])⟩
    rintro k v ⟨rfl, h1, h2, _⟩
    exact h (by simp [List.count_eq_zero.mpr h1, List.count_eq_zero.mpr h2])

theorem denotes_iff (json : List Char → Option (ArgVal J)) (v : List Char) (x : ArgVal J) :
    argBool (argDecode json v) = x ↔ Denotes json v x := by
  have hne : ("False".toList = "True".toList) ↔ False := by decide
  have key : ∀ y : ArgVal J, argBool y = x ↔
      (y = .str "True".toList ∧ x = .bool true ∨ y = .str "False".toList ∧ x = .bool false ∨
        (y ≠ .str "True".toList ∧ y ≠ .str "False".toList ∧ x = y)) := by
    intro y
    cases y with
    | str s =>
      unfold argBool
      simp only [ArgVal.str.injEq, ne_eq]
      by_cases h1 : s = "True".toList
      · rw [if_pos h1]
        constructor
        · intro h; exact Or.inl ⟨h1, h.symm⟩
        · rintro (⟨_, h⟩ | ⟨h2, _⟩ | ⟨h, _⟩)
          · exact h.symm
          · rw [h1] at h2; exact absurd h2.symm (by rw [hne]; exact id)
          · exact absurd h1 h
      · rw [if_neg h1]
        by_cases h2 : s = "False".toList
        · rw [if_pos h2]
          constructor
          · intro h; exact Or.inr (Or.inl ⟨h2, h.symm⟩)
          · rintro (⟨h, _⟩ | ⟨_, h⟩ | ⟨_, h, _⟩)
            · exact absurd h h1
            · exact h.symm
            · exact absurd h2 h
        · rw [if_neg h2]
          constructor
          · intro h; exact Or.inr (Or.inr ⟨h1, h2, h.symm⟩)
          · rintro (⟨h, _⟩ | ⟨h, _⟩ | ⟨_, _, h⟩)
            · exact absurd h h1
            · exact absurd h h2
            · exact h.symm
    | bool b => simp only [argBool]; constructor
                · intro h; exact Or.inr (Or.inr ⟨by simp, by simp, h.symm⟩)
                · rintro (⟨h, _⟩ | ⟨h, _⟩ | ⟨_, _, h⟩) <;> first | exact h.symm | simp at h
    | other j => simp only [argBool]; constructor
                 · intro h; exact Or.inr (Or.inr ⟨by simp, by simp, h.symm⟩)
                 · rintro (⟨h, _⟩ | ⟨h, _⟩ | ⟨_, _, h⟩) <;> first | exact h.symm | simp at h
  have hd : ∀ y, argDecode json v = y ↔ (json v = some y ∨ json v = none ∧ y = .str v) := by
    intro y
    unfold argDecode
    cases hj : json v with
    | none => simp [eq_comm]
    | some z => simp
  rw [key]
  unfold Denotes
  constructor
  · rintro (⟨h, hx⟩ | ⟨h, hx⟩ | ⟨h1, h2, hx⟩)
    · refine Or.inl ⟨?_, hx⟩
      rcases (hd _).mp h with h | ⟨h, h'⟩
      · exact Or.inl h
      · exact Or.inr ⟨h, by simpa [eq_comm] using h'⟩
    · refine Or.inr (Or.inl ⟨?_, hx⟩)
      rcases (hd _).mp h with h | ⟨h, h'⟩
      · exact Or.inl h
      · exact Or.inr ⟨h, by simpa [eq_comm] using h'⟩
    · exact Or.inr (Or.inr ⟨_, (hd _).mp rfl, h1, h2, hx⟩)
  · rintro (⟨h, hx⟩ | ⟨h, hx⟩ | ⟨y, h, h1, h2, hx⟩)
    · refine Or.inl ⟨(hd _).mpr ?_, hx⟩
      rcases h with h | ⟨h, rfl⟩
      · exact Or.inl h
      · exact Or.inr ⟨h, rfl⟩
    · refine Or.inr (Or.inl ⟨(hd _).mpr ?_, hx⟩)
      rcases h with h | ⟨h, rfl⟩
      · exact Or.inl h
      · exact Or.inr ⟨h, rfl⟩
    · have := (hd y).mpr h
      rw [this]
      exact Or.inr (Or.inr ⟨h1, h2, hx⟩)

/-- C59. `_info_from_argv` returns as keywords exactly the arguments after the script name of the form
`key=value`, the last one winning; all other arguments are positional, in order. -/
theorem C59_info_from_argv_partial (json : List Char → Option (ArgVal J)) (script : List Char)
    (ss : List (List Char)) :
    (∀ k x, (infoFromArgv json (script :: ss)).kwargs k = some x ↔
      ∃ pre s post v, ss = pre ++ s :: post ∧ IsKeyword s k v ∧ Denotes json v x ∧
        ∀ s' ∈ post, ∀ v', ¬ IsKeyword s' k v') ∧
    ∃ pos : List (List Char), List.Sublist pos ss ∧
      (∀ s ∈ ss, (s ∈ pos ↔ ∀ k v, ¬ IsKeyword s k v)) ∧
      List.Forall₂ (fun s x => Denotes json s x ∨ ∃ v, s = '=' :: v ∧ '=' ∉ v ∧ Denotes json v x) pos
        (infoFromArgv json (script :: ss)).args := by
  unfold infoFromArgv
  rw [List.tail_cons]
  induction ss using List.reverseRecOn with
  | nil => exact ⟨by simp, [], List.Sublist.refl _, by simp, by simp⟩
  | append_singleton ss s ih =>
    rw [List.foldl_append, List.foldl_cons, List.foldl_nil]
    generalize (ss.foldl (infoStep json) ⟨[], fun _ => none⟩) = r at ih ⊢
    obtain ⟨ih1, pos, ih2, ih3, ih4⟩ := ih
    have hlast : ∀ {pre post : List (List Char)} {s0 : List Char}, ss ++ [s] = pre ++ s0 :: post →
        (post = [] ∧ pre = ss ∧ s0 = s) ∨ ∃ post', post = post' ++ [s] ∧ ss = pre ++ s0 :: post' := by
      intro pre post s0 h
      rcases List.eq_nil_or_concat post with rfl | ⟨post', y, rfl⟩
      · left
        have := List.append_inj' (s₁ := ss) (t₁ := [s]) (s₂ := pre) (t₂ := [s0]) h (by simp)
        exact ⟨rfl, this.1.symm, by simpa using this.2.symm⟩
      · right
        rw [List.concat_eq_append] at h ⊢
        have h' : ss ++ [s] = (pre ++ s0 :: post') ++ [y] := by rw [h]; simp
        have := List.append_inj' h' (by simp)
        exact ⟨post', by simpa using this.2.symm, this.1⟩
    unfold infoStep
    rcases argParts_cases s with ⟨k0, v0, hkw, hp⟩ | ⟨hno, hp⟩
    · rw [hp]
      have hk0 := hkw.2.2.2
      obtain ⟨c, cs, rfl⟩ := List.exists_cons_of_ne_nil hk0
      simp only [ArgInfo.add]
      have huniq : ∀ k v, IsKeyword s k v → k = c :: cs ∧ v = v0 := by
        intro k v h
        have := argParts_keyword h
        rw [hp] at this
        simp at this
        exact ⟨this.1.symm, this.2.symm⟩
      refine ⟨fun k x => ?_, pos, ih2.trans (List.sublist_append_left _ _), ?_, ih4⟩
      · by_cases hk : k = c :: cs
        · subst hk
          rw [if_pos rfl]
          constructor
          · intro h
            exact ⟨ss, s, [], v0, by simp, hkw, (denotes_iff _ _ _).mp (by simpa using h), by simp⟩
          · rintro ⟨pre, s0, post, v, e, hk1, hd, hpost⟩
            rcases hlast e with ⟨rfl, rfl, rfl⟩ | ⟨post', rfl, _⟩
            · rw [(huniq _ _ hk1).2] at hd
              rw [(denotes_iff _ _ _).mpr hd]
            · exact absurd hkw (hpost s (by simp) v0)
        · rw [if_neg hk, ih1]
          constructor
          · rintro ⟨pre, s0, post, v, rfl, hk1, hd, hpost⟩
            refine ⟨pre, s0, post ++ [s], v, by simp, hk1, hd, fun s' hs' => ?_⟩
            rcases List.mem_append.mp hs' with h | h
            · exact hpost s' h
            · rw [List.mem_singleton.mp h]
              intro v' hv'
              exact hk (huniq _ _ hv').1
          · rintro ⟨pre, s0, post, v, e, hk1, hd, hpost⟩
            rcases hlast e with ⟨rfl, rfl, rfl⟩ | ⟨post', rfl, rfl⟩
            · exact absurd (huniq _ _ hk1).1 hk
            · exact ⟨pre, s0, post', v, rfl, hk1, hd, fun s' hs' => hpost s' (by simp [hs'])⟩
      · intro t ht
        rcases List.mem_append.mp ht with h | h
        · exact ih3 t h
        · rw [List.mem_singleton.mp h]
          constructor
          · intro hmem
            have := (ih3 s (ih2.subset hmem)).mp hmem
            exact absurd hkw (this _ _)
          · intro hn; exact absurd hkw (hn _ _)
    · have hadd : ∃ x v, (argParts s).2 = v ∧ argBool (argDecode json v) = x ∧
          r.add (argParts s).1 (argBool (argDecode json (argParts s).2)) = { r with args := r.args ++ [x] } ∧
          (v = s ∨ s = '=' :: v ∧ '=' ∉ v) := by
        rcases hp with hp | ⟨v, hv, hv', hp⟩
        · exact ⟨_, s, by rw [hp], rfl, by rw [hp]; rfl, Or.inl rfl⟩
        · exact ⟨_, v, by rw [hp], rfl, by rw [hp]; rfl, Or.inr ⟨hv, hv'⟩⟩
      obtain ⟨x, v, hv, hx, ha, hs⟩ := hadd
      rw [ha]
      refine ⟨fun k y => ?_, pos ++ [s], ih2.append (List.Sublist.refl _), ?_, ?_⟩
      · simp only [ih1]
        constructor
        · rintro ⟨pre, s0, post, w, rfl, hk1, hd, hpost⟩
          refine ⟨pre, s0, post ++ [s], w, by simp, hk1, hd, fun s' hs' => ?_⟩
          rcases List.mem_append.mp hs' with h | h
          · exact hpost s' h
          · rw [List.mem_singleton.mp h]; exact hno k
        · rintro ⟨pre, s0, post, w, e, hk1, hd, hpost⟩
          rcases hlast e with ⟨rfl, rfl, rfl⟩ | ⟨post', rfl, rfl⟩
          · exact absurd hk1 (hno _ _)
          · exact ⟨pre, s0, post', w, rfl, hk1, hd, fun s' hs' => hpost s' (by simp [hs'])⟩
      · intro t ht
        rcases List.mem_append.mp ht with h | h
        · rw [List.mem_append]
          constructor
          · rintro (h' | h')
            · exact (ih3 t h).mp h'
            · rw [List.mem_singleton.mp h']; exact hno
          · intro hn; exact Or.inl ((ih3 t h).mpr hn)
        · rw [List.mem_singleton.mp h]
          simp [hno]
      · refine List.rel_append ih4 (List.Forall₂.cons ?_ List.Forall₂.nil)
        rcases hs with rfl | ⟨h1, h2⟩
        · exact Or.inl ((denotes_iff _ _ _).mp hx)
        · exact Or.inr ⟨v, h1, h2, (denotes_iff _ _ _).mp hx⟩

/-- Non-vacuity: `prog iplot=True x=1=2 n=a n=b` . -/
example :
    let r : ArgInfo Unit := infoFromArgv (fun _ => none)
      [['p'], "iplot=True".toList, "x=1=2".toList, "n=a".toList, "n=b".toList]
    r.args = [.str "x=1=2".toList] ∧ r.kwargs "iplot".toList = some (.bool true) ∧
      r.kwargs "n".toList = some (.str "b".toList) := by
  refine ⟨?_, ?_, ?_⟩ <;> rfl

/-- The variant `_method_info_from_argv` does not do what its documentation says: any argument that is a
JSON value other than a string (e.g. `123`), and any `key=True`, makes it raise `AttributeError`. -/
theorem C59_method_variant_violated (json : List Char → Option (ArgVal J)) (script m : List Char)
    (pre post : List (List Char)) (s : List Char)
    (hs : (∃ j, json (argParts s).2 = some (.other j)) ∨
      (json (argParts s).2 = none ∧ (argParts s).2 = "True".toList)) :
    ∃ e, methodInfoFromArgv json (script :: m :: (pre ++ s :: post)) = .error e ∧ e = .attributeError := by
  have hbad : methodBool (argDecode json (argParts s).2) = .error .attributeError := by
    rcases hs with ⟨j, hj⟩ | ⟨h1, h2⟩
    · unfold argDecode; rw [hj]; rfl
    · unfold argDecode; rw [h1, h2]; rfl
  have hloop : ∀ (pre : List (List Char)) (r : ArgInfo J),
      methodLoop json (pre ++ s :: post) r = .error .attributeError := by
    intro pre
    induction pre with
    | nil => intro r; simp [methodLoop, hbad]
    | cons p pre ih =>
      intro r
      simp only [List.cons_append, methodLoop]
      have hm : ∀ v : ArgVal J, (∃ w, methodBool v = .ok w) ∨ methodBool v = .error .attributeError := by
        intro v
        cases v with
        | str t =>
          unfold methodBool
          simp only
          split
          · exact Or.inr rfl
          · split <;> exact Or.inl ⟨_, rfl⟩
        | bool b => exact Or.inr rfl
        | other j => exact Or.inr rfl
      rcases hm (argDecode json (argParts p).2) with ⟨w, hw⟩ | hw
      · rw [hw]; exact ih _
      · rw [hw]
  exact ⟨_, by simp [methodInfoFromArgv, hloop], rfl⟩

/-- For the other arguments the variant does the same as `_info_from_argv` (`C59_info_from_argv_partial`): texts that are not JSON, other
than `True` and than `false` in capitals other than `False`. -/
theorem C59_method_variant (json : List Char → Option (ArgVal J)) (script m : List Char) (ss : List (List Char))
    (h : ∀ s ∈ ss, json (argParts s).2 = none ∧ (argParts s).2 ≠ "True".toList ∧
      (lowerAscii (argParts s).2 = "false".toList → (argParts s).2 = "False".toList)) :
    methodInfoFromArgv json (script :: m :: ss) = .ok (m, infoFromArgv json (script :: ss)) := by
  have hloop : ∀ (r : ArgInfo J), methodLoop json ss r = .ok (ss.foldl (infoStep json) r) := by
    induction ss with
    | nil => intro r; rfl
    | cons s ss ih =>
      intro r
      obtain ⟨h1, h2, h3⟩ := h s List.mem_cons_self
      have e : methodBool (argDecode json (argParts s).2) = .ok (argBool (argDecode json (argParts s).2)) := by
        unfold argDecode
        rw [h1]
        unfold methodBool argBool
        simp only [if_neg h2]
        by_cases hf : (argParts s).2 = "False".toList
        · rw [if_pos hf, if_pos (by rw [hf]; rfl)]
        · rw [if_neg hf, if_neg fun x => hf (h3 x)]
      rw [methodLoop, e]
      exact ih (fun s' hs' => h s' (List.mem_cons_of_mem _ hs')) _
  simp [methodInfoFromArgv, hloop, infoFromArgv]

/-- Non-vacuity: `prog run n=a x`. -/
example : (∀ s ∈ ["n=a".toList, "x".toList], (fun _ => none : List Char → Option (ArgVal Unit)) (argParts s).2 = none ∧
    (argParts s).2 ≠ "True".toList ∧ (lowerAscii (argParts s).2 = "false".toList → (argParts s).2 = "False".toList)) := by
  decide +kernel

/-! ### C60 -/

/-- C60. The variants are exactly the combinations of the kernel languages with serial runs and, if PETSc
is available and not disabled, parallel runs; none is repeated if no language is. -/
theorem C60_variants {L : Type} (langs : List L) (disable petsc : Bool) :
    (∀ b l, (b, l) ∈ variantArgs langs disable petsc ↔
      l ∈ langs ∧ (b = true → disable = false ∧ petsc = true)) ∧
    (langs.Nodup → (variantArgs langs disable petsc).Nodup) := by
  have inj : ∀ b : Bool, Function.Injective fun l : L => (b, l) := fun b x y h => by simpa using h
  constructor
  · intro b l
    cases disable <;> cases petsc <;> cases b <;> simp [variantArgs]
  · intro h
    cases disable <;> cases petsc <;>
      simp [variantArgs, List.nodup_append, h, List.Nodup.map (inj _)]

theorem genStep_inv {V : Type} (vs : List V) (g : VariantGen V) (hle : g.yielded ≤ vs.length)
    (htodo : g.todo = vs.drop g.yielded) (hcell : 0 < g.yielded → g.cell = vs[g.yielded - 1]?)
    (hcalls : ∀ c ∈ g.calls, vs[c.1]? = some c.2) (ops : List GenOp)
    (h : CalledInTime g.yielded ops) (hn : g.yielded + ops.countP (fun o => o matches .next) ≤ vs.length) :
    (∀ c ∈ (ops.foldl VariantGen.step g).calls, vs[c.1]? = some c.2) ∧
      (ops.foldl VariantGen.step g).calls.length = g.calls.length + ops.countP (fun o => o matches .call _) := by
  induction ops generalizing g with
  | nil => exact ⟨hcalls, by simp⟩
  | cons o ops ih =>
    rw [List.foldl_cons]
    cases o with
    | next =>
      simp only [List.countP_cons, if_true] at hn
      have hlt : g.yielded < vs.length := by omega
      have ht : g.todo = vs[g.yielded] :: vs.drop (g.yielded + 1) := by
        rw [htodo, List.drop_eq_getElem_cons hlt]
      simp only [VariantGen.step, ht]
      have := ih { g with todo := vs.drop (g.yielded + 1), cell := some vs[g.yielded], yielded := g.yielded + 1 }
        (show g.yielded + 1 ≤ vs.length by omega) rfl (by simp [hlt]) hcalls h (show g.yielded + 1 + _ ≤ _ by omega)
      simpa [List.countP_cons] using this
    | call i =>
      obtain ⟨hi, h'⟩ := h
      have hpos : 0 < g.yielded := by omega
      have hlt : g.yielded - 1 < vs.length := by omega
      have hc := hcell hpos
      rw [List.getElem?_eq_getElem hlt] at hc
      simp only [VariantGen.step, if_pos (show i < g.yielded by omega), hc]
      have := ih { g with cell := some vs[g.yielded - 1], calls := g.calls ++ [(i, vs[g.yielded - 1])] } hle htodo
        (by intro _; simp [hlt]) (by
          intro c hcm
          rcases List.mem_append.mp hcm with h | h
          · exact hcalls c h
          · rw [List.mem_singleton.mp h]
            have : i = g.yielded - 1 := by omega
            simp [this, hlt]) h' (by simpa [List.countP_cons] using hn)
      refine ⟨this.1, ?_⟩
      rw [this.2]
      simp
      omega

/-- C67. Each test that is called while it is the latest one obtained runs its own variant. -/
theorem C67_generated_tests_partial {V : Type} (vs : List V) (ops : List GenOp) (h : CalledInTime 0 ops)
    (hn : ops.countP (fun o => o matches .next) ≤ vs.length) :
    let g := ops.foldl VariantGen.step (genVariants vs)
    (∀ c ∈ g.calls, vs[c.1]? = some c.2) ∧ g.calls.length = ops.countP (fun o => o matches .call _) := by
  have := genStep_inv vs (genVariants vs) (by simp [genVariants]) (by simp [genVariants]) (by simp [genVariants])
    (by simp [genVariants]) ops h (by simpa [genVariants] using hn)
  simpa [genVariants] using this

/-- C67 fails when the tests are collected first and called afterwards: all of them run the last variant
(the closures share the loop variable). -/
theorem C67_collected_tests_violated {V : Type} (a b : V) :
    ([GenOp.next, .next, .call 0, .call 1].foldl VariantGen.step (genVariants [a, b])).calls =
      [(0, b), (1, b)] := rfl

example : variantArgs ["Fortran", "Python"] false true =
    [(true, "Fortran"), (true, "Python"), (false, "Fortran"), (false, "Python")] := by decide

/-! ### C61 -/

/-- Assignments during construction. -/
theorem construct_all {V : Type} (o : AttrObj V) (h : o.initialized ≠ some true) (l : List (String × V)) :
    (o.assignAll l).1.cls = o.cls ∧ (o.assignAll l).1.initialized ≠ some true ∧
    (∀ r ∈ (o.assignAll l).2, r = .ok ()) ∧
    ∀ k, ((o.assignAll l).1.dict k).isSome = true ↔ ((o.dict k).isSome = true ∨ k ∈ l.map Prod.fst) := by
  induction l generalizing o with
  | nil => simp [AttrObj.assignAll, h]
  | cons p l ih =>
    obtain ⟨k, v⟩ := p
    have hs : ∃ o', o.setattr k v = (o', .ok ()) ∧ o'.cls = o.cls ∧ o'.initialized ≠ some true ∧
        ∀ k', o'.dict k' = if k' = k then some v else o.dict k' := by
      unfold AttrObj.setattr
      cases hi : o.initialized with
      | none => exact ⟨{ cls := o.cls, dict := fun k' => if k' = k then some v else o.dict k', initialized := some false }, by simp, rfl, by simp, fun k' => rfl⟩
      | some b =>
        cases b with
        | true => exact absurd hi h
        | false => exact ⟨{ cls := o.cls, dict := fun k' => if k' = k then some v else o.dict k', initialized := some false }, by simp [hi], rfl, by simp, fun k' => rfl⟩
    obtain ⟨o', h1, h2, h3, h4⟩ := hs
    obtain ⟨i1, i2, i3, i4⟩ := ih o' h3
    simp only [AttrObj.assignAll, h1]
    refine ⟨i1.trans h2, i2, ?_, fun k' => ?_⟩
    · intro r hr
      rcases List.mem_cons.mp hr with h | h
      · exact h
      · exact i3 r h
    · rw [i4, h4]
      simp only [List.map_cons, List.mem_cons]
      by_cases hk : k' = k
      · simp [hk]
      · simp [hk]

/-- Assignments after construction: which succeed, and what is stored. -/
theorem assign_after {V : Type} (o : AttrObj V) (h : o.initialized = some true) (l : List (String × V)) :
    (o.assignAll l).2 = l.map (fun p => if o.has p.1 then .ok () else .error .typeError) ∧
    (∀ k, (o.assignAll l).1.has k = o.has k) ∧
    (∀ k, o.has k = false → (o.assignAll l).1.dict k = none) ∧
    (∀ k pre v post, l = pre ++ (k, v) :: post → o.has k = true → (∀ p ∈ post, p.1 ≠ k) →
      (o.assignAll l).1.dict k = some v) ∧
    (∀ k, (∀ p ∈ l, p.1 ≠ k) → (o.assignAll l).1.dict k = o.dict k) := by
  induction l generalizing o with
  | nil =>
    refine ⟨rfl, fun _ => rfl, fun k hk => ?_, ?_, fun _ _ => rfl⟩
    · simp [AttrObj.has] at hk; simpa [AttrObj.assignAll] using hk.2
    · intro k pre v post hl; simp at hl
  | cons p l ih =>
    obtain ⟨k, v⟩ := p
    by_cases hh : o.has k = true
    · have hs : o.setattr k v = ({ o with dict := fun k' => if k' = k then some v else o.dict k' }, .ok ()) := by
        unfold AttrObj.setattr; simp [h, hh]
      set o' : AttrObj V := { o with dict := fun k' => if k' = k then some v else o.dict k' } with ho'
      have hhas : ∀ k', o'.has k' = o.has k' := by
        intro k'
        by_cases hk : k' = k
        · subst hk; rw [hh]; simp [AttrObj.has, ho']
        · simp [AttrObj.has, ho', hk]
      obtain ⟨i1, i2, i3, i4, i5⟩ := ih o' h
      simp only [AttrObj.assignAll, hs]
      refine ⟨?_, fun k' => (i2 k').trans (hhas k'), fun k' hk' => i3 k' ((hhas k').trans hk'), ?_, ?_⟩
      · rw [i1]; simp [hh, hhas]
      · intro k' pre v' post hl hk' hp
        cases pre with
        | nil =>
          simp only [List.nil_append, List.cons.injEq, Prod.mk.injEq] at hl
          obtain ⟨⟨rfl, rfl⟩, rfl⟩ := hl
          rw [i5 k hp]; simp [ho']
        | cons q pre =>
          simp only [List.cons_append, List.cons.injEq] at hl
          exact i4 k' pre v' post hl.2 ((hhas k').trans hk') hp
      · intro k' hk'
        rw [i5 k' (fun p hp => hk' p (by simp [hp]))]
        have := hk' (k, v) (by simp)
        simp [ho', Ne.symm this]
    · have hh' : o.has k = false := by simpa using hh
      have hs : o.setattr k v = (o, .error .typeError) := by
        unfold AttrObj.setattr; simp [h, hh']
      obtain ⟨i1, i2, i3, i4, i5⟩ := ih o h
      simp only [AttrObj.assignAll, hs]
      refine ⟨?_, i2, i3, ?_, ?_⟩
      · rw [i1]; simp [hh']
      · intro k' pre v' post hl hk' hp
        cases pre with
        | nil =>
          simp only [List.nil_append, List.cons.injEq, Prod.mk.injEq] at hl
          obtain ⟨⟨rfl, rfl⟩, rfl⟩ := hl
          rw [hh'] at hk'; simp at hk'
        | cons q pre =>
          simp only [List.cons_append, List.cons.injEq] at hl
          exact i4 k' pre v' post hl.2 hk' hp
      · intro k' hk'
        exact i5 k' (fun p hp => hk' p (by simp [hp]))

/-- C61. A solver is constructed by any assignments and then used: during construction every assignment
succeeds; afterwards an assignment succeeds iff the name is one of the class or was assigned during
construction, and raises `TypeError` otherwise; rejected names never appear, and each accepted name holds
the value last assigned to it. -/
theorem C61_attribute_guard {V : Type} (cls : String → Bool) (init use : List (String × V)) :
    let o := AttrObj.assignAll (⟨cls, fun _ => none, none⟩ : AttrObj V) init
    let known := fun k => cls k = true ∨ k ∈ init.map Prod.fst
    let r := o.1.finish.assignAll use
    (∀ x ∈ o.2, x = .ok ()) ∧
    List.Forall₂ (fun p x => (known p.1 → x = .ok ()) ∧ (¬ known p.1 → x = .error .typeError)) use r.2 ∧
    (∀ k, ¬ known k → r.1.dict k = none) ∧
    (∀ k pre v post, use = pre ++ (k, v) :: post → known k → (∀ p ∈ post, p.1 ≠ k) →
      r.1.dict k = some v) := by
  intro o known r
  obtain ⟨c1, c2, c3, c4⟩ := construct_all (⟨cls, fun _ => none, none⟩ : AttrObj V) (by simp) init
  have hhas : ∀ k, o.1.finish.has k = true ↔ known k := by
    intro k
    simp only [AttrObj.has, AttrObj.finish, Bool.or_eq_true, known]
    have h1 : o.1.cls = cls := c1
    have h2 := c4 k
    simp only [Option.isSome_none, Bool.false_eq_true, false_or] at h2
    rw [h1, h2]
  obtain ⟨i1, i2, i3, i4, i5⟩ := assign_after o.1.finish rfl use
  refine ⟨c3, ?_, ?_, ?_⟩
  · show List.Forall₂ _ use (o.1.finish.assignAll use).2
    rw [i1]
    clear i1 i2 i3 i4 i5 r
    induction use with
    | nil => exact List.Forall₂.nil
    | cons p l ih =>
      refine List.Forall₂.cons ⟨fun hk => ?_, fun hk => ?_⟩ ih
      · exact if_pos ((hhas _).mpr hk)
      · exact if_neg (fun hh => hk ((hhas _).mp hh))
  · intro k hk
    exact i3 k (by rw [← Bool.not_eq_true]; exact fun hh => hk ((hhas k).mp hh))
  · intro k pre v post hl hk hp
    exact i4 k pre v post hl ((hhas k).mpr hk) hp

example : ((AttrObj.assignAll (⟨fun _ => false, fun _ => none, none⟩ : AttrObj Nat) [("dt", 1)]).1.finish.assignAll
    [("dt", 2), ("dtt", 3)]).2 = [.ok (), .error .typeError] := by rfl

/-! ### C62 -/

/-- C62. `is_valid` is exact, and the reason it gives names something that is missing. -/
theorem C62_is_valid (c : ValidCfg) :
    ((isValidSolver c).1 = true ↔ WellFormed c) ∧
    ((isValidSolver c).1 = true ↔ (isValidSolver c).2 = none) ∧
    (∀ r, (isValidSolver c).2 = some r → Missing c r) := by
  obtain ⟨bl, bu, ul, uu, nw, ne, fw⟩ := c
  have e1 : (bl.any (· == bcCustom)) = true ↔ bcCustom ∈ bl := by simp
  have e2 : (bu.any (· == bcCustom)) = true ↔ bcCustom ∈ bu := by simp
  have e3 : (bl.contains none || bu.contains none) = true ↔ (none ∈ bl ∨ none ∈ bu) := by simp
  have w : WellFormed ⟨bl, bu, ul, uu, nw, ne, fw⟩ ↔ (¬ (none ∈ bl ∨ none ∈ bu)) ∧
      (bcCustom ∈ bl → ul = true) ∧ (bcCustom ∈ bu → uu = true) ∧ nw ≠ none ∧ ne ≠ none ∧ fw ≠ none := by
    constructor
    · rintro ⟨h1, h2, h3, h4, h5, h6, h7⟩
      exact ⟨by rintro (h | h) <;> contradiction, h3, h4, h5, h6, h7⟩
    · rintro ⟨h1, h3, h4, h5, h6, h7⟩
      exact ⟨fun h => h1 (Or.inl h), fun h => h1 (Or.inr h), h3, h4, h5, h6, h7⟩
  rw [w]
  unfold isValidSolver
  simp only [e1, e2, e3]
  by_cases h1 : none ∈ bl ∨ none ∈ bu
  · simp [h1, Missing]
  · cases fw with
    | none => simp [h1, Missing]
    | some f =>
      cases ne with
      | none => simp [h1, Missing]
      | some n =>
        cases nw with
        | none => simp [h1, Missing]
        | some m =>
          by_cases h2 : bcCustom ∈ bu
          · cases uu
            · simp [h1, h2, Missing]
            · by_cases h3 : bcCustom ∈ bl
              · cases ul <;> simp [h1, h2, h3, Missing]
              · simp [h1, h2, h3]
          · by_cases h3 : bcCustom ∈ bl
            · cases ul <;> simp [h1, h2, h3, Missing]
            · simp [h1, h2, h3]

example : isValidSolver ⟨[some 2], [some 0], false, false, some 1, some 1, some false⟩ =
    (false, some .upperCustom) := by decide

end PyClaw
