import Verif.Model.Verify
import Verif.Spec.Verify
import Mathlib.Data.List.Perm.Subperm

/-!
C104: the functions that check results accept only results within the tolerance.
-/
set_option linter.unusedSectionVars false
namespace PyClaw

theorem sumSq_some (l : FArr) (s : ℝ) (h : sumSq l = some s) :
    0 ≤ s ∧ ∀ x ∈ l, ∃ y, x = some y ∧ y ^ 2 ≤ s := by
  induction l generalizing s with
  | nil =>
    simp only [sumSq, Option.some.injEq] at h
    exact ⟨h.le, by simp⟩
  | cons x l ih =>
    cases x with
    | none => simp [sumSq] at h
    | some x =>
      cases hs : sumSq l with
      | none => simp [sumSq, hs] at h
      | some s' =>
        simp only [sumSq, hs, Option.map_some, Option.some.injEq] at h
        obtain ⟨h0, h1⟩ := ih s' hs
        refine ⟨by nlinarith [sq_nonneg x], fun y hy => ?_⟩
        rcases List.mem_cons.mp hy with rfl | hy
        · exact ⟨x, rfl, by linarith⟩
        · obtain ⟨z, rfl, hz⟩ := h1 y hy
          exact ⟨z, rfl, by nlinarith [sq_nonneg x]⟩

theorem sumSq_ex (l : FArr) (h : ∀ x ∈ l, ∃ y, x = some y) : ∃ s, sumSq l = some s := by
  induction l with
  | nil => exact ⟨0, rfl⟩
  | cons x l ih =>
    obtain ⟨y, rfl⟩ := h x (by simp)
    obtain ⟨s, hs⟩ := ih fun z hz => h z (by simp [hz])
    exact ⟨y ^ 2 + s, by simp [sumSq, hs]⟩

/-- An entry of an array is at most its norm. -/
theorem arrNorm_some (l : FArr) (s : ℝ) (h : arrNorm l = some s) :
    0 ≤ s ∧ ∀ x ∈ l, ∃ y, x = some y ∧ |y| ≤ s := by
  unfold arrNorm at h
  cases hs : sumSq l with
  | none => simp [hs] at h
  | some s' =>
    simp only [hs, Option.map_some, Option.some.injEq] at h
    obtain ⟨h0, h1⟩ := sumSq_some l s' hs
    refine ⟨h ▸ Real.sqrt_nonneg _, fun x hx => ?_⟩
    obtain ⟨y, rfl, hy⟩ := h1 x hx
    exact ⟨y, rfl, h ▸ Real.abs_le_sqrt hy⟩

theorem fSub_some (a b : Option ℝ) (z : ℝ) (h : fSub a b = some z) : ∃ x y, a = some x ∧ b = some y ∧ z = x - y := by
  cases a <;> cases b <;> simp [fSub] at h
  exact ⟨_, _, rfl, rfl, h.symm⟩

/-- The entries of equally long arrays whose difference has a norm. -/
theorem arrSub_entries (a b d : FArr) (hl : a.length = b.length) (h : arrSub a b = .ok d) (s : ℝ) (hs : arrNorm d = some s) (i : Nat)
    (hi : i < a.length) : ∃ x y, a[i]? = some (some x) ∧ b[i]? = some (some y) ∧ |x - y| ≤ s := by
  unfold arrSub at h
  rw [if_pos hl] at h
  obtain rfl : a.zipWith fSub b = d := by injection h
  obtain ⟨-, h1⟩ := arrNorm_some _ s hs
  have hb : i < b.length := hl ▸ hi
  obtain ⟨z, hz, hzs⟩ := h1 (fSub a[i] b[i]) (by
    rw [List.mem_iff_getElem]
    exact ⟨i, by simp [hi, hb], by simp⟩)
  obtain ⟨x, y, hx, hy, rfl⟩ := fSub_some _ _ z hz
  exact ⟨x, y, by rw [List.getElem?_eq_getElem hi, hx], by rw [List.getElem?_eq_getElem hb, hy], hzs⟩

theorem sumSq_map (xs : List ℝ) : sumSq (xs.map some) = some (xs.map (· ^ 2)).sum := by
  induction xs with
  | nil => rfl
  | cons x l ih => simp [sumSq, ih]

theorem zipWith_fSub (xs ys : List ℝ) : (xs.map some).zipWith fSub (ys.map some) = (xs.zipWith (· - ·) ys).map some := by
  induction xs generalizing ys with
  | nil => rfl
  | cons x l ih => cases ys <;> simp [fSub, ih]

/-- Arrays whose difference has a norm consist of numbers. -/
theorem numbers_of_norm (a b : FArr) (hl : a.length = b.length) (s : ℝ) (h : arrNorm (a.zipWith fSub b) = some s) :
    ∃ xs ys : List ℝ, a = xs.map some ∧ b = ys.map some := by
  induction a generalizing b s with
  | nil =>
    cases b with
    | nil => exact ⟨[], [], rfl, rfl⟩
    | cons _ _ => simp at hl
  | cons x l ih =>
    cases b with
    | nil => simp at hl
    | cons y k =>
      obtain ⟨-, hm⟩ := arrNorm_some _ s h
      obtain ⟨z, hz, -⟩ := hm (fSub x y) (by simp)
      obtain ⟨x', y', rfl, rfl, -⟩ := fSub_some _ _ _ hz
      obtain ⟨s', hs'⟩ := sumSq_ex (l.zipWith fSub k) fun w hw => by
        obtain ⟨y, e, -⟩ := hm w (by simp [hw])
        exact ⟨y, e⟩
      obtain ⟨xs, ys, rfl, rfl⟩ := ih k (by simpa using hl) (Real.sqrt s') (by simp [arrNorm, hs'])
      exact ⟨x' :: xs, y' :: ys, rfl, rfl⟩

theorem deltaProd_eq (delta : Option (List ℝ)) : deltaProd delta = (delta.getD []).prod := by cases delta <;> simp [deltaProd]

theorem arrNorm_sub (xs ys : List ℝ) : arrNorm ((xs.map some).zipWith fSub (ys.map some)) = some (Spec.distance xs ys) := by
  rw [zipWith_fSub, arrNorm, sumSq_map, Option.map_some, Spec.distance, List.map_zipWith]

theorem arrNorm_map (xs : List ℝ) : arrNorm (xs.map some) = some (Spec.size xs) := by
  rw [arrNorm, sumSq_map, Option.map_some, Spec.size]

/-- **C104, absolute tolerance.** `check_diff` accepts arrays of the same shape if and only if they contain neither NaN nor an infinity and
the volume of a cell times the norm of the difference is below the tolerance. -/
theorem C104_abstol (expected test : FArr) (hl : expected.length = test.length) (delta : Option (List ℝ)) (tol : ℝ)
    (reltol : Option ℝ) :
    checkDiff expected test delta (some tol) reltol = .ok none ↔
      ∃ xs ys : List ℝ, expected = xs.map some ∧ test = ys.map some ∧ (delta.getD []).prod * Spec.distance xs ys < tol := by
  rw [← deltaProd_eq]
  unfold checkDiff arrSub
  rw [if_pos hl]
  dsimp only
  constructor
  · intro h
    split at h
    · rename_i hlt
      obtain ⟨y, hy, hyt⟩ := hlt
      cases hn : arrNorm (expected.zipWith fSub test) with
      | none => simp [hn] at hy
      | some s =>
        obtain ⟨xs, ys, rfl, rfl⟩ := numbers_of_norm _ _ hl s hn
        rw [arrNorm_sub] at hy
        simp only [Option.map_some, Option.some.injEq] at hy
        exact ⟨xs, ys, rfl, rfl, hy ▸ hyt⟩
    · cases h
  · rintro ⟨xs, ys, rfl, rfl, hlt⟩
    rw [if_pos ⟨_, by rw [arrNorm_sub]; rfl, hlt⟩]

/-- **C104, relative tolerance** (no absolute one given): the same with the norm of the difference compared to the tolerance times the
norm of the expected values, which must not be zero. -/
theorem C104_reltol (expected test : FArr) (hl : expected.length = test.length) (delta : Option (List ℝ))
    (hpos : 0 < (delta.getD []).prod) (tol : ℝ) :
    checkDiff expected test delta none (some tol) = .ok none ↔
      ∃ xs ys : List ℝ, expected = xs.map some ∧ test = ys.map some ∧ 0 < Spec.size xs ∧ Spec.distance xs ys < tol * Spec.size xs := by
  rw [← deltaProd_eq] at hpos
  generalize hD : deltaProd delta = D at hpos
  have key : ∀ xs ys : List ℝ, fLt (fDiv (some (D * Spec.distance xs ys)) (some (D * Spec.size xs))) tol ↔
      0 < Spec.size xs ∧ Spec.distance xs ys < tol * Spec.size xs := by
    intro xs ys
    unfold fDiv fLt
    rcases (Real.sqrt_nonneg ((xs.map (· ^ 2)).sum)).eq_or_lt with h0 | h0
    · have h0' : Spec.size xs = 0 := h0.symm
      simp [h0']
    · have h0' : 0 < Spec.size xs := h0
      have hne : D * Spec.size xs ≠ 0 := by positivity
      simp only [if_neg hne, Option.some.injEq, exists_eq_left', h0', true_and]
      rw [mul_div_mul_left _ _ hpos.ne', div_lt_iff₀ h0']
  unfold checkDiff arrSub
  rw [if_pos hl]
  dsimp only
  rw [hD]
  constructor
  · intro h
    split at h
    · rename_i hlt
      cases hn : arrNorm (expected.zipWith fSub test) with
      | none =>
        obtain ⟨y, hy, -⟩ := hlt
        simp [hn, fDiv] at hy
      | some s =>
        obtain ⟨xs, ys, rfl, rfl⟩ := numbers_of_norm _ _ hl s hn
        rw [arrNorm_sub, arrNorm_map] at hlt
        exact ⟨xs, ys, rfl, rfl, (key xs ys).mp hlt⟩
    · cases h
  · rintro ⟨xs, ys, rfl, rfl, hlt⟩
    rw [if_pos (by rw [arrNorm_sub, arrNorm_map]; exact (key xs ys).mpr hlt)]

/-- Every entry of what is accepted is within the tolerance. -/
theorem C104_entries (xs ys : List ℝ) (hl : xs.length = ys.length) (i : Nat) (hx : i < xs.length) (hy : i < ys.length) :
    |xs[i] - ys[i]| ≤ Spec.distance xs ys := by
  obtain ⟨x, y, hx', hy', h⟩ := arrSub_entries (xs.map some) (ys.map some) _ (by simp [hl]) (if_pos (by simp [hl])) _
    (arrNorm_sub xs ys) i (by simpa using hx)
  simp [hx] at hx'
  simp [hy] at hy'
  rw [hx', hy']
  exact h

/-- Without a tolerance `check_diff` raises. -/
theorem C104_no_tolerance (expected test : FArr) (delta : Option (List ℝ)) :
    ∀ r, checkDiff expected test delta none none ≠ .ok r := by
  intro r h
  unfold checkDiff at h
  cases h' : arrSub expected test <;> simp [h'] at h

/-- With a relative tolerance a correct result is reported as wrong when all expected values are 0, whatever the tolerance: the
quotient is 0/0. -/
theorem C104_zero_violated (n : Nat) (tol : ℝ) :
    checkDiff (List.replicate n (some 0)) (List.replicate n (some 0)) none none (some tol) ≠ .ok none := by
  intro h
  obtain ⟨xs, ys, hx, -, hs, -⟩ := (C104_reltol _ _ rfl none (by simp) tol).mp h
  have : xs = List.replicate n 0 := by
    have := congrArg (List.map fun o : Option ℝ => o.getD 0) hx
    simpa using this.symm
  rw [this] at hs
  simp [Spec.size] at hs

/-- **C104.** A test that is not skipped passes if and only if the application runs without exception and the verifier returns `None`. -/
theorem C104_test_app {C α : Type*} (app : Except PyErr C) (verifier : C → Except PyErr (Option (List α))) :
    testApp false app verifier = .ok () ↔ ∃ c, app = .ok c ∧ verifier c = .ok none := by
  unfold testApp
  cases app with
  | error e => simp
  | ok c =>
    cases hv : verifier c with
    | error e => simp [hv]
    | ok r => cases r with
      | none => simp [hv]
      | some v =>
        simp [hv]
        split <;> simp

/-- A verifier that returns three items, as the documentation of `test_app` asks for, makes a failing test end in `IndexError` in place
of the report. -/
theorem C104_three_items_violated {C α : Type*} (c : C) (x y z : α) (verifier : C → Except PyErr (Option (List α)))
    (h : verifier c = .ok (some [x, y, z])) : testApp false (.ok c) verifier = .error .indexError := by
  simp [testApp, h]

/-- **C104, solutions, partial** (patches of the first solution with different indices). If the comparison does not raise, then the
solutions have the same times and the same patches, and the states that belong together have the same level, the same numbers of
fields, the same times, dimensions that agree as far as both have them, and values that differ by less than `1e-6`
(arrays of the same size). -/
theorem C104_same_solution_partial (ta tb : ℝ) (a b : List CmpState) (hnd : (a.map CmpState.index).Nodup)
    (h : sameSolutions ta tb a b) :
    ta = tb ∧ (a.map CmpState.index).Perm (b.map CmpState.index) ∧
    ∀ s ∈ a, ∃ r ∈ b, r.index = s.index ∧ r.level = s.level ∧ r.t = s.t ∧ r.numEqn = s.numEqn ∧ r.numAux = s.numAux ∧
      (∀ (k : Nat) (d d' : CmpDim), s.dims[k]? = some d → r.dims[k]? = some d' →
        d.numCells = d'.numCells ∧ d.lower = d'.lower ∧ d.delta = d'.delta) ∧
      (s.q.length = r.q.length → ∀ i < s.q.length, ∃ x y, s.q[i]? = some (some x) ∧ r.q[i]? = some (some y) ∧ |x - y| < 1 / 10 ^ 6) := by
  obtain ⟨hlen, ht, hall⟩ := h
  have hmem : ∀ s ∈ a, ∃ r ∈ b, statesAgree s r := by
    intro s hs
    obtain ⟨r, hr, hag⟩ := hall s hs
    refine ⟨r, ?_, hag⟩
    unfold refFor at hr
    cases hf : b.find? (fun r => r.index = s.index) with
    | some r' =>
      simp only [hf, Option.some.injEq] at hr
      exact hr ▸ List.mem_of_find?_eq_some hf
    | none =>
      simp only [hf] at hr
      exact List.mem_of_getLast? hr
  refine ⟨ht, ?_, fun s hs => ?_⟩
  · have hsub : a.map CmpState.index ⊆ b.map CmpState.index := by
      intro k hk
      obtain ⟨s, hs, rfl⟩ := List.mem_map.mp hk
      obtain ⟨r, hr, hag⟩ := hmem s hs
      exact List.mem_map.mpr ⟨r, hr, hag.2.2.2.2.2.1.symm⟩
    exact (List.subperm_of_subset hnd hsub).perm_of_length_le (by simp [hlen])
  · obtain ⟨r, hr, ⟨dq, hdq, nq, hnq, hlt⟩, -, e1, e2, e3, e4, e5, hdims⟩ := hmem s hs
    refine ⟨r, hr, e4.symm, e5.symm, e1.symm, e2.symm, e3.symm, fun k d d' hd hd' => ?_, fun hl i hi => ?_⟩
    · have hz : (s.dims.zip r.dims)[k]? = some (d, d') := by
        rw [List.zip, List.getElem?_zipWith, hd, hd']
      obtain ⟨g1, g2, g3, -⟩ := hdims (d, d') (List.mem_of_getElem? hz)
      exact ⟨g1, g2, g3⟩
    · obtain ⟨x, y, hx, hy, hxy⟩ := arrSub_entries _ _ _ hl hdq _ hnq i hi
      exact ⟨x, y, hx, hy, hxy.trans_lt hlt⟩

/-- A state for the witnesses. -/
def exCmp (k : Int) : CmpState :=
  { q := [some 1], aux := none, t := 0, numEqn := 1, numAux := 0, index := k, level := 1, dims := [⟨1, 0, 1, none, none, none⟩] }

/-- The same function accepts a solution that contains the first patch twice in place of the second one. -/
theorem C104_same_solution_violated : sameSolutions 0 0 [exCmp 1, exCmp 1] [exCmp 1, exCmp 2] := by
  refine ⟨rfl, rfl, fun s hs => ?_⟩
  have e : s = exCmp 1 := by simpa using hs
  subst e
  refine ⟨exCmp 1, by simp [refFor, exCmp], ⟨_, rfl, 0, ?_, by norm_num⟩, ?_, rfl, rfl, rfl, rfl, rfl, ?_⟩
  · simp [exCmp, arrSub, arrNorm, sumSq, fSub]
  · simp [exCmp]
  · intro p hp
    simp [exCmp] at hp
    subst hp
    simp [dimsAgree, optSame]

/-- The hypotheses are met: a solution with two patches is the same as itself. -/
example : sameSolutions 0 0 [exCmp 1, exCmp 2] [exCmp 1, exCmp 2] ∧ ([exCmp 1, exCmp 2].map CmpState.index).Nodup := by
  have ag : ∀ k, statesAgree (exCmp k) (exCmp k) := by
    intro k
    refine ⟨⟨_, rfl, 0, ?_, by norm_num⟩, ?_, rfl, rfl, rfl, rfl, rfl, ?_⟩ <;>
      simp [exCmp, arrNorm, sumSq, fSub, dimsAgree, optSame]
  refine ⟨⟨rfl, rfl, fun s hs => ⟨s, ?_, ?_⟩⟩, by simp [exCmp]⟩
  all_goals
    simp only [List.mem_cons, List.not_mem_nil, or_false] at hs
    rcases hs with rfl | rfl
  · simp [refFor, exCmp]
  · simp [refFor, exCmp]
  · exact ag 1
  · exact ag 2

/-- Two arrays that are accepted, and two pairs that are not. -/
example : checkDiff [some 1, some 2] [some 1, some (2 + 1 / 8)] none (some (1 / 4)) none = .ok none ∧
    checkDiff [some 1, some 2] [some 1, some 3] none (some (1 / 4)) none ≠ .ok none ∧
    checkDiff [some 1, some 2] [some 1, none] none (some (1 / 4)) none ≠ .ok none := by
  refine ⟨(C104_abstol [some 1, some 2] [some 1, some (2 + 1 / 8)] rfl none (1 / 4) none).mpr ⟨[1, 2], [1, 2 + 1 / 8], rfl, rfl, ?_⟩,
    fun h => ?_, fun h => ?_⟩
  · have : Spec.distance [1, 2] [1, 2 + 1 / 8] = 1 / 8 := by
      have : Spec.distance [1, 2] [1, 2 + 1 / 8] = Real.sqrt ((1 / 8) ^ 2) := by norm_num [Spec.distance]
      rw [this, Real.sqrt_sq (by norm_num)]
    rw [this]
    norm_num
  · obtain ⟨xs, ys, hx, hy, hd⟩ := (C104_abstol _ _ (by simp) _ _ _).mp h
    rw [show [some (1 : ℝ), some 2] = [1, 2].map some from rfl] at hx
    rw [show [some (1 : ℝ), some 3] = [1, 3].map some from rfl] at hy
    obtain rfl := List.map_injective_iff.mpr (Option.some_injective ℝ) hx
    obtain rfl := List.map_injective_iff.mpr (Option.some_injective ℝ) hy
    have := C104_entries [1, 2] [1, 3] rfl 1 (by simp) (by simp)
    simp at this hd
    norm_num at this hd
    linarith
  · obtain ⟨xs, ys, hx, hy, hd⟩ := (C104_abstol _ _ (by simp) _ _ _).mp h
    have : (none : Option ℝ) ∈ ys.map some := hy ▸ by simp
    simp at this

end PyClaw
