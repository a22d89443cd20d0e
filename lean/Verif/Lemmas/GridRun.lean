import Verif.Lemmas.Grid
import Verif.Spec.GridDiscipline

/-! Invariant of grid histories. -/
set_option linter.unusedSectionVars false

namespace PyClaw

variable {K : Type*} [Field K] [LinearOrder K] [IsStrictOrderedRing K]

open Spec

theorem Dim.step_change (junk : K) (d : Dim K) (op : DimOp K) (h : op.effect = .change) (k : Kind) :
    (d.step junk op).1.cache k = none := by
  cases op <;> simp [DimOp.effect] at h <;> cases k <;> rfl

theorem Dim.step_reads (junk : K) (d : Dim K) (op : DimOp K) (k : Kind) (h : op.effect = .reads k) :
    (d.step junk op).1 = (d.read junk k).1 := by
  cases op <;> simp [DimOp.effect] at h <;> subst h
  · rfl
  · rfl
  · simp only [step]; rw [centersWithGhost_fst]; rfl
  · simp only [step]; rw [nodesWithGhost_fst]; rfl

theorem Dim.step_good (junk : K) (d : Dim K) (op : DimOp K) (h : d.Good)
    (hs : GridOp.sane (.dim 0 op)) : (d.step junk op).1.Good := by
  refine ⟨?_, d.step_inv junk op h.2⟩
  rw [d.step_numCells junk op]
  cases op <;> first | exact hs | exact h.1

theorem modify_mem {α : Type*} (l : List α) (i : Nat) (f : α → α) (x : α) (h : x ∈ l.modify i f) :
    x ∈ l ∨ ∃ y ∈ l, x = f y := by
  rw [List.mem_iff_getElem] at h
  obtain ⟨j, hj, rfl⟩ := h
  rw [List.getElem_modify]
  have hj' : j < l.length := by simpa using hj
  split
  · exact .inr ⟨_, List.getElem_mem hj', rfl⟩
  · exact .inl (List.getElem_mem hj')

theorem modify_map_eq {α β : Type*} (l : List α) (i : Nat) (f : α → α) (g : α → β)
    (h : ∀ x ∈ l, g (f x) = g x) : (l.modify i f).map g = l.map g := by
  apply List.ext_getElem
  · simp
  · intro j h1 h2
    simp only [List.getElem_map, List.getElem_modify]
    split
    · rw [h _ (List.getElem_mem _)]
    · rfl

theorem Grid.new_dim_good {l u : K} {n : Int} {s : String} {d : Dim K} (h : Dim.new l u n s = .ok d) :
    d.Good := by
  refine ⟨?_, Dim.new_inv h⟩
  obtain ⟨⟨h1, _⟩, rfl⟩ := (Dim.new_ok_iff ..).1 h
  exact h1

theorem Grid.inv_of_cleared (k : Kind) (g : Grid K) (d c p : Bool) (hpc : p = true → c = true)
    (hg : ∀ d ∈ g.dims, d.Good) (h1 : g.c k = none) (h2 : g.p k = none) : g.Inv k d c p :=
  ⟨hg, fun _ => h1, fun _ => h2, hpc, .inl h1, .inl h2⟩

theorem Grid.run_disciplined (junk : K) (k : Kind) (g : Grid K) (u : Usage) (ops : List (GridOp K))
    (hi : g.Inv k u.dirty u.cUsed u.pUsed) (hs : ∀ op ∈ ops, op.sane) (hd : disciplined k u ops) :
    ∃ u' : Usage, (g.runG junk ops).Inv k u'.dirty u'.cUsed u'.pUsed ∧
      ∀ tail : List (GridOp K), disciplined k u (ops ++ tail) → disciplined k u' tail := by
  induction ops generalizing g u with
  | nil => exact ⟨u, hi, fun t h => h⟩
  | cons op ops ih =>
    have hs' : ∀ op ∈ ops, op.sane := fun o ho => hs o (by simp [ho])
    have hs0 : op.sane := hs op (by simp)
    show ∃ u' : Usage, ((g.stepG junk op).runG junk ops).Inv k u'.dirty u'.cUsed u'.pUsed ∧ _
    cases op with
    | dim i op =>
      have hgood : ∀ d ∈ (g.dims.modify i fun d => (d.step junk op).1), d.Good := by
        intro d hd'
        rcases modify_mem _ _ _ _ hd' with h | ⟨y, hy, rfl⟩
        · exact hi.good d h
        · exact y.step_good junk op (hi.good y hy) (by cases op <;> exact hs0)
      cases he : op.effect with
      | change =>
        have hd2 : disciplined k { u with dirty := true } ops := by
          simpa [disciplined, he] using hd
        obtain ⟨u', h1, h2⟩ := ih (g.stepG junk (.dim i op)) { u with dirty := true } (by
          by_cases hlt : i < g.dims.length
          · have hdet : (g.stepG junk (.dim i op)).Detect k := by
              simp only [Grid.Detect, Grid.stepG, List.any_eq_true]
              refine ⟨(g.dims[i].step junk op).1, ?_, ?_⟩
              · rw [List.mem_iff_getElem]
                exact ⟨i, by simpa using hlt, by simp⟩
              · rw [Dim.step_change junk _ op he]; rfl
            refine ⟨hgood, hi.cu, hi.pu, hi.pc, ?_, ?_⟩
            · exact .inr (.inr ⟨rfl, hdet⟩)
            · exact .inr (.inr ⟨rfl, hdet⟩)
          · have heq : g.stepG junk (.dim i op) = g := by
              simp only [Grid.stepG]
              rw [List.modify_eq_self (by omega)]
            rw [heq]
            refine ⟨hi.good, hi.cu, hi.pu, hi.pc, ?_, ?_⟩
            · rcases hi.cok with h | h | h
              · exact .inl h
              · exact .inr (.inl h)
              · exact .inr (.inr ⟨rfl, h.2⟩)
            · rcases hi.pok with h | h | h
              · exact .inl h
              · exact .inr (.inl h)
              · exact .inr (.inr ⟨rfl, h.2⟩)) hs' hd2
        exact ⟨u', h1, fun t ht => h2 t (by simpa [disciplined, he] using ht)⟩
      | reads k' =>
        have hd2 : (k' = k → ¬ (u.dirty = true ∧ u.cUsed = true)) ∧ disciplined k u ops := by
          simpa only [disciplined, he] using hd
        have hext : (g.stepG junk (.dim i op)).dims.map Dim.ext = g.dims.map Dim.ext := by
          apply modify_map_eq
          intro d _; rw [Dim.step_reads junk d op k' he]; exact d.read_ext junk k'
        obtain ⟨u', h1, h2⟩ := ih (g.stepG junk (.dim i op)) u (by
          have hfr : (g.stepG junk (.dim i op)).fresh k = g.fresh k := Grid.fresh_congr hext
          refine ⟨hgood, hi.cu, hi.pu, hi.pc, ?_, ?_⟩
          · rcases hi.cok with h | h | h
            · exact .inl h
            · exact .inr (.inl (by rw [hfr]; exact h))
            · by_cases hk : k' = k
              · have : u.cUsed = false := by
                  have := hd2.1 hk
                  simpa [h.1] using this
                exact .inl (hi.cu this)
              · refine .inr (.inr ⟨h.1, (Grid.detect_congr ?_).2 h.2⟩)
                apply modify_map_eq
                intro d _; rw [Dim.step_reads junk d op k' he]; exact d.read_cache_ne junk k' k hk
          · rcases hi.pok with h | h | h
            · exact .inl h
            · exact .inr (.inl (by rw [hfr]; exact h))
            · by_cases hk : k' = k
              · have hc : u.cUsed = false := by
                  have := hd2.1 hk
                  simpa [h.1] using this
                have hp : u.pUsed = false := by
                  by_contra hp
                  have := hi.pc (by simpa using hp)
                  rw [hc] at this; exact absurd this (by simp)
                exact .inl (hi.pu hp)
              · refine .inr (.inr ⟨h.1, (Grid.detect_congr ?_).2 h.2⟩)
                apply modify_map_eq
                intro d _; rw [Dim.step_reads junk d op k' he]; exact d.read_cache_ne junk k' k hk)
          hs' hd2.2
        refine ⟨u', h1, fun t ht => h2 t ?_⟩
        have ht2 : (k' = k → ¬ (u.dirty = true ∧ u.cUsed = true)) ∧ disciplined k u (ops ++ t) := by
          simpa only [List.cons_append, disciplined, he] using ht
        exact ht2.2
    | setMap f =>
      obtain ⟨u', h1, h2⟩ := ih (g.stepG junk (.setMap f)) {}
        (Grid.inv_of_cleared k _ _ _ _ (by simp) hi.good rfl rfl) hs' (by simpa [disciplined] using hd)
      exact ⟨u', h1, fun t ht => h2 t (by simpa [disciplined] using ht)⟩
    | addDimension d =>
      obtain ⟨u', h1, h2⟩ := ih (g.stepG junk (.addDimension d)) u (by
        simp only [Grid.stepG, Grid.addDimension]
        split
        · exact hi
        · have hgood : ∀ x ∈ g.dims ++ [d], x.Good := by
            intro x hx
            rcases List.mem_append.1 hx with h | h
            · exact hi.good x h
            · obtain ⟨l, u, n, s, h'⟩ := hs0
              have : x = d := by simpa using h
              rw [this]
              exact Grid.new_dim_good h'
          split
          · exact Grid.inv_of_cleared k _ _ _ _ hi.pc hgood rfl rfl
          · exact Grid.inv_of_cleared k _ _ _ _ hi.pc hgood rfl rfl) hs' (by simpa [disciplined] using hd)
      exact ⟨u', h1, fun t ht => h2 t (by simpa [disciplined] using ht)⟩
    | readC k' =>
      by_cases hk : k' = k
      · subst hk
        have hd2 : ¬ (u.dirty = true ∧ u.pUsed = true) ∧
            disciplined k' { dirty := false, cUsed := true, pUsed := u.pUsed } ops := by
          simpa only [disciplined, if_true] using hd
        obtain ⟨g', e1, e2, e3, e4, e5, e6, e7⟩ := g.computeC_spec junk k' hi.good
          (by rcases hi.cok with h | h | h
              · exact .inl h
              · exact .inr (.inl h)
              · exact .inr (.inr h.2))
        have hst : g.stepG junk (.readC k') = g' := by simp [Grid.stepG, Grid.readC, e1]
        obtain ⟨u', h1, h2⟩ := ih (g.stepG junk (.readC k'))
            { dirty := false, cUsed := true, pUsed := u.pUsed } (by
          rw [hst]
          have hfr : g'.fresh k' = g.fresh k' := Grid.fresh_congr e3
          refine ⟨e2, by simp, ?_, by simp, ?_, ?_⟩
          · intro hp; rw [e5]; exact hi.pu hp
          · exact .inr (.inl (by rw [hfr]; exact e4))
          · rw [e5, e6, hfr]
            rcases hi.pok with h | h | h
            · exact .inl h
            · exact .inr (.inl h)
            · refine .inl (hi.pu ?_)
              have := hd2.1
              simpa [h.1] using this) hs' hd2.2
        refine ⟨u', h1, fun t ht => h2 t ?_⟩
        have ht2 : ¬ (u.dirty = true ∧ u.pUsed = true) ∧
            disciplined k' { dirty := false, cUsed := true, pUsed := u.pUsed } (ops ++ t) := by
          simpa only [List.cons_append, disciplined, if_true] using ht
        exact ht2.2
      · have hd2 : disciplined k u ops := by simpa only [disciplined, if_neg hk] using hd
        -- reading the other kind: the cache may be in any state, only kind `k` matters
        have key : ∀ (r : Ret (Grid K) (List (NdArr K))), r = g.readC junk k' →
            r.1.Inv k u.dirty u.cUsed u.pUsed := by
          rintro r rfl
          unfold Grid.readC Grid.computeC
          split
          · rename_i heq
            split at heq
            · split at heq
              · cases heq; exact hi
              · obtain ⟨ds', arrs, e1, e2, e3, e4, e5⟩ := Grid.readAll_good junk k' g.dims hi.good
                rw [e1] at heq; cases heq
            · cases heq
          · rename_i heq
            split at heq
            · split at heq
              · cases heq
              · obtain ⟨ds', arrs, e1, e2, e3, e4, e5⟩ := Grid.readAll_good junk k' g.dims hi.good
                rw [e1] at heq
                cases heq
                refine ⟨e2, ?_, hi.pu, hi.pc, ?_, ?_⟩
                · intro h; simp [Function.update_of_ne (Ne.symm hk), hi.cu h]
                · simp only [Function.update_of_ne (Ne.symm hk)]
                  rcases hi.cok with h | h | h
                  · exact .inl h
                  · exact .inr (.inl (by rw [h]; congr 1; exact (Grid.fresh_congr e3).symm))
                  · exact .inr (.inr ⟨h.1, (Grid.detect_congr (e4 k hk)).2 h.2⟩)
                · rcases hi.pok with h | h | h
                  · exact .inl h
                  · exact .inr (.inl (by rw [h]; simp only [Grid.fresh, e3]))
                  · exact .inr (.inr ⟨h.1, (Grid.detect_congr (e4 k hk)).2 h.2⟩)
            · cases heq; exact hi
        obtain ⟨u', h1, h2⟩ := ih (g.stepG junk (.readC k')) u (key _ rfl) hs' hd2
        exact ⟨u', h1, fun t ht => h2 t (by simpa only [List.cons_append, disciplined, if_neg hk] using ht)⟩
    | readP k' =>
      by_cases hk : k' = k
      · subst hk
        have hd2 : disciplined k' { dirty := false, cUsed := true, pUsed := true } ops := by
          simpa only [disciplined, if_true] using hd
        obtain ⟨g', e1, e2, e3, e4, e5, e6, e7⟩ := g.computeP_spec junk k' hi.good
          (by rcases hi.cok with h | h | h
              · exact .inl h
              · exact .inr (.inl h)
              · exact .inr (.inr h.2))
          (by rcases hi.pok with h | h | h
              · exact .inl h
              · exact .inr (.inl h)
              · exact .inr (.inr h.2))
        have hst : g.stepG junk (.readP k') = g' := by simp [Grid.stepG, Grid.readP, e1]
        have hfr : g'.fresh k' = g.fresh k' := Grid.fresh_congr e3
        obtain ⟨u', h1, h2⟩ := ih (g.stepG junk (.readP k'))
            { dirty := false, cUsed := true, pUsed := true } (by
          rw [hst]
          refine ⟨e2, by simp, by simp, by simp, ?_, ?_⟩
          · rcases e4 with h | h
            · exact .inl h
            · exact .inr (.inl (by rw [hfr]; exact h))
          · exact .inr (.inl (by rw [hfr, e6]; exact e5))) hs' hd2
        exact ⟨u', h1, fun t ht => h2 t (by simpa only [List.cons_append, disciplined, if_true] using ht)⟩
      · have hd2 : disciplined k u ops := by simpa only [disciplined, if_neg hk] using hd
        have key : (g.readP junk k').1.Inv k u.dirty u.cUsed u.pUsed := by
          unfold Grid.readP Grid.computeP
          by_cases hcond : ((g.p k').isNone || g.dims.any fun d => (d.cache k').isNone) = true
          · rw [if_pos hcond]
            unfold Grid.computeC
            by_cases hcond2 : ((g.c k').isNone || g.dims.any fun d => (d.cache k').isNone) = true
            · rw [if_pos hcond2]
              by_cases hneg : (g.dims.any fun d => decide (d.extent k' < 0)) = true
              · rw [if_pos hneg]; exact hi
              · rw [if_neg hneg]
                obtain ⟨ds', arrs, e1, e2, e3, e4, e5⟩ := Grid.readAll_good junk k' g.dims hi.good
                rw [e1]
                refine ⟨e2, ?_, ?_, hi.pc, ?_, ?_⟩
                · intro h; simp [Function.update_of_ne (Ne.symm hk), hi.cu h]
                · intro h; simp [Function.update_of_ne (Ne.symm hk), hi.pu h]
                · simp only [Function.update_of_ne (Ne.symm hk)]
                  rcases hi.cok with h | h | h
                  · exact .inl h
                  · exact .inr (.inl (by rw [h]; congr 1; exact (Grid.fresh_congr e3).symm))
                  · exact .inr (.inr ⟨h.1, (Grid.detect_congr (e4 k hk)).2 h.2⟩)
                · simp only [Function.update_of_ne (Ne.symm hk)]
                  rcases hi.pok with h | h | h
                  · exact .inl h
                  · exact .inr (.inl (by rw [h]; simp only [Grid.fresh, e3]))
                  · exact .inr (.inr ⟨h.1, (Grid.detect_congr (e4 k hk)).2 h.2⟩)
            · rw [if_neg hcond2]
              refine ⟨hi.good, hi.cu, ?_, hi.pc, hi.cok, ?_⟩
              · intro h; simp [Function.update_of_ne (Ne.symm hk), hi.pu h]
              · simp only [Function.update_of_ne (Ne.symm hk)]
                exact hi.pok
          · rw [if_neg hcond]; exact hi
        obtain ⟨u', h1, h2⟩ := ih (g.stepG junk (.readP k')) u key hs' hd2
        exact ⟨u', h1, fun t ht => h2 t (by simpa only [List.cons_append, disciplined, if_neg hk] using ht)⟩

theorem Grid.addDimension_ok {g g' : Grid K} {d : Dim K} (h : g.addDimension d = (g', .ok ())) :
    g'.dims = g.dims ++ [d] ∧ g'.c = (fun _ => none) ∧ g'.p = (fun _ => none) ∧ g'.mapc2p = id ∧
      g'.gauges = g.gauges ∧ g'.gaugeNames = g.gaugeNames ∧ d.name ∉ g.dims.map (·.name) ∧
      g.dims.length < 3 := by
  unfold Grid.addDimension at h
  split at h
  · cases h
  · rename_i hn
    simp only at h
    split at h
    · rename_i hlen
      simp only [Prod.mk.injEq, and_true] at h
      subst h
      refine ⟨rfl, rfl, rfl, rfl, rfl, rfl, hn, ?_⟩
      simp [Grid.clear] at hlen; omega
    · cases h

theorem Grid.addAll_ok (ds : List (Dim K)) (g0 g : Grid K) (h : g0.addAll ds = .ok g)
    (h1 : g0.c = (fun _ => none)) (h2 : g0.p = (fun _ => none)) (h3 : g0.mapc2p = id)
    (h6 : (g0.dims.map (·.name)).Nodup) (h7 : g0.dims.length ≤ 3) :
    g.dims = g0.dims ++ ds ∧ g.c = (fun _ => none) ∧ g.p = (fun _ => none) ∧ g.mapc2p = id ∧
      g.gauges = g0.gauges ∧ g.gaugeNames = g0.gaugeNames ∧ (g.dims.map (·.name)).Nodup ∧
      g.dims.length ≤ 3 := by
  induction ds generalizing g0 with
  | nil =>
    simp only [Grid.addAll, Except.ok.injEq] at h
    subst h
    exact ⟨by simp, h1, h2, h3, rfl, rfl, h6, h7⟩
  | cons d ds ih =>
    rcases ha : g0.addDimension d with ⟨g1, r⟩
    cases r with
    | error e => simp [Grid.addAll, ha] at h
    | ok r =>
      obtain ⟨a1, a2, a3, a4, a5, a6, a7, a8⟩ := Grid.addDimension_ok ha
      simp only [Grid.addAll, ha] at h
      have := ih g1 h a2 a3 a4
        (by
          rw [a1, List.map_append, List.nodup_append]
          refine ⟨h6, by simp, ?_⟩
          intro x hx y hy
          simp only [List.map_cons, List.map_nil, List.mem_singleton] at hy
          subst hy
          rintro rfl
          exact a7 hx)
        (by rw [a1]; simp; omega)
      rw [a1, a5, a6] at this
      simpa using this

theorem Grid.new_ok (ds : List (Dim K)) (g : Grid K) (h : Grid.new ds = .ok g) :
    g.dims = ds ∧ g.c = (fun _ => none) ∧ g.p = (fun _ => none) ∧ g.mapc2p = id ∧
      g.gauges = [] ∧ g.gaugeNames = [] ∧ (ds.map (·.name)).Nodup ∧ ds.length ≤ 3 := by
  obtain ⟨b1, b2, b3, b4, b5, b6, b7, b8⟩ := Grid.addAll_ok ds {} g h rfl rfl rfl (by simp) (by simp)
  have b1' : g.dims = ds := by simpa using b1
  rw [b1'] at b7 b8
  exact ⟨b1', b2, b3, b4, b5, b6, b7, b8⟩

theorem disciplined_prefix (k : Kind) (u : Usage) (a b : List (GridOp K))
    (h : disciplined k u (a ++ b)) : disciplined k u a := by
  revert b
  induction a generalizing u with
  | nil => intro b _; trivial
  | cons op a ih =>
    intro b h
    cases op with
    | dim i op =>
      cases he : op.effect with
      | change =>
        have : disciplined k { u with dirty := true } (a ++ b) := by simpa [disciplined, he] using h
        simpa [disciplined, he] using ih _ b this
      | reads k' =>
        have : (k' = k → ¬ (u.dirty = true ∧ u.cUsed = true)) ∧ disciplined k u (a ++ b) := by
          simpa only [List.cons_append, disciplined, he] using h
        simp only [disciplined, he]
        exact ⟨this.1, ih _ b this.2⟩
    | setMap f => exact ih _ b (by simpa [disciplined] using h)
    | addDimension d => exact ih _ b (by simpa [disciplined] using h)
    | readC k' =>
      by_cases hk : k' = k
      · have h' : ¬ (u.dirty = true ∧ u.pUsed = true) ∧
            disciplined k { dirty := false, cUsed := true, pUsed := u.pUsed } (a ++ b) := by
          simpa only [List.cons_append, disciplined, if_pos hk] using h
        simp only [disciplined, if_pos hk]
        exact ⟨h'.1, ih _ b h'.2⟩
      · simp only [List.cons_append, disciplined, if_neg hk] at h ⊢
        exact ih _ b h
    | readP k' =>
      by_cases hk : k' = k
      · simp only [List.cons_append, disciplined, if_pos hk] at h ⊢
        exact ih _ b h
      · simp only [List.cons_append, disciplined, if_neg hk] at h ⊢
        exact ih _ b h

end PyClaw
