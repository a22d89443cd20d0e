import Verif.Lemmas.Heap

/-! Shared-memory semantics refines value semantics when no solver is shared. -/
set_option linter.unusedSectionVars false
namespace PyClaw
variable {K W S : Type*} [DecidableEq S] [DecidableEq W]
open Spec

theorem Heap.poke_eq_overlay (b : Nat → K) (is : List Nat) (vs : List K) (hn : is.Nodup)
    (hl : vs.length = is.length) (p : Nat) : Heap.poke b (is.zip vs) p = overlay b is vs p := by
  induction is generalizing b vs with
  | nil => simp [Heap.poke, overlay]
  | cons i is ih =>
    cases vs with
    | nil => simp at hl
    | cons v vs =>
      rw [List.nodup_cons] at hn
      simp only [List.zip_cons_cons, Heap.poke]
      rw [ih _ _ hn.2 (by simpa using hl)]
      unfold overlay
      by_cases hp : i = p
      · subst hp
        have : is.idxOf? i = none := List.idxOf?_eq_none_iff.2 hn.1
        rw [this]
        simp [List.idxOf?_cons]
      · have h' : (i == p) = false := by simpa using hp
        rw [List.idxOf?_cons, h']
        simp only [Bool.false_eq_true, if_false]
        cases hk : List.idxOf? p is with
        | none => simp [Function.update_of_ne (Ne.symm hp)]
        | some k => simp [Function.update_of_ne (Ne.symm hp)]

theorem overlay_congr (b b' : Nat → K) (is : List Nat) (vs : List K) (hl : vs.length = is.length)
    (p : Nat) (h : p ∉ is → b p = b' p) : overlay b is vs p = overlay b' is vs p := by
  unfold overlay
  cases hk : is.idxOf? p with
  | none => exact h (List.idxOf?_eq_none_iff.1 hk)
  | some k =>
    have hlt : k < vs.length := by
      rw [hl]
      simp only [List.idxOf?] at hk
      exact (List.findIdx?_eq_some_iff_findIdx_eq.1 hk).1
    simp [List.getElem?_eq_getElem hlt]

/-- The value-level reading of the solvers. -/
def WorkSolver.toV (w : WorkSolver K) : VSolver K :=
  { size := w.size, interior := w.interior, kernel := w.kernel }

/-- The value-level effect of an operation. -/
def VSys.stepOp (solver : W → WorkSolver K) (v : VSys K W S) : AOp K W S → VSys K W S
  | .step i j => v.stepSolver (fun i => (solver i).toV) i j
  | .write j vs => v.assign j vs
  | .rebind j vs => v.assign j vs

def VSys.run (solver : W → WorkSolver K) (v : VSys K W S) (ops : List (AOp K W S)) : VSys K W S :=
  ops.foldl (VSys.stepOp solver) v

structure WorkSolver.Ok (m : Nat) (w : WorkSolver K) : Prop where
  nodup : w.interior.Nodup
  lt : ∀ p ∈ w.interior, p < w.size
  len : w.interior.length = m
  ker : ∀ l : List K, l.length = w.size → (w.kernel l).length = w.size

/-- `state.q` of every solution is either a view of the work array of a solver that belongs to this
solution, or an array of its own. -/
structure ASys.Inv (m : Nat) (solver : W → WorkSolver K) (owner : W → S) (s : ASys K S)
    (v : VSys K W S) : Prop where
  val : ∀ j, s.heap.read (s.q j) = v.q j
  len : ∀ j, (s.q j).idx.length = m
  nd : ∀ j, (s.q j).idx.Nodup
  bound : ∀ j, (s.q j).addr < s.heap.next
  sbound : ∀ i, (solver i).addr < s.heap.next
  own : ∀ j, (∃ i, owner i = j ∧ s.q j = (solver i).view) ∨
    ((∀ i, (s.q j).addr ≠ (solver i).addr) ∧ ∀ j', j' ≠ j → (s.q j').addr ≠ (s.q j).addr)
  work : ∀ i p, p < (solver i).size → p ∉ (solver i).interior →
    s.heap.mem (solver i).addr p = v.work i p

theorem ASys.Inv.addr_ne {m : Nat} {solver : W → WorkSolver K} {owner : W → S} {s : ASys K S}
    {v : VSys K W S} (hi : s.Inv m solver owner v)
    (hinj : ∀ i i', (solver i).addr = (solver i').addr → i = i') {j j' : S} (h : j' ≠ j) :
    (s.q j').addr ≠ (s.q j).addr := by
  rcases hi.own j with ⟨i, ho, hq⟩ | ⟨_, h2⟩
  · rcases hi.own j' with ⟨i', ho', hq'⟩ | ⟨_, h2'⟩
    · rw [hq, hq']
      intro he
      have := hinj _ _ he
      subst this
      exact h (ho'.symm.trans ho)
    · exact fun he => (h2' j (Ne.symm h)) he.symm
  · exact h2 j' h

theorem ASys.step_inv (junk : K) {m : Nat} {solver : W → WorkSolver K} {owner : W → S}
    {s : ASys K S} {v : VSys K W S} (hok : ∀ i, (solver i).Ok m)
    (hinj : ∀ i i', (solver i).addr = (solver i').addr → i = i')
    (hi : s.Inv m solver owner v) (op : AOp K W S)
    (hop : match op with
      | .step i j => owner i = j
      | .write _ vs => vs.length = m
      | .rebind _ vs => vs.length = m) :
    (s.step junk solver op).Inv m solver owner (VSys.stepOp solver v op) := by
  cases op with
  | step i j =>
    simp only at hop
    have ok := hok i
    let w := solver i
    have hm : (v.q j).length = m := by rw [← hi.val j, Heap.read_length, hi.len j]
    -- first write: the interior of the work array
    set h1 := s.heap.write w.view (v.q j) with hh1
    have e1 : h1.read w.qbc = (List.range w.size).map (overlay (v.work i) w.interior (v.q j)) := by
      simp only [hh1, Heap.read, Heap.write, WorkSolver.qbc, WorkSolver.view, Function.update_self]
      apply List.map_congr_left
      intro p hp
      rw [Heap.poke_eq_overlay _ _ _ ok.nodup (by rw [hm]; exact ok.len.symm)]
      apply overlay_congr _ _ _ _ (by rw [hm]; exact ok.len.symm)
      intro hp'
      exact hi.work i p (by simpa using hp) hp'
    set new := w.kernel ((List.range w.size).map (overlay (v.work i) w.interior (v.q j))) with hnew
    have hlen : new.length = w.size := ok.ker _ (by simp [w])
    set h2 := h1.write w.qbc new with hh2
    have hstep : s.step junk solver (.step i j) = { heap := h2, q := Function.update s.q j w.view } := by
      simp only [ASys.step]
      rw [hi.val j, ← hh1]
      show ({ heap := h1.write w.qbc (w.kernel (h1.read w.qbc)), q := _ } : ASys K S) = _
      rw [e1]
    have e2 : h2.read w.qbc = new :=
      Heap.read_write_self _ _ _ List.nodup_range (by simp [WorkSolver.qbc, hlen])
    have e2mem : ∀ p, p < w.size → h2.mem w.addr p = new.getD p (v.work i p) := by
      intro p hp
      have := congrArg (fun l => l[p]?) e2
      simp only [Heap.read, WorkSolver.qbc] at this
      rw [List.getElem?_map, List.getElem?_range hp, Option.map_some] at this
      rw [List.getD_eq_getElem?_getD, ← this]; rfl
    have hframe : ∀ r : Ref, r.addr ≠ w.addr → h2.read r = s.heap.read r := by
      intro r hr
      rw [hh2, Heap.write_frame _ _ _ _ hr, hh1, Heap.write_frame _ _ _ _ hr]
    have hfmem : ∀ a, a ≠ w.addr → h2.mem a = s.heap.mem a := by
      intro a ha
      simp [hh2, hh1, Heap.write, WorkSolver.qbc, WorkSolver.view, Function.update_of_ne ha]
    -- no other solution lives in this work array
    have hother : ∀ j', j' ≠ j → (s.q j').addr ≠ w.addr := by
      intro j' hj'
      rcases hi.own j' with ⟨i', ho', hq'⟩ | ⟨h1', _⟩
      · rw [hq']
        intro he
        have := hinj _ _ he
        subst this
        exact hj' (ho'.symm.trans hop)
      · exact h1' i
    rw [hstep]
    refine ⟨?_, ?_, ?_, ?_, hi.sbound, ?_, ?_⟩
    · intro j'
      by_cases hj : j' = j
      · subst hj
        simp only [VSys.stepOp, VSys.stepSolver, Function.update_self]
        show w.interior.map (h2.mem w.addr) = pick new w.interior
        unfold pick
        have : ∀ is : List Nat, (∀ p ∈ is, p < w.size) →
            is.map (h2.mem w.addr) = is.filterMap (new[·]?) := by
          intro is
          induction is with
          | nil => intro _; rfl
          | cons p is ih =>
            intro h
            have hp := h p (by simp)
            rw [List.map_cons, ih (fun x hx => h x (by simp [hx])), e2mem p hp]
            have hp' : p < new.length := by rw [hlen]; exact hp
            simp [List.getElem?_eq_getElem hp']
        exact this _ ok.lt
      · simp only [VSys.stepOp, VSys.stepSolver, Function.update_of_ne hj]
        rw [hframe _ (hother j' hj)]
        exact hi.val j'
    · intro j'
      by_cases hj : j' = j
      · subst hj; simp only [Function.update_self]; exact ok.len
      · simp only [Function.update_of_ne hj]; exact hi.len j'
    · intro j'
      by_cases hj : j' = j
      · subst hj; simp only [Function.update_self]; exact ok.nodup
      · simp only [Function.update_of_ne hj]; exact hi.nd j'
    · intro j'
      by_cases hj : j' = j
      · subst hj; simp only [Function.update_self]; exact hi.sbound i
      · simp only [Function.update_of_ne hj]; exact hi.bound j'
    · intro j'
      by_cases hj : j' = j
      · subst hj; exact .inl ⟨i, hop, by simp [w]⟩
      · simp only [Function.update_of_ne hj]
        rcases hi.own j' with h | ⟨h1', h2'⟩
        · exact .inl h
        · refine .inr ⟨h1', ?_⟩
          intro j'' hj''
          by_cases hjj : j'' = j
          · subst hjj
            simp only [Function.update_self]
            exact fun he => (h1' i) he.symm
          · simp only [Function.update_of_ne hjj]; exact h2' j'' hj''
    · intro i' p hp hp'
      by_cases hii : i' = i
      · subst hii
        simp only [VSys.stepOp, VSys.stepSolver, Function.update_self]
        exact e2mem p hp
      · simp only [VSys.stepOp, VSys.stepSolver, Function.update_of_ne hii]
        have : (solver i').addr ≠ w.addr := fun he => hii (hinj _ _ he)
        rw [hfmem _ this]
        exact hi.work i' p hp hp'
  | write j vs =>
    simp only at hop
    have hself : (s.heap.write (s.q j) vs).read (s.q j) = vs :=
      Heap.read_write_self _ _ _ (hi.nd j) (by rw [hop, hi.len j])
    refine ⟨?_, hi.len, hi.nd, hi.bound, hi.sbound, hi.own, ?_⟩
    · intro j'
      by_cases hj : j' = j
      · subst hj
        simp only [VSys.stepOp, VSys.assign, Function.update_self]
        exact hself
      · simp only [VSys.stepOp, VSys.assign, Function.update_of_ne hj]
        have := hi.addr_ne hinj hj
        show (s.heap.write (s.q j) vs).read (s.q j') = _
        rw [Heap.write_frame _ _ _ _ this]
        exact hi.val j'
    · intro i p hp hp'
      show (s.heap.write (s.q j) vs).mem (solver i).addr p = v.work i p
      by_cases ha : (s.q j).addr = (solver i).addr
      · rcases hi.own j with ⟨i', ho, hq⟩ | ⟨h1', _⟩
        · have : i' = i := hinj _ _ (by rw [← ha, hq]; rfl)
          subst this
          simp only [Heap.write, ha, Function.update_self]
          rw [Heap.poke_not_mem]
          · exact hi.work i' p hp hp'
          · intro hm
            rw [List.mem_map] at hm
            obtain ⟨⟨a, c⟩, hm1, rfl⟩ := hm
            have := (List.of_mem_zip hm1).1
            rw [hq] at this
            exact hp' this
        · exact absurd ha (h1' i)
      · simp only [Heap.write, Function.update_of_ne (Ne.symm ha)]
        exact hi.work i p hp hp'
  | rebind j vs =>
    simp only at hop
    have hb : ∀ r : Ref, r.addr < s.heap.next → (s.heap.alloc vs junk).1.read r = s.heap.read r :=
      fun r hr => Heap.alloc_frame _ _ _ _ hr
    refine ⟨?_, ?_, ?_, ?_, ?_, ?_, ?_⟩
    · intro j'
      by_cases hj : j' = j
      · subst hj
        simp only [ASys.step, VSys.stepOp, VSys.assign, Function.update_self]
        exact Heap.alloc_read _ _ _
      · simp only [ASys.step, VSys.stepOp, VSys.assign, Function.update_of_ne hj]
        rw [hb _ (hi.bound j')]
        exact hi.val j'
    · intro j'
      by_cases hj : j' = j
      · subst hj; simp only [ASys.step, Function.update_self]; simp [Heap.alloc, hop]
      · simp only [ASys.step, Function.update_of_ne hj]; exact hi.len j'
    · intro j'
      by_cases hj : j' = j
      · subst hj; simp only [ASys.step, Function.update_self]; exact List.nodup_range
      · simp only [ASys.step, Function.update_of_ne hj]; exact hi.nd j'
    · intro j'
      by_cases hj : j' = j
      · subst hj; simp [ASys.step, Heap.alloc]
      · simp only [ASys.step, Function.update_of_ne hj]
        exact Nat.lt_succ_of_lt (hi.bound j')
    · intro i; exact Nat.lt_succ_of_lt (hi.sbound i)
    · intro j'
      by_cases hj : j' = j
      · subst hj
        simp only [ASys.step, Function.update_self]
        refine .inr ⟨fun i => ?_, fun j'' hj'' => ?_⟩
        · exact (Nat.ne_of_lt (hi.sbound i)).symm
        · simp only [Function.update_of_ne hj'']
          exact Nat.ne_of_lt (hi.bound j'')
      · simp only [ASys.step, Function.update_of_ne hj]
        rcases hi.own j' with h | ⟨h1', h2'⟩
        · exact .inl h
        · refine .inr ⟨h1', fun j'' hj'' => ?_⟩
          by_cases hjj : j'' = j
          · subst hjj
            simp only [Function.update_self]
            exact (Nat.ne_of_lt (hi.bound j')).symm
          · simp only [Function.update_of_ne hjj]; exact h2' j'' hj''
    · intro i p hp hp'
      simp only [ASys.step, VSys.stepOp, VSys.assign, Heap.alloc]
      rw [Function.update_of_ne (Nat.ne_of_lt (hi.sbound i))]
      exact hi.work i p hp hp'

theorem ASys.run_inv (junk : K) {m : Nat} {solver : W → WorkSolver K} {owner : W → S}
    (hok : ∀ i, (solver i).Ok m) (hinj : ∀ i i', (solver i).addr = (solver i').addr → i = i')
    (ops : List (AOp K W S)) {s : ASys K S} {v : VSys K W S} (hi : s.Inv m solver owner v)
    (hop : ∀ op ∈ ops, match op with
      | .step i j => owner i = j
      | .write _ vs => vs.length = m
      | .rebind _ vs => vs.length = m) :
    (s.run junk solver ops).Inv m solver owner (VSys.run solver v ops) := by
  induction ops generalizing s v with
  | nil => exact hi
  | cons op ops ih =>
    exact ih (ASys.step_inv junk hok hinj hi op (hop op (by simp)))
      (fun o ho => hop o (by simp [ho]))

end PyClaw
