import Verif.Model.Solution
import Verif.Spec.Solution
import Mathlib.Data.List.Forall2
import Mathlib.Tactic.Common

/-!
C87: a Solution shows its states.
-/
namespace PyClaw

variable {S V : Type}

/-- The events of a history that assign attribute `key` through the solution. -/
def assigns (key : String) (l : List (SolOp V)) : Prop := ∃ v, SolOp.set key v ∈ l

theorem run_cons (ops : StateOps S V) (o : SolObj S V) (e : SolOp V) (l : List (SolOp V)) :
    o.run ops (e :: l) = (o.step ops e).run ops l := rfl

/-- An entry of `__dict__` that no event assigns stays as it is. -/
theorem run_dict (ops : StateOps S V) (key : String) (l : List (SolOp V)) (h : ¬ assigns key l ∨ key ∈ setOnAll)
    (o : SolObj S V) : (o.run ops l).dict key = o.dict key := by
  induction l generalizing o with
  | nil => rfl
  | cons e l ih =>
    rw [run_cons, ih (by
      rcases h with h | h
      · left
        rintro ⟨v, hv⟩
        exact h ⟨v, by simp [hv]⟩
      · exact Or.inr h)]
    cases e with
    | setState i k v => rfl
    | set k v =>
      unfold SolObj.step SolObj.set
      by_cases hk : k ∈ setOnAll
      · simp only [if_pos hk]
      · simp only [if_neg hk]
        rw [Function.update_of_ne]
        rintro rfl
        rcases h with h | h
        · exact h ⟨v, by simp⟩
        · exact hk h

theorem run_startFrame (ops : StateOps S V) (l : List (SolOp V)) (o : SolObj S V) :
    (o.run ops l).startFrame = o.startFrame := by
  induction l generalizing o with
  | nil => rfl
  | cons e l ih =>
    rw [run_cons, ih]
    cases e with
    | setState i k v => rfl
    | set k v =>
      unfold SolObj.step SolObj.set
      by_cases hk : k ∈ setOnAll
      · simp only [if_pos hk]
      · simp only [if_neg hk]

theorem mem_forwarded {key : String} : key ∈ forwarded ↔ key ∈ Spec.shownAttributes := by
  have h1 : ∀ k ∈ forwarded, k ∈ Spec.shownAttributes := by decide
  have h2 : ∀ k ∈ Spec.shownAttributes, k ∈ forwarded := by decide
  exact ⟨h1 key, h2 key⟩

/-- **C87** (partial: attributes that are not assigned through the solution, see `C87_detached_violated`). Whatever
happened before, reading one of the listed attributes of a solution gives that attribute of its first state as it is now
(an `IndexError` if there are no states); any other name raises `AttributeError`, unless it belongs to the solution itself or to
every Python object. -/
theorem C87_read_partial (ops : StateOps S V) (states : List S) (f : V) (l : List (SolOp V)) (key : String)
    (hk : key ∉ Spec.ownNames) (h : ¬ assigns key l ∨ key ∈ ["t", "mp", "mF"]) :
    let o := (SolObj.mk states (fun _ => none) f).run ops l
    o.get ops key = if key ∈ Spec.shownAttributes then
      (match o.states with
        | [] => .error .indexError
        | s :: _ => ops.get s key) else .error .attributeError := by
  intro o
  unfold SolObj.get SolObj.base
  rw [if_neg (by rintro rfl; revert hk; decide), run_dict ops key l h]
  by_cases hf : key ∈ forwarded
  · rw [if_pos (mem_forwarded.mp hf)]
    simp only [if_pos hf]
    rfl
  · rw [if_neg fun hs => hf (mem_forwarded.mpr hs)]
    simp only [if_neg hf]

/-- **C87.** Assigning `t` to a solution gives all its states this time, and no other attribute of a state changes; reading
`t` from the solution gives it back. The hypothesis says that `t` is a plain attribute of a state. -/
theorem C87_set_time (ops : StateOps S V)
    (ht : ∀ s v, ∃ s', ops.set s "t" v = (s', .ok ()) ∧ ops.get s' "t" = .ok v ∧ ∀ k, k ≠ "t" → ops.get s' k = ops.get s k)
    (htg : ∀ s, ∃ v, ops.get s "t" = .ok v) (states : List S) (f : V) (l : List (SolOp V)) (v : V) :
    let o := (SolObj.mk states (fun _ => none) f).run ops l
    ∃ o', o.set ops "t" v = (o', .ok ()) ∧
      List.Forall₂ (fun s s' => ops.get s' "t" = .ok v ∧ ∀ k, k ≠ "t" → ops.get s' k = ops.get s k) o.states o'.states ∧
      (o.states ≠ [] → o'.get ops "t" = .ok v) ∧
      ∀ k, k ≠ "t" → o'.get ops k = o.get ops k := by
  intro o
  have key : ∀ l : List S, ∃ l', setAll ops "t" v l = (l', .ok ()) ∧
      List.Forall₂ (fun s s' => ops.get s' "t" = .ok v ∧ ∀ k, k ≠ "t" → ops.get s' k = ops.get s k) l l' := by
    intro l
    induction l with
    | nil => exact ⟨[], rfl, List.Forall₂.nil⟩
    | cons s l ih =>
      obtain ⟨l', h1, h2⟩ := ih
      obtain ⟨w, hw⟩ := htg s
      obtain ⟨s', h3, h4⟩ := ht s v
      refine ⟨s' :: l', ?_, List.Forall₂.cons h4 h2⟩
      unfold setAll
      simp only [hw, h3, h1]
  obtain ⟨l', h1, h2⟩ := key o.states
  have hd : o.dict "t" = none := run_dict ops "t" l (Or.inr (by decide)) _
  refine ⟨{ o with states := l' }, ?_, h2, ?_, ?_⟩
  · unfold SolObj.set
    rw [if_pos (by decide), h1]
  · intro hne
    unfold SolObj.get SolObj.base
    rw [if_neg (by decide), hd, if_pos (by decide)]
    simp only
    generalize hso : o.states = so at h2 hne
    cases h2 with
    | nil => exact absurd rfl hne
    | cons h3 _ => exact h3.1
  · intro k hk
    unfold SolObj.get SolObj.base
    simp only
    generalize o.states = so at h2
    cases h2 with
    | nil => rfl
    | cons h3 _ => simp only [h3.2 k hk]

/-- **C87 fails** for all other attributes: assigning `q` (or `aux`, `problem_data`, …) to a solution changes no state, and
from then on the solution shows the assigned value whatever happens to the states (until it is assigned again). -/
theorem C87_detached_violated (ops : StateOps S V) (o : SolObj S V) (key : String) (hk : key ∉ ["t", "mp", "mF"])
    (hs : key ∉ Spec.ownNames) (v : V) (later : List (SolOp V)) (hl : ¬ assigns key later) :
    (o.set ops key v).2 = .ok () ∧ (o.set ops key v).1.states = o.states ∧
      ((o.set ops key v).1.run ops later).get ops key = .ok v := by
  have h1 : o.set ops key v = ({ o with dict := Function.update o.dict key (some v) }, .ok ()) := by
    unfold SolObj.set; rw [if_neg (show key ∉ setOnAll from hk)]
  refine ⟨by rw [h1], by rw [h1], ?_⟩
  unfold SolObj.get
  rw [if_neg (by rintro rfl; revert hs; decide), run_dict ops key later (Or.inl hl), h1]
  simp

/-- **C87 fails** for `start_frame`: assigning it is accepted and has no effect on what is read. -/
theorem C87_start_frame_violated (ops : StateOps S V) (o : SolObj S V) (v : V) :
    (o.set ops "start_frame" v).2 = .ok () ∧ (o.set ops "start_frame" v).1.get ops "start_frame" = .ok o.startFrame := by
  have h1 : o.set ops "start_frame" v = ({ o with dict := Function.update o.dict "start_frame" (some v) }, .ok ()) := by
    unfold SolObj.set; rw [if_neg (by decide)]
  rw [h1]
  exact ⟨rfl, by unfold SolObj.get; rw [if_pos rfl]⟩

/-- **C87.** A deep copy consists of copies of the states in the same order, and reads accordingly: nothing assigned
through the original hides them, and its `start_frame` is the default. -/
theorem C87_deepcopy (ops : StateOps S V) (copyState : S → Except PyErr S) (zero : V) (o o' : SolObj S V)
    (h : o.deepcopy copyState zero = .ok o') :
    List.Forall₂ (fun s s' => copyState s = .ok s') o.states o'.states ∧ o'.get ops "start_frame" = .ok zero ∧
      ∀ key ∈ Spec.shownAttributes, o'.get ops key = match o'.states with
        | [] => .error .indexError
        | s :: _ => ops.get s key := by
  unfold SolObj.deepcopy at h
  cases hm : o.states.mapM copyState with
  | error e => rw [hm] at h; cases h
  | ok l =>
    rw [hm] at h
    simp only [Except.ok.injEq] at h
    subst h
    refine ⟨?_, by unfold SolObj.get; rw [if_pos rfl], ?_⟩
    · generalize o.states = so at hm
      induction so generalizing l with
      | nil =>
        simp only [List.mapM_nil] at hm
        cases hm
        exact List.Forall₂.nil
      | cons s so ih =>
        rw [List.mapM_cons] at hm
        cases hs : copyState s with
        | error e => rw [hs] at hm; cases hm
        | ok s' =>
          rw [hs] at hm
          cases hr : so.mapM copyState with
          | error e => rw [hr] at hm; cases hm
          | ok l' =>
            rw [hr] at hm
            cases hm
            exact List.Forall₂.cons hs (ih l' hr)
    · intro key hk
      unfold SolObj.get SolObj.base
      rw [if_neg (by rintro rfl; revert hk; decide)]
      simp only
      rw [if_pos (mem_forwarded.mpr hk)]
      rfl

/-! ### Construction -/

variable {Dom Dim' Pat : Type}

/-- **C87** (partial: see the next theorem). What `Solution(a, b)` gives, when `b` is a domain or a list: the geometry that
was asked for, and a list of states. -/
theorem C87_construct_partial (mk : Makers S Dom Dim' Pat) (dom : Dom) (b : GeoArg Dom Dim' Pat)
    (hb : b = .domain dom ∨ (∃ d l, b = .dims d l ∧ mk.ofDims (d :: l) = .ok dom) ∨
      ∃ p l, b = .patches p l ∧ mk.ofPatches (p :: l) = .ok dom) :
    (∀ s, solNew mk (.state s) b = .ok (.list [s], dom)) ∧
      (∀ s l, solNew mk (.states s l) b = .ok (.list (s :: l), dom)) ∧
      (∀ n s, mk.state dom n 0 = .ok s → solNew mk (.int n) b = .ok (.list [s], dom)) ∧
      ∃ msg, solNew mk .other b = .error (.exception msg) := by
  have hd : solDomain mk b = .ok dom := by
    rcases hb with h | ⟨d, l, h, h2⟩ | ⟨p, l, h, h2⟩
    · rw [h]; rfl
    · rw [h]; exact h2
    · rw [h]; exact h2
  unfold solNew
  rw [hd]
  refine ⟨fun s => rfl, fun s l => rfl, fun n s h => ?_, ⟨_, rfl⟩⟩
  simp only [solStates, h]

/-- **C87 fails** for two documented forms: a single `Patch` or `Dimension` as second argument always raises, and
`Solution([num_eqn, num_aux], domain)` succeeds but its state cannot be reached. -/
theorem C87_construct_violated (mk : Makers S Dom Dim' Pat) (a : StateArg S) (dom : Dom) (n m : Int) (s : S)
    (hs : mk.state dom n m = .ok s) :
    solNew mk a (.single : GeoArg Dom Dim' Pat) = .error .typeError ∧
      ∃ st, solNew mk (.ints [n, m]) (.domain dom) = .ok (st, dom) ∧ st.base = .error .typeError := by
  refine ⟨rfl, .bare s, ?_, rfl⟩
  simp only [solNew, solDomain, solStates, hs]

/-! Concrete cases: states with a time and unknowns. -/

/-- States that are pairs. -/
def pairOps : StateOps (Int × Int) Int where
  get s k := if k = "t" then .ok s.1 else if k = "q" then .ok s.2 else .error .attributeError
  set s k v := if k = "t" then ((v, s.2), .ok ()) else if k = "q" then ((s.1, v), .ok ()) else (s, .ok ())

example : let o := (SolObj.mk [(0, 1), (0, 2)] (fun _ => none) 0).run pairOps [.set "t" 3, .setState 0 "q" 7]
    o.states = [(3, 7), (3, 2)] ∧ o.get pairOps "q" = .ok 7 ∧ o.get pairOps "t" = .ok 3 := ⟨rfl, rfl, rfl⟩

/-- The hypotheses of `C87_set_time` are met. -/
example : (∀ s v, ∃ s', pairOps.set s "t" v = (s', .ok ()) ∧ pairOps.get s' "t" = .ok v ∧
      ∀ k, k ≠ "t" → pairOps.get s' k = pairOps.get s k) ∧ ∀ s, ∃ v, pairOps.get s "t" = .ok v :=
  ⟨fun s v => ⟨(v, s.2), rfl, rfl, fun k hk => by simp [pairOps, hk]⟩, fun s => ⟨s.1, rfl⟩⟩

/-- After `solution.q = 5` the state still has 1, and the solution shows 5 when the state has become 9. -/
example : let o := (SolObj.mk [(0, 1)] (fun _ => none) 0).run pairOps [.set "q" 5, .setState 0 "q" 9]
    o.states = [(0, 9)] ∧ o.get pairOps "q" = .ok 5 := ⟨rfl, rfl⟩

end PyClaw
