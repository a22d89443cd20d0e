import Verif.Props.SharpRun

/-!
C50 for whole runs of `SSPLMMk3` with `check_lmm_cond`.
-/
set_option linter.unusedSectionVars false

namespace PyClaw
open Spec

variable {K E : Type*} [Field K] [LinearOrder K] [IsStrictOrderedRing K] [AddCommGroup E] [Module K E]

/-- What `check_3rd_ord_cond` checks for the step `a` with number `i` and its successor `b`. -/
def PairOk (k : Nat) (fe : K → E → K) (i : Nat) (a b : StepRec K E) : Prop :=
  lmmRhoFE k * fe a.t a.q ≤ fe b.t b.q ∧ lmmRhoFE k * fe b.t b.q ≤ fe a.t a.q ∧
  (i + 1 < k → a.dt ≤ lmmRho k * fe b.t b.q)

def AllPairs (k : Nat) (fe : K → E → K) (l : List (StepRec K E)) : Prop :=
  ∀ i a b, l[i]? = some a → l[i + 1]? = some b → PairOk k fe i a b

theorem allPairs_left {k : Nat} {fe : K → E → K} {l l' : List (StepRec K E)} (h : AllPairs k fe (l ++ l')) :
    AllPairs k fe l := by
  intro i a b ha hb
  refine h i a b ?_ ?_
  · rw [List.getElem?_append_left (List.getElem?_eq_some_iff.1 ha).1]; exact ha
  · rw [List.getElem?_append_left (List.getElem?_eq_some_iff.1 hb).1]; exact hb

theorem allPairs_push {k : Nat} {fe : K → E → K} {l : List (StepRec K E)} {x : StepRec K E} (h : AllPairs k fe l)
    (hx : ∀ l' a, l = l' ++ [a] → PairOk k fe l'.length a x) : AllPairs k fe (l ++ [x]) := by
  intro i a b ha hb
  by_cases hi : i + 1 < l.length
  · rw [List.getElem?_append_left hi] at hb
    rw [List.getElem?_append_left (by omega)] at ha
    exact h i a b ha hb
  · have hlt := (List.getElem?_eq_some_iff.1 hb).1
    rw [List.length_append, List.length_singleton] at hlt
    have hil : i + 1 = l.length := by omega
    rw [hil, List.getElem?_append_right le_rfl, Nat.sub_self] at hb
    simp only [List.getElem?_cons_zero, Option.some.injEq] at hb
    subst hb
    rcases List.eq_nil_or_concat l with h0 | ⟨l', y, h0⟩
    · rw [h0] at hil; simp at hil
    · rw [List.concat_eq_append] at h0
      subst h0
      rw [List.length_append, List.length_singleton] at hil
      obtain rfl : i = l'.length := by omega
      rw [List.append_assoc, List.getElem?_append_right le_rfl, Nat.sub_self] at ha
      simp only [List.cons_append, List.getElem?_cons_zero, Option.some.injEq] at ha
      subst ha
      exact hx l' _ rfl

theorem allPairs_redt {k : Nat} {fe : K → E → K} {l : List (StepRec K E)} {t : K} {q : E} {d : K} (d' : K)
    (h : AllPairs k fe (l ++ [⟨t, q, d⟩])) : AllPairs k fe (l ++ [⟨t, q, d'⟩]) := by
  refine allPairs_push (allPairs_left h) ?_
  intro l' a hl
  subst hl
  have := h l'.length a ⟨t, q, d⟩ (by simp) (by
    rw [List.getElem?_append_right (by simp)]
    simp)
  exact this

/-- What the check establishes. -/
theorem check_pair {c : SharpCfg K} {f : K → E → E} {fe : K → E → K} {k : Nat} {h0 : List (StepRec K E)} {r : StepRec K E}
    {s : SharpState K E} (hi : c.integ = .ssplmmk3) (hk : 0 < k) (hs : Saved c f fe k (h0 ++ [r]) s) (hdt : s.dt = r.dt)
    {t : K} {q : E} {i : Int} (hidx : i = (h0 ++ [r]).length + 1) {d : K}
    (hc : check3rdOrd s i (fe t q) = true) : PairOk k fe h0.length r ⟨t, q, d⟩ := by
  have hfe := hs.fes (by rw [hi]; rfl)
  have hlast : s.prevFE.getLast? = some (fe r.t r.q) := by
    rw [← back_zero, hfe.2 0 hk (by simp), List.map_append]
    exact back_append_zero _ _
  have hrho : (0 : K) < lmmRhoFE k := by
    unfold lmmRhoFE
    split <;> norm_num
  unfold check3rdOrd at hc
  rw [hs.len, hlast, hdt] at hc
  simp only [Option.getD_some, Bool.not_eq_true', Bool.or_eq_false_iff, decide_eq_false_iff_not, not_lt] at hc
  obtain ⟨c1, c2, c3⟩ := hc
  refine ⟨c2, ?_, ?_⟩
  · rw [le_div_iff₀ hrho] at c3
    linarith [mul_comm (lmmRhoFE k : K) (fe t q)]
  · intro hlt
    rw [if_pos (by rw [hidx, List.length_append, List.length_singleton]; omega)] at c1
    simp only [decide_eq_false_iff_not, not_lt] at c1
    linarith [mul_comm (lmmRho k : K) (fe t q)]

/-- What is known about the steps taken so far. -/
structure K3Inv (env : SharpEnv K E) (c : SharpCfg K) (fe : K → E → K) (k : Nat) (h : List (StepRec K E))
    (s : SharpState K E) : Prop where
  pairs : AllPairs k fe h
  adm : ∀ i a, h[i]? = some a → k ≤ i + 1 → Admissible c fe k (h.take i) a
  rej : s.accept = false → AllPairs k fe (h ++ [⟨s.t, env.before s.t s.q, 0⟩])

/-- The current state also satisfies the check when no step is discarded. -/
theorem current_pair {env : SharpEnv K E} {c : SharpCfg K} {f : K → E → E} {nu : K → E → K} {k : Nat}
    {P : K → Option K → SharpState K E → Prop} {s0 : SharpState K E} (hi : c.integ = .ssplmmk3)
    (hch : c.checkCond = true) (hc : LmmConfig c k) (hlin : LinearInDt env f nu)
    (h0 : LmmFresh k s0) {h : List (StepRec K E)} {s : SharpState K E} (hr : LmmRun env c P s0 h s)
    (hdt : 0 < s.dt) (hnd : ¬ discards env c s) (hinv : K3Inv env c (feSize c nu) k h s) (d : K) :
    AllPairs k (feSize c nu) (h ++ [⟨s.t, env.before s.t s.q, d⟩]) := by
  by_cases hacc : s.accept = true
  · refine allPairs_push hinv.pairs ?_
    intro l' a hl
    rcases (run_inv hc hlin h0 hr).cases with ⟨h1, -⟩ | ⟨-, h1, r, hh, hs, -⟩ | ⟨h1, -⟩
    · rw [h1] at hl; simp at hl
    · have hd := run_dt hr hacc hh
      rw [hh] at hl
      obtain ⟨rfl, e⟩ := List.append_inj' hl rfl
      obtain rfl : r = a := by simpa using e
      unfold discards at hnd
      rw [prepare_lmm hc.lmm] at hnd
      obtain ⟨e1, e2, e3, e4, e5, e6, e7, e8, e9, e10⟩ := evalRhs_fields env { s with q := env.before s.t s.q }
      obtain ⟨-, -, g3⟩ := evalRhs_accept hlin c { s with q := env.before s.t s.q } hdt hacc
      generalize evalRhs env { s with q := env.before s.t s.q } = s1 at *
      simp only at e1 e2 e3 e4 e5 e6 e7 e8 e9 e10 g3
      rcases updateSaved_accepted c s1 (s.numsteps + 1) (by rw [e5]; exact hs.ne) (e8.trans hacc) with
        ⟨hck, -⟩ | ⟨-, -, -, hb⟩
      · have := hck (by rw [hi]) hch
        rw [g3] at this
        rw [hh] at hs
        exact check_pair hi hc.pos (hs.congr e3 e4 e5 e6) (e9.trans hd)
          (by rw [(run_inv hc hlin h0 hr).steps, hh]) this
      · rw [hb] at hnd
        exact absurd (by simp [e7]) hnd
    · rw [hacc] at h1; cases h1
  · rw [Bool.not_eq_true] at hacc
    exact allPairs_redt d (hinv.rej hacc)

theorem run_k3inv {env : SharpEnv K E} {c : SharpCfg K} {f : K → E → E} {nu : K → E → K} {k : Nat}
    {s0 : SharpState K E} (hi : c.integ = .ssplmmk3)
    (hch : c.checkCond = true) (hc : LmmConfig c k) (hk2 : 2 ≤ k) (hlin : LinearInDt env f nu) (hset : SspSetup c nu)
    (h0 : LmmFresh k s0) {h : List (StepRec K E)} {s : SharpState K E} (hr : LmmRun env c (Unstretched env c) s0 h s) :
    K3Inv env c (feSize c nu) k h s := by
  induction hr with
  | start =>
    exact ⟨fun i a b ha => by simp at ha, fun i a ha => by simp at ha, fun h => by rw [h0.accept] at h; cases h⟩
  | @accepted h s s' m ts te n hr hdt hun hnd ha ih =>
    refine ⟨current_pair hi hch hc hlin h0 hr hdt hnd ih _, ?_, fun h => ?_⟩
    · intro i a hia hk
      by_cases hlt : i < h.length
      · rw [List.getElem?_append_left hlt] at hia
        rw [List.take_append_of_le_length (by omega)]
        exact ih.adm i a hia hk
      · have hle := (List.getElem?_eq_some_iff.1 hia).1
        rw [List.length_append, List.length_singleton] at hle
        obtain rfl : i = h.length := by omega
        rw [List.getElem?_append_right le_rfl, Nat.sub_self] at hia
        simp only [List.getElem?_cons_zero, Option.some.injEq] at hia
        subst hia
        rw [List.take_left]
        exact C50_run_step_size hc hk2 hlin hset h0 hr hdt hnd hk hun ha
    · rw [(sharpAttempt_cases ha).2.1] at h; cases h
  | rejected hr hdt hun hnd ha ih =>
    refine ⟨ih.pairs, ih.adm, fun _ => ?_⟩
    obtain ⟨-, -, -, -, -, -, -, -, -, -, -, -, b3⟩ := sharpAttempt_cases ha
    obtain ⟨c1, c2, -⟩ := b3 rfl
    rw [c1, c2]
    exact current_pair hi hch hc hlin h0 hr hdt hnd ih 0
  | @redone h r s s' m ts te n hr hdt hun hd ha ih =>
    refine ⟨allPairs_redt _ ih.pairs, ?_, fun h => ?_⟩
    · intro i a hia hk
      by_cases hlt : i < h.length
      · rw [List.getElem?_append_left hlt] at hia
        rw [List.take_append_of_le_length (by omega)]
        have := ih.adm i a (by rw [List.getElem?_append_left hlt]; exact hia) hk
        rwa [List.take_append_of_le_length (by omega)] at this
      · have hle := (List.getElem?_eq_some_iff.1 hia).1
        rw [List.length_append, List.length_singleton] at hle
        obtain rfl : i = h.length := by omega
        rw [List.getElem?_append_right le_rfl, Nat.sub_self] at hia
        simp only [List.getElem?_cons_zero, Option.some.injEq] at hia
        subst hia
        rw [List.take_left]
        -- the repeated step is half as long
        have hold := ih.adm h.length r (by simp) hk
        rw [List.take_left] at hold
        have hacc := (discards_only hd).2.2
        have hrdt := run_dt hr hacc rfl
        have hrpos : 0 < r.dt := hrdt ▸ hdt
        obtain ⟨p1, p2, p3, -, p5⟩ := prepare_dt hc.lmm hlin hdt hacc
        obtain ⟨h1, r1, e, hp⟩ := prepare_discards hc (run_inv hc hlin h0 hr) hd
        obtain ⟨rfl, e⟩ := List.append_inj' e rfl
        obtain rfl : r = r1 := by simpa using e
        have hdo : s.dtOld.isSome = true := by
          rcases (run_inv hc hlin h0 hr).cases with ⟨h1, -⟩ | ⟨-, _, _, -, -, hd⟩ | ⟨h1, -⟩
          · simp at h1
          · rw [hd]; rfl
          · rw [hacc] at h1; cases h1
        have hcfl : 0 < (prepare env c s).1.cfl := by
          rw [p3]; exact mul_pos hdt (hset.speed _ _)
        have hnone : (sharpGetDt c ts none (prepare env c s).1).dt = 1 / 2 * r.dt := by
          unfold sharpGetDt
          simp only
          rw [if_pos ⟨hset.variable_dt, by rw [p2]; exact hdo⟩, if_pos hcfl]
          unfold sharpDtNew
          have hni : ¬ ((h.length : Int) + 1 < k) := by omega
          simp only [hi, hp.saved.len, hp.steps, if_neg hni, p5 hd, hch, p1, hrdt]
          simp
        have hs' : s'.dt = (sharpGetDt c ts te (prepare env c s).1).dt := (sharpAttempt_cases ha).2.2.2.2.2.2.2.2.1
        unfold Admissible at hold ⊢
        simp only
        rw [feMin_dt k _ h r.t r.q s'.dt r.dt, hs']
        refine (hun.trans ?_).trans hold
        rw [hnone]
        linarith
    · rw [(sharpAttempt_cases ha).2.1] at h; cases h

theorem take3 {α : Type*} {l : List α} {j : Nat} {a b c : α} (ha : l[j]? = some a) (hb : l[j + 1]? = some b)
    (hc : l[j + 2]? = some c) : (l.drop j).take 3 = [a, b, c] := by
  obtain ⟨h1, rfl⟩ := List.getElem?_eq_some_iff.1 ha
  obtain ⟨h2, rfl⟩ := List.getElem?_eq_some_iff.1 hb
  obtain ⟨h3, rfl⟩ := List.getElem?_eq_some_iff.1 hc
  rw [List.drop_eq_getElem_cons h1, List.drop_eq_getElem_cons h2, List.drop_eq_getElem_cons h3]
  rfl

theorem take4 {α : Type*} {l : List α} {j : Nat} {a b c d : α} (ha : l[j]? = some a) (hb : l[j + 1]? = some b)
    (hc : l[j + 2]? = some c) (hd : l[j + 3]? = some d) : (l.drop j).take 4 = [a, b, c, d] := by
  obtain ⟨h1, rfl⟩ := List.getElem?_eq_some_iff.1 ha
  obtain ⟨h2, rfl⟩ := List.getElem?_eq_some_iff.1 hb
  obtain ⟨h3, rfl⟩ := List.getElem?_eq_some_iff.1 hc
  obtain ⟨h4, rfl⟩ := List.getElem?_eq_some_iff.1 hd
  rw [List.drop_eq_getElem_cons h1, List.drop_eq_getElem_cons h2, List.drop_eq_getElem_cons h3,
    List.drop_eq_getElem_cons h4]
  rfl

theorem take5 {α : Type*} {l : List α} {j : Nat} {a b c d e : α} (ha : l[j]? = some a) (hb : l[j + 1]? = some b)
    (hc : l[j + 2]? = some c) (hd : l[j + 3]? = some d) (he : l[j + 4]? = some e) :
    (l.drop j).take 5 = [a, b, c, d, e] := by
  obtain ⟨h1, rfl⟩ := List.getElem?_eq_some_iff.1 ha
  obtain ⟨h2, rfl⟩ := List.getElem?_eq_some_iff.1 hb
  obtain ⟨h3, rfl⟩ := List.getElem?_eq_some_iff.1 hc
  obtain ⟨h4, rfl⟩ := List.getElem?_eq_some_iff.1 hd
  obtain ⟨h5, rfl⟩ := List.getElem?_eq_some_iff.1 he
  rw [List.drop_eq_getElem_cons h1, List.drop_eq_getElem_cons h2, List.drop_eq_getElem_cons h3,
    List.drop_eq_getElem_cons h4, List.drop_eq_getElem_cons h5]
  rfl

theorem min4 (a b c d : K) : min a (min b (min c d)) = d ∨ min a (min b (min c d)) = c ∨
    min a (min b (min c d)) = b ∨ min a (min b (min c d)) = a := by
  rcases min_choice a (min b (min c d)) with h | h <;> rw [h]
  · simp
  · rcases min_choice b (min c d) with h | h <;> rw [h]
    · simp
    · rcases min_choice c d with h | h <;> rw [h] <;> simp

theorem min5 (a b c d e : K) : min a (min b (min c (min d e))) = e ∨ min a (min b (min c (min d e))) = d ∨
    min a (min b (min c (min d e))) = c ∨ min a (min b (min c (min d e))) = b ∨
    min a (min b (min c (min d e))) = a := by
  rcases min_choice a (min b (min c (min d e))) with h | h <;> rw [h]
  · simp
  · rcases min4 b c d e with h | h | h | h <;> rw [h] <;> simp

/-- In a list of steps that pass the check and obey the step-size restriction, the span of the last steps is at most
2.7 times the smallest forward Euler step. -/
theorem span_le {c : SharpCfg K} {fe : K → E → K} {k : Nat} {h : List (StepRec K E)} {x : StepRec K E}
    (hi : c.integ = .ssplmmk3) (hk45 : k = 4 ∨ k = 5) (hfe : ∀ t q, 0 < fe t q) (hpos : ∀ r ∈ h, 0 < r.dt)
    (hpairs : AllPairs k fe (h ++ [x])) (hadm : ∀ i a, h[i]? = some a → k ≤ i + 1 → Admissible c fe k (h.take i) a)
    (hk : k ≤ h.length + 1) : spanAt k h ≤ 27 / 10 * feMin k fe (h ++ [x]) := by
  set l := h ++ [x] with hl
  set rec_ : Nat → StepRec K E := fun i => l.getD i x with hrec
  have hget : ∀ i ≤ h.length, l[i]? = some (rec_ i) := by
    intro i hi
    have : i < l.length := by rw [hl, List.length_append, List.length_singleton]; omega
    simp only [hrec, List.getD_eq_getElem?_getD, List.getElem?_eq_getElem this, Option.getD_some]
  have hgeth : ∀ i < h.length, h[i]? = some (rec_ i) := by
    intro i hi
    rw [← hget i hi.le, hl, List.getElem?_append_left hi]
  have hpair : ∀ i < h.length, PairOk k fe i (rec_ i) (rec_ (i + 1)) := fun i hi =>
    hpairs i _ _ (hget i hi.le) (hget (i + 1) hi)
  have htake : ∀ i ≤ h.length, h.take i = l.take i := by
    intro i hi
    rw [hl, List.take_append_of_le_length hi]
  have hdpos : ∀ i < h.length, 0 < (rec_ i).dt := fun i hi => hpos _ (List.mem_of_getElem? (hgeth i hi))
  have htk : ∀ i < h.length, h.take i ++ [rec_ i] = l.take (i + 1) := by
    intro i hi
    rw [htake i hi.le, List.take_add_one, hget i hi.le]
    rfl
  have hl1 : l.length = h.length + 1 := by simp [hl]
  rcases hk45 with rfl | rfl
  · -- four steps
    have hsp : ∀ j, j + 3 ≤ h.length → spanAt 4 (l.take (j + 3)) = (rec_ j).dt + (rec_ (j + 1)).dt + (rec_ (j + 2)).dt := by
      intro j hj
      have e : (l.take (j + 3)).length + 1 - 4 = j := by rw [List.length_take]; omega
      unfold spanAt
      rw [e, List.drop_take, Nat.add_sub_cancel_left,
        take3 (hget j (by omega)) (hget (j + 1) (by omega)) (hget (j + 2) (by omega))]
      simp [add_assoc]
    have hfm : ∀ j, j + 3 ≤ h.length → feMin 4 fe (l.take (j + 4)) =
        min (fe (rec_ j).t (rec_ j).q) (min (fe (rec_ (j + 1)).t (rec_ (j + 1)).q)
          (min (fe (rec_ (j + 2)).t (rec_ (j + 2)).q) (fe (rec_ (j + 3)).t (rec_ (j + 3)).q))) := by
      intro j hj
      have e : (l.take (j + 4)).length - 4 = j := by rw [List.length_take]; omega
      unfold feMin
      rw [e, List.drop_take, Nat.add_sub_cancel_left,
        take4 (hget j (by omega)) (hget (j + 1) (by omega)) (hget (j + 2) (by omega)) (hget (j + 3) (by omega))]
      rfl
    have := steps4 (fun i => fe (rec_ i).t (rec_ i).q) (fun i => (rec_ i).dt) (fun i => feMin 4 fe (l.take (i + 1)))
      h.length (fun i _ => hfe _ _)
      (fun i hi => by
        have := hpair i hi
        simp only [PairOk, lmmRhoFE, if_true] at this
        exact ⟨this.1, this.2.1⟩)
      (fun i hi h3 => by
        have := (hpair i hi).2.2 (by omega)
        simpa only [lmmRho, if_true] using this)
      hdpos
      (fun j hj => by
        rw [hfm j hj]
        exact min4 _ _ _ _)
      (fun j hj => by
        rw [hfm j hj]
        exact (min_le_right _ _).trans ((min_le_right _ _).trans (min_le_right _ _)))
      (fun j hj => by
        have := hadm (j + 3) _ (hgeth (j + 3) hj) (by omega)
        unfold Admissible at this
        rw [htk (j + 3) hj, htake (j + 3) hj.le, hsp j hj.le, hi] at this
        exact this)
    have hfin := this.2 (h.length - 3) (by omega)
    have e3 : h.length - 3 + 3 = h.length := by omega
    simp only [e3] at hfin
    rw [← hl1, List.take_length] at hfin
    have := hsp (h.length - 3) (by omega)
    rw [e3, hl, List.take_left] at this
    rw [this]
    exact hfin
  · -- five steps
    have hsp : ∀ j, j + 4 ≤ h.length → spanAt 5 (l.take (j + 4)) =
        (rec_ j).dt + (rec_ (j + 1)).dt + (rec_ (j + 2)).dt + (rec_ (j + 3)).dt := by
      intro j hj
      have e : (l.take (j + 4)).length + 1 - 5 = j := by rw [List.length_take]; omega
      unfold spanAt
      rw [e, List.drop_take, Nat.add_sub_cancel_left,
        take4 (hget j (by omega)) (hget (j + 1) (by omega)) (hget (j + 2) (by omega)) (hget (j + 3) (by omega))]
      simp [add_assoc]
    have hfm : ∀ j, j + 4 ≤ h.length → feMin 5 fe (l.take (j + 5)) =
        min (fe (rec_ j).t (rec_ j).q) (min (fe (rec_ (j + 1)).t (rec_ (j + 1)).q)
          (min (fe (rec_ (j + 2)).t (rec_ (j + 2)).q) (min (fe (rec_ (j + 3)).t (rec_ (j + 3)).q)
            (fe (rec_ (j + 4)).t (rec_ (j + 4)).q)))) := by
      intro j hj
      have e : (l.take (j + 5)).length - 5 = j := by rw [List.length_take]; omega
      unfold feMin
      rw [e, List.drop_take, Nat.add_sub_cancel_left,
        take5 (hget j (by omega)) (hget (j + 1) (by omega)) (hget (j + 2) (by omega)) (hget (j + 3) (by omega))
          (hget (j + 4) (by omega))]
      rfl
    have := steps5 (fun i => fe (rec_ i).t (rec_ i).q) (fun i => (rec_ i).dt) (fun i => feMin 5 fe (l.take (i + 1)))
      h.length (fun i _ => hfe _ _)
      (fun i hi => by
        have := hpair i hi
        simp only [PairOk, lmmRhoFE, show ¬ ((5:Nat) = 4) by decide, if_false] at this
        exact ⟨this.1, this.2.1⟩)
      (fun i hi h3 => by
        have := (hpair i hi).2.2 (by omega)
        simpa [lmmRho] using this)
      hdpos
      (fun j hj => by
        rw [hfm j hj]
        exact min5 _ _ _ _ _)
      (fun j hj => by
        rw [hfm j hj]
        exact (min_le_right _ _).trans ((min_le_right _ _).trans ((min_le_right _ _).trans (min_le_right _ _))))
      (fun j hj => by
        have := hadm (j + 4) _ (hgeth (j + 4) hj) (by omega)
        unfold Admissible at this
        rw [htk (j + 4) hj, htake (j + 4) hj.le, hsp j hj.le, hi] at this
        exact this)
    have hfin := this.2 (h.length - 4) (by omega)
    have e3 : h.length - 4 + 4 = h.length := by omega
    simp only [e3] at hfin
    rw [← hl1, List.take_length] at hfin
    have := hsp (h.length - 4) (by omega)
    rw [e3, hl, List.take_left] at this
    rw [this]
    exact hfin

/-- C50 for whole runs of `SSPLMMk3` with `check_lmm_cond`: the same as `C50_run_k2`. -/
theorem C50_run_k3 {env : SharpEnv K E} {c : SharpCfg K} {f : K → E → E} {nu : K → E → K} {k : Nat}
    {s0 : SharpState K E} (hi : c.integ = .ssplmmk3)
    (hch : c.checkCond = true) (hc : LmmConfig c k) (hk45 : k = 4 ∨ k = 5) (hlin : LinearInDt env f nu)
    (hset : SspSetup c nu) {φ : E → K} (hφ : ConvexOn K Set.univ φ)
    (hE : ∀ t q d, 0 ≤ d → d ≤ feSize c nu t q → φ (q + d • f t q) ≤ φ q)
    (h0 : LmmFresh k s0) {h : List (StepRec K E)} {s s' : SharpState K E}
    (hr : LmmRun env c (Unstretched env c) s0 h s)
    (hdt : 0 < s.dt) (hnd : ¬ discards env c s) (hk : k ≤ h.length + 1)
    {m ts : K} {te : Option K} {n : Nat} (hun : Unstretched env c ts te s)
    (ha : sharpAttempt env c m ts te n s = (s', .ok true)) (hdt' : 0 < s'.dt) :
    ∃ old, back (h ++ [⟨s.t, env.before s.t s.q, s'.dt⟩]) (k - 1) = some old ∧
      φ s'.q ≤ max (φ (env.before s.t s.q)) (φ old.q) := by
  have hk2 : 4 ≤ k := by omega
  have hinv := run_k3inv hi hch hc (by omega) hlin hset h0 hr
  have hadm := C50_run_step_size hc (by omega) hlin hset h0 hr hdt hnd hk hun ha
  have hres := C49_multistep_step hc (by rw [hi]; intro _ _ h; cases h) hlin h0 hr hdt hnd hk (fun _ => by omega) ha hdt'.ne'
  have hspan := span_le hi hk45 hset.fe_pos (run_pos hr hdt)
    (current_pair hi hch hc hlin h0 hr hdt hnd hinv s'.dt) hinv.adm hk
  rw [hi] at hres
  obtain ⟨old, hold, hq⟩ := hres
  refine ⟨old, hold, ?_⟩
  simp only [Admissible, hi, Integrator.order] at hadm
  rw [hq]
  have hspos := span_pos (by omega) hk (run_pos hr hdt)
  have hmpos := feMin_pos (k := k) (l := h ++ [⟨s.t, env.before s.t s.q, s'.dt⟩]) (by omega) (by simp) hset.fe_pos
  refine C50_ssp_k3 hφ hspos hmpos hdt' hadm ?_ _ _ _ _ ?_ ?_
  · nlinarith
  · intro d hd0 hd
    refine hE _ _ d hd0 (hd.trans ?_)
    exact feMin_le (k := k) (fe := feSize c nu) (j := 0) (r := ⟨s.t, env.before s.t s.q, s'.dt⟩) (by omega)
      (back_append_zero _ _)
  · intro d hd0 hd
    exact hE _ _ d hd0 (hd.trans (feMin_le (by omega) hold))


/-- The hypotheses of `C50_run_k2` and `C50_run_k3` are met by runs on `q' = -q`, with `φ = |·|`. -/
theorem abs_convex : ConvexOn ℚ Set.univ (fun q : ℚ => |q|) := by
  refine ⟨convex_univ, fun x _ y _ a b ha hb _ => ?_⟩
  simp only [smul_eq_mul]
  calc |a * x + b * y| ≤ |a * x| + |b * y| := abs_add_le _ _
    _ = a * |x| + b * |y| := by rw [abs_mul, abs_mul, abs_of_nonneg ha, abs_of_nonneg hb]

theorem run_euler (m : ℚ) (hm : m ≤ 1) : ∀ q d : ℚ, 0 ≤ d → d ≤ m → |q + d • (-q)| ≤ |q| := by
  intro q d h0 h1
  have : q + d • (-q) = (1 - d) * q := by rw [smul_eq_mul]; ring
  rw [this, abs_mul, abs_of_nonneg (by linarith)]
  exact mul_le_of_le_one_left (abs_nonneg _) (by linarith)

example : runCfg.integ = .ssplmmk2 ∧ SspSetup runCfg (fun _ _ : ℚ => 1) ∧
    (∀ t q d : ℚ, 0 ≤ d → d ≤ feSize runCfg (fun _ _ => 1) t q → |q + d • (-q)| ≤ |q|) ∧
    ∃ h, h.length = 3 ∧ LmmRun runEnv runCfg (fun _ _ _ => True) runStart h run4 ∧
      Unstretched runEnv runCfg 0 (some 10) run4 ∧
      ∃ s', sharpAttempt runEnv runCfg (1 / 10) 0 (some 10) 4 run4 = (s', .ok true) ∧ 0 < s'.dt := by
  refine ⟨rfl, ⟨rfl, rfl, by norm_num [runCfg], by norm_num [runCfg], fun _ _ => by norm_num⟩,
    fun t q d h0 h1 => run_euler (1 / 2) (by norm_num) q d h0 (h1.trans (by norm_num [feSize, runCfg])), ?_⟩
  have r1 : LmmRun runEnv runCfg (fun _ _ _ => True) runStart [] run1 :=
    .rejected (m := 6 / 10) (ts := 0) (te := some 10) (n := 0) .start (by decide +kernel) trivial
      (not_discards_run _) (eq_of_returned (by decide +kernel))
  have r2 := LmmRun.accepted (s' := run2) (m := 1 / 10) (ts := 0) (te := some 10) (n := 1) r1 (by decide +kernel) trivial
      (not_discards_run _) (eq_of_returned (by decide +kernel))
  have r3 := LmmRun.accepted (s' := run3) (m := 1 / 10) (ts := 0) (te := some 10) (n := 2) r2 (by decide +kernel) trivial
      (not_discards_run _) (eq_of_returned (by decide +kernel))
  have r4 := LmmRun.accepted (s' := run4) (m := 1 / 10) (ts := 0) (te := some 10) (n := 3) r3 (by decide +kernel) trivial
      (not_discards_run _) (eq_of_returned (by decide +kernel))
  exact ⟨_, rfl, r4, by unfold Unstretched; decide +kernel, _, eq_of_returned (by decide +kernel), by decide +kernel⟩

def k3Cfg : SharpCfg ℚ where
  integ := .ssplmmk3
  dtVariable := true
  dtMax := 100
  cflMax := 1 / 6
  cflDesired := 16 / 100
  lmmSteps := 4
  sspcoeff := 1 / 3
  checkCond := true

def k3Start : SharpState ℚ ℚ := { badStart with dt := 1 / 10 }
def k3s1 := (sharpAttempt runEnv k3Cfg (1 / 10) 0 (some 10) 0 k3Start).1
def k3s2 := (sharpAttempt runEnv k3Cfg (1 / 10) 0 (some (3 / 10)) 1 k3s1).1
def k3s3 := (sharpAttempt runEnv k3Cfg (1 / 10) 0 (some (1 / 2)) 2 k3s2).1

example : k3Cfg.integ = .ssplmmk3 ∧ LmmConfig k3Cfg 4 ∧ LmmFresh 4 k3Start ∧ SspSetup k3Cfg (fun _ _ : ℚ => 1) ∧
    (∀ t q d : ℚ, 0 ≤ d → d ≤ feSize k3Cfg (fun _ _ => 1) t q → |q + d • (-q)| ≤ |q|) ∧
    ∃ h, h.length = 3 ∧ LmmRun runEnv k3Cfg (Unstretched runEnv k3Cfg) k3Start h k3s3 ∧
      Unstretched runEnv k3Cfg 0 (some 10) k3s3 ∧ ¬ discards runEnv k3Cfg k3s3 ∧
      ∃ s', sharpAttempt runEnv k3Cfg (1 / 10) 0 (some 10) 3 k3s3 = (s', .ok true) ∧ 0 < s'.dt := by
  refine ⟨rfl, ⟨rfl, by decide, fun _ => rfl, fun _ _ h => by cases h⟩, ⟨rfl, rfl, rfl, rfl, rfl, rfl⟩,
    ⟨rfl, rfl, by norm_num [k3Cfg], by norm_num [k3Cfg], fun _ _ => by norm_num⟩,
    fun t q d h0 h1 => run_euler (1 / 2) (by norm_num) q d h0 (h1.trans (by norm_num [feSize, k3Cfg])), ?_⟩
  have r1 : LmmRun runEnv k3Cfg (Unstretched runEnv k3Cfg) k3Start _ k3s1 :=
    .accepted (m := 1 / 10) (ts := 0) (te := some 10) (n := 0) .start (by decide +kernel)
      (by unfold Unstretched; decide +kernel) (by unfold discards; decide +kernel) (eq_of_returned (by decide +kernel))
  have r2 := LmmRun.accepted (s' := k3s2) (m := 1 / 10) (ts := 0) (te := some (3 / 10)) (n := 1) r1 (by decide +kernel)
      (by unfold Unstretched; decide +kernel) (by unfold discards; decide +kernel) (eq_of_returned (by decide +kernel))
  have r3 := LmmRun.accepted (s' := k3s3) (m := 1 / 10) (ts := 0) (te := some (1 / 2)) (n := 2) r2 (by decide +kernel)
      (by unfold Unstretched; decide +kernel) (by unfold discards; decide +kernel) (eq_of_returned (by decide +kernel))
  exact ⟨_, rfl, r3, by unfold Unstretched; decide +kernel, by unfold discards; decide +kernel, _,
    eq_of_returned (by decide +kernel), by decide +kernel⟩

end PyClaw
