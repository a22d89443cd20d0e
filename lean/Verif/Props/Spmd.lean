import Verif.Lemmas.Spmd
import Verif.Props.ParallelSplit
import Mathlib.Data.Rat.Floor
import Mathlib.Tactic.NormNum

/-!
C99: a parallel run ends in every order in which the processes act, and always with the result of the serial run.
-/
set_option linter.unusedSectionVars false

namespace PyClaw
open Spec

theorem lock_congr {I S C X R : Type*} {p : Spmd I S C X R} {V : I → Prop} {r : I → R}
    {a a' : I → R ⊕ (C × X × (X → S))} {M : Nat} (h : Lock p V r a M) (he : ∀ i, V i → a' i = a i) : Lock p V r a' M := by
  cases h with
  | done _ h => exact .done a' fun i hi => (he i hi).trans (h i hi)
  | round _ c x k M h l => exact .round a' c x k M (fun i hi => (he i hi).trans (h i hi)) l

theorem lock_results {I S C X R : Type*} {p : Spmd I S C X R} {V : I → Prop} {r r' : I → R}
    {a : I → R ⊕ (C × X × (X → S))} {M : Nat} (h : Lock p V r a M) (he : ∀ i, V i → r i = r' i) : Lock p V r' a M := by
  induction h with
  | done a h => exact .done a fun i hi => by rw [h i hi, he i hi]
  | round a c x k M h l ih => exact .round a c x k M h ih

variable {ι K : Type*} [DecidableEq ι] [Field K] [LinearOrder K]

theorem max_vecMax (l : List K) : max 0 (vecMax l) = l.foldr (fun x m => max x m) 0 := by
  induction l with
  | nil => simp [vecMax]
  | cons x l ih =>
    cases l with
    | nil => simp [vecMax, max_comm]
    | cons y l =>
      simp only [vecMax, List.foldr_cons]
      simp only [List.foldr_cons] at ih
      rw [← ih, ← max_assoc, max_comm 0 x, max_assoc]

theorem reduce_fold (r : Proc ι → Ret (HypData ι K) K) (cP : Proc ι → K) (Ps : List (Proc ι)) (h : ∀ P ∈ Ps, (r P).2 = .ok (cP P)) :
    reduceCfl r Ps = .ok ((Ps.map cP).foldr (fun x m => max x m) 0) := by
  induction Ps with
  | nil => rfl
  | cons P Ps ih =>
    simp only [reduceCfl, h P (by simp), ih fun Q hQ => h Q (by simp [hQ]), List.map_cons, List.foldr_cons]

/-- Without an exception the process goes on to the reduction. -/
theorem hypEnd_ok (c : ParCfg ι K) (rnd : K → K) (D : Decomp ι) (tend : Option K) (P : Proc ι) (v : IterVars ι K)
    (d : Proc ι → HypData ι K) (hd : d P = v.d) (cfl : K) (h : (hypLocal c D v.dt d P).2 = .ok cfl) :
    hypEnd c rnd D tend P v
        { q := exchange D c.bc.g (fun P => (d P).q) P
          aux := if 0 < c.bc.numAux then exchange D c.bc.g (fun P => (d P).aux) P else v.d.work.aux } =
      .inr (.reduceMax, .num cfl, fun m => .reduced v (hypLocal c D v.dt d P).1 (max 0 m.getNum)) := by
  unfold hypLocal at h ⊢
  unfold hypEnd
  rw [hd] at h ⊢
  dsimp only at h ⊢
  generalize applyDims (localCfg c.bc D P) c.axes
        { q := exchange D c.bc.g (fun P => (d P).q) P
          aux := if 0 < c.bc.numAux then exchange D c.bc.g (fun P => (d P).aux) P else v.d.work.aux } = A at h ⊢
  obtain ⟨w, E⟩ := A
  cases E with
  | error e => exact absurd h (by simp)
  | ok u =>
    dsimp only at h ⊢
    cases hk : c.kern v.dt (D.size P) w with
    | none => rw [hk] at h; exact absurd h (by simp)
    | some y =>
      rw [hk] at h
      obtain ⟨r, z⟩ := y
      simp only [Except.ok.injEq] at h
      subst h
      rfl

theorem parNumeric_ok (c : ParCfg ι K) (D : Decomp ι) (cm t dt : Proc ι → K) (d : Proc ι → HypData ι K) (g : K)
    (h : reduceCfl (fun P => hypLocal c D (dt P) (parSource c D (c.sourceSplit == 2) t (fun P => dt P / 2) d) P) (D.procs c.axes) = .ok g) :
    parNumeric c D cm t dt d = (fun P => if cm P ≤ g then
        (hypLocal c D (dt P) (parSource c D (c.sourceSplit == 2) t (fun P => dt P / 2) d) P).1 else
      parSource c D (c.sourceSplit == 1) t dt (parSource c D (c.sourceSplit == 2) t (fun P => dt P / 2)
        fun P => (hypLocal c D (dt P) (parSource c D (c.sourceSplit == 2) t (fun P => dt P / 2) d) P).1) P, .ok g) := by
  unfold parNumeric
  dsimp only
  rw [h]

/-- The data with which the homogeneous step of an iteration begins. -/
def stepData (c : ParCfg ι K) (rnd : K → K) (D : Decomp ι) (tP : Proc ι → K) (tend : Option K) (s : ParState ι K) :
    Proc ι → HypData ι K :=
  parSource c D (c.sourceSplit == 2) (fun P => (s P).sol.t)
    (fun P => (getDt rnd (s P).sol.t (tP P) tend (s P).set (s P).status).1.dt / 2)
    fun P => ⟨cellwise (c.beforeQ (s P).sol.t) (D.lo P) (s P).sol.q (s P).sol.rest.1,
      cellwise (c.beforeAux (s P).sol.t) (D.lo P) (s P).sol.q (s P).sol.rest.1, (s P).sol.rest.2⟩

/-- The variables of an iteration on all processes. -/
def stepVars (c : ParCfg ι K) (rnd : K → K) (D : Decomp ι) (tP : Proc ι → K) (tend : Option K) (fuel n : Nat) (k : Proc ι → Nat)
    (s : ParState ι K) (P : Proc ι) : IterVars ι K :=
  ⟨tP P, fuel, n, k P, s P, (getDt rnd (s P).sol.t (tP P) tend (s P).set (s P).status).1.dt, stepData c rnd D tP tend s P⟩

theorem act_gotQ [FloorRing K] (c : ParCfg ι K) (rnd : K → K) (D : Decomp ι) (tend : Option K) (P : Proc ι) (v : IterVars ι K)
    (q : GArr ι K) (h : 0 < c.bc.numAux) : procAct c rnd D tend P (.gotQ v q) =
      .inr (.exchangeAux, .arr v.d.aux, fun m => .gotAux v q m.getArr) := by
  simp only [procAct, if_pos h]

/-- If no process raises in the homogeneous step, an iteration consists of two or three calls of all processes. -/
theorem iteration_lock [FloorRing K] {c : ParCfg ι K} {D : Decomp ι} (rnd : K → K) (tend : Option K) (hmem : ∀ P, P ∈ D.procs c.axes ↔ ValidProc D P)
    (tP : Proc ι → K) (fuel n : Nat) (k : Proc ι → Nat) (s : ParState ι K) (r : Proc ι → ProcEnd ι K) (cP : Proc ι → K)
    (hc : ∀ P, ValidProc D P →
      (hypLocal c D (getDt rnd (s P).sol.t (tP P) tend (s P).set (s P).status).1.dt (stepData c rnd D tP tend s) P).2 = .ok (cP P))
    (M : Nat) (hl : Lock (parProgram c rnd D tend) (ValidProc D) r (fun P =>
      match afterAttempt tend (k P) (parAttempt c rnd D tP tend n s P) with
      | .inl x => .inl (evolvePostlude tend x)
      | .inr (s', k') => loopHead c rnd D tend P (tP P) fuel (n + 1) k' s') M) :
    ∃ M, Lock (parProgram c rnd D tend) (ValidProc D) r (fun P => loopHead c rnd D tend P (tP P) (fuel + 1) n (k P) (s P)) M := by
  set v := stepVars c rnd D tP tend fuel n k s with hv
  set d1 := stepData c rnd D tP tend s with hd1
  -- the reduction
  have hred : Lock (parProgram c rnd D tend) (ValidProc D) r (fun P => hypEnd c rnd D tend P (v P)
        { q := exchange D c.bc.g (fun P => (d1 P).q) P
          aux := if 0 < c.bc.numAux then exchange D c.bc.g (fun P => (d1 P).aux) P else (v P).d.work.aux }) (M + 1) := by
    refine .round _ .reduceMax (fun P => .num (cP P)) (fun P m => .reduced (v P) (hypLocal c D (v P).dt d1 P).1 (max 0 m.getNum)) M ?_ ?_
    · intro P hP
      exact hypEnd_ok c rnd D tend P (v P) d1 rfl (cP P) (hc P hP)
    · refine lock_congr hl fun P hP => ?_
      have hg : reduceCfl (fun P => hypLocal c D (v P).dt d1 P) (D.procs c.axes) =
          .ok (max 0 (vecMax ((D.procs c.axes).map cP))) := by
        rw [max_vecMax]
        exact reduce_fold _ cP _ fun P hP => hc P ((hmem P).mp hP)
      have hnum : parNumeric c D (fun P => (s P).set.cflMax) (fun P => (s P).sol.t)
          (fun P => (getDt rnd (s P).sol.t (tP P) tend (s P).set (s P).status).1.dt)
          (fun P => ⟨cellwise (c.beforeQ (s P).sol.t) (D.lo P) (s P).sol.q (s P).sol.rest.1,
            cellwise (c.beforeAux (s P).sol.t) (D.lo P) (s P).sol.q (s P).sol.rest.1, (s P).sol.rest.2⟩) =
          (fun P => if (s P).set.cflMax ≤ max 0 (vecMax ((D.procs c.axes).map cP)) then (hypLocal c D (v P).dt d1 P).1 else
            parSource c D (c.sourceSplit == 1) (fun P => (s P).sol.t) (fun P => (v P).dt)
              (parSource c D (c.sourceSplit == 2) (fun P => (s P).sol.t) (fun P => (v P).dt / 2)
                fun P => (hypLocal c D (v P).dt d1 P).1) P,
            .ok (max 0 (vecMax ((D.procs c.axes).map cP)))) := by
        exact parNumeric_ok c D _ _ _ _ _ hg
      have hpa : parAttempt c rnd D tP tend n s P = attempt (partEnv c rnd (D.lo P) fun _ _ _ =>
          (if (s P).set.cflMax ≤ max 0 (vecMax ((D.procs c.axes).map cP)) then (hypLocal c D (v P).dt d1 P).1 else
            parSource c D (c.sourceSplit == 1) (fun P => (s P).sol.t) (fun P => (v P).dt)
              (parSource c D (c.sourceSplit == 2) (fun P => (s P).sol.t) (fun P => (v P).dt / 2)
                fun P => (hypLocal c D (v P).dt d1 P).1) P,
            .ok (max 0 (vecMax ((D.procs c.axes).map cP))))) (tP P) tend n (s P) := by
        have h0 : parAttempt c rnd D tP tend n s P = attempt (partEnv c rnd (D.lo P) fun _ _ _ =>
          ((parNumeric c D (fun P => (s P).set.cflMax) (fun P => (s P).sol.t)
          (fun P => (getDt rnd (s P).sol.t (tP P) tend (s P).set (s P).status).1.dt)
          (fun P => ⟨cellwise (c.beforeQ (s P).sol.t) (D.lo P) (s P).sol.q (s P).sol.rest.1,
            cellwise (c.beforeAux (s P).sol.t) (D.lo P) (s P).sol.q (s P).sol.rest.1, (s P).sol.rest.2⟩)).1 P,
           (parNumeric c D (fun P => (s P).set.cflMax) (fun P => (s P).sol.t)
          (fun P => (getDt rnd (s P).sol.t (tP P) tend (s P).set (s P).status).1.dt)
          (fun P => ⟨cellwise (c.beforeQ (s P).sol.t) (D.lo P) (s P).sol.q (s P).sol.rest.1,
            cellwise (c.beforeAux (s P).sol.t) (D.lo P) (s P).sol.q (s P).sol.rest.1, (s P).sol.rest.2⟩)).2)) (tP P) tend n (s P) := rfl
        rw [h0, hnum]
      rw [hpa]
      rfl
  by_cases haux : 0 < c.bc.numAux
  · simp only [if_pos haux] at hred
    have h2 : Lock (parProgram c rnd D tend) (ValidProc D) r
        (fun P => procAct c rnd D tend P (.gotQ (v P) (exchange D c.bc.g (fun P => (d1 P).q) P))) (M + 1 + 1) := by
      refine .round _ .exchangeAux (fun P => .arr (d1 P).aux)
        (fun P m => .gotAux (v P) (exchange D c.bc.g (fun P => (d1 P).q) P) m.getArr) (M + 1) ?_ ?_
      · exact fun P hP => act_gotQ c rnd D tend P (v P) _ haux
      · exact hred
    refine ⟨M + 1 + 1 + 1, .round _ .exchangeQ (fun P => .arr (d1 P).q) (fun P m => .gotQ (v P) m.getArr) _ (fun P hP => rfl) ?_⟩
    exact h2
  · refine ⟨_, .round _ .exchangeQ (fun P => .arr (d1 P).q) (fun P m => .gotQ (v P) m.getArr) (M + 1) (fun P hP => rfl) ?_⟩
    simp only [if_neg haux] at hred
    exact lock_congr hred fun P hP => if_neg haux

/-- The time loop. -/
theorem loop_lock [FloorRing K] {c : ParCfg ι K} {D : Decomp ι} (ok : RunOk c D) (rnd : K → K) (cm tS : K)
    (tP : Proc ι → K) (htP : ∀ P, ValidProc D P → tP P = tS) (tend : Option K) (fuel : Nat) :
    ∀ (n kS : Nat) (k : Proc ι → Nat) (_ : ∀ P, ValidProc D P → k P = kS)
      (S : StepState K (GArr ι K) (GArr ι K × BCArrays ι K)) (_ : S.set.cflMax = cm) (s : ParState ι K) (_ : Together D S s)
      (x : Proc ι → Ret (StepState K (GArr ι K) (GArr ι K × BCArrays ι K)) Nat) (_ : parLoop c rnd D tP tend fuel n k s = some x)
      (_ : (evolveLoop (serialEnv c rnd cm) tS tend fuel n kS S).2 ≠ .error stopErr),
      ∃ M, Lock (parProgram c rnd D tend) (ValidProc D) (fun P => evolvePostlude tend (x P))
        (fun P => loopHead c rnd D tend P (tP P) fuel n (k P) (s P)) M := by
  have hmem := fun P => mem_procs_valid D c.axes ok.nodup ok.all P
  obtain ⟨P0, hP0⟩ := valid_exists ok.good fun a => (ok.bc.cells a).1
  induction fuel with
  | zero =>
    intro n kS k hk S _ s hT x hx _
    simp only [parLoop, Option.some.injEq] at hx
    subst hx
    exact ⟨0, .done _ fun P hP => rfl⟩
  | succ fuel ih =>
    intro n kS k hk S hcm s hT x hx hns
    obtain ⟨hres, hT'⟩ := attempt_agrees ok rnd cm tS tP htP tend n S hcm s hT
    have hcm' := attempt_cflMax (serialEnv c rnd cm) tS tend n S
    have hdt : ∀ P, ValidProc D P → (getDt rnd (s P).sol.t (tP P) tend (s P).set (s P).status).1.dt =
        (getDt rnd S.sol.t tS tend S.set S.status).1.dt := fun P hP => by
      rw [hT.t P hP, hT.set P hP, hT.status P hP, htP P hP]
    -- nothing raises in the homogeneous step
    obtain ⟨cP, hc⟩ : ∃ cP : Proc ι → K, ∀ P, ValidProc D P →
        (hypLocal c D (getDt rnd (s P).sol.t (tP P) tend (s P).set (s P).status).1.dt (stepData c rnd D tP tend s) P).2 = .ok (cP P) := by
      obtain ⟨S1, e1, p1⟩ := source_agrees (c := c) (D := D) (c.sourceSplit == 2) S.sol.t
        ((getDt rnd S.sol.t tS tend S.set S.status).1.dt / 2) (fun P => (s P).sol.t)
        (fun P => (getDt rnd (s P).sol.t (tP P) tend (s P).set (s P).status).1.dt / 2) hT.t (fun P hP => by rw [hdt P hP])
        ⟨cellwise (c.beforeQ S.sol.t) (fun _ => 0) S.sol.q S.sol.rest.1,
            cellwise (c.beforeAux S.sol.t) (fun _ => 0) S.sol.q S.sol.rest.1, S.sol.rest.2⟩
        (fun P => ⟨cellwise (c.beforeQ (s P).sol.t) (D.lo P) (s P).sol.q (s P).sol.rest.1,
            cellwise (c.beforeAux (s P).sol.t) (D.lo P) (s P).sol.q (s P).sol.rest.1, (s P).sol.rest.2⟩)
        (by
          intro P hP
          dsimp only
          rw [hT.t P hP]
          exact ⟨cellwise_part (hT.q P hP) (hT.aux P hP) _, cellwise_part (hT.q P hP) (hT.aux P hP) _⟩)
      rcases hyp_agrees ok (getDt rnd S.sol.t tS tend S.set S.status).1.dt
          (fun P => (getDt rnd (s P).sol.t (tP P) tend (s P).set (s P).status).1.dt) hdt S1 _ p1 with
        ⟨S2, cfl, cP, h1, h2, h3, h4⟩ | ⟨h1, _⟩
      · exact ⟨cP, h2⟩
      · exfalso
        apply hns
        have e1' : (serialPlug c).runSource ((serialPlug c).sourceSplit == 2) S.sol.t
          ((getDt rnd S.sol.t tS tend S.set S.status).1.dt / 2) ⟨cellwise (c.beforeQ S.sol.t) (fun _ => 0) S.sol.q S.sol.rest.1,
            cellwise (c.beforeAux S.sol.t) (fun _ => 0) S.sol.q S.sol.rest.1, S.sol.rest.2⟩ = (S1, .ok ()) := e1
        have hhyp : (serialPlug c).hyperbolic S.sol.t (getDt rnd S.sol.t tS tend S.set S.status).1.dt S1 = (S1, .error stopErr) := h1
        have hcn : classicNumeric (serialPlug c) cm S.sol.t (getDt rnd S.sol.t tS tend S.set S.status).1.dt
          ⟨cellwise (c.beforeQ S.sol.t) (fun _ => 0) S.sol.q S.sol.rest.1,
            cellwise (c.beforeAux S.sol.t) (fun _ => 0) S.sol.q S.sol.rest.1, S.sol.rest.2⟩ = (S1, .error stopErr) := by
          unfold classicNumeric
          simp only [e1', hhyp]
        have hat : (attempt (serialEnv c rnd cm) tS tend n S).2 = .error stopErr := by
          rw [attempt_serial, hcn]
          rfl
        unfold evolveLoop
        generalize attempt (serialEnv c rnd cm) tS tend n S = A at hat
        obtain ⟨A1, A2⟩ := A
        simp only at hat
        subst hat
        rfl
    suffices h : ∃ M, Lock (parProgram c rnd D tend) (ValidProc D) (fun P => evolvePostlude tend (x P)) (fun P =>
        match afterAttempt tend (k P) (parAttempt c rnd D tP tend n s P) with
        | .inl x => .inl (evolvePostlude tend x)
        | .inr (s', k') => loopHead c rnd D tend P (tP P) fuel (n + 1) k' s') M by
      obtain ⟨M, hM⟩ := h
      exact iteration_lock rnd tend hmem tP fuel n k s _ cP hc M hM
    unfold parLoop at hx
    dsimp only at hx
    split_ifs at hx with hL hR
    · rw [Option.some.injEq] at hx
      subst hx
      rw [List.all_eq_true] at hL
      refine ⟨0, .done _ fun P hP => ?_⟩
      have := hL P ((hmem P).mpr hP)
      dsimp only
      generalize afterAttempt tend (k P) (parAttempt c rnd D tP tend n s P) = A at this ⊢
      cases A with
      | inl y => rfl
      | inr y => exact absurd this (by simp)
    · rw [List.all_eq_true] at hR
      -- what the serial run does
      obtain ⟨te, acc, rfl, hA2, hte⟩ : ∃ te acc, tend = some te ∧ (attempt (serialEnv c rnd cm) tS tend n S).2 = .ok acc ∧
          ¬ te ≤ (attempt (serialEnv c rnd cm) tS tend n S).1.sol.t := by
        have h0 := hR P0 ((hmem P0).mpr hP0)
        have h1 := hres P0 hP0
        have h2 : (parAttempt c rnd D tP tend n s P0).1.sol.t = _ := hT'.t P0 hP0
        generalize parAttempt c rnd D tP tend n s P0 = B at h0 h1 h2
        obtain ⟨b, Eb⟩ := B
        cases Eb with
        | error e => exact absurd h0 (by simp [afterAttempt])
        | ok acc =>
          cases tend with
          | none => exact absurd h0 (by simp [afterAttempt])
          | some te =>
            refine ⟨te, acc, rfl, h1.symm, ?_⟩
            intro hle
            rw [← h2] at hle
            exact absurd h0 (by simp only [afterAttempt, if_pos hle]; simp)
      have hr : ∀ P, ValidProc D P → afterAttempt (some te) (k P) (parAttempt c rnd D tP (some te) n s P) =
          .inr ((parAttempt c rnd D tP (some te) n s P).1, if acc then kS + 1 else kS) := by
        intro P hP
        have h2 := hres P hP
        have h3 : (parAttempt c rnd D tP (some te) n s P).1.sol.t = _ := hT'.t P hP
        rw [hA2] at h2
        generalize parAttempt c rnd D tP (some te) n s P = B at h2 h3
        obtain ⟨b, Eb⟩ := B
        simp only at h2 h3
        subst h2
        unfold afterAttempt
        simp only [h3, hte, if_false, hk P hP]
      obtain ⟨M, hM⟩ := ih (n + 1) (if acc then kS + 1 else kS) _ (fun P hP => by simp only [hr P hP])
        (attempt (serialEnv c rnd cm) tS (some te) n S).1 (hcm'.trans hcm) _ (by
          refine ⟨fun P hP => ?_, fun P hP => ?_, fun P hP => ?_, fun P hP => ?_, fun P hP => ?_, fun P hP => ?_⟩ <;>
            simp only [hr P hP]
          · exact hT'.set P hP
          · exact hT'.status P hP
          · exact hT'.t P hP
          · exact hT'.log P hP
          · exact hT'.q P hP
          · exact hT'.aux P hP) x hx (by
          intro he
          apply hns
          rw [← he]
          conv_lhs => unfold evolveLoop
          generalize attempt (serialEnv c rnd cm) tS (some te) n S = A at hA2 hte
          obtain ⟨A1, A2⟩ := A
          simp only at hA2 hte
          subst hA2
          simp only [if_neg hte])
      refine ⟨M, lock_congr hM fun P hP => ?_⟩
      simp only [hr P hP]

/-- The answers depend on what the processes contribute. -/
theorem answer_local {c : ParCfg ι K} {D : Decomp ι} (ok : RunOk c D) (k : ParCall) (x x' : Proc ι → ParMsg ι K) (P : Proc ι)
    (h : ∀ Q, ValidProc D Q → x Q = x' Q) : parAnswer c D k x P = parAnswer c D k x' P := by
  have hmem := fun P => mem_procs_valid D c.axes ok.nodup ok.all P
  have hex : exchange D c.bc.g (fun Q => (x Q).getArr) P = exchange D c.bc.g (fun Q => (x' Q).getArr) P := by
    funext m idx
    unfold exchange
    dsimp only
    rw [h]
    intro a
    refine (owner_spec (ok.good.parts a) ?_).1
    rw [ok.good.cells]
    exact Nat.mod_lt _ (ok.bc.cells a).1
  cases k with
  | exchangeQ => simp only [parAnswer, hex]
  | exchangeAux => simp only [parAnswer, hex]
  | reduceMax =>
    simp only [parAnswer]
    congr 2
    exact List.map_congr_left fun Q hQ => by rw [h Q ((hmem Q).mp hQ)]

/-- The call of `evolve_to_time`. -/
theorem evolve_lock [FloorRing K] {c : ParCfg ι K} {D : Decomp ι} (ok : RunOk c D) (rnd : K → K) (tend : Option K)
    (S : StepState K (GArr ι K) (GArr ι K × BCArrays ι K)) (s : ParState ι K) (hT : Together D S s)
    (hns : (evolveToTime (serialEnv c rnd S.set.cflMax) tend S).2 ≠ .error stopErr) :
    ∃ M x, Lock (parProgram c rnd D tend) (ValidProc D) x (fun P => procAct c rnd D tend P (.start (s P))) M ∧
      (∀ P, ValidProc D P → (x P).2 = (evolveToTime (serialEnv c rnd S.set.cflMax) tend S).2) ∧
      Together D (evolveToTime (serialEnv c rnd S.set.cflMax) tend S).1 (fun P => (x P).1) := by
  obtain ⟨P0, hP0⟩ := valid_exists ok.good fun a => (ok.bc.cells a).1
  obtain ⟨set, E, hS, hcm, hs⟩ := prelude_set rnd tend S
  have hs' : ∀ P, ValidProc D P → _ := fun P hP => hs (s P) (hT.set P hP) (hT.t P hP)
  have hrnd : (serialEnv c rnd S.set.cflMax).rnd = rnd := rfl
  rw [evolve_pieces, hrnd, hS] at hns ⊢
  cases E with
  | some e =>
    simp only at hs' hns ⊢
    refine ⟨0, fun P => ({ s P with set := set }, .error e), .done _ fun P hP => ?_, fun P hP => rfl,
      ⟨fun P hP => rfl, hT.status, hT.t, hT.log, hT.q, hT.aux⟩⟩
    simp only [procAct, hs' P hP]
  | none =>
    simp only at hs' hns ⊢
    have hT2 : Together D { S with set := set } (fun P => { s P with set := set }) :=
      ⟨fun P hP => rfl, hT.status, hT.t, hT.log, hT.q, hT.aux⟩
    obtain ⟨x, hx, hx2, hxT⟩ := loop_agrees ok P0 hP0 rnd S.set.cflMax S.sol.t (fun P => (s P).sol.t) hT.t tend set.maxSteps.toNat
      0 0 (fun _ => 0) (fun _ _ => rfl) { S with set := set } hcm _ hT2
    have hp : ∀ P, ValidProc D P → _ := fun P hP => post_agrees tend _ _ (hx2 P hP) (hxT.set P hP) (hxT.t P hP)
    obtain ⟨M, hM⟩ := loop_lock ok rnd S.set.cflMax S.sol.t (fun P => (s P).sol.t) hT.t tend set.maxSteps.toNat
      0 0 (fun _ => 0) (fun _ _ => rfl) { S with set := set } hcm _ hT2 x hx (by
        intro he
        apply hns
        generalize evolveLoop (serialEnv c rnd S.set.cflMax) S.sol.t tend set.maxSteps.toNat 0 0 { S with set := set } = A at he
        obtain ⟨A1, A2⟩ := A
        simp only at he
        subst he
        rfl)
    refine ⟨M, _, lock_congr hM fun P hP => ?_, fun P hP => (hp P hP).1, ?_⟩
    · simp only [procAct, hs' P hP]
    · rw [(hp P0 hP0).2.2]
      refine ⟨fun P hP => ?_, fun P hP => ?_, fun P hP => ?_, fun P hP => ?_, fun P hP => ?_, fun P hP => ?_⟩ <;>
        rw [(hp P hP).2.1]
      · exact hxT.set P hP
      · exact hxT.status P hP
      · exact hxT.t P hP
      · exact hxT.log P hP
      · exact hxT.q P hP
      · exact hxT.aux P hP

/-- **C99.** `evolve_to_time` on all processes, each acting on its own, in any order: for every distribution of the cells, supported
boundary conditions, source terms, `before_step`, rounding and starting states, if the kernel can be distributed and does not stop
the program, there is a number of actions `N` that no run exceeds, and when nothing more can happen no process waits: every process
has ended, with the exception (or none) of the serial run and with its part of the serial solution, the serial time, status and
history of steps. Whatever the others still do, a process that has ended has this result. -/
theorem C99_any_order [FloorRing K] [DecidableEq (Proc ι)] {c : ParCfg ι K} {D : Decomp ι} (ok : RunOk c D) (rnd : K → K)
    (tend : Option K) (S : StepState K (GArr ι K) (GArr ι K × BCArrays ι K)) (s : ParState ι K) (hT : Together D S s)
    (hns : (evolveToTime (serialEnv c rnd S.set.cflMax) tend S).2 ≠ .error stopErr) :
    ∃ (N : Nat) (x : Proc ι → ProcEnd ι K),
      (∀ P, ValidProc D P → (x P).2 = (evolveToTime (serialEnv c rnd S.set.cflMax) tend S).2) ∧
      Together D (evolveToTime (serialEnv c rnd S.set.cflMax) tend S).1 (fun P => (x P).1) ∧
      ∀ (n : Nat) (w : SpmdWorld (Proc ι) (ProcPt ι K) ParCall (ParMsg ι K) (ProcEnd ι K)),
        SpmdRuns (parProgram c rnd D tend) (ValidProc D) (spmdStart fun P => .start (s P)) n w →
        n ≤ N ∧ (∀ P, ValidProc D P → ∀ r, w.phase P = .finished r → r = x P) ∧
        (SpmdStuck (parProgram c rnd D tend) (ValidProc D) w → n = N ∧ ∀ P, ValidProc D P → w.phase P = .finished (x P)) := by
  have hmem := fun P => mem_procs_valid D c.axes ok.nodup ok.all P
  obtain ⟨M, x, hl, h1, h2⟩ := evolve_lock ok rnd tend S s hT hns
  have : Nonempty ParCall := ⟨.exchangeQ⟩
  have : Nonempty (ParMsg ι K) := ⟨.num 0⟩
  refine ⟨(D.procs c.axes).toFinset.card * (2 * M + 1), x, h1, h2, fun n w hw => ?_⟩
  exact any_order (parProgram c rnd D tend) (ValidProc D) (D.procs c.axes).toFinset (fun P => by rw [List.mem_toFinset]; exact hmem P)
    (fun k y y' P _ h => answer_local ok k y y' P h) (fun P => .start (s P)) x M hl hw

/-- From wherever the processes are, the run can go on to its end: the state in which all have finished is reached after the same
number of actions. -/
theorem C99_goes_on [FloorRing K] [DecidableEq (Proc ι)] {c : ParCfg ι K} {D : Decomp ι} (ok : RunOk c D) (rnd : K → K)
    (tend : Option K) (S : StepState K (GArr ι K) (GArr ι K × BCArrays ι K)) (s : ParState ι K) (hT : Together D S s)
    (hns : (evolveToTime (serialEnv c rnd S.set.cflMax) tend S).2 ≠ .error stopErr) :
    ∃ N : Nat, ∀ (n : Nat) (w : SpmdWorld (Proc ι) (ProcPt ι K) ParCall (ParMsg ι K) (ProcEnd ι K)),
      SpmdRuns (parProgram c rnd D tend) (ValidProc D) (spmdStart fun P => .start (s P)) n w →
      ∃ w', SpmdRuns (parProgram c rnd D tend) (ValidProc D) w (N - n) w' ∧
        ∀ P, ValidProc D P → ∃ r, w'.phase P = .finished r := by
  obtain ⟨N, x, _, _, h⟩ := C99_any_order ok rnd tend S s hT hns
  refine ⟨N, ?_⟩
  suffices H : ∀ (m n : Nat) (w : SpmdWorld (Proc ι) (ProcPt ι K) ParCall (ParMsg ι K) (ProcEnd ι K)), N - n = m →
      SpmdRuns (parProgram c rnd D tend) (ValidProc D) (spmdStart fun P => .start (s P)) n w →
      ∃ w', SpmdRuns (parProgram c rnd D tend) (ValidProc D) w m w' ∧ ∀ P, ValidProc D P → ∃ r, w'.phase P = .finished r from
    fun n w hw => H _ n w rfl hw
  have hcons : ∀ (p : Spmd (Proc ι) (ProcPt ι K) ParCall (ParMsg ι K) (ProcEnd ι K)) (V : Proc ι → Prop) (a b : SpmdWorld _ _ _ _ _)
      (m : Nat) (w' : SpmdWorld _ _ _ _ _), SpmdStep p V a b → SpmdRuns p V b m w' → SpmdRuns p V a (m + 1) w' := by
    intro p V a b m w' hs hr
    induction hr with
    | start => exact .step .start hs
    | step _ h ih => exact .step ih h
  intro m
  induction m with
  | zero =>
    intro n w hn hw
    refine ⟨w, .start, fun P hP => ?_⟩
    have hst : SpmdStuck (parProgram c rnd D tend) (ValidProc D) w := by
      rintro ⟨w', st⟩
      have := (h _ _ (hw.step st)).1
      omega
    exact ⟨_, ((h _ _ hw).2.2 hst).2 P hP⟩
  | succ m ih =>
    intro n w hn hw
    by_cases hst : SpmdStuck (parProgram c rnd D tend) (ValidProc D) w
    · have := ((h _ _ hw).2.2 hst).1
      omega
    · obtain ⟨w1, st⟩ := not_not.1 hst
      obtain ⟨w', hr, hf⟩ := ih (n + 1) w1 (by omega) (hw.step st)
      exact ⟨w', hcons _ _ _ _ _ _ st hr, hf⟩

/-! ### Kernels that do not stop -/

theorem runSource_ok (c : ParCfg ι K) (b : Bool) (t h : K) (d : HypData ι K) : ((serialPlug c).runSource b t h d).2 = .ok () := by
  unfold ClassicPlug.runSource serialPlug
  cases c.source <;> cases b <;> rfl

theorem numeric_ok {c : ParCfg ι K} (hb : Admissible c.bc) (hk : ∀ dt n w, c.kern dt n w ≠ none) (cm t dt : K) (d : HypData ι K) :
    ∃ x, (classicNumeric (serialPlug c) cm t dt d).2 = .ok x := by
  unfold classicNumeric
  have h1 := runSource_ok c ((serialPlug c).sourceSplit == 2) t (dt / 2) d
  generalize (serialPlug c).runSource ((serialPlug c).sourceSplit == 2) t (dt / 2) d = r1 at h1 ⊢
  obtain ⟨d1, e1⟩ := r1
  dsimp only at h1
  subst h1
  dsimp only
  have hh : ∃ x, ((serialPlug c).hyperbolic t dt d1).2 = .ok x := by
    show ∃ x, (hypSerial c dt d1).2 = .ok x
    unfold hypSerial applyBcs
    rw [applyDims_eq c.bc hb]
    dsimp only
    split
    · next h => exact absurd h (hk _ _ _)
    · next r cfl h => exact ⟨cfl, rfl⟩
  obtain ⟨x, hx⟩ := hh
  generalize (serialPlug c).hyperbolic t dt d1 = r2 at hx ⊢
  obtain ⟨d2, e2⟩ := r2
  dsimp only at hx
  subst hx
  dsimp only
  split
  · exact ⟨_, rfl⟩
  have h3 := runSource_ok c ((serialPlug c).sourceSplit == 2) t (dt / 2) d2
  generalize (serialPlug c).runSource ((serialPlug c).sourceSplit == 2) t (dt / 2) d2 = r3 at h3 ⊢
  obtain ⟨d3, e3⟩ := r3
  dsimp only at h3
  subst h3
  dsimp only
  have h4 := runSource_ok c ((serialPlug c).sourceSplit == 1) t dt d3
  generalize (serialPlug c).runSource ((serialPlug c).sourceSplit == 1) t dt d3 = r4 at h4 ⊢
  obtain ⟨d4, e4⟩ := r4
  dsimp only at h4
  subst h4
  exact ⟨_, rfl⟩

theorem attempt_no_stop {c : ParCfg ι K} (hb : Admissible c.bc) (hk : ∀ dt n w, c.kern dt n w ≠ none) (rnd : K → K) (cm tS : K)
    (tend : Option K) (n : Nat) (S : StepState K (GArr ι K) (GArr ι K × BCArrays ι K)) :
    (attempt (serialEnv c rnd cm) tS tend n S).2 ≠ .error stopErr := by
  unfold attempt
  dsimp only
  obtain ⟨x, hx⟩ : ∃ x, ((serialEnv c rnd cm).numeric S.sol.t
      (getDt (serialEnv c rnd cm).rnd S.sol.t tS tend S.set S.status).1.dt
      ((serialEnv c rnd cm).before S.sol.t (S.sol.q, S.sol.rest))).2 = .ok x := numeric_ok hb hk _ _ _ _
  rw [hx]
  dsimp only
  split
  · split
    · next h => exact absurd h (by simp [serialEnv, partEnv])
    · simp
  · split
    · simp
    · simp [stopErr]

theorem loop_no_stop {c : ParCfg ι K} (hb : Admissible c.bc) (hk : ∀ dt n w, c.kern dt n w ≠ none) (rnd : K → K) (cm tS : K)
    (tend : Option K) (fuel n k : Nat) (S : StepState K (GArr ι K) (GArr ι K × BCArrays ι K)) :
    (evolveLoop (serialEnv c rnd cm) tS tend fuel n k S).2 ≠ .error stopErr := by
  induction fuel generalizing n k S with
  | zero => simp [evolveLoop]
  | succ f ih =>
    have ha := attempt_no_stop hb hk rnd cm tS tend n S
    unfold evolveLoop
    generalize attempt (serialEnv c rnd cm) tS tend n S = A at ha ⊢
    obtain ⟨s', E⟩ := A
    cases E with
    | error e => simpa using ha
    | ok acc =>
      cases tend with
      | none => simp
      | some te =>
        dsimp only
        split
        · simp
        · exact ih _ _ _

/-- A serial run whose kernel never stops does not end with a stop. -/
theorem run_no_stop [FloorRing K] {c : ParCfg ι K} (hb : Admissible c.bc) (hk : ∀ dt n w, c.kern dt n w ≠ none) (rnd : K → K)
    (cm : K) (tend : Option K) (S : StepState K (GArr ι K) (GArr ι K × BCArrays ι K)) :
    (evolveToTime (serialEnv c rnd cm) tend S).2 ≠ .error stopErr := by
  unfold evolveToTime
  dsimp only
  split
  · next e he =>
    intro h
    have h : e = stopErr := by simpa using h
    subst h
    revert he
    split
    · simp
    · unfold fixedSetup
      cases tend with
      | none => simp
      | some te =>
        dsimp only
        split
        · simp [stopErr]
        · split <;> simp [stopErr]
  · next set1 he =>
    split
    · simp [stopErr]
    · split
      · next s' e h =>
        have hl := h ▸ loop_no_stop hb hk rnd cm S.sol.t tend _ 0 0 _
        simpa using hl
      · next s' k h =>
        cases tend with
        | none => simp
        | some te =>
          dsimp only
          split
          · simp [stopErr]
          · simp

/-- Non-vacuity of `C99_any_order`: unsplit 2D runs on six processes, with any Riemann solvers, from any state. -/
example (rpx rpy : Riemann ℚ (Fin 1 → ℚ) 3 2) (rtx rty : Transverse ℚ (Fin 1 → ℚ) 3) (c : Cfg2 ℚ 2) (rnd : ℚ → ℚ) (tend : Option ℚ)
    (S : StepState ℚ (GArr (Fin 2) ℚ) (GArr (Fin 2) ℚ × BCArrays (Fin 2) ℚ)) :
    RunOk (exRun rpx rpy rtx rty c) sixParts ∧ (∃ s, Together sixParts S s) ∧
      (evolveToTime (serialEnv (exRun rpx rpy rtx rty c) rnd S.set.cflMax) tend S).2 ≠ .error stopErr :=
  ⟨exRun_ok rpx rpy rtx rty c, together_exists sixParts S,
    run_no_stop (exRun_ok rpx rpy rtx rty c).bc (fun _ _ _ => Option.some_ne_none _) rnd _ tend S⟩

/-! ### Exceptions that only some processes raise -/

/-- Two processes: after one call the first makes another call, and the second ends. -/
theorem two_hang {I S C X R : Type*} [DecidableEq I] {p : Spmd I S C X R} {V : I → Prop} {i j : I} (hij : i ≠ j)
    (hV : ∀ l, V l ↔ l = i ∨ l = j) (s : I → S) {c c' : C} {y : I → X} {x' : X} {ki kj k' : X → S} {r : R}
    (ai : p.act i (s i) = .inr (c, y i, ki)) (aj : p.act j (s j) = .inr (c, y j, kj))
    (bi : p.act i (ki (p.resp c y i)) = .inr (c', x', k')) (bj : p.act j (kj (p.resp c y j)) = .inl r) :
    ∃ n w, SpmdRuns p V (spmdStart s) n w ∧ SpmdStuck p V w ∧ w.phase j = .finished r ∧ w.phase i = .waiting k' := by
  have hVi : V i := (hV i).2 (Or.inl rfl)
  have hVj : V j := (hV j).2 (Or.inr rfl)
  have hji := hij.symm
  have s1 := SpmdRuns.step (SpmdRuns.start (p := p) (V := V) (w0 := spmdStart s)) (.post _ i (s i) c (y i) ki hVi rfl ai)
  have s2 := s1.step (.post _ j (s j) c (y j) kj hVj (by simp [hji, spmdStart]) aj)
  have s3 := s2.step (.answer _ i ki 0 c y hVi (by simp [hij]) (by simp [hij, spmdStart]) (by
      intro l hl
      rcases (hV l).1 hl with rfl | rfl
      · simp [hij, spmdStart]
      · simp [hji, spmdStart]))
  have s4 := s3.step (.answer _ j kj 0 c y hVj (by simp [hji]) (by simp [hji, spmdStart]) (by
      intro l hl
      rcases (hV l).1 hl with rfl | rfl
      · simp [hij, spmdStart]
      · simp [hji, spmdStart]))
  have s5 := s4.step (.post _ i _ _ _ _ hVi (by simp only [Function.update_of_ne hij, Function.update_self]) bi)
  have s6 := s5.step (.finish _ j _ _ hVj (by simp only [Function.update_of_ne hji, Function.update_self]) bj)
  refine ⟨_, _, s6, ?_, Function.update_self .., by simp only [Function.update_of_ne hij, Function.update_self]⟩
  rintro ⟨w', st⟩
  cases st with
  | finish l s r hi h ha =>
    rcases (hV l).1 hi with rfl | rfl
    · simp [hij] at h
    · simp at h
  | post l s c x k hi h ha =>
    rcases (hV l).1 hi with rfl | rfl
    · simp [hij] at h
    · simp at h
  | answer l k m c x hi h hm hx =>
    rcases (hV l).1 hi with rfl | rfl
    · have hm' : m = 1 := by simpa [hij, spmdStart] using hm.symm
      subst hm'
      have := hx j hVj
      simp [hji, spmdStart] at this
    · simp at h

/-- Four cells on two processes; the condition at the upper end is not one of the known ones. The kernel does nothing. -/
def exHangCfg : ParCfg (Fin 1) ℚ where
  bc := { g := 1, n := fun _ => 4, numEqn := 1, numAux := 0, bcLower := fun _ => .extrap, bcUpper := fun _ => .unknown,
          auxLower := fun _ => .extrap, auxUpper := fun _ => .extrap, reflect := fun _ => 0, onLower := fun _ => true,
          onUpper := fun _ => true }
  axes := [0]
  kern := fun _ _ w => some (w.q, 0)
  sourceSplit := 0
  source := none
  beforeQ := fun _ _ q _ => q
  beforeAux := fun _ _ _ a => a

/-- Two cells each. -/
def exHangDecomp : Decomp (Fin 1) := ⟨fun _ => 4, fun _ => 2, fun _ k => 2 * k⟩

/-- A new solver. -/
def exHangState : StepState ℚ (GArr (Fin 1) ℚ) (GArr (Fin 1) ℚ × BCArrays (Fin 1) ℚ) where
  set := { dtVariable := true, dt := 1, dtOld := none, dtMax := 1, cflMax := 1, cflDesired := 1 / 2, maxSteps := 10, cfl := 0 }
  status := {}
  sol := ⟨0, fun _ _ => 0, fun _ _ => 0, ⟨fun _ _ => 0, fun _ _ => 0⟩⟩
  log := []

theorem hang_start (P : Proc (Fin 1)) : ∃ v : IterVars (Fin 1) ℚ, procAct exHangCfg id exHangDecomp (some 1) P (.start exHangState) =
    .inr (.exchangeQ, .arr v.d.q, fun m => .gotQ v m.getArr) := by
  refine ⟨⟨0, 9, 0, 0, exHangState, 1, ⟨fun _ _ => 0, fun _ _ => 0, ⟨fun _ _ => 0, fun _ _ => 0⟩⟩⟩, ?_⟩
  have hpre : evolvePrelude id (some 1) exHangState = .inr exHangState := by
    unfold evolvePrelude exHangState
    norm_num
  have hdt : (getDt id exHangState.sol.t 0 (some 1) exHangState.set exHangState.status).1.dt = 1 := by
    simp only [getDt, chooseDt, exHangState, clipDt, landEps]
    norm_num
  simp only [procAct, hpre]
  show loopHead exHangCfg id exHangDecomp (some 1) P 0 10 0 0 exHangState = _
  simp only [loopHead, hdt]
  rfl

/-- The first process gets as far as the Courant number. -/
theorem hang_first (v : IterVars (Fin 1) ℚ) (q : GArr (Fin 1) ℚ) : ∃ k, procAct exHangCfg id exHangDecomp (some 1) (fun _ => 0)
    (.gotQ v q) = .inr (.reduceMax, .num 0, k) := by
  have hA : (applyDims (localCfg exHangCfg.bc exHangDecomp fun _ => 0) [0] ⟨q, v.d.work.aux⟩).2 = .ok () := by
    have h1 : Decomp.lo exHangDecomp (fun _ => 0) 0 = 0 := rfl
    have h2 : Decomp.size exHangDecomp (fun _ => 0) 0 = 2 := rfl
    have h3 : exHangDecomp.n 0 = 4 := rfl
    simp [applyDims, andThen, applySide, localCfg, exHangCfg, h1, h2, h3, applyOne, bcLowerArr]
  have hact : procAct exHangCfg id exHangDecomp (some 1) (fun _ => 0) (.gotQ v q) =
      hypEnd exHangCfg id exHangDecomp (some 1) (fun _ => 0) v ⟨q, v.d.work.aux⟩ := by
    unfold procAct
    exact if_neg (Nat.lt_irrefl 0)
  rw [hact]
  unfold hypEnd
  change (applyDims (localCfg exHangCfg.bc exHangDecomp fun _ => 0) exHangCfg.axes ⟨q, v.d.work.aux⟩).2 = .ok () at hA
  generalize applyDims (localCfg exHangCfg.bc exHangDecomp fun _ => 0) exHangCfg.axes ⟨q, v.d.work.aux⟩ = A at hA ⊢
  obtain ⟨w, E⟩ := A
  dsimp only at hA
  subst hA
  exact ⟨_, rfl⟩

/-- The second one raises. -/
theorem hang_second (v : IterVars (Fin 1) ℚ) (q : GArr (Fin 1) ℚ) : ∃ r : ProcEnd (Fin 1) ℚ, r.2 = .error .notImplemented ∧
    procAct exHangCfg id exHangDecomp (some 1) (fun _ => 1) (.gotQ v q) = .inl r := by
  have hA : (applyDims (localCfg exHangCfg.bc exHangDecomp fun _ => 1) [0] ⟨q, v.d.work.aux⟩).2 = .error .notImplemented := by
    have h1 : Decomp.lo exHangDecomp (fun _ => 1) 0 = 2 := rfl
    have h2 : Decomp.size exHangDecomp (fun _ => 1) 0 = 2 := rfl
    have h3 : exHangDecomp.n 0 = 4 := rfl
    simp [applyDims, andThen, applySide, localCfg, exHangCfg, h1, h2, h3, applyOne, bcUpperArr]
  have hact : procAct exHangCfg id exHangDecomp (some 1) (fun _ => 1) (.gotQ v q) =
      hypEnd exHangCfg id exHangDecomp (some 1) (fun _ => 1) v ⟨q, v.d.work.aux⟩ := by
    unfold procAct
    exact if_neg (Nat.lt_irrefl 0)
  rw [hact]
  unfold hypEnd
  change (applyDims (localCfg exHangCfg.bc exHangDecomp fun _ => 1) exHangCfg.axes ⟨q, v.d.work.aux⟩).2 = _ at hA
  generalize applyDims (localCfg exHangCfg.bc exHangDecomp fun _ => 1) exHangCfg.axes ⟨q, v.d.work.aux⟩ = A at hA ⊢
  obtain ⟨w, E⟩ := A
  dsimp only at hA
  subst hA
  refine ⟨_, ?_, rfl⟩
  rfl

/-- **The full property fails.** If an exception is raised on some processes only, here an unknown condition at the upper boundary,
which only the process at that boundary looks at, the run does not end: the other process waits for ever in the reduction of the
Courant numbers. (Both have the same configuration, and the serial run raises `NotImplementedError`.) -/
theorem C99_exception_hangs_violated :
    ∃ n w, SpmdRuns (parProgram exHangCfg id exHangDecomp (some 1)) (ValidProc exHangDecomp) (spmdStart fun _ => .start exHangState) n w ∧
      SpmdStuck (parProgram exHangCfg id exHangDecomp (some 1)) (ValidProc exHangDecomp) w ∧
      (∃ r : ProcEnd (Fin 1) ℚ, w.phase (fun _ => 1) = .finished r ∧ r.2 = .error .notImplemented) ∧
      ∃ k, w.phase (fun _ => 0) = .waiting k := by
  have hV : ∀ P, ValidProc exHangDecomp P ↔ P = (fun _ => 0) ∨ P = fun _ => 1 := by
    intro P
    constructor
    · intro h
      have h0 : P 0 < 2 := h 0
      rcases Nat.lt_or_ge (P 0) 1 with h1 | h1
      · left; funext a; rw [Subsingleton.elim a 0]; omega
      · right; funext a; rw [Subsingleton.elim a 0]; omega
    · rintro (rfl | rfl) a
      · show 0 < 2; omega
      · show 1 < 2; omega
  have hne : (fun _ : Fin 1 => (0 : ℕ)) ≠ fun _ => 1 := fun h => absurd (congrFun h 0) (by decide)
  obtain ⟨v0, h0⟩ := hang_start fun _ => 0
  obtain ⟨v1, h1⟩ := hang_start fun _ => 1
  let y : Proc (Fin 1) → ParMsg (Fin 1) ℚ := fun Q => if Q = (fun _ => 0) then .arr v0.d.q else .arr v1.d.q
  obtain ⟨k0, g0⟩ := hang_first v0 (parAnswer exHangCfg exHangDecomp .exchangeQ y fun _ => 0).getArr
  obtain ⟨r1, hr1, g1⟩ := hang_second v1 (parAnswer exHangCfg exHangDecomp .exchangeQ y fun _ => 1).getArr
  have e0 : y (fun _ => 0) = .arr v0.d.q := if_pos rfl
  have e1 : y (fun _ => 1) = .arr v1.d.q := if_neg hne.symm
  obtain ⟨n, w, hw, hst, hf, hk⟩ := two_hang (p := parProgram exHangCfg id exHangDecomp (some 1)) hne hV
    (fun _ => .start exHangState) (y := y) (c := .exchangeQ)
    (ki := fun m => .gotQ v0 m.getArr) (kj := fun m => .gotQ v1 m.getArr) (by rw [e0]; exact h0) (by rw [e1]; exact h1) g0 g1
  exact ⟨n, w, hw, hst, ⟨r1, hf, hr1⟩, ⟨k0, hk⟩⟩

end PyClaw
