import Verif.Lemmas.Parallel
import Verif.Lemmas.EvolveCall

set_option linter.unusedSectionVars false

/-!
C64: a parallel run gives every process its part of the serial result, with the same times, steps and exceptions.
-/
namespace PyClaw
open Spec

variable {ι K : Type*}

/-- The pieces of the processes are the parts of one grid. -/
def Parts (D : Decomp ι) (R : HypData ι K) (r : Proc ι → HypData ι K) : Prop :=
  ∀ P, ValidProc D P → IsPart D P R.q (r P).q ∧ IsPart D P R.aux (r P).aux

theorem cellwise_part {D : Decomp ι} {P : Proc ι} {q aux q' aux' : GArr ι K} (hq : IsPart D P q q') (ha : IsPart D P aux aux')
    (f : CellMap ι K) : IsPart D P (cellwise f (fun _ => 0) q aux) (cellwise f (D.lo P) q' aux') := by
  intro c idx hidx
  unfold cellwise
  simp only [Nat.zero_add]
  congr 1
  · funext k; exact hq k idx hidx
  · funext k; exact ha k idx hidx

section kernelstep
variable [DecidableEq ι] [Field K] [LinearOrder K]

theorem isMax_unique {S : K → Prop} {x y : K} (hx : IsMaxWithZero S x) (hy : IsMaxWithZero S y) : x = y := by
  apply le_antisymm
  · rcases hx.2.2 with h | h
    · rw [h]; exact hy.1
    · exact hy.2.1 _ h
  · rcases hy.2.2 with h | h
    · rw [h]; exact hx.1
    · exact hx.2.1 _ h

theorem reduce_ok (r : Proc ι → Ret (HypData ι K) K) (cP : Proc ι → K) (Ps : List (Proc ι)) (h : ∀ P ∈ Ps, (r P).2 = .ok (cP P)) :
    ∃ x, reduceCfl r Ps = .ok x ∧ IsMaxWithZero (fun v => ∃ P ∈ Ps, v = cP P) x := by
  induction Ps with
  | nil => exact ⟨0, rfl, le_rfl, by simp, Or.inl rfl⟩
  | cons P Ps ih =>
    obtain ⟨x, hx, h0, hle, hmem⟩ := ih fun Q hQ => h Q (by simp [hQ])
    refine ⟨max (cP P) x, ?_, h0.trans (le_max_right _ _), ?_, ?_⟩
    · simp only [reduceCfl, h P (by simp), hx]
    · rintro v ⟨Q, hQ, rfl⟩
      rcases List.mem_cons.mp hQ with rfl | hQ
      · exact le_max_left _ _
      · exact (hle _ ⟨Q, hQ, rfl⟩).trans (le_max_right _ _)
    · rcases le_total (cP P) x with hh | hh
      · rw [max_eq_right hh]
        rcases hmem with h1 | ⟨Q, hQ, h1⟩
        · exact Or.inl h1
        · exact Or.inr ⟨Q, by simp [hQ], h1⟩
      · rw [max_eq_left hh]
        exact Or.inr ⟨P, by simp, rfl⟩

theorem reduce_err (r : Proc ι → Ret (HypData ι K) K) (e : PyErr) (Ps : List (Proc ι))
    (hall : ∀ P ∈ Ps, (∃ x, (r P).2 = .ok x) ∨ (r P).2 = .error e) (hex : ∃ P ∈ Ps, (r P).2 = .error e) : reduceCfl r Ps = .error e := by
  induction Ps with
  | nil => simp at hex
  | cons P Ps ih =>
    rcases hall P (by simp) with ⟨x, hx⟩ | hx
    · obtain ⟨Q, hQ, hQe⟩ := hex
      rcases List.mem_cons.mp hQ with rfl | hQ
      · rw [hx] at hQe; exact absurd hQe (by simp)
      · have := ih (fun Q hQ => hall Q (by simp [hQ])) ⟨Q, hQ, hQe⟩
        simp only [reduceCfl, hx, this]
    · simp only [reduceCfl, hx]

/-- Requirements on the run: supported boundary conditions, all axes listed once, a kernel that can be distributed. -/
structure RunOk (c : ParCfg ι K) (D : Decomp ι) : Prop where
  bc : Admissible c.bc
  ser : Serial c.bc
  nodup : c.axes.Nodup
  all : ∀ a, a ∈ c.axes
  good : GoodDecomp D c.bc.n c.bc.g
  kern : LocalKernel c.kern c.bc.g c.bc.numAux

theorem hyp_agrees {c : ParCfg ι K} {D : Decomp ι} (ok : RunOk c D) (dt : K) (dP : Proc ι → K) (hdt : ∀ P, ValidProc D P → dP P = dt)
    (S : HypData ι K) (d : Proc ι → HypData ι K) (h : Parts D S d) :
    (∃ (S' : HypData ι K) (cfl : K) (cP : Proc ι → K), hypSerial c dt S = (S', .ok cfl) ∧ (∀ P, ValidProc D P → (hypLocal c D (dP P) d P).2 = .ok (cP P)) ∧
      Parts D S' (fun P => (hypLocal c D (dP P) d P).1) ∧ IsMaxWithZero (fun v => ∃ P, ValidProc D P ∧ v = cP P) cfl) ∨
    (hypSerial c dt S = (S, .error stopErr) ∧
      (∀ P, ValidProc D P → (∃ x, (hypLocal c D (dP P) d P).2 = .ok x) ∨ (hypLocal c D (dP P) d P).2 = .error stopErr) ∧
      ∃ P, ValidProc D P ∧ (hypLocal c D (dP P) d P).2 = .error stopErr) := by
  obtain ⟨W, hW, hfill⟩ := fill_agrees c.bc ok.bc ok.ser c.axes ok.nodup ok.all ok.good S.q S.aux S.work (fun P => (d P).q)
    (fun P => (d P).aux) (fun P hP => (h P hP).1) (fun P hP => (h P hP).2) (fun P => (d P).work.aux)
  have hchoice : ∀ P, ∃ w, ValidProc D P → applyDims (localCfg c.bc D P) c.axes
        { q := exchange D c.bc.g (fun P => (d P).q) P,
          aux := if 0 < c.bc.numAux then exchange D c.bc.g (fun P => (d P).aux) P else (d P).work.aux } = (w, .ok ()) ∧
      IsGhostedPart D c.bc.g P W.q w.q ∧ (0 < c.bc.numAux → IsGhostedPart D c.bc.g P W.aux w.aux) := by
    intro P
    by_cases hP : ValidProc D P
    · obtain ⟨w, hw⟩ := hfill P hP
      exact ⟨w, fun _ => hw⟩
    · exact ⟨W, fun hh => absurd hh hP⟩
  choose w hw using hchoice
  have hsplit := ok.kern.split dt c.bc.n D ok.good (fun a => (ok.bc.cells a).1) W w (fun P hP => (hw P hP).2)
  have hloc : ∀ P, ValidProc D P → hypLocal c D (dP P) d P = match c.kern dt (D.size P) (w P) with
      | none => (d P, .error stopErr)
      | some (r, cfl) =>
        ({ d P with q := fun k idx => r k fun a => idx a + c.bc.g, work := { w P with q := r } }, .ok cfl) := by
    intro P hP
    unfold hypLocal
    rw [hdt P hP]
    simp only [(hw P hP).1]
    cases c.kern dt (D.size P) (w P) <;> rfl
  have hser : hypSerial c dt S = match c.kern dt c.bc.n W with
      | none => (S, .error stopErr)
      | some (r, cfl) => ({ S with q := fun k idx => r k fun a => idx a + c.bc.g, work := { W with q := r } }, .ok cfl) := by
    unfold hypSerial
    simp only [hW]
    cases c.kern dt c.bc.n W <;> rfl
  cases hk : c.kern dt c.bc.n W with
  | none =>
    right
    rw [hk] at hser
    refine ⟨hser, ?_, ?_⟩
    · intro P hP
      rw [hloc P hP]
      cases c.kern dt (D.size P) (w P) with
      | none => exact Or.inr rfl
      | some x => exact Or.inl ⟨_, rfl⟩
    · obtain ⟨P, hP, hn⟩ := hsplit.1 hk
      exact ⟨P, hP, by rw [hloc P hP, hn]⟩
  | some x =>
    left
    obtain ⟨r, cfl⟩ := x
    rw [hk] at hser
    obtain ⟨rP, cP, hval, hmax⟩ := hsplit.2 r cfl hk
    refine ⟨_, cfl, cP, hser, ?_, ?_, hmax⟩
    · intro P hP
      rw [hloc P hP, (hval P hP).1]
    · intro P hP
      dsimp only
      rw [hloc P hP, (hval P hP).1]
      refine ⟨?_, (h P hP).2⟩
      intro k idx hidx
      exact (hval P hP).2 k idx hidx

theorem source_agrees {c : ParCfg ι K} {D : Decomp ι} (cond : Bool) (t h : K) (tP hP' : Proc ι → K)
    (ht : ∀ P, ValidProc D P → tP P = t) (hh : ∀ P, ValidProc D P → hP' P = h) (S : HypData ι K) (d : Proc ι → HypData ι K)
    (hp : Parts D S d) : ∃ S', (serialPlug c).runSource cond t h S = (S', .ok ()) ∧ Parts D S' (parSource c D cond tP hP' d) := by
  unfold ClassicPlug.runSource serialPlug parSource
  cases hs : c.source with
  | none => exact ⟨S, rfl, hp⟩
  | some f =>
    cases cond with
    | false => exact ⟨S, by simp, by simpa using hp⟩
    | true =>
      refine ⟨_, by simp only [Option.map_some, if_true]; rfl, ?_⟩
      intro P hP
      simp only [if_true, ht P hP, hh P hP]
      exact ⟨cellwise_part (hp P hP).1 (hp P hP).2 _, (hp P hP).2⟩

/-- One step of all processes is the serial step. -/
theorem numeric_agrees {c : ParCfg ι K} {D : Decomp ι} (ok : RunOk c D) (cm t dt : K) (cmP tP dP : Proc ι → K)
    (hcm : ∀ P, ValidProc D P → cmP P = cm) (ht : ∀ P, ValidProc D P → tP P = t) (hdt : ∀ P, ValidProc D P → dP P = dt)
    (S : HypData ι K) (d : Proc ι → HypData ι K) (hp : Parts D S d) :
    (parNumeric c D cmP tP dP d).2 = (classicNumeric (serialPlug c) cm t dt S).2 ∧
      Parts D (classicNumeric (serialPlug c) cm t dt S).1 (parNumeric c D cmP tP dP d).1 := by
  obtain ⟨S1, e1, p1⟩ := source_agrees (c := c) (c.sourceSplit == 2) t (dt / 2) tP (fun P => dP P / 2) ht
    (fun P hP => by rw [hdt P hP]) S d hp
  have hmem := fun P => mem_procs_valid D c.axes ok.nodup ok.all P
  have e1' : (serialPlug c).runSource ((serialPlug c).sourceSplit == 2) t (dt / 2) S = (S1, .ok ()) := e1
  unfold parNumeric classicNumeric
  rw [e1']
  set d1 := parSource c D (c.sourceSplit == 2) tP (fun P => dP P / 2) d with hd1
  have hhyp : (serialPlug c).hyperbolic t dt S1 = hypSerial c dt S1 := rfl
  rcases hyp_agrees ok dt dP hdt S1 d1 p1 with ⟨S2, cfl, cP, h1, h2, h3, h4⟩ | ⟨h1, h2, P0, hP0, h3⟩
  · obtain ⟨x, hx, hxm⟩ := reduce_ok (fun P => hypLocal c D (dP P) d1 P) cP (D.procs c.axes) fun P hP => h2 P ((hmem P).mp hP)
    have hxe : x = cfl := isMax_unique (by simpa only [hmem] using hxm) h4
    subst hxe
    obtain ⟨S3, e3, p3⟩ := source_agrees (c := c) (c.sourceSplit == 2) t (dt / 2) tP (fun P => dP P / 2) ht
      (fun P hP => by rw [hdt P hP]) S2 _ h3
    obtain ⟨S4, e4, p4⟩ := source_agrees (c := c) (c.sourceSplit == 1) t dt tP dP ht hdt S3 _ p3
    have e3' : (serialPlug c).runSource ((serialPlug c).sourceSplit == 2) t (dt / 2) S2 = (S3, .ok ()) := e3
    have e4' : (serialPlug c).runSource ((serialPlug c).sourceSplit == 1) t dt S3 = (S4, .ok ()) := e4
    have hmx : max 0 x = x := max_eq_right h4.1
    simp only [hhyp, h1, hx, hmx]
    by_cases hc : cm ≤ x
    · simp only [hc, if_true]
      refine ⟨by trivial, ?_⟩
      intro P hP
      simp only [hcm P hP, hc, if_true]
      exact h3 P hP
    · simp only [hc, if_false, e3', e4']
      refine ⟨by trivial, ?_⟩
      intro P hP
      simp only [hcm P hP, hc, if_false]
      exact p4 P hP
  · have hr := reduce_err (fun P => hypLocal c D (dP P) d1 P) stopErr (D.procs c.axes) (fun P hP => h2 P ((hmem P).mp hP))
      ⟨P0, (hmem P0).mpr hP0, h3⟩
    simp only [hhyp, h1, hr]
    exact ⟨trivial, p1⟩

/-- One iteration on a process whose numerical step gave its part of the serial result. -/
theorem attempt_at {c : ParCfg ι K} (rnd : K → K) {D : Decomp ι} (tS : K) (tend : Option K) (n : Nat)
    (S s : StepState K (GArr ι K) (GArr ι K × BCArrays ι K)) (P : Proc ι) (h1 : s.set = S.set) (h2 : s.status = S.status)
    (h3 : s.sol.t = S.sol.t) (h4 : s.log = S.log) (h5 : IsPart D P S.sol.q s.sol.q)
    (R r : HypData ι K) (E : Except PyErr K) (hq : IsPart D P R.q r.q) (ha : IsPart D P R.aux r.aux) :
    let A := attempt (partEnv c rnd (fun _ => 0) fun _ _ _ => (R, E)) tS tend n S
    let a := attempt (partEnv c rnd (D.lo P) fun _ _ _ => (r, E)) tS tend n s
    a.2 = A.2 ∧ a.1.set = A.1.set ∧ a.1.status = A.1.status ∧ a.1.sol.t = A.1.sol.t ∧ a.1.log = A.1.log ∧
      IsPart D P A.1.sol.q a.1.sol.q ∧ IsPart D P A.1.sol.rest.1 a.1.sol.rest.1 := by
  unfold attempt partEnv
  simp only [h1, h2, h3, h4]
  cases E with
  | error e => exact ⟨by trivial, by trivial, by trivial, by trivial, by trivial, hq, ha⟩
  | ok x =>
    simp only
    by_cases hc : x ≤ S.set.cflMax
    · simp only [hc, if_true]
      exact ⟨by trivial, by trivial, by trivial, by trivial, by trivial, hq, ha⟩
    · simp only [hc, if_false]
      by_cases hv : S.set.dtVariable = true
      · simp only [hv, if_true]
        exact ⟨by trivial, by trivial, by trivial, by trivial, by trivial, h5, ha⟩
      · simp only [hv]
        exact ⟨by trivial, by trivial, by trivial, by trivial, by trivial, hq, ha⟩

theorem attempt_serial (c : ParCfg ι K) (rnd : K → K) (cm tS : K) (tend : Option K) (n : Nat)
    (S : StepState K (GArr ι K) (GArr ι K × BCArrays ι K)) :
    attempt (serialEnv c rnd cm) tS tend n S =
      attempt (partEnv c rnd (fun _ => 0) fun _ _ _ =>
        classicNumeric (serialPlug c) cm S.sol.t (getDt rnd S.sol.t tS tend S.set S.status).1.dt
          ⟨cellwise (c.beforeQ S.sol.t) (fun _ => 0) S.sol.q S.sol.rest.1,
            cellwise (c.beforeAux S.sol.t) (fun _ => 0) S.sol.q S.sol.rest.1, S.sol.rest.2⟩) tS tend n S := rfl

/-- One iteration of all processes is the serial iteration. -/
theorem attempt_agrees {c : ParCfg ι K} {D : Decomp ι} (ok : RunOk c D) (rnd : K → K) (cm tS : K) (tP : Proc ι → K)
    (htP : ∀ P, ValidProc D P → tP P = tS) (tend : Option K) (n : Nat)
    (S : StepState K (GArr ι K) (GArr ι K × BCArrays ι K)) (hcm : S.set.cflMax = cm) (s : ParState ι K) (hT : Together D S s) :
    (∀ P, ValidProc D P → (parAttempt c rnd D tP tend n s P).2 = (attempt (serialEnv c rnd cm) tS tend n S).2) ∧
      Together D (attempt (serialEnv c rnd cm) tS tend n S).1 (fun P => (parAttempt c rnd D tP tend n s P).1) := by
  rw [attempt_serial]
  set R := classicNumeric (serialPlug c) cm S.sol.t (getDt rnd S.sol.t tS tend S.set S.status).1.dt
          ⟨cellwise (c.beforeQ S.sol.t) (fun _ => 0) S.sol.q S.sol.rest.1,
            cellwise (c.beforeAux S.sol.t) (fun _ => 0) S.sol.q S.sol.rest.1, S.sol.rest.2⟩ with hR
  have hnum := numeric_agrees ok cm S.sol.t (getDt rnd S.sol.t tS tend S.set S.status).1.dt (fun P => (s P).set.cflMax)
    (fun P => (s P).sol.t) (fun P => (getDt rnd (s P).sol.t (tP P) tend (s P).set (s P).status).1.dt)
    (fun P hP => by rw [hT.set P hP, hcm]) (fun P hP => hT.t P hP)
    (fun P hP => by rw [hT.t P hP, hT.set P hP, hT.status P hP, htP P hP])
    ⟨cellwise (c.beforeQ S.sol.t) (fun _ => 0) S.sol.q S.sol.rest.1,
            cellwise (c.beforeAux S.sol.t) (fun _ => 0) S.sol.q S.sol.rest.1, S.sol.rest.2⟩
    (fun P => ⟨cellwise (c.beforeQ (s P).sol.t) (D.lo P) (s P).sol.q (s P).sol.rest.1,
            cellwise (c.beforeAux (s P).sol.t) (D.lo P) (s P).sol.q (s P).sol.rest.1, (s P).sol.rest.2⟩)
    (by
      intro P hP
      dsimp only
      rw [hT.t P hP]
      exact ⟨cellwise_part (hT.q P hP) (hT.aux P hP) _, cellwise_part (hT.q P hP) (hT.aux P hP) _⟩)
  rw [← hR] at hnum
  have key : ∀ P, ValidProc D P → _ := fun P hP =>
    attempt_at (c := c) rnd tS tend n S (s P) P (hT.set P hP) (hT.status P hP) (hT.t P hP) (hT.log P hP) (hT.q P hP) R.1
      ((parNumeric c D (fun P => (s P).set.cflMax) (fun P => (s P).sol.t)
        (fun P => (getDt rnd (s P).sol.t (tP P) tend (s P).set (s P).status).1.dt)
        (fun P => ⟨cellwise (c.beforeQ (s P).sol.t) (D.lo P) (s P).sol.q (s P).sol.rest.1,
            cellwise (c.beforeAux (s P).sol.t) (D.lo P) (s P).sol.q (s P).sol.rest.1, (s P).sol.rest.2⟩)).1 P)
      R.2 (hnum.2 P hP).1 (hnum.2 P hP).2
  have hpar : ∀ P, ValidProc D P → parAttempt c rnd D tP tend n s P =
      attempt (partEnv c rnd (D.lo P) fun _ _ _ => ((parNumeric c D (fun P => (s P).set.cflMax) (fun P => (s P).sol.t)
        (fun P => (getDt rnd (s P).sol.t (tP P) tend (s P).set (s P).status).1.dt)
        (fun P => ⟨cellwise (c.beforeQ (s P).sol.t) (D.lo P) (s P).sol.q (s P).sol.rest.1,
            cellwise (c.beforeAux (s P).sol.t) (D.lo P) (s P).sol.q (s P).sol.rest.1, (s P).sol.rest.2⟩)).1 P, R.2)) tS tend n (s P) := by
    intro P hP
    rw [← hnum.1, ← htP P hP]
    rfl
  refine ⟨fun P hP => ?_, ⟨fun P hP => ?_, fun P hP => ?_, fun P hP => ?_, fun P hP => ?_, fun P hP => ?_, fun P hP => ?_⟩⟩
  · rw [hpar P hP]; exact (key P hP).1
  · rw [hpar P hP]; exact (key P hP).2.1
  · rw [hpar P hP]; exact (key P hP).2.2.1
  · rw [hpar P hP]; exact (key P hP).2.2.2.1
  · rw [hpar P hP]; exact (key P hP).2.2.2.2.1
  · rw [hpar P hP]; exact (key P hP).2.2.2.2.2.1
  · rw [hpar P hP]; exact (key P hP).2.2.2.2.2.2

theorem attempt_cflMax {Q W : Type*} (env : StepEnv K Q W) (tS : K) (tend : Option K) (n : Nat) (S : StepState K Q W) :
    (attempt env tS tend n S).1.set.cflMax = S.set.cflMax := by
  have hg : ∀ t, (getDt env.rnd t tS tend S.set S.status).1.cflMax = S.set.cflMax := by
    intro t
    unfold getDt chooseDt
    cases tend <;> dsimp only <;> split_ifs <;> rfl
  unfold attempt
  dsimp only
  split
  · exact hg _
  · split_ifs <;> (try split) <;> exact hg _

/-- The loop: all processes leave it together, as the serial run does. -/
theorem loop_agrees {c : ParCfg ι K} {D : Decomp ι} (ok : RunOk c D) (P0 : Proc ι) (hP0 : ValidProc D P0) (rnd : K → K) (cm tS : K)
    (tP : Proc ι → K) (htP : ∀ P, ValidProc D P → tP P = tS) (tend : Option K) (fuel : Nat) :
    ∀ (n kS : Nat) (k : Proc ι → Nat) (_ : ∀ P, ValidProc D P → k P = kS)
      (S : StepState K (GArr ι K) (GArr ι K × BCArrays ι K)) (_ : S.set.cflMax = cm) (s : ParState ι K) (_ : Together D S s),
      ∃ x, parLoop c rnd D tP tend fuel n k s = some x ∧
        (∀ P, ValidProc D P → (x P).2 = (evolveLoop (serialEnv c rnd cm) tS tend fuel n kS S).2) ∧
        Together D (evolveLoop (serialEnv c rnd cm) tS tend fuel n kS S).1 (fun P => (x P).1) := by
  induction fuel with
  | zero =>
    intro n kS k hk S _ s hT
    exact ⟨_, rfl, fun P hP => by simp only [evolveLoop, hk P hP], hT⟩
  | succ fuel ih =>
    intro n kS k hk S hcm s hT
    obtain ⟨hres, hT'⟩ := attempt_agrees ok rnd cm tS tP htP tend n S hcm s hT
    have hcm' := attempt_cflMax (serialEnv c rnd cm) tS tend n S
    have hmem := fun P => mem_procs_valid D c.axes ok.nodup ok.all P
    have hleft : ∀ (x : Ret (StepState K (GArr ι K) (GArr ι K × BCArrays ι K)) Nat)
        (hx : ∀ P, ValidProc D P → ∃ y, afterAttempt tend (k P) (parAttempt c rnd D tP tend n s P) = .inl y ∧ y.2 = x.2 ∧
          y.1 = (parAttempt c rnd D tP tend n s P).1) (hx1 : x.1 = (attempt (serialEnv c rnd cm) tS tend n S).1),
        ∃ z, parLoop c rnd D tP tend (fuel + 1) n k s = some z ∧ (∀ P, ValidProc D P → (z P).2 = x.2) ∧
          Together D x.1 (fun P => (z P).1) := by
      intro x hx hx1
      unfold parLoop
      rw [if_pos (by
        rw [List.all_eq_true]
        intro P hP
        obtain ⟨y, hy, _⟩ := hx P ((hmem P).mp hP)
        dsimp only
        rw [hy]; rfl)]
      have hz : ∀ P, ValidProc D P → afterAttempt tend (k P) (parAttempt c rnd D tP tend n s P) =
          .inl ((parAttempt c rnd D tP tend n s P).1, x.2) := by
        intro P hP
        obtain ⟨y, hy, h1, h2⟩ := hx P hP
        rw [hy, ← h1, ← h2]
      refine ⟨_, rfl, fun P hP => by simp only [hz P hP], ?_⟩
      rw [hx1]
      refine ⟨fun P hP => ?_, fun P hP => ?_, fun P hP => ?_, fun P hP => ?_, fun P hP => ?_, fun P hP => ?_⟩ <;>
        simp only [hz P hP]
      · exact hT'.set P hP
      · exact hT'.status P hP
      · exact hT'.t P hP
      · exact hT'.log P hP
      · exact hT'.q P hP
      · exact hT'.aux P hP
    unfold evolveLoop
    generalize hA : attempt (serialEnv c rnd cm) tS tend n S = A at hres hT' hcm' hleft
    obtain ⟨S', E⟩ := A
    cases E with
    | error e =>
      refine hleft (S', .error e) ?_ rfl
      intro P hP
      have h2 := hres P hP
      generalize parAttempt c rnd D tP tend n s P = B at h2
      obtain ⟨b, Eb⟩ := B
      simp only at h2
      subst h2
      exact ⟨_, rfl, rfl, rfl⟩
    | ok acc =>
      simp only
      cases tend with
      | none =>
        refine hleft (S', .ok (if acc then kS + 1 else kS)) ?_ rfl
        intro P hP
        have h2 := hres P hP
        generalize parAttempt c rnd D tP none n s P = B at h2
        obtain ⟨b, Eb⟩ := B
        simp only at h2
        subst h2
        exact ⟨_, rfl, by simp only [hk P hP], rfl⟩
      | some te =>
        simp only
        by_cases hte : te ≤ S'.sol.t
        · rw [if_pos hte]
          refine hleft (S', .ok (if acc then kS + 1 else kS)) ?_ rfl
          intro P hP
          have h2 := hres P hP
          have h3 := hT'.t P hP
          dsimp only at h3
          generalize parAttempt c rnd D tP (some te) n s P = B at h2 h3
          obtain ⟨b, Eb⟩ := B
          simp only at h2 h3
          subst h2
          refine ⟨(b, .ok (if acc then k P + 1 else k P)), ?_, by simp only [hk P hP], rfl⟩
          unfold afterAttempt
          simp only [h3, hte, if_true]
        · rw [if_neg hte]
          have hr : ∀ P, ValidProc D P → afterAttempt (some te) (k P) (parAttempt c rnd D tP (some te) n s P) =
              .inr ((parAttempt c rnd D tP (some te) n s P).1, if acc then kS + 1 else kS) := by
            intro P hP
            have h2 := hres P hP
            have h3 := hT'.t P hP
            dsimp only at h3
            generalize parAttempt c rnd D tP (some te) n s P = B at h2 h3
            obtain ⟨b, Eb⟩ := B
            simp only at h2 h3
            subst h2
            unfold afterAttempt
            simp only [h3, hte, if_false, hk P hP]
          unfold parLoop
          rw [if_neg (by
              rw [List.all_eq_true]
              intro hh
              have := hh P0 ((hmem P0).mpr hP0)
              dsimp only at this
              rw [hr P0 hP0] at this
              exact absurd this (by simp)),
            if_pos (by
              rw [List.all_eq_true]
              intro P hP
              dsimp only
              rw [hr P ((hmem P).mp hP)]; rfl)]
          refine ih (n + 1) (if acc then kS + 1 else kS) _ ?_ S' (hcm'.trans hcm) _ ?_
          · intro P hP
            simp only [hr P hP]
          · refine ⟨fun P hP => ?_, fun P hP => ?_, fun P hP => ?_, fun P hP => ?_, fun P hP => ?_, fun P hP => ?_⟩ <;>
              simp only [hr P hP]
            · exact hT'.set P hP
            · exact hT'.status P hP
            · exact hT'.t P hP
            · exact hT'.log P hP
            · exact hT'.q P hP
            · exact hT'.aux P hP

/-- `evolve_to_time` in three pieces. -/
theorem evolve_pieces [FloorRing K] {Q W : Type*} (env : StepEnv K Q W) (tend : Option K) (S : StepState K Q W) :
    evolveToTime env tend S = match evolvePrelude env.rnd tend S with
      | .inl x => x
      | .inr S2 => evolvePostlude tend (evolveLoop env S.sol.t tend S2.set.maxSteps.toNat 0 0 S2) := by
  unfold evolveToTime evolvePrelude evolvePostlude
  dsimp only
  generalize (if S.set.dtVariable = true then (Except.ok S.set, S.set) else fixedSetup env.rnd S.sol.t tend S.set) = f
  obtain ⟨E, f2⟩ := f
  cases E with
  | error e => rfl
  | ok set1 =>
    dsimp only
    split_ifs <;> rfl

theorem prelude_set [FloorRing K] {Q W : Type*} (rnd : K → K) (tend : Option K) (S : StepState K Q W) :
    ∃ set E, evolvePrelude rnd tend S = (match E with
      | some e => .inl ({ S with set := set }, .error e)
      | none => .inr { S with set := set }) ∧ set.cflMax = S.set.cflMax ∧
      ∀ s : StepState K Q W, s.set = S.set → s.sol.t = S.sol.t → evolvePrelude rnd tend s = match E with
      | some e => .inl ({ s with set := set }, .error e)
      | none => .inr { s with set := set } := by
  have key : ∀ s : StepState K Q W, s.set = S.set → s.sol.t = S.sol.t → evolvePrelude rnd tend s =
      match (if S.set.dtVariable = true then (Except.ok S.set, S.set) else fixedSetup rnd S.sol.t tend S.set) with
      | (.error e, f2) => .inl ({ s with set := f2 }, .error e)
      | (.ok set1, _) => if set1.dtVariable = true ∧ set1.cflMax < set1.cflDesired then
          .inl ({ s with set := set1 }, .error (.exception "Variable time-stepping and desired CFL > maximum CFL"))
        else
          .inr { s with set := match tend with
            | none => set1
            | some te => if te ≤ S.sol.t then { set1 with maxSteps := 0 } else set1 } := by
    intro s h1 h2
    unfold evolvePrelude
    rw [h1, h2]
    dsimp only
    generalize (if S.set.dtVariable = true then (Except.ok S.set, S.set) else fixedSetup rnd S.sol.t tend S.set) = f
    obtain ⟨E, f2⟩ := f
    cases E <;> rfl
  have hf : ∀ set1 set2, (if S.set.dtVariable = true then (Except.ok S.set, S.set) else fixedSetup rnd S.sol.t tend S.set) =
      ((Except.ok set1 : Except PyErr (StepSettings K)), set2) → set1.cflMax = S.set.cflMax := by
    intro set1 set2
    unfold fixedSetup
    split_ifs <;> cases tend <;> (try dsimp only) <;> (try split_ifs) <;> intro h <;>
      simp only [Prod.mk.injEq, Except.ok.injEq, reduceCtorEq, false_and] at h <;> rw [← h.1]
  have hf2 : ∀ e set2, (if S.set.dtVariable = true then (Except.ok S.set, S.set) else fixedSetup rnd S.sol.t tend S.set) =
      ((Except.error e : Except PyErr (StepSettings K)), set2) → set2.cflMax = S.set.cflMax := by
    intro e set2
    unfold fixedSetup
    split_ifs <;> cases tend <;> (try dsimp only) <;> (try split_ifs) <;> intro h <;>
      simp only [Prod.mk.injEq, reduceCtorEq, false_and] at h <;> rw [← h.2]
  generalize (if S.set.dtVariable = true then (Except.ok S.set, S.set) else fixedSetup rnd S.sol.t tend S.set) = f at hf hf2 key
  obtain ⟨E, f2⟩ := f
  cases E with
  | error e =>
    exact ⟨f2, some e, key S rfl rfl, hf2 e f2 rfl, fun s h1 h2 => key s h1 h2⟩
  | ok set1 =>
    have hc := hf set1 f2 rfl
    dsimp only at key
    by_cases hx : set1.dtVariable = true ∧ set1.cflMax < set1.cflDesired
    · simp only [if_pos hx] at key
      exact ⟨set1, some _, key S rfl rfl, hc, fun s h1 h2 => key s h1 h2⟩
    · simp only [if_neg hx] at key
      refine ⟨_, none, key S rfl rfl, ?_, fun s h1 h2 => key s h1 h2⟩
      cases tend with
      | none => exact hc
      | some te => dsimp only; split_ifs <;> exact hc

theorem valid_exists {D : Decomp ι} {n : ι → Nat} {g : Nat} (hD : GoodDecomp D n g) (hn : ∀ a, 0 < n a) : ∃ P, ValidProc D P :=
  ⟨fun _ => 0, fun a => Nat.lt_of_le_of_lt (Nat.zero_le _) (owner_spec (hD.parts a) (hn a)).1⟩

theorem post_agrees {Q W : Type*} (tend : Option K) (X x : Ret (StepState K Q W) Nat) (h2 : x.2 = X.2) (hs : x.1.set = X.1.set)
    (ht : x.1.sol.t = X.1.sol.t) : (evolvePostlude tend x).2 = (evolvePostlude tend X).2 ∧ (evolvePostlude tend x).1 = x.1 ∧
      (evolvePostlude tend X).1 = X.1 := by
  obtain ⟨X1, X2⟩ := X
  obtain ⟨x1, x2⟩ := x
  simp only at h2 hs ht
  subst h2
  unfold evolvePostlude
  cases x2 with
  | error e => exact ⟨rfl, rfl, rfl⟩
  | ok k =>
    cases tend with
    | none => exact ⟨rfl, rfl, rfl⟩
    | some te =>
      simp only [hs, ht]
      split_ifs <;> exact ⟨rfl, rfl, rfl⟩

/-- **C64.** `evolve_to_time` on all processes: for every distribution of the cells in which each process has at least as many
cells as there are ghost cells, supported boundary conditions, source terms, `before_step`, rounding and starting states, if the
kernel can be distributed, then no process waits for others forever, every process ends with the exception (or none) of the
serial run, and with its part of the serial solution, the serial time, status and history of steps. -/
theorem C64_run [FloorRing K] {c : ParCfg ι K} {D : Decomp ι} (ok : RunOk c D) (rnd : K → K) (tend : Option K)
    (S : StepState K (GArr ι K) (GArr ι K × BCArrays ι K)) (s : ParState ι K) (hT : Together D S s) :
    ∃ x, parEvolve c rnd D tend s = some x ∧
      (∀ P, ValidProc D P → (x P).2 = (evolveToTime (serialEnv c rnd S.set.cflMax) tend S).2) ∧
      Together D (evolveToTime (serialEnv c rnd S.set.cflMax) tend S).1 (fun P => (x P).1) := by
  obtain ⟨P0, hP0⟩ := valid_exists ok.good fun a => (ok.bc.cells a).1
  have hmem := fun P => mem_procs_valid D c.axes ok.nodup ok.all P
  rw [evolve_pieces]
  obtain ⟨set, E, hS, hcm, hs⟩ := prelude_set rnd tend S
  have hs' : ∀ P, ValidProc D P → _ := fun P hP => hs (s P) (hT.set P hP) (hT.t P hP)
  have hrnd : (serialEnv c rnd S.set.cflMax).rnd = rnd := rfl
  rw [hrnd, hS]
  unfold parEvolve
  cases E with
  | some e =>
    simp only at hs' ⊢
    rw [if_pos (by
      rw [List.all_eq_true]
      intro P hP
      rw [hs' P ((hmem P).mp hP)]; rfl)]
    refine ⟨_, rfl, ?_, ?_⟩
    · intro P hP
      simp only [hs' P hP]
    · refine ⟨fun P hP => ?_, fun P hP => ?_, fun P hP => ?_, fun P hP => ?_, fun P hP => ?_, fun P hP => ?_⟩ <;>
        simp only [hs' P hP]
      · exact hT.status P hP
      · exact hT.t P hP
      · exact hT.log P hP
      · exact hT.q P hP
      · exact hT.aux P hP
  | none =>
    simp only at hs' ⊢
    rw [if_neg (by
        rw [List.all_eq_true]
        intro hh
        have := hh P0 ((hmem P0).mpr hP0)
        rw [hs' P0 hP0] at this
        exact absurd this (by simp)),
      if_pos (by
        rw [List.all_eq_true]
        intro P hP
        rw [hs' P ((hmem P).mp hP)]; rfl)]
    have hT2 : Together D { S with set := set } (fun P => match evolvePrelude rnd tend (s P) with
        | .inl x => x.1
        | .inr s' => s') := by
      refine ⟨fun P hP => ?_, fun P hP => ?_, fun P hP => ?_, fun P hP => ?_, fun P hP => ?_, fun P hP => ?_⟩ <;>
        simp only [hs' P hP]
      · exact hT.status P hP
      · exact hT.t P hP
      · exact hT.log P hP
      · exact hT.q P hP
      · exact hT.aux P hP
    cases hpr : D.procs c.axes with
    | nil =>
      have := (hmem P0).mpr hP0
      rw [hpr] at this
      exact absurd this (by simp)
    | cons P1 Ps =>
      have hv1 : ValidProc D P1 := (hmem P1).mp (by rw [hpr]; simp)
      have hall : ∀ P ∈ P1 :: Ps, ValidProc D P := fun P hP => (hmem P).mp (by rw [hpr]; exact hP)
      dsimp only
      rw [if_pos (by
        rw [List.all_eq_true]
        intro P hP
        simp only [hs' P (hall P hP), hs' P1 hv1, decide_true])]
      simp only [hs' P1 hv1]
      obtain ⟨x, hx, hx2, hxT⟩ := loop_agrees ok P0 hP0 rnd S.set.cflMax S.sol.t (fun P => (s P).sol.t) hT.t tend set.maxSteps.toNat
        0 0 (fun _ => 0) (fun _ _ => rfl) { S with set := set } hcm _ hT2
      refine ⟨fun P => evolvePostlude tend (x P), congrArg (Option.map fun x P => evolvePostlude tend (x P)) hx, ?_, ?_⟩
      · intro P hP
        exact (post_agrees tend _ _ (hx2 P hP) (hxT.set P hP) (hxT.t P hP)).1
      · have hp : ∀ P, ValidProc D P → _ := fun P hP => (post_agrees tend _ _ (hx2 P hP) (hxT.set P hP) (hxT.t P hP)).2
        rw [(hp P0 hP0).2]
        refine ⟨fun P hP => ?_, fun P hP => ?_, fun P hP => ?_, fun P hP => ?_, fun P hP => ?_, fun P hP => ?_⟩ <;>
          dsimp only <;> rw [(hp P hP).1]
        · exact hxT.set P hP
        · exact hxT.status P hP
        · exact hxT.t P hP
        · exact hxT.log P hP
        · exact hxT.q P hP
        · exact hxT.aux P hP

end kernelstep

end PyClaw
