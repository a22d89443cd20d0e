import Verif.Spec.Runs
import Verif.Lemmas.Evolve
import Verif.Props.BC

/-! Lemmas for whole runs of the classic solvers. -/
set_option linter.unusedSectionVars false

namespace PyClaw
open Spec

variable {ι K : Type*} [DecidableEq ι] [Field K] [LinearOrder K]

/-- What the numerical step of a homogeneous run does. -/
theorem serial_numeric (c : ParCfg ι K) (hc : Homogeneous c) (rnd : K → K) (L t dt : K) (q : GArr ι K)
    (rest : GArr ι K × BCArrays ι K) :
    (serialEnv c rnd L).numeric t dt ((serialEnv c rnd L).before t (q, rest)) =
      let r := hypSerial c dt ⟨q, rest.1, rest.2⟩
      ((r.1.q, r.1.aux, r.1.work), match r.2 with | .error e => .error e | .ok x => .ok (max 0 x)) := by
  have hb : (serialEnv c rnd L).before t (q, rest) = (q, rest.1, rest.2) := by
    have e1 : cellwise (c.beforeQ t) (fun _ => 0) q rest.1 = q := by
      funext k idx; simp only [cellwise]; rw [hc.beforeQ]
    have e2 : cellwise (c.beforeAux t) (fun _ => 0) q rest.1 = rest.1 := by
      funext k idx; simp only [cellwise]; rw [hc.beforeAux]
    simp only [serialEnv, partEnv, e1, e2]
  rw [hb]
  simp only [serialEnv, partEnv, classicNumeric, ClassicPlug.runSource, serialPlug, hc.source, Option.map_none]
  rcases hypSerial c dt ⟨q, rest.1, rest.2⟩ with ⟨d, e | x⟩ <;> simp

theorem hypSerial_keeps (c : ParCfg ι K) (P : GArr ι K → Prop) (a0 : GArr ι K) (dt : K) (d : HypData ι K)
    (ha : d.aux = a0) (Ok : K → Prop)
    (hstep : ∀ q work w r cfl, P q → applyBcs c.bc c.axes q a0 work = (w, .ok ()) →
      c.kern dt c.bc.n w = some (r, cfl) → Ok (max 0 cfl) → P fun k idx => r k fun a => idx a + c.bc.g)
    (hP : P d.q) :
    (hypSerial c dt d).1.aux = a0 ∧
    (∀ e, (hypSerial c dt d).2 = .error e → P (hypSerial c dt d).1.q) ∧
    (∀ x, (hypSerial c dt d).2 = .ok x → Ok (max 0 x) → P (hypSerial c dt d).1.q) := by
  subst ha
  unfold hypSerial
  rcases hw : applyBcs c.bc c.axes d.q d.aux d.work with ⟨w, e | u⟩
  · simp [hP]
  · simp only
    rcases hk : c.kern dt c.bc.n w with _ | ⟨r, x⟩
    · simp [hP]
    · simp only [true_and, reduceCtorEq, false_implies, implies_true, Except.ok.injEq, forall_eq']
      exact hstep d.q d.work w r x hP hw hk

/-- What a whole session keeps: `P` of `q`, provided every step that is not undone keeps it. -/
theorem attempt_keeps (c : ParCfg ι K) (hc : Homogeneous c) (rnd : K → K) (L : K) (P : GArr ι K → Prop) (a0 : GArr ι K)
    (S : StepSettings K → Prop) (Ok : K → K → Prop) (ts : K) (te : Option K)
    (hstep : ∀ dt q work w r cfl, P q → applyBcs c.bc c.axes q a0 work = (w, .ok ()) →
      c.kern dt c.bc.n w = some (r, cfl) → Ok dt (max 0 cfl) → P fun k idx => r k fun a => idx a + c.bc.g)
    (hget : ∀ t set st cfl, S set → (∀ T, te = some T → t < T) → S { (getDt rnd t ts te set st).1 with cfl := cfl })
    (hok : ∀ t set st cfl, S set → (∀ T, te = some T → t < T) → (cfl ≤ set.cflMax ∨ set.dtVariable = false) →
      Ok (getDt rnd t ts te set st).1.dt cfl)
    (n : Nat) (s : StepState K (GArr ι K) (GArr ι K × BCArrays ι K)) (hT : ∀ T, te = some T → s.sol.t < T)
    (h : P s.sol.q ∧ s.sol.rest.1 = a0 ∧ S s.set) :
    let s' := (attempt (serialEnv c rnd L) ts te n s).1
    P s'.sol.q ∧ s'.sol.rest.1 = a0 ∧ S s'.set := by
  obtain ⟨h1, h2, h3⟩ := h
  have hS := fun cfl => hget s.sol.t s.set s.status cfl h3 hT
  have hO := fun cfl => hok s.sol.t s.set s.status cfl h3 hT
  obtain ⟨k1, k2, k3⟩ := hypSerial_keeps c P a0 (getDt rnd s.sol.t ts te s.set s.status).1.dt ⟨s.sol.q, s.sol.rest.1, s.sol.rest.2⟩ h2
    (Ok (getDt rnd s.sol.t ts te s.set s.status).1.dt) (hstep _) h1
  have hr : (serialEnv c rnd L).rnd = rnd := rfl
  unfold attempt
  simp only [hr]
  rw [serial_numeric c hc]
  rcases hh : hypSerial c (getDt rnd s.sol.t ts te s.set s.status).1.dt ⟨s.sol.q, s.sol.rest.1, s.sol.rest.2⟩ with ⟨d, e | x⟩
  · rw [hh] at k1 k2 k3
    exact ⟨k2 e rfl, k1, hS 0⟩
  · rw [hh] at k1 k2 k3
    simp only
    have hg : ∀ t d, (serialEnv c rnd L).gauges t d = (d.2, none) := fun _ _ => rfl
    simp only [hg]
    by_cases hc1 : max 0 x ≤ s.set.cflMax
    · rw [if_pos hc1]
      exact ⟨k3 x rfl (hO _ (Or.inl hc1)), k1, hS _⟩
    · rw [if_neg hc1]
      by_cases hv : s.set.dtVariable = true
      · rw [if_pos hv]
        exact ⟨h1, k1, hS _⟩
      · rw [if_neg hv]
        exact ⟨k3 x rfl (hO _ (Or.inr (by simpa using hv))), k1, hS _⟩

variable [IsStrictOrderedRing K] [FloorRing K]

/-- Sessions of `evolve_to_time` calls and changes of settings. -/
theorem run_keeps (c : ParCfg ι K) (hc : Homogeneous c) (rnd : K → K) (L : K) (P : GArr ι K → Prop) (a0 : GArr ι K)
    (S : StepSettings K → Prop) (Ok : K → K → Prop)
    (hstep : ∀ dt q work w r cfl, P q → applyBcs c.bc c.axes q a0 work = (w, .ok ()) →
      c.kern dt c.bc.n w = some (r, cfl) → Ok dt (max 0 cfl) → P fun k idx => r k fun a => idx a + c.bc.g)
    (hmax : ∀ set m, S set → S { set with maxSteps := m })
    (hget : ∀ t ts te set st cfl, S set → (∀ T, te = some T → t < T) → S { (getDt rnd t ts te set st).1 with cfl := cfl })
    (hok : ∀ t ts te set st cfl, S set → (∀ T, te = some T → t < T) → (cfl ≤ set.cflMax ∨ set.dtVariable = false) →
      Ok (getDt rnd t ts te set st).1.dt cfl)
    (ops : List (StepOp K (GArr ι K) (GArr ι K × BCArrays ι K))) (hops : OnlyEvolves ops)
    (hadj : ∀ f, .adjust f ∈ ops → ∀ set, S set → S (f set))
    (s : StepState K (GArr ι K) (GArr ι K × BCArrays ι K)) (h : P s.sol.q ∧ s.sol.rest.1 = a0 ∧ S s.set) :
    let s' := runSteps (serialEnv c rnd L) ops s
    P s'.sol.q ∧ s'.sol.rest.1 = a0 ∧ S s'.set := by
  induction ops generalizing s with
  | nil => exact h
  | cons o ops ih =>
    have ih' := fun s => ih (fun o ho => hops o (List.mem_cons_of_mem _ ho))
      (fun f hf => hadj f (List.mem_cons_of_mem _ hf)) s
    rcases hops o List.mem_cons_self with ⟨te, rfl⟩ | ⟨f, rfl⟩
    · refine ih' _ ?_
      exact evolveToTime_invariant (serialEnv c rnd L) te s (fun s => P s.sol.q ∧ s.sol.rest.1 = a0 ∧ S s.set) h
        (fun m h => ⟨h.1, h.2.1, hmax _ m h.2.2⟩)
        (fun n s' a h hT _ => attempt_keeps c hc rnd L P a0 S Ok s.sol.t te hstep (fun t => hget t _ te) (fun t => hok t _ te)
          n s' hT h)
    · exact ih' _ ⟨h.1, h.2.1, hadj f List.mem_cons_self _ h.2.2⟩

/-! ### Ghost cells -/

/-- The cell from which a cell of the periodic extension takes its value. -/
def wrapCell (n : ι → Nat) (v : ι → Int) : ι → Nat := fun a => ((v a - 1) % (n a : Int)).toNat

omit [Field K] [LinearOrder K] [IsStrictOrderedRing K] [FloorRing K] in
theorem Spec.PeriodicGrid.admissible {bc : BCConfig ι K} (h : PeriodicGrid bc) : Admissible bc where
  cells := h.cells
  lower a := Or.inr (Or.inl (h.q a).1)
  upper a := Or.inr (Or.inl (h.q a).2)
  auxLower _ a := Or.inr (Or.inl (h.aux a).1)
  auxUpper _ a := Or.inr (Or.inl (h.aux a).2)
  reflect a hw := by rcases hw with hw | hw <;> simp [(h.q a).1, (h.q a).2] at hw

omit [IsStrictOrderedRing K] [FloorRing K] in
theorem fold_periodic (b : Sides ι) (a : ι) (hl : b.lower a = some .periodic) (hu : b.upper a = some .periodic)
    (hn : 0 < b.n a) (hg : b.g ≤ b.n a) (v : Int) (h1 : 1 - (b.g : Int) ≤ v) (h2 : v ≤ b.n a + b.g) :
    b.src a (v + b.g - 1).toNat - b.g = ((v - 1) % (b.n a : Int)).toNat := by
  unfold Sides.src
  rw [hl, hu]
  simp only [lowerSrc, upperSrc]
  by_cases c1 : v < 1
  · rw [if_pos (by omega)]
    have : (v - 1) % (b.n a : Int) = v - 1 + b.n a := by
      rw [← Int.add_emod_right, Int.emod_eq_of_lt (by omega) (by omega)]
    rw [this]; omega
  · rw [if_neg (by omega)]
    by_cases c2 : (b.n a : Int) < v
    · rw [if_pos (by omega)]
      have : (v - 1) % (b.n a : Int) = v - 1 - b.n a := by
        rw [← Int.sub_emod_right, Int.emod_eq_of_lt (by omega) (by omega)]
      rw [this]; omega
    · rw [if_neg (by omega), Int.emod_eq_of_lt (by omega) (by omega)]
      omega

theorem periodic_fill (bc : BCConfig ι K) (h : PeriodicGrid bc) (axes : List ι) (hnd : axes.Nodup) (hall : ∀ a, a ∈ axes)
    (m naux : Nat) (hx : bc.numAux = naux) (q aux : GArr ι K) (old : BCArrays ι K) :
    ∃ w, applyBcs bc axes q aux old = (w, .ok ()) ∧
      ∀ v : ι → Int, (∀ a, 1 - (bc.g : Int) ≤ v a ∧ v a ≤ bc.n a + bc.g) →
        (fieldOf m bc.g w.q v = fun k => q k.val (wrapCell bc.n v)) ∧
        fieldOf naux bc.g w.aux v = auxAt naux aux (wrapCell bc.n v) := by
  obtain ⟨w, hw, hf⟩ := C17_serial_fill bc h.admissible h.serial axes hnd hall q aux old
  refine ⟨w, hw, fun v hv => ?_⟩
  have hin : InGhosted bc fun a => (v a + bc.g - 1).toNat := fun a => by
    have := hv a
    simp only; omega
  constructor
  · funext k
    have := (hf k.val _ hin).1
    unfold fieldOf
    rw [this]
    have hs : (qSides bc).sign (K := K) (fun a => some (bc.reflect a)) axes k.val (fun a => (v a + bc.g - 1).toNat) = 1 := by
      unfold Sides.sign
      apply List.prod_eq_one
      intro x hx
      obtain ⟨a, _, rfl⟩ := List.mem_map.mp hx
      rw [if_neg]
      simp [Sides.behindWall, qSides, h.serial a, h.q a]
    rw [hs, one_mul]
    congr 1
    funext a
    exact fold_periodic (qSides bc) a (by simp [qSides, h.serial a, h.q a]) (by simp [qSides, h.serial a, h.q a])
      (h.cells a).1 (h.cells a).2 (v a) (hv a).1 (hv a).2
  · funext k
    have hp : 0 < bc.numAux := by have := k.2; omega
    have := (hf k.val _ hin).2 hp
    unfold fieldOf
    rw [this]
    congr 1
    funext a
    exact fold_periodic (auxSides bc) a (by simp [auxSides, h.serial a, h.aux a, hp])
      (by simp [auxSides, h.serial a, h.aux a, hp]) (h.cells a).1 (h.cells a).2 (v a) (hv a).1 (hv a).2

omit [DecidableEq ι] in
theorem wrapCell_interior (n : ι → Nat) (x : ι → Nat) (hx : ∀ a, x a < n a) : wrapCell n (fun a => (x a : Int) + 1) = x := by
  funext a
  have := hx a
  simp only [wrapCell]
  rw [Int.emod_eq_of_lt (by omega) (by omega)]
  omega

omit [DecidableEq ι] in
theorem wrapCell_lt (n : ι → Nat) (hn : ∀ a, 0 < n a) (v : ι → Int) (a : ι) : wrapCell n v a < n a := by
  have := hn a
  have h1 := Int.emod_nonneg (v a - 1) (b := (n a : Int)) (by omega)
  have h2 := Int.emod_lt_of_pos (v a - 1) (b := (n a : Int)) (by omega)
  unfold wrapCell
  omega

/-! ### Kernels and totals -/

omit [DecidableEq ι] [IsStrictOrderedRing K] [FloorRing K] [Field K] [LinearOrder K] in
theorem onArrays_interior (m naux g : Nat) (step : IntKern ι K m naux) (dt : K) (n : ι → Nat) (A : BCArrays ι K) (r : GArr ι K)
    (cfl : K) (h : onArrays m naux g step dt n A = some (r, cfl)) :
    ∃ r', step dt n (fieldOf naux g A.aux) (fieldOf m g A.q) = some (r', cfl) ∧
      ∀ (k : Fin m) (x : ι → Nat), r k.val (fun a => x a + g) = r' (fun a => (x a : Int) + 1) k := by
  unfold onArrays at h
  obtain ⟨⟨r', x⟩, h1, h2⟩ := Option.map_eq_some_iff.mp h
  cases h2
  refine ⟨r', h1, fun k x => ?_⟩
  unfold putBack
  rw [dif_pos k.2]
  have : (fun a => ((x a + g : Nat) : Int) + 1 - g) = fun a => (x a : Int) + 1 := by
    funext a
    push_cast
    ring
  show r' (fun a => ((x a + g : Nat) : Int) + 1 - g) k = _
  rw [this]

theorem sum_grid1 (n : Fin 1 → Nat) (F : (Fin 1 → Nat) → K) :
    ∑ x ∈ Fintype.piFinset (fun a => Finset.range (n a)), F x = ∑ i ∈ Finset.range (n 0), F fun _ => i := by
  refine Finset.sum_nbij' (fun x => x 0) (fun i _ => i) ?_ ?_ ?_ ?_ ?_
  · intro x hx; simpa using Fintype.mem_piFinset.mp hx 0
  · intro i hi; rw [Fintype.mem_piFinset]; intro a; fin_cases a; simpa using hi
  · intro x _; funext a; fin_cases a; rfl
  · intro i _; rfl
  · intro x _; congr 1; funext a; fin_cases a; rfl

theorem sum_grid2 (n : Fin 2 → Nat) (F : (Fin 2 → Nat) → K) :
    ∑ x ∈ Fintype.piFinset (fun a => Finset.range (n a)), F x =
      ∑ i ∈ Finset.range (n 0), ∑ j ∈ Finset.range (n 1), F ![i, j] := by
  rw [← Finset.sum_product']
  refine Finset.sum_nbij' (fun x => (x 0, x 1)) (fun p => ![p.1, p.2]) ?_ ?_ ?_ ?_ ?_
  · intro x hx
    have := Fintype.mem_piFinset.mp hx
    exact Finset.mem_product.mpr ⟨this 0, this 1⟩
  · intro p hp
    have := Finset.mem_product.mp hp
    rw [Fintype.mem_piFinset]; intro a; fin_cases a
    · exact this.1
    · exact this.2
  · intro x _; funext a; fin_cases a <;> rfl
  · intro i _; rfl
  · intro x _; congr 1; funext a; fin_cases a <;> rfl

theorem sum_grid3 (n : Fin 3 → Nat) (F : (Fin 3 → Nat) → K) :
    ∑ x ∈ Fintype.piFinset (fun a => Finset.range (n a)), F x =
      ∑ i ∈ Finset.range (n 0), ∑ j ∈ Finset.range (n 1), ∑ k ∈ Finset.range (n 2), F ![i, j, k] := by
  have : ∀ i, (∑ j ∈ Finset.range (n 1), ∑ k ∈ Finset.range (n 2), F ![i, j, k]) =
      ∑ p ∈ Finset.range (n 1) ×ˢ Finset.range (n 2), F ![i, p.1, p.2] := fun i => (Finset.sum_product' _ _ _).symm
  simp only [this]
  rw [← Finset.sum_product']
  refine Finset.sum_nbij' (fun x => (x 0, x 1, x 2)) (fun p => ![p.1, p.2.1, p.2.2]) ?_ ?_ ?_ ?_ ?_
  · intro x hx
    have := Fintype.mem_piFinset.mp hx
    exact Finset.mem_product.mpr ⟨this 0, Finset.mem_product.mpr ⟨this 1, this 2⟩⟩
  · intro p hp
    have := Finset.mem_product.mp hp
    have h2 := Finset.mem_product.mp this.2
    rw [Fintype.mem_piFinset]; intro a; fin_cases a
    · exact this.1
    · exact h2.1
    · exact h2.2
  · intro x _; funext a; fin_cases a <;> rfl
  · intro i _; rfl
  · intro x _; congr 1; funext a; fin_cases a <;> rfl

/-- Conservation over a whole run from conservation by the kernel on periodic data. -/
theorem run_conserves {d : Nat} (c : ParCfg (Fin d) K) (m naux : Nat) (step : IntKern (Fin d) K m naux) (hr : ClassicRun c m naux step) (hp : PeriodicGrid c.bc)
    (dV : K) (capa : Option ((Fin naux → K) → K)) (a0 : GArr (Fin d) K)
    (hcons : ∀ dt A Q (q : GArr (Fin d) K) r cfl, (∀ v : Fin d → Int, (∀ a, 1 - (c.bc.g : Int) ≤ v a ∧ v a ≤ c.bc.n a + c.bc.g) →
        (Q v = fun k => q k.val (wrapCell c.bc.n v)) ∧ A v = auxAt naux a0 (wrapCell c.bc.n v)) →
      step dt c.bc.n A Q = some (r, cfl) →
      ∀ k : Fin m, (∑ x ∈ Fintype.piFinset fun a => Finset.range (c.bc.n a),
        dV * capacity capa (A fun a => (x a : Int) + 1) * r (fun a => (x a : Int) + 1) k) =
        ∑ x ∈ Fintype.piFinset fun a => Finset.range (c.bc.n a),
          dV * capacity capa (A fun a => (x a : Int) + 1) * Q (fun a => (x a : Int) + 1) k)
    (rnd : K → K) (L : K) (ops : List (StepOp K (GArr (Fin d) K) (GArr (Fin d) K × BCArrays (Fin d) K))) (hops : OnlyEvolves ops)
    (s : StepState K (GArr (Fin d) K) (GArr (Fin d) K × BCArrays (Fin d) K)) (ha : s.sol.rest.1 = a0) :
    let s' := runSteps (serialEnv c rnd L) ops s
    s'.sol.rest.1 = s.sol.rest.1 ∧ ∀ k, k < m →
      gridTotal c.bc.n dV capa s'.sol.rest.1 s'.sol.q k = gridTotal c.bc.n dV capa s.sol.rest.1 s.sol.q k := by
  have h := run_keeps c hr.homogeneous rnd L
    (fun q => ∀ k, k < m → gridTotal c.bc.n dV capa a0 q k = gridTotal c.bc.n dV capa a0 s.sol.q k) a0 (fun _ => True)
    (fun _ _ => True) ?_ (fun _ _ _ => trivial) (fun _ _ _ _ _ _ _ _ => trivial) (fun _ _ _ _ _ _ _ _ _ => trivial) ops hops
    (fun _ _ _ _ => trivial) s ⟨fun _ _ => rfl, ha, trivial⟩
  · intro s'
    have h2 : s'.sol.rest.1 = a0 := h.2.1
    refine ⟨h2.trans ha.symm, fun k hk => ?_⟩
    rw [h2, ha]
    exact h.1 k hk
  · intro dt q work w r cfl hP hw hk _ k hkm
    rw [← hP k hkm]
    obtain ⟨w', hw', hf⟩ := periodic_fill c.bc hp c.axes (by rw [hr.axes]; exact List.nodup_finRange d)
      (by rw [hr.axes]; exact List.mem_finRange) m naux hr.numAux q a0 work
    rw [hw] at hw'
    cases hw'
    rw [hr.kern] at hk
    obtain ⟨r', hs, hi⟩ := onArrays_interior m naux c.bc.g step dt c.bc.n w r cfl hk
    have key := hcons dt _ _ q r' cfl hf hs ⟨k, hkm⟩
    have hfx : ∀ x ∈ Fintype.piFinset (fun a => Finset.range (c.bc.n a)),
        (fieldOf m c.bc.g w.q (fun a => (x a : Int) + 1) = fun k => q k.val x) ∧
        fieldOf naux c.bc.g w.aux (fun a => (x a : Int) + 1) = auxAt naux a0 x := by
      intro x hx
      have hx' : ∀ a, x a < c.bc.n a := fun a => Finset.mem_range.mp (Fintype.mem_piFinset.mp hx a)
      have := hf (fun a => (x a : Int) + 1) (fun a => by have := hx' a; omega)
      rwa [wrapCell_interior _ _ hx'] at this
    unfold gridTotal
    refine (Finset.sum_congr rfl fun x hx => ?_).trans (key.trans (Finset.sum_congr rfl fun x hx => ?_))
    · rw [(hfx x hx).2, ← hi ⟨k, hkm⟩ x]
    · rw [(hfx x hx).2, (hfx x hx).1]

/-! ### Cell by cell -/

omit [DecidableEq ι] [Field K] [LinearOrder K] [IsStrictOrderedRing K] [FloorRing K] in
theorem src_interior (b : Sides ι) (hc : ∀ a, 0 < b.n a ∧ b.g ≤ b.n a) (a : ι) (tl tu : BCType) (hl : b.lower a = some tl)
    (hu : b.upper a = some tu) (bl : BuiltInBC tl) (bu : BuiltInBC tu) (k : Nat) (h : k < b.n a + 2 * b.g) :
    b.src a k - b.g < b.n a := by
  have hc := hc a
  unfold Sides.src
  rw [hl, hu]
  split_ifs with h1 h2
  · rcases bl with rfl | rfl | rfl <;> simp only [lowerSrc] <;> omega
  · rcases bu with rfl | rfl | rfl <;> simp only [upperSrc] <;> omega
  · omega

/-- The ghost cells hold values of the grid, up to signs at walls. -/
theorem closed_fill (bc : BCConfig ι K) (h : Admissible bc) (hs : Serial bc) (axes : List ι) (hnd : axes.Nodup) (hall : ∀ a, a ∈ axes)
    (m naux : Nat) (hx : bc.numAux = naux) (V : (Fin m → K) → Prop)
    (hV : ∀ a, HasWall bc a → ∀ z, V z → V fun k => if k.val = bc.reflect a then -z k else z k)
    (q aux : GArr ι K) (old : BCArrays ι K) (hq : ∀ x : ι → Nat, (∀ a, x a < bc.n a) → V fun k => q k.val x) :
    ∃ w, applyBcs bc axes q aux old = (w, .ok ()) ∧
      ∀ v : ι → Int, (∀ a, 1 - (bc.g : Int) ≤ v a ∧ v a ≤ bc.n a + bc.g) →
        V (fieldOf m bc.g w.q v) ∧
        (∃ y : ι → Nat, (∀ a, y a < bc.n a) ∧ fieldOf naux bc.g w.aux v = auxAt naux aux y) := by
  obtain ⟨w, hw, hf⟩ := C17_serial_fill bc h hs axes hnd hall q aux old
  refine ⟨w, hw, fun v hv => ?_⟩
  have hin : InGhosted bc fun a => (v a + bc.g - 1).toNat := fun a => by
    have := hv a
    simp only; omega
  constructor
  · have hy : ∀ a, (qSides bc).fold (fun a => (v a + bc.g - 1).toNat) a - bc.g < bc.n a := fun a =>
      src_interior (qSides bc) h.cells a _ _ (by simp [qSides, hs a]) (by simp [qSides, hs a])
        (h.lower a) (h.upper a) _ (hin a)
    have e : fieldOf m bc.g w.q v = fun k => (qSides bc).sign (fun a => some (bc.reflect a)) axes k.val
        (fun a => (v a + bc.g - 1).toNat) * q k.val (fun a => (qSides bc).fold (fun a => (v a + bc.g - 1).toNat) a - bc.g) := by
      funext k
      exact (hf k.val _ hin).1
    rw [e]
    unfold Sides.sign
    clear hall hnd e hw hf
    induction axes with
    | nil => simpa using hq _ hy
    | cons a as ih =>
      simp only [List.map_cons, List.prod_cons]
      by_cases hb : (qSides bc).behindWall a (v a + bc.g - 1).toNat = true
      · have hwall : HasWall bc a := by
          unfold Sides.behindWall at hb
          simp only [Bool.or_eq_true, Bool.and_eq_true, beq_iff_eq, qSides] at hb
          rcases hb with ⟨_, hb⟩ | ⟨_, hb⟩
          · split at hb
            · exact Or.inl (by simpa using hb)
            · cases hb
          · split at hb
            · exact Or.inr (by simpa using hb)
            · cases hb
        convert hV a hwall _ ih using 1
        funext k
        rw [hb]
        by_cases hk : k.val = bc.reflect a
        · simp [hk]
        · rw [if_neg hk, if_neg (by simpa using fun h => hk h.symm), one_mul]
      · convert ih using 1
        funext k
        rw [if_neg (fun hh => hb (Bool.and_eq_true _ _ ▸ hh).1), one_mul]
  · by_cases hp : 0 < bc.numAux
    · refine ⟨fun a => (auxSides bc).fold (fun a => (v a + bc.g - 1).toNat) a - bc.g, fun a =>
        src_interior (auxSides bc) h.cells a _ _ (by simp [auxSides, hs a, hp]) (by simp [auxSides, hs a, hp])
        (h.auxLower hp a) (h.auxUpper hp a) _ (hin a), ?_⟩
      funext k
      exact (hf k.val _ hin).2 hp
    · refine ⟨fun _ => 0, fun a => (h.cells a).1, ?_⟩
      funext k
      have := k.2
      omega

theorem run_values {d : Nat} (c : ParCfg (Fin d) K) (m naux : Nat) (step : IntKern (Fin d) K m naux) (hr : ClassicRun c m naux step)
    (h : Admissible c.bc) (hs : Serial c.bc) (V : (Fin m → K) → Prop)
    (hV : ∀ a, HasWall c.bc a → ∀ z, V z → V fun k => if k.val = c.bc.reflect a then -z k else z k)
    (rnd : K → K) (L : K) (a0 : GArr (Fin d) K) (S : StepSettings K → Prop) (Ok : K → K → Prop)
    (hstep : ∀ dt A Q r cfl, (∀ v : Fin d → Int, (∀ a, 1 - (c.bc.g : Int) ≤ v a ∧ v a ≤ c.bc.n a + c.bc.g) → V (Q v) ∧
        ∃ y : Fin d → Nat, (∀ a, y a < c.bc.n a) ∧ A v = auxAt naux a0 y) →
      step dt c.bc.n A Q = some (r, cfl) → Ok dt (max 0 cfl) → ∀ v : Fin d → Int, (∀ a, 1 ≤ v a ∧ v a ≤ c.bc.n a) → V (r v))
    (hmax : ∀ set m, S set → S { set with maxSteps := m })
    (hget : ∀ t ts te set st cfl, S set → (∀ T, te = some T → t < T) → S { (getDt rnd t ts te set st).1 with cfl := cfl })
    (hok : ∀ t ts te set st cfl, S set → (∀ T, te = some T → t < T) → (cfl ≤ set.cflMax ∨ set.dtVariable = false) →
      Ok (getDt rnd t ts te set st).1.dt cfl)
    (ops : List (StepOp K (GArr (Fin d) K) (GArr (Fin d) K × BCArrays (Fin d) K))) (hops : OnlyEvolves ops)
    (hadj : ∀ f, .adjust f ∈ ops → ∀ set, S set → S (f set))
    (s : StepState K (GArr (Fin d) K) (GArr (Fin d) K × BCArrays (Fin d) K)) (ha : s.sol.rest.1 = a0) (hS : S s.set)
    (hq : ∀ x : Fin d → Nat, (∀ a, x a < c.bc.n a) → V fun k => s.sol.q k.val x) :
    let s' := runSteps (serialEnv c rnd L) ops s
    s'.sol.rest.1 = a0 ∧ ∀ x : Fin d → Nat, (∀ a, x a < c.bc.n a) → V fun k => s'.sol.q k.val x := by
  have key := run_keeps c hr.homogeneous rnd L (fun q => ∀ x : Fin d → Nat, (∀ a, x a < c.bc.n a) → V fun k => q k.val x) a0 S Ok
    ?_ hmax hget hok ops hops hadj s ⟨hq, ha, hS⟩
  · exact ⟨key.2.1, key.1⟩
  · intro dt q work w r cfl hP hw hk hO x hx
    obtain ⟨w', hw', hf⟩ := closed_fill c.bc h hs c.axes (by rw [hr.axes]; exact List.nodup_finRange d)
      (by rw [hr.axes]; exact List.mem_finRange) m naux hr.numAux V hV q a0 work hP
    rw [hw] at hw'
    cases hw'
    rw [hr.kern] at hk
    obtain ⟨r', hs, hi⟩ := onArrays_interior m naux c.bc.g step dt c.bc.n w r cfl hk
    have := hstep dt _ _ r' cfl hf hs hO (fun a => (x a : Int) + 1) (fun a => by have := hx a; omega)
    convert this using 1
    funext k
    exact hi k x

theorem getDt_nonneg (rnd : K → K) (hrnd : ∀ x, 0 ≤ x → 0 ≤ rnd x) (t ts : K) (te : Option K) (set : StepSettings K)
    (st : StepStatus K) (h1 : 0 ≤ set.dt) (h2 : 0 ≤ set.dtMax) (h3 : 0 ≤ set.cflDesired) (hT : ∀ T, te = some T → t < T) :
    0 ≤ (getDt rnd t ts te set st).1.dt := by
  have hc : 0 ≤ (chooseDt rnd set st).1.dt := by
    unfold chooseDt
    split_ifs with a b
    · exact le_min h2 (hrnd _ (div_nonneg (hrnd _ (mul_nonneg h1 h3)) b.le))
    · exact h2
    · exact h1
  unfold getDt
  cases te with
  | none => exact hc
  | some T =>
    have hT' : 0 ≤ rnd (T - t) := hrnd _ (sub_nonneg.mpr (hT T rfl).le)
    simp only [clipDt]
    split_ifs <;> first | exact hT' | exact hc

theorem stable_getDt (rnd : K → K) (hrnd : ∀ x, 0 ≤ x → 0 ≤ rnd x) (t ts : K) (te : Option K) (set : StepSettings K)
    (st : StepStatus K) (cfl : K) (h : StableSettings set) (hT : ∀ T, te = some T → t < T) :
    StableSettings { (getDt rnd t ts te set st).1 with cfl := cfl } := by
  obtain ⟨f1, f2, f3, f4, _⟩ := getDt_frame rnd t ts te set st
  exact ⟨f1.trans h.variable_dt, getDt_nonneg rnd hrnd t ts te set st h.dt h.dtMax h.cflDesired hT, f2 ▸ h.dtMax, f4 ▸ h.cflDesired,
    f3 ▸ h.cflMax⟩

end PyClaw
