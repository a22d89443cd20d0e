import Verif.Spec.SharpWalls
import Verif.Lemmas.Walls
import Verif.Lemmas.SharpImage
import Verif.Props.SharpAffine

set_option linter.unusedSectionVars false

/-!
SharpClaw between walls and on periodic grids: what the right-hand side adds up to.
-/
namespace PyClaw
open Spec

variable {K : Type*} [Field K] [LinearOrder K] [IsStrictOrderedRing K] {d m w naux : Nat}

/-- If every line along axis `t` adds up to nothing, so does the box. -/
theorem sum_lines (n : Fin d → Nat) (t : Fin d) (F : (Fin d → Nat) → K)
    (h : ∀ x : Fin d → Nat, ∑ i ∈ Finset.range (n t), F (Function.update x t i) = 0) :
    ∑ x ∈ Fintype.piFinset fun a => Finset.range (n a), F x = 0 := by
  have mem : ∀ x : Fin d → Nat, x ∈ Fintype.piFinset (fun a => Finset.range (n a)) ↔ ∀ a, x a < n a := by
    intro x; simp [Fintype.mem_piFinset]
  rw [← Finset.sum_fiberwise_of_maps_to (t := (Fintype.piFinset fun a => Finset.range (n a)).image fun x => Function.update x t 0)
    (g := fun x => Function.update x t 0) (fun x hx => Finset.mem_image_of_mem _ hx)]
  refine Finset.sum_eq_zero fun y hy => ?_
  obtain ⟨z, hz, rfl⟩ := Finset.mem_image.mp hy
  rw [mem] at hz
  rw [← h z]
  refine Finset.sum_bij' (fun x _ => x t) (fun i _ => Function.update z t i) ?_ ?_ ?_ ?_ ?_
  · intro x hx
    rw [Finset.mem_filter, mem] at hx
    exact Finset.mem_range.mpr (hx.1 t)
  · intro i hi
    rw [Finset.mem_filter, mem]
    refine ⟨fun a => ?_, by rw [Function.update_idem]⟩
    by_cases e : a = t
    · subst e; rw [Function.update_self]; exact Finset.mem_range.mp hi
    · rw [Function.update_of_ne e]; exact hz a
  · intro x hx
    rw [Finset.mem_filter] at hx
    funext a
    by_cases e : a = t
    · subst e; rw [Function.update_self]
    · have := congrFun hx.2 a
      rw [Function.update_of_ne e, Function.update_of_ne e] at this
      rw [Function.update_of_ne e, this]
  · intro i _
    rw [Function.update_self]
  · intro x hx
    rw [Finset.mem_filter] at hx
    congr 1
    funext a
    by_cases e : a = t
    · subst e; rw [Function.update_self]
    · have := congrFun hx.2 a
      rw [Function.update_of_ne e, Function.update_of_ne e] at this
      rw [Function.update_of_ne e, this]

section
variable (f2003 : Bool) (R : ReconCfg K m w) (g : Nat) (capa : Option ((Fin naux → K) → K))

/-- What a row of periodic data adds up to. -/
theorem row_conserves (hcap : capa = none ∨ f2003 = false) (hR : R.Fits g) (hS : R.Supported g) {rp : Riemann K (Fin naux → K) m w}
    {fl : (Fin m → K) → (Fin naux → K) → Fin m → K} (hf : FluxDifference rp fl) {tf : TotalFluct K (Fin naux → K) m}
    (ht : ∀ t, tf = some t → TotalFluctuation t fl) (n : Nat) (dx dt : K) (hdx : dx ≠ 0) (aux : Int → Fin naux → K)
    (q : Int → Fin m → K) (hk : ∀ κ i, capa = some κ → κ (aux i) ≠ 0) (hq : ∀ i, q (i + n) = q i) (ha : ∀ i, aux (i + n) = aux i) :
    total 1 n (cellVolume dx capa aux) (rowNew f2003 R rp tf g dx capa dt aux q) = 0 := by
  have he := supported_some hS rp n n aux q
  generalize (reconRow R rp n n g aux q).getD R.old = e at he
  have hm : EdgesMatch 1 n e := by
    have near := fun i => reconRow_near R rp le_rfl le_rfl hR aux aux q q i (n : Int) (fun u _ _ => ⟨(ha u).symm, (hq u).symm⟩) he he
    refine ⟨?_, ?_⟩
    · have := (near 0).1 le_rfl (by omega) (by omega) (by omega)
      simpa using this.symm
    · have := (near 1).2 le_rfl (by omega) (by omega) (by omega)
      exact this.symm
  have key := C44_fortran_matching_partial f2003 rp fl hf tf ht ⟨n, g, dt, dx⟩ hdx hR.1 capa aux hk hcap.symm (fun i _ _ => ha i) e hm
  rw [← key]
  unfold total
  refine Finset.sum_congr rfl fun i hi => ?_
  have := Finset.mem_range.mp hi
  rw [(flux1_row f2003 R rp tf g dx capa hcap hR le_rfl dt aux q he).1 (1 + i) (by omega) (by dsimp only at this; omega)]

/-- The same for a box and all sweeps. -/
theorem sweeps_conserve (hcap : capa = none ∨ f2003 = false) (hR : R.Fits g) (hS : R.Supported g) {rp : Fin d → Riemann K (Fin naux → K) m w}
    {fl : Fin d → (Fin m → K) → (Fin naux → K) → Fin m → K} (hf : ∀ t, FluxDifference (rp t) (fl t))
    {tf : Fin d → TotalFluct K (Fin naux → K) m} (ht : ∀ t f, tf t = some f → TotalFluctuation f (fl t)) (dx : Fin d → K)
    (hdx : ∀ t, dx t ≠ 0) (dV dt : K) (n : Fin d → Nat) (A : (Fin d → Int) → Fin naux → K) (Q : (Fin d → Int) → Fin m → K)
    (hk : ∀ κ v, capa = some κ → κ (A v) ≠ 0) (pQ : ∀ a v, Q (Function.update v a (v a + n a)) = Q v)
    (pA : ∀ a v, A (Function.update v a (v a + n a)) = A v) (k : Fin m) :
    boxTotal n dV capa A (fun v => ∑ t, sweepNew f2003 R g capa rp tf dx t dt A Q v) k = 0 := by
  unfold boxTotal
  simp only [Finset.sum_apply, Finset.mul_sum]
  rw [Finset.sum_comm]
  refine Finset.sum_eq_zero fun t _ => sum_lines n t _ fun x => ?_
  have up : ∀ i : Nat, (fun a => ((Function.update x t i a : Nat) : Int) + 1) = Function.update (fun a => (x a : Int) + 1) t (1 + i) := by
    intro i
    funext a
    by_cases e : a = t
    · subst e; rw [Function.update_self, Function.update_self]; ring
    · rw [Function.update_of_ne e, Function.update_of_ne e]
  have per : ∀ {β : Type _} (X : (Fin d → Int) → β), (∀ a v, X (Function.update v a (v a + n a)) = X v) →
      ∀ i : Int, X (Function.update (fun a => (x a : Int) + 1) t (i + n t)) = X (Function.update (fun a => (x a : Int) + 1) t i) := by
    intro β X h i
    have := h t (Function.update (fun a => (x a : Int) + 1) t i)
    rwa [Function.update_idem, Function.update_self] at this
  have key := row_conserves f2003 R g capa hcap hR hS (hf t) (ht t) (n t) (dx t) dt (hdx t)
    (fun i => A (Function.update (fun a => (x a : Int) + 1) t i)) (fun i => Q (Function.update (fun a => (x a : Int) + 1) t i))
    (fun κ i h => hk κ _ h) (per Q (pQ)) (per A pA)
  have key := congrFun key k
  unfold total at key
  simp only [Finset.sum_apply, Pi.smul_apply, smul_eq_mul, Pi.zero_apply] at key
  rw [← mul_zero (dV / dx t), ← key, Finset.mul_sum]
  refine Finset.sum_congr rfl fun i _ => ?_
  simp only [up]
  unfold sweepNew
  simp only [Function.update_idem, Function.update_self]
  rw [← mul_assoc]
  congr 1
  have := hdx t
  unfold cellVolume capacity
  cases capa with
  | none => field_simp
  | some κ => field_simp

end

/-! ### The kernels between walls -/

/-- The kernel that adds its right-hand side to the data. -/
def added (step : IntKern (Fin d) K m naux) : IntKern (Fin d) K m naux := fun dt n A Q =>
  (step dt n A Q).map fun r => (fun v => Q v + r.1 v, r.2)

theorem added_some {step : IntKern (Fin d) K m naux} {dt : K} {n : Fin d → Nat} {A : (Fin d → Int) → Fin naux → K}
    {Q r : (Fin d → Int) → Fin m → K} {cfl : K} (h : added step dt n A Q = some (r, cfl)) :
    ∃ r0, step dt n A Q = some (r0, cfl) ∧ r = fun v => Q v + r0 v := by
  unfold added at h
  cases e : step dt n A Q with
  | none => rw [e] at h; cases h
  | some p =>
    rw [e] at h
    obtain ⟨p1, p2⟩ := p
    simp only [Option.map_some, Option.some.injEq, Prod.mk.injEq] at h
    exact ⟨p1, by rw [h.2], h.1.symm⟩

theorem boxTotal_add (n : Fin d → Nat) (dV : K) (capa : Option ((Fin naux → K) → K)) (A : (Fin d → Int) → Fin naux → K)
    (Q r : (Fin d → Int) → Fin m → K) (k : Fin m) :
    boxTotal n dV capa A (fun v => Q v + r v) k = boxTotal n dV capa A Q k + boxTotal n dV capa A r k := by
  unfold boxTotal
  rw [← Finset.sum_add_distrib]
  refine Finset.sum_congr rfl fun x _ => ?_
  show _ * (Q _ k + r _ k) = _
  rw [mul_add]

section
variable {τ : Type*} {step : IntKern (Fin d) K m naux} {g : Nat} {P : Prop}
  {new : K → ((Fin d → Int) → Fin naux → K) → ((Fin d → Int) → Fin m → K) → (Fin d → Int) → Fin m → K} {low : τ → Fin d → Int}
  {nums : K → ((Fin d → Int) → Fin naux → K) → ((Fin d → Int) → Fin m → K) → τ → (Fin d → Int) → K → Prop}

theorem WideStencil.value (S : WideStencil step g (fun _ _ => P) new low nums) {dt : K} {n : Fin d → Nat} {A : (Fin d → Int) → Fin naux → K}
    {Q r : (Fin d → Int) → Fin m → K} {cfl : K} (hs : step dt n A Q = some (r, cfl)) (hn : ∀ a, 0 < n a) :
    P ∧ ∀ v : Fin d → Int, (∀ a, 1 ≤ v a ∧ v a ≤ n a) → r v = new dt A Q v := by
  by_cases hp : P
  · obtain ⟨r', cfl', h1, h2, _⟩ := S.runs dt n A Q hn fun _ _ => hp
    rw [hs] at h1
    obtain ⟨rfl, rfl⟩ : r = r' ∧ cfl = cfl' := by simpa using h1
    exact ⟨hp, h2⟩
  · rw [S.stops dt n A Q (fun _ => 1) (fun a => by have := hn a; omega) hp] at hs
    cases hs

theorem WideStencil.added_sized (S : WideStencil step g (fun _ _ => P) new low nums) (hp : P) (ok : (Fin naux → K) → Prop) :
    SizedKernel (added step) ok where
  runs dt n A Q hn _ := by
    obtain ⟨r, cfl, h, _⟩ := S.runs dt n A Q hn fun _ _ => hp
    exact ⟨_, cfl, by unfold added; rw [h]; rfl⟩
  sized dt n n' A Q r cfl r' cfl' hle hs hs' v hv := by
    obtain ⟨r0, h0, rfl⟩ := added_some hs
    obtain ⟨r1, h1, rfl⟩ := added_some hs'
    have hn : ∀ a, 0 < n a := fun a => by have := hv a; omega
    dsimp only
    rw [(S.value h0 hn).2 v hv, (S.value h1 fun a => (hn a).trans_le (hle a)).2 v fun a => by have := hv a; have := hle a; omega]

theorem WideStencil.added_local (S : WideStencil step g (fun _ _ => P) new low nums) (hp : P) : LocalResult (added step) g := by
  intro dt n A A' Q Q' r cfl hn h hs
  obtain ⟨r0, h0, rfl⟩ := added_some hs
  obtain ⟨r1, cfl1, h1, h2, _⟩ := S.runs dt n A' Q' hn fun _ _ => hp
  refine ⟨_, cfl1, by unfold added; rw [h1]; rfl, fun v hv => ?_⟩
  dsimp only
  rw [h2 v hv, (S.value h0 hn).2 v hv, (h v fun a => by have := hv a; omega).2]
  have := S.newLocal dt A A' Q Q' (fun _ => 0) v fun u hu => by
    have := h u fun a => by
      have h1 := hu a
      have h2 := hv a
      omega
    simpa using this
  simp only [add_zero] at this
  rw [this]

end

/-- The right-hand side between walls, for kernels that keep mirror images and conserve on periodic data. -/
theorem wide_walls {τ : Type*} {step : IntKern (Fin d) K m naux} {P : Prop} (c : SharpGrid (Fin d) K)
    {new : K → ((Fin d → Int) → Fin naux → K) → ((Fin d → Int) → Fin m → K) → (Fin d → Int) → Fin m → K} {low : τ → Fin d → Int}
    {nums : K → ((Fin d → Int) → Fin naux → K) → ((Fin d → Int) → Fin m → K) → τ → (Fin d → Int) → K → Prop}
    (S : WideStencil step c.bc.g (fun _ _ => P) new low nums) (capa : Option ((Fin naux → K) → K)) (dV : K)
    (hmir : P → ∀ a, HasWall c.bc a → ∀ dt (n : Fin d → Nat) A Q v,
      new dt (fun v => A (Function.update v a ((n a : Int) + 1 - v a)))
        (fun v => signed (axisSign c.bc a m) (Q (Function.update v a ((n a : Int) + 1 - v a)))) v =
      signed (axisSign c.bc a m) (new dt A Q (Function.update v a ((n a : Int) + 1 - v a))))
    (hcons : P → ∀ dt (n : Fin d → Nat) A Q, (∀ a, 0 < n a) → (∀ κ v, capa = some κ → κ (A v) ≠ 0) →
      (∀ a v, Q (Function.update v a (v a + n a)) = Q v) → (∀ a v, A (Function.update v a (v a + n a)) = A v) →
      ∀ k, boxTotal n dV capa A (new dt A Q) k = 0)
    (hk : c.kern = dqArrays m naux c.bc.g step) (hp : SharpProblem c naux) (he : Enclosed c.bc) (hsrc : c.source = none)
    (aux : GArr (Fin d) K) (hpos : PositiveCapacity c.bc.n capa aux) (dt t : K) (q : GArr (Fin d) K) (k : Nat) (hkm : k < m)
    (hu : Unreflected c.bc k) : gridTotal c.bc.n dV capa aux (dqSerial c aux dt t q).1 k = 0 := by
  have hn : ∀ a, 0 < c.bc.n a := fun a => (hp.admissible.cells a).1
  have zero : gridTotal c.bc.n dV capa aux (0 : GArr (Fin d) K) k = 0 := by
    unfold gridTotal
    exact Finset.sum_eq_zero fun x _ => mul_zero _
  obtain ⟨wA, hw, hF⟩ := serial_fill c.bc hp.admissible hp.serial c.axes (by rw [hp.axes]; exact List.nodup_finRange d)
    (by rw [hp.axes]; exact List.mem_finRange) m naux hp.numAux q aux ⟨fun _ _ => 0, fun _ _ => 0⟩
  rw [hp.axes] at hF
  have hw1 : applyBcs c.par.bc c.par.axes (gridData q aux).q (gridData q aux).aux (gridData q aux).work = (wA, .ok ()) := hw
  have hk1 : c.par.kern dt c.par.bc.n wA = dqArrays m naux c.bc.g step dt c.bc.n wA := by
    show c.kern dt c.bc.n wA = _
    rw [hk]
  cases hst : step dt c.bc.n (fieldOf naux c.bc.g wA.aux) (fieldOf m c.bc.g wA.q) with
  | none =>
    have e : dqSerial c aux dt t q = (0, 0) := by
      unfold dqSerial hypSerial
      rw [hw1]
      dsimp only
      rw [hk1]
      unfold dqArrays onArrays
      rw [hst]
      rfl
    rw [e]
    exact zero
  | some p =>
    obtain ⟨r, cfl⟩ := p
    have e : dqSerial c aux dt t q = (fun k idx => if k < m then putBack m c.bc.g wA.q r k (fun a => idx a + c.bc.g) else 0, cfl) := by
      unfold dqSerial hypSerial
      rw [hw1]
      dsimp only
      rw [hk1]
      unfold dqArrays onArrays withSource
      rw [hst, hsrc]
      rfl
    have hS : P := (S.value hst hn).1
    have key := walls_filled (ok := fun z => ∀ κ, capa = some κ → 0 < κ z) (S.added_sized hS _) c.bc hp.numAux hp.admissible he
      (S.added_local hS) ?_ dV capa ?_ hF (fun x hx κ hκ => hpos κ hκ x hx)
      (show added step dt c.bc.n _ _ = some (_, cfl) by unfold added; rw [hst]; rfl) ⟨k, hkm⟩ hu
    · have e2 : gridTotal c.bc.n dV capa aux q k =
          ∑ x ∈ Fintype.piFinset fun a => Finset.range (c.bc.n a), dV * capacity capa (auxAt naux aux x) *
            fieldOf m c.bc.g wA.q (fun a => (x a : Int) + 1) ⟨k, hkm⟩ := by
        unfold gridTotal
        refine Finset.sum_congr rfl fun x hx => ?_
        have hx' : ∀ a, x a < c.bc.n a := fun a => Finset.mem_range.mp (Fintype.mem_piFinset.mp hx a)
        have hv : ∀ a, 1 - (c.bc.g : Int) ≤ (x a : Int) + 1 ∧ (x a : Int) + 1 ≤ c.bc.n a + c.bc.g := fun a => by have := hx' a; omega
        rw [(hF _ hv).1]
        have e3 : ghostSign c.bc (List.finRange d) (fun a => (x a : Int) + 1) k = 1 := by
          unfold ghostSign
          refine List.prod_eq_one fun y hy => ?_
          obtain ⟨a, _, rfl⟩ := List.mem_map.mp hy
          have : pastWall (c.bc.bcLower a) (c.bc.bcUpper a) (c.bc.n a) ((x a : Int) + 1) = false := by
            unfold pastWall
            have := hx' a
            rw [decide_eq_false (by omega), decide_eq_false (by omega)]
            rfl
          rw [this]
          simp
        dsimp only
        rw [e3, one_mul]
        congr 2
        funext a
        exact (foldCell_interior _ _ _ _ (hx' a)).symm
      have e4 : gridTotal c.bc.n dV capa aux (dqSerial c aux dt t q).1 k =
          ∑ x ∈ Fintype.piFinset fun a => Finset.range (c.bc.n a), dV * capacity capa (auxAt naux aux x) *
            r (fun a => (x a : Int) + 1) ⟨k, hkm⟩ := by
        rw [e]
        unfold gridTotal
        refine Finset.sum_congr rfl fun x hx => ?_
        have e1 : ∀ (y : Fin d → Nat) a, (((y a + c.bc.g : Nat) : Int) + 1 - c.bc.g) = y a + 1 := fun y a => by omega
        simp only [hkm, if_true, putBack, dif_pos, e1]
      rw [e2] at key
      simp only [Pi.add_apply, mul_add, Finset.sum_add_distrib] at key
      rw [e4]
      exact left_eq_add.mp key.symm
    · intro a hwall dt n A Q r cfl hA hQ hs v hv
      obtain ⟨r0, h0, rfl⟩ := added_some hs
      have hnn : ∀ b, 0 < n b := fun b => by have := hv b; omega
      have hfl : ∀ b, 1 ≤ flipAt a (n a + 1) v b ∧ flipAt a (n a + 1) v b ≤ n b := by
        intro b
        have := hv b
        unfold flipAt
        by_cases hb : b = a
        · subst hb; rw [Function.update_self]; omega
        · rw [Function.update_of_ne hb]; exact this
      have key := hmir hS a hwall dt n A Q (flipAt a (n a + 1) v)
      have back : Function.update (flipAt a ((n a : Int) + 1) v) a ((n a : Int) + 1 - flipAt a ((n a : Int) + 1) v a) = v := by
        unfold flipAt
        simp
      rw [back] at key
      have eA : (fun v => A (Function.update v a ((n a : Int) + 1 - v a))) = A := funext fun v => hA v
      have eQ : (fun v => signed (axisSign c.bc a m) (Q (Function.update v a ((n a : Int) + 1 - v a)))) = Q := by
        funext v
        have : Q (Function.update v a ((n a : Int) + 1 - v a)) = signed (axisSign c.bc a m) (Q v) := hQ v
        rw [this, signed_signed (axisSign_isSign c.bc a)]
      rw [eA, eQ] at key
      dsimp only
      rw [(S.value h0 hnn).2 _ hfl, (S.value h0 hnn).2 v hv, hQ v]
      rw [key]
      funext k
      simp only [signed, Pi.add_apply, mul_add]
    · intro dt n A Q r cfl hn hA pQ pA hs k
      obtain ⟨r0, h0, rfl⟩ := added_some hs
      have hnn : ∀ b, 0 < n b := fun b => (hn b).1
      rw [boxTotal_add, add_eq_left]
      rw [← hcons hS dt n A Q hnn (fun κ v h => (hA v κ h).ne') pQ pA k]
      unfold boxTotal
      refine Finset.sum_congr rfl fun x hx => ?_
      have hx' : ∀ a, x a < n a := fun a => Finset.mem_range.mp (Fintype.mem_piFinset.mp hx a)
      rw [(S.value h0 hnn).2 _ fun a => by have := hx' a; omega]

/-- The right-hand side between walls, for kernels that go sweep after sweep. -/
theorem sharp_walls {step : IntKern (Fin d) K m naux} (f2003 : Bool) (R : ReconCfg K m w) (capa : Option ((Fin naux → K) → K))
    {rp : Fin d → Riemann K (Fin naux → K) m w} {tf : Fin d → TotalFluct K (Fin naux → K) m} (dx : Fin d → K) (hdx : ∀ a, dx a ≠ 0)
    {fl : Fin d → (Fin m → K) → (Fin naux → K) → Fin m → K} (hf : ∀ t, FluxDifference (rp t) (fl t))
    (ht : ∀ t f, tf t = some f → TotalFluctuation f (fl t)) (c : SharpGrid (Fin d) K) (hcap : capa = none ∨ f2003 = false)
    (hR : R.Fits c.bc.g)
    (S : WideStencil step c.bc.g (fun _ _ => R.Supported c.bc.g)
      (fun dt aux q v => ∑ t, sweepNew f2003 R c.bc.g capa rp tf dx t dt aux q v) (fun t a => if a = t then 1 else 0)
      (sweepNum f2003 R c.bc.g capa rp dx))
    (hM : ∀ a, HasWall c.bc a → OwnImageSharp c.bc R rp tf a)
    (hk : c.kern = dqArrays m naux c.bc.g step) (hp : SharpProblem c naux) (he : Enclosed c.bc) (hsrc : c.source = none)
    (aux : GArr (Fin d) K) (hpos : PositiveCapacity c.bc.n capa aux) (dV dt t : K) (q : GArr (Fin d) K) (k : Nat) (hkm : k < m)
    (hu : Unreflected c.bc k) : gridTotal c.bc.n dV capa aux (dqSerial c aux dt t q).1 k = 0 := by
  refine wide_walls c S capa dV (fun _ a hwall dt n A Q v => ?_)
    (fun hS dt n A Q _ hA pQ pA k => sweeps_conserve f2003 R c.bc.g capa hcap hR hS hf ht dx hdx dV dt n A Q hA pQ pA k) hk hp he hsrc aux hpos dt t q
    k hkm hu
  obtain ⟨hE, ⟨π, hM1⟩, hT1, hM2, hT2⟩ := hM a hwall
  choose! ρ hρ using hM2
  exact (sweeps_mirror f2003 R c.bc.g capa (rp := rp) (rp' := rp) (tf := tf) (tf' := tf) dx a (axisSign_isSign c.bc a) (RA := id)
    (π := fun b => if b = a then π else ρ b) hcap hR hE (by rw [if_pos rfl]; exact hM1) hT1
    (fun b hb => by rw [if_neg hb]; exact hρ b hb) hT2 (fun _ _ _ => rfl) n dt A Q).1 v

end PyClaw
