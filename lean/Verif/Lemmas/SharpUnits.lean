import Verif.Lemmas.SharpClock
import Verif.Lemmas.SharpImage
import Verif.Lemmas.Units

set_option linter.unusedSectionVars false

/-!
SharpClaw on a grid in other units of length, time and of the solution.
-/
namespace PyClaw
open Spec

variable {K A : Type*} [Field K] [LinearOrder K] [IsStrictOrderedRing K] {d m w naux : Nat}

/-! ### A row -/

/-- The Riemann solver with all speeds divided by `v`. -/
def slowedRp (v : K) (fwave : Bool) (rp : Riemann K A m w) : Riemann K A m w := fun ql qr al ar =>
  ⟨fun p => if fwave then fun k => (rp ql qr al ar).wave p k / v else (rp ql qr al ar).wave p, fun p => (rp ql qr al ar).s p / v,
    fun k => (rp ql qr al ar).amdq k / v, fun k => (rp ql qr al ar).apdq k / v⟩

theorem slowed_turned {σ : Fin m → K} {v : K} (hv : 0 < v) {RA : A → A} {fwave : Bool} {rp rp' : Riemann K A m w}
    (h : InUnits σ v RA fwave rp rp') : TurnedImage (relabel σ 1) RA 1 rp (slowedRp v fwave rp') := by
  intro ql qr al ar
  obtain ⟨h1, h2, h3, h4⟩ := h ql qr al ar
  have e : ∀ u, relabel σ 1 u = signed σ u := fun _ => rfl
  simp only [slowedRp, e]
  refine ⟨fun p => ?_, fun p => ?_, ?_, ?_⟩
  · simp only [Equiv.Perm.coe_one, id]
    rw [h1, mul_div_cancel_left₀ _ hv.ne']
  · simp only [Equiv.Perm.coe_one, id]
    cases fwave
    · simp only [Bool.false_eq_true, if_false]
      funext k
      rw [h2]
      rfl
    · simp only [if_true]
      funext k
      rw [h2, if_pos rfl, mul_div_cancel_left₀ _ hv.ne']
      rfl
  · funext k
    rw [h3, mul_div_cancel_left₀ _ hv.ne']
    rfl
  · funext k
    rw [h4, mul_div_cancel_left₀ _ hv.ne']
    rfl

/-- The reconstruction uses waves, not speeds. -/
theorem reconRow_slowed (R : ReconCfg K m w) {g : Nat} (hR : R.Fits g) (v : K) (rp : Riemann K A m w) (n N : Nat) (aux : Int → A)
    (q : Int → Fin m → K) : reconRow R (slowedRp v R.fwave rp) n N g aux q = reconRow R rp n N g aux q := by
  unfold reconRow fRecon
  dsimp only
  by_cases h1 : R.limType = 1 ∧ R.charDecomp = 0
  · simp only [if_pos h1]
  · by_cases h2 : R.limType = 1 ∧ R.charDecomp = 1
    · exact absurd ⟨h2.1, (hR.2.1 h2.1).1⟩ h1
    · simp only [if_neg h1, if_neg h2]
      by_cases h4 : R.limType = 2 ∧ R.charDecomp = 1 ∧ ¬ R.fwave = true
      · have hf : R.fwave = false := by simpa using h4.2.2
        simp only [slowedRp, hf, Bool.false_eq_true, if_false]
      · simp only [if_neg h4]

variable (f2003 : Bool) (R : ReconCfg K m w) (g : Nat) (capa : Option (A → K))

theorem fluxDtdx_unit {lx tx : K} (hl : 0 < lx) (ht : 0 < tx) (n : Nat) (dt dx : K) (aux : Int → A) (i : Int) :
    fluxDtdx f2003 ⟨n, g, tx * dt, lx * dx⟩ capa aux i = fluxDtdx f2003 ⟨n, g, dt, dx⟩ capa aux i / (lx / tx) := by
  unfold fluxDtdx
  cases capa with
  | none =>
    dsimp only
    rw [div_div_div_eq, mul_comm (dx) lx, mul_comm dt tx]
  | some κ =>
    dsimp only
    split_ifs <;> rw [div_div_div_eq, mul_comm dt tx] <;> congr 1 <;> ring

/-- The same for the total fluctuation solver. -/
def slowedTf (v : K) (tf : TotalFluct K A m) : TotalFluct K A m := tf.map fun f ql qr al ar k => f ql qr al ar k / v

theorem slowed_total {σ : Fin m → K} {v : K} (hv : 0 < v) {RA : A → A} {tf tf' : TotalFluct K A m} (h : TotalInUnits σ v RA tf tf') :
    TurnedTotal (relabel σ 1) RA tf (slowedTf v tf') := by
  match tf, tf', h with
  | none, none, _ => trivial
  | some f, some f', h =>
    intro ql qr al ar
    have := h ql qr al ar
    simp only [show ∀ u, relabel σ 1 u = signed σ u from fun _ => rfl]
    funext k
    rw [this, mul_div_cancel_left₀ _ hv.ne']
    rfl

theorem flux1_slowed {lx tx : K} (hl : 0 < lx) (ht : 0 < tx) (rp : Riemann K A m w) (tf : TotalFluct K A m) (n : Nat) (dt dx : K)
    (aux : Int → A) (e : Edges K m) (fwave : Bool) (i : Int) :
    (flux1 f2003 rp tf ⟨n, g, tx * dt, lx * dx⟩ capa aux e).1 i =
      (flux1 f2003 (slowedRp (lx / tx) fwave rp) (slowedTf (lx / tx) tf) ⟨n, g, dt, dx⟩ capa aux e).1 i := by
  have key : ∀ (x : K) (u u' : Fin m → K), (u' = fun k => u k / (lx / tx)) → -(x / (lx / tx)) • u = -x • u' := by
    rintro x u u' rfl
    funext k
    simp only [Pi.smul_apply, smul_eq_mul]
    ring
  unfold flux1
  cases tf with
  | none =>
    simp only [slowedTf, Option.map_none]
    split_ifs
    · rw [fluxDtdx_unit f2003 g capa hl ht]
      refine key _ _ _ (funext fun k => ?_)
      simp only [slowedRp, Pi.add_apply]
      ring
    · rfl
  | some f =>
    simp only [slowedTf, Option.map_some]
    split_ifs
    · rw [fluxDtdx_unit f2003 g capa hl ht]
      refine key _ _ _ (funext fun k => ?_)
      simp only [slowedRp, Pi.add_apply]
      ring
    · rfl

theorem number_slowed {lx tx : K} (hl : 0 < lx) (ht : 0 < tx) (rp : Riemann K A m w) (n : Nat) (dt dx : K)
    (aux : Int → A) (e : Edges K m) (fwave : Bool) (i : Int) (x : K) :
    WaveNumber (fluxDtdx f2003 ⟨n, g, tx * dt, lx * dx⟩ capa aux) (rowRp rp aux e) i x ↔
      WaveNumber (fluxDtdx f2003 ⟨n, g, dt, dx⟩ capa aux) (rowRp (slowedRp (lx / tx) fwave rp) aux e) i x := by
  have key : ∀ y s : K, y / (lx / tx) * s = y * (s / (lx / tx)) := fun y s => by ring
  have key' : ∀ y s : K, -(y / (lx / tx)) * s = -y * (s / (lx / tx)) := fun y s => by ring
  unfold WaveNumber rowRp
  simp only [fluxDtdx_unit f2003 g capa hl ht, slowedRp, key, key']

/-- The reconstruction in other units. -/
theorem fRecon_unit {σ : Fin m → K} {RA : A → A} (hσ : ReconUnits σ R)
    {rp rp' : Riemann K A m w} (hM : TurnedImage (relabel σ 1) RA 1 rp rp') (hR : R.Fits g)
    (aux : Int → A) (q : Int → Fin m → K) {e e' : Edges K m}
    (he : reconRow R rp 1 1 g aux q = some e)
    (he' : reconRow R rp' 1 1 g (fun i => RA (aux i)) (fun i => relabel σ 1 (q i)) = some e') :
    (∀ i : Int, 0 ≤ i → i ≤ (1 : Nat) → e'.qr i = relabel σ 1 (e.qr i)) ∧ (∀ i : Int, 1 ≤ i → i ≤ (1 : Nat) + 1 → e'.ql i = relabel σ 1 (e.ql i)) := by
  unfold reconRow at he he'
  rw [ite_self] at he he'
  by_cases h1 : R.limType = 1
  · have h0 := hR.2.1 h1
    have hg2 : (2 : Int) ≤ g := by exact_mod_cast h0.2
    unfold fRecon at he he'
    dsimp only at he he'
    rw [if_pos ⟨h1, h0.1⟩] at he he'
    cases he; cases he'
    have hr : ∀ (k : Fin m) (x y z : K), (σ k * x - σ k * y) / (σ k * y - σ k * z) = (x - y) / (y - z) := by
      intro k x y z
      rw [← mul_sub, ← mul_sub, mul_div_mul_left _ _ (hσ.1 k)]
    constructor <;> intro i i1 i2 <;> funext k <;> simp only [fTvd2, relabel, Equiv.Perm.coe_one, id] <;>
      rw [if_pos (by push_cast at *; omega), if_neg (by omega), if_pos (by push_cast at *; omega), if_neg (by omega), hr] <;> ring
  · exact fRecon_turn (hσ.2 h1) 1 R hM ⟨1, g, 0, 0⟩ hR.2 aux q he he'

theorem row_unit {σ : Fin m → K} {RA : A → A} (hσ : ReconUnits σ R) (hR : R.Fits g) {lx tx : K} (hl : 0 < lx) (ht : 0 < tx)
    {rp rp' : Riemann K A m w} (hM : InUnits σ (lx / tx) RA R.fwave rp rp')
    {tf tf' : TotalFluct K A m} (hT : TotalInUnits σ (lx / tx) RA tf tf') (hc : ∀ κ, capa = some κ → ∀ z, κ (RA z) = κ z)
    (dx dt : K) (aux : Int → A) (q : Int → Fin m → K) (i : Int) :
    rowNew f2003 R rp' tf' g (lx * dx) capa (tx * dt) (fun u => RA (aux u)) (fun u => relabel σ 1 (q u)) i =
      relabel σ 1 (rowNew f2003 R rp tf g dx capa dt aux q i) ∧
    ∀ x, rowNum f2003 R rp' g (lx * dx) capa (tx * dt) (fun u => RA (aux u)) (fun u => relabel σ 1 (q u)) i x ↔
      rowNum f2003 R rp g dx capa dt aux q i x := by
  have hv : 0 < lx / tx := div_pos hl ht
  have hM' := slowed_turned hv hM
  have hT' := slowed_total hv hT
  have hn : ∀ (aux aux' : Int → A) (q q' : Int → Fin m → K),
      reconRow R rp 1 1 g aux q = none ↔ reconRow R (slowedRp (lx / tx) R.fwave rp') 1 1 g aux' q' = none :=
    fun aux aux' q q' => row_options R g R.limEqn rp _ aux aux' q q'
  unfold rowNew rowNum
  rw [← reconRow_slowed R hR (lx / tx) rp']
  simp only [flux1_slowed f2003 g capa hl ht rp' tf' 1 dt dx _ _ R.fwave, number_slowed f2003 g capa hl ht rp' 1 dt dx _ _ R.fwave]
  generalize slowedRp (lx / tx) R.fwave rp' = rps at *
  generalize slowedTf (lx / tx) tf' = tfs at *
  clear hM hT
  cases he : reconRow R rp 1 1 g (fun u => aux (u + (i - 1))) (fun u => q (u + (i - 1))) with
  | none =>
    rw [hn _ (fun u => RA (aux (u + (i - 1)))) _ (fun u => relabel σ 1 (q (u + (i - 1))))] at he
    rw [he]
    refine ⟨?_, by simp⟩
    funext k
    simp [relabel]
  | some e =>
    cases he' : reconRow R rps 1 1 g (fun u => RA (aux (u + (i - 1)))) (fun u => relabel σ 1 (q (u + (i - 1)))) with
    | none =>
      rw [← hn (fun u => aux (u + (i - 1))) _ (fun u => q (u + (i - 1))) _, he] at he'
      cases he'
    | some e' =>
      have key := fRecon_unit R g hσ hM' hR (fun u => aux (u + (i - 1))) (fun u => q (u + (i - 1))) he he'
      have r0 := key.1 0 le_rfl (by norm_num)
      have r1 := key.1 1 (by norm_num) (by norm_num)
      have l1 := key.2 1 le_rfl (by norm_num)
      have l2 := key.2 2 (by norm_num) (by norm_num)
      have hd := dtdx_turn f2003 capa hc ⟨1, g, dt, dx⟩ fun u => aux (u + (i - 1))
      constructor
      · dsimp only
        unfold flux1
        rw [hd]
        match tf, tfs, hT' with
        | none, none, _ =>
          dsimp only
          rw [if_pos (by norm_num), if_pos (by norm_num), relabel_smul, relabel_add, relabel_add, relabel_add]
          norm_num only
          rw [r0, r1, l1, l2, (hM' _ _ _ _).2.2.1, (hM' _ _ _ _).2.2.1, (hM' _ _ _ _).2.2.2, (hM' _ _ _ _).2.2.2]
        | some f, some f', hT =>
          dsimp only
          rw [if_pos (by norm_num), if_pos (by norm_num), relabel_smul, relabel_add, relabel_add]
          norm_num only
          rw [r0, r1, l1, l2, (hM' _ _ _ _).2.2.1, (hM' _ _ _ _).2.2.2, hT]
      · intro x
        simp only [Option.some.injEq, exists_eq_left']
        rw [hd]
        unfold WaveNumber rowRp
        norm_num only
        rw [r0, l1]
        refine exists_congr fun p => ?_
        rw [show (rps (relabel σ 1 (e.qr 0)) (relabel σ 1 (e.ql 1)) (RA (aux (0 + (i - 1)))) (RA (aux (1 + (i - 1))))).s p = _ from
          (hM' _ _ _ _).1 p]

/-! ### The grid -/

section
variable (capa : Option ((Fin naux → K) → K)) {rp rp' : Fin d → Riemann K (Fin naux → K) m w} {tf tf' : Fin d → TotalFluct K (Fin naux → K) m}
  (dx : Fin d → K)

theorem sweeps_unit {σ : Fin m → K} {RA : (Fin naux → K) → Fin naux → K} (hσ : ReconUnits σ R) (hR : R.Fits g) {lx : Fin d → K} {tx : K}
    (hl : ∀ a, 0 < lx a) (ht : 0 < tx) (hM : ∀ a, InUnits σ (lx a / tx) RA R.fwave (rp a) (rp' a))
    (hT : ∀ a, TotalInUnits σ (lx a / tx) RA (tf a) (tf' a)) (hc : ∀ κ, capa = some κ → ∀ z, κ (RA z) = κ z) (dt : K)
    (A : (Fin d → Int) → Fin naux → K) (Q : (Fin d → Int) → Fin m → K) :
    (∀ v : Fin d → Int, ∑ t, sweepNew f2003 R g capa rp' tf' (fun a => lx a * dx a) t (tx * dt) (fun v => RA (A v))
        (fun v => relabel σ 1 (Q v)) v = relabel σ 1 (∑ t, sweepNew f2003 R g capa rp tf dx t dt A Q v)) ∧
    ∀ t v x, sweepNum f2003 R g capa rp' (fun a => lx a * dx a) (tx * dt) (fun v => RA (A v)) (fun v => relabel σ 1 (Q v)) t v x ↔
      sweepNum f2003 R g capa rp dx dt A Q t v x := by
  have key := fun t (v : Fin d → Int) => row_unit f2003 R g capa hσ hR (hl t) ht (hM t) (hT t) hc (dx t) dt
    (fun i => A (Function.update v t i)) (fun i => Q (Function.update v t i)) (v t)
  refine ⟨fun v => ?_, fun t v x => ?_⟩
  · rw [relabel_sum]
    exact Finset.sum_congr rfl fun t _ => (key t v).1
  · exact (key t v).2 x

/-- The problem with the old unit of time. -/
def oldClock (tx : K) (c : SharpGrid (Fin d) K) : SharpGrid (Fin d) K :=
  { c with kern := fun dt => c.kern (tx * dt), source := c.source.map fun f dt t => f (tx * dt) (tx * t),
           before := fun t => c.before (tx * t), stage := fun t => c.stage (tx * t) }

theorem oldClock_same (tx : K) (c : SharpGrid (Fin d) K) (aux : GArr (Fin d) K) :
    SameInTime tx (serialSharp (oldClock tx c) aux) (serialSharp c aux) where
  stage := fun _ _ => rfl
  before := fun _ _ => rfl
  dq := by
    intro dt t q
    show dqSerial c aux (tx * dt) (tx * t) q = dqSerial (oldClock tx c) aux dt t q
    unfold dqSerial
    rw [show hypSerial (oldClock tx c).par dt (gridData q aux) = hypSerial c.par (tx * dt) (gridData q aux) from rfl]
    have ws : ∀ D, withSource (oldClock tx c) (fun _ => 0) dt t q aux D = withSource c (fun _ => 0) (tx * dt) (tx * t) q aux D := by
      intro D
      unfold withSource oldClock
      cases c.source <;> rfl
    simp only [ws]

theorem WideStencil.clock {τ : Type*} {step : IntKern (Fin d) K m naux} {g : Nat}
    {ok : ((Fin d → Int) → Fin naux → K) → (Fin d → Int) → Prop}
    {new : K → ((Fin d → Int) → Fin naux → K) → ((Fin d → Int) → Fin m → K) → (Fin d → Int) → Fin m → K} {low : τ → Fin d → Int}
    {nums : K → ((Fin d → Int) → Fin naux → K) → ((Fin d → Int) → Fin m → K) → τ → (Fin d → Int) → K → Prop}
    (S : WideStencil step g ok new low nums) (tx : K) :
    WideStencil (fun dt => step (tx * dt)) g ok (fun dt => new (tx * dt)) low (fun dt => nums (tx * dt)) :=
  ⟨S.low01, fun dt => S.runs (tx * dt), fun dt => S.stops (tx * dt), S.okLocal, fun dt => S.newLocal (tx * dt), fun dt => S.numsLocal (tx * dt)⟩

theorem unit_linked {step step' : IntKern (Fin d) K m naux} {σ : Fin m → K} {RA : (Fin naux → K) → Fin naux → K} (hσ : ReconUnits σ R)
    {lx : Fin d → K} {tx : K} (hl : ∀ a, 0 < lx a) (ht : 0 < tx) (c c' : SharpGrid (Fin d) K) (hR : R.Fits c.bc.g)
    (S : WideStencil step c.bc.g (fun _ _ => R.Supported c.bc.g)
      (fun dt aux q v => ∑ t, sweepNew f2003 R c.bc.g capa rp tf dx t dt aux q v) (fun t a => if a = t then 1 else 0)
      (sweepNum f2003 R c.bc.g capa rp dx))
    (S' : WideStencil step' c.bc.g (fun _ _ => R.Supported c.bc.g)
      (fun dt aux q v => ∑ t, sweepNew f2003 R c.bc.g capa rp' tf' (fun a => lx a * dx a) t dt aux q v) (fun t a => if a = t then 1 else 0)
      (sweepNum f2003 R c.bc.g capa rp' fun a => lx a * dx a))
    (hM : ∀ a, InUnits σ (lx a / tx) RA R.fwave (rp a) (rp' a)) (hT : ∀ a, TotalInUnits σ (lx a / tx) RA (tf a) (tf' a))
    (hc : ∀ κ, capa = some κ → ∀ z, κ (RA z) = κ z)
    (hk : c.kern = dqArrays m naux c.bc.g step) (hk' : c'.kern = dqArrays m naux c.bc.g step') (hp : SharpProblem c naux)
    (hax : c'.axes = c.axes) (hbc : c'.bc = c.bc) (hact : ActionsInUnits m naux σ tx RA c c') (aux aux' : GArr (Fin d) K)
    (haux : ∀ x : Fin d → Nat, (∀ i, x i < c.bc.n i) → auxAt naux aux' x = RA (auxAt naux aux x)) :
    Linked (imageSub c.bc.n id σ 1) (serialSharp c aux) (serialSharp (oldClock tx c') aux') := by
  have hpos : ∀ a, 0 < c.bc.n a := fun a => (hp.admissible.cells a).1
  have hb : (oldClock tx c').bc = c.bc := hbc
  have hp' : SharpProblem (oldClock tx c') naux := by
    refine ⟨?_, ?_, ?_, ?_⟩
    · rw [hb]; exact hp.admissible
    · rw [hb]; exact hp.serial
    · show c'.axes = _; rw [hax]; exact hp.axes
    · rw [hb]; exact hp.numAux
  have key := image_linked (step := step) (step' := fun dt => step' (tx * dt)) (σ := σ) (τ := 1) (RA := RA) c (oldClock tx c') hk ?_ hp hp' id
    (fun v => v) ?_ ?_ ?_ ?_ aux aux' (by rw [hb]; exact haux)
  · rwa [hb] at key
  · funext dt
    show c'.kern (tx * dt) = _
    rw [hk', hb]
    rfl
  · exact fun _ _ => rfl
  · intro A A' Q Q' q q' aux aux' f f' hq haux v hv
    rw [show (oldClock tx c').axes = c.axes from hax, hb] at f'
    rw [hb] at hq haux hv
    exact unit_fill c.bc hp.admissible c.axes hp.numAux σ RA f f' hq haux v hv
  · intro dt A A' Q Q' h
    rw [hb] at h ⊢
    have sw := sweeps_unit f2003 R c.bc.g capa dx hσ hR hl ht hM hT hc
    refine wide_image S (S'.clock tx) Iff.rfl c.bc.n c.bc.n hpos hpos (fun v => v) (fun v hv => hv) _ _ ?_ ?_ dt A A' Q Q' h
    · intro dt A Q v
      exact (sw dt A Q).1 v
    · intro dt A Q x
      exact exists_congr fun t => exists_congr fun v => and_congr_right fun _ => (sw dt A Q).2 t v x
  · refine ⟨?_, hact.before, hact.stage⟩
    rcases hact.source with ⟨s1, s2⟩ | ⟨f, f', s1, s2, s3⟩
    · left
      exact ⟨s1, by show c'.source.map _ = none; rw [s2]; rfl⟩
    · right
      exact ⟨f, fun dt t => f' (tx * dt) (tx * t), s1, by show c'.source.map _ = _; rw [s2]; rfl, s3⟩

end

/-! ### The run -/

section
variable {E : Type*} [AddCommGroup E] [Module K E]

theorem runIn_inv {c : K} (hc : c ≠ 0) (r : SharpRun K E) : sharpRunIn c (sharpRunIn c⁻¹ r) = r := by
  have h1 : ∀ x : K, c * (c⁻¹ * x) = x := fun x => mul_inv_cancel_left₀ hc x
  have h2 : ∀ x : E, c⁻¹ • c • x = x := fun x => inv_smul_smul₀ hc x
  have h3 : ((fun x => c * x) ∘ fun x => c⁻¹ * x) = id := funext h1
  have h4 : ((fun x : E => c⁻¹ • x) ∘ fun x => c • x) = id := funext h2
  obtain ⟨st, ms, cm, log⟩ := r
  obtain ⟨dt, dtOld, cfl, acc, ns, dq, regs, pdq, pdt, pfe, ssp, lmm, t, q⟩ := st
  have hl : (sharpTryIn c ∘ sharpTryIn c⁻¹ : SharpTry K E → SharpTry K E) = id := by
    funext l
    obtain ⟨a, b, x, y, z, w, u, v, s⟩ := l
    simp only [Function.comp_apply, sharpTryIn, Option.map_map, h3, Option.map_id, h1, id]
  simp only [sharpRunIn, sharpStateIn, List.map_map, Option.map_map, h3, h4, hl, inv_inv, h1, h2, Prod.map_comp_map, Option.map_id, List.map_id,
    Prod.map_id, Function.id_comp, id]

theorem same_runIn {S : Submodule K (E × E)} (c : K) {r r' : SharpRun K E} (h : SameSharp (fun q q' => (q, q') ∈ S) r r') :
    SameSharp (fun q q' => (q, q') ∈ S) (sharpRunIn c r) (sharpRunIn c r') := by
  have sm : ∀ (x : K) (q q' : E), (q, q') ∈ S → (x • q, x • q') ∈ S := fun x q q' hq => S.smul_mem x hq
  refine ⟨?_, ?_, ?_, h.cfl, h.cflmax, h.maxSteps, h.numsteps, h.accept, ?_, ?_, h.sspcoeff0, h.lmmCond, h.q, sm _ _ _ h.dqDt, ?_, ?_, ?_⟩
  · simp only [sharpRunIn, sharpStateIn, h.t]
  · simp only [sharpRunIn, sharpStateIn, h.dt]
  · simp only [sharpRunIn, sharpStateIn, h.dtOld]
  · simp only [sharpRunIn, sharpStateIn, h.prevDt]
  · simp only [sharpRunIn, sharpStateIn, h.prevFE]
  · exact List.forall₂_map_left_iff.mpr (List.forall₂_map_right_iff.mpr (h.regs.imp fun a b hab => ⟨hab.1, by simp [hab.2]⟩))
  · exact List.forall₂_map_left_iff.mpr (List.forall₂_map_right_iff.mpr (h.prevDq.imp fun a b hab => sm _ _ _ hab))
  · refine List.forall₂_map_left_iff.mpr (List.forall₂_map_right_iff.mpr (h.log.imp fun a b hab => ?_))
    obtain ⟨a1, a2, a3, a4, a5, a6, a7, a8, a9⟩ := hab
    refine ⟨?_, ?_, ?_, a4, a5, a6, ?_, a8, a9⟩
    · simp only [sharpTryIn, a1]
    · simp only [sharpTryIn, a2]
    · simp only [sharpTryIn, a3]
    · simp only [sharpTryIn, a7]

/-- Two problems that are linked when the second is put in the old unit of time. -/
theorem unit_session [FloorRing K] {S : Submodule K (E × E)} {env env₁ env' : SharpEnv K E} {tx : K} (ht : 0 < tx) (h : Linked S env env₁)
    (h' : SameInTime tx env₁ env') (cfg : SharpCfg K) (hv : cfg.dtVariable = true) (ks : List (SharpGoal K)) {r r' : SharpRun K E}
    (hr : SameSharp (fun q q' => (q, q') ∈ S) (sharpRunIn tx r) r') :
    SameSharp (fun q q' => (q, q') ∈ S) (sharpRunIn tx (sharpSessionC env cfg ks r).1)
        (sharpSessionC env' (sharpCfgIn tx cfg) (ks.map (sharpGoalIn tx)) r').1 ∧
      (sharpSessionC env' (sharpCfgIn tx cfg) (ks.map (sharpGoalIn tx)) r').2 = (sharpSessionC env cfg ks r).2 := by
  have hr2 : SameSharp (fun q q' => (q, q') ∈ S) r (sharpRunIn tx⁻¹ r') := by
    have e := same_runIn tx⁻¹ hr
    have := runIn_inv (inv_ne_zero ht.ne') r
    rw [inv_inv] at this
    rwa [this] at e
  obtain ⟨k1, k2⟩ := pair_session h cfg ks hr2
  have e := clock_session ht h' cfg hv ks (sharpRunIn tx⁻¹ r')
  rw [runIn_inv ht.ne'] at e
  rw [e]
  exact ⟨same_runIn tx k1, k2⟩

end

end PyClaw
