import Verif.Lemmas.SharpMirror
import Verif.Lemmas.SharpPair
import Verif.Props.Cube

set_option linter.unusedSectionVars false

/-!
SharpClaw problems on grids that are images of each other.
-/
namespace PyClaw
open Spec

variable {K : Type*} [Field K] [LinearOrder K] [IsStrictOrderedRing K] {d m w naux : Nat}

/-- Pairs of corresponding arrays. -/
def imageSub (n : Fin d → Nat) (cell : (Fin d → Nat) → Fin d → Nat) (σ : Fin m → K) (τ : Equiv.Perm (Fin m)) :
    Submodule K (GArr (Fin d) K × GArr (Fin d) K) where
  carrier := {x | ImageOf m n cell (relabel σ τ) x.1 x.2}
  add_mem' := by
    intro x y hx hy idx h
    have e := relabel_add σ τ (fun k => x.1 k.val (cell idx)) fun k => y.1 k.val (cell idx)
    rw [← hx idx h, ← hy idx h] at e
    exact e.symm
  zero_mem' := by
    intro idx _
    funext k
    show (0 : K) = σ k * 0
    rw [mul_zero]
  smul_mem' := by
    intro a x hx idx h
    have e := relabel_smul σ τ a fun k => x.1 k.val (cell idx)
    rw [← hx idx h] at e
    exact e.symm

/-- The step of the second kernel on the image of the data, for kernels with wide stencils. -/
theorem wide_image {τ τ' : Type*} {step step' : IntKern (Fin d) K m naux} {g : Nat} {P P' : Prop}
    {new new' : K → ((Fin d → Int) → Fin naux → K) → ((Fin d → Int) → Fin m → K) → (Fin d → Int) → Fin m → K} {low : τ → Fin d → Int}
    {low' : τ' → Fin d → Int}
    {nums : K → ((Fin d → Int) → Fin naux → K) → ((Fin d → Int) → Fin m → K) → τ → (Fin d → Int) → K → Prop}
    {nums' : K → ((Fin d → Int) → Fin naux → K) → ((Fin d → Int) → Fin m → K) → τ' → (Fin d → Int) → K → Prop}
    (S : WideStencil step g (fun _ _ => P) new low nums) (S' : WideStencil step' g (fun _ _ => P') new' low' nums') (hP : P' ↔ P)
    (n n' : Fin d → Nat) (hn : ∀ a, 0 < n a) (hn' : ∀ a, 0 < n' a) (f : (Fin d → Int) → Fin d → Int)
    (hf : ∀ v : Fin d → Int, (∀ a, 1 ≤ v a ∧ v a ≤ n' a) → ∀ a, 1 ≤ f v a ∧ f v a ≤ n a)
    (T : (Fin m → K) → Fin m → K) (RA : (Fin naux → K) → Fin naux → K)
    (hnew : ∀ dt A Q v, new' dt (fun v => RA (A (f v))) (fun v => T (Q (f v))) v = T (new dt A Q (f v)))
    (hnum : ∀ dt A Q x, (∃ t, ∃ v : Fin d → Int, (∀ a, low' t a ≤ v a ∧ v a ≤ n' a + 1) ∧
        nums' dt (fun v => RA (A (f v))) (fun v => T (Q (f v))) t v x) ↔
      ∃ t, ∃ v : Fin d → Int, (∀ a, low t a ≤ v a ∧ v a ≤ n a + 1) ∧ nums dt A Q t v x)
    (dt : K) (A A' : (Fin d → Int) → Fin naux → K) (Q Q' : (Fin d → Int) → Fin m → K)
    (h : ∀ v : Fin d → Int, (∀ a, 1 - (g : Int) ≤ v a ∧ v a ≤ n' a + g) → Q' v = T (Q (f v)) ∧ A' v = RA (A (f v))) :
    (step dt n A Q = none ∧ step' dt n' A' Q' = none) ∨
    ∃ r r' cfl, step dt n A Q = some (r, cfl) ∧ step' dt n' A' Q' = some (r', cfl) ∧
      ∀ v : Fin d → Int, (∀ a, 1 ≤ v a ∧ v a ≤ n' a) → r' v = T (r (f v)) := by
  by_cases hp : P
  · obtain ⟨r, cfl, e1, e2, e3⟩ := S.runs dt n A Q hn fun _ _ => hp
    obtain ⟨r', cfl', e1', e2', e3'⟩ := S'.runs dt n' A' Q' hn' fun _ _ => hP.mpr hp
    have hc : cfl' = cfl := by
      refine isMax_unique e3' (isMax_congr (fun x => ?_) e3)
      rw [← hnum dt A Q x]
      refine exists_congr fun t => exists_congr fun v => and_congr_right fun hv => ?_
      have := S'.numsLocal dt (fun v => RA (A (f v))) A' (fun v => T (Q (f v))) Q' t (fun _ => 0) v x fun u hu => by
        have := h u fun a => by
          have h1 := hu a
          have h2 := hv a
          have h3 := S'.low01 t a
          omega
        simp only [add_zero]
        exact ⟨this.2, this.1⟩
      simp only [add_zero] at this
      exact this.symm
    subst hc
    refine Or.inr ⟨r, r', _, e1, e1', fun v hv => ?_⟩
    rw [e2' v hv, e2 _ (hf v hv), ← hnew]
    have := S'.newLocal dt (fun v => RA (A (f v))) A' (fun v => T (Q (f v))) Q' (fun _ => 0) v fun u hu => by
      have := h u fun a => by
        have h1 := hu a
        have h2 := hv a
        omega
      simp only [add_zero]
      exact ⟨this.2, this.1⟩
    simp only [add_zero] at this
    exact this
  · exact Or.inl ⟨S.stops dt n A Q (fun _ => 1) (fun a => by have := hn a; omega) hp,
      S'.stops dt n' A' Q' (fun _ => 1) (fun a => by have := hn' a; omega) fun h => hp (hP.mp h)⟩

theorem cellwise_image {n : Fin d → Nat} {cell : (Fin d → Nat) → Fin d → Nat} {T : (Fin m → K) → Fin m → K}
    {RA : (Fin naux → K) → Fin naux → K} {f f' : CellMap (Fin d) K} (hf : CellImage m naux n cell T RA f f') {q q' aux aux' : GArr (Fin d) K}
    (hq : ImageOf m n cell T q q') (ha : ∀ x : Fin d → Nat, (∀ i, x i < n i) → auxAt naux aux' x = RA (auxAt naux aux (cell x))) :
    ImageOf m n cell T (cellwise f (fun _ => 0) q aux) (cellwise f' (fun _ => 0) q' aux') := by
  intro x hx
  unfold cellwise
  simp only [Nat.zero_add]
  exact hf x hx _ _ _ _ (hq x hx) (ha x hx)

theorem image_linked {step step' : IntKern (Fin d) K m naux} {σ : Fin m → K} {τ : Equiv.Perm (Fin m)}
    {RA : (Fin naux → K) → Fin naux → K} (c c' : SharpGrid (Fin d) K) (hk : c.kern = dqArrays m naux c.bc.g step)
    (hk' : c'.kern = dqArrays m naux c'.bc.g step') (hp : SharpProblem c naux) (hp' : SharpProblem c' naux)
    (cell : (Fin d → Nat) → Fin d → Nat) (f : (Fin d → Int) → Fin d → Int)
    (hcell : ∀ x : Fin d → Nat, (∀ a, x a < c'.bc.n a) → f (fun a => (x a : Int) + 1) = fun a => (cell x a : Int) + 1)
    (hfill : ∀ A A' Q Q' q q' aux aux', FilledBy c.bc c.axes m naux A Q q aux → FilledBy c'.bc c'.axes m naux A' Q' q' aux' →
      (∀ x : Fin d → Nat, (∀ i, x i < c'.bc.n i) → (fun k : Fin m => q' k.val x) = relabel σ τ fun k => q k.val (cell x)) →
      (∀ x : Fin d → Nat, (∀ i, x i < c'.bc.n i) → auxAt naux aux' x = RA (auxAt naux aux (cell x))) →
      ∀ v : Fin d → Int, (∀ a, 1 - (c'.bc.g : Int) ≤ v a ∧ v a ≤ c'.bc.n a + c'.bc.g) → Q' v = relabel σ τ (Q (f v)) ∧ A' v = RA (A (f v)))
    (himg : ∀ dt A A' Q Q', (∀ v : Fin d → Int, (∀ a, 1 - (c'.bc.g : Int) ≤ v a ∧ v a ≤ c'.bc.n a + c'.bc.g) →
        Q' v = relabel σ τ (Q (f v)) ∧ A' v = RA (A (f v))) →
      (step dt c.bc.n A Q = none ∧ step' dt c'.bc.n A' Q' = none) ∨
      ∃ r r' cfl, step dt c.bc.n A Q = some (r, cfl) ∧ step' dt c'.bc.n A' Q' = some (r', cfl) ∧
        ∀ v : Fin d → Int, (∀ a, 1 ≤ v a ∧ v a ≤ c'.bc.n a) → r' v = relabel σ τ (r (f v)))
    (hact : SameActions m naux cell (relabel σ τ) RA c c') (aux aux' : GArr (Fin d) K)
    (haux : ∀ x : Fin d → Nat, (∀ i, x i < c'.bc.n i) → auxAt naux aux' x = RA (auxAt naux aux (cell x))) :
    Linked (imageSub c'.bc.n cell σ τ) (serialSharp c aux) (serialSharp c' aux') where
  stage := fun t q q' hq => cellwise_image (hact.stage t) hq haux
  before := fun t q q' hq => cellwise_image (hact.before t) hq haux
  dq := by
    intro dt t q q' hq
    have hq : ImageOf m c'.bc.n cell (relabel σ τ) q q' := hq
    show ((dqSerial c aux dt t q).1, (dqSerial c' aux' dt t q').1) ∈ imageSub c'.bc.n cell σ τ ∧
      (dqSerial c' aux' dt t q').2 = (dqSerial c aux dt t q).2
    have fill := fun (c : SharpGrid (Fin d) K) (hp : SharpProblem c naux) (q aux : GArr (Fin d) K) => serial_fill c.bc hp.admissible hp.serial
      c.axes (by rw [hp.axes]; exact List.nodup_finRange d) (by rw [hp.axes]; exact List.mem_finRange) m naux hp.numAux q aux
      ⟨fun _ _ => 0, fun _ _ => 0⟩
    obtain ⟨wA, hw, fl⟩ := fill c hp q aux
    obtain ⟨wA', hw', fl'⟩ := fill c' hp' q' aux'
    have run : ∀ (c : SharpGrid (Fin d) K) (step : IntKern (Fin d) K m naux) (_ : c.kern = dqArrays m naux c.bc.g step)
        (q aux : GArr (Fin d) K) wA, applyBcs c.bc c.axes q aux ⟨fun _ _ => 0, fun _ _ => 0⟩ = (wA, .ok ()) →
        (step dt c.bc.n (fieldOf naux c.bc.g wA.aux) (fieldOf m c.bc.g wA.q) = none → dqSerial c aux dt t q = (0, 0)) ∧
        ∀ r cfl, step dt c.bc.n (fieldOf naux c.bc.g wA.aux) (fieldOf m c.bc.g wA.q) = some (r, cfl) →
          dqSerial c aux dt t q = (withSource c (fun _ => 0) dt t q aux
            (fun k idx => if k < m then putBack m c.bc.g wA.q r k (fun a => idx a + c.bc.g) else 0), cfl) := by
      intro c step hk q aux wA hw
      have hw1 : applyBcs c.par.bc c.par.axes (gridData q aux).q (gridData q aux).aux (gridData q aux).work = (wA, .ok ()) := hw
      have hk1 : c.par.kern dt c.par.bc.n wA = dqArrays m naux c.bc.g step dt c.bc.n wA := by
        show c.kern dt c.bc.n wA = _
        rw [hk]
      constructor
      · intro h
        unfold dqSerial hypSerial
        rw [hw1]
        dsimp only
        rw [hk1]
        unfold dqArrays onArrays
        rw [h]
        rfl
      · intro r cfl h
        unfold dqSerial hypSerial
        rw [hw1]
        dsimp only
        rw [hk1]
        unfold dqArrays onArrays
        rw [h]
        rfl
    have hF := hfill _ _ _ _ q q' aux aux' fl fl' hq haux
    rcases himg dt _ _ _ _ hF with ⟨h1, h2⟩ | ⟨r, r', cfl, h1, h2, h3⟩
    · rw [(run c step hk q aux wA hw).1 h1, (run c' step' hk' q' aux' wA' hw').1 h2]
      exact ⟨(imageSub c'.bc.n cell σ τ).zero_mem, rfl⟩
    · rw [(run c step hk q aux wA hw).2 r cfl h1, (run c' step' hk' q' aux' wA' hw').2 r' cfl h2]
      refine ⟨?_, rfl⟩
      have key : ((fun j idx => if j < m then putBack m c.bc.g wA.q r j (fun a => idx a + c.bc.g) else 0 : GArr (Fin d) K),
          (fun j idx => if j < m then putBack m c'.bc.g wA'.q r' j (fun a => idx a + c'.bc.g) else 0 : GArr (Fin d) K)) ∈
          imageSub c'.bc.n cell σ τ := by
        intro x hx
        have e1 : ∀ (g : Nat) (y : Fin d → Nat) a, (((y a + g : Nat) : Int) + 1 - g) = y a + 1 := fun g y a => by omega
        have hr := h3 (fun a => (x a : Int) + 1) fun a => by have := hx a; omega
        rw [hcell x hx] at hr
        funext j
        have hj := congrFun hr j
        simp only [Fin.is_lt, if_true, putBack, dif_pos, Fin.eta, e1]
        rw [hj]
      have ws : ∀ (c : SharpGrid (Fin d) K) (q aux D : GArr (Fin d) K), (c.source = none → withSource c (fun _ => 0) dt t q aux D = D) ∧
          ∀ f, c.source = some f → withSource c (fun _ => 0) dt t q aux D = D + cellwise (f dt t) (fun _ => 0) q aux := by
        intro c q aux D
        unfold withSource
        constructor
        · intro h; rw [h]
        · intro f h; rw [h]
      rcases hact.source with ⟨s1, s2⟩ | ⟨s, s', s1, s2, s3⟩
      · rw [(ws c _ _ _).1 s1, (ws c' _ _ _).1 s2]
        exact key
      · rw [(ws c _ _ _).2 s s1, (ws c' _ _ _).2 s' s2]
        have hS : (cellwise (s dt t) (fun _ => 0) q aux, cellwise (s' dt t) (fun _ => 0) q' aux') ∈ imageSub c'.bc.n cell σ τ :=
          cellwise_image (s3 dt t) hq haux
        exact (imageSub c'.bc.n cell σ τ).add_mem key hS

/-! ### Sweeps -/

theorem supported_turn (R : ReconCfg K m w) (g : Nat) (l : Fin m → Int) : ReconCfg.Supported { R with limEqn := l } g ↔ R.Supported g := by
  unfold ReconCfg.Supported
  rw [not_iff_not]
  exact (row_options R g l _ _ _ _ _ _).symm

theorem flux1_sweeps (f2003 : Bool) (R : ReconCfg K m w) (g : Nat) (capa : Option ((Fin naux → K) → K)) (hcap : capa = none ∨ f2003 = false)
    (hR : R.Fits g) (rp : Fin 1 → Riemann K (Fin naux → K) m w) (tf : Fin 1 → TotalFluct K (Fin naux → K) m) (dx : Fin 1 → K) :
    WideStencil (ι := Fin 1) (intFlux1 f2003 R (rp 0) (tf 0) g (dx 0) capa) g (fun _ _ => R.Supported g)
      (fun dt aux q v => ∑ t, sweepNew f2003 R g capa rp tf dx t dt aux q v) (fun t a => if a = t then 1 else 0)
      (sweepNum f2003 R g capa rp dx) := by
  have W := flux1_wide f2003 R g capa hcap hR (rp 0) (tf 0) (dx 0)
  have up : ∀ (v : Fin 1 → Int) i, Function.update v 0 i = fun _ => i := by
    intro v i
    funext a
    rw [Subsingleton.elim a 0, Function.update_self]
  refine sweeps_wide f2003 R g capa _ _ _ hcap hR _ (fun hs dt n aux q hn => ?_)
    (fun hno dt n aux q => W.stops dt n aux q (fun a => 1 - (g : Int)) (fun a => by have := hR.1; omega) hno)
  obtain ⟨r, cfl, h1, h2, h3⟩ := W.runs dt n aux q hn fun _ _ => hs
  refine ⟨r, cfl, h1, fun v hv => ?_, isMax_congr (fun x => ?_) h3⟩
  · rw [h2 v hv, Fin.sum_univ_one]
    unfold sweepNew
    simp only [up]
  · constructor
    · rintro ⟨t, v, hv, hx⟩
      refine ⟨0, v, fun a => by rw [if_pos (Subsingleton.elim a 0)]; exact hv a, ?_⟩
      unfold sweepNum
      simp only [up]
      exact hx
    · rintro ⟨t, v, hv, hx⟩
      refine ⟨(), v, fun a => by have := hv a; rw [if_pos (Subsingleton.elim a t)] at this; exact this, ?_⟩
      obtain rfl : t = 0 := Subsingleton.elim _ _
      unfold sweepNum at hx
      simp only [up] at hx
      exact hx

theorem mirror_factor {A : Type*} {σ : Fin m → K} {RA : A → A} {π : Equiv.Perm (Fin w)} {fw : Bool} {rp rp' : Riemann K A m w}
    (h : MirrorImage σ RA π fw rp rp') : TurnedImage (relabel σ 1) RA π (reversedRp fw rp) rp' := by
  intro ql qr al ar
  obtain ⟨h1, h2, h3, h4⟩ := h qr ql ar al
  refine ⟨h1, fun p => ?_, h3, h4⟩
  rw [show relabel σ 1 = signed σ from rfl, h2 p]
  unfold reversedRp
  dsimp only
  split_ifs
  · rfl
  · funext k
    simp [signed]

theorem mirror_total {A : Type*} {σ : Fin m → K} {RA : A → A} {tf tf' : TotalFluct K A m} (h : MirrorTotal σ RA tf tf') :
    TurnedTotal (relabel σ 1) RA (reversedTf tf) tf' := by
  match tf, tf', h with
  | none, none, _ => trivial
  | some f, some f', h => exact fun ql qr al ar => h qr ql ar al

section
variable (f2003 : Bool) (R : ReconCfg K m w) (g : Nat) (capa : Option ((Fin naux → K) → K))
  {rp rp' : Fin d → Riemann K (Fin naux → K) m w} {tf tf' : Fin d → TotalFluct K (Fin naux → K) m} (dx : Fin d → K)

theorem mirror_sharp_row {σ : Fin m → K} (hσ : IsSign σ) {RA : (Fin naux → K) → Fin naux → K} {π : Equiv.Perm (Fin w)}
    (hcap : capa = none ∨ f2003 = false) (hR : R.Fits g) (hE : EvenRecon R) {rp rp' : Riemann K (Fin naux → K) m w}
    (hM : MirrorImage σ RA π R.fwave rp rp') {tf tf' : TotalFluct K (Fin naux → K) m} (hT : MirrorTotal σ RA tf tf')
    (hc : ∀ κ, capa = some κ → ∀ z, κ (RA z) = κ z) (dx dt : K) (aux : Int → Fin naux → K) (q : Int → Fin m → K) (M i : Int) :
    rowNew f2003 R rp' tf' g dx capa dt (fun u => RA (aux (M - u))) (fun u => signed σ (q (M - u))) i =
      signed σ (rowNew f2003 R rp tf g dx capa dt aux q (M - i)) ∧
    ∀ x, rowNum f2003 R rp' g dx capa dt (fun u => RA (aux (M - u))) (fun u => signed σ (q (M - u))) i x ↔
      rowNum f2003 R rp g dx capa dt aux q (M + 1 - i) x := by
  have key := row_turn f2003 R g dx capa hσ 1 hR (mirror_factor hM) (mirror_total hT) hc dt (fun u => aux (M - u)) (fun u => q (M - u)) i
  refine ⟨?_, fun x => ?_⟩
  · rw [← rowNew_reversed f2003 R g dx capa hcap hR hE rp tf dt aux q M i]
    exact key.1
  · rw [← rowNum_reversed f2003 R g dx capa hcap hR hE rp dt aux q M i x]
    exact key.2 x

/-- One kernel sweep after sweep in a mirror. -/
theorem sweeps_mirror (a : Fin d) {σ : Fin m → K} (hσ : IsSign σ) {RA : (Fin naux → K) → Fin naux → K} {π : Fin d → Equiv.Perm (Fin w)}
    (hcap : capa = none ∨ f2003 = false) (hR : R.Fits g) (hE : EvenRecon R)
    (hM : MirrorImage σ RA (π a) R.fwave (rp a) (rp' a)) (hT : MirrorTotal σ RA (tf a) (tf' a))
    (hM' : ∀ b, b ≠ a → TurnedImage (signed σ) RA (π b) (rp b) (rp' b)) (hT' : ∀ b, b ≠ a → TurnedTotal (signed σ) RA (tf b) (tf' b))
    (hc : ∀ κ, capa = some κ → ∀ z, κ (RA z) = κ z) (n : Fin d → Nat) (dt : K)
    (A : (Fin d → Int) → Fin naux → K) (Q : (Fin d → Int) → Fin m → K) :
    (∀ v, ∑ t, sweepNew f2003 R g capa rp' tf' dx t dt (fun v => RA (A (Function.update v a ((n a : Int) + 1 - v a))))
        (fun v => signed σ (Q (Function.update v a ((n a : Int) + 1 - v a)))) v =
      signed σ (∑ t, sweepNew f2003 R g capa rp tf dx t dt A Q (Function.update v a ((n a : Int) + 1 - v a)))) ∧
    ∀ x, (∃ t, ∃ v : Fin d → Int, (∀ b, (if b = t then 1 else 0) ≤ v b ∧ v b ≤ n b + 1) ∧
        sweepNum f2003 R g capa rp' dx dt (fun v => RA (A (Function.update v a ((n a : Int) + 1 - v a))))
          (fun v => signed σ (Q (Function.update v a ((n a : Int) + 1 - v a)))) t v x) ↔
      ∃ t, ∃ v : Fin d → Int, (∀ b, (if b = t then 1 else 0) ≤ v b ∧ v b ≤ n b + 1) ∧ sweepNum f2003 R g capa rp dx dt A Q t v x := by
  have ua : ∀ (v : Fin d → Int) i, Function.update (Function.update v a i) a ((n a : Int) + 1 - Function.update v a i a) =
      Function.update v a ((n a : Int) + 1 - i) := by
    intro v i
    rw [Function.update_self, Function.update_idem]
  have ub : ∀ (v : Fin d → Int) i t, t ≠ a → Function.update (Function.update v t i) a ((n a : Int) + 1 - Function.update v t i a) =
      Function.update (Function.update v a ((n a : Int) + 1 - v a)) t i := by
    intro v i t h
    rw [Function.update_of_ne h.symm, Function.update_comm h]
  have ra := fun v => mirror_sharp_row f2003 R g capa hσ hcap hR hE hM hT hc (dx a) dt (fun i => A (Function.update v a i))
    (fun i => Q (Function.update v a i)) ((n a : Int) + 1)
  have rb := fun t (ht : t ≠ a) v => row_turn f2003 R g (dx t) capa hσ 1 hR (hM' t ht) (hT' t ht) hc dt
    (fun i => A (Function.update (Function.update v a ((n a : Int) + 1 - v a)) t i))
    (fun i => Q (Function.update (Function.update v a ((n a : Int) + 1 - v a)) t i)) (v t)
  constructor
  · intro v
    have e := relabel_sum σ 1 Finset.univ fun t => sweepNew f2003 R g capa rp tf dx t dt A Q (Function.update v a ((n a : Int) + 1 - v a))
    rw [show relabel σ 1 = signed σ from rfl] at e
    rw [e]
    refine Finset.sum_congr rfl fun t _ => ?_
    unfold sweepNew
    by_cases ht : t = a
    · subst ht
      simp only [ua, Function.update_idem, Function.update_self]
      exact (ra v (v t)).1
    · simp only [ub _ _ t ht, Function.update_of_ne ht]
      exact (rb t ht v).1
  · have back : ∀ v : Fin d → Int, Function.update (Function.update v a ((n a : Int) + 1 - v a)) a ((n a : Int) + 1 -
        Function.update v a ((n a : Int) + 1 - v a) a) = v := by
      intro v
      rw [ua]
      simp
    intro x
    constructor
    · rintro ⟨t, v, hv, hx⟩
      unfold sweepNum at hx
      by_cases ht : t = a
      · subst ht
        simp only [ua] at hx
        rw [(ra v (v t)).2 x] at hx
        refine ⟨t, Function.update v t ((n t : Int) + 1 + 1 - v t), fun b => ?_, ?_⟩
        · have := hv b
          by_cases hb : b = t
          · subst hb
            rw [if_pos rfl] at this ⊢
            rw [Function.update_self]
            omega
          · rw [if_neg hb] at this ⊢
            rw [Function.update_of_ne hb]
            exact this
        · unfold sweepNum
          simp only [Function.update_idem, Function.update_self]
          exact hx
      · simp only [ub _ _ t ht] at hx
        refine ⟨t, Function.update v a ((n a : Int) + 1 - v a), fun b => ?_, ?_⟩
        · have := hv b
          by_cases hb : b = a
          · subst hb
            rw [if_neg (Ne.symm ht)] at this ⊢
            rw [Function.update_self]
            omega
          · rw [Function.update_of_ne hb]
            exact this
        · unfold sweepNum
          rw [Function.update_of_ne ht]
          exact ((rb t ht v).2 x).mp hx
    · rintro ⟨t, v, hv, hx⟩
      unfold sweepNum at hx
      by_cases ht : t = a
      · subst ht
        refine ⟨t, Function.update v t ((n t : Int) + 1 + 1 - v t), fun b => ?_, ?_⟩
        · have := hv b
          by_cases hb : b = t
          · subst hb
            rw [if_pos rfl] at this ⊢
            rw [Function.update_self]
            omega
          · rw [if_neg hb] at this ⊢
            rw [Function.update_of_ne hb]
            exact this
        · unfold sweepNum
          simp only [ua, Function.update_idem, Function.update_self]
          rw [(ra v _).2 x, sub_sub_cancel]
          exact hx
      · refine ⟨t, Function.update v a ((n a : Int) + 1 - v a), fun b => ?_, ?_⟩
        · have := hv b
          by_cases hb : b = a
          · subst hb
            rw [if_neg (Ne.symm ht)] at this ⊢
            rw [Function.update_self]
            omega
          · rw [Function.update_of_ne hb]
            exact this
        · unfold sweepNum
          simp only [ub _ _ t ht]
          refine ((rb t ht _).2 x).mpr ?_
          rw [back, Function.update_of_ne ht]
          exact hx

/-- The same with the axes in another order. -/
theorem sweeps_permute (ρ : Equiv.Perm (Fin d)) (τ : Equiv.Perm (Fin m)) {RA : (Fin naux → K) → Fin naux → K} {π : Fin d → Equiv.Perm (Fin w)}
    (hR : R.Fits g) (hM : ∀ a, TurnedImage (relabel (fun _ => 1) τ) RA (π a) (rp (ρ a)) (rp' a))
    (hT : ∀ a, TurnedTotal (relabel (fun _ => 1) τ) RA (tf (ρ a)) (tf' a))
    (hc : ∀ κ, capa = some κ → ∀ z, κ (RA z) = κ z) (n : Fin d → Nat) (dt : K)
    (A : (Fin d → Int) → Fin naux → K) (Q : (Fin d → Int) → Fin m → K) :
    (∀ v : Fin d → Int, ∑ t, sweepNew f2003 { R with limEqn := fun k => R.limEqn (τ k) } g capa rp' tf' (fun a => dx (ρ a)) t dt
        (fun v => RA (A fun a => v (ρ.symm a))) (fun v => relabel (fun _ => 1) τ (Q fun a => v (ρ.symm a))) v =
      relabel (fun _ => 1) τ (∑ t, sweepNew f2003 R g capa rp tf dx t dt A Q fun a => v (ρ.symm a))) ∧
    ∀ x, (∃ t, ∃ v : Fin d → Int, (∀ b, (if b = t then 1 else 0) ≤ v b ∧ v b ≤ n (ρ b) + 1) ∧
        sweepNum f2003 { R with limEqn := fun k => R.limEqn (τ k) } g capa rp' (fun a => dx (ρ a)) dt
          (fun v => RA (A fun a => v (ρ.symm a))) (fun v => relabel (fun _ => 1) τ (Q fun a => v (ρ.symm a))) t v x) ↔
      ∃ t, ∃ v : Fin d → Int, (∀ b, (if b = t then 1 else 0) ≤ v b ∧ v b ≤ n b + 1) ∧ sweepNum f2003 R g capa rp dx dt A Q t v x := by
  have hσ : IsSign (fun _ : Fin m => (1 : K)) := fun _ => Or.inl rfl
  have up : ∀ (v : Fin d → Int) t i, (fun a => Function.update v t i (ρ.symm a)) = Function.update (fun a => v (ρ.symm a)) (ρ t) i := by
    intro v t i
    funext a
    by_cases h : a = ρ t
    · subst h; rw [Equiv.symm_apply_apply, Function.update_self, Function.update_self]
    · rw [Function.update_of_ne h, Function.update_of_ne fun e => h (by rw [← e, Equiv.apply_symm_apply])]
  have rb := fun t (v : Fin d → Int) => row_turn f2003 R g (dx (ρ t)) capa hσ τ hR (hM t) (hT t) hc dt
    (fun i => A (Function.update (fun a => v (ρ.symm a)) (ρ t) i))
    (fun i => Q (Function.update (fun a => v (ρ.symm a)) (ρ t) i)) (v t)
  constructor
  · intro v
    rw [relabel_sum, ← Equiv.sum_comp ρ fun t => relabel (fun _ => 1) τ (sweepNew f2003 R g capa rp tf dx t dt A Q fun a => v (ρ.symm a))]
    refine Finset.sum_congr rfl fun t _ => ?_
    unfold sweepNew
    simp only [up, Equiv.symm_apply_apply]
    exact (rb t v).1
  · intro x
    constructor
    · rintro ⟨t, v, hv, hx⟩
      refine ⟨ρ t, fun a => v (ρ.symm a), fun b => ?_, ?_⟩
      · have := hv (ρ.symm b)
        rw [Equiv.apply_symm_apply] at this
        simp only [Equiv.symm_apply_eq] at this
        exact this
      · unfold sweepNum at hx ⊢
        simp only [up, Equiv.symm_apply_apply] at hx ⊢
        exact ((rb t v).2 x).mp hx
    · rintro ⟨t, v, hv, hx⟩
      obtain ⟨t, rfl⟩ := ρ.surjective t
      refine ⟨t, fun a => v (ρ a), fun b => ?_, ?_⟩
      · have := hv (ρ b)
        simp only [EmbeddingLike.apply_eq_iff_eq] at this
        exact this
      · unfold sweepNum at hx ⊢
        have key := (rb t fun a => v (ρ a)).2 x
        simp only [Equiv.apply_symm_apply] at key
        simp only [up, Equiv.apply_symm_apply]
        exact key.mpr hx

end

end PyClaw
