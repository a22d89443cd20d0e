import Verif.Lemmas.Unfold
import Verif.Lemmas.SharpImage
import Verif.Lemmas.SharpWalls

set_option linter.unusedSectionVars false

/-!
SharpClaw problems on grids continued by their images behind a wall.
-/
namespace PyClaw
open Spec

variable {K : Type*} [Field K] [LinearOrder K] [IsStrictOrderedRing K] {d m w naux : Nat}

/-- Pairs of an array and its continuation. -/
def unfoldSub (n : Fin d → Nat) (a : Fin d) (ρ : Fin m → K) : Submodule K (GArr (Fin d) K × GArr (Fin d) K) where
  carrier := {x | UnfoldedArray m n a ρ x.1 x.2}
  add_mem' := by
    intro x y hx hy idx h k
    refine ⟨?_, ?_⟩
    · show x.2 _ _ + y.2 _ _ = x.1 _ _ + y.1 _ _
      rw [(hx idx h k).1, (hy idx h k).1]
    · show x.2 _ _ + y.2 _ _ = ρ k * (x.1 _ _ + y.1 _ _)
      rw [(hx idx h k).2, (hy idx h k).2, mul_add]
  zero_mem' := by
    intro idx _ k
    refine ⟨rfl, ?_⟩
    show (0 : K) = ρ k * 0
    rw [mul_zero]
  smul_mem' := by
    intro s x hx idx h k
    refine ⟨?_, ?_⟩
    · show s * x.2 _ _ = s * x.1 _ _
      rw [(hx idx h k).1]
    · show s * x.2 _ _ = ρ k * (s * x.1 _ _)
      rw [(hx idx h k).2]
      ring

theorem cellwise_unfold {n : Fin d → Nat} {a : Fin d} {ρ : Fin m → K} {f f' : CellMap (Fin d) K} (hf : UnfoldedMap m naux n a ρ f f')
    {q q' aux aux' : GArr (Fin d) K} (hq : UnfoldedArray m n a ρ q q') (ha : UnfoldedArray naux n a (fun _ => 1) aux aux') :
    UnfoldedArray m n a ρ (cellwise f (fun _ => 0) q aux) (cellwise f' (fun _ => 0) q' aux') := by
  intro x hx k
  unfold cellwise
  simp only [Nat.zero_add]
  refine ⟨(hf x hx _ _ _ _ fun j => (ha x hx j).1).1 (fun j => (hq x hx j).1) k, ?_⟩
  exact (hf x hx _ _ _ _ fun j => by rw [(ha x hx j).2, one_mul]).2 (fun j => (hq x hx j).2) k

/-- A grid and its continuation by the image behind a wall, for a kernel with a wide stencil that does the same on the mirrored grid. -/
theorem wide_unfold_linked {τ : Type*} {step : IntKern (Fin d) K m naux} {ok : ((Fin d → Int) → Fin naux → K) → (Fin d → Int) → Prop}
    {new : K → ((Fin d → Int) → Fin naux → K) → ((Fin d → Int) → Fin m → K) → (Fin d → Int) → Fin m → K} {low : τ → Fin d → Int}
    {nums : K → ((Fin d → Int) → Fin naux → K) → ((Fin d → Int) → Fin m → K) → τ → (Fin d → Int) → K → Prop}
    (a : Fin d) (c c' : SharpGrid (Fin d) K) (hg : 1 ≤ c.bc.g) (S : WideStencil step c.bc.g ok new low nums)
    (himg : ImageStep step step c.bc.n c.bc.n (fun v => Function.update v a ((c.bc.n a : Int) + 1 - v a)) (signed (axisSign c.bc a m)) id)
    (hk : c.kern = dqArrays m naux c.bc.g step) (hk' : c'.kern = dqArrays m naux c'.bc.g step) (hp : SharpProblem c naux)
    (hax : c'.axes = c.axes) (hbc : c'.bc = unfoldAxis a c.bc)
    (hw : c.bc.bcUpper a = .wall) (hwx : 0 < naux → c.bc.auxUpper a = .wall)
    (hpl : c.bc.bcLower a ≠ .periodic) (hpx : 0 < naux → c.bc.auxLower a ≠ .periodic)
    (hact : UnfoldedActions m naux a (axisSign c.bc a m) c c')
    (aux aux' : GArr (Fin d) K) (haux : UnfoldedArray naux c.bc.n a (fun _ => 1) aux aux') :
    Linked (unfoldSub c.bc.n a (axisSign c.bc a m)) (serialSharp c aux) (serialSharp c' aux') where
  stage := fun t q q' hq => cellwise_unfold (hact.stage t) hq haux
  before := fun t q q' hq => cellwise_unfold (hact.before t) hq haux
  dq := by
    intro dt t q q' hq
    have hn : c'.bc.n = Function.update c.bc.n a (2 * c.bc.n a) := by rw [hbc]; rfl
    have hp' : SharpProblem c' naux := by
      refine ⟨by rw [hbc]; exact unfoldAxis_admissible c.bc hp.admissible a, by rw [hbc]; exact hp.serial, by rw [hax]; exact hp.axes, ?_⟩
      rw [hbc]
      exact hp.numAux
    have hq : UnfoldedArray m c.bc.n a (axisSign c.bc a m) q q' := hq
    show ((dqSerial c aux dt t q).1, (dqSerial c' aux' dt t q').1) ∈ unfoldSub c.bc.n a (axisSign c.bc a m) ∧
      (dqSerial c' aux' dt t q').2 = (dqSerial c aux dt t q).2
    have fill := fun (c : SharpGrid (Fin d) K) (hp : SharpProblem c naux) (q aux : GArr (Fin d) K) => serial_fill c.bc hp.admissible hp.serial
      c.axes (by rw [hp.axes]; exact List.nodup_finRange d) (by rw [hp.axes]; exact List.mem_finRange) m naux hp.numAux q aux
      ⟨fun _ _ => 0, fun _ _ => 0⟩
    obtain ⟨wA, hwA, fl⟩ := fill c hp q aux
    obtain ⟨wA', hwA', fl'⟩ := fill c' hp' q' aux'
    have run : ∀ (c : SharpGrid (Fin d) K) (step : IntKern (Fin d) K m naux) (_ : c.kern = dqArrays m naux c.bc.g step)
        (q aux : GArr (Fin d) K) wA, applyBcs c.bc c.axes q aux ⟨fun _ _ => 0, fun _ _ => 0⟩ = (wA, .ok ()) →
        (step dt c.bc.n (fieldOf naux c.bc.g wA.aux) (fieldOf m c.bc.g wA.q) = none → dqSerial c aux dt t q = (0, 0)) ∧
        ∀ r cfl, step dt c.bc.n (fieldOf naux c.bc.g wA.aux) (fieldOf m c.bc.g wA.q) = some (r, cfl) →
          dqSerial c aux dt t q = (withSource c (fun _ => 0) dt t q aux
            (fun k idx => if k < m then putBack m c.bc.g wA.q r k (fun a => idx a + c.bc.g) else 0), cfl) := by
      intro c step hk q aux wA hw
      have hw1 : applyBcs c.par.bc c.par.axes (gridData q aux).q (gridData q aux).aux (gridData q aux).work = (wA, .ok ()) := hw
      have hk1 : c.par.kern dt c.par.bc.n wA = dqArrays m naux c.bc.g step dt c.bc.n wA := by
        show c.kern dt c.bc.n wA = _
        rw [hk]
      constructor
      · intro h
        unfold dqSerial hypSerial
        rw [hw1]
        dsimp only
        rw [hk1]
        unfold dqArrays onArrays
        rw [h]
        rfl
      · intro r cfl h
        unfold dqSerial hypSerial
        rw [hw1]
        dsimp only
        rw [hk1]
        unfold dqArrays onArrays
        rw [h]
        rfl
    have hpos : ∀ b, 0 < c.bc.n b := fun b => (hp.admissible.cells b).1
    have F := unfoldAxis_fill c.bc hp.admissible a c.axes (by rw [hp.axes]; exact List.nodup_finRange d)
      (by rw [hp.axes]; exact List.mem_finRange) hp.numAux hw hwx hpl hpx fl (by rw [← hbc, ← hax]; exact fl') hq haux
    have hcells := wide_unfold_cells S hg c.bc.n hpos a _ himg dt _ _ _ _ F.1 F.2
    rw [← hn] at hcells
    rcases hcells with ⟨h1, h2⟩ | ⟨r, r', cfl, h1, h2, h3⟩
    · rw [(run c step hk q aux wA hwA).1 h1, (run c' step hk' q' aux' wA' hwA').1 h2]
      exact ⟨(unfoldSub c.bc.n a (axisSign c.bc a m)).zero_mem, rfl⟩
    · rw [(run c step hk q aux wA hwA).2 r cfl h1, (run c' step hk' q' aux' wA' hwA').2 r' cfl h2]
      refine ⟨?_, rfl⟩
      have key : ((fun j idx => if j < m then putBack m c.bc.g wA.q r j (fun a => idx a + c.bc.g) else 0 : GArr (Fin d) K),
          (fun j idx => if j < m then putBack m c'.bc.g wA'.q r' j (fun a => idx a + c'.bc.g) else 0 : GArr (Fin d) K)) ∈
          unfoldSub c.bc.n a (axisSign c.bc a m) := by
        refine (unfoldedArray_iff _ _ _ _ _).mpr fun x hx => ?_
        have e1 : ∀ (g : Nat) (y : Fin d → Nat) a, (((y a + g : Nat) : Int) + 1 - g) = y a + 1 := fun g y a => by omega
        have hr := h3 x (by rw [hn]; exact hx)
        have l : ∀ (g : Nat) (W : GArr (Fin d) K) (r : (Fin d → Int) → Fin m → K) (y : Fin d → Nat),
            (fun k : Fin m => if k.val < m then putBack m g W r k.val (fun a => y a + g) else 0) = r fun b => (y b : Int) + 1 := by
          intro g W r y
          funext k
          simp only [Fin.is_lt, if_true, putBack, dif_pos, Fin.eta, e1]
        show (fun k : Fin m => if k.val < m then putBack m c'.bc.g wA'.q r' k.val (fun a => x a + c'.bc.g) else 0) =
          halfSign c.bc.n a (axisSign c.bc a m) x
            fun k => if k.val < m then putBack m c.bc.g wA.q r k.val (fun b => halfCell c.bc.n a x b + c.bc.g) else 0
        rw [l, l]
        exact hr
      have ws : ∀ (c : SharpGrid (Fin d) K) (q aux D : GArr (Fin d) K), (c.source = none → withSource c (fun _ => 0) dt t q aux D = D) ∧
          ∀ f, c.source = some f → withSource c (fun _ => 0) dt t q aux D = D + cellwise (f dt t) (fun _ => 0) q aux := by
        intro c q aux D
        unfold withSource
        constructor
        · intro h; rw [h]
        · intro f h; rw [h]
      rcases hact.source with ⟨s1, s2⟩ | ⟨s, s', s1, s2, s3⟩
      · rw [(ws c _ _ _).1 s1, (ws c' _ _ _).1 s2]
        exact key
      · rw [(ws c _ _ _).2 s s1, (ws c' _ _ _).2 s' s2]
        have hS : (cellwise (s dt t) (fun _ => 0) q aux, cellwise (s' dt t) (fun _ => 0) q' aux') ∈ unfoldSub c.bc.n a (axisSign c.bc a m) :=
          cellwise_unfold (s3 dt t) hq haux
        exact (unfoldSub c.bc.n a (axisSign c.bc a m)).add_mem key hS

theorem unfold_linked {step : IntKern (Fin d) K m naux} (f2003 : Bool) (R : ReconCfg K m w) (capa : Option ((Fin naux → K) → K))
    {rp : Fin d → Riemann K (Fin naux → K) m w} {tf : Fin d → TotalFluct K (Fin naux → K) m} (dx : Fin d → K)
    (a : Fin d) (c c' : SharpGrid (Fin d) K) (hcap : capa = none ∨ f2003 = false) (hR : R.Fits c.bc.g)
    (S : WideStencil step c.bc.g (fun _ _ => R.Supported c.bc.g)
      (fun dt aux q v => ∑ t, sweepNew f2003 R c.bc.g capa rp tf dx t dt aux q v) (fun t a => if a = t then 1 else 0)
      (sweepNum f2003 R c.bc.g capa rp dx))
    (hM : OwnImageSharp c.bc R rp tf a)
    (hk : c.kern = dqArrays m naux c.bc.g step) (hk' : c'.kern = dqArrays m naux c'.bc.g step) (hp : SharpProblem c naux)
    (hax : c'.axes = c.axes) (hbc : c'.bc = unfoldAxis a c.bc)
    (hw : c.bc.bcUpper a = .wall) (hwx : 0 < naux → c.bc.auxUpper a = .wall)
    (hpl : c.bc.bcLower a ≠ .periodic) (hpx : 0 < naux → c.bc.auxLower a ≠ .periodic)
    (hact : UnfoldedActions m naux a (axisSign c.bc a m) c c')
    (aux aux' : GArr (Fin d) K) (haux : UnfoldedArray naux c.bc.n a (fun _ => 1) aux aux') :
    Linked (unfoldSub c.bc.n a (axisSign c.bc a m)) (serialSharp c aux) (serialSharp c' aux') := by
    have hpos : ∀ b, 0 < c.bc.n b := fun b => (hp.admissible.cells b).1
    have himg : ImageStep step step c.bc.n c.bc.n (fun v => Function.update v a ((c.bc.n a : Int) + 1 - v a)) (signed (axisSign c.bc a m)) id := by
      obtain ⟨hE, ⟨π, hM1⟩, hT1, hM2, hT2⟩ := hM
      choose! π' hπ' using hM2
      have sw := sweeps_mirror f2003 R c.bc.g capa (rp := rp) (rp' := rp) (tf := tf) (tf' := tf) dx a (axisSign_isSign c.bc a) (RA := id)
        (π := fun b => if b = a then π else π' b) hcap hR hE (by rw [if_pos rfl]; exact hM1) hT1
        (fun b hb => by rw [if_neg hb]; exact hπ' b hb) hT2 (fun _ _ _ => rfl) c.bc.n
      intro dt A Q
      refine wide_image S S Iff.rfl c.bc.n c.bc.n hpos hpos _ ?_ (signed (axisSign c.bc a m)) id ?_ ?_ dt A _ Q _ fun v _ => ⟨rfl, rfl⟩
      · intro v hv b
        by_cases hb : b = a
        · subst hb
          have := hv b
          simp only [Function.update_self]
          omega
        · simp only [Function.update_of_ne hb]; exact hv b
      · intro dt A Q v
        exact (sw dt A Q).1 v
      · intro dt A Q x
        exact (sw dt A Q).2 x
    exact wide_unfold_linked a c c' hR.1 S himg hk hk' hp hax hbc hw hwx hpl hpx hact aux aux' haux

end PyClaw
