import Verif.Model.SharpSetup
import Verif.Props.SharpStep

/-!
C51 (the capacity function in the stages of a SharpClaw step), C52 (`SharpClawSolver.setup`).
-/
set_option linter.unusedSectionVars false

namespace PyClaw
open Spec

variable {P K : Type*} [Field K]

/-- The integrators that `setup` accepts. -/
def Spec.knownIntegrators : List String := ["Euler", "SSP33", "SSP104", "RK", "SSPLMMk2", "SSPLMMk3", "LMM"]

theorem setupGhost_ok {s s' : SharpSolver P K} {u : Unit} (h : setupGhost s = (s', .ok u)) :
    s' = { s with numGhost := if s.limType = 2 then (s.wenoOrder + 1) / 2 else s.numGhost } ∧
    (s.limType = 2 → s.kernel = "Python" → s.wenoOrder = 5) ∧ (s.integrator = "LMM" → s.dtVariable = false) := by
  unfold setupGhost at h
  by_cases h2 : s.limType = 2
  · simp only [if_pos h2] at h
    split at h
    · cases h
    · split at h
      · cases h
      · rename_i ha hb
        cases h
        rw [if_pos h2]
        refine ⟨rfl, fun _ hk => ?_, fun hl => ?_⟩
        · by_contra hw; exact ha ⟨h2, hw, hk⟩
        · by_contra hw; exact hb ⟨hl, by simpa using hw⟩
  · simp only [if_neg h2] at h
    split at h
    · cases h
    · split at h
      · cases h
      · rename_i ha hb
        cases h
        rw [if_neg h2]
        refine ⟨rfl, fun hc => absurd hc h2, fun hl => ?_⟩
        by_contra hw; exact hb ⟨hl, by simpa using hw⟩

theorem setupCoeff_ok {s s' : SharpSolver P K} {u : Unit} (h : setupCoeff s = (s', .ok u)) :
    ∃ a b c, s' = { s with sspcoeff := a, cflMax := b, cflDesired := c } ∧
      (∀ x, s.cflMax = some x → b = some x ∧ c = s.cflDesired) ∧
      (s.cflMax = none → s.integrator ∈ knownIntegrators →
        (s.integrator = "SSP104" ∧ b = some (25 / 10) ∧ c = some (245 / 100)) ∨
        (s.integrator = "SSPLMMk2" ∧ 3 ≤ s.lmmSteps ∧ ∃ r, a = some r ∧
          r = ((s.lmmSteps : K) - 2) / ((s.lmmSteps : K) - 1) ∧ b = some (15 / 100 * r) ∧ c = some (14 / 100 * r)) ∨
        (s.integrator = "SSPLMMk3" ∧ 4 ≤ s.lmmSteps ∧ ∃ r, a = some r ∧
          r = ((s.lmmSteps : K) - 3) / ((s.lmmSteps : K) - 1) ∧ b = some (5 / 10 * r) ∧ c = some (48 / 100 * r))) := by
  unfold setupCoeff at h
  split at h
  · split at h
    · rename_i hk
      split at h
      · cases h
      · rename_i hs
        simp only at h
        split at h <;> rename_i hc <;> cases h
        · refine ⟨_, _, _, rfl, (by rw [hc]; intro x hx; cases hx), fun _ _ => .inr (.inl ⟨hk, not_not.mp hs, _, rfl, rfl, rfl, rfl⟩)⟩
        · exact ⟨_, _, _, rfl, fun x hx => ⟨hx, rfl⟩, fun hn => by rw [hc] at hn; cases hn⟩
    · split at h
      · rename_i hk
        split at h
        · cases h
        · rename_i hs
          simp only at h
          split at h <;> rename_i hc <;> cases h
          · refine ⟨_, _, _, rfl, (by rw [hc]; intro x hx; cases hx), fun _ _ => .inr (.inr ⟨hk, (not_not.mp hs).1, _, rfl, rfl, rfl, rfl⟩)⟩
          · exact ⟨_, _, _, rfl, fun x hx => ⟨hx, rfl⟩, fun hn => by rw [hc] at hn; cases hn⟩
      · rename_i hl hk2 hk3
        cases h
        refine ⟨_, _, _, rfl, fun x hx => ⟨hx, rfl⟩, fun _ hi => ?_⟩
        exfalso
        simp only [knownIntegrators, List.mem_cons, List.not_mem_nil, or_false] at hi
        rcases hi with hi | hi | hi | hi | hi | hi | hi
        · rw [hi] at hl; exact absurd hl (by decide)
        · rw [hi] at hl; exact absurd hl (by decide)
        · rw [hi] at hl; exact absurd hl (by decide)
        · rw [hi] at hl; exact absurd hl (by decide)
        · exact hk2 hi
        · exact hk3 hi
        · rw [hi] at hl; exact absurd hl (by decide)
  · rename_i hl
    split at h
    · rename_i c hc
      cases h
      exact ⟨_, _, _, rfl, fun x hx => ⟨hx, rfl⟩, fun hn => by rw [hc] at hn; cases hn⟩
    · rename_i hc
      split at h
      · cases h
      · rename_i d hd
        cases h
        refine ⟨_, _, _, rfl, (by rw [hc]; intro x hx; cases hx), fun _ _ => .inl ?_⟩
        unfold cflDefault at hd
        split at hd
        · rename_i hi
          cases hd
          exact ⟨hi, rfl, rfl⟩
        · have e1 : hasSSPLMM "SSPLMM32" = true := by decide
          have e2 : hasSSPLMM "SSPLMM43" = true := by decide
          have e3 : hasSSPLMM "SSPLMM53" = true := by decide
          split at hd
          · rename_i hi; rw [hi] at hl; exact absurd e1 hl
          · split at hd
            · rename_i hi; rw [hi] at hl; exact absurd e2 hl
            · split at hd
              · rename_i hi; rw [hi] at hl; exact absurd e3 hl
              · cases hd

theorem setupDesired_ok {s s' : SharpSolver P K} {u : Unit} (h : setupDesired s = (s', .ok u)) :
    ∃ d, s' = { s with cflDesired := some d } ∧
      (s.cflDesired = some d ∨ (s.cflDesired = none ∧ ∃ c, s.cflMax = some c ∧ d = 9 / 10 * c)) := by
  unfold setupDesired at h
  split at h
  · rename_i d hd
    cases h
    exact ⟨d, by rw [← hd], .inl hd⟩
  · rename_i hd
    split at h
    · cases h
    · rename_i c hc
      cases h
      exact ⟨_, rfl, .inr ⟨hd, c, hc, rfl⟩⟩

/-- The number of registers of each integrator. -/
def Spec.registerCount (s : SharpSolver P K) (n : Nat) : Prop :=
  (s.integrator = "Euler" ∧ n = 0) ∨ (s.integrator = "SSP33" ∧ n = 1) ∨ (s.integrator = "SSP104" ∧ n = 1) ∨
  (s.integrator = "RK" ∧ ∃ k, s.bLen = some k ∧ n = k + 1) ∨ (s.integrator = "SSPLMMk2" ∧ n = s.lmmSteps.toNat) ∨
  (s.integrator = "SSPLMMk3" ∧ n = s.lmmSteps.toNat) ∨ (s.integrator = "LMM" ∧ s.alphaLen = some n)

theorem numRegisters_ok {s : SharpSolver P K} {n : Nat} (h : numRegisters s = .ok n) : registerCount s n := by
  unfold numRegisters at h
  unfold registerCount
  split at h
  · cases h; exact .inl ⟨by assumption, rfl⟩
  · split at h
    · cases h; exact .inr (.inl ⟨by assumption, rfl⟩)
    · split at h
      · cases h; exact .inr (.inr (.inl ⟨by assumption, rfl⟩))
      · split at h
        · split at h
          · cases h; exact .inr (.inr (.inr (.inl ⟨by assumption, _, by assumption, rfl⟩)))
          · cases h
        · split at h
          · cases h; exact .inr (.inr (.inr (.inr (.inl ⟨by assumption, rfl⟩))))
          · split at h
            · cases h; exact .inr (.inr (.inr (.inr (.inr (.inl ⟨by assumption, rfl⟩)))))
            · split at h
              · split at h
                · cases h; exact .inr (.inr (.inr (.inr (.inr (.inr ⟨by assumption, by assumption⟩)))))
                · cases h
              · cases h

theorem copyRegisters_ok (junk : K) (st : State P K) : ∀ (n : Nat) (h h' : Heap K) (rs : List (State P K)),
    copyRegisters junk st n h = (h', .ok rs) →
    rs.length = n ∧ ∀ r ∈ rs, r.indexCapa = -1 ∧ r.t = st.t ∧ r.patch = st.patch
  | 0, h, h', rs, e => by cases e; exact ⟨rfl, fun r hr => by cases hr⟩
  | n + 1, h, h', rs, e => by
    unfold copyRegisters at e
    split at e
    · cases e
    · rename_i h1 r hr
      split at e
      · cases e
      · rename_i h2 rs' hrs
        cases e
        obtain ⟨hl, hall⟩ := copyRegisters_ok junk st n h1 _ rs' hrs
        refine ⟨by simp [hl], fun x hx => ?_⟩
        rcases List.mem_cons.mp hx with hx | hx
        · subst hx
          unfold State.deepcopy at hr
          split at hr
          · cases hr
          · cases hr
            exact ⟨rfl, rfl, rfl⟩
        · exact hall x hx

theorem sharpMthlim_ok {s s' : SharpSolver P K} {u : Unit} (h : sharpMthlim s = (s', .ok u)) :
    ∃ l, s' = { s with mthlim := l } ∧ l.length = if s.charDecomp = 0 then s.numEqn else s.numWaves := by
  unfold sharpMthlim at h
  simp only at h
  generalize (if s.limiters.toList.length = 1 then
    (List.replicate (if s.charDecomp = 0 then s.numEqn else s.numWaves) s.limiters.toList).flatten
    else s.limiters.toList) = l at h
  by_cases hl : l.length = if s.charDecomp = 0 then s.numEqn else s.numWaves
  · rw [if_neg (not_not.mpr hl)] at h
    cases h
    exact ⟨l, rfl, hl⟩
  · rw [if_pos hl] at h
    cases h

/-- What `setup` leaves in the solver when it returns. -/
structure Spec.SetupDone (s : SharpSolver P K) (st : State P K) (s' : SharpSolver P K) : Prop where
  kernel : s'.kernel = s.kernel
  weno : s.limType = 2 → s'.numGhost = (s.wenoOrder + 1) / 2
  noweno : s.limType ≠ 2 → s'.numGhost = s.numGhost
  python : s.limType = 2 → s.kernel = "Python" → s.wenoOrder = 5
  known : s.integrator ∈ knownIntegrators
  fixedDt : s.integrator = "LMM" → s.dtVariable = false
  cflGiven : ∀ c, s.cflMax = some c → s'.cflMax = some c ∧
    s'.cflDesired = some (s.cflDesired.getD (9 / 10 * c))
  cflDefault : s.cflMax = none →
    (s.integrator = "SSP104" ∧ s'.cflMax = some (25 / 10) ∧ s'.cflDesired = some (245 / 100)) ∨
    (s.integrator = "SSPLMMk2" ∧ 3 ≤ s.lmmSteps ∧ ∃ r, r = ((s.lmmSteps : K) - 2) / ((s.lmmSteps : K) - 1) ∧
      s'.cflMax = some (15 / 100 * r) ∧ s'.cflDesired = some (14 / 100 * r)) ∨
    (s.integrator = "SSPLMMk3" ∧ 4 ≤ s.lmmSteps ∧ ∃ r, r = ((s.lmmSteps : K) - 3) / ((s.lmmSteps : K) - 1) ∧
      s'.cflMax = some (5 / 10 * r) ∧ s'.cflDesired = some (48 / 100 * r))
  registers : ∃ rs, s'.registers = some rs ∧ registerCount s rs.length ∧
    ∀ r ∈ rs, r.indexCapa = -1 ∧ r.t = st.t ∧ r.patch = st.patch
  mthlim : s'.mthlim.length = if s.charDecomp = 0 then s.numEqn else s.numWaves
  claw : s.kernel = "Fortran" → s'.clawCapa = some (st.indexCapa + 1)

/-- C52: whenever `setup` returns without raising, the ghost layer is wide enough for the chosen WENO order, the
integrator is one of the known ones, the Courant numbers are set, the registers are allocated and there is a limiter for
every equation or wave. -/
theorem C52_setup (junk : K) (s s' : SharpSolver P K) (st : State P K) (h h' : Heap K) (u : Unit)
    (hs : sharpSetup junk s st h = ((s', h'), .ok u)) : SetupDone s st s' := by
  unfold sharpSetup at hs
  split at hs
  · cases hs
  · rename_i s1 _ h1
    split at hs
    · cases hs
    · rename_i s2 _ h2
      split at hs
      · cases hs
      · rename_i s3 _ h3
        split at hs
        · cases hs
        · rename_i s4 hp4 _ h4
          split at hs
          · cases hs
          · rename_i s5 _ h5
            obtain ⟨e1, hpy, hlmm⟩ := setupGhost_ok h1
            obtain ⟨a, b, c, e2, hgiven, hdef⟩ := setupCoeff_ok h2
            obtain ⟨d, e3, hd⟩ := setupDesired_ok h3
            unfold allocRegisters at h4
            split at h4
            · cases h4
            · rename_i n hn
              split at h4
              · cases h4
              · rename_i hp rs hrs
                obtain ⟨hlen, hall⟩ := copyRegisters_ok junk st n _ _ rs hrs
                have e4 : s4 = { s3 with registers := some rs } := by cases h4; rfl
                obtain ⟨l, e5, hl⟩ := sharpMthlim_ok h5
                have hreg := numRegisters_ok hn
                clear h1 h2 h3 h4 h5 hn hrs
                have hknown : s.integrator ∈ knownIntegrators := by
                  have : s3.integrator = s.integrator := by rw [e3, e2, e1]
                  rw [← this]
                  simp only [knownIntegrators, List.mem_cons, List.not_mem_nil, or_false]
                  rcases hreg with h | h | h | h | h | h | h <;> simp [h.1]
                have k1 : s5.kernel = s.kernel := by rw [e5, e4, e3, e2, e1]
                have k2 : s5.numGhost = if s.limType = 2 then (s.wenoOrder + 1) / 2 else s.numGhost := by
                  rw [e5, e4, e3, e2, e1]
                have k3 : s5.cflMax = b := by rw [e5, e4, e3, e2]
                have k4 : s5.cflDesired = some d := by rw [e5, e4, e3]
                have k5 : s5.registers = some rs := by rw [e5, e4]
                have k6 : s5.mthlim = l := by rw [e5]
                have k7 : registerCount s rs.length := by
                  rw [hlen]
                  have f1 : s3.integrator = s.integrator := by rw [e3, e2, e1]
                  have f2 : s3.bLen = s.bLen := by rw [e3, e2, e1]
                  have f3 : s3.alphaLen = s.alphaLen := by rw [e3, e2, e1]
                  have f4 : s3.lmmSteps = s.lmmSteps := by rw [e3, e2, e1]
                  unfold registerCount at hreg ⊢
                  rw [f1, f2, f3, f4] at hreg
                  exact hreg
                have k8 : l.length = if s.charDecomp = 0 then s.numEqn else s.numWaves := by
                  have f1 : s4.charDecomp = s.charDecomp := by rw [e4, e3, e2, e1]
                  have f2 : s4.numEqn = s.numEqn := by rw [e4, e3, e2, e1]
                  have f3 : s4.numWaves = s.numWaves := by rw [e4, e3, e2, e1]
                  rw [f1, f2, f3] at hl
                  exact hl
                have g1 : s1.cflMax = s.cflMax := by rw [e1]
                have g2 : s1.cflDesired = s.cflDesired := by rw [e1]
                have g3 : s1.integrator = s.integrator := by rw [e1]
                have g4 : s1.lmmSteps = s.lmmSteps := by rw [e1]
                have g5 : s2.cflDesired = c := by rw [e2]
                have g6 : s2.cflMax = b := by rw [e2]
                rw [g1, g2] at hgiven
                rw [g1, g3, g4] at hdef
                rw [g5, g6] at hd
                clear e1 e2 e3 e4 e5 g1 g2 g3 g4 g5 g6 hreg hl hlen
                have q1 : ∀ x, s.cflMax = some x → b = some x ∧ some d = some (s.cflDesired.getD (9 / 10 * x)) := by
                  intro x hx
                  obtain ⟨hb, hc⟩ := hgiven x hx
                  refine ⟨hb, ?_⟩
                  rcases hd with hd | ⟨hd, c2, hc2, hd2⟩
                  · rw [← hc, hd]; rfl
                  · rw [hb] at hc2
                    cases hc2
                    rw [← hc, hd, hd2]; rfl
                have q2 : c ≠ none → c = some d := by
                  intro hc
                  rcases hd with hd | ⟨hd, _⟩
                  · exact hd
                  · exact absurd hd hc
                have q3 : s.cflMax = none →
                    (s.integrator = "SSP104" ∧ b = some (25 / 10) ∧ some d = some (245 / 100)) ∨
                    (s.integrator = "SSPLMMk2" ∧ 3 ≤ s.lmmSteps ∧ ∃ r, r = ((s.lmmSteps : K) - 2) / ((s.lmmSteps : K) - 1) ∧
                      b = some (15 / 100 * r) ∧ some d = some (14 / 100 * r)) ∨
                    (s.integrator = "SSPLMMk3" ∧ 4 ≤ s.lmmSteps ∧ ∃ r, r = ((s.lmmSteps : K) - 3) / ((s.lmmSteps : K) - 1) ∧
                      b = some (5 / 10 * r) ∧ some d = some (48 / 100 * r)) := by
                  intro hn
                  rcases hdef hn hknown with ⟨x1, x2, x3⟩ | ⟨x1, x2, r, _, x4, x5, x6⟩ | ⟨x1, x2, r, _, x4, x5, x6⟩
                  · rw [← q2 (by rw [x3]; simp)]
                    exact .inl ⟨x1, x2, x3⟩
                  · rw [← q2 (by rw [x6]; simp)]
                    exact .inr (.inl ⟨x1, x2, r, x4, x5, x6⟩)
                  · rw [← q2 (by rw [x6]; simp)]
                    exact .inr (.inr ⟨x1, x2, r, x4, x5, x6⟩)
                rw [← k3, ← k4] at q1 q3
                by_cases hF : s5.kernel = "Fortran"
                · rw [if_pos hF] at hs
                  have hs' : s' = { s5 with clawCapa := some (st.indexCapa + 1) } := by injection hs with a b; injection a with a b; exact a.symm
                  subst hs'
                  exact ⟨k1, fun h => by rw [k2, if_pos h], fun h => by rw [k2, if_neg h], hpy, hknown, hlmm, q1, q3,
                    ⟨rs, k5, k7, hall⟩, by rw [k6]; exact k8, fun _ => rfl⟩
                · rw [if_neg hF] at hs
                  have hs' : s' = s5 := by injection hs with a b; injection a with a b; exact a.symm
                  subst hs'
                  exact ⟨k1, fun h => by rw [k2, if_pos h], fun h => by rw [k2, if_neg h], hpy, hknown, hlmm, q1, q3,
                    ⟨rs, k5, k7, hall⟩, by rw [k6]; exact k8, fun h => absurd (k1.trans h) hF⟩

/-- C52: an integrator name outside the list makes `setup` raise, whatever the other options. -/
theorem C52_unknown_integrator (junk : K) (s : SharpSolver P K) (st : State P K) (h : Heap K)
    (hi : s.integrator ∉ knownIntegrators) : ∃ e, (sharpSetup junk s st h).2 = .error e := by
  rcases hr : (sharpSetup junk s st h) with ⟨⟨s', h'⟩, e | u⟩
  · exact ⟨e, rfl⟩
  · exact absurd (C52_setup junk s s' st h h' u hr).known hi

/-- C52: after `setup` with WENO of odd order `2r-1`, the cells read by the reconstruction of the edges next to any
interface of the interior, `r-1` cells on each side of a cell from 0 to `n+1`, lie in the ghosted array. -/
theorem C52_stencil (junk : K) (s s' : SharpSolver P K) (st : State P K) (h h' : Heap K) (u : Unit)
    (hs : sharpSetup junk s st h = ((s', h'), .ok u)) (hl : s.limType = 2) (r : Int) (hr : s.wenoOrder = 2 * r - 1)
    (n i j : Int) (h0 : 0 ≤ i) (h1 : i ≤ n + 1) (h2 : i - (r - 1) ≤ j) (h3 : j ≤ i + (r - 1)) :
    1 - s'.numGhost ≤ j ∧ j ≤ n + s'.numGhost := by
  rw [(C52_setup junk s s' st h h' u hs).weno hl, hr]
  omega

/-- C52: the default Courant numbers are positive and ordered. -/
theorem C52_cfl_order [LinearOrder K] [IsStrictOrderedRing K] (junk : K) (s s' : SharpSolver P K) (st : State P K)
    (h h' : Heap K) (u : Unit) (hs : sharpSetup junk s st h = ((s', h'), .ok u)) (hc : s.cflMax = none) :
    ∃ a b, s'.cflDesired = some a ∧ s'.cflMax = some b ∧ 0 < a ∧ a < b := by
  rcases (C52_setup junk s s' st h h' u hs).cflDefault hc with ⟨_, h1, h2⟩ | ⟨_, h0, r, hr, h1, h2⟩ | ⟨_, h0, r, hr, h1, h2⟩
  · exact ⟨_, _, h2, h1, by norm_num, by norm_num⟩
  · have : (0 : K) < r := by
      have : (3 : K) ≤ s.lmmSteps := by exact_mod_cast h0
      rw [hr]; exact div_pos (by linarith) (by linarith)
    exact ⟨_, _, h2, h1, by positivity, by linarith⟩
  · have : (0 : K) < r := by
      have : (4 : K) ≤ s.lmmSteps := by exact_mod_cast h0
      rw [hr]; exact div_pos (by linarith) (by linarith)
    exact ⟨_, _, h2, h1, by positivity, by linarith⟩

/-- Non-vacuity of C52: the default solver for an equation of three components, WENO of order 7 and `SSPLMMk2`. -/
def demoSharp : SharpSolver Unit ℚ := { numEqn := 3, numWaves := 2, wenoOrder := 7 }
def demoSharpState : State Unit ℚ := { patch := (), cells := 2, t := 0, q := some ⟨0, [0, 1]⟩, aux := none,
                                       problemData := 0, indexCapa := 0 }
def demoHeap : Heap ℚ := ⟨fun _ _ => 1, fun _ _ => none, 1⟩

/-- What an observer sees of `setup`: ghost cells, number of registers, limiters. -/
def setupView (s : SharpSolver Unit ℚ) : Except PyErr (Int × Option Nat × List Int × Option ℚ) :=
  match sharpSetup 0 s demoSharpState demoHeap with
  | (_, .error e) => .error e
  | ((s, _), .ok _) => .ok (s.numGhost, s.registers.map List.length, s.mthlim, s.cflDesired)

example : setupView demoSharp = .ok (4, some 1, [1, 1, 1], some (49 / 20)) := by decide +kernel
example : setupView { demoSharp with integrator := "SSPLMMk2", lmmSteps := 3, charDecomp := 1, limiters := .one 4 } =
    .ok (4, some 3, [4, 4], some (7 / 100)) := by decide +kernel
example : setupView { demoSharp with integrator := "SSP22", cflMax := some 1 } =
    .error (.exception "Unrecognized time integrator: ") := by decide +kernel
example : setupView { demoSharp with integrator := "Euler" } = .error .keyError := by decide +kernel
example : (setupView { demoSharp with kernel := "Python" }).toOption = none := by decide +kernel

/-- C52 does not extend to `lim_type = 3`, the other fifth-order reconstruction: `setup` leaves `num_ghost` alone, so a
solver with one ghost cell is accepted although the stencil has two cells on each side. -/
theorem C52_limtype3_violated : ∃ s : SharpSolver Unit ℚ, s.limType = 3 ∧ ∃ s' h',
    sharpSetup 0 s demoSharpState demoHeap = ((s', h'), .ok ()) ∧ s'.numGhost = 1 := by
  refine ⟨{ demoSharp with limType := 3, numGhost := 1 }, rfl, ?_⟩
  have h : setupView { demoSharp with limType := 3, numGhost := 1 } = .ok (1, some 1, [1, 1, 1], some (49 / 20)) := by
    decide +kernel
  unfold setupView at h
  split at h
  · cases h
  · rename_i s' h' u heq
    refine ⟨s', h', heq, ?_⟩
    injection h with h
    exact congrArg Prod.fst h

/-! ### No cell outside the ghosted array is used -/

variable [LinearOrder K] [IsStrictOrderedRing K] {A : Type*} {m w : Nat}

theorem waveTerm_congr (eps tol : K) (wave wave' : Waves K m w) (i : Int)
    (h : ∀ j, i - 2 ≤ j → j ≤ i + 2 → wave j = wave' j) (p : Fin w) :
    pyWaveTerm eps tol wave 1 i p = pyWaveTerm eps tol wave' 1 i p ∧
    pyWaveTerm eps tol wave (-1) i p = pyWaveTerm eps tol wave' (-1) i p ∧
    fWaveTerm eps tol wave 1 i p = fWaveTerm eps tol wave' 1 i p ∧
    fWaveTerm eps tol wave (-1) i p = fWaveTerm eps tol wave' (-1) i p := by
  refine ⟨?_, ?_, ?_, ?_⟩ <;> funext x <;>
    simp (disch := omega) only [pyWaveTerm, fWaveTerm, pyWaveZ, waveProj, h] <;>
    congr

/-- The reconstructed states next to the interfaces of the cells `lo … lo+n-1` coincide. -/
def AgreeingEdges (lo : Int) (n : Nat) (e e' : Edges K m) : Prop :=
  ∀ i, lo - 1 ≤ i → i ≤ lo + n → (i ≤ lo + n - 1 → e.qr i = e'.qr i) ∧ (lo ≤ i → e.ql i = e'.ql i)

theorem fRecon_reads (eps tol undef : K) (first : Fin m → K) (rp : Riemann K A m w) (c : FluxCfg K) (hg : 3 ≤ c.g)
    (limType charDecomp order : Int) (hgo : limType = 2 → order < 2 * c.g) (fwave : Bool) (limEqn : Fin m → Int) (limWave : Fin w → Int) (old : Edges K m)
    (aux aux' : Int → A) (q q' : Int → Fin m → K)
    (hq : ∀ i : Int, 1 - (c.g : Int) ≤ i → i ≤ c.n + c.g → q i = q' i)
    (ha : ∀ i : Int, 1 - (c.g : Int) ≤ i → i ≤ c.n + c.g → aux i = aux' i) {e e' : Edges K m}
    (he : fRecon eps tol undef first rp c limType charDecomp order fwave limEqn limWave old none aux q = some e)
    (he' : fRecon eps tol undef first rp c limType charDecomp order fwave limEqn limWave old none aux' q' = some e') :
    AgreeingEdges 1 c.n e e' := by
  have hgg : (3 : Int) ≤ c.g := by exact_mod_cast hg
  have hn : (0 : Int) ≤ c.n := Int.natCast_nonneg _
  unfold AgreeingEdges
  unfold fRecon at he he'
  simp only at he he'
  generalize (c.g : Int) = g at *
  generalize (c.n : Int) = n at *
  have hw : ∀ j : Int, 2 ≤ j → j ≤ n + 2 * g →
      rp (q (j - g - 1)) (q (j - g)) (aux (j - g - 1)) (aux (j - g)) =
      rp (q' (j - g - 1)) (q' (j - g)) (aux' (j - g - 1)) (aux' (j - g)) := by
    intro j h1 h2
    rw [hq _ (by omega) (by omega), hq (j - g) (by omega) (by omega), ha _ (by omega) (by omega),
      ha (j - g) (by omega) (by omega)]
  intro i h1 h2
  split at he
  · rename_i hc
    rw [if_pos hc] at he'
    cases he; cases he'
    refine ⟨fun h3 => ?_, fun h3 => ?_⟩ <;> funext x <;> simp only [fTvd2] <;>
      rw [if_pos (by omega), if_neg (by omega), if_pos (by omega), if_neg (by omega),
        hq _ (by omega) (by omega), hq (i + g + 1 - g) (by omega) (by omega), hq (i + g - 1 - g) (by omega) (by omega)]
  · rename_i hc
    rw [if_neg hc] at he'
    split at he
    · rename_i hc
      rw [if_pos hc] at he'
      cases he; cases he'
      refine ⟨fun h3 => ?_, fun h3 => ?_⟩ <;> simp only [fTvdWave]
      · have hb : 1 ≤ i + g ∧ i + g ≤ n + 2 * g - 1 := by omega
        simp only [if_pos hb, hq (i + g - g) (by omega) (by omega)]
        split
        · congr 1
          funext x p
          simp only [fTvdWaveTerm]
          by_cases hz : i + g + 1 = g
          · simp only [if_pos hz, hw (i + g + 1) (by omega) (by omega), hw (i + g + 1 + 1) (by omega) (by omega)]
          · simp only [if_neg hz, hw (i + g + 1) (by omega) (by omega), hw (i + g + 1 + 1) (by omega) (by omega),
              hw (i + g + 1 - 1) (by omega) (by omega)]
        · rfl
      · have hb : 2 ≤ i + g ∧ i + g ≤ n + 2 * g := by omega
        simp only [if_pos hb, hq (i + g - g) (by omega) (by omega)]
        split
        · congr 1
          funext x p
          simp only [fTvdWaveTerm]
          by_cases hz : i + g = g
          · simp only [if_pos hz, hw (i + g) (by omega) (by omega), hw (i + g + 1) (by omega) (by omega)]
          · simp only [if_neg hz, hw (i + g) (by omega) (by omega), hw (i + g + 1) (by omega) (by omega),
              hw (i + g - 1) (by omega) (by omega)]
        · rfl
    · rename_i hc
      rw [if_neg hc] at he'
      split at he
      · rename_i hc
        rw [if_pos hc] at he'
        have hgo := hgo hc.1
        rw [Option.map_eq_some_iff] at he he'
        obtain ⟨T, hT, rfl⟩ := he
        obtain ⟨T', hT', rfl⟩ := he'
        obtain rfl : T = T' := by rw [hT] at hT'; exact Option.some.inj hT'
        refine ⟨fun h3 => ?_, fun h3 => ?_⟩ <;> funext x <;> simp only [fWenoComp, WenoTable.ql, WenoTable.qr]
        · rw [if_pos (by omega), if_pos (by omega)]
          exact (table_congr hT eps (q := fun j => q (j - g) x) (q' := fun j => q' (j - g) x)
            (fun j _ _ => by rw [hq (j - g) (by omega) (by omega)])).2
        · rw [if_pos (by omega), if_pos (by omega)]
          exact (table_congr hT eps (q := fun j => q (j - g) x) (q' := fun j => q' (j - g) x)
            (fun j _ _ => by rw [hq (j - g) (by omega) (by omega)])).1
      · rename_i hc
        rw [if_neg hc] at he'
        split at he
        · rename_i hc
          rw [if_pos hc] at he'
          cases he; cases he'
          have hcen : ∀ k : Int, 3 ≤ k → k + 1 ≤ n + 2 * g →
              central4 (fun p => q (p - g)) k = central4 (fun p => q' (p - g)) k := by
            intro k h1 h2
            funext x
            unfold central4
            dsimp only
            rw [hq (k - 2 - g) (by omega) (by omega), hq (k - 1 - g) (by omega) (by omega), hq (k - g) (by omega) (by omega),
              hq (k + 1 - g) (by omega) (by omega)]
          refine ⟨fun h3 => ?_, fun h3 => ?_⟩ <;> simp only [fWenoWave]
          · rw [if_pos (by omega), if_pos (by omega), hcen _ (by omega) (by omega)]
            congr 1
            funext x p
            rw [(waveTerm_congr eps tol _ (fun p => (rp (q' (p - g - 1)) (q' (p - g)) (aux' (p - g - 1)) (aux' (p - g))).wave)
              (i + g + 1) (fun j _ _ => by rw [hw j (by omega) (by omega)]) p).2.2.1]
          · rw [if_pos (by omega), if_pos (by omega), hcen _ (by omega) (by omega)]
            congr 1
            funext x p
            rw [(waveTerm_congr eps tol _ (fun p => (rp (q' (p - g - 1)) (q' (p - g)) (aux' (p - g - 1)) (aux' (p - g))).wave)
              (i + g) (fun j _ _ => by rw [hw j (by omega) (by omega)]) p).2.2.2]
        · rename_i hc
          rw [if_neg hc] at he'
          split at he
          · rename_i hc
            rw [if_pos hc] at he'
            cases he; cases he'
            refine ⟨fun h3 => ?_, fun h3 => ?_⟩ <;> funext x <;> simp only [fShu5, fShuQl, fShuQr]
            · rw [if_pos (by omega), if_pos (by omega)]
              exact (shuValue_congr eps (fun j => q (j - g) x) (fun j => q' (j - g) x) (i + g + 1)
                (fun j _ _ => by rw [hq (j - g) (by omega) (by omega)])).1
            · rw [if_pos (by omega), if_pos (by omega)]
              exact (shuValue_congr eps (fun j => q (j - g) x) (fun j => q' (j - g) x) (i + g)
                (fun j _ _ => by rw [hq (j - g) (by omega) (by omega)])).2
          · cases he

theorem pyRecon_reads (eps tol : K) (rp : Riemann K A m w) (c : FluxCfg K) (hg : 3 ≤ c.g)
    (limType charDecomp : Int) (aux aux' : Int → A) (q q' : Int → Fin m → K)
    (hq : ∀ i : Int, 0 ≤ i → i < c.n + 2 * c.g → q i = q' i)
    (ha : ∀ i : Int, 0 ≤ i → i < c.n + 2 * c.g → aux i = aux' i) {e e' : Edges K m}
    (he : pyRecon eps tol limType charDecomp (c.n + 2 * c.g)
      (fun i => rp (q i) (q (i + 1)) (aux i) (aux (i + 1))) q = .ok e)
    (he' : pyRecon eps tol limType charDecomp (c.n + 2 * c.g)
      (fun i => rp (q' i) (q' (i + 1)) (aux' i) (aux' (i + 1))) q' = .ok e') :
    AgreeingEdges c.g c.n e e' := by
  have hgg : (3 : Int) ≤ c.g := by exact_mod_cast hg
  have hn : (0 : Int) ≤ c.n := Int.natCast_nonneg _
  unfold AgreeingEdges
  generalize (c.g : Int) = g at *
  generalize (c.n : Int) = n at *
  have hw : ∀ j : Int, 0 ≤ j → j + 1 < n + 2 * g →
      rp (q j) (q (j + 1)) (aux j) (aux (j + 1)) = rp (q' j) (q' (j + 1)) (aux' j) (aux' (j + 1)) := by
    intro j h1 h2
    rw [hq _ (by omega) (by omega), hq (j + 1) (by omega) (by omega), ha _ (by omega) (by omega),
      ha (j + 1) (by omega) (by omega)]
  intro i h1 h2
  unfold pyRecon at he he'
  split at he
  · rename_i hc
    rw [if_pos hc] at he'
    cases he; cases he'
    exact ⟨fun _ => hq i (by omega) (by omega), fun _ => hq i (by omega) (by omega)⟩
  · rename_i hc
    rw [if_neg hc] at he'
    split at he
    · cases he
    · rename_i hc
      rw [if_neg hc] at he'
      split at he
      · cases he
      · rename_i hc
        rw [if_neg hc] at he'
        split at he
        · rename_i hc
          rw [if_pos hc] at he'
          split at he
          · rename_i hc
            rw [if_pos hc] at he'
            cases he; cases he'
            refine ⟨fun h3 => ?_, fun h3 => ?_⟩ <;> funext x <;> simp only [pyWeno, pyWenoQl, pyWenoQr]
            · rw [if_pos (by omega), if_pos (by omega)]
              exact (shuValue_congr eps (fun j => q j x) (fun j => q' j x) (i + 1)
                (fun j _ _ => by rw [hq j (by omega) (by omega)])).1
            · rw [if_pos (by omega), if_pos (by omega)]
              exact (shuValue_congr eps (fun j => q j x) (fun j => q' j x) i
                (fun j _ _ => by rw [hq j (by omega) (by omega)])).2
          · rename_i hc
            rw [if_neg hc] at he'
            split at he
            · rename_i hc
              rw [if_pos hc] at he'
              cases he; cases he'
              refine ⟨fun h3 => ?_, fun h3 => ?_⟩ <;> simp only [pyWenoWave]
              · rw [if_pos (by omega), if_pos (by omega), hq _ (by omega) (by omega)]
                congr 1
                funext x p
                rw [(waveTerm_congr eps tol _ (fun i => (rp (q' i) (q' (i + 1)) (aux' i) (aux' (i + 1))).wave)
                  i (fun j _ _ => by rw [hw j (by omega) (by omega)]) p).1]
              · rw [if_pos (by omega), if_pos (by omega), hq _ (by omega) (by omega)]
                congr 1
                funext x p
                rw [(waveTerm_congr eps tol _ (fun i => (rp (q' i) (q' (i + 1)) (aux' i) (aux' (i + 1))).wave)
                  (i - 1) (fun j _ _ => by rw [hw j (by omega) (by omega)]) p).2.1]
            · split at he <;> cases he
        · cases he

/-- C52, Fortran kernel: with at least three ghost cells the right-hand side in the interior depends only on the cells
`1-g … n+g` of the ghosted arrays, for every modelled reconstruction; nothing outside is read. The capacity function is
excluded when the compiler reallocates `dtdx` (see `C44_fortran_capacity_violated`): the shifted array is still inside. -/
theorem C52_fortran_reads (eps tol undef : K) (first : Fin m → K) (f2003 : Bool) (rp : Riemann K A m w)
    (tf : Option ((Fin m → K) → (Fin m → K) → A → A → Fin m → K)) (c : FluxCfg K) (hg : 3 ≤ c.g)
    (limType charDecomp order : Int) (hgo : limType = 2 → order < 2 * c.g) (fwave : Bool) (limEqn : Fin m → Int) (limWave : Fin w → Int) (old : Edges K m)
    (capa : Option (A → K)) (aux aux' : Int → A) (q q' : Int → Fin m → K)
    (hq : ∀ i : Int, 1 - (c.g : Int) ≤ i → i ≤ c.n + c.g → q i = q' i)
    (ha : ∀ i : Int, 1 - (c.g : Int) ≤ i → i ≤ c.n + c.g → aux i = aux' i) {e e' : Edges K m}
    (he : fRecon eps tol undef first rp c limType charDecomp order fwave limEqn limWave old none aux q = some e)
    (he' : fRecon eps tol undef first rp c limType charDecomp order fwave limEqn limWave old none aux' q' = some e')
    (i : Int) (h1 : 1 ≤ i) (h2 : i ≤ c.n) :
    (flux1 f2003 rp tf c capa aux e).1 i = (flux1 f2003 rp tf c capa aux' e').1 i := by
  have hS := fRecon_reads eps tol undef first rp c hg limType charDecomp order hgo fwave limEqn limWave old aux aux' q q' hq ha
    he he'
  have hgg : (3 : Int) ≤ c.g := by exact_mod_cast hg
  have hd : fluxDtdx f2003 c capa aux i = fluxDtdx f2003 c capa aux' i := by
    unfold fluxDtdx
    cases capa with
    | none => rfl
    | some κ =>
      simp only
      rw [ha (i - c.g) (by omega) (by omega), ha i (by omega) (by omega)]
  have e1 : i - 1 + 1 = i := by ring
  have e2 : i + 1 - 1 = i := by ring
  cases tf with
  | none =>
    simp only [flux1]
    rw [if_pos (by omega), if_pos (by omega), e1, e2, hd, (hS i (by omega) (by omega)).1 (by omega),
      (hS (i + 1) (by omega) (by omega)).2 (by omega), (hS (i - 1) (by omega) (by omega)).1 (by omega),
      (hS i (by omega) (by omega)).2 (by omega), ha i (by omega) (by omega), ha (i + 1) (by omega) (by omega),
      ha (i - 1) (by omega) (by omega)]
  | some t =>
    simp only [flux1]
    rw [if_pos (by omega), if_pos (by omega), e2, hd, (hS i (by omega) (by omega)).1 (by omega),
      (hS (i + 1) (by omega) (by omega)).2 (by omega), (hS (i - 1) (by omega) (by omega)).1 (by omega),
      (hS i (by omega) (by omega)).2 (by omega), ha i (by omega) (by omega), ha (i + 1) (by omega) (by omega),
      ha (i - 1) (by omega) (by omega)]

/-- C52, Python kernel: the same for the cells `0 … n+2g-1`. -/
theorem C52_python_reads (eps tol : K) (rp : Riemann K A m w) (c : FluxCfg K) (hg : 3 ≤ c.g)
    (limType charDecomp : Int) (capa : Option (A → K)) (aux aux' : Int → A) (q q' : Int → Fin m → K)
    (hq : ∀ i : Int, 0 ≤ i → i < c.n + 2 * c.g → q i = q' i)
    (ha : ∀ i : Int, 0 ≤ i → i < c.n + 2 * c.g → aux i = aux' i) (r r' : (Int → Fin m → K) × K)
    (hr : pyDqHyperbolic eps tol rp c limType charDecomp capa aux q = .ok r)
    (hr' : pyDqHyperbolic eps tol rp c limType charDecomp capa aux' q' = .ok r')
    (i : Int) (h1 : c.g ≤ i) (h2 : i < c.g + c.n) : r.1 i = r'.1 i := by
  unfold pyDqHyperbolic at hr hr'
  have hgg : (3 : Int) ≤ c.g := by exact_mod_cast hg
  split at hr
  · cases hr
  · rename_i e he
    split at hr'
    · cases hr'
    · rename_i e' he'
      cases hr; cases hr'
      have hS := pyRecon_reads eps tol rp c hg limType charDecomp aux aux' q q' hq ha he he'
      have e1 : i - 1 + 1 = i := by ring
      simp only [pyFlux1]
      rw [if_pos (by omega), if_pos (by omega), e1, (hS i (by omega) (by omega)).1 (by omega),
        (hS (i + 1) (by omega) (by omega)).2 (by omega), (hS (i - 1) (by omega) (by omega)).1 (by omega),
        (hS i (by omega) (by omega)).2 (by omega), ha i (by omega) (by omega), ha (i + 1) (by omega) (by omega),
        ha (i - 1) (by omega) (by omega)]

/-! ### C51 -/

/-- The row of `aux` that the user declared as capacity function with `state.index_capa`. -/
def Spec.declaredCapa (st : State P K) : Option Nat := if 0 ≤ st.indexCapa then some st.indexCapa.toNat else none

/-- C51, Fortran kernels: whatever state object, the solution's or a register's, is passed to `dq_hyperbolic` after
`setup`, the declared capacity function is used. -/
theorem C51_fortran_partial (junk : K) (s s' : SharpSolver P K) (st : State P K) (h h' : Heap K) (u : Unit)
    (hs : sharpSetup junk s st h = ((s', h'), .ok u)) (hk : s.kernel = "Fortran") (x : State P K) :
    kernelCapa s' x = declaredCapa st := by
  have hd := C52_setup junk s s' st h h' u hs
  unfold kernelCapa declaredCapa
  rw [hd.kernel, hk, if_neg (by decide), hd.claw hk]
  simp only
  by_cases h0 : 0 ≤ st.indexCapa
  · rw [if_pos (by omega), if_pos h0, Int.add_sub_cancel]
  · rw [if_neg (by omega), if_neg h0]

/-- C51, Python kernel: the evaluation with the solution's own state, the first stage of every method and the only one
of `Euler` and of the multistep formulas, uses the declared capacity function. Missing: the other stages, where it is
false (next theorem). -/
theorem C51_python_first_partial (junk : K) (s s' : SharpSolver P K) (st : State P K) (h h' : Heap K) (u : Unit)
    (hs : sharpSetup junk s st h = ((s', h'), .ok u)) (hk : s.kernel = "Python") :
    kernelCapa s' st = declaredCapa st := by
  have hd := C52_setup junk s s' st h h' u hs
  unfold kernelCapa declaredCapa
  rw [hd.kernel, hk, if_pos rfl]

/-- C51 fails for the Python kernel: no register carries the capacity function, so that every later stage of every
Runge–Kutta method ignores it. -/
theorem C51_python_violated (junk : K) (s s' : SharpSolver P K) (st : State P K) (h h' : Heap K) (u : Unit)
    (hs : sharpSetup junk s st h = ((s', h'), .ok u)) (hk : s.kernel = "Python") (hc : 0 ≤ st.indexCapa) :
    ∃ rs, s'.registers = some rs ∧ ∀ r ∈ rs, kernelCapa s' r ≠ declaredCapa st := by
  have hd := C52_setup junk s s' st h h' u hs
  obtain ⟨rs, hrs, _, hall⟩ := hd.registers
  refine ⟨rs, hrs, fun r hr => ?_⟩
  unfold kernelCapa declaredCapa
  rw [hd.kernel, hk, if_pos rfl, (hall r hr).1, if_neg (by decide), if_pos hc]
  simp

/-- A periodic advection problem on two cells with capacities 1 and 2. -/
def stageAux (i : Int) (_ : Nat) : ℚ := if i % 2 = 1 then 1 else 2
def stageRp : Riemann ℚ (Nat → ℚ) 1 1 := fun ql qr _ _ => advectionRp 1 ql qr () ()
def stageSolver : SharpSolver Unit ℚ := { numEqn := 1, numWaves := 1, kernel := "Python", limType := -1, integrator := "SSP33", cflMax := some 1 }
def stageData (i : Int) (_ : Fin 1) : ℚ := if i = 3 then 1 else 3

/-- The total after one step of `SSP33` by the Python kernel, and before. -/
def stageRun : Option (ℚ × ℚ) :=
  match sharpSetup 0 stageSolver demoSharpState demoHeap with
  | ((s', _), .ok _) =>
    match pyGodunovSSP33 s' stageRp 2 1 stageAux (wrap 3 2) demoSharpState (1 / 2) 0 stageData with
    | some q' => some (total 3 2 (cellVolume 1 (some fun a => a 0) stageAux) q' 0,
        total 3 2 (cellVolume 1 (some fun a => a 0) stageAux) stageData 0)
    | none => none
  | _ => none

/-- C51 fails visibly: with the Python kernel a step of `SSP33` does not conserve the capacity-weighted total of a
periodic problem. -/
theorem C51_python_conservation_violated : ∃ s' h' q',
    sharpSetup 0 stageSolver demoSharpState demoHeap = ((s', h'), .ok ()) ∧
    pyGodunovSSP33 s' stageRp 2 1 stageAux (wrap 3 2) demoSharpState (1 / 2) 0 stageData = some q' ∧
    total 3 2 (cellVolume 1 (some fun a => a 0) stageAux) q' 0 ≠
      total 3 2 (cellVolume 1 (some fun a => a 0) stageAux) stageData 0 := by
  have hrun : (match stageRun with | some p => decide (p.1 ≠ p.2) | none => false) = true := by decide +kernel
  unfold stageRun at hrun
  split at hrun
  · rename_i p hp
    split at hp
    · rename_i s' h' u hs
      split at hp
      · rename_i q' hq
        cases hp
        exact ⟨s', h', q', hs, hq, of_decide_eq_true hrun⟩
      · cases hp
    · cases hp
  · cases hrun

end PyClaw
