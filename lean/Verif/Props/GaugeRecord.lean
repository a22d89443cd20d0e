import Verif.Spec.GaugeRecord
import Verif.Lemmas.EvolveCall
import Mathlib.Data.Rat.Floor

set_option linter.unusedSectionVars false

/-!
C57: the gauge files hold one row per accepted step.
-/
namespace PyClaw

open Spec

variable {K Q U : Type*} [Field K] [LinearOrder K]

theorem gaugeCell_ok (numDim : Nat) (hd : numDim = 1 ∨ numDim = 2) (g : List Int) (h : g.length = numDim) :
    gaugeCell numDim g = .ok g := by
  rcases hd with rfl | rfl
  · match g, h with
    | [x], _ => rfl
  · match g, h with
    | [x, y], _ => rfl

def addRow (row : List Int → GRow K) (f : GaugeFile K) (g : List Int) : GaugeFile K := { f with rows := f.rows ++ [row g] }

theorem writeRow_at (pre post : List (GaugeFile K)) (f : GaugeFile K) (hf : f.isOpen = true) (row : GRow K) :
    writeRow pre.length row (pre ++ f :: post) = .ok (pre ++ { f with rows := f.rows ++ [row] } :: post) := by
  unfold writeRow
  simp [hf]

theorem keepRow_at (n : Nat) (pre post : List (List (GRow K))) (rows : List (GRow K)) (row : GRow K)
    (hn : pre.length + post.length + 1 = n) (hc : ∀ r ∈ rows, r.2.length = row.2.length) :
    keepRow n pre.length row (pre ++ rows :: post) = .ok (pre ++ (rows ++ [row]) :: post) := by
  unfold keepRow
  rw [if_pos (by simp; omega)]
  simp only [List.getElem?_append_right (le_refl _), Nat.sub_self, List.getElem?_cons_zero]
  rw [if_pos (by simpa using hc)]
  simp

/-- All gauges from the `i`-th on, when the data are already there. -/
theorem writeFrom_ok (numDim : Nat) (hd : numDim = 1 ∨ numDim = 2) (value : List Int → List K) (m : Nat)
    (hv : ∀ c, (value c).length = m) (t : K) (l : List (List Int)) (hl : ∀ g ∈ l, g.length = numDim) (gauges : List (List Int))
    (keep : Bool) (pre post : List (GaugeFile K)) (hpost : post.length = l.length) (hopen : ∀ f ∈ post, f.isOpen = true)
    (dpre dpost : List (List (GRow K))) (hdp : keep = true → dpre.length = pre.length ∧ dpost.length = l.length ∧
      gauges.length = dpre.length + dpost.length) (hcol : ∀ rows ∈ dpost, ∀ r ∈ rows, r.2.length = m) :
    writeGaugesFrom numDim value t l pre.length ⟨gauges, pre ++ post, keep, dpre ++ dpost⟩ =
      (⟨gauges, pre ++ List.zipWith (addRow fun g => (t, value g)) post l, keep,
        dpre ++ if keep then List.zipWith (fun rows g => rows ++ [(t, value g)]) dpost l else dpost⟩, none) := by
  induction l generalizing pre post dpre dpost with
  | nil =>
    cases post with
    | nil => cases keep <;> cases dpost <;> simp_all [writeGaugesFrom]
    | cons f post => cases hpost
  | cons g l ih =>
    cases post with
    | nil => cases hpost
    | cons f post =>
      conv_lhs => unfold writeGaugesFrom
      rw [gaugeCell_ok numDim hd g (hl g (by simp))]
      dsimp only
      cases keep with
      | false =>
        simp only [Bool.false_eq_true, if_false]
        rw [writeRow_at pre post f (hopen f (by simp))]
        dsimp only
        have := ih (fun x hx => hl x (by simp [hx])) (pre ++ [addRow (fun g => (t, value g)) f g]) post (by simpa using hpost)
          (fun x hx => hopen x (by simp [hx])) dpre dpost (by simp) hcol
        simp only [List.length_append, List.length_singleton, List.append_assoc, List.singleton_append, Bool.false_eq_true,
          if_false] at this
        rw [show ({ isOpen := f.isOpen, rows := f.rows ++ [(t, value g)] } : GaugeFile K) = addRow (fun g => (t, value g)) f g
          from rfl, this]
        rfl
      | true =>
        obtain ⟨h1, h2, h3⟩ := hdp rfl
        cases dpost with
        | nil => cases h2
        | cons rows dpost =>
          simp only [if_true]
          rw [← h1, keepRow_at gauges.length dpre dpost rows (t, value g) (by rw [h3]; simp; omega) (by
            intro r hr
            rw [hcol rows (by simp) r hr, hv])]
          dsimp only
          rw [h1, writeRow_at pre post f (hopen f (by simp))]
          dsimp only
          have := ih (fun x hx => hl x (by simp [hx])) (pre ++ [addRow (fun g => (t, value g)) f g]) post (by simpa using hpost)
            (fun x hx => hopen x (by simp [hx])) (dpre ++ [rows ++ [(t, value g)]]) dpost (by
              intro _
              simp only [List.length_append, List.length_singleton]
              refine ⟨by omega, by simpa using h2, ?_⟩
              rw [h3]; simp; omega) (fun x hx => hcol x (by simp [hx]))
          simp only [List.length_append, List.length_singleton, List.append_assoc, List.singleton_append, if_true] at this
          rw [show ({ isOpen := f.isOpen, rows := f.rows ++ [(t, value g)] } : GaugeFile K) = addRow (fun g => (t, value g)) f g
            from rfl, this]
          rfl

/-- The same while the data are first collected. -/
theorem writeFrom_first (numDim : Nat) (hd : numDim = 1 ∨ numDim = 2) (value : List Int → List K) (t : K) (l : List (List Int))
    (hl : ∀ g ∈ l, g.length = numDim) (gauges : List (List Int)) (pre post : List (GaugeFile K)) (hpost : post.length = l.length)
    (hopen : ∀ f ∈ post, f.isOpen = true) (dpre : List (List (GRow K))) (hdp : gauges.length = dpre.length + l.length) :
    writeGaugesFrom numDim value t l pre.length ⟨gauges, pre ++ post, true, dpre⟩ =
      (⟨gauges, pre ++ List.zipWith (addRow fun g => (t, value g)) post l, true, dpre ++ l.map fun g => [(t, value g)]⟩, none) := by
  induction l generalizing pre post dpre with
  | nil =>
    cases post with
    | nil => simp [writeGaugesFrom, List.zipWith]
    | cons f post => cases hpost
  | cons g l ih =>
    cases post with
    | nil => cases hpost
    | cons f post =>
      conv_lhs => unfold writeGaugesFrom
      rw [gaugeCell_ok numDim hd g (hl g (by simp))]
      dsimp only
      simp only [if_true]
      unfold keepRow
      rw [if_neg (by rw [hdp]; simp), writeRow_at pre post f (hopen f (by simp))]
      dsimp only
      have := ih (fun x hx => hl x (by simp [hx])) (pre ++ [addRow (fun g => (t, value g)) f g]) post (by simpa using hpost)
        (fun x hx => hopen x (by simp [hx])) (dpre ++ [[(t, value g)]]) (by rw [hdp]; simp; omega)
      simp only [List.length_append, List.length_singleton, List.append_assoc, List.singleton_append] at this
      rw [show ({ isOpen := f.isOpen, rows := f.rows ++ [(t, value g)] } : GaugeFile K) = addRow (fun g => (t, value g)) f g
        from rfl, this]
      rfl

/-- One call of `write_gauge_values`: it succeeds, everything stays ready, and one row is added per gauge. -/
theorem write_ready {numDim m : Nat} {gs : GaugeState K} (h : GaugesReady numDim m gs) (value : List Int → List K)
    (hv : ∀ c, (value c).length = m) (t : K) :
    (writeGauges numDim value t gs).2 = none ∧ GaugesReady numDim m (writeGauges numDim value t gs).1 ∧
      (writeGauges numDim value t gs).1.gauges = gs.gauges ∧ (writeGauges numDim value t gs).1.keep = gs.keep ∧
      ∀ i g, gs.gauges[i]? = some g →
        fileRows (writeGauges numDim value t gs).1 i = fileRows gs i ++ [(t, value g)] ∧
        keptRows (writeGauges numDim value t gs).1 i = keptRows gs i ++ if gs.keep then [(t, value g)] else [] := by
  obtain ⟨gauges, files, keep, data⟩ := gs
  obtain ⟨hd, hcells, hfiles, hopen, hdata, hcol⟩ := h
  dsimp only at hcells hfiles hopen hdata hcol
  have hfile : ∀ (i : Nat) g, gauges[i]? = some g → ∃ f, files[i]? = some f ∧
      (List.zipWith (addRow fun g => (t, value g)) files gauges)[i]? = some (addRow (fun g => (t, value g)) f g) := by
    intro i g hg
    have hi : i < files.length := by
      rw [hfiles]; exact (List.getElem?_eq_some_iff.mp hg).1
    exact ⟨files[i], List.getElem?_eq_getElem hi, by simp [List.getElem?_zipWith, List.getElem?_eq_getElem hi, hg]⟩
  have hopen' : ∀ f ∈ List.zipWith (addRow fun g => (t, value g)) files gauges, f.isOpen = true := by
    intro f hf
    obtain ⟨i, hi, rfl⟩ := List.mem_iff_getElem.mp hf
    have hi' : i < files.length := by simp at hi; omega
    rw [List.getElem_zipWith]
    exact hopen files[i] (List.getElem_mem hi')
  by_cases hk : keep = true ∧ data = []
  · obtain ⟨rfl, rfl⟩ := hk
    have := writeFrom_first numDim hd value t gauges hcells gauges [] files hfiles hopen [] (by simp)
    simp only [List.nil_append, List.length_nil] at this
    unfold writeGauges
    dsimp only
    rw [this]
    refine ⟨rfl, ⟨hd, hcells, by simp [hfiles], hopen', .inr (by simp), ?_⟩, rfl, rfl, ?_⟩
    · intro rows hr r hr'
      simp only [List.mem_map] at hr
      obtain ⟨g, _, rfl⟩ := hr
      rw [List.mem_singleton.mp hr']; exact hv g
    · intro i g hg
      obtain ⟨f, hf, hf'⟩ := hfile i g hg
      unfold fileRows keptRows
      dsimp only at hg ⊢
      rw [hf, hf']
      simp [addRow, hg]
  · have hdl : keep = true → data.length = gauges.length := by
      intro hk'
      rcases hdata with hdata | hdata
      · exact absurd ⟨hk', hdata⟩ hk
      · exact hdata
    have := writeFrom_ok numDim hd value m hv t gauges hcells gauges keep [] files hfiles hopen [] data
      (fun hk' => ⟨rfl, hdl hk', by simp [hdl hk']⟩) hcol
    simp only [List.nil_append, List.length_nil] at this
    unfold writeGauges
    dsimp only
    rw [this]
    refine ⟨rfl, ⟨hd, hcells, by simp [hfiles], hopen', ?_, ?_⟩, rfl, rfl, ?_⟩
    · cases keep with
      | false => simpa using hdata
      | true => exact .inr (by simp [hdl rfl])
    · cases keep with
      | false => simpa using hcol
      | true =>
        intro rows hr r hr'
        simp only [if_true] at hr
        obtain ⟨i, hi, rfl⟩ := List.mem_iff_getElem.mp hr
        rw [List.getElem_zipWith] at hr'
        rcases List.mem_append.mp hr' with hr' | hr'
        · exact hcol _ (List.getElem_mem _) r hr'
        · rw [List.mem_singleton.mp hr']; exact hv _
    · intro i g hg
      obtain ⟨f, hf, hf'⟩ := hfile i g hg
      unfold fileRows keptRows
      dsimp only at hg ⊢
      rw [hf, hf']
      refine ⟨by simp [addRow], ?_⟩
      cases keep with
      | false => simp
      | true =>
        have hi : i < data.length := by
          rw [hdl rfl]; exact (List.getElem?_eq_some_iff.mp hg).1
        simp [List.getElem?_zipWith, List.getElem?_eq_getElem hi, hg]

/-- One attempted step with gauges. -/
theorem attempt_gauges {rnd : K → K} {before : K → Q × U → Q × U} {numeric : K → K → Q × U → (Q × U) × Except PyErr K}
    {numDim m : Nat} {value : Q → U → List Int → List K} (hv : ∀ q u c, (value q u c).length = m)
    (ts : K) (te : Option K) (n : Nat) (s : StepState K Q (GaugeState K × U)) (h : GaugesReady numDim m s.sol.rest.1) :
    let env := gaugeEnv rnd before numeric numDim value
    let r := attempt env ts te n s
    ((r.2 = .ok true ∧ ∃ gs, r.1.sol.rest.1 = (writeGauges numDim (value r.1.sol.q r.1.sol.rest.2) r.1.sol.t gs).1 ∧
        gs = s.sol.rest.1) ∨
      (r.2 ≠ .ok true ∧ r.1.sol.rest.1 = s.sol.rest.1)) ∧ ∀ a, r.1.log ≠ s.log ++ [a] ∨ a.outcome ≠ .gaugeFailed := by
  intro env r
  have hr : r = attempt env ts te n s := rfl
  unfold attempt at hr
  dsimp only at hr
  generalize hg : getDt env.rnd s.sol.t ts te s.set s.status = g at hr
  have hrest : (env.numeric s.sol.t g.1.dt (env.before s.sol.t (s.sol.q, s.sol.rest))).1.2.1 = s.sol.rest.1 := rfl
  generalize env.numeric s.sol.t g.1.dt (env.before s.sol.t (s.sol.q, s.sol.rest)) = x at hr hrest
  obtain ⟨⟨q, gs, u⟩, res⟩ := x
  dsimp only at hrest
  subst hrest
  cases res with
  | error e =>
    dsimp only at hr
    rw [hr]
    refine ⟨.inr ⟨by simp, rfl⟩, fun a => ?_⟩
    by_cases ha : a.outcome = .gaugeFailed
    · left; intro hc
      have := List.append_cancel_left hc
      simp only [List.cons.injEq, and_true] at this
      rw [← this] at ha; cases ha
    · exact .inr ha
  | ok cfl =>
    dsimp only at hr
    by_cases hc : cfl ≤ s.set.cflMax
    · rw [if_pos hc] at hr
      generalize ht : (if s.set.dtVariable = true then env.rnd (s.sol.t + g.1.dt)
        else env.rnd (ts + env.rnd ((n + 1 : Nat) * g.1.dt))) = t' at hr
      have hw := write_ready h (value q u) (hv q u) t'
      have hgg : env.gauges t' (q, s.sol.rest.1, u) =
        (((writeGauges numDim (value q u) t' s.sol.rest.1).1, u), (writeGauges numDim (value q u) t' s.sol.rest.1).2) := rfl
      rw [hgg, hw.1] at hr
      dsimp only at hr
      rw [hr]
      refine ⟨.inl ⟨rfl, _, rfl, rfl⟩, fun a => ?_⟩
      by_cases ha : a.outcome = .gaugeFailed
      · left; intro hc
        have := List.append_cancel_left hc
        simp only [List.cons.injEq, and_true] at this
        rw [← this] at ha; cases ha
      · exact .inr ha
    · rw [if_neg hc] at hr
      split at hr
      · rw [hr]
        refine ⟨.inr ⟨by simp, rfl⟩, fun a => ?_⟩
        by_cases ha : a.outcome = .gaugeFailed
        · left; intro hc
          have := List.append_cancel_left hc
          simp only [List.cons.injEq, and_true] at this
          rw [← this] at ha; cases ha
        · exact .inr ha
      · rw [hr]
        refine ⟨.inr ⟨by simp, rfl⟩, fun a => ?_⟩
        by_cases ha : a.outcome = .gaugeFailed
        · left; intro hc
          have := List.append_cancel_left hc
          simp only [List.cons.injEq, and_true] at this
          rw [← this] at ha; cases ha
        · exact .inr ha


variable {rnd : K → K} {before : K → Q × U → Q × U} {numeric : K → K → Q × U → (Q × U) × Except PyErr K} {numDim m : Nat}
  {value : Q → U → List Int → List K}

theorem recordedRun_start (s : StepState K Q (GaugeState K × U)) : RecordedRun value s [] s :=
  ⟨⟨[], by simp⟩, by simp, rfl, rfl, fun i g _ => by simp, fun i g _ => by simp⟩

theorem recordedRun_settings {s s' : StepState K Q (GaugeState K × U)} {l} (h : RecordedRun value s l s') (f : StepSettings K) :
    RecordedRun value s l { s' with set := f } := ⟨h.1, h.2, h.3, h.4, h.5, h.6⟩

/-- One more attempt. -/
theorem recorded_step (hv : ∀ q u c, (value q u c).length = m) (ts : K) (te : Option K) (n : Nat)
    {s s' : StepState K Q (GaugeState K × U)} {l : List (StepSolution K Q (GaugeState K × U))}
    (hs : Snapshots (gaugeEnv rnd before numeric numDim value) s l s') (hr : RecordedRun value s l s')
    (hready : GaugesReady numDim m s'.sol.rest.1) :
    ∃ l', Snapshots (gaugeEnv rnd before numeric numDim value) s l'
        (attempt (gaugeEnv rnd before numeric numDim value) ts te n s').1 ∧
      RecordedRun value s l' (attempt (gaugeEnv rnd before numeric numDim value) ts te n s').1 ∧
      GaugesReady numDim m (attempt (gaugeEnv rnd before numeric numDim value) ts te n s').1.sol.rest.1 := by
  obtain ⟨h1, h2⟩ := attempt_gauges (rnd := rnd) (before := before) (numeric := numeric) hv ts te n s' hready
  obtain ⟨a, ha⟩ := attempt_facts (gaugeEnv rnd before numeric numDim value) ts te n s'
  obtain ⟨new, hn1, hn2, hn3⟩ := hr.attempts
  have hgf : a.outcome ≠ .gaugeFailed := (h2 a).resolve_left (by simp [ha.log])
  have hlog : (attempt (gaugeEnv rnd before numeric numDim value) ts te n s').1.log = s.log ++ (new ++ [a]) := by
    rw [ha.log, hn1, List.append_assoc]
  have hall : ∀ b ∈ new ++ [a], b.outcome ≠ .gaugeFailed := by
    intro b hb
    rcases List.mem_append.mp hb with hb | hb
    · exact hn2 b hb
    · rw [List.mem_singleton.mp hb]; exact hgf
  rcases h1 with ⟨hok, gs, hgs, rfl⟩ | ⟨hno, hgs⟩
  · have hacc := ha.okT.mp hok
    have hw := write_ready hready (value (attempt (gaugeEnv rnd before numeric numDim value) ts te n s').1.sol.q
      (attempt (gaugeEnv rnd before numeric numDim value) ts te n s').1.sol.rest.2) (hv _ _)
      (attempt (gaugeEnv rnd before numeric numDim value) ts te n s').1.sol.t
    rw [← hgs] at hw
    obtain ⟨_, hw2, hw3, hw4, hw5⟩ := hw
    refine ⟨_, .accepted s l s' ts te n hs hok, ⟨⟨_, hlog, hall, ?_⟩, ?_, hw3.trans hr.gauges, hw4.trans hr.keep, ?_, ?_⟩, hw2⟩
    · simp [hacc, hn3, ha.t]
    · rw [ha.numsteps, hr.count, hacc]; simp; omega
    · intro i g hg
      rw [(hw5 i g (hr.gauges ▸ hg)).1, hr.rows i g hg]
      simp
    · intro i g hg
      rw [(hw5 i g (hr.gauges ▸ hg)).2, hr.kept i g hg, hr.keep]
      cases s.sol.rest.1.keep <;> simp
  · have hacc : a.outcome ≠ .accepted := fun h => hno (ha.okT.mpr h)
    refine ⟨l, .other s l s' ts te n hs hno, ⟨⟨_, hlog, hall, ?_⟩, ?_, by rw [hgs, hr.gauges], by rw [hgs, hr.keep],
      by rw [hgs]; exact hr.rows, by rw [hgs]; exact hr.kept⟩, by rw [hgs]; exact hready⟩
    · simp [hacc, hn3]
    · rw [ha.numsteps, hr.count]; simp [hacc]

variable [FloorRing K]

/-- C57. During a run every accepted step adds exactly one row to the file of every gauge (and to the data kept in memory, if that
is asked for): the time of the solution after the step and the values in the gauge's cell. Rejected and failed attempts add
nothing. For every call of `evolve_to_time`, also one that ends with an exception. -/
theorem C57_evolve_partial (hv : ∀ q u c, (value q u c).length = m) (te : Option K) (s : StepState K Q (GaugeState K × U))
    (hready : GaugesReady numDim m s.sol.rest.1) :
    ∃ l, Snapshots (gaugeEnv rnd before numeric numDim value) s l
        (evolveToTime (gaugeEnv rnd before numeric numDim value) te s).1 ∧
      RecordedRun value s l (evolveToTime (gaugeEnv rnd before numeric numDim value) te s).1 ∧
      GaugesReady numDim m (evolveToTime (gaugeEnv rnd before numeric numDim value) te s).1.sol.rest.1 := by
  refine evolveToTime_invariant _ te s (fun s' => ∃ l, Snapshots (gaugeEnv rnd before numeric numDim value) s l s' ∧
    RecordedRun value s l s' ∧ GaugesReady numDim m s'.sol.rest.1) ⟨[], .start s, recordedRun_start s, hready⟩ ?_ ?_
  · rintro k ⟨l, h1, h2, h3⟩
    exact ⟨l, .settings _ _ _ _ h1, recordedRun_settings h2 _, h3⟩
  · rintro n s' a ⟨l, h1, h2, h3⟩ _ _
    exact recorded_step hv s.sol.t te n h1 h2 h3

theorem snapshots_trans {env : StepEnv K Q U} {s s' s'' : StepState K Q U} {l l' : List (StepSolution K Q U)}
    (h : Snapshots env s l s') (h' : Snapshots env s' l' s'') : Snapshots env s (l ++ l') s'' := by
  induction h' with
  | start => simpa using h
  | settings _ _ f _ ih => exact .settings _ _ _ _ ih
  | accepted l1 s1 ts te n _ hok ih =>
    rw [← List.append_assoc]
    exact .accepted _ _ _ _ _ _ ih hok
  | other l1 s1 ts te n _ hno ih => exact .other _ _ _ _ _ _ ih hno

theorem recordedRun_trans {s s' s'' : StepState K Q (GaugeState K × U)} {l l' : List (StepSolution K Q (GaugeState K × U))}
    (h : RecordedRun value s l s') (h' : RecordedRun value s' l' s'') : RecordedRun value s (l ++ l') s'' := by
  obtain ⟨new, a1, a2, a3⟩ := h.attempts
  obtain ⟨new', b1, b2, b3⟩ := h'.attempts
  refine ⟨⟨new ++ new', by rw [b1, a1, List.append_assoc], ?_, by simp [a3, b3]⟩, by rw [h'.count, h.count]; simp; omega,
    h'.gauges.trans h.gauges, h'.keep.trans h.keep, ?_, ?_⟩
  · intro a ha
    rcases List.mem_append.mp ha with ha | ha
    · exact a2 a ha
    · exact b2 a ha
  · intro i g hg
    rw [h'.rows i g (h.gauges ▸ hg), h.rows i g hg]; simp
  · intro i g hg
    rw [h'.kept i g (h.gauges ▸ hg), h.kept i g hg, h.keep]
    cases s.sol.rest.1.keep <;> simp

/-- C57. The same for every sequence of calls with arbitrary changes of the solver's settings in between. -/
theorem C57_session_partial (hv : ∀ q u c, (value q u c).length = m)
    (ops : List (StepOp K Q (GaugeState K × U))) (hops : OnlyEvolves ops) (s : StepState K Q (GaugeState K × U))
    (hready : GaugesReady numDim m s.sol.rest.1) :
    ∃ l, Snapshots (gaugeEnv rnd before numeric numDim value) s l
        (runSteps (gaugeEnv rnd before numeric numDim value) ops s) ∧
      RecordedRun value s l (runSteps (gaugeEnv rnd before numeric numDim value) ops s) := by
  induction ops generalizing s with
  | nil => exact ⟨[], .start s, recordedRun_start s⟩
  | cons o ops ih =>
    have hops' : OnlyEvolves ops := fun x hx => hops x (by simp [hx])
    rcases hops o (by simp) with ⟨te, rfl⟩ | ⟨f, rfl⟩
    · obtain ⟨l, h1, h2, h3⟩ := C57_evolve_partial (rnd := rnd) (before := before) (numeric := numeric) hv te s hready
      obtain ⟨l', h1', h2'⟩ := ih hops' _ h3
      exact ⟨l ++ l', snapshots_trans h1 h1', recordedRun_trans h2 h2'⟩
    · obtain ⟨l', h1', h2'⟩ := ih hops' { s with set := f s.set } hready
      have hrun : runSteps (gaugeEnv rnd before numeric numDim value) (.adjust f :: ops) s =
        runSteps (gaugeEnv rnd before numeric numDim value) ops { s with set := f s.set } := rfl
      rw [hrun]
      have h1 : Snapshots (gaugeEnv rnd before numeric numDim value) s [] { s with set := f s.set } :=
        .settings _ _ _ _ (.start s)
      exact ⟨l', snapshots_trans h1 h1',
        recordedRun_trans (recordedRun_settings (recordedRun_start s) (f s.set)) h2'⟩

/-- Setting up the files for the first time makes everything ready. -/
theorem setup_ready (gs : GaugeState K) (hdim : numDim = 1 ∨ numDim = 2) (hcells : ∀ g ∈ gs.gauges, g.length = numDim)
    (hfiles : gs.files = []) (hdata : gs.data = []) : GaugesReady numDim m (setupGaugeFiles gs) := by
  refine ⟨hdim, hcells, by simp [setupGaugeFiles, hfiles], ?_, .inl hdata, by simp [setupGaugeFiles, hdata]⟩
  intro f hf
  simp only [setupGaugeFiles, hfiles, List.nil_append, List.mem_map] at hf
  obtain ⟨_, _, rfl⟩ := hf
  rfl

/-- C57. A whole run of the controller: the files are set up, the initial values are written, then the solver is called any
number of times. The file of each gauge then holds the initial values followed by one row per accepted step, and so do the data
in memory, if they are kept. -/
theorem C57_run_partial (hv : ∀ q u c, (value q u c).length = m)
    (ops : List (StepOp K Q (GaugeState K × U))) (hops : OnlyEvolves ops) (s : StepState K Q (GaugeState K × U))
    (hdim : numDim = 1 ∨ numDim = 2) (hcells : ∀ g ∈ s.sol.rest.1.gauges, g.length = numDim)
    (hfiles : s.sol.rest.1.files = []) (hdata : s.sol.rest.1.data = []) :
    ∃ w l, writeGauges numDim (value s.sol.q s.sol.rest.2) s.sol.t (setupGaugeFiles s.sol.rest.1) = (w, none) ∧
      (let s1 := { s with sol := { s.sol with rest := (w, s.sol.rest.2) } }
       let s' := runSteps (gaugeEnv rnd before numeric numDim value) ops s1
       Snapshots (gaugeEnv rnd before numeric numDim value) s1 l s' ∧ RecordedRun value s1 l s' ∧
       ∀ i g, s.sol.rest.1.gauges[i]? = some g →
        fileRows s'.sol.rest.1 i = (s.sol.t, value s.sol.q s.sol.rest.2 g) :: l.map (fun x => (x.t, value x.q x.rest.2 g)) ∧
        (s.sol.rest.1.keep = true → keptRows s'.sol.rest.1 i = fileRows s'.sol.rest.1 i)) := by
  have hr := setup_ready (m := m) s.sol.rest.1 hdim hcells hfiles hdata
  obtain ⟨w1, w2, w3, w4, w5⟩ := write_ready hr (value s.sol.q s.sol.rest.2) (hv _ _) s.sol.t
  refine ⟨(writeGauges numDim (value s.sol.q s.sol.rest.2) s.sol.t (setupGaugeFiles s.sol.rest.1)).1, ?_⟩
  obtain ⟨l, h1, h2⟩ := C57_session_partial (rnd := rnd) (before := before) (numeric := numeric) hv ops hops
    { s with sol := { s.sol with rest := ((writeGauges numDim (value s.sol.q s.sol.rest.2) s.sol.t
      (setupGaugeFiles s.sol.rest.1)).1, s.sol.rest.2) } } w2
  refine ⟨l, Prod.ext rfl w1, h1, h2, ?_⟩
  intro i g hg
  have hf0 : fileRows (setupGaugeFiles s.sol.rest.1) i = [] := by
    unfold fileRows setupGaugeFiles
    simp only [hfiles, List.nil_append, List.getElem?_map]
    cases s.sol.rest.1.gauges[i]? <;> rfl
  have hk0 : keptRows (setupGaugeFiles s.sol.rest.1) i = [] := by
    unfold keptRows setupGaugeFiles
    simp [hdata]
  obtain ⟨hw5, hw6⟩ := w5 i g hg
  have hfr := h2.rows i g (w3.symm ▸ hg)
  have hkr := h2.kept i g (w3.symm ▸ hg)
  dsimp only at hfr hkr
  rw [hf0, List.nil_append] at hw5
  rw [hk0, List.nil_append] at hw6
  rw [hw5] at hfr
  rw [hw6, w4] at hkr
  refine ⟨hfr, fun hk => ?_⟩
  rw [hkr, hfr]
  simp [show (setupGaugeFiles s.sol.rest.1).keep = true from hk]

/-- C57 is false in three dimensions: with any gauge every accepted step, and the start of the run, raises `NameError`. -/
theorem C57_three_dimensions_violated (f : List Int → List K) (t : K) (gs : GaugeState K) (h : gs.gauges ≠ []) :
    writeGauges 3 f t gs = (gs, some .nameError) := by
  unfold writeGauges
  cases hg : gs.gauges with
  | nil => exact absurd hg h
  | cons g l => rfl

/-- C57 is false for the second run of a controller on the same grid: `setup_gauge_files` appends the new files behind the closed
ones of the first run, and the rows still go to the first, closed, ones: writing raises. -/
theorem C57_second_run_violated (f : List Int → List K) (t : K) (gs : GaugeState K) (hdim : numDim = 1 ∨ numDim = 2)
    (h : gs.gauges ≠ []) (hcells : ∀ g ∈ gs.gauges, g.length = numDim) (hkeep : gs.keep = false)
    (hfiles : gs.files.length = gs.gauges.length) :
    writeGauges numDim f t (setupGaugeFiles (closeGaugeFiles gs)) = (setupGaugeFiles (closeGaugeFiles gs), some .valueError) := by
  obtain ⟨gauges, files, keep, data⟩ := gs
  dsimp only at h hcells hkeep hfiles
  subst hkeep
  cases gauges with
  | nil => exact absurd rfl h
  | cons g l =>
    cases files with
    | nil => cases hfiles
    | cons f0 files =>
      unfold writeGauges setupGaugeFiles closeGaugeFiles
      dsimp only
      unfold writeGaugesFrom
      rw [gaugeCell_ok numDim hdim g (hcells g (by simp))]
      rfl

/-- Non-vacuity: one gauge in cell 2; every step adds `dt` to `q`. -/
def gaugeExEnv : StepEnv ℚ (Int → ℚ) (GaugeState ℚ × Unit) :=
  gaugeEnv (U := Unit) (id : ℚ → ℚ) (fun _ d => d) (fun _ dt d => ((fun i => d.1 i + dt, d.2), .ok (1 / 2))) 1
    (fun q _ c => [q (c.headD 0)])

def gaugeExState : StepState ℚ (Int → ℚ) (GaugeState ℚ × Unit) :=
  ⟨⟨false, 1, none, 10, 1, 9 / 10, 100, 0⟩, {}, ⟨0, fun i => i,
    ((writeGauges 1 (fun c => [(c.headD 0 : ℚ)]) 0 (setupGaugeFiles ⟨[[2]], [], true, []⟩)).1, ())⟩, []⟩

example : GaugesReady 1 1 gaugeExState.sol.rest.1 :=
  (write_ready (setup_ready _ (.inl rfl) (by decide) rfl rfl) (fun c => [(c.headD 0 : ℚ)]) (fun _ => rfl) 0).2.1

example : fileRows (runSteps gaugeExEnv [.evolve (some 2)] gaugeExState).sol.rest.1 0 = [(0, [2]), (1, [3]), (2, [4])] ∧
    keptRows (runSteps gaugeExEnv [.evolve (some 2)] gaugeExState).sol.rest.1 0 = [(0, [2]), (1, [3]), (2, [4])] := by
  decide +kernel

end PyClaw
