import Verif.Model.ClassicSetup

/-!
What the attributes of a classic solver mean for its steps.
-/
namespace PyClaw.Spec

variable {R V : Type*}

/-- The limiter for wave `p` (counted from 0): a number is for all waves, and so is the only entry of a list. -/
def limiterFor : WaveLimiters → Nat → Option Int
  | .one n, _ => some n
  | .list [n], _ => some n
  | .list l, p => l[p]?

/-- The step does what the attributes of the solver and of the state say. `block r`: the parameters of the Riemann solver `r`. -/
structure CallFollows (block : R → Option (List String)) (s : ClassicSettings R) (st : RunState V) (c : KernelCall R V) : Prop where
  solver : c.rp = s.rp
  order : c.order = s.order
  waves : c.limiters.length = s.numWaves
  limiter : ∀ p, p < s.numWaves → c.limiters[p]? = limiterFor s.limiters p
  fwave : c.fwave = s.fwave
  capacity : c.capa = if st.indexCapa < 0 then none else some st.indexCapa.toNat
  numAux : c.numAux = st.numAux
  params : ∀ names, block s.rp = some names → ∀ x ∈ names, c.params x = st.data x
  splitting : c.split = true ↔ s.numDim ≠ 1 ∧ s.dimensionalSplit = true
  /-- No transverse propagation with dimensional splitting and in one dimension. -/
  straight : s.numDim = 1 ∨ s.dimensionalSplit = true → c.trans ≤ 0
  /-- Without splitting the option chosen, with the transverse Riemann solvers if they are called. -/
  transverse : s.numDim ≠ 1 → s.dimensionalSplit = false → c.trans = s.transverseWaves ∧ (c.trans ≠ 0 → c.transverseSolver = true)

/-- One limiter, or one for each wave. -/
def LimitersFit (s : ClassicSettings R) : Prop :=
  match s.limiters with
  | .one _ => True
  | .list l => l.length = 1 ∨ l.length = s.numWaves

/-- The attributes fit: one limiter, or one for each wave; no Python kernel in several dimensions; with the Fortran kernel all parameters of
the Riemann solver are given. -/
def Acceptable (block : R → Option (List String)) (s : ClassicSettings R) (st : RunState V) : Prop :=
  LimitersFit s ∧
  (s.fortran = true → ∀ names, block s.rp = some names → ∀ x ∈ names, st.data x ≠ none) ∧
  (s.fortran = false → s.numDim ≤ 1)

/-- Two states give the solver the same: `index_capa`, `num_aux`, and the parameters `names`. -/
def SameFor (names : Option (List String)) (st st' : RunState V) : Prop :=
  st'.indexCapa = st.indexCapa ∧ st'.numAux = st.numAux ∧ ∀ l, names = some l → ∀ x ∈ l, st'.data x = st.data x

/-- Actions after which solver `i`, set up with a state like `st`, need not be set up again: any actions of solvers with other Riemann solvers; set-ups
and runs of solvers with the same one, with the same parameters; runs of `i` with states that give it the same; of its attributes only
`fwave` is assigned, `order` if the kernel is the one in Python, and entries of `limiters` if they are a list for more than one wave. -/
def Harmless (block : R → Option (List String)) (i : Nat) (st : RunState V) (p : SolverProcess R V) : SolverOp R V → Prop
  | .assign j a => j = i → match a with
    | .fwave _ => True
    | .order _ => (p.solver i).set.fortran = false
    | _ => False
  | .setItem j _ _ => j = i → ∃ l, (p.solver i).set.limiters = .list l ∧ 1 < l.length
  | .setup j st' => (j = i → SameFor (block (p.solver i).set.rp) st st') ∧
    ((p.solver j).set.rp = (p.solver i).set.rp → ∀ l, block (p.solver i).set.rp = some l → ∀ x ∈ l, st'.data x = st.data x)
  | .evolve j st' => (p.solver j).set.rp = (p.solver i).set.rp → ∀ l, block (p.solver i).set.rp = some l → ∀ x ∈ l, st'.data x = st.data x

/-- A program of such actions. -/
def HarmlessRun [DecidableEq R] (block : R → Option (List String)) (i : Nat) (st : RunState V) :
    SolverProcess R V → List (SolverOp R V) → Prop
  | _, [] => True
  | p, op :: ops => Harmless block i st p op ∧ HarmlessRun block i st (p.act block op) ops

/-- Actions that do not touch the list of limiters of solver `i` and do not set it up. -/
def LeavesAlone (i : Nat) : SolverOp R V → Prop
  | .setItem j _ _ => j ≠ i
  | .setup j _ => j ≠ i
  | _ => True

end PyClaw.Spec
