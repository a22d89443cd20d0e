import Verif.Spec.Symmetry

/-! Vocabulary of C103: three runs, one of which is a combination of the others. -/
namespace PyClaw.Spec

variable {ι K : Type*} [Field K]

/-- In all cells of the grid the third solution is `α` times the first plus `β` times the second; all have the same aux values. -/
def Combined (m naux : Nat) (n : ι → Nat) (α β : K) (d₁ d₂ d : GArr ι K × GArr ι K × BCArrays ι K) : Prop :=
  ∀ x : ι → Nat, (∀ a, x a < n a) →
    (∀ k, k < m → d.1 k x = α * d₁.1 k x + β * d₂.1 k x) ∧ ∀ k, k < naux → d₁.2.1 k x = d.2.1 k x ∧ d₂.2.1 k x = d.2.1 k x

/-- Three runs in step (same settings, status, time and record of attempted steps), the third of which holds the combination of the
others. -/
structure Superposed (m naux : Nat) (n : ι → Nat) (α β : K) (s₁ s₂ s : StepState K (GArr ι K) (GArr ι K × BCArrays ι K)) : Prop where
  first : InStep (fun _ _ => True) s s₁
  second : InStep (fun _ _ => True) s s₂
  data : Combined m naux n α β (s₁.sol.q, s₁.sol.rest) (s₂.sol.q, s₂.sol.rest) (s.sol.q, s.sol.rest)

/-- A Riemann solver of a linear problem: the speeds do not depend on the states, waves and fluctuations are linear in them. (It is enough
for the combination in question.) -/
structure LinearRiemann {A : Type*} {m w : Nat} (α β : K) (rp : Riemann K A m w) : Prop where
  speeds : ∀ ql qr ql' qr' al ar, (rp ql' qr' al ar).s = (rp ql qr al ar).s
  waves : ∀ ql qr ql' qr' al ar p,
    (rp (α • ql + β • ql') (α • qr + β • qr') al ar).wave p = α • (rp ql qr al ar).wave p + β • (rp ql' qr' al ar).wave p
  amdq : ∀ ql qr ql' qr' al ar,
    (rp (α • ql + β • ql') (α • qr + β • qr') al ar).amdq = α • (rp ql qr al ar).amdq + β • (rp ql' qr' al ar).amdq
  apdq : ∀ ql qr ql' qr' al ar,
    (rp (α • ql + β • ql') (α • qr + β • qr') al ar).apdq = α • (rp ql qr al ar).apdq + β • (rp ql' qr' al ar).apdq

/-- A transverse solver of a linear problem: linear in what it splits, whatever the states are. -/
def LinearSplitting {A : Type*} {m : Nat} (α β : K) (rt : Transverse K A m) : Prop :=
  ∀ imp ql₁ qr₁ ql₂ qr₂ ql qr al ar a₁ a₂,
    rt imp ql qr al ar (α • a₁ + β • a₂) = α • rt imp ql₁ qr₁ al ar a₁ + β • rt imp ql₂ qr₂ al ar a₂

/-- The same for the transverse solvers in three dimensions. -/
def LinearSplitting3 {A : Type*} {m : Nat} (α β : K) (rt : Transverse3 K A m) (rtt : Transverse33 K A m) : Prop :=
  (∀ icoor imp ql₁ qr₁ ql₂ qr₂ ql qr al ar a₁ a₂,
    rt icoor imp ql qr al ar (α • a₁ + β • a₂) = α • rt icoor imp ql₁ qr₁ al ar a₁ + β • rt icoor imp ql₂ qr₂ al ar a₂) ∧
  ∀ icoor imp impt ql₁ qr₁ ql₂ qr₂ ql qr al ar a₁ a₂,
    rtt icoor imp impt ql qr al ar (α • a₁ + β • a₂) =
      α • rtt icoor imp impt ql₁ qr₁ al ar a₁ + β • rtt icoor imp impt ql₂ qr₂ al ar a₂

/-- A user function that acts cell by cell and is linear in the `m` components of `q`. -/
def LinearCells (m naux : Nat) (α β : K) (f : CellMap ι K) : Prop :=
  ∀ x q₁ q₂ q a₁ a₂ a, (∀ k, k < m → q k = α * q₁ k + β * q₂ k) → (∀ k, k < naux → a₁ k = a k ∧ a₂ k = a k) →
    ∀ k, k < m → f x q a k = α * f x q₁ a₁ k + β * f x q₂ a₂ k

/-- A classic run of a linear problem: kernel `step`, source terms and `before_step` linear in `q`, `before_step` for aux independent
of `q`. -/
structure LinearRun {d : Nat} (α β : K) (c : ParCfg (Fin d) K) (m naux : Nat) (step : IntKern (Fin d) K m naux) : Prop where
  ghost : 2 ≤ c.bc.g
  numAux : c.bc.numAux = naux
  axes : c.axes = List.finRange d
  kern : c.kern = onArrays m naux c.bc.g step
  source : ∀ f, c.source = some f → ∀ t h, LinearCells m naux α β (f t h)
  beforeQ : ∀ t, LinearCells m naux α β (c.beforeQ t)
  beforeAux : ∀ t x q q' a a', (∀ k, k < naux → a' k = a k) → ∀ k, k < naux → c.beforeAux t x q' a' k = c.beforeAux t x q a k

/-- No limiter is in effect: the method is of first order, or all limiters are switched off. -/
def Unlimited {w : Nat} (order : Int) (limiter : Fin w → Int) : Prop := order = 1 ∨ ∀ p, limiter p = 0

end PyClaw.Spec
