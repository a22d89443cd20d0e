import Verif.Model.SharpTime
import Verif.Spec.SharpRK

/-!
Vocabulary for SharpClaw runs (C77).
-/
namespace PyClaw.Spec

variable {K E : Type*}

/-- The attempts follow each other in time and in the solution. -/
def Follows (a b : SharpTry K E) : Prop := b.tBefore = a.tAfter ∧ b.qBefore = a.qAfter

variable [Field K] [LinearOrder K] [AddCommGroup E] [Module K E]

/-- A step of size `x` from `t` was wanted and `d` is what is taken on the way to `target`: `x`, unless that would
step over the target or miss it by less than `1e-14 t`; then exactly the distance to the target. -/
def SizedTo (target : Option K) (t x d : K) : Prop :=
  match target with
  | none => d = x
  | some T => (d = x ∧ t + x ≤ T) ∨ (d = T - t ∧ (T < t + x ∨ T - t - x < 1 / 10 ^ 14 * t))

/-- The explicit Runge-Kutta method with tableau `T` is the one the solver is asked for. The first four are given
by their well-known coefficients. -/
inductive Selects : Integrator K → (n : Nat) → Tableau K n → Prop
  | euler : Selects .euler 1 ⟨fun _ _ => 0, fun _ => 1⟩
  | ssp22 : Selects .ssp22 2 ⟨fun i j => if j.val < i.val then 1 else 0, fun _ => 1 / 2⟩
  | ssp33 : Selects .ssp33 3
      ⟨fun i j => if j.val < i.val then (if i.val = 1 then 1 else 1 / 4) else 0,
       fun i => if i.val = 2 then 2 / 3 else 1 / 6⟩
  | ssp104 : Selects .ssp104 10
      ⟨fun i j => if j.val < i.val then (if i.val < 5 then 1 / 6 else if j.val < 5 then 1 / 15 else 1 / 6) else 0,
       fun _ => 1 / 10⟩
  | rk {n : Nat} (T : Tableau K (n + 1)) (hT : T.Explicit) (a : Nat → Nat → K) (b c : Nat → K)
      (ha : ∀ i j : Fin (n + 1), a i j = T.a i j) (hb : ∀ i : Fin (n + 1), b i = T.b i)
      (hc : ∀ i : Fin (n + 1), c i = T.c i) : Selects (.rk a b c (n + 1)) (n + 1) T

/-- The semidiscretization is `q' = f(t, q)` and the Courant number of a step of size `dt` is `dt * nu`. No
`before_step` on stages. -/
structure Semidiscrete (env : SharpEnv K E) (f : K → E → E) (nu : K → E → K) : Prop where
  nonneg : ∀ t q, 0 ≤ nu t q
  dq : ∀ dt t q, (env.dq dt t q).1 = dt • f t q
  courant : ∀ dt t q, 0 < dt → (env.dq dt t q).2 = dt * nu t q
  stage : ∀ t q, env.stage t q = q

/-- What a run must guarantee for one attempted step of the method `T` for `q' = f(t, q)`. -/
structure StepOk {n : Nat} (T : Tableau K n) (env : SharpEnv K E) (c : SharpCfg K) (f : K → E → E) (nu : K → E → K)
    (a : SharpTry K E) : Prop where
  /-- time goes forward and the step does not pass the target time -/
  positive : 0 < a.dt
  before_target : ∀ te, a.target = some te → a.tBefore + a.dt ≤ te
  /-- the reported Courant number is at least that of the step's beginning and that of every stage -/
  courant : a.dt * nu a.tBefore (env.before a.tBefore a.qBefore) ≤ a.cfl ∧ a.stageCfl ≤ a.cfl
  /-- the step is accepted or rejected according to the limit -/
  decided : a.outcome = .accepted ∧ a.cfl ≤ c.cflMax ∨ a.outcome = .rejected ∧ c.cflMax < a.cfl
  /-- an accepted step is a step of the method; time advances by its size -/
  accepted : a.outcome = .accepted → a.tAfter = a.tBefore + a.dt ∧
    T.Step f a.dt a.tBefore (env.before a.tBefore a.qBefore) a.qAfter
  /-- a rejected step leaves no trace -/
  rejected : a.outcome = .rejected → a.tAfter = a.tBefore ∧ a.qAfter = a.qBefore

/-- The step size after an accepted step is the one with the desired Courant number (`dt_max` if nothing moves);
after a rejected step the rejected size is scaled to the desired Courant number. -/
def SizeRule (env : SharpEnv K E) (c : SharpCfg K) (nu : K → E → K) (a b : SharpTry K E) : Prop :=
  let speed := nu b.tBefore (env.before b.tBefore b.qBefore)
  (a.outcome = .accepted →
    SizedTo b.target b.tBefore (if speed = 0 then c.dtMax else c.cflDesired / speed) b.dt) ∧
  (a.outcome = .rejected → SizedTo b.target b.tBefore (a.dt * c.cflDesired / a.cfl) b.dt)

end PyClaw.Spec
