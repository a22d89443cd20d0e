import Verif.Model.BC
import Mathlib.Algebra.BigOperators.Group.List.Basic

/-!
Specification of boundary filling (C13–C17): every entry of the ghosted array is read from the cell
obtained by folding each ghost coordinate back into the grid, up to a sign for reflecting walls.
Coordinates here are those of the ghosted array: `g … g+n-1` are the interior cells.
-/
namespace PyClaw.Spec

/-- Where a lower ghost coordinate `k < g` comes from. -/
def lowerSrc (t : BCType) (g n k : Nat) : Nat :=
  match t with
  | .extrap => g                 -- the nearest interior cell
  | .periodic => k + n           -- one period further up
  | .wall => 2 * g - 1 - k       -- mirror image at the boundary
  | _ => k

/-- Where an upper ghost coordinate `g+n ≤ k` comes from. -/
def upperSrc (t : BCType) (g n k : Nat) : Nat :=
  match t with
  | .extrap => g + n - 1
  | .periodic => k - n
  | .wall => 2 * (g + n) - 1 - k
  | _ => k

variable {ι K : Type*}

/-- The boundary conditions of one array, side by side; `none` where this process has nothing to do on
that side (not a domain boundary, or periodic handled elsewhere). -/
structure Sides (ι : Type*) where
  g : Nat
  n : ι → Nat
  lower : ι → Option BCType
  upper : ι → Option BCType

/-- The coordinate along axis `a` from which coordinate `k` is filled. -/
def Sides.src (b : Sides ι) (a : ι) (k : Nat) : Nat :=
  if k < b.g then
    match b.lower a with
    | some t => lowerSrc t b.g (b.n a) k
    | none => k
  else if b.g + b.n a ≤ k then
    match b.upper a with
    | some t => upperSrc t b.g (b.n a) k
    | none => k
  else k

/-- Is coordinate `k` a ghost coordinate behind a wall? -/
def Sides.behindWall (b : Sides ι) (a : ι) (k : Nat) : Bool :=
  (decide (k < b.g) && b.lower a == some .wall) ||
    (decide (b.g + b.n a ≤ k) && b.upper a == some .wall)

/-- The sign: `-1` for every axis `a` along which the index is behind a wall and the component is the
one reflected at walls normal to `a` (`flip a`). -/
def Sides.sign [One K] [Neg K] [Mul K] (b : Sides ι) (flip : ι → Option Nat) (axes : List ι) (c : Nat)
    (idx : ι → Nat) : K :=
  (axes.map fun a => if b.behindWall a (idx a) && flip a == some c then (-1 : K) else 1).prod

/-- The sides on which this process fills ghost cells of `q`: the domain boundaries it touches, except a
periodic boundary whose other end belongs to another process. -/
def qSides (cfg : BCConfig ι K) : Sides ι where
  g := cfg.g
  n := cfg.n
  lower a := if cfg.onLower a ∧ ¬(cfg.bcLower a = .periodic ∧ cfg.onUpper a = false)
    then some (cfg.bcLower a) else none
  upper a := if cfg.onUpper a ∧ ¬(cfg.bcUpper a = .periodic ∧ cfg.onLower a = false)
    then some (cfg.bcUpper a) else none

/-- The same for the aux array (nothing if there is none). -/
def auxSides (cfg : BCConfig ι K) : Sides ι where
  g := cfg.g
  n := cfg.n
  lower a := if 0 < cfg.numAux ∧ cfg.onLower a ∧ ¬(cfg.auxLower a = .periodic ∧ cfg.onUpper a = false)
    then some (cfg.auxLower a) else none
  upper a := if 0 < cfg.numAux ∧ cfg.onUpper a ∧ ¬(cfg.auxUpper a = .periodic ∧ cfg.onLower a = false)
    then some (cfg.auxUpper a) else none

/-- The index vector from which entry `idx` is filled. -/
def Sides.fold (b : Sides ι) (idx : ι → Nat) : ι → Nat := fun a => b.src a (idx a)

/-- The boundary conditions the library implements itself. -/
def BuiltInBC (t : BCType) : Prop := t = .extrap ∨ t = .periodic ∨ t = .wall

/-- A grid with at least as many cells as ghost cells along every axis and a built-in condition on every
boundary; where `q` meets a wall the component to reflect exists. -/
structure Admissible (cfg : BCConfig ι K) : Prop where
  cells : ∀ a, 0 < cfg.n a ∧ cfg.g ≤ cfg.n a
  lower : ∀ a, BuiltInBC (cfg.bcLower a)
  upper : ∀ a, BuiltInBC (cfg.bcUpper a)
  auxLower : 0 < cfg.numAux → ∀ a, BuiltInBC (cfg.auxLower a)
  auxUpper : 0 < cfg.numAux → ∀ a, BuiltInBC (cfg.auxUpper a)
  reflect : ∀ a, cfg.bcLower a = .wall ∨ cfg.bcUpper a = .wall → cfg.reflect a < cfg.numEqn

/-- What is wrong with the condition on one side of one array: nothing (`none`) or the exception to be
raised. -/
def bcProblem (cfg : BCConfig ι K) (upper isQ : Bool) (a : ι) : Option PyErr :=
  match (match upper, isQ with
    | false, true => cfg.bcLower a
    | false, false => cfg.auxLower a
    | true, true => cfg.bcUpper a
    | true, false => cfg.auxUpper a) with
  | .extrap => none
  | .periodic => none
  | .wall => if isQ = true ∧ 0 < cfg.g ∧ cfg.numEqn ≤ cfg.reflect a then some .indexError else none
  | .unset => some (.exception (if upper then "Upper boundary condition not specified for either q or aux."
      else "Lower boundary condition not specified for either q or aux."))
  | .unknown => some .notImplemented
  | .custom =>
    if (match upper, isQ with
      | false, true => cfg.userLower
      | false, false => cfg.userAuxLower
      | true, true => cfg.userUpper
      | true, false => cfg.userAuxUpper).isSome then none else some .typeError

/-- The boundary sides of one axis in the order in which they are processed: `(upper, isQ)`. -/
def sidesOf (cfg : BCConfig ι K) (a : ι) : List (Bool × Bool) :=
  (if cfg.onLower a then (if 0 < cfg.numAux then [(false, false)] else []) ++ [(false, true)] else []) ++
  (if cfg.onUpper a then (if 0 < cfg.numAux then [(true, false)] else []) ++ [(true, true)] else [])

/-- All problems of a configuration, in processing order. -/
def bcProblems (cfg : BCConfig ι K) (axes : List ι) : List PyErr :=
  axes.flatMap fun a => (sidesOf cfg a).filterMap fun s => bcProblem cfg s.1 s.2 a

end PyClaw.Spec
