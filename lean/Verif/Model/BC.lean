import Verif.Model.Basic
import Mathlib.Algebra.Ring.Defs
import Mathlib.Data.List.Basic
import Mathlib.Logic.Function.Basic

/-!
Model of `Solver._apply_bcs`, `_bc_lower`, `_bc_upper`, /repo/src/pyclaw/solver.py:351-519.

A ghosted array is a function of the component and of an index vector; `ι` is the set of axes, `n a` the
number of cells and `n a + 2*g` the extent along axis `a`. `np.rollaxis(array, idim+1, 1)` is a view with
axis `idim` first, so writing to it is writing along axis `a` of the array. Slice assignments read the
whole right-hand side before writing (NumPy guarantees this for overlapping slices).

Simplifications. Negative `reflect_index` values are not modelled. The old custom boundary function
signature is not modelled (the function gets both arrays).
-/
namespace PyClaw

/-- The values `BC.custom … BC.wall` of solver.py:13-19, `None`, and anything else. -/
inductive BCType where
  | custom
  | extrap
  | periodic
  | wall
  | unset
  | unknown
  deriving DecidableEq, Repr

/-- A ghosted array: component, index vector. -/
abbrev GArr (ι K : Type*) := Nat → (ι → Nat) → K

/-- `qbc` and `auxbc`. -/
structure BCArrays (ι K : Type*) where
  q : GArr ι K
  aux : GArr ι K

/-- The attributes of solver and grid that `_apply_bcs` uses. -/
structure BCConfig (ι K : Type*) where
  g : Nat
  n : ι → Nat
  numEqn : Nat
  numAux : Nat
  bcLower : ι → BCType
  bcUpper : ι → BCType
  auxLower : ι → BCType
  auxUpper : ι → BCType
  reflect : ι → Nat
  onLower : ι → Bool
  onUpper : ι → Bool
  /-- `user_bc_lower`, `user_bc_upper`, `user_aux_bc_lower`, `user_aux_bc_upper`: called with the
  dimension and both arrays, which they may change. `none` is Python's `None`. -/
  userLower : Option (ι → BCArrays ι K → BCArrays ι K) := none
  userUpper : Option (ι → BCArrays ι K → BCArrays ι K) := none
  userAuxLower : Option (ι → BCArrays ι K → BCArrays ι K) := none
  userAuxUpper : Option (ι → BCArrays ι K → BCArrays ι K) := none

variable {ι K : Type*} [DecidableEq ι]

/-- `array[:,i,...] = array[:,src,...]` along axis `a`. -/
def copyRow (a : ι) (i src : Nat) (A : GArr ι K) : GArr ι K :=
  fun c idx => if idx a = i then A c (Function.update idx a src) else A c idx

/-- `array[r,i,...] = -array[r,src,...]` along axis `a`. -/
def negRow [Neg K] (a : ι) (r i src : Nat) (A : GArr ι K) : GArr ι K :=
  fun c idx => if c = r ∧ idx a = i then -A c (Function.update idx a src) else A c idx

variable [Neg K]

/-- One iteration of the wall loop for `q`, solver.py:467-470 / 508-511; `reflect_index` beyond the
number of components raises `IndexError` after the row has been copied. -/
def wallRow (cfg : BCConfig ι K) (a : ι) (i src : Nat) (A : GArr ι K) : Ret (GArr ι K) Unit :=
  let A1 := copyRow a i src A
  if cfg.reflect a < cfg.numEqn then (negRow a (cfg.reflect a) i src A1, .ok ())
  else (A1, .error .indexError)

/-- A loop over a list of indices that stops at the first exception. -/
def loopRet {σ : Type*} (f : Nat → σ → Ret σ Unit) : List Nat → σ → Ret σ Unit
  | [], s => (s, .ok ())
  | i :: is, s =>
    match f i s with
    | (s', .error e) => (s', .error e)
    | (s', .ok _) => loopRet f is s'

/-- `_bc_lower`, solver.py:439-478. `isQ` is `name == 'q'`. -/
def bcLowerArr (cfg : BCConfig ι K) (t : BCType) (a : ι) (isQ : Bool) (A : GArr ι K) :
    Ret (GArr ι K) Unit :=
  match t with
  | .extrap => ((List.range cfg.g).foldl (fun A i => copyRow a i cfg.g A) A, .ok ())
  | .periodic =>
    -- array[:,:g] = array[:,-2*g:-g]
    (fun c idx => if idx a < cfg.g then A c (Function.update idx a (idx a + cfg.n a)) else A c idx,
      .ok ())
  | .wall =>
    if isQ then loopRet (fun i A => wallRow cfg a i (2 * cfg.g - 1 - i) A) (List.range cfg.g) A
    else ((List.range cfg.g).foldl (fun A i => copyRow a i (2 * cfg.g - 1 - i) A) A, .ok ())
  | .unset => (A, .error (.exception "Lower boundary condition not specified for either q or aux."))
  | .custom => (A, .error .notImplemented)
  | .unknown => (A, .error .notImplemented)

/-- `_bc_upper`, solver.py:480-519. Index `-i-1` is `n+2g-1-i`, `-g-1` is `n+g-1`, `-2g+i` is `n+i`. -/
def bcUpperArr (cfg : BCConfig ι K) (t : BCType) (a : ι) (isQ : Bool) (A : GArr ι K) :
    Ret (GArr ι K) Unit :=
  let N := cfg.n a + 2 * cfg.g
  match t with
  | .extrap => ((List.range cfg.g).foldl (fun A i => copyRow a (N - 1 - i) (N - cfg.g - 1) A) A, .ok ())
  | .periodic =>
    -- array[:,-g:] = array[:,g:2*g]
    (fun c idx => if N - cfg.g ≤ idx a ∧ idx a < N then
        A c (Function.update idx a (idx a - cfg.n a)) else A c idx, .ok ())
  | .wall =>
    if isQ then loopRet (fun i A => wallRow cfg a (N - 1 - i) (N - 2 * cfg.g + i) A) (List.range cfg.g) A
    else ((List.range cfg.g).foldl (fun A i => copyRow a (N - 1 - i) (N - 2 * cfg.g + i) A) A, .ok ())
  | .unset => (A, .error (.exception "Upper boundary condition not specified for either q or aux."))
  | .custom => (A, .error .notImplemented)
  | .unknown => (A, .error .notImplemented)

/-- One entry of the list `bcs`, on the lower or upper side: solver.py:393-407 / 423-437.
`other` says whether the grid is also on the opposite boundary. Calling `None` raises `TypeError`. -/
def applyOne (cfg : BCConfig ι K) (upper : Bool) (a : ι) (isQ : Bool) (s : BCArrays ι K) :
    Ret (BCArrays ι K) Unit :=
  let t := match upper, isQ with
    | false, true => cfg.bcLower a
    | false, false => cfg.auxLower a
    | true, true => cfg.bcUpper a
    | true, false => cfg.auxUpper a
  let user := match upper, isQ with
    | false, true => cfg.userLower
    | false, false => cfg.userAuxLower
    | true, true => cfg.userUpper
    | true, false => cfg.userAuxUpper
  let other := if upper then cfg.onLower a else cfg.onUpper a
  if t = .custom then
    match user with
    | some f => (f a s, .ok ())
    | none => (s, .error .typeError)
  else if t = .periodic ∧ other = false then (s, .ok ())
  else
    let A := if isQ then s.q else s.aux
    let r := if upper then bcUpperArr cfg t a isQ A else bcLowerArr cfg t a isQ A
    (if isQ then { s with q := r.1 } else { s with aux := r.1 }, r.2)

/-- Sequential composition that stops at the first exception. -/
def andThen {σ : Type*} (r : Ret σ Unit) (f : σ → Ret σ Unit) : Ret σ Unit :=
  match r with
  | (s, .error e) => (s, .error e)
  | (s, .ok _) => f s

/-- One side of one dimension: `aux` first (if there is an aux array), then `q`. -/
def applySide (cfg : BCConfig ι K) (upper : Bool) (a : ι) (s : BCArrays ι K) : Ret (BCArrays ι K) Unit :=
  if (if upper then cfg.onUpper a else cfg.onLower a) = true then
    andThen (if 0 < cfg.numAux then applyOne cfg upper a false s else (s, .ok ()))
      (applyOne cfg upper a true)
  else (s, .ok ())

/-- The loop over the dimensions of `_apply_bcs`, solver.py:377-437, started on the arrays in which
`get_qbc_from_q` and `get_auxbc_from_aux` (solver.py:371-373) have written the interior. -/
def applyDims (cfg : BCConfig ι K) : List ι → BCArrays ι K → Ret (BCArrays ι K) Unit
  | [], s => (s, .ok ())
  | a :: as, s =>
    andThen (andThen (applySide cfg false a s) (applySide cfg true a)) (applyDims cfg as)

/-- The ghosted array after `get_qbc_from_q(g, old)`: `q` in the interior, the previous content of the
work array elsewhere. The array-level model with shapes and the proof that it does this are in
`Model/GhostCopy.lean` and C09. -/
def embedInterior (cfg : BCConfig ι K) (axes : List ι) (q old : GArr ι K) : GArr ι K :=
  fun c idx =>
    if axes.all (fun a => decide (cfg.g ≤ idx a ∧ idx a < cfg.g + cfg.n a)) = true then
      q c (fun a => idx a - cfg.g)
    else old c idx

/-- `_apply_bcs(state)`, solver.py:351-437, on a state with arrays `q`, `aux` and a solver whose work
arrays hold `old`. -/
def applyBcs (cfg : BCConfig ι K) (axes : List ι) (q aux : GArr ι K) (old : BCArrays ι K) :
    Ret (BCArrays ι K) Unit :=
  applyDims cfg axes
    { q := embedInterior cfg axes q old.q
      aux := if 0 < cfg.numAux then embedInterior cfg axes aux old.aux else old.aux }

end PyClaw
