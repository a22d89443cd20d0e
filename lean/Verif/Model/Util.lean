import Verif.Model.Basic

/-!
Models of small pieces of /repo/src/pyclaw/util.py and solver.py: `FrameCounter`, command-line arguments,
test variants, the attribute guard of `Solver`, `Solver.is_valid`.
-/
namespace PyClaw

/-! ### `FrameCounter`, util.py:708-744 -/

/-- Operations on a counter. -/
inductive CounterOp where
  | increment
  | set (n : Int)
  | reset

/-- One operation, util.py:725-744. -/
def CounterOp.apply (frame : Int) : CounterOp → Int
  | .increment => frame + 1
  | .set n => n
  | .reset => 0

/-- `get_counter()` after a sequence of operations on a new counter, util.py:719-720. -/
def runCounter (ops : List CounterOp) : Int := ops.foldl CounterOp.apply 0

/-! ### Command-line arguments, util.py:611-691. A Python string is a list of characters. -/

/-- A value of an argument: a string, a boolean, or some other JSON value (number, list, …), opaque. -/
inductive ArgVal (J : Type) where
  | str (s : List Char)
  | bool (b : Bool)
  | other (j : J)

variable {J : Type}

/-- `s.split('=', 1)`: text before and after the first `=`. -/
def splitEq : List Char → List Char × List Char
  | [] => ([], [])
  | c :: cs => if c = '=' then ([], cs) else let r := splitEq cs; (c :: r.1, r.2)

/-- The key and the text of the value, util.py:677-680 (and 636-639). -/
def argParts (s : List Char) : Option (List Char) × List Char :=
  if s.count '=' = 1 then (some (splitEq s).1, (splitEq s).2) else (none, s)

/-- `json.loads` inside `try`, util.py:681-684; `json v = none` stands for `ValueError`. -/
def argDecode (json : List Char → Option (ArgVal J)) (v : List Char) : ArgVal J :=
  match json v with
  | some x => x
  | none => .str v

/-- The two replacements of util.py:685-686. -/
def argBool : ArgVal J → ArgVal J
  | .str s =>
    if s = "True".toList then .bool true
    else if s = "False".toList then .bool false
    else .str s
  | v => v

/-- Positional arguments, and the keyword dictionary as a function. -/
structure ArgInfo (J : Type) where
  args : List (ArgVal J)
  kwargs : List Char → Option (ArgVal J)

/-- `kwargs[key] = value if key else args.append(value)`, util.py:687-690. -/
def ArgInfo.add (r : ArgInfo J) (key : Option (List Char)) (v : ArgVal J) : ArgInfo J :=
  match key with
  | some (c :: cs) => { r with kwargs := fun k => if k = c :: cs then some v else r.kwargs k }
  | _ => { r with args := r.args ++ [v] }

/-- One iteration of the loop, util.py:676-690. -/
def infoStep (json : List Char → Option (ArgVal J)) (r : ArgInfo J) (s : List Char) : ArgInfo J :=
  r.add (argParts s).1 (argBool (argDecode json (argParts s).2))

/-- `_info_from_argv(argv)`, util.py:652-691. -/
def infoFromArgv (json : List Char → Option (ArgVal J)) (argv : List (List Char)) : ArgInfo J :=
  argv.tail.foldl (infoStep json) ⟨[], fun _ => none⟩

/-- `value.lower()` of util.py:645 for ASCII text. -/
def lowerAscii (s : List Char) : List Char := s.map Char.toLower

/-- util.py:644-645: `if value=='True': value=True`, then `value.lower()`, an `AttributeError` unless the
value is a string. -/
def methodBool : ArgVal J → Except PyErr (ArgVal J)
  | .str s =>
    if s = "True".toList then .error .attributeError
    else if lowerAscii s = "false".toList then .ok (.bool false)
    else .ok (.str s)
  | _ => .error .attributeError

/-- The loop of `_method_info_from_argv`, util.py:635-649. -/
def methodLoop (json : List Char → Option (ArgVal J)) :
    List (List Char) → ArgInfo J → Except PyErr (ArgInfo J)
  | [], r => .ok r
  | s :: ss, r =>
    match methodBool (argDecode json (argParts s).2) with
    | .error e => .error e
    | .ok v => methodLoop json ss (r.add (argParts s).1 v)

/-- `_method_info_from_argv(argv)`, util.py:611-650. -/
def methodInfoFromArgv (json : List Char → Option (ArgVal J)) (argv : List (List Char)) :
    Except PyErr (List Char × ArgInfo J) :=
  match argv with
  | _ :: m :: ss =>
    match methodLoop json ss ⟨[], fun _ => none⟩ with
    | .error e => .error e
    | .ok r => .ok (m, r)
  | _ => .error .indexError

/-! ### Test variants, util.py:142-192 -/

/-- `build_variant_arg_dicts`, util.py:176-192: `(use_petsc, kernel_language)` in the order of
`itertools.product`. `petsc` says whether `import petsc4py` succeeds. -/
def variantArgs {L : Type} (langs : List L) (disablePetsc petsc : Bool) : List (Bool × L) :=
  let opts := if disablePetsc then [false] else if petsc then [true, false] else [false]
  opts.flatMap fun o => langs.map fun l => (o, l)

/-- A running `gen_variants` generator, util.py:159-174: the variants still to come, and the local variable
`test_kwargs`, which the yielded closures share. `calls` records which variant each call of a yielded test
ran (ghost state). -/
structure VariantGen (V : Type) where
  todo : List V
  cell : Option V
  yielded : Nat
  calls : List (Nat × V)

/-- What the consumer of the generator does: ask for the next test, or call the `i`-th test it got. -/
inductive GenOp where
  | next
  | call (i : Nat)

/-- `next` runs the loop body up to `yield`; calling test `i` evaluates the closure
`lambda: test_app(application, verifier, test_kwargs)`, which reads the shared variable. -/
def VariantGen.step {V : Type} (g : VariantGen V) : GenOp → VariantGen V
  | .next =>
    match g.todo with
    | [] => g
    | v :: vs => { g with todo := vs, cell := some v, yielded := g.yielded + 1 }
  | .call i =>
    if i < g.yielded then
      match g.cell with
      | some v => { g with calls := g.calls ++ [(i, v)] }
      | none => g
    else g

/-- A new generator. -/
def genVariants {V : Type} (vs : List V) : VariantGen V := ⟨vs, none, 0, []⟩

/-! ### Attribute guard, solver.py:139-144 -/

/-- A solver object as a table of attributes. `cls` are the names found in its class (methods, class
attributes). Simplification: the property `all_bcs`, whose setter writes into the boundary lists, is not
treated as an assignment. -/
structure AttrObj (V : Type) where
  cls : String → Bool
  dict : String → Option V
  /-- the value of `_isinitialized` in `__dict__`, if present -/
  initialized : Option Bool

/-- `hasattr(self, key)`. -/
def AttrObj.has {V : Type} (o : AttrObj V) (key : String) : Bool := o.cls key || (o.dict key).isSome

/-- `__setattr__(key, value)` for a key other than `_isinitialized`, solver.py:139-144. -/
def AttrObj.setattr {V : Type} (o : AttrObj V) (key : String) (v : V) : Ret (AttrObj V) Unit :=
  let o1 := match o.initialized with
    | none => { o with initialized := some false }
    | some _ => o
  if o1.initialized = some true ∧ o1.has key = false then (o1, .error .typeError)
  else ({ o1 with dict := fun k => if k = key then some v else o1.dict k }, .ok ())

/-- `self._isinitialized = True`, solver.py:240. -/
def AttrObj.finish {V : Type} (o : AttrObj V) : AttrObj V := { o with initialized := some true }

/-- A sequence of assignments, exceptions caught; returns the outcomes. -/
def AttrObj.assignAll {V : Type} : AttrObj V → List (String × V) → AttrObj V × List (Except PyErr Unit)
  | o, [] => (o, [])
  | o, (k, v) :: l =>
    let r := o.setattr k v
    let r' := AttrObj.assignAll r.1 l
    (r'.1, r.2 :: r'.2)

/-! ### `Solver.is_valid`, solver.py:247-287 -/

/-- Boundary condition numbers, solver.py:13-19; `none` is an unset entry. -/
abbrev BCNum := Option Int

/-- `BC.custom`. -/
def bcCustom : BCNum := some 0

/-- The attributes read by `is_valid`. Functions are only tested for `None`. -/
structure ValidCfg where
  bcLower : List BCNum
  bcUpper : List BCNum
  userBcLower : Bool
  userBcUpper : Bool
  numWaves : Option Int
  numEqn : Option Int
  fwave : Option Bool

/-- The reasons reported. -/
inductive Reason where
  | lowerCustom
  | upperCustom
  | numWaves
  | numEqn
  | fwave
  | boundary
  deriving DecidableEq, Repr

/-- `is_valid()`: `valid, reason`, the assignments in order. -/
def isValidSolver (c : ValidCfg) : Bool × Option Reason :=
  let r0 : Bool × Option Reason := (true, none)
  let r1 := if c.bcLower.any (· == bcCustom) then (if c.userBcLower then r0 else (false, some .lowerCustom)) else r0
  let r2 := if c.bcUpper.any (· == bcCustom) then (if c.userBcUpper then r1 else (false, some .upperCustom)) else r1
  let r3 := if c.numWaves.isNone then (false, some .numWaves) else r2
  let r4 := if c.numEqn.isNone then (false, some .numEqn) else r3
  let r5 := if c.fwave.isNone then (false, some .fwave) else r4
  if c.bcLower.contains none || c.bcUpper.contains none then (false, some .boundary) else r5

end PyClaw
