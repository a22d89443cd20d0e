import Mathlib.Data.List.Basic
import Mathlib.Logic.Function.Basic

/-!
Model of `compile_library` (/repo/src/pyclaw/util.py:324-515) with the files that it reads and writes.

Simplified: file names have an extension (a name without a dot raises IndexError); expansion of variables in paths, `FC`, `f2py_flags` and the log are
left out; there is one module name. The commands are run one after another: the objects of a call get the modification time `t` and the module the
time `t'`. A compiler that fails leaves the old object file, and `f2py` that fails the old module. `f2py` succeeds if the sources that it is given
compile and the objects exist.
-/
namespace PyClaw

variable {C : Type*}

/-- A file name: the part before the first dot, which names the object file, and the rest (util.py:446-450). -/
structure SrcName where
  base : String
  ext : String
deriving DecidableEq

/-- A source file. -/
structure SrcPath where
  dir : String
  name : SrcName
deriving DecidableEq

/-- `object_path`, util.py:446-447. -/
def SrcPath.object (p : SrcPath) : String × String := (p.dir, p.name.base)

/-- An entry of `source_list`: with or without a separator, util.py:416. -/
inductive SrcRef where
  | name (n : SrcName)
  | path (p : SrcPath)
deriving DecidableEq

structure SrcFile (C : Type*) where
  text : C
  mtime : Nat
deriving DecidableEq

/-- An object file: what was compiled, and how. -/
structure ObjFile (C : Type*) where
  text : C
  flags : String
  mtime : Nat
deriving DecidableEq

/-- The module: what is in it, the sources that `f2py` has wrapped, and the functions to which it was restricted (`[]`: not restricted). -/
structure ModFile (C : Type*) where
  parts : List (C × String)
  wrapped : List C
  only : List String
  mtime : Nat
deriving DecidableEq

/-- The files. -/
structure BuildFiles (C : Type*) where
  src : SrcPath → Option (SrcFile C)
  obj : String × String → Option (ObjFile C)
  module : Option (ModFile C)

/-- The arguments of `compile_library`. -/
structure CompileArgs where
  sources : List SrcRef
  interface : List String
  localDir : String
  libDir : String
  flags : String
  recompile : Bool := false
  clean : Bool := false

/-- How a call ends. -/
inductive CompileEnd where
  | returned
  | ioError
  | typeError
  | osError
  | exit13
deriving DecidableEq

/-- The commands that a call runs. -/
inductive CompileCommand where
  | compile (p : SrcPath)
  | f2py
deriving DecidableEq

/-- The search for a source, util.py:411-437. A path that does not exist becomes a pair (`os.path.split`, 428), and `os.path.join` raises. -/
def resolveSrc (w : BuildFiles C) (a : CompileArgs) : SrcRef → Except CompileEnd SrcPath
  | .name n =>
    if (w.src ⟨a.localDir, n⟩).isSome then .ok ⟨a.localDir, n⟩
    else if (w.src ⟨a.libDir, n⟩).isSome then .ok ⟨a.libDir, n⟩
    else .error .ioError
  | .path p => if (w.src p).isSome then .ok p else .error .typeError

/-- `path_list`. -/
def resolveAll (w : BuildFiles C) (a : CompileArgs) : List SrcRef → Except CompileEnd (List SrcPath)
  | [] => .ok []
  | r :: rs => match resolveSrc w a r with
    | .error e => .error e
    | .ok p => match resolveAll w a rs with
      | .error e => .error e
      | .ok ps => .ok (p :: ps)

/-- The source is given to `f2py` itself, util.py:449-457. -/
def CompileArgs.direct (a : CompileArgs) (p : SrcPath) : Bool := p.name.base ∈ a.interface ∨ a.interface.length = 0

/-- The object is there and newer than its source, util.py:459-464. -/
def skipObj (a : CompileArgs) (w : BuildFiles C) (p : SrcPath) : Bool := match w.obj p.object, w.src p with
  | some o, some s => !a.clean && decide (s.mtime < o.mtime)
  | _, _ => false

/-- The object files, util.py:444-469. -/
def compileObjs (good : C → Bool) (a : CompileArgs) (t : Nat) : BuildFiles C → List SrcPath → BuildFiles C × List CompileCommand
  | w, [] => (w, [])
  | w, p :: ps =>
    if skipObj a w p then compileObjs good a t w ps
    else
      let w' := match w.src p with
        | none => w
        | some s => if good s.text then { w with obj := Function.update w.obj p.object (some ⟨s.text, a.flags, t⟩) } else w
      let r := compileObjs good a t w' ps
      (r.1, .compile p :: r.2)

/-- The loop over `object_list`, util.py:478-481. `none`: `getmtime` raises. -/
def newerObject (w : BuildFiles C) (M : Nat) : List SrcPath → Option Bool
  | [] => some false
  | p :: ps => match w.obj p.object with
    | none => none
    | some o => if M < o.mtime then some true else newerObject w M ps

/-- The loop over `src_list`, util.py:474-477. -/
def newerSource (w : BuildFiles C) (M : Nat) (ps : List SrcPath) : Bool := ps.any fun p => match w.src p with
  | none => false
  | some s => M < s.mtime

/-- Whether to run `f2py`, util.py:471-483. `suffixed`: `f2py` writes the module to another file than `module_name.so`, as it does under Python 3. -/
def needF2py (suffixed : Bool) (a : CompileArgs) (w : BuildFiles C) (srcs objs : List SrcPath) : Option Bool :=
  if a.recompile || a.clean then some true
  else match (if suffixed then none else w.module) with
    | none => some true
    | some M => (newerObject w M.mtime objs).map fun b => newerSource w M.mtime srcs || b

/-- What `f2py` puts into the module, util.py:485-501. -/
def linked (a : CompileArgs) (w : BuildFiles C) (srcs objs : List SrcPath) : List (C × String) :=
  (srcs.filterMap fun p => (w.src p).map fun s => (s.text, a.flags)) ++ (objs.filterMap fun p => (w.obj p.object).map fun o => (o.text, o.flags))

/-- The sources that `f2py` reads, and not just links: their functions can be called from Python. -/
def wrapped (w : BuildFiles C) (srcs : List SrcPath) : List C := srcs.filterMap fun p => (w.src p).map fun s => s.text

/-- `f2py` ends with status 0, util.py:503: all its sources compile and all objects are there. -/
def f2pyWorks (good : C → Bool) (w : BuildFiles C) (srcs objs : List SrcPath) : Bool :=
  (srcs.all fun p => match w.src p with
    | none => false
    | some s => good s.text) && objs.all fun p => (w.obj p.object).isSome

/-- `compile_library`, util.py:324-515. -/
def compileLibrary (good : C → Bool) (suffixed : Bool) (a : CompileArgs) (t t' : Nat) (w : BuildFiles C) :
    BuildFiles C × List CompileCommand × CompileEnd :=
  match resolveAll w a a.sources with
  | .error e => (w, [], e)
  | .ok ps =>
    let srcs := ps.filter a.direct
    let objs := ps.filter fun p => !a.direct p
    let r := compileObjs good a t w objs
    match needF2py suffixed a r.1 srcs objs with
    | none => (r.1, r.2, .osError)
    | some false => (r.1, r.2, .returned)
    | some true =>
      if f2pyWorks good r.1 srcs objs then
        ({ r.1 with module := some ⟨linked a r.1 srcs objs, wrapped r.1 srcs, a.interface, t'⟩ }, r.2 ++ [.f2py], .returned)
      else (r.1, r.2 ++ [.f2py], .exit13)

/-- What happens to the files: a source is written at time `t`, removed, or the library is compiled. -/
inductive BuildOp (C : Type*) where
  | edit (p : SrcPath) (text : C) (t : Nat)
  | remove (p : SrcPath)
  | call (a : CompileArgs) (t t' : Nat)

def BuildFiles.act (good : C → Bool) (suffixed : Bool) (w : BuildFiles C) : BuildOp C → BuildFiles C
  | .edit p x t => { w with src := Function.update w.src p (some ⟨x, t⟩) }
  | .remove p => { w with src := Function.update w.src p none }
  | .call a t t' => (compileLibrary good suffixed a t t' w).1

def BuildFiles.acts (good : C → Bool) (suffixed : Bool) : BuildFiles C → List (BuildOp C) → BuildFiles C
  | w, [] => w
  | w, op :: ops => (w.act good suffixed op).acts good suffixed ops

end PyClaw
