import Verif.Model.CompileLibrary

/-! What `compile_library` promises. -/
namespace PyClaw.Spec

variable {C : Type*}

/-- The file that a name or a path stands for: a path if it exists, otherwise the name in `local_path`, otherwise in `library_path`. -/
def sourceOf (w : BuildFiles C) (a : CompileArgs) : SrcRef → Option SrcPath
  | .name n => if (w.src ⟨a.localDir, n⟩).isSome then some ⟨a.localDir, n⟩ else if (w.src ⟨a.libDir, n⟩).isSome then some ⟨a.libDir, n⟩ else none
  | .path p =>
    if (w.src p).isSome then some p
    else if (w.src ⟨a.localDir, p.name⟩).isSome then some ⟨a.localDir, p.name⟩
    else if (w.src ⟨a.libDir, p.name⟩).isSome then some ⟨a.libDir, p.name⟩ else none

/-- The file holds an interface function: it has the name of one, or no interface functions are given. -/
def HoldsInterface (a : CompileArgs) (p : SrcPath) : Prop := p.name.base ∈ a.interface ∨ a.interface = []

/-- The module consists of the sources as they are now, compiled with the flags given; those with interface functions are wrapped for Python. -/
def UpToDate (w : BuildFiles C) (a : CompileArgs) : Prop :=
  ∃ M, w.module = some M ∧ M.only = a.interface ∧
    (∀ x, x ∈ M.parts ↔ ∃ r ∈ a.sources, ∃ p f, sourceOf w a r = some p ∧ w.src p = some f ∧ x = (f.text, a.flags)) ∧
    ∀ x, x ∈ M.wrapped ↔ ∃ r ∈ a.sources, ∃ p f, sourceOf w a r = some p ∧ w.src p = some f ∧ HoldsInterface a p ∧ x = f.text

/-- All sources are there and compile. -/
def AllCompile (good : C → Bool) (w : BuildFiles C) (a : CompileArgs) : Prop :=
  ∀ r ∈ a.sources, ∃ p f, sourceOf w a r = some p ∧ w.src p = some f ∧ good f.text = true

/-- The files that an entry of `source_list` may stand for. -/
def candidates (a : CompileArgs) : SrcRef → List SrcPath
  | .name n => [⟨a.localDir, n⟩, ⟨a.libDir, n⟩]
  | .path p => [p]

/-- No two sources in one directory differ only in the extension. -/
def OwnObjects (a : CompileArgs) : Prop :=
  ∀ r ∈ a.sources, ∀ r' ∈ a.sources, ∀ p ∈ candidates a r, ∀ p' ∈ candidates a r',
    p.dir = p'.dir → p.name.base = p'.name.base → p = p'

/-- The same library: `recompile` and `clean` may differ. -/
def SameLibrary (a a' : CompileArgs) : Prop :=
  a'.sources = a.sources ∧ a'.interface = a.interface ∧ a'.localDir = a.localDir ∧ a'.libDir = a.libDir ∧ a'.flags = a.flags

/-- A history of editing, in which nothing is removed, and of calls for the same library; each call is later than the action before, and so is the edit
of a source with interface functions. -/
def OrdinaryHistory (a : CompileArgs) : Nat → List (BuildOp C) → Prop
  | _, [] => True
  | now, .edit p _ t :: ops => now ≤ t ∧ (HoldsInterface a p → now < t) ∧ OrdinaryHistory a t ops
  | _, .remove _ :: _ => False
  | now, .call a' t t' :: ops => now < t ∧ t ≤ t' ∧ SameLibrary a a' ∧ OrdinaryHistory a t' ops

/-- The time of the last action. -/
def endTime : Nat → List (BuildOp C) → Nat
  | now, [] => now
  | _, .edit _ _ t :: ops => endTime t ops
  | now, .remove _ :: ops => endTime now ops
  | _, .call _ _ t' :: ops => endTime t' ops

/-- Only sources, none newer than `now`. -/
structure NotBuilt (now : Nat) (w : BuildFiles C) : Prop where
  times : ∀ p f, w.src p = some f → f.mtime ≤ now
  objects : ∀ x, w.obj x = none
  module : w.module = none

end PyClaw.Spec
