import Verif.Model.Basic
import Mathlib.Logic.Function.Basic

/-!
The order in which the processes of a parallel run act in `write`, /repo/src/petclaw/fileio/petsc.py:41-99.

Every process looks for the files one after the other (only with `clobber=False`), and raises if it finds one. Process 0 then
writes the metadata. There is no synchronisation before the first viewer is created; this is a collective call, so that
nobody passes before all have come. The remaining actions are collective as well and are one action here. What the files
hold is abstract. All processes see one directory.
-/
namespace PyClaw

/-- Where a process is. -/
inductive WPhase where
  | check (rest : List (List Char))
  | passed
  | atViewer
  | done
  | raised
  deriving DecidableEq

/-- The files of one call: names and new contents, petsc.py:48, 263-274. -/
structure WriteJob (C : Type) where
  metaFile : List Char
  data : List (List Char)
  content : List Char → C

/-- The directory and the processes. -/
structure WriteRun (C : Type) where
  files : List Char → Option C
  phase : Nat → WPhase

variable {C : Type}

/-- The names that are looked for, in order, petsc.py:51. -/
def WriteJob.names (j : WriteJob C) : List (List Char) := j.metaFile :: j.data

/-- The data files replaced, petsc.py:80-99. -/
def WriteJob.writeData (j : WriteJob C) (files : List Char → Option C) : List Char → Option C := fun f =>
  if f ∈ j.data then some (j.content f) else files f

/-- One action of process `r` of `p`, or of all together. -/
inductive WriteStep (j : WriteJob C) (p : Nat) : WriteRun C → WriteRun C → Prop
  /-- petsc.py:51-53: the file exists. -/
  | found (w : WriteRun C) (r : Nat) (f : List Char) (rest : List (List Char)) (hr : r < p) (h : w.phase r = .check (f :: rest))
      (hf : (w.files f).isSome) : WriteStep j p w { w with phase := Function.update w.phase r .raised }
  /-- petsc.py:51-53: the file does not exist. -/
  | absent (w : WriteRun C) (r : Nat) (f : List Char) (rest : List (List Char)) (hr : r < p) (h : w.phase r = .check (f :: rest))
      (hf : w.files f = none) : WriteStep j p w { w with phase := Function.update w.phase r (.check rest) }
  /-- The loop ends. -/
  | checked (w : WriteRun C) (r : Nat) (hr : r < p) (h : w.phase r = .check []) :
      WriteStep j p w { w with phase := Function.update w.phase r .passed }
  /-- petsc.py:56-76: process 0 writes the metadata. -/
  | writeMeta (w : WriteRun C) (hp : 0 < p) (h : w.phase 0 = .passed) :
      WriteStep j p w ⟨Function.update w.files j.metaFile (some (j.content j.metaFile)), Function.update w.phase 0 .atViewer⟩
  /-- petsc.py:56: the others do not. -/
  | skipMeta (w : WriteRun C) (r : Nat) (hr : r < p) (h0 : r ≠ 0) (h : w.phase r = .passed) :
      WriteStep j p w { w with phase := Function.update w.phase r .atViewer }
  /-- petsc.py:80-99: all together. -/
  | collective (w : WriteRun C) (hp : 0 < p) (h : ∀ r < p, w.phase r = .atViewer) :
      WriteStep j p w ⟨j.writeData w.files, fun _ => .done⟩

/-- The beginning: with `clobber` the loop over the files is skipped, petsc.py:50. -/
def writeStart (j : WriteJob C) (clobber : Bool) (files : List Char → Option C) : WriteRun C :=
  ⟨files, fun _ => if clobber then .passed else .check j.names⟩

/-- What can happen. -/
inductive WriteReach (j : WriteJob C) (p : Nat) (w0 : WriteRun C) : WriteRun C → Prop
  | start : WriteReach j p w0 w0
  | step {w w' : WriteRun C} : WriteReach j p w0 w → WriteStep j p w w' → WriteReach j p w0 w'

/-- Nothing more can happen. -/
def WriteStuck (j : WriteJob C) (p : Nat) (w : WriteRun C) : Prop := ¬ ∃ w', WriteStep j p w w'

end PyClaw
