/-!
Shared vocabulary of the model: Python exceptions as values, and a few NumPy/Python primitives.
-/
namespace PyClaw

/-- Python exceptions raised by the modelled code. `exception` stands for a bare `Exception(msg)`;
the message is kept when the code supplies one that a caller can observe. -/
inductive PyErr where
  | assertion
  | exception (msg : String)
  | typeError
  | valueError
  | keyError
  | indexError
  | zeroDivision
  | notImplemented
  | attributeError
  | ioError
  | nameError
  deriving DecidableEq, Repr

/-- Result of a call on a mutable object: the object afterwards, and the returned value or the
exception. Python mutations made before an exception is raised persist, so both are needed. -/
abbrev Ret.{u, v} (σ : Type u) (α : Type v) := σ × Except PyErr α

end PyClaw
