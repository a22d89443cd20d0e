import Mathlib.Data.List.Basic
import Mathlib.Logic.Function.Basic

/-!
NumPy arrays with aliasing: a heap of buffers, and references that are either whole arrays or views.
-/
namespace PyClaw

/-- Buffers of array elements, and dictionaries. An address `< next` has been allocated. -/
structure Heap (K : Type*) where
  mem : Nat → Nat → K
  dict : Nat → String → Option K
  next : Nat

/-- An ndarray object: the buffer it lives in and, in order, the flat positions of its elements. A
freshly allocated array has positions `0, 1, …`; a basic slice such as `qbc[:,g:-g]` is a view, with
the same address and a subset of the positions. -/
structure Ref where
  addr : Nat
  idx : List Nat
  deriving DecidableEq

namespace Heap
variable {K : Type*}

/-- The content of an array. -/
def read (h : Heap K) (r : Ref) : List K := r.idx.map (h.mem r.addr)

/-- Elementwise assignment into one buffer, in order. -/
def poke (b : Nat → K) : List (Nat × K) → Nat → K
  | [] => b
  | (i, v) :: ps => poke (Function.update b i v) ps

/-- `r[...] = vs`: writes through a reference (a view writes into the buffer it is a view of). -/
def write (h : Heap K) (r : Ref) (vs : List K) : Heap K :=
  { h with mem := Function.update h.mem r.addr (poke (h.mem r.addr) (r.idx.zip vs)) }

/-- `np.empty(shape)` of `n` elements, or the array holding a copy of `vs`: a new buffer. -/
def alloc (h : Heap K) (vs : List K) (dflt : K) : Heap K × Ref :=
  ({ h with mem := Function.update h.mem h.next fun i => vs.getD i dflt, next := h.next + 1 },
    { addr := h.next, idx := List.range vs.length })

/-- A new dictionary with the given content. -/
def allocDict (h : Heap K) (d : String → Option K) : Heap K × Nat :=
  ({ h with dict := Function.update h.dict h.next d, next := h.next + 1 }, h.next)

/-- `d[key] = value`. -/
def dictSet (h : Heap K) (a : Nat) (key : String) (v : K) : Heap K :=
  { h with dict := Function.update h.dict a (Function.update (h.dict a) key (some v)) }

end Heap
end PyClaw
