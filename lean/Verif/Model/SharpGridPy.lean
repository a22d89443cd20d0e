import Verif.Model.SharpGrid

/-!
The Python kernel of SharpClaw on the ghosted arrays of a grid.
-/
namespace PyClaw

variable {K : Type*} [Field K] [LinearOrder K] {m w : Nat}

/-- `dq_hyperbolic` with `kernel_language = 'Python'`, sharpclaw/solver.py:741-825, as a kernel on cells counted from 1 (ghost cells: `1-g … 0`
and `n+1 … n+g`); the arrays of the code are counted from 0. The exceptions are not told apart here (`pyDqHyperbolic` does). -/
def intPyFlux1 {naux : Nat} (eps tol : K) (limType charDecomp : Int) (rp : Riemann K (Fin naux → K) m w) (g : Nat) (dx : K)
    (capa : Option ((Fin naux → K) → K)) : IntKern (Fin 1) K m naux := fun dt n aux q =>
  match pyDqHyperbolic eps tol rp ⟨n 0, g, dt, dx⟩ limType charDecomp capa (fun i => aux fun _ => i + (1 - g)) (fun i => q fun _ => i + (1 - g)) with
  | .ok r => some (fun v => r.1 (v 0 + g - 1), r.2)
  | .error _ => none

end PyClaw
