import Verif.Model.Parallel
import Verif.Model.Classic3

/-!
The classic kernels as kernels of a parallel or serial run: the calls in `step_hyperbolic`
(/repo/src/pyclaw/classic/solver.py:296-386, 508-546, 659-706) with the ghosted arrays `qbc`, `auxbc` of the solver. The kernel gets
the local number of cells, the step size and the ghosted arrays.
-/
namespace PyClaw

variable {ι K : Type*} {m w : Nat}

/-- The values of the first `m` components of a ghosted array in the numbering of the kernels: `1 … n` are the interior cells. -/
def fieldOf (m g : Nat) (A : GArr ι K) (v : ι → Int) : Fin m → K := fun c => A c.val fun a => (v a + g - 1).toNat

/-- The result of a kernel as a ghosted array. -/
def putBack (m g : Nat) (old : GArr ι K) (r : (ι → Int) → Fin m → K) : GArr ι K := fun c idx =>
  if h : c < m then r (fun a => (idx a : Int) + 1 - g) ⟨c, h⟩ else old c idx

/-- A kernel on arrays in the kernels' numbering. -/
abbrev IntKern (ι K : Type*) (m naux : Nat) :=
  K → (ι → Nat) → ((ι → Int) → Fin naux → K) → ((ι → Int) → Fin m → K) → Option (((ι → Int) → Fin m → K) × K)

/-- A kernel applied to the arrays of the solver. -/
def onArrays (m naux g : Nat) (step : IntKern ι K m naux) : Kern ι K := fun dt n A =>
  (step dt n (fieldOf naux g A.aux) (fieldOf m g A.q)).map fun r => (putBack m g A.q r.1, r.2)

variable [Field K] [LinearOrder K]

/-- `step1`, called at solver.py:300-304. -/
noncomputable def intStep1 {naux : Nat} (undef : K) (rp : Riemann K (Fin naux → K) m w) (c : Cfg1 K w)
    (capa : Option ((Fin naux → K) → K)) : IntKern (Fin 1) K m naux := fun dt n aux q =>
  (fStep1 undef rp { c with n := n 0, dt := dt } capa (fun i => aux fun _ => i) (fun i => q fun _ => i)).map fun r =>
    (fun v => r.1 (v 0), r.2)

/-- The Python step, solver.py:306-384; its cells are numbered from 0. -/
def intPyStep1 {naux : Nat} (tab : Int → Option (LimFun K)) (rp : Riemann K (Fin naux → K) m w) (c : Cfg1 K w)
    (capa : Option ((Fin naux → K) → K)) : IntKern (Fin 1) K m naux := fun dt n aux q =>
  let r := pyStep1 tab rp { c with n := n 0, dt := dt } capa (fun x => aux fun _ => x + (1 - c.g)) (fun x => q fun _ => x + (1 - c.g))
  some (fun v => r.1 (v 0 + c.g - 1), r.2)

/-- The unsplit step in two dimensions, solver.py:533-541. -/
def intUnsplit2 {naux : Nat} (undef : K) (rpx rpy : Riemann K (Fin naux → K) m w) (rtx rty : Transverse K (Fin naux → K) m)
    (c : Cfg2 K w) (capa : Option ((Fin naux → K) → K)) : IntKern (Fin 2) K m naux := fun dt n aux q =>
  let r := unsplitStep2 undef rpx rpy rtx rty { c with mx := n 0, my := n 1, dt := dt } capa (fun i j => aux ![i, j])
    (fun i j => q ![i, j])
  some (fun v => r.1 (v 0) (v 1), r.2)

/-- The dimensionally split step in two dimensions, solver.py:521-531. -/
def intSplit2 {naux : Nat} (undef : K) (rpx rpy : Riemann K (Fin naux → K) m w) (c : Cfg2 K w)
    (capa : Option ((Fin naux → K) → K)) : IntKern (Fin 2) K m naux := fun dt n aux q =>
  let r := splitStep2 undef rpx rpy { c with mx := n 0, my := n 1, dt := dt } capa (fun i j => aux ![i, j]) (fun i j => q ![i, j])
  some (fun v => r.1 (v 0) (v 1), r.2)

/-- The unsplit step in three dimensions, solver.py:694-702. -/
def intUnsplit3 {naux : Nat} (undef : K) (rpx rpy rpz : Riemann K (Fin naux → K) m w) (rtx rty rtz : Transverse3 K (Fin naux → K) m)
    (rttx rtty rttz : Transverse33 K (Fin naux → K) m) (c : Cfg3 K w) (capa : Option ((Fin naux → K) → K))
    (stale : Int → Fin m → K) : IntKern (Fin 3) K m naux := fun dt n aux q =>
  let r := unsplitStep3 undef rpx rpy rpz rtx rty rtz rttx rtty rttz { c with mx := n 0, my := n 1, mz := n 2, dt := dt } capa stale
    (fun i j k => aux ![i, j, k]) (fun i j k => q ![i, j, k])
  some (fun v => r.1 (v 0) (v 1) (v 2), r.2)

/-- The dimensionally split step in three dimensions, solver.py:675-692. -/
def intSplit3 {naux : Nat} (undef : K) (rpx rpy rpz : Riemann K (Fin naux → K) m w) (c : Cfg3 K w)
    (capa : Option ((Fin naux → K) → K)) : IntKern (Fin 3) K m naux := fun dt n aux q =>
  let r := splitStep3 undef rpx rpy rpz { c with mx := n 0, my := n 1, mz := n 2, dt := dt } capa (fun i j k => aux ![i, j, k])
    (fun i j k => q ![i, j, k])
  some (fun v => r.1 (v 0) (v 1) (v 2), r.2)

end PyClaw
