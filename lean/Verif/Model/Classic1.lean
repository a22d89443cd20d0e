import Verif.Model.Limiters

/-!
Model of the one-dimensional classic kernels: `ClawSolver1D.step_hyperbolic`,
/repo/src/pyclaw/classic/solver.py:284-386 (Python kernel) and `step1`,
/repo/src/pyclaw/classic/step1.f90 (Fortran kernel).

Arrays are functions of an integer index. Python indices: cells `0 … n+2g-1`, interface `i` lies between
cells `i` and `i+1`. Fortran indices: cells `1-g … mx+g`, interface `i` lies between cells `i-1` and `i`.
Loops over components are vector operations; slice assignments are simultaneous. Exact arithmetic. At
least two ghost cells are assumed (with fewer the slices of the code start at negative indices).
The Riemann solver is a parameter that treats each interface separately, as Clawpack's solvers do.
-/
namespace PyClaw

/-- The result of a Riemann solve at one interface: waves, speeds, left- and right-going fluctuations. -/
structure Rp (K : Type*) (m w : Nat) where
  wave : Fin w → Fin m → K
  s : Fin w → K
  amdq : Fin m → K
  apdq : Fin m → K

/-- The parameters of the kernels: number of cells, ghost cells, `dt`, `dx`, `order`, `fwave`,
`_mthlim`. -/
structure Cfg1 (K : Type*) (w : Nat) where
  n : Nat
  g : Nat
  dt : K
  dx : K
  order : Int
  fwave : Bool
  limiter : Fin w → Int

variable {K : Type*} [Field K] [LinearOrder K] {m w : Nat}

/-- `dtdx`, solver.py:311-317 and step1.f90:60-70. `capa` is `aux[index_capa]` if there is one. -/
def dtdxOf (c : Cfg1 K w) (capa : Option (Int → K)) (i : Int) : K :=
  match capa with
  | some κ => c.dt / (c.dx * κ i)
  | none => c.dt / c.dx

/-- `numpy.sign`. -/
def npSign (x : K) : K := if 0 < x then 1 else if x < 0 then -1 else 0

/-- Fortran `dsign(1.d0, x)`. -/
def dsign1 (x : K) : K := if 0 ≤ x then 1 else -1

/-- The Python slice indices `lo … hi-1`. -/
def irange (lo hi : Int) : List Int := (List.range (hi - lo).toNat).map fun k : Nat => lo + (k : Int)

/-! ### Python kernel -/

/-- Godunov update, solver.py:341-344. -/
def pyGodunov (LL UL : Int) (dtdx : Int → K) (d : Int → Rp K m w) (q : Int → Fin m → K) :
    Int → Fin m → K :=
  let q1 : Int → Fin m → K := fun i =>
    if LL ≤ i ∧ i < UL then q i - dtdx i • (d (i - 1)).apdq else q i
  fun i => if LL - 1 ≤ i ∧ i < UL - 1 then q1 i - dtdx i • (d i).amdq else q1 i

/-- Maximum Courant number, solver.py:346-351. -/
def pyCfl (LL UL : Int) (dtdx : Int → K) (d : Int → Rp K m w) : K :=
  (List.finRange w).foldl (fun cfl mw =>
    let smax1 := maxOver (fun i : Int => dtdx i * (d (i - 1)).s mw) (irange LL UL)
    let smax2 := maxOver (fun i : Int => -dtdx i * (d i).s mw) (irange (LL - 1) (UL - 1))
    max (max cfl smax1) smax2) 0

/-- Correction fluxes, solver.py:362-376: `f[LL:UL]`, zero elsewhere. -/
def pyCorrection (LL UL : Int) (fwave : Bool) (dtdx : Int → K) (d : Int → Rp K m w)
    (wave : Waves K m w) : Int → Fin m → K :=
  (List.finRange w).foldl (fun f mw => fun i =>
    if LL ≤ i ∧ i < UL then
      let dtdxave := 1 / 2 * (dtdx (i - 1) + dtdx i)
      let s := (d (i - 1)).s mw
      let om := 1 - |s| * dtdxave
      if fwave then f i + (1 / 2 * npSign s * om) • wave (i - 1) mw
      else f i + (1 / 2 * |s| * om) • wave (i - 1) mw
    else f i) (fun _ => 0)

/-- `step_hyperbolic` with `kernel_language = 'Python'`, solver.py:304-380, given the Riemann solution at
every interface. Returns the ghosted array and the Courant number. -/
def pyKernel (tab : Int → Option (LimFun K)) (c : Cfg1 K w) (capa : Option (Int → K))
    (d : Int → Rp K m w) (q : Int → Fin m → K) : (Int → Fin m → K) × K :=
  let dtdx := dtdxOf c capa
  let LL : Int := c.g - 1
  let UL : Int := c.g + c.n + 1
  let q1 := pyGodunov LL UL dtdx d q
  let cfl := pyCfl LL UL dtdx d
  if c.order = 2 then
    let wave0 : Waves K m w := fun i => (d i).wave
    let wave := if ∃ p, 0 < c.limiter p then
        pyLimit tab (c.n + 2 * c.g - 1) c.limiter dtdx (fun i => (d i).s) wave0
      else wave0
    let f := pyCorrection LL UL c.fwave dtdx d wave
    (fun i => if LL ≤ i ∧ i < UL - 1 then q1 i - dtdx i • (f (i + 1) - f i) else q1 i, cfl)
  else (q1, cfl)

/-! ### Fortran kernel -/

/-- Godunov update, step1.f90:85-88 (`forall`: each assignment for all `i` before the next). -/
def fGodunov (mx : Int) (dtdx : Int → K) (d : Int → Rp K m w) (q : Int → Fin m → K) : Int → Fin m → K :=
  let q1 : Int → Fin m → K := fun i => if 1 ≤ i ∧ i ≤ mx + 1 then q i - dtdx i • (d i).apdq else q i
  fun i => if 1 ≤ i + 1 ∧ i + 1 ≤ mx + 1 then q1 i - dtdx i • (d (i + 1)).amdq else q1 i

/-- Maximum Courant number, step1.f90:92-99. -/
def fCfl (mx : Int) (dtdx : Int → K) (d : Int → Rp K m w) : K :=
  (List.finRange w).foldl (fun cfl mw =>
    (irange 1 (mx + 2)).foldl (fun cfl i =>
      max (max cfl (dtdx i * (d i).s mw)) (-dtdx (i - 1) * (d i).s mw)) cfl) 0

/-- Correction fluxes, step1.f90:106-134. -/
def fCorrection (mx : Int) (fwave : Bool) (dtdx : Int → K) (d : Int → Rp K m w) (wave : Waves K m w) :
    Int → Fin m → K :=
  fun i =>
    if 1 ≤ i ∧ i ≤ mx + 1 then
      (List.finRange w).foldl (fun f mw =>
        let dtdxave := 1 / 2 * (dtdx (i - 1) + dtdx i)
        let s := (d i).s mw
        if fwave then f + (1 / 2 * dsign1 s * (1 - |s| * dtdxave)) • wave i mw
        else f + (1 / 2 * |s| * (1 - |s| * dtdxave)) • wave i mw) 0
    else 0

/-- The capacity check of step1.f90:62-65 passes. -/
def capaOk (c : Cfg1 K w) (capa : Option (Int → K)) : Prop :=
  ∀ κ, capa = some κ → ∀ i : Int, 1 - (c.g : Int) ≤ i → i ≤ c.n + c.g → 0 < κ i

open Classical in
/-- `step1`, step1.f90:2-148. `none` stands for `stop`, which ends the process. -/
noncomputable def fKernel (undef : K) (c : Cfg1 K w) (capa : Option (Int → K))
    (d : Int → Rp K m w) (q : Int → Fin m → K) : Option ((Int → Fin m → K) × K) :=
  if capaOk c capa then
    let dtdx := dtdxOf c capa
    let mx : Int := c.n
    let q1 := fGodunov mx dtdx d q
    let cfl := fCfl mx dtdx d
    if c.order = 1 then some (q1, cfl)
    else
      let wave0 : Waves K m w := fun i => (d i).wave
      let wave := if ∃ p, 0 < c.limiter p then
          fLimiter undef c.n c.limiter (fun i => (d i).s) wave0
        else wave0
      let f := fCorrection mx c.fwave dtdx d wave
      some (fun i => if 1 ≤ i ∧ i ≤ mx + 1 then q1 i - dtdx i • (f (i + 1) - f i) else q1 i, cfl)
  else none

/-! ### The step with a Riemann solver -/

/-- A Riemann solver: left and right state, left and right aux values. -/
abbrev Riemann (K A : Type*) (m w : Nat) := (Fin m → K) → (Fin m → K) → A → A → Rp K m w

/-- The Python step on a ghosted array, solver.py:319-328: interface `i` gets cells `i` and `i+1`. -/
def pyStep1 {A : Type*} (tab : Int → Option (LimFun K)) (rp : Riemann K A m w) (c : Cfg1 K w)
    (capa : Option (A → K)) (aux : Int → A) (q : Int → Fin m → K) : (Int → Fin m → K) × K :=
  pyKernel tab c (capa.map fun κ i => κ (aux i)) (fun i => rp (q i) (q (i + 1)) (aux i) (aux (i + 1))) q

/-- The Fortran step on a ghosted array, step1.f90:77-78: `rp1` gives interface `i` from cells `i-1`, `i`. -/
noncomputable def fStep1 {A : Type*} (undef : K) (rp : Riemann K A m w) (c : Cfg1 K w)
    (capa : Option (A → K)) (aux : Int → A) (q : Int → Fin m → K) : Option ((Int → Fin m → K) × K) :=
  fKernel undef c (capa.map fun κ i => κ (aux i)) (fun i => rp (q (i - 1)) (q i) (aux (i - 1)) (aux i)) q

end PyClaw
