import Verif.Model.Classic1

/-!
Model of the two-dimensional classic kernels: `flux2` (/repo/src/pyclaw/classic/flux2.f90), `step2ds`
(/repo/src/pyclaw/classic/step2ds.f90), `step2` (/repo/src/pyclaw/classic/step2.f90) and the calls in
`ClawSolver2D.step_hyperbolic` (/repo/src/pyclaw/classic/solver.py:498-546) on ghosted arrays.

Conventions of `Model/Classic1.lean` (Fortran indices). Loops over components are vector operations; a `forall` makes
each of its assignments for all indices before the next. The normal and transverse Riemann solvers treat each interface
separately. The sweeps in `y` are the text of the sweeps in `x` with the two directions exchanged and are modelled by
the same functions on transposed arrays. Exact arithmetic; the work-space checks are left out.
-/
namespace PyClaw

variable {K : Type*} [Field K] [LinearOrder K] {m w : Nat}

/-- The output of `flux2` for one slice: `qadd`, `fadd`, `gadd(:,1,:)`, `gadd(:,2,:)`, `cfl1d`. -/
structure Slice (K : Type*) (m : Nat) where
  qadd : Int → Fin m → K
  fadd : Int → Fin m → K
  gadd1 : Int → Fin m → K
  gadd2 : Int → Fin m → K
  cfl : K

/-- `flux2`, flux2.f90:2-207, for a slice of `n` cells. `d` is the result of `rpn2` (101-102), `t imp i a` the result
`(bmasdq(i), bpasdq(i))` of `rpt2` called with `imp` for `asdq(i) = a` (181-182, 194-195). `cqxx` outside `2-g … n+g` is
uninitialised memory that is not read; it is 0 here. -/
def flux2Slice (undef : K) (n g : Nat) (order trans : Int) (fwave : Bool) (mthlim : Fin w → Int) (dtdx : Int → K)
    (d : Int → Rp K m w) (t : Nat → Int → (Fin m → K) → (Fin m → K) × (Fin m → K)) : Slice K m :=
  -- 104-108
  let qadd0 : Int → Fin m → K := fun i => if 1 ≤ i ∧ i ≤ n + 1 then 0 - dtdx i • (d i).apdq else 0
  let qadd : Int → Fin m → K := fun i =>
    if 1 ≤ i + 1 ∧ i + 1 ≤ n + 1 then qadd0 i - dtdx i • (d (i + 1)).amdq else qadd0 i
  -- 111-119
  let cfl := fCfl n dtdx d
  -- 121-163
  let wave0 : Waves K m w := fun i => (d i).wave
  let wave := if ∃ p, 0 < mthlim p then fLimiter undef n mthlim (fun i => (d i).s) wave0 else wave0
  let cqxx : Int → Fin m → K := fun i =>
    if 2 - (g : Int) ≤ i ∧ i ≤ n + g then
      (List.finRange w).foldl (fun f mw =>
        let dtdxave := 1 / 2 * (dtdx (i - 1) + dtdx i)
        let s := (d i).s mw
        if fwave then f + (dsign1 s * (1 - |s| * dtdxave)) • wave i mw
        else f + (|s| * (1 - |s| * dtdxave)) • wave i mw) 0
    else 0
  let fadd : Int → Fin m → K := fun i =>
    if order = 1 then 0 else if 2 - (g : Int) ≤ i ∧ i ≤ n + g then 0 + (1 / 2 : K) • cqxx i else 0
  if trans ≤ 0 then ⟨qadd, fadd, fun _ => 0, fun _ => 0, cfl⟩
  else
    -- 167-173
    let split := 1 < order ∧ trans = 2
    let amdq : Int → Fin m → K := fun i =>
      if split ∧ 1 ≤ i ∧ i ≤ n + 1 then (d i).amdq + cqxx i else (d i).amdq
    let apdq : Int → Fin m → K := fun i =>
      if split ∧ 1 ≤ i ∧ i ≤ n + 1 then (d i).apdq - cqxx i else (d i).apdq
    -- 184-190
    let g1 : Int → Fin m → K := fun i =>
      if 1 ≤ i + 1 ∧ i + 1 ≤ n + 1 then 0 - (1 / 2 * dtdx i) • (t 1 (i + 1) (amdq (i + 1))).1 else 0
    let g2 : Int → Fin m → K := fun i =>
      if 1 ≤ i + 1 ∧ i + 1 ≤ n + 1 then 0 - (1 / 2 * dtdx i) • (t 1 (i + 1) (amdq (i + 1))).2 else 0
    -- 197-203
    ⟨qadd, fadd,
      fun i => if 1 ≤ i ∧ i ≤ n + 1 then g1 i - (1 / 2 * dtdx i) • (t 2 i (apdq i)).1 else g1 i,
      fun i => if 1 ≤ i ∧ i ≤ n + 1 then g2 i - (1 / 2 * dtdx i) • (t 2 i (apdq i)).2 else g2 i, cfl⟩

/-- The parameters of the two-dimensional kernels; `trans` is `method(3)`. -/
structure Cfg2 (K : Type*) (w : Nat) where
  mx : Nat
  my : Nat
  g : Nat
  dt : K
  dx : K
  dy : K
  order : Int
  trans : Int
  fwave : Bool
  limiter : Fin w → Int

/-- The same with the directions exchanged. -/
def Cfg2.swap (c : Cfg2 K w) : Cfg2 K w := { c with mx := c.my, my := c.mx, dx := c.dy, dy := c.dx }

/-- A transverse Riemann solver `rpt2`: `imp`, states left and right of the interface, `aux1`, `aux2`, `aux3` left and
right, `asdq`; returns `bmasdq`, `bpasdq`. -/
abbrev Transverse (K A : Type*) (m : Nat) :=
  Nat → (Fin m → K) → (Fin m → K) → A × A × A → A × A × A → (Fin m → K) → (Fin m → K) × (Fin m → K)

/-- `dtdx1d`, step2.f90:80-86, 101-105 (step2ds.f90:78-84, 103-107). -/
def sliceRatio {A : Type*} (dt dx : K) (capa : Option (A → K)) (aux : Int → A) (i : Int) : K :=
  match capa with
  | some κ => dt / dx / κ (aux i)
  | none => dt / dx

/-- Division by `aux(index_capa,i,j)` if there is a capacity function. -/
def capDiv {A : Type*} (capa : Option (A → K)) (a : A) (x : Fin m → K) : Fin m → K :=
  match capa with
  | some κ => (κ a)⁻¹ • x
  | none => x

/-! ### Dimensional splitting -/

/-- `flux2` on the slice with values `row` and aux values `aux`, as called by `step2ds` (step2ds.f90:140-145); the
transverse part is switched off by `method(3) = -1` (solver.py:185-186). -/
def splitSlice {A : Type*} (undef : K) (rp : Riemann K A m w) (c : Cfg2 K w) (capa : Option (A → K)) (aux : Int → A)
    (row : Int → Fin m → K) : Slice K m :=
  flux2Slice undef c.mx c.g c.order (-1) c.fwave c.limiter (sliceRatio c.dt c.dx capa aux)
    (fun i => rp (row (i - 1)) (row i) (aux (i - 1)) (aux i)) (fun _ _ _ => (0, 0))

/-- `step2ds` with `ids = 1`, step2ds.f90:86-172: rows `1-g … my+g`, ghost rows included, one after the other. With
`same` the arguments `qold` and `qnew` are the same array, as in the second call of solver.py:531-533. -/
def step2dsX {A : Type*} (same : Bool) (undef : K) (rp : Riemann K A m w) (c : Cfg2 K w) (capa : Option (A → K))
    (aux : Int → Int → A) (qold qnew : Int → Int → Fin m → K) : (Int → Int → Fin m → K) × K :=
  (irange (1 - c.g) (c.my + c.g + 1)).foldl (fun st j =>
    let cur := st.1
    let q1d : Int → Fin m → K := fun i => if same then cur i j else qold i j
    let S := splitSlice undef rp c capa (fun i => aux i j) q1d
    (fun i j' =>
      if j' = j then
        if 1 ≤ i ∧ i ≤ c.mx then
          cur i j + S.qadd i - capDiv capa (aux i j) ((c.dt / c.dx) • (S.fadd (i + 1) - S.fadd i))
        else cur i j
      else cur i j',
     max st.2 S.cfl)) (qnew, 0)

/-- `step2ds` with `ids = 2`, step2ds.f90:174-260. -/
def step2dsY {A : Type*} (same : Bool) (undef : K) (rp : Riemann K A m w) (c : Cfg2 K w) (capa : Option (A → K))
    (aux : Int → Int → A) (qold qnew : Int → Int → Fin m → K) : (Int → Int → Fin m → K) × K :=
  let r := step2dsX same undef rp c.swap capa (fun j i => aux i j) (fun j i => qold i j) (fun j i => qnew i j)
  (fun i j => r.1 j i, r.2)

/-- The dimensionally split step, solver.py:523-535, on the ghosted array: `qold` is a copy of `qbc` in the first call,
the second call passes `qbc` twice. -/
def splitStep2 {A : Type*} (undef : K) (rpx rpy : Riemann K A m w) (c : Cfg2 K w) (capa : Option (A → K))
    (aux : Int → Int → A) (q : Int → Int → Fin m → K) : (Int → Int → Fin m → K) × K :=
  let r1 := step2dsX false undef rpx c capa aux q q
  let r2 := step2dsY true undef rpy c capa aux r1.1 r1.1
  (r2.1, max r1.2 r2.2)

/-! ### Unsplit method -/

/-- `flux2` on row `j`, as called by `step2`, step2.f90:94-129. -/
def unsplitSlice {A : Type*} (undef : K) (rp : Riemann K A m w) (rt : Transverse K A m) (c : Cfg2 K w)
    (capa : Option (A → K)) (aux : Int → Int → A) (q : Int → Int → Fin m → K) (j : Int) : Slice K m :=
  let a3 (i : Int) : A × A × A := (aux i (j - 1), aux i j, aux i (j + 1))
  flux2Slice undef c.mx c.g c.order c.trans c.fwave c.limiter (sliceRatio c.dt c.dx capa fun i => aux i j)
    (fun i => rp (q (i - 1) j) (q i j) (aux (i - 1) j) (aux i j))
    (fun imp i a => rt imp (q (i - 1) j) (q i j) (a3 (i - 1)) (a3 i) a)

/-- The update of `qnew` by the results of row `j`, step2.f90:136-164. Without a capacity function the code subtracts
the two terms one after the other. -/
def unsplitUpdate {A : Type*} (c : Cfg2 K w) (capa : Option (A → K)) (aux : Int → Int → A) (j : Int) (S : Slice K m)
    (qn : Int → Int → Fin m → K) : Int → Int → Fin m → K := fun i j' =>
  if 1 ≤ i ∧ i ≤ c.mx then
    if j' = j then
      qn i j' + S.qadd i - capDiv capa (aux i j)
        ((c.dt / c.dx) • (S.fadd (i + 1) - S.fadd i) + (c.dt / c.dy) • (S.gadd2 i - S.gadd1 i))
    else if j' = j - 1 then qn i j' - capDiv capa (aux i (j - 1)) ((c.dt / c.dy) • S.gadd1 i)
    else if j' = j + 1 then qn i j' + capDiv capa (aux i (j + 1)) ((c.dt / c.dy) • S.gadd2 i)
    else qn i j'
  else qn i j'

/-- The sweeps in `x` of `step2`, step2.f90:89-165: rows `0 … my+1`. -/
def step2X {A : Type*} (undef : K) (rp : Riemann K A m w) (rt : Transverse K A m) (c : Cfg2 K w)
    (capa : Option (A → K)) (aux : Int → Int → A) (qold qnew : Int → Int → Fin m → K) : (Int → Int → Fin m → K) × K :=
  (irange 0 (c.my + 2)).foldl (fun st j =>
    let S := unsplitSlice undef rp rt c capa aux qold j
    (unsplitUpdate c capa aux j S st.1, max st.2 S.cfl)) (qnew, 0)

/-- The sweeps in `y`, step2.f90:168-247, continue with the same `qnew` and `cfl`. -/
def step2Y {A : Type*} (undef : K) (rp : Riemann K A m w) (rt : Transverse K A m) (c : Cfg2 K w)
    (capa : Option (A → K)) (aux : Int → Int → A) (qold qnew : Int → Int → Fin m → K) : (Int → Int → Fin m → K) × K :=
  let r := step2X undef rp rt c.swap capa (fun j i => aux i j) (fun j i => qold i j) (fun j i => qnew i j)
  (fun i j => r.1 j i, r.2)

/-- The unsplit step, solver.py:537-541, `step2`. -/
def unsplitStep2 {A : Type*} (undef : K) (rpx rpy : Riemann K A m w) (rtx rty : Transverse K A m) (c : Cfg2 K w)
    (capa : Option (A → K)) (aux : Int → Int → A) (q : Int → Int → Fin m → K) : (Int → Int → Fin m → K) × K :=
  let r1 := step2X undef rpx rtx c capa aux q q
  let r2 := step2Y undef rpy rty c capa aux q r1.1
  (r2.1, max r1.2 r2.2)

end PyClaw
