import Verif.Model.Classic2

/-!
Model of the three-dimensional classic kernels: `flux3` (/repo/src/pyclaw/classic/flux3.f90), `step3ds`
(/repo/src/pyclaw/classic/step3ds.f90), `step3` (/repo/src/pyclaw/classic/step3.f90) and the calls in
`ClawSolver3D.step_hyperbolic` (/repo/src/pyclaw/classic/solver.py:648-706) on ghosted arrays.

Conventions of `Model/Classic2.lean`. The sweeps in `y` and `z` are the text of the sweeps in `x` with the directions
cyclically exchanged, `(x,y,z) → (y,z,x) → (z,x,y)`, and are modelled by the same functions on permuted arrays; the
order in which the slices of one direction are visited is that of the sweeps in `x`.
-/
namespace PyClaw

variable {K : Type*} [Field K] [LinearOrder K] {m w : Nat}

/-- The output of `flux3` for one slice. `gadd u s i` is `gadd(:,1,s,i)` for `u = false` (below the cell) and
`gadd(:,2,s,i)` for `u = true` (above); likewise `hadd`. -/
structure Slice3 (K : Type*) (m : Nat) where
  qadd : Int → Fin m → K
  fadd : Int → Fin m → K
  gadd : Bool → Int → Int → Fin m → K
  hadd : Bool → Int → Int → Fin m → K
  cfl : K

/-- `cqxx`, flux3.f90:220-259. For `order = 1` the array is not computed: it holds what the work array `stale` held. -/
def cqxx3 (undef : K) (n g : Nat) (order : Int) (fwave : Bool) (mthlim : Fin w → Int) (lam : Int → K)
    (d : Int → Rp K m w) (stale : Int → Fin m → K) (i : Int) : Fin m → K :=
  let wave0 : Waves K m w := fun i => (d i).wave
  let wave := if ∃ p, 0 < mthlim p then fLimiter undef n mthlim (fun i => (d i).s) wave0 else wave0
  if order = 1 then stale i
  else if 2 - (g : Int) ≤ i ∧ i ≤ n + g then
    (List.finRange w).foldl (fun f mw =>
      let dtdxave := 1 / 2 * (lam (i - 1) + lam i)
      let s := (d i).s mw
      if fwave then f + (1 / 2 * dsign1 s * (1 - |s| * dtdxave)) • wave i mw
      else f + (1 / 2 * |s| * (1 - |s| * dtdxave)) • wave i mw) 0
  else stale i

/-- The upper (`true`) or lower part of what a transverse solver returns. -/
def side (u : Bool) (p : (Fin m → K) × (Fin m → K)) : Fin m → K := if u then p.2 else p.1

/-- What `flux3` needs for the transverse part: `m3`, `m4` (186-194), whether there are aux arrays, the fluctuations
(`amdq` for `imp = 1`, `apdq` for `imp = 2`), `cqxx`, and the results of `rpt3` and `rptt3` at interface `i`. -/
structure Trans3 (K : Type*) (m : Nat) where
  m3 : Int
  m4 : Int
  hasAux : Bool
  asdq : Nat → Int → Fin m → K
  cqxx : Int → Fin m → K
  t : Nat → Nat → Int → (Fin m → K) → (Fin m → K) × (Fin m → K)
  tt : Nat → Nat → Nat → Int → (Fin m → K) → (Fin m → K) × (Fin m → K)

/-- `bmamdq, bpamdq, bmapdq, bpapdq` (`icoor = 2`) and `cmamdq, …` (`icoor = 3`), flux3.f90:272-291. -/
def Trans3.inc (T : Trans3 K m) (icoor imp : Nat) (i : Int) : (Fin m → K) × (Fin m → K) :=
  T.t icoor imp i (T.asdq imp i)

/-- `bmcqxxm, bpcqxxm` (`imp = 1`), `bmcqxxp, bpcqxxp` (`imp = 2`) and `cmcqxxm, …`, flux3.f90:296-344. For `m3 ≠ 2` the
arrays are not set; the documented values of `method(3)` then do not use them, they are 0 here. -/
def Trans3.cor (T : Trans3 K m) (icoor imp : Nat) (i : Int) : (Fin m → K) × (Fin m → K) :=
  if T.m3 = 2 then T.t icoor (if T.hasAux then imp else 0) i (T.cqxx i) else 0

/-- `cpapdq2`, … (353-367) and the modified `bpapdq`, … (479-486). -/
def Trans3.second (T : Trans3 K m) (icoor imp : Nat) (i : Int) : (Fin m → K) × (Fin m → K) :=
  if T.m4 = 2 then
    (if imp = 2 then T.inc icoor imp i - (3 : K) • T.cor icoor imp i else T.inc icoor imp i + (3 : K) • T.cor icoor imp i)
  else T.inc icoor imp i

/-- `bmcpapdq, bpcpapdq`, …: the results of `rptt3`, flux3.f90:375-384 (`icoor = 2`, applied to the parts in direction 3)
and 498-507 (`icoor = 3`, applied to the parts in direction 2). -/
def Trans3.double (T : Trans3 K m) (icoor imp impt : Nat) (i : Int) : (Fin m → K) × (Fin m → K) :=
  T.tt icoor imp impt i (side (impt = 2) (T.second (if icoor = 2 then 3 else 2) imp i))

/-- The terms added to `gadd(:,u,s,·)` (`icoor = 2`, 390-469, `dtw = dtdz`) or `hadd(:,u,s,·)` (`icoor = 3`, 513-594,
`dtw = dtdy`) for the fluctuation `imp` at interface `i`, which enters a cell with ratio `lam`. -/
def Trans3.part (T : Trans3 K m) (icoor : Nat) (dtw : K) (imp : Nat) (u : Bool) (s : Int) (lam : K) (i : Int) :
    Fin m → K :=
  let x := T.double icoor imp
  if s = 0 then
    -((1 / 2 * lam) • side u (T.inc icoor imp i))
      + (if 0 < T.m4 then (1 / 6 * lam * dtw) • (side u (x 2 i) - side u (x 1 i)) else 0)
      + (if 2 ≤ T.m3 then
          (if imp = 2 then lam • side u (T.cor icoor 2 i) else -(lam • side u (T.cor icoor 1 i))) else 0)
  else if s = 1 then (if 0 < T.m4 then -((1 / 6 * lam * dtw) • side u (x 2 i)) else 0)
  else if s = -1 then (if 0 < T.m4 then (1 / 6 * lam * dtw) • side u (x 1 i) else 0)
  else 0

/-- `gadd` or `hadd`: the loops over the interfaces `i = 1 … n+1` add to cells `i-1` (`amdq`) and `i` (`apdq`). -/
def Trans3.add (T : Trans3 K m) (n : Nat) (icoor : Nat) (dtw : K) (lam : Int → K) (u : Bool) (s i : Int) : Fin m → K :=
  if T.m3 ≤ 0 then 0
  else
    (if 1 ≤ i ∧ i ≤ n + 1 then T.part icoor dtw 2 u s (lam i) i else 0) +
    (if 1 ≤ i + 1 ∧ i + 1 ≤ n + 1 then T.part icoor dtw 1 u s (lam i) (i + 1) else 0)

/-- `m3`, `m4`, flux3.f90:186-194. -/
def splitMethod3 (trans : Int) : Int × Int := if trans < 0 then (-1, 0) else (trans / 10, trans - 10 * (trans / 10))

/-- `flux3`, flux3.f90:2-597, for a slice of `n` cells. -/
def flux3Slice (undef : K) (n g : Nat) (order trans : Int) (hasAux fwave : Bool) (mthlim : Fin w → Int) (lam : Int → K)
    (dtdy dtdz : K) (d : Int → Rp K m w) (t : Nat → Nat → Int → (Fin m → K) → (Fin m → K) × (Fin m → K))
    (tt : Nat → Nat → Nat → Int → (Fin m → K) → (Fin m → K) × (Fin m → K)) (stale : Int → Fin m → K) : Slice3 K m :=
  let qadd0 : Int → Fin m → K := fun i => if 1 ≤ i ∧ i ≤ n + 1 then 0 - lam i • (d i).apdq else 0
  let qadd : Int → Fin m → K := fun i =>
    if 1 ≤ i + 1 ∧ i + 1 ≤ n + 1 then qadd0 i - lam i • (d (i + 1)).amdq else qadd0 i
  let cqxx := cqxx3 undef n g order fwave mthlim lam d stale
  let fadd : Int → Fin m → K := fun i =>
    if order = 1 then 0 else if 2 - (g : Int) ≤ i ∧ i ≤ n + g then 0 + cqxx i else 0
  let m34 := splitMethod3 trans
  let T : Trans3 K m := ⟨m34.1, m34.2, hasAux, fun imp i => if imp = 1 then (d i).amdq else (d i).apdq, cqxx, t, tt⟩
  ⟨qadd, fadd, T.add n 2 dtdz lam, T.add n 3 dtdy lam, fCfl n lam d⟩

/-- The parameters of the three-dimensional kernels. -/
structure Cfg3 (K : Type*) (w : Nat) where
  mx : Nat
  my : Nat
  mz : Nat
  g : Nat
  dt : K
  dx : K
  dy : K
  dz : K
  order : Int
  trans : Int
  hasAux : Bool
  fwave : Bool
  limiter : Fin w → Int

/-- The directions `(y, z, x)` in place of `(x, y, z)`. -/
def Cfg3.rot (c : Cfg3 K w) : Cfg3 K w :=
  { c with mx := c.my, my := c.mz, mz := c.mx, dx := c.dy, dy := c.dz, dz := c.dx }

/-- An array with the directions `(y, z, x)` in place of `(x, y, z)`. -/
def rot3 {V : Type*} (a : Int → Int → Int → V) : Int → Int → Int → V := fun j k i => a i j k

/-- The inverse of `rot3`. -/
def unrot3 {V : Type*} (a : Int → Int → Int → V) : Int → Int → Int → V := fun i j k => a j k i

/-! ### Dimensional splitting -/

/-- `flux3` as called by `step3ds` (`method(3) = -1`, no transverse part). -/
def splitSlice3 {A : Type*} (undef : K) (rp : Riemann K A m w) (c : Cfg3 K w) (capa : Option (A → K)) (aux : Int → A)
    (row : Int → Fin m → K) : Slice3 K m :=
  flux3Slice undef c.mx c.g c.order (-1) c.hasAux c.fwave c.limiter (sliceRatio c.dt c.dx capa aux) (c.dt / c.dy)
    (c.dt / c.dz) (fun i => rp (row (i - 1)) (row i) (aux (i - 1)) (aux i)) (fun _ _ _ _ => 0) (fun _ _ _ _ _ => 0)
    (fun _ => 0)

/-- `step3ds` with `idir = 1`, step3ds.f90:129-208: the rows `j = 0 … my+1`, `k = 0 … mz+1`. With `same` the arguments
`qold` and `qnew` are the same array. -/
def step3dsX {A : Type*} (same : Bool) (undef : K) (rp : Riemann K A m w) (c : Cfg3 K w) (capa : Option (A → K))
    (aux : Int → Int → Int → A) (qold qnew : Int → Int → Int → Fin m → K) : (Int → Int → Int → Fin m → K) × K :=
  (irange 0 (c.mz + 2)).foldl (fun st k =>
    (irange 0 (c.my + 2)).foldl (fun st j =>
      let cur := st.1
      let q1d : Int → Fin m → K := fun i => if same then cur i j k else qold i j k
      let S := splitSlice3 undef rp c capa (fun i => aux i j k) q1d
      (fun i j' k' =>
        if j' = j ∧ k' = k then
          if 1 ≤ i ∧ i ≤ c.mx then
            cur i j k + S.qadd i - capDiv capa (aux i j k) ((c.dt / c.dx) • (S.fadd (i + 1) - S.fadd i))
          else cur i j k
        else cur i j' k',
       max st.2 S.cfl)) st) (qnew, 0)

/-- The dimensionally split step, solver.py:675-692. -/
def splitStep3 {A : Type*} (undef : K) (rpx rpy rpz : Riemann K A m w) (c : Cfg3 K w) (capa : Option (A → K))
    (aux : Int → Int → Int → A) (q : Int → Int → Int → Fin m → K) : (Int → Int → Int → Fin m → K) × K :=
  let r1 := step3dsX false undef rpx c capa aux q q
  let r2 := step3dsX true undef rpy c.rot capa (rot3 aux) (rot3 r1.1) (rot3 r1.1)
  let r3 := step3dsX true undef rpz c.rot.rot capa (rot3 (rot3 aux)) (rot3 r2.1) (rot3 r2.1)
  (unrot3 (unrot3 r3.1), max (max r1.2 r2.2) r3.2)

/-! ### Unsplit method -/

/-- A transverse solver `rpt3`: `icoor`, `imp`, the states left and right, the nine aux values around the slice on the
left and on the right (`aux1 … aux3`, index `0 … 2` in both transverse directions), `asdq`. -/
abbrev Transverse3 (K A : Type*) (m : Nat) :=
  Nat → Nat → (Fin m → K) → (Fin m → K) → (Fin 3 → Fin 3 → A) → (Fin 3 → Fin 3 → A) → (Fin m → K) →
    (Fin m → K) × (Fin m → K)

/-- A double transverse solver `rptt3`: as `rpt3`, with the further argument `impt`. -/
abbrev Transverse33 (K A : Type*) (m : Nat) :=
  Nat → Nat → Nat → (Fin m → K) → (Fin m → K) → (Fin 3 → Fin 3 → A) → (Fin 3 → Fin 3 → A) → (Fin m → K) →
    (Fin m → K) × (Fin m → K)

/-- The aux values handed to the transverse solvers, step3.f90:138-151. -/
def aux9 {A : Type*} (aux : Int → Int → Int → A) (j k i : Int) : Fin 3 → Fin 3 → A :=
  fun a b => aux i (j - 1 + a.val) (k - 1 + b.val)

/-- `flux3` on the row `(j,k)`, as called by `step3`, step3.f90:127-182. `stale` is the content of the work array `cqxx`
before the call: the part of `solver.work` (solver.py:643-644, `np.empty`) that starts at `i0cqxx`. It is only written
when `order ≠ 1`, so for `order = 1` it is the same in all calls. -/
def unsplitSlice3 {A : Type*} (undef : K) (rp : Riemann K A m w) (rt : Transverse3 K A m) (rtt : Transverse33 K A m)
    (c : Cfg3 K w) (capa : Option (A → K)) (stale : Int → Fin m → K) (aux : Int → Int → Int → A)
    (q : Int → Int → Int → Fin m → K) (j k : Int) : Slice3 K m :=
  flux3Slice undef c.mx c.g c.order c.trans c.hasAux c.fwave c.limiter (sliceRatio c.dt c.dx capa fun i => aux i j k)
    (c.dt / c.dy) (c.dt / c.dz) (fun i => rp (q (i - 1) j k) (q i j k) (aux (i - 1) j k) (aux i j k))
    (fun icoor imp i a => rt icoor imp (q (i - 1) j k) (q i j k) (aux9 aux j k (i - 1)) (aux9 aux j k i) a)
    (fun icoor imp impt i a =>
      rtt icoor imp impt (q (i - 1) j k) (q i j k) (aux9 aux j k (i - 1)) (aux9 aux j k i) a)
    stale

/-- The update of `qnew` by the results of row `(j,k)`, step3.f90:191-274. Without a capacity function the code
subtracts the terms one after the other. -/
def unsplitUpdate3 {A : Type*} (c : Cfg3 K w) (capa : Option (A → K)) (aux : Int → Int → Int → A) (j k : Int)
    (S : Slice3 K m) (qn : Int → Int → Int → Fin m → K) : Int → Int → Int → Fin m → K := fun i j' k' =>
  let y : K := c.dt / c.dy
  let z : K := c.dt / c.dz
  let g1 := fun s => S.gadd false s i
  let g2 := fun s => S.gadd true s i
  let h1 := fun s => S.hadd false s i
  let h2 := fun s => S.hadd true s i
  let cd := capDiv (m := m) capa (aux i j' k')
  if 1 ≤ i ∧ i ≤ c.mx then
    if j' = j ∧ k' = k then
      qn i j' k' + S.qadd i -
        cd ((c.dt / c.dx) • (S.fadd (i + 1) - S.fadd i) + y • (g2 0 - g1 0) + z • (h2 0 - h1 0))
    else if j' = j - 1 ∧ k' = k then qn i j' k' - cd (y • g1 0 + z • (h2 (-1) - h1 (-1)))
    else if j' = j - 1 ∧ k' = k - 1 then qn i j' k' - cd (y • g1 (-1) + z • h1 (-1))
    else if j' = j ∧ k' = k - 1 then qn i j' k' - cd (y • (g2 (-1) - g1 (-1)) + z • h1 0)
    else if j' = j + 1 ∧ k' = k - 1 then qn i j' k' + cd (y • g2 (-1) - z • h1 1)
    else if j' = j + 1 ∧ k' = k then qn i j' k' + cd (y • g2 0 - z • (h2 1 - h1 1))
    else if j' = j + 1 ∧ k' = k + 1 then qn i j' k' + cd (y • g2 1 + z • h2 1)
    else if j' = j ∧ k' = k + 1 then qn i j' k' - cd (y • (g2 1 - g1 1) - z • h2 0)
    else if j' = j - 1 ∧ k' = k + 1 then qn i j' k' - cd (y • g1 1 - z • h2 (-1))
    else qn i j' k'
  else qn i j' k'

/-- The sweeps in `x` of `step3`, step3.f90:124-276: rows `j = 0 … my+1`, `k = 0 … mz+1`. -/
def step3X {A : Type*} (undef : K) (rp : Riemann K A m w) (rt : Transverse3 K A m) (rtt : Transverse33 K A m)
    (c : Cfg3 K w) (capa : Option (A → K)) (stale : Int → Fin m → K) (aux : Int → Int → Int → A)
    (qold qnew : Int → Int → Int → Fin m → K) : (Int → Int → Int → Fin m → K) × K :=
  (irange 0 (c.mz + 2)).foldl (fun st k =>
    (irange 0 (c.my + 2)).foldl (fun st j =>
      let S := unsplitSlice3 undef rp rt rtt c capa stale aux qold j k
      (unsplitUpdate3 c capa aux j k S st.1, max st.2 S.cfl)) st) (qnew, 0)

/-- The unsplit step, solver.py:694-698, `step3`, step3.f90:103-597. The sweeps in `y` (lines 283-431) and `z` (439-593) repeat the sweep in `x`
with the axes in the order `(y, z, x)` and `(z, x, y)`; the model uses one definition and turns the arrays. The code runs through the rows of these
two sweeps with the loops nested the other way around. -/
def unsplitStep3 {A : Type*} (undef : K) (rpx rpy rpz : Riemann K A m w) (rtx rty rtz : Transverse3 K A m)
    (rttx rtty rttz : Transverse33 K A m) (c : Cfg3 K w) (capa : Option (A → K))
    (stale : Int → Fin m → K) (aux : Int → Int → Int → A) (q : Int → Int → Int → Fin m → K) :
    (Int → Int → Int → Fin m → K) × K :=
  let r1 := step3X undef rpx rtx rttx c capa stale aux q q
  let r2 := step3X undef rpy rty rtty c.rot capa stale (rot3 aux) (rot3 q) (rot3 r1.1)
  let r3 := step3X undef rpz rtz rttz c.rot.rot capa stale (rot3 (rot3 aux)) (rot3 (rot3 q)) (rot3 r2.1)
  (unrot3 (unrot3 r3.1), max (max r1.2 r2.2) r3.2)

end PyClaw
