import Verif.Model.Classic1
import Verif.Model.Weno
import Verif.Model.WenoTables

/-!
Model of the SharpClaw spatial discretisation: `dq_hyperbolic` of `SharpClawSolver1D`,
/repo/src/pyclaw/sharpclaw/solver.py:710-825 (Python kernel), `flux1`, `flux2`, `flux3`
(/repo/src/pyclaw/sharpclaw/flux1.f90, flux2.f90, flux3.f90) and the reconstructions of
/repo/src/pyclaw/limiters/recon.py and /repo/src/pyclaw/sharpclaw/reconstruct.f90.

Conventions as in `Model/Classic1.lean`: Python cells are `0 … n+2g-1`, interface `i` between cells `i` and
`i+1`; Fortran cells of `flux1` are `1-g … n+g`, interface `i` between cells `i-1` and `i`. The reconstruction
routines in Fortran number the same cells `1 … n+2g`: position `p` is cell `p - g`.
Arithmetic is exact; division by zero gives 0 (only `tvd2` divides by an unguarded difference).
Not modelled: `tvd2_char`, `weno5_char`, `weno5_trans` (which need `evec`), `weno5_fwave`, and the generated
`weno7` … `weno17`; `flux1` takes an arbitrary reconstruction instead.
-/
namespace PyClaw

variable {K : Type*} [Field K] [LinearOrder K] {m w : Nat}

/-- The reconstructed states: `ql(:,i)`, `qr(:,i)` are the values at the left and right edge of cell `i`. -/
structure Edges (K : Type*) (m : Nat) where
  ql : Int → Fin m → K
  qr : Int → Fin m → K

/-! ### Reconstructions -/

/-- `recon.weno(5, q)`, recon.py:3-55, all components; `N` cells. -/
def pyWeno (eps : K) (N : Int) (q : Int → Fin m → K) : Edges K m where
  ql i c := pyWenoQl eps N (fun j => q j c) i
  qr i c := pyWenoQr eps N (fun j => q j c) i

/-- The nonlinear part shared by the wave-based reconstructions, recon.py:88-106, reconstruct.f90:450-467, from
the projections `theta1`, `theta2`, `wnorm2`, `theta3`. -/
def shuCore (eps im th1 th2 wn th3 : K) : K :=
  let t1 := im * (th1 - th2)
  let t2 := im * (th2 - wn)
  let t3 := im * (wn - th3)
  let tt1 := (eps + (13 * t1 ^ 2 + 3 * (th1 - 3 * th2) ^ 2)) ^ 2
  let tt2 := (eps + (13 * t2 ^ 2 + 3 * (th2 + wn) ^ 2)) ^ 2
  let tt3 := (eps + (13 * t3 ^ 2 + 3 * (3 * wn - th3) ^ 2)) ^ 2
  let s1 := tt2 * tt3
  let s2 := 6 * tt1 * tt3
  let s3 := 3 * tt1 * tt2
  let t0 := 1 / (s1 + s2 + s3)
  (s1 * t0 * (t2 - t1) + (1 / 2 * (s3 * t0) - 1 / 4) * (t3 - t2)) / 3

/-- The projection of the wave of family `p` at interface `j` on the one at interface `i`. -/
def waveProj (wave : Waves K m w) (i j : Int) (p : Fin w) : K := wdot (wave j p) (wave i p)

/-- `z`, recon.py:106-107, at interface `i`, for `im = 1` (`qr`) and `im = -1` (`ql`). -/
def pyWaveZ (eps : K) (wave : Waves K m w) (im i : Int) (p : Fin w) : K :=
  shuCore eps im (waveProj wave i (i - 2 * im) p) (waveProj wave i (i - im) p) (waveProj wave i i p)
      (waveProj wave i (i + im) p)
    + (im : K) * (waveProj wave i (i - im) p + 6 * waveProj wave i i p - waveProj wave i (i + im) p) / 12

/-- `u * wave * wnorm2`, recon.py:108-113; `tol` is `1.e-14`. -/
def pyWaveTerm (eps tol : K) (wave : Waves K m w) (im i : Int) (p : Fin w) : Fin m → K :=
  let wnorm2 := waveProj wave i i p
  let u := if tol < wnorm2 then pyWaveZ eps wave im i p else 0
  let wn := if tol < wnorm2 then 1 / wnorm2 else 1
  fun c => u * wave i p c * wn

/-- `recon.weno5_wave`, recon.py:57-115: `LL = 2`, `UL = N-3`; line 112 writes `qr[LL:UL]`, 113 `ql[LL+1:UL+1]`. -/
def pyWenoWave (eps tol : K) (N : Int) (wave : Waves K m w) (q : Int → Fin m → K) : Edges K m where
  qr i := if 2 ≤ i ∧ i < N - 3 then
      (List.finRange w).foldl (fun x p => x + pyWaveTerm eps tol wave 1 i p) (q i) else q i
  ql i := if 3 ≤ i ∧ i < N - 2 then
      (List.finRange w).foldl (fun x p => x + pyWaveTerm eps tol wave (-1) (i - 1) p) (q i) else q i

/-- A kernel of weno.f90 for all components; positions `1 … n+2g`. -/
def fWenoComp (T : WenoTable) (eps : K) (g n : Int) (old : Edges K m) (q : Int → Fin m → K) : Edges K m where
  ql i c := T.ql eps g n (fun j => q j c) (fun j => old.ql j c) i
  qr i c := T.qr eps g n (fun j => q j c) (fun j => old.qr j c) i

/-- `weno5` of reconstruct.f90:131-197, `lim_type = 3`. -/
def fShu5 (eps : K) (g n : Int) (old : Edges K m) (q : Int → Fin m → K) : Edges K m where
  ql i c := fShuQl eps g (n + 2 * g) (fun j => q j c) (fun j => old.ql j c) i
  qr i c := fShuQr eps g (n + 2 * g) (fun j => q j c) (fun j => old.qr j c) i

/-- `u(m1)*wave*wnorm2` of reconstruct.f90:469-482, `tol` is `1.e-14`. The variable `wnorm2` holds the same value
after both sides. -/
def fWaveTerm (eps tol : K) (wave : Waves K m w) (im i : Int) (p : Fin w) : Fin m → K :=
  let wnorm2 := waveProj wave i i p
  let u := if tol < wnorm2 then
      shuCore eps im (waveProj wave i (i - 2 * im) p) (waveProj wave i (i - im) p) wnorm2
        (waveProj wave i (i + im) p) else 0
  let wn := if tol < wnorm2 then 1 / wnorm2 else 0
  fun c => u * wave i p c * wn

/-- The stencil-independent part, reconstruct.f90:430-433. -/
def central4 (q : Int → Fin m → K) (i : Int) : Fin m → K :=
  fun c => (-q (i - 2) c + 7 * (q (i - 1) c + q i c) - q (i + 1) c) / 12

/-- `weno5_wave`, reconstruct.f90:409-488: interfaces `2 … mx2` (positions), `mx2 = n+2g`. -/
def fWenoWave (eps tol : K) (g n : Int) (old : Edges K m) (wave : Waves K m w) (q : Int → Fin m → K) :
    Edges K m where
  qr i := if 2 ≤ i + 1 ∧ i + 1 ≤ n + 2 * g then
      (List.finRange w).foldl (fun x p => x + fWaveTerm eps tol wave 1 (i + 1) p) (central4 q (i + 1)) else old.qr i
  ql i := if 2 ≤ i ∧ i ≤ n + 2 * g then
      (List.finRange w).foldl (fun x p => x + fWaveTerm eps tol wave (-1) i p) (central4 q i) else old.ql i

/-- The limiters of the TVD reconstructions, reconstruct.f90:610-635, 780-806. Other numbers leave the variable
unset: `undef`. -/
def tvdPhi (undef : K) (meth : Int) (r : K) : K :=
  match meth with
  | 1 => max 0 (min 1 r)
  | 2 => max (max 0 (min 1 (2 * r))) (min 2 r)
  | 3 => (r + |r|) / (1 + |r|)
  | 4 => max 0 (min (min ((1 + r) / 2) 2) (2 * r))
  | 5 =>
    let pp := (2 + r) / 3
    let amax := max (max (-(1 / 3) * r) 0) (min (min (2 * r) pp) 2)
    max 0 (min pp amax)
  | _ => undef

/-- `tvd2`, reconstruct.f90:585-642: positions `1 … mx2-1`; `first` is the content of `dqp` when the loop over `i`
starts. -/
def fTvd2 (undef : K) (first : Fin m → K) (g n : Int) (mthlim : Fin m → Int) (old : Edges K m)
    (q : Int → Fin m → K) : Edges K m :=
  let slope (i : Int) (c : Fin m) : K :=
    let dqm := if i = 1 then first c else q i c - q (i - 1) c
    let dqp := q (i + 1) c - q i c
    1 / 2 * tvdPhi undef (mthlim c) (dqp / dqm) * dqm
  { qr := fun i c => if 1 ≤ i ∧ i ≤ n + 2 * g - 1 then q i c + slope i c else old.qr i c
    ql := fun i c => if 1 ≤ i ∧ i ≤ n + 2 * g - 1 then q i c - slope i c else old.ql i c }

/-- The contribution `wave(:,mw,i)*uu(mw,i)` of interface `i` in `tvd2_wave`, reconstruct.f90:764-815. `dotl` is 0
for the first interface of the loop. -/
def fTvdWaveTerm (undef : K) (g : Int) (mthlim : Fin w → Int) (wave : Waves K m w) (s : Int → Fin w → K) (i : Int)
    (p : Fin w) : Fin m → K :=
  let wnorm2 := wdot (wave i p) (wave i p)
  let dotl := if i = g then 0 else wdot (wave (i - 1) p) (wave i p)
  let dotr := wdot (wave i p) (wave (i + 1) p)
  if i = 0 ∨ wnorm2 = 0 then 0
  else
    let r := if 0 < s i p then dotl / wnorm2 else dotr / wnorm2
    fun c => wave i p c * (1 / 2 * tvdPhi undef (mthlim p) r)

/-- `tvd2_wave`, reconstruct.f90:745-822: the loop over interfaces is `do i=num_ghost,mx2-num_ghost`, and
`mx2-num_ghost = n+g`. -/
def fTvdWave (undef : K) (g n : Int) (mthlim : Fin w → Int) (old : Edges K m) (wave : Waves K m w)
    (s : Int → Fin w → K) (q : Int → Fin m → K) : Edges K m where
  qr i := if 1 ≤ i ∧ i ≤ n + 2 * g - 1 then
      (if g ≤ i + 1 ∧ i + 1 ≤ n + g then
        (List.finRange w).foldl (fun x p => x + fTvdWaveTerm undef g mthlim wave s (i + 1) p) (q i) else q i)
    else old.qr i
  ql i := if 2 ≤ i ∧ i ≤ n + 2 * g then
      (if g ≤ i ∧ i ≤ n + g then
        (List.finRange w).foldl (fun x p => x - fTvdWaveTerm undef g mthlim wave s i p) (q i) else q i)
    else old.ql i

/-! ### Python kernel -/

/-- The reconstruction chosen by `lim_type` and `char_decomp`, solver.py:771-789. `d` is the Riemann solution between
the cell averages. An unknown number leaves `ql` unbound. -/
def pyRecon (eps tol : K) (limType charDecomp : Int) (N : Int) (d : Int → Rp K m w) (q : Int → Fin m → K) :
    Except PyErr (Edges K m) :=
  if limType = -1 then .ok ⟨q, q⟩
  else if limType = 0 then .error .notImplemented
  else if limType = 1 then .error .notImplemented
  else if limType = 2 then
    if charDecomp = 0 then .ok (pyWeno eps N q)
    else if charDecomp = 1 then .ok (pyWenoWave eps tol N (fun i => (d i).wave) q)
    else if charDecomp = 2 then .error .notImplemented
    else .error .nameError
  else .error .nameError

/-- The options of the discretisation that enter `dq_hyperbolic`. -/
structure FluxCfg (K : Type*) where
  n : Nat
  g : Nat
  dt : K
  dx : K

/-- `dq[LL:UL]`, solver.py:791-821, from the reconstructed states: `LL = g-1`, `UL = n+g+1`; the fluctuations of the
interface Riemann problems and of the problem inside each cell. Returns `dq` and the Courant number. -/
def pyFlux1 {A : Type*} (rp : Riemann K A m w) (c : FluxCfg K) (capa : Option (A → K)) (aux : Int → A)
    (e : Edges K m) : (Int → Fin m → K) × K :=
  let dtdx : Int → K := fun i => match capa with
    | some κ => c.dt / (c.dx * κ (aux i))
    | none => c.dt / c.dx
  let d : Int → Rp K m w := fun i => rp (e.qr i) (e.ql (i + 1)) (aux i) (aux (i + 1))
  let LL : Int := c.g - 1
  let UL : Int := c.n + c.g + 1
  let cfl := pyCfl LL UL dtdx d
  let d2 : Int → Rp K m w := fun i => rp (e.ql i) (e.qr i) (aux i) (aux i)
  (fun i => if LL ≤ i ∧ i < UL then
      -dtdx i • ((d i).amdq + (d (i - 1)).apdq + (d2 i).apdq + (d2 i).amdq) else 0, cfl)

/-- `dq_hyperbolic` with `kernel_language = 'Python'`, solver.py:741-825, on the ghosted array; the returned array is
`dq[:, g:-g]`. -/
def pyDqHyperbolic {A : Type*} (eps tol : K) (rp : Riemann K A m w) (c : FluxCfg K) (limType charDecomp : Int)
    (capa : Option (A → K)) (aux : Int → A) (q : Int → Fin m → K) : Except PyErr ((Int → Fin m → K) × K) :=
  match pyRecon eps tol limType charDecomp (c.n + 2 * c.g)
      (fun i => rp (q i) (q (i + 1)) (aux i) (aux (i + 1))) q with
  | .error e => .error e
  | .ok e => .ok (pyFlux1 rp c capa aux e)

/-! ### Fortran kernel -/

/-- `dtdx`, flux1.f90:59-63. The array is allocated with more elements than there are cells (workspace.f90:24,
solver.py:585-586). With `f2003`, the assignment follows the Fortran 2003 rule for allocatable arrays: the shapes
differ, so `dtdx` is reallocated with the bounds of the expression, whose lower bound is 1, and `dtdx(i)` is the value
of the cell `i - g`. Without it (older compilers, `-fno-realloc-lhs`) the lower bound stays `1-g`. -/
def fluxDtdx {A : Type*} (f2003 : Bool) (c : FluxCfg K) (capa : Option (A → K)) (aux : Int → A) (i : Int) : K :=
  match capa with
  | some κ => if f2003 then c.dt / (c.dx * κ (aux (i - c.g))) else c.dt / (c.dx * κ (aux i))
  | none => c.dt / c.dx

/-- `flux1`, flux1.f90:56-194, after the reconstruction. `tfluct` is the total fluctuation solver, if
`tfluct_solver` is set. The pointer assignments of 171-175 shift: `qr_shift(i) = ql(i+1)`, `auxr(i) = aux(i+1)`. -/
def flux1 {A : Type*} (f2003 : Bool) (rp : Riemann K A m w)
    (tfluct : Option ((Fin m → K) → (Fin m → K) → A → A → Fin m → K)) (c : FluxCfg K) (capa : Option (A → K))
    (aux : Int → A) (e : Edges K m) : (Int → Fin m → K) × K :=
  let dtdx := fluxDtdx f2003 c capa aux
  let d : Int → Rp K m w := fun i => rp (e.qr (i - 1)) (e.ql i) (aux (i - 1)) (aux i)
  let cfl := fCfl c.n dtdx d
  match tfluct with
  | some tf =>
    let amdq2 : Int → Fin m → K := fun i => tf (e.ql i) (e.qr i) (aux i) (aux i)
    (fun i => if 1 ≤ i ∧ i ≤ c.n then -dtdx i • ((d i).apdq + amdq2 i + (d (i + 1)).amdq) else 0, cfl)
  | none =>
    let qrShift : Int → Fin m → K := fun i => e.ql (i + 1)
    let qlShift : Int → Fin m → K := e.qr
    let auxr : Int → A := fun i => aux (i + 1)
    let d2 : Int → Rp K m w := fun i => rp (qrShift (i - 1)) (qlShift i) (auxr (i - 1)) (aux i)
    (fun i => if 1 ≤ i ∧ i ≤ c.n then
      -dtdx i • ((d (i + 1)).amdq + (d i).apdq + (d2 i).amdq + (d2 i).apdq) else 0, cfl)

/-- The reconstruction of `flux1` selected by `lim_type` and `char_decomp`, flux1.f90:65-121, for the routines that are
modelled; `other` stands for the rest (`none` is `stop`); `order` is `weno_order`. Arrays are converted from cells to positions. -/
def fRecon {A : Type*} (eps tol undef : K) (first : Fin m → K) (rp : Riemann K A m w) (c : FluxCfg K)
    (limType charDecomp order : Int) (fwave : Bool) (limEqn : Fin m → Int) (limWave : Fin w → Int) (old : Edges K m)
    (other : Option (Edges K m)) (aux : Int → A) (q : Int → Fin m → K) : Option (Edges K m) :=
  let g : Int := c.g
  let n : Int := c.n
  let qp : Int → Fin m → K := fun p => q (p - g)
  let d : Int → Rp K m w := fun p => rp (q (p - g - 1)) (q (p - g)) (aux (p - g - 1)) (aux (p - g))
  let oldp : Edges K m := ⟨fun p => old.ql (p - g), fun p => old.qr (p - g)⟩
  let back (e : Edges K m) : Edges K m := ⟨fun i => e.ql (i + g), fun i => e.qr (i + g)⟩
  if limType = 1 ∧ charDecomp = 0 then some (back (fTvd2 undef first g n limEqn oldp qp))
  else if limType = 1 ∧ charDecomp = 1 then
    some (back (fTvdWave undef g n limWave oldp (fun i => (d i).wave) (fun i => (d i).s) qp))
  else if limType = 2 ∧ charDecomp = 0 then (wenoComp order).map fun T => back (fWenoComp T eps g n oldp qp)
  else if limType = 2 ∧ charDecomp = 1 ∧ ¬ fwave then some (back (fWenoWave eps tol g n oldp (fun i => (d i).wave) qp))
  else if limType = 3 then some (back (fShu5 eps g n oldp qp))
  else other

/-! ### Several dimensions -/

/-- `flux2`, flux2.f90:38-76: `sweepX j` and `sweepY i` are the results `dq1d` of `flux1` along the slices. Rows
`0 … my+1` and columns `0 … mx+1` are swept; each adds to the cells of the slice that lie in the grid. -/
def flux2Dq (mx my : Nat) (sweepX sweepY : Int → Int → Fin m → K) (i j : Int) : Fin m → K :=
  (if 0 ≤ j ∧ j ≤ my + 1 ∧ 1 ≤ i ∧ i ≤ mx then sweepX j i else 0) +
  (if 0 ≤ i ∧ i ≤ mx + 1 ∧ 1 ≤ j ∧ j ≤ my then sweepY i j else 0)

/-- `flux3`, flux3.f90:45-112. -/
def flux3Dq (mx my mz : Nat) (sweepX sweepY sweepZ : Int → Int → Int → Fin m → K) (i j k : Int) : Fin m → K :=
  (if 0 ≤ j ∧ j ≤ my + 1 ∧ 0 ≤ k ∧ k ≤ mz + 1 ∧ 1 ≤ i ∧ i ≤ mx then sweepX j k i else 0) +
  (if 0 ≤ i ∧ i ≤ mx + 1 ∧ 0 ≤ k ∧ k ≤ mz + 1 ∧ 1 ≤ j ∧ j ≤ my then sweepY i k j else 0) +
  (if 0 ≤ i ∧ i ≤ mx + 1 ∧ 0 ≤ j ∧ j ≤ my + 1 ∧ 1 ≤ k ∧ k ≤ mz then sweepZ i j k else 0)

/-- `flux2` with its calls of `flux1`; `rx`, `ry` reconstruct a row or a column. -/
def flux2 {A : Type*} (f2003 : Bool) (rpx rpy : Riemann K A m w)
    (tfx tfy : Option ((Fin m → K) → (Fin m → K) → A → A → Fin m → K)) (mx my g : Nat) (dt dx dy : K)
    (capa : Option (A → K)) (rx ry : (Int → A) → (Int → Fin m → K) → Edges K m) (aux : Int → Int → A)
    (q : Int → Int → Fin m → K) : (Int → Int → Fin m → K) :=
  flux2Dq mx my
    (fun j => (flux1 f2003 rpx tfx ⟨mx, g, dt, dx⟩ capa (fun i => aux i j)
      (rx (fun i => aux i j) (fun i => q i j))).1)
    (fun i => (flux1 f2003 rpy tfy ⟨my, g, dt, dy⟩ capa (fun j => aux i j)
      (ry (fun j => aux i j) (fun j => q i j))).1)

/-- `flux3` with its calls of `flux1`. -/
def flux3 {A : Type*} (f2003 : Bool) (rpx rpy rpz : Riemann K A m w)
    (tfx tfy tfz : Option ((Fin m → K) → (Fin m → K) → A → A → Fin m → K)) (mx my mz g : Nat) (dt dx dy dz : K)
    (capa : Option (A → K)) (rx ry rz : (Int → A) → (Int → Fin m → K) → Edges K m) (aux : Int → Int → Int → A)
    (q : Int → Int → Int → Fin m → K) : (Int → Int → Int → Fin m → K) :=
  flux3Dq mx my mz
    (fun j k => (flux1 f2003 rpx tfx ⟨mx, g, dt, dx⟩ capa (fun i => aux i j k)
      (rx (fun i => aux i j k) (fun i => q i j k))).1)
    (fun i k => (flux1 f2003 rpy tfy ⟨my, g, dt, dy⟩ capa (fun j => aux i j k)
      (ry (fun j => aux i j k) (fun j => q i j k))).1)
    (fun i j => (flux1 f2003 rpz tfz ⟨mz, g, dt, dz⟩ capa (fun k => aux i j k)
      (rz (fun k => aux i j k) (fun k => q i j k))).1)

end PyClaw
