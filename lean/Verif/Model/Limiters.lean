import Verif.Model.Basic
import Mathlib.Algebra.BigOperators.Fin
import Mathlib.Algebra.BigOperators.Pi
import Mathlib.Algebra.Order.Field.Basic
import Mathlib.Algebra.Module.Pi
import Mathlib.Data.List.FinRange

/-!
Model of the wave limiters: /repo/src/pyclaw/limiters/tvd.py (Python kernels) and
/repo/src/pyclaw/classic/philim.f90, /repo/src/pyclaw/classic/limiter.f90 (Fortran kernels).

Numbers are elements of an ordered field (exact arithmetic). Division by zero is 0 here, `inf`/`nan` in
NumPy; theorems that would be affected carry hypotheses excluding it.
-/
namespace PyClaw

section functions
variable {K : Type*} [Field K] [LinearOrder K]

/-! ### Limiter functions of tvd.py -/

/-- `minmod_limiter`, tvd.py:141-152. -/
def pyMinmod (r _cfl : K) : K := max 0 (min 1 r)

/-- `superbee_limiter`, tvd.py:155-170: row `b[0]` is initialised to zeros. -/
def pySuperbee (r _cfl : K) : K := max (max 0 (min 1 (2 * r))) (min 0 r)

/-- tvd.py:452, `vanleer`. -/
def pyVanLeer (r _cfl : K) : K := (r + |r|) / (1 + |r|)

/-- `mc_limiter`, tvd.py:172-185. -/
def pyMC (r _cfl : K) : K := max 0 (min (min ((1 + r) / 2) 2) (2 * r))

/-- tvd.py:454, Beam-Warming. -/
def pyBeamWarming (r _cfl : K) : K := r

/-- tvd.py:455, Fromm. -/
def pyFromm (r _cfl : K) : K := 1 / 2 * (1 + r)

/-- tvd.py:456, Albada 2. -/
def pyAlbada2 (r _cfl : K) : K := (r ^ 2 + r) / (1 + r ^ 2)

/-- tvd.py:457, Albada 3. -/
def pyAlbada3 (r _cfl : K) : K := 1 / 2 * (1 + r) * (1 - |1 - r| ^ 3 / (1 + |r| ^ 3))

/-- `van_leer_klein_sharpening_limiter`, tvd.py:187-199. -/
def pyKlein (r _cfl : K) : K :=
  let rcorr := max r (1 / 10 ^ 5)
  let sharg := min r (1 / rcorr)
  let sharp := 1 + sharg * (1 - sharg) * (1 - sharg ^ 2)
  (r + |r|) / (1 + |r|) * sharp

/-- tvd.py:459, Roe's linear third order scheme. -/
def pyThirdOrder (r cfl : K) : K := 1 + (1 + cfl) / 3 * (r - 1)

/-- `arora_roe`, tvd.py:201-219, `caut = 0.99`. -/
def pyAroraRoe (r cfl : K) : K :=
  let caut : K := 99 / 100
  let s1 := caut * 2 / cfl
  let s2 := (1 + cfl) / 3
  let phimax := caut * 2 / (1 - cfl)
  max 0 (min (min (s1 * r) (1 + s2 * (r - 1))) phimax)

/-- The clipped Courant numbers `cfmod1`, `cfmod2`, e.g. tvd.py:231-235. -/
def cfmod1 (cfl : K) : K := max (1 / 1000) cfl
def cfmod2 (cfl : K) : K := min (999 / 1000) cfl

/-- `theta_limiter`, tvd.py:221-251. -/
def pyTheta (theta : K) (r cfl : K) : K :=
  let s1 := 2 / cfmod1 cfl
  let s2 := (1 + cfl) / 3
  let phimax := 2 / (1 - cfmod2 cfl)
  let left := max ((1 - theta) * s1) (1 + s2 * (r - 1))
  let middle := max ((1 - theta) * phimax * r) (theta * s1 * r)
  min (min left middle) (theta * phimax)

/-- `cfl_superbee`, tvd.py:253-273. -/
def pyCflSuperbee (r cfl : K) : K :=
  max (max 0 (min 1 (2 * r / cfmod1 cfl))) (min (2 / (1 - cfmod2 cfl)) r)

/-- `cfl_superbee_theta`, tvd.py:276-301. -/
def pyCflSuperbeeTheta (theta : K) (r cfl : K) : K :=
  let s1 := theta * 2 / cfmod1 cfl
  let phimax := theta * 2 / (1 - cfmod2 cfl)
  let ultra := max 0 (min (s1 * r) phimax)
  min ultra (max 1 r)

/-- `np.min` / `np.max` of a non-empty array (0 for an empty one, where NumPy raises). -/
def minOver {α : Type*} (f : α → K) : List α → K
  | [] => 0
  | a :: as => as.foldl (fun m x => min m (f x)) (f a)
def maxOver {α : Type*} (f : α → K) : List α → K
  | [] => 0
  | a :: as => as.foldl (fun m x => max m (f x)) (f a)

/-- `beta_limiter`, tvd.py:303-336. `np.min(a)`, `np.max(a)` without `axis` reduce over the whole array, so
the result is one number for all interfaces; `all` lists the pairs `(r, cfl)` of all interfaces. `beta`
is 0.66666666666666666, here 2/3. -/
def pyBeta (theta : K) (all : List (K × K)) : K :=
  let beta : K := 2 / 3
  let s1 := fun c => theta * 2 / cfmod1 c
  let phimax := fun c => theta * 2 / (1 - cfmod2 c)
  let ultra := max 0 (minOver (fun x => min (s1 x.2 * x.1) (phimax x.2)) all)
  let s2 := fun c : K => (1 + c) / 3
  let b1 := maxOver (fun x => max (1 + (s2 x.2 - beta / 2) * (x.1 - 1))
    (1 + (s2 x.2 + beta / 2) * (x.1 - 1))) all
  max 0 (min ultra b1)

/-- `upper_bound_limiter`, tvd.py:421-444, `theta = 1`; again one number for all interfaces. -/
def pyUpperBound (all : List (K × K)) : K :=
  max 0 (minOver (fun x => min (1 * 2 / cfmod1 x.2 * x.1) (1 * 2 / (1 - cfmod2 x.2))) all)

/-- A limiter function as called by `limit`: the arrays of `(r, cfl)` over all interfaces, and the pair
at the interface to be limited. -/
abbrev LimFun (K : Type*) := List (K × K) → K → K → K

/-- The dictionary `limiter_functions`, tvd.py:450-472. Entries 19–22 (non-integer powers, division by
`|r|`) are a parameter here: `opq` is an arbitrary function. They are modelled in `LimitersRest.lean`. -/
def pyLimiterFun (opq : Int → LimFun K) (k : Int) : Option (LimFun K) :=
  match k with
  | 1 => some fun _ => pyMinmod
  | 2 => some fun _ => pySuperbee
  | 3 => some fun _ => pyVanLeer
  | 4 => some fun _ => pyMC
  | 5 => some fun _ => pyBeamWarming
  | 6 => some fun _ => pyFromm
  | 7 => some fun _ => pyAlbada2
  | 8 => some fun _ => pyAlbada3
  | 9 => some fun _ => pyKlein
  | 10 => some fun _ => pyThirdOrder
  | 11 => some fun _ => pyAroraRoe
  | 12 => some fun _ => pyTheta (95 / 100)
  | 13 => some fun _ => pyTheta (75 / 100)
  | 14 => some fun _ => pyTheta (5 / 10)
  | 15 => some fun _ => pyCflSuperbee
  | 16 => some fun _ => pyCflSuperbeeTheta (95 / 100)
  | 17 => some fun all _ _ => pyBeta 0 all
  | 18 => some fun all _ _ => pyBeta (95 / 100) all
  | 19 => some (opq 19)
  | 20 => some (opq 20)
  | 21 => some (opq 21)
  | 22 => some (opq 22)
  | 23 => some fun all _ _ => pyUpperBound all
  | _ => none

/-! ### philim.f90 -/

/-- `philim`, philim.f90:2-37. For any other `meth` the function value is undefined: `undef`. -/
def philim (undef : K) (a b : K) (meth : Int) : K :=
  let r := b / a
  match meth with
  | 1 => max 0 (min 1 r)
  | 2 => max (max 0 (min 1 (2 * r))) (min 2 r)
  | 3 => (r + |r|) / (1 + |r|)
  | 4 => max 0 (min (min ((1 + r) / 2) 2) (2 * r))
  | 5 => r
  | _ => undef

end functions

section waves
variable {K : Type*} [Field K] [LinearOrder K] {m w : Nat}

/-- The waves at all interfaces: interface, wave family, component. -/
abbrev Waves (K : Type*) (m w : Nat) := Int → Fin w → Fin m → K

/-- Dot product of two waves. -/
def wdot (u v : Fin m → K) : K := ∑ j, u j * v j

/-- `spos`, tvd.py:116. -/
def spos (s : K) : K := if 0 < s then 1 else 0

/-- The smoothness ratio `r`, tvd.py:106-126, at interface `i`. The masked division fills 0 where the norm
vanishes (NumPy also masks quotients above about 1e308; not modelled). -/
def limRatio (wave : Waves K m w) (s : Int → Fin w → K) (i : Int) (p : Fin w) : K :=
  if wdot (wave i p) (wave i p) = 0 then 0
  else (spos (s i p) * wdot (wave i p) (wave (i - 1) p) +
    (1 - spos (s i p)) * wdot (wave (i + 1) p) (wave i p)) / wdot (wave i p) (wave i p)

/-- The local Courant number, tvd.py:133-134. -/
def limCfl (s : Int → Fin w → K) (dtdx : Int → K) (i : Int) (p : Fin w) : K :=
  |s i p * (dtdx i * spos (s i p) + (1 - spos (s i p)) * dtdx (i + 1))|

/-- The interfaces `1 … M-2` of `M`. -/
def inner (M : Nat) : List Int := (List.range (M - 2)).map fun k : Nat => (k : Int) + 1

/-- `limit`, tvd.py:81-139, for `M` interfaces `0 … M-1`; `tab` is the table of limiter functions. -/
def pyLimit (tab : Int → Option (LimFun K)) (M : Nat) (limiter : Fin w → Int) (dtdx : Int → K)
    (s : Int → Fin w → K) (wave : Waves K m w) : Waves K m w :=
  fun i p =>
    if 1 ≤ i ∧ i ≤ (M : Int) - 2 then
      match tab (limiter p) with
      | none => wave i p
      | some f =>
        let all := (inner M).map fun j => (limRatio wave s j p, limCfl s dtdx j p)
        let wlimitr := f all (limRatio wave s i p) (limCfl s dtdx i p)
        let zero : K := if wdot (wave i p) (wave i p) = 0 then 1 else 0
        fun c => wave i p c * zero + wlimitr * wave i p c * (1 - zero)
    else wave i p

/-- One iteration of the inner loop of `limiter`, limiter.f90:33-53, for interface `i` and family `p`; the
state is `(dotr, wave)`. -/
def fLimiterStep (undef : K) (meth : Int) (s : Int → Fin w → K) (p : Fin w)
    (st : K × Waves K m w) (i : Int) : K × Waves K m w :=
  let wave := st.2
  let wnorm2 := wdot (wave i p) (wave i p)
  let dotl := st.1
  let dotr := wdot (wave i p) (wave (i + 1) p)
  if i = 0 then (dotr, wave)
  else if wnorm2 = 0 then (dotr, wave)
  else
    let wlimitr := if 0 < s i p then philim undef wnorm2 dotl meth else philim undef wnorm2 dotr meth
    (dotr, fun i' p' => if i' = i ∧ p' = p then (fun c => wlimitr * wave i p c) else wave i' p')

/-- `limiter`, limiter.f90:2-57: families one after the other, interfaces `0 … mx+1` in order. -/
def fLimiter (undef : K) (mx : Nat) (mthlim : Fin w → Int) (s : Int → Fin w → K) (wave : Waves K m w) :
    Waves K m w :=
  (List.finRange w).foldl (fun wave p =>
    if mthlim p = 0 then wave
    else ((List.range (mx + 2)).foldl (fun st (k : Nat) => fLimiterStep undef (mthlim p) s p st (k : Int))
      (0, wave)).2) wave

end waves

end PyClaw
