import Verif.Model.Limiters

/-!
Model of the entries 19–22 of the dictionary of Python limiters, `src/pyclaw/limiters/tvd.py`. `pow r x` is `r**x`.
-/
namespace PyClaw

variable {K : Type*} [Field K] [LinearOrder K] [IsStrictOrderedRing K]

/-- `hyperbee_limiter`, tvd.py:339-358. `np.choose` takes the first case that applies; the third expression is also computed
where it is not used (NaN or inf there, without effect). -/
def pyHyperbee (pow : K → K → K) (r cfl : K) : K :=
  if r < 0 then 0
  else if |r - 1| < 1 / 1000000 then 1
  else
    let rmin := r - 1
    let rdur := r / rmin
    2 * rdur * (cfl * rmin + 1 - pow r cfl) / (cfmod1 cfl * (1 - cfmod2 cfl) * rmin)

/-- `superpower_limiter`, tvd.py:360-377, `caut = 1`. `floor((1 + sign r)/2)` is 1 for positive `r` and 0 otherwise. -/
def pySuperpower (pow : K → K → K) (r cfl : K) : K :=
  let s2 := (1 + cfl) / 3
  let s3 := 1 - s2
  let pp := (if r ≤ 1 then |2 / cfl| * 2 * s3 else 0) + if 1 < r then |2| / (1 - cfl) * 2 * s2 else 0
  let rfrac := |(1 - |r|) / (1 + |r|)|
  (if 0 < r then 1 else 0) * (s3 + s2 * r) * (1 - pow rfrac pp)

/-- Every second element, from the first on, multiplied by `x`: `b[1,::2] *= x`, tvd.py:398. -/
def scaleEven (x : K) : List K → List K
  | [] => []
  | [a] => [x * a]
  | a :: b :: l => x * a :: b :: scaleEven x l

/-- `cada_torrilhon_limiter`, tvd.py:379-403, `epsilon = 1.0e-3`. As in `pyBeta`, `np.min` and `np.max` reduce over the whole
array. `a[0,:]` still holds the Courant numbers in line 392, so the upper limit 0.95 is lost. Where `r = 0` the quotients by `|r|`
are infinite and do not count in the minimum or maximum. -/
def pyCada (all : List (K × K)) : K :=
  let eps : K := 1 / 1000
  let cfl := max (maxOver (fun x => x.2) all) (5 / 100)
  let rs := all.map Prod.fst
  let inv := rs.filter fun r => r ≠ 0
  let b := rs.map (fun r => 1 + (1 + cfl) / 3 * (r - 1)) ++ scaleEven (1 - eps) (rs.map fun r => 2 * |r| / (cfl + eps)) ++
    inv.map fun r => (8 - 2 * cfl) / (|r| * (cfl - 1 - eps) ^ 2)
  maxOver id (minOver id b :: inv.map fun r =>
    -2 * (cfl ^ 2 - 3 * cfl + 8) * (1 - eps) / (|r| * (cfl ^ 3 - cfl ^ 2 - cfl + 1 + eps)))

/-- `cada_torrilhon_limiter_nonlinear`, tvd.py:405-419; infinite quotients as in `pyCada`. -/
def pyCadaNonlinear (all : List (K × K)) : K :=
  let inv := (all.map Prod.fst).filter fun r => r ≠ 0
  let a := all.map (fun x => 1 + (1 + x.2) / 3 * (x.1 - 1)) ++ all.map (fun x => 2 * |x.1| / (6 / 10 + |x.1|)) ++
    inv.map fun r => 5 / |r|
  maxOver id (minOver id a :: inv.map fun r => -3 / |r|)

/-- The entries 19–22 of `limiter_functions`, tvd.py:468-471. -/
def restLimiters (pow : K → K → K) (k : Int) : LimFun K :=
  match k with
  | 19 => fun _ r cfl => pyHyperbee pow r cfl
  | 20 => fun _ r cfl => pySuperpower pow r cfl
  | 21 => fun all _ _ => pyCada all
  | 22 => fun all _ _ => pyCadaNonlinear all
  | _ => fun _ _ _ => 0

/-- The whole dictionary `limiter_functions`, tvd.py:450-472. -/
def pyLimiterTable (pow : K → K → K) (k : Int) : Option (LimFun K) := pyLimiterFun (restLimiters pow) k

end PyClaw
