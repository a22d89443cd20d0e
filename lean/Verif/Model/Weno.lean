import Verif.Model.Basic
import Mathlib.Algebra.Field.Basic
import Mathlib.Algebra.Order.Field.Basic

/-!
Models of the fifth-order WENO reconstructions: /repo/src/pyclaw/limiters/recon.py (`weno`, `weno5_wave`),
/repo/src/pyclaw/sharpclaw/weno.f90 (`weno5`) and /repo/src/pyclaw/sharpclaw/reconstruct.f90 (`weno5`).

One component of `q` is a function `Int → K` (the reconstructions act on each component separately).
The literal `1.e-36` is the parameter `eps`. Arithmetic is exact, and decimal literals such as
`3.3333333333333333333333333333333333d0` are read as the fractions they abbreviate (10/3).
-/
namespace PyClaw

variable {K : Type*} [Field K]

/-! ### recon.py -/

/-- The three differences `t1`, `t2`, `t3` of recon.py:32-34 at position `i`, with
`dqiph[j-1] = q[j] - q[j-1]` (recon.py:11, 27-30). -/
def shuDiff (q : Int → K) (j : Int) : K := q j - q (j - 1)

/-- The squares `tt1`, `tt2`, `tt3` of recon.py:36-38, before 40-42. -/
def shuTT1 (q : Int → K) (im i : Int) : K :=
  13 * ((im : K) * (shuDiff q (i - 2 * im) - shuDiff q (i - im))) ^ 2
    + 3 * (shuDiff q (i - 2 * im) - 3 * shuDiff q (i - im)) ^ 2
def shuTT2 (q : Int → K) (im i : Int) : K :=
  13 * ((im : K) * (shuDiff q (i - im) - shuDiff q i)) ^ 2 + 3 * (shuDiff q (i - im) + shuDiff q i) ^ 2
def shuTT3 (q : Int → K) (im i : Int) : K :=
  13 * ((im : K) * (shuDiff q i - shuDiff q (i + im))) ^ 2 + 3 * (3 * shuDiff q i - shuDiff q (i + im)) ^ 2

/-- The value `z` of recon.py:32-51 at position `i`, from the squares `x1`, `x2`, `x3`; `im` is `1` for `qr`
and `-1` for `ql`. The same formula is reconstruct.f90:167-186. -/
def shuCombine (eps : K) (q : Int → K) (im i : Int) (x1 x2 x3 : K) : K :=
  let t1 := (im : K) * (shuDiff q (i - 2 * im) - shuDiff q (i - im))
  let t2 := (im : K) * (shuDiff q (i - im) - shuDiff q i)
  let t3 := (im : K) * (shuDiff q i - shuDiff q (i + im))
  let tt1 := (eps + x1) ^ 2
  let tt2 := (eps + x2) ^ 2
  let tt3 := (eps + x3) ^ 2
  let s1 := tt2 * tt3
  let s2 := 6 * tt1 * tt3
  let s3 := 3 * tt1 * tt2
  let t0 := 1 / (s1 + s2 + s3)
  (s1 * t0 * (t2 - t1) + (1 / 2 * (s3 * t0) - 1 / 4) * (t3 - t2)) / 3
    + (-q (i - 2) + 7 * (q (i - 1) + q i) - q (i + 1)) / 12

/-- `z` with the smoothness squares of the code. -/
def shuValue (eps : K) (q : Int → K) (im i : Int) : K :=
  shuCombine eps q im i (shuTT1 q im i) (shuTT2 q im i) (shuTT3 q im i)

/-- `recon.weno(5, q)` for one component of `q[0..n-1]`, recon.py:3-55: `ql, qr`. The slices `LL:UL` are
`3 ≤ i < n-2`; elsewhere the arrays are copies of `q`. Line 52 writes `qr[LL-1:UL-1]`, line 53 `ql[LL:UL]`. -/
def pyWenoQr (eps : K) (n : Int) (q : Int → K) (c : Int) : K :=
  if 2 ≤ c ∧ c < n - 3 then shuValue eps q 1 (c + 1) else q c
def pyWenoQl (eps : K) (n : Int) (q : Int → K) (c : Int) : K :=
  if 3 ≤ c ∧ c < n - 2 then shuValue eps q (-1) c else q c

/-- `weno5` of reconstruct.f90:131-197 (`lim_type = 3`), indices `1..mx2`; entries not assigned keep the
previous contents of the work arrays (`oldl`, `oldr`). -/
def fShuQr (eps : K) (g mx2 : Int) (q oldr : Int → K) (c : Int) : K :=
  if g - 1 ≤ c ∧ c ≤ mx2 - g then shuValue eps q 1 (c + 1) else oldr c
def fShuQl (eps : K) (g mx2 : Int) (q oldl : Int → K) (c : Int) : K :=
  if g ≤ c ∧ c ≤ mx2 - g + 1 then shuValue eps q (-1) c else oldl c

/-! ### weno.f90, `weno5` -/

/-- `sigma0`, `sigma1`, `sigma2`, weno.f90:34-51. -/
def wSigma0 (q : Int → K) (i : Int) : K :=
  10 / 3 * q i ^ 2 - 31 / 3 * q i * q (i + 1) + 11 / 3 * q i * q (i + 2) + 25 / 3 * q (i + 1) ^ 2
    - 19 / 3 * q (i + 1) * q (i + 2) + 4 / 3 * q (i + 2) ^ 2
def wSigma1 (q : Int → K) (i : Int) : K :=
  13 / 3 * q i ^ 2 - 13 / 3 * q i * q (i + 1) - 13 / 3 * q i * q (i - 1) + 4 / 3 * q (i + 1) ^ 2
    + 5 / 3 * q (i + 1) * q (i - 1) + 4 / 3 * q (i - 1) ^ 2
def wSigma2 (q : Int → K) (i : Int) : K :=
  10 / 3 * q i ^ 2 - 31 / 3 * q i * q (i - 1) + 11 / 3 * q i * q (i - 2) + 25 / 3 * q (i - 1) ^ 2
    - 19 / 3 * q (i - 1) * q (i - 2) + 4 / 3 * q (i - 2) ^ 2

/-- The left value `fs0`, weno.f90:52-54, 58-66, 76, from the smoothness indicators. -/
def wCombineL (eps : K) (q : Int → K) (i : Int) (σ0 σ1 σ2 : K) : K :=
  let omega0 := 1 / 10 / (eps + σ0) ^ 2
  let omega1 := 6 / 10 / (eps + σ1) ^ 2
  let omega2 := 3 / 10 / (eps + σ2) ^ 2
  let fr0 := 11 / 6 * q i - 7 / 6 * q (i + 1) + 1 / 3 * q (i + 2)
  let fr1 := 5 / 6 * q i - 1 / 6 * q (i + 1) + 1 / 3 * q (i - 1)
  let fr2 := 1 / 3 * q i + 5 / 6 * q (i - 1) - 1 / 6 * q (i - 2)
  (fr0 * omega0 + fr1 * omega1 + fr2 * omega2) / (omega0 + omega1 + omega2)

/-- The right value `fs1`, weno.f90:55-57, 67-75, 77. -/
def wCombineR (eps : K) (q : Int → K) (i : Int) (σ0 σ1 σ2 : K) : K :=
  let omega3 := 3 / 10 / (eps + σ0) ^ 2
  let omega4 := 6 / 10 / (eps + σ1) ^ 2
  let omega5 := 1 / 10 / (eps + σ2) ^ 2
  let fr3 := 1 / 3 * q i + 5 / 6 * q (i + 1) - 1 / 6 * q (i + 2)
  let fr4 := 5 / 6 * q i + 1 / 3 * q (i + 1) - 1 / 6 * q (i - 1)
  let fr5 := 11 / 6 * q i - 7 / 6 * q (i - 1) + 1 / 3 * q (i - 2)
  (fr3 * omega3 + fr4 * omega4 + fr5 * omega5) / (omega3 + omega4 + omega5)

/-- `ql(m,i)` and `qr(m,i)` of `weno5`, weno.f90:32-81, indices `1..maxnx+2g`; other entries keep the
contents of the work arrays. -/
def fWenoQl (eps : K) (g maxnx : Int) (q oldl : Int → K) (i : Int) : K :=
  if g ≤ i ∧ i ≤ maxnx + g + 1 then wCombineL eps q i (wSigma0 q i) (wSigma1 q i) (wSigma2 q i) else oldl i
def fWenoQr (eps : K) (g maxnx : Int) (q oldr : Int → K) (i : Int) : K :=
  if g ≤ i ∧ i ≤ maxnx + g + 1 then wCombineR eps q i (wSigma0 q i) (wSigma1 q i) (wSigma2 q i) else oldr i

end PyClaw
