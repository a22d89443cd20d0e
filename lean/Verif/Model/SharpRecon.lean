import Verif.Model.SharpFlux

/-!
Model of the reconstructions that use eigenvectors or f-waves: `tvd2_char`, `weno5_char`, `weno5_trans`,
`weno5_fwave`, /repo/src/pyclaw/sharpclaw/reconstruct.f90:200-405, 490-582, 646-742.

Conventions and simplifications as in `Model/SharpFlux`: positions `1 … n+2g`, interface `i` between positions `i-1`
and `i`, exact arithmetic, division by zero gives 0. The eigenvectors `evl(:,:,i)`, `evr(:,:,i)` are arbitrary
matrices: `evl i p c` is `evl(p,c,i)`, `evr i c p` is `evr(c,p,i)`.
-/
namespace PyClaw

variable {K : Type*} [Field K] [LinearOrder K] {m w : Nat}

/-- `dq(:,i)`, reconstruct.f90:668-670. -/
def jump (q : Int → Fin m → K) (i : Int) (c : Fin m) : K := q i c - q (i - 1) c

/-- `hh(m1,i)` of field `p`, reconstruct.f90:241-250, 676-683. -/
def charJump (evl : Int → Fin m → Fin m → K) (q : Int → Fin m → K) (p : Fin m) (m1 i : Int) : K :=
  ∑ c, evl i p c * jump q (i + m1) c

/-- `r` of `tvd2_char`, reconstruct.f90:695-699; `tol` is `1.e-14`. -/
def charRatio (tol a b : K) : K := if tol < |a| then b / a else 0

/-- `u(m,m1,i)` of `tvd2_char`, reconstruct.f90:687-728: `m1 = 1` with `im = 1` for `qr`, `m1 = 2` with `im = -1` for
`ql`. -/
def tvdCharU (undef tol : K) (mthlim : Fin m → Int) (evl : Int → Fin m → Fin m → K) (q : Int → Fin m → K)
    (m1 : Int) (p : Fin m) (i : Int) : K :=
  let im : K := if m1 = 1 then 1 else -1
  let a := charJump evl q p (m1 - 2) i
  let b := charJump evl q p (m1 - 1) i
  im * (1 / 2) * tvdPhi undef (mthlim p) (charRatio tol a b) * a

/-- `tvd2_char`, reconstruct.f90:646-742: interfaces `g+1 … mx2-1`. -/
def fTvdChar (undef tol : K) (g n : Int) (mthlim : Fin m → Int) (old : Edges K m)
    (evl evr : Int → Fin m → Fin m → K) (q : Int → Fin m → K) : Edges K m where
  qr i c := if g + 1 ≤ i + 1 ∧ i + 1 ≤ n + 2 * g - 1 then
      q i c + ∑ p, evr (i + 1) c p * tvdCharU undef tol mthlim evl q 1 p (i + 1) else old.qr i c
  ql i c := if g + 1 ≤ i ∧ i ≤ n + 2 * g - 1 then
      q i c + ∑ p, evr i c p * tvdCharU undef tol mthlim evl q 2 p i else old.ql i c

/-- `hh(m2,i)` as the reconstruction loop of `weno5_char` and `weno5_trans` finds it: set only for
`g+1 ≤ i ≤ mx2-2` (reconstruct.f90:243, 334); `stale` is what the array contained before. -/
def hhOr (stale : Int → Int → K) (g n : Int) (hh : Int → Int → K) (m2 i : Int) : K :=
  if g + 1 ≤ i ∧ i ≤ n + 2 * g - 2 then hh m2 i else stale m2 i

/-- `uu(m1,i)`, reconstruct.f90:263-284, 350-373, with `im = 1` for `qr` and `im = -1` for `ql`. -/
def charCore (eps : K) (hh : Int → Int → K) (im i : Int) : K :=
  shuCore eps im (hh (-2 * im) i) (hh (-im) i) (hh 0 i) (hh im i)

/-- `weno5_char`, reconstruct.f90:201-301: interfaces `g … mx2-g+1`. -/
def fWenoChar (eps : K) (stale : Fin m → Int → Int → K) (g n : Int) (old : Edges K m)
    (evl evr : Int → Fin m → Fin m → K) (q : Int → Fin m → K) : Edges K m where
  qr i c := if g ≤ i + 1 ∧ i + 1 ≤ n + g + 1 then
      central4 q (i + 1) c + ∑ p, evr (i + 1) c p *
        charCore eps (hhOr (stale p) g n (charJump evl q p)) 1 (i + 1) else old.qr i c
  ql i c := if g ≤ i ∧ i ≤ n + g + 1 then
      central4 q i c + ∑ p, evr i c p * charCore eps (hhOr (stale p) g n (charJump evl q p)) (-1) i else old.ql i c

/-- `gg(mw,i)`, reconstruct.f90:322-329. -/
def strength (evl : Int → Fin m → Fin m → K) (q : Int → Fin m → K) (p : Fin m) (i : Int) : K :=
  ∑ c, evl i p c * jump q i c

/-- `hh(m1,i)` of `weno5_trans`, reconstruct.f90:335-343. The index of the eigenvector is `evr(mw,m,i+m1)`: row `mw`. -/
def transJump (evl evr : Int → Fin m → Fin m → K) (q : Int → Fin m → K) (p : Fin m) (m1 i : Int) : K :=
  ∑ c, evl i p c * strength evl q p (i + m1) * evr (i + m1) p c

/-- `weno5_trans`, reconstruct.f90:303-405; `num_ghost` is the constant 3. -/
def fWenoTrans (eps : K) (stale : Fin m → Int → Int → K) (n2 : Int) (old : Edges K m)
    (evl evr : Int → Fin m → Fin m → K) (q : Int → Fin m → K) : Edges K m where
  qr i c := if 3 ≤ i + 1 ∧ i + 1 ≤ n2 - 2 then
      central4 q (i + 1) c + ∑ p, evr (i + 1) c p *
        charCore eps (hhOr (stale p) 3 (n2 - 6) (transJump evl evr q p)) 1 (i + 1) else old.qr i c
  ql i c := if 3 ≤ i ∧ i ≤ n2 - 2 then
      central4 q i c + ∑ p, evr i c p *
        charCore eps (hhOr (stale p) 3 (n2 - 6) (transJump evl evr q p)) (-1) i else old.ql i c

/-- The waves `fwave/s`, reconstruct.f90:511-513. -/
def fwaveToWave (fwave : Waves K m w) (s : Int → Fin w → K) : Waves K m w := fun i p c => fwave i p c / s i p

/-- `u(mw,m1)*fwave*wnorm2` of `weno5_fwave`, reconstruct.f90:527-577, `tol` is `1.e-14`. -/
def fFwaveTerm (eps tol : K) (wave : Waves K m w) (im i : Int) (p : Fin w) : Fin m → K :=
  let wnorm2 := waveProj wave i i p
  let u := if tol < wnorm2 then pyWaveZ eps wave im i p else 0
  let wn := if tol < wnorm2 then 1 / wnorm2 else 0
  fun c => u * wave i p c * wn

/-- `weno5_fwave`, reconstruct.f90:490-582: the loop over interfaces is `do i=2,mx2+2`. -/
def fWenoFwave (eps tol : K) (g n : Int) (old : Edges K m) (fwave : Waves K m w) (s : Int → Fin w → K)
    (q : Int → Fin m → K) : Edges K m where
  qr i := if 2 ≤ i + 1 ∧ i + 1 ≤ n + 2 * g + 2 then
      (List.finRange w).foldl (fun x p => x + fFwaveTerm eps tol (fwaveToWave fwave s) 1 (i + 1) p) (q i) else old.qr i
  ql i := if 2 ≤ i ∧ i ≤ n + 2 * g + 2 then
      (List.finRange w).foldl (fun x p => x + fFwaveTerm eps tol (fwaveToWave fwave s) (-1) i p) (q i) else old.ql i

end PyClaw
