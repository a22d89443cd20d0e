import Verif.Model.State
import Verif.Model.SharpFlux
import Verif.Model.SharpRK

/-!
Model of `SharpClawSolver.setup`, `_allocate_registers`, `_set_mthlim` and the choice of the capacity function in
`dq_hyperbolic`, /repo/src/pyclaw/sharpclaw/solver.py.

Simplifications. The last part of `setup` (loading the Fortran module, `set_cparam`, work arrays, boundary arrays,
`Solver.setup`; 251-264) is reduced to the assignment of `clawparams.index_capa`. `state.set_num_ghost` does nothing in
serial (state.py). `None` for `b`, `alpha` is `none`. Decimal constants are exact fractions.
-/
namespace PyClaw

/-- The value of `solver.limiters`: a number or a list. -/
inductive Limiters where
  | one (n : Int)
  | list (l : List Int)

/-- The attributes of a `SharpClawSolver` read or written by `setup`, solver.py:155-197. -/
structure SharpSolver (P K : Type*) where
  limType : Int := 2
  wenoOrder : Int := 5
  charDecomp : Int := 0
  kernel : String := "Fortran"
  numGhost : Int := 3
  integrator : String := "SSP104"
  dtVariable : Bool := true
  lmmSteps : Int := 4
  cflMax : Option K := none
  cflDesired : Option K := none
  sspcoeff : Option K := none
  limiters : Limiters := .list [1]
  mthlim : List Int := []
  numEqn : Nat
  numWaves : Nat
  bLen : Option Nat := none
  alphaLen : Option Nat := none
  registers : Option (List (State P K)) := none
  clawCapa : Option Int := none

variable {P K : Type*} [Field K]

/-- `'SSPLMM' in self.time_integrator`, solver.py:223: a substring test. -/
def hasSSPLMM (s : String) : Bool := decide ("SSPLMM".toList <:+: s.toList)

/-- `_cfl_default`, solver.py:145-150. -/
def cflDefault (name : String) : Option (K × K) :=
  if name = "SSP104" then some (245 / 100, 25 / 10)
  else if name = "SSPLMM32" then some (24 / 100, 25 / 100)
  else if name = "SSPLMM43" then some (15 / 100, 1 / 6)
  else if name = "SSPLMM53" then some (24 / 100, 25 / 100)
  else none

/-- The body of the `try` except its last two lines, solver.py:223-244; the `KeyError` of `_cfl_default[...]` is
replaced by the one of 248. -/
def setupCoeff (s : SharpSolver P K) : Ret (SharpSolver P K) Unit :=
  if hasSSPLMM s.integrator then
    if s.integrator = "SSPLMMk2" then
      if ¬ 3 ≤ s.lmmSteps then (s, .error .assertion)
      else
        let r : K := ((s.lmmSteps : K) - 2) / ((s.lmmSteps : K) - 1)
        let s := { s with sspcoeff := some r }
        match s.cflMax with
        | none => ({ s with cflDesired := some (14 / 100 * r), cflMax := some (15 / 100 * r) }, .ok ())
        | some _ => (s, .ok ())
    else if s.integrator = "SSPLMMk3" then
      if ¬ (4 ≤ s.lmmSteps ∧ s.lmmSteps ≤ 5) then (s, .error .assertion)
      else
        let r : K := ((s.lmmSteps : K) - 3) / ((s.lmmSteps : K) - 1)
        let s := { s with sspcoeff := some r }
        match s.cflMax with
        | none => ({ s with cflDesired := some (48 / 100 * r), cflMax := some (5 / 10 * r) }, .ok ())
        | some _ => (s, .ok ())
    else (s, .ok ())
  else
    match s.cflMax with
    | some _ => (s, .ok ())
    | none =>
      match cflDefault s.integrator with
      | none => (s, .error .keyError)
      | some d => ({ s with cflDesired := some d.1, cflMax := some d.2 }, .ok ())

/-- The last two lines of the `try`, solver.py:245-246; `0.9*None` raises. -/
def setupDesired (s : SharpSolver P K) : Ret (SharpSolver P K) Unit :=
  match s.cflDesired with
  | some _ => (s, .ok ())
  | none =>
    match s.cflMax with
    | none => (s, .error .typeError)
    | some c => ({ s with cflDesired := some (9 / 10 * c) }, .ok ())

/-- The number of registers, solver.py:603-611; `len(None)` raises. -/
def numRegisters (s : SharpSolver P K) : Except PyErr Nat :=
  if s.integrator = "Euler" then .ok 0
  else if s.integrator = "SSP33" then .ok 1
  else if s.integrator = "SSP104" then .ok 1
  else if s.integrator = "RK" then match s.bLen with
    | some n => .ok (n + 1)
    | none => .error .typeError
  else if s.integrator = "SSPLMMk2" then .ok s.lmmSteps.toNat
  else if s.integrator = "SSPLMMk3" then .ok s.lmmSteps.toNat
  else if s.integrator = "LMM" then match s.alphaLen with
    | some n => .ok n
    | none => .error .typeError
  else .error (.exception "Unrecognized time integrator: ")

/-- The loop `for i in range(nregisters)`, solver.py:617-619. -/
def copyRegisters (junk : K) (st : State P K) : Nat → Heap K → Ret (Heap K) (List (State P K))
  | 0, h => (h, .ok [])
  | n + 1, h =>
    match st.deepcopy junk h with
    | (h, .error e) => (h, .error e)
    | (h, .ok r) =>
      match copyRegisters junk st n h with
      | (h, .error e) => (h, .error e)
      | (h, .ok rs) => (h, .ok (r :: rs))

/-- `_allocate_registers`, solver.py:591-619, for `state = solution.states[0]`. -/
def allocRegisters (junk : K) (s : SharpSolver P K) (st : State P K) (h : Heap K) :
    Ret (SharpSolver P K × Heap K) Unit :=
  match numRegisters s with
  | .error e => ((s, h), .error e)
  | .ok n =>
    match copyRegisters junk st n h with
    | (h, .error e) => ((s, h), .error e)
    | (h, .ok rs) => (({ s with registers := some rs }, h), .ok ())

/-- `if not isinstance(self.limiters,list): self._mthlim=[self._mthlim]`, solver.py:520. -/
def Limiters.toList : Limiters → List Int
  | .one n => [n]
  | .list l => l

/-- `_set_mthlim`, solver.py:518-529. -/
def sharpMthlim (s : SharpSolver P K) : Ret (SharpSolver P K) Unit :=
  let l := s.limiters.toList
  let want := if s.charDecomp = 0 then s.numEqn else s.numWaves
  let l := if l.length = 1 then (List.replicate want l).flatten else l
  let s := { s with mthlim := l }
  if l.length ≠ want then
    (s, .error (.exception "Length of solver.limiters is not equal to 1 or to solver.num_eqn"))
  else (s, .ok ())

/-- The first part of `setup`, solver.py:206-221. -/
def setupGhost (s : SharpSolver P K) : Ret (SharpSolver P K) Unit :=
  let s := if s.limType = 2 then { s with numGhost := (s.wenoOrder + 1) / 2 } else s
  if s.limType = 2 ∧ s.wenoOrder ≠ 5 ∧ s.kernel = "Python" then
    (s, .error (.exception "Only 5th-order WENO reconstruction is implemented in Python kernels."))
  else if s.integrator = "LMM" ∧ s.dtVariable = true then (s, .error .assertion)
  else (s, .ok ())

/-- `setup`, solver.py:202-264. -/
def sharpSetup (junk : K) (s : SharpSolver P K) (st : State P K) (h : Heap K) : Ret (SharpSolver P K × Heap K) Unit :=
  match setupGhost s with
  | (s, .error e) => ((s, h), .error e)
  | (s, .ok _) =>
    match setupCoeff s with
    | (s, .error e) => ((s, h), .error e)
    | (s, .ok _) =>
      match setupDesired s with
      | (s, .error e) => ((s, h), .error e)
      | (s, .ok _) =>
        match allocRegisters junk s st h with
        | ((s, h), .error e) => ((s, h), .error e)
        | ((s, h), .ok _) =>
          match sharpMthlim s with
          | (s, .error e) => ((s, h), .error e)
          | (s, .ok _) =>
            if s.kernel = "Fortran" then (({ s with clawCapa := some (st.indexCapa + 1) }, h), .ok ())
            else ((s, h), .ok ())

/-! ### The capacity function -/

/-- The row of `aux` used as capacity function when `dq_hyperbolic(x)` is called: the Python kernel reads
`x.index_capa` (solver.py:766-769), the Fortran kernels read `clawparams.index_capa` (flux1.f90:59, flux2.f90,
flux3.f90), a Fortran index. -/
def kernelCapa (s : SharpSolver P K) (x : State P K) : Option Nat :=
  if s.kernel = "Python" then
    if 0 ≤ x.indexCapa then some x.indexCapa.toNat else none
  else
    match s.clawCapa with
    | some k => if 0 < k then some (k - 1).toNat else none
    | none => none

/-- The values of the capacity function for `A = Nat → K`, the column of `aux` in a cell. -/
def capaRow (k : Option Nat) : Option ((Nat → K) → K) := k.map fun k a => a k

variable [LinearOrder K] {m w : Nat}

/-- `dq_hyperbolic(x)` of the Python kernel with first-order reconstruction (`lim_type = -1`) for the array `fill q`
with ghost cells; `x` is the `State` object passed, of which only `index_capa` matters here. -/
def pyGodunovDq (s : SharpSolver P K) (rp : Riemann K (Nat → K) m w) (n : Nat) (dx : K) (aux : Int → Nat → K)
    (fill : (Int → Fin m → K) → Int → Fin m → K) (x : State P K) (dt : K) (q : Int → Fin m → K) : Int → Fin m → K :=
  (pyFlux1 rp ⟨n, s.numGhost.toNat, dt, dx⟩ (capaRow (kernelCapa s x)) aux ⟨fill q, fill q⟩).1

/-- The `SSP33` branch of `step` (solver.py:293-323) with this right-hand side: `dq_dt` is computed with
`solution.states[0]`, the later stages with `self._registers[0]`. -/
def pyGodunovSSP33 (s : SharpSolver P K) (rp : Riemann K (Nat → K) m w) (n : Nat) (dx : K) (aux : Int → Nat → K)
    (fill : (Int → Fin m → K) → Int → Fin m → K) (st : State P K) (dt t : K) (q : Int → Fin m → K) :
    Option (Int → Fin m → K) :=
  match s.registers with
  | some (r :: _) =>
    some (ssp33Step ⟨fun dt _ y => pyGodunovDq s rp n dx aux fill r dt y, fun _ y => y⟩ dt t
      (dt⁻¹ • pyGodunovDq s rp n dx aux fill st dt q) q)
  | _ => none

end PyClaw
