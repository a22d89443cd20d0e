import Verif.Model.Classic2

/-!
The sweeps of `step2` and `step2ds` line by line: both directions written out, one assignment after the other. `Verif.Props.Sweeps2`
proves that they compute what the shorter definitions of `Verif.Model.Classic2` compute, where the sweeps in `y` are sweeps in `x` on
exchanged arrays.
-/
namespace PyClaw

variable {K : Type*} [Field K] [LinearOrder K] {m w : Nat} {A : Type*}

/-- An assignment to `q(:,i,j)`. The loop over the components (`do m=1,num_eqn`) is the outer one in the code; its passes do not read
each other's results, here they are done together. -/
def assign2 (i j : Int) (v : Fin m → K) (q : Int → Int → Fin m → K) : Int → Int → Fin m → K := fun i' j' =>
  if i' = i ∧ j' = j then v else q i' j'

/-- The body of `do i=1,mx`, step2.f90:139-146 and 152-162: three assignments. -/
def xCell (c : Cfg2 K w) (capa : Option (A → K)) (aux : Int → Int → A) (j : Int) (S : Slice K m) (qn : Int → Int → Fin m → K) (i : Int) :
    Int → Int → Fin m → K :=
  let dtdx := c.dt / c.dx
  let dtdy := c.dt / c.dy
  match capa with
  | none =>
    let q1 := assign2 i j (qn i j + S.qadd i - dtdx • (S.fadd (i + 1) - S.fadd i) - dtdy • (S.gadd2 i - S.gadd1 i)) qn
    let q2 := assign2 i (j - 1) (q1 i (j - 1) - dtdy • S.gadd1 i) q1
    assign2 i (j + 1) (q2 i (j + 1) + dtdy • S.gadd2 i) q2
  | some κ =>
    let q1 := assign2 i j (qn i j + S.qadd i -
      (κ (aux i j))⁻¹ • (dtdx • (S.fadd (i + 1) - S.fadd i) + dtdy • (S.gadd2 i - S.gadd1 i))) qn
    let q2 := assign2 i (j - 1) (q1 i (j - 1) - (κ (aux i (j - 1)))⁻¹ • dtdy • S.gadd1 i) q1
    assign2 i (j + 1) (q2 i (j + 1) + (κ (aux i (j + 1)))⁻¹ • dtdy • S.gadd2 i) q2

/-- The body of `do j=1,my` in the sweeps in `y`, step2.f90:221-230 and 234-247: `fadd` modifies the fluxes in `y`, `gadd` those in `x`. -/
def yCell (c : Cfg2 K w) (capa : Option (A → K)) (aux : Int → Int → A) (i : Int) (S : Slice K m) (qn : Int → Int → Fin m → K) (j : Int) :
    Int → Int → Fin m → K :=
  let dtdx := c.dt / c.dx
  let dtdy := c.dt / c.dy
  match capa with
  | none =>
    let q1 := assign2 i j (qn i j + (S.qadd j - dtdy • (S.fadd (j + 1) - S.fadd j) - dtdx • (S.gadd2 j - S.gadd1 j))) qn
    let q2 := assign2 (i - 1) j (q1 (i - 1) j - dtdx • S.gadd1 j) q1
    assign2 (i + 1) j (q2 (i + 1) j + dtdx • S.gadd2 j) q2
  | some κ =>
    let q1 := assign2 i j (qn i j + S.qadd j -
      (κ (aux i j))⁻¹ • (dtdy • (S.fadd (j + 1) - S.fadd j) + dtdx • (S.gadd2 j - S.gadd1 j))) qn
    let q2 := assign2 (i - 1) j (q1 (i - 1) j - (κ (aux (i - 1) j))⁻¹ • dtdx • S.gadd1 j) q1
    assign2 (i + 1) j (q2 (i + 1) j + (κ (aux (i + 1) j))⁻¹ • dtdx • S.gadd2 j) q2

/-- `flux2(2, …)` on column `i`, step2.f90:174-209. -/
def ySlice (undef : K) (rp : Riemann K A m w) (rt : Transverse K A m) (c : Cfg2 K w) (capa : Option (A → K)) (aux : Int → Int → A)
    (q : Int → Int → Fin m → K) (i : Int) : Slice K m :=
  let q1d : Int → Fin m → K := fun j => q i j
  let aux1 : Int → A := fun j => aux (i - 1) j
  let aux2 : Int → A := fun j => aux i j
  let aux3 : Int → A := fun j => aux (i + 1) j
  let dtdy1d : Int → K := fun j => match capa with
    | some κ => c.dt / c.dy / κ (aux i j)
    | none => c.dt / c.dy
  flux2Slice undef c.my c.g c.order c.trans c.fwave c.limiter dtdy1d (fun j => rp (q1d (j - 1)) (q1d j) (aux2 (j - 1)) (aux2 j))
    (fun imp j a => rt imp (q1d (j - 1)) (q1d j) (aux1 (j - 1), aux2 (j - 1), aux3 (j - 1)) (aux1 j, aux2 j, aux3 j) a)

/-- `step2`, step2.f90:75-250: `cfl = 0`, the sweeps in `x`, the sweeps in `y`. -/
def step2Text (undef : K) (rpx rpy : Riemann K A m w) (rtx rty : Transverse K A m) (c : Cfg2 K w) (capa : Option (A → K))
    (aux : Int → Int → A) (qold qnew : Int → Int → Fin m → K) : (Int → Int → Fin m → K) × K :=
  let afterX := (irange 0 (c.my + 2)).foldl (fun st j =>
    let S := unsplitSlice undef rpx rtx c capa aux qold j
    ((irange 1 (c.mx + 1)).foldl (xCell c capa aux j S) st.1, max st.2 S.cfl)) (qnew, 0)
  (irange 0 (c.mx + 2)).foldl (fun st i =>
    let S := ySlice undef rpy rty c capa aux qold i
    ((irange 1 (c.my + 1)).foldl (yCell c capa aux i S) st.1, max st.2 S.cfl)) afterX

/-- `flux2(2, …)` on column `i`, as called by `step2ds`, step2ds.f90:182-227. -/
def ySplitSlice (undef : K) (rp : Riemann K A m w) (c : Cfg2 K w) (capa : Option (A → K)) (aux : Int → Int → A)
    (q : Int → Int → Fin m → K) (i : Int) : Slice K m :=
  let q1d : Int → Fin m → K := fun j => q i j
  let aux2 : Int → A := fun j => aux i j
  let dtdy1d : Int → K := fun j => match capa with
    | some κ => c.dt / c.dy / κ (aux i j)
    | none => c.dt / c.dy
  flux2Slice undef c.my c.g c.order (-1) c.fwave c.limiter dtdy1d (fun j => rp (q1d (j - 1)) (q1d j) (aux2 (j - 1)) (aux2 j))
    (fun _ _ _ => (0, 0))

/-- `step2ds` with `ids = 2`, step2ds.f90:174-260, called with the same array for `qold` and `qnew` (solver.py:531-533): the columns
`1-g … mx+g`. The `forall` of an update evaluates all right-hand sides first. -/
def step2dsYText (undef : K) (rp : Riemann K A m w) (c : Cfg2 K w) (capa : Option (A → K)) (aux : Int → Int → A)
    (q : Int → Int → Fin m → K) : (Int → Int → Fin m → K) × K :=
  (irange (1 - c.g) (c.mx + c.g + 1)).foldl (fun st i =>
    let cur := st.1
    let S := ySplitSlice undef rp c capa aux cur i
    (fun i' j =>
      if i' = i ∧ 1 ≤ j ∧ j ≤ c.my then
        match capa with
        | none => cur i j + S.qadd j - (c.dt / c.dy) • (S.fadd (j + 1) - S.fadd j)
        | some κ => cur i j + S.qadd j - (κ (aux i j))⁻¹ • (c.dt / c.dy) • (S.fadd (j + 1) - S.fadd j)
      else cur i' j,
     max st.2 S.cfl)) (q, 0)

end PyClaw
