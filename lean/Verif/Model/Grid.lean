import Verif.Model.Dimension
import Mathlib.Algebra.Order.Floor.Defs

/-!
Model of `Grid`, `Patch` and `Domain`, /repo/src/pyclaw/geometry.py:27-473 and 647-815.

Simplifications. A grid owns its `Dimension` objects (in Python `Grid`, `Patch` and the user share
references; every mutation goes through the operations below, so sharing is not observable
otherwise). Coordinate arrays are functions from index vectors. The code for cell centres and for
nodes is textually the same up to the name, so one definition is indexed by `Kind`. Dimension names
that collide with other attributes of `Grid` are not modelled.
-/
namespace PyClaw

variable {K : Type*} [Field K] [LinearOrder K]

/-- An n-dimensional array: its value at an index vector, `none` outside the array. -/
abbrev NdArr (K : Type*) := List Nat → Option K

/-- Cell centres (`_compute_c_centers`, …) or nodes (`_compute_c_nodes`, …). -/
inductive Kind where
  | centers
  | nodes
  deriving DecidableEq

/-- `dim.centers` / `dim.nodes`. -/
def Dim.read (junk : K) (k : Kind) (d : Dim K) : Ret (Dim K) (List K) :=
  match k with
  | .centers => d.readCenters
  | .nodes => d.readNodes junk

/-- `dim._centers` / `dim._nodes`. -/
def Dim.cache (k : Kind) (d : Dim K) : Option (List K) :=
  match k with
  | .centers => d.centersC
  | .nodes => d.nodesC

/-- Extent of the index array: `np.indices(self.num_cells)` (geometry.py:285) or
`np.indices(n+1 for n in self.num_cells)` (geometry.py:298). -/
def Dim.extent (k : Kind) (d : Dim K) : Int :=
  match k with
  | .centers => d.numCells
  | .nodes => d.numCells + 1

/-- A coordinate mapping `mapc2p`: takes the list of computational coordinate arrays. -/
abbrev MapC2P (K : Type*) := List (NdArr K) → List (NdArr K)

/-- A `Grid` object, attributes of `__init__`, geometry.py:188-223. `c`, `p` are the caches
`_c_centers`/`_c_nodes` and `_p_centers`/`_p_nodes`. Gauge file names are kept as the coordinate list
they are built from. -/
structure Grid (K : Type*) where
  dims : List (Dim K) := []
  mapc2p : MapC2P K := id
  c : Kind → Option (List (NdArr K)) := fun _ => none
  p : Kind → Option (List (NdArr K)) := fun _ => none
  gauges : List (List Int) := []
  gaugeNames : List (List K) := []

namespace Grid

/-- `_clear_cached_values`, geometry.py:225-229. -/
def clear (g : Grid K) : Grid K := { g with c := fun _ => none, p := fun _ => none }

/-- The setter of `mapc2p`, geometry.py:181-184. -/
def setMap (g : Grid K) (f : MapC2P K) : Grid K := { g with mapc2p := f }.clear

/-- `add_dimension`, geometry.py:231-249. A duplicate name raises before anything is changed. With more
than three dimensions the dimension has been added when `identity_map[...]` raises `KeyError`. -/
def addDimension (g : Grid K) (d : Dim K) : Ret (Grid K) Unit :=
  if d.name ∈ g.dims.map (·.name) then (g, .error (.exception "Unable to add dimension."))
  else
    let g' := { g with dims := g.dims ++ [d] }.clear
    if g'.dims.length ≤ 3 then (g'.setMap id, .ok ()) else (g', .error .keyError)

/-- The loop `for dim in dimensions: self.add_dimension(dim)`, geometry.py:219-220. -/
def addAll (g : Grid K) : List (Dim K) → Except PyErr (Grid K)
  | [] => .ok g
  | d :: ds =>
    match g.addDimension d with
    | (_, .error e) => .error e
    | (g', .ok _) => g'.addAll ds

/-- `Grid.__init__`, geometry.py:188-223. -/
def new (dims : List (Dim K)) : Except PyErr (Grid K) := addAll {} dims

/-- `get_dim_attribute('centers')` / `('nodes')`, geometry.py:251-255: evaluates the property of each
dimension in turn, stopping at the first exception. -/
def readAll (junk : K) (k : Kind) : List (Dim K) → Ret (List (Dim K)) (List (List K))
  | [] => ([], .ok [])
  | d :: ds =>
    match d.read junk k with
    | (d', .error e) => (d' :: ds, .error e)
    | (d', .ok a) =>
      match readAll junk k ds with
      | (ds', .error e) => (d' :: ds', .error e)
      | (ds', .ok as) => (d' :: ds', .ok (a :: as))

/-- `center_array[index[i,...]]` for each `i`, geometry.py:287-288: the array of shape `shape` whose
value at `idx` is `arr_i[idx_i]`. -/
def tensor (shape : List Nat) (arrs : List (List K)) : List (NdArr K) :=
  (List.range arrs.length).map fun (i : Nat) => fun idx =>
    if List.Forall₂ (· < ·) idx shape then
      match arrs[i]?, idx[i]? with
      | some a, some k => a[k]?
      | _, _ => none
    else none

/-- `_compute_c_centers` / `_compute_c_nodes`, geometry.py:277-301, with `recompute=False`. -/
def computeC (junk : K) (k : Kind) (g : Grid K) : Ret (Grid K) Unit :=
  if (g.c k).isNone || g.dims.any fun d => (d.cache k).isNone then
    if g.dims.any fun d => decide (d.extent k < 0) then (g, .error .valueError)
    else
      match readAll junk k g.dims with
      | (ds, .error e) => ({ g with dims := ds, c := Function.update g.c k (some []) }, .error e)
      | (ds, .ok arrs) =>
        ({ g with dims := ds,
                  c := Function.update g.c k
                    (some (tensor (g.dims.map fun d => (d.extent k).toNat) arrs)) }, .ok ())
  else (g, .ok ())

/-- `_compute_p_centers` / `_compute_p_nodes`, geometry.py:303-323. -/
def computeP (junk : K) (k : Kind) (g : Grid K) : Ret (Grid K) Unit :=
  if (g.p k).isNone || g.dims.any fun d => (d.cache k).isNone then
    match g.computeC junk k with
    | (g', .error e) => (g', .error e)
    | (g', .ok _) =>
      ({ g' with p := Function.update g'.p k (some (g'.mapc2p ((g'.c k).getD []))) }, .ok ())
  else (g, .ok ())

/-- The properties `c_centers`, `c_nodes`, geometry.py:149-162. After a successful computation the
cache is never `None`. -/
def readC (junk : K) (k : Kind) (g : Grid K) : Ret (Grid K) (List (NdArr K)) :=
  match g.computeC junk k with
  | (g', .error e) => (g', .error e)
  | (g', .ok _) => (g', .ok ((g'.c k).getD []))

/-- The properties `p_centers`, `p_nodes`, geometry.py:163-176. -/
def readP (junk : K) (k : Kind) (g : Grid K) : Ret (Grid K) (List (NdArr K)) :=
  match g.computeP junk k with
  | (g', .error e) => (g', .error e)
  | (g', .ok _) => (g', .ok ((g'.p k).getD []))

/-- `gauge[n]` in range test for dimensions `n = i, i+1, …`, geometry.py:399; `all` stops at the first
`False`, and a gauge with too few coordinates raises `IndexError` when it is indexed. -/
def gaugeInside : List (Dim K) → List K → Except PyErr Bool
  | [], _ => .ok true
  | _ :: _, [] => .error .indexError
  | d :: ds, x :: xs => if d.lower ≤ x ∧ x < d.upper then gaugeInside ds xs else .ok false

/-- `int((gauge[n]-self.lower[n])//self.delta[n])` for each dimension, geometry.py:401-402. (The box
test has passed, so `num_cells = 0` is impossible for a valid dimension; the error is propagated.) -/
def gaugeIndex [FloorRing K] : List (Dim K) → List K → Except PyErr (List Int)
  | [], _ => .ok []
  | _ :: _, [] => .error .indexError
  | d :: ds, x :: xs =>
    match d.delta with
    | .error e => .error e
    | .ok h =>
      match gaugeIndex ds xs with
      | .error e => .error e
      | .ok is => .ok (⌊(x - d.lower) / h⌋ :: is)

/-- Body of the loop of `add_gauges`, geometry.py:397-405. -/
def addGauge [FloorRing K] (g : Grid K) (gauge : List K) : Ret (Grid K) Unit :=
  match gaugeInside g.dims gauge with
  | .error e => (g, .error e)
  | .ok false => (g, .ok ())
  | .ok true =>
    match gaugeIndex g.dims gauge with
    | .error e => (g, .error e)
    | .ok idx =>
      ({ g with gaugeNames := g.gaugeNames ++ [gauge], gauges := g.gauges ++ [idx] }, .ok ())

/-- `add_gauges`, geometry.py:392-405. -/
def addGauges [FloorRing K] (g : Grid K) : List (List K) → Ret (Grid K) Unit
  | [] => (g, .ok ())
  | x :: xs =>
    match g.addGauge x with
    | (g', .error e) => (g', .error e)
    | (g', .ok _) => g'.addGauges xs

end Grid

/-- The operations on a grid and its dimensions. -/
inductive GridOp (K : Type*) where
  | dim (i : Nat) (op : DimOp K)
  | setMap (f : MapC2P K)
  | addDimension (d : Dim K)
  | readC (k : Kind)
  | readP (k : Kind)

/-- One operation; the object afterwards. -/
def Grid.stepG (junk : K) (g : Grid K) : GridOp K → Grid K
  | .dim i op => { g with dims := g.dims.modify i fun d => (d.step junk op).1 }
  | .setMap f => g.setMap f
  | .addDimension d => (g.addDimension d).1
  | .readC k => (g.readC junk k).1
  | .readP k => (g.readP junk k).1

/-- A history of operations, exceptions being caught by the caller. -/
def Grid.runG (junk : K) (g : Grid K) (ops : List (GridOp K)) : Grid K := ops.foldl (Grid.stepG junk) g

/-- `Patch` names and dimensions, geometry.py:684-718 (`level`, `patch_index` defaults 1). -/
structure Patch (K : Type*) where
  level : Int := 1
  patchIndex : Int := 1
  dims : List (Dim K) := []
  grid : Grid K := {}

/-- `Patch.add_dimension`, geometry.py:702-718. -/
def Patch.addDimension (p : Patch K) (d : Dim K) : Ret (Patch K) Unit :=
  if d.name ∈ p.dims.map (·.name) then (p, .error (.exception "Unable to add dimension."))
  else ({ p with dims := p.dims ++ [d] }, .ok ())

/-- The loop of `Patch.__init__`, geometry.py:693-696: every dimension is flagged as being on both
boundaries and added. -/
def Patch.addAll (p : Patch K) : List (Dim K) → Except PyErr (Patch K)
  | [] => .ok p
  | d :: ds =>
    match p.addDimension { d with onLower := some true, onUpper := some true } with
    | (_, .error e) => .error e
    | (p', .ok _) => p'.addAll ds

/-- `Patch.__init__`, geometry.py:684-700. -/
def Patch.new (dims : List (Dim K)) : Except PyErr (Patch K) :=
  match ({} : Patch K).addAll dims with
  | .error e => .error e
  | .ok p =>
    match Grid.new p.dims with
    | .error e => .error e
    | .ok g => .ok { p with grid := g }

/-- The `zip(lower,upper,n,names)` loop of `Domain.__init__`, geometry.py:788-789. -/
def Domain.zipDims : List K → List K → List Int → List String → Except PyErr (List (Dim K))
  | l :: ls, u :: us, n :: ns, s :: ss =>
    match Dim.new l u n s with
    | .error e => .error e
    | .ok d =>
      match zipDims ls us ns ss with
      | .error e => .error e
      | .ok ds => .ok (d :: ds)
  | _, _, _, _ => .ok []

/-- `Domain.__init__` with three arguments, geometry.py:781-790: the single patch of the domain. -/
def Domain.new3 (lower upper : List K) (n : List Int) : Except PyErr (List (Patch K)) :=
  match Domain.zipDims lower upper n (["x", "y", "z"].take (n.length + 1)) with
  | .error e => .error e
  | .ok dims =>
    match Patch.new dims with
    | .error e => .error e
    | .ok p => .ok [p]

end PyClaw
