import Verif.Model.Grid

/-!
Model of the coordinate methods of `Grid` that are not cached: coordinates with ghost cells, the
attributes a grid takes from its dimensions, and `c_center`/`p_center`
(/repo/src/pyclaw/geometry.py:130-138, 251-255, 325-386).
-/
namespace PyClaw

variable {K : Type*} [Field K] [LinearOrder K]

/-- `dim.centers_with_ghost(num_ghost)` / `dim.nodes_with_ghost(num_ghost)`, geometry.py:582-597. -/
def Dim.readGhost (junk : K) (k : Kind) (g : Nat) (d : Dim K) : Ret (Dim K) (List K) :=
  match k with
  | .centers => d.centersWithGhost g
  | .nodes => d.nodesWithGhost junk g

namespace Grid

/-- The loop `for i,dim in enumerate(self.dimensions): dim.centers_with_ghost(num_ghost)`,
geometry.py:345-347 and 360-362, stopping at the first exception. -/
def readAllGhost (junk : K) (k : Kind) (n : Nat) : List (Dim K) → Ret (List (Dim K)) (List (List K))
  | [] => ([], .ok [])
  | d :: ds =>
    match d.readGhost junk k n with
    | (d', .error e) => (d' :: ds, .error e)
    | (d', .ok a) =>
      match readAllGhost junk k n ds with
      | (ds', .error e) => (d' :: ds', .error e)
      | (ds', .ok as) => (d' :: ds', .ok (a :: as))

/-- `c_centers_with_ghost(num_ghost)` (geometry.py:335-348) and `c_nodes_with_ghost(num_ghost)`
(geometry.py:350-363; also `c_edges_with_ghost`, 384-386): the index array has `n + 2*num_ghost` resp.
`n + 2*num_ghost + 1` entries along each axis. `np.indices` raises `ValueError` for a negative
extent. -/
def cGhost (junk : K) (k : Kind) (n : Nat) (g : Grid K) : Ret (Grid K) (List (NdArr K)) :=
  if g.dims.any fun d => decide (d.extent k + 2 * (n : Int) < 0) then (g, .error .valueError)
  else
    match readAllGhost junk k n g.dims with
    | (ds, .error e) => ({ g with dims := ds }, .error e)
    | (ds, .ok arrs) =>
      ({ g with dims := ds },
        .ok (tensor (g.dims.map fun d => (d.extent k + 2 * (n : Int)).toNat) arrs))

/-- `p_centers_with_ghost`, `p_nodes_with_ghost` (and `p_edges_with_ghost`), geometry.py:365-369,
381-383. -/
def pGhost (junk : K) (k : Kind) (n : Nat) (g : Grid K) : Ret (Grid K) (List (NdArr K)) :=
  match g.cGhost junk k n with
  | (g', .error e) => (g', .error e)
  | (g', .ok c) => (g', .ok (g'.mapc2p c))

/-- `grid.centers`, `grid.nodes`: `__getattr__` and `get_dim_attribute`, geometry.py:130-138,
251-255. -/
def dimArrays (junk : K) (k : Kind) (g : Grid K) : Ret (Grid K) (List (List K)) :=
  match readAll junk k g.dims with
  | (ds, r) => ({ g with dims := ds }, r)

/-- `arr[index]` for a *list* `index` of integers, geometry.py:328-329. Since NumPy 1.23 a list that is
not a tuple is converted to an integer array, which indexes the first axis only: the result has the
value `arr[index[k], rest]` at `(k, rest)`. An entry outside the first axis raises `IndexError`; an
entry is inside if the element `(entry, 0, …, 0)` exists (every extent is at least one). Entries are
natural numbers, negative indices are not modelled. -/
def takeFirst (arr : NdArr K) (ndim : Nat) (index : List Nat) : Except PyErr (NdArr K) :=
  if index.all fun j => (arr (j :: List.replicate (ndim - 1) 0)).isSome then
    .ok fun idx =>
      match idx with
      | [] => none
      | k :: rest =>
        match index[k]? with
        | none => none
        | some j => arr (j :: rest)
  else .error .indexError

/-- The list comprehension of `c_center`, geometry.py:329, over the coordinate arrays. -/
def takeAll (ndim : Nat) (index : List Nat) : List (NdArr K) → Except PyErr (List (NdArr K))
  | [] => .ok []
  | a :: as =>
    match takeFirst a ndim index with
    | .error e => .error e
    | .ok x =>
      match takeAll ndim index as with
      | .error e => .error e
      | .ok xs => .ok (x :: xs)

/-- `np.array` of a list of arrays of the same shape. -/
def stack (l : List (NdArr K)) : NdArr K := fun idx =>
  match idx with
  | [] => none
  | i :: rest =>
    match l[i]? with
    | none => none
    | some a => a rest

/-- `c_center(ind)`, geometry.py:325-329. (`self.c_centers` is evaluated once per dimension; after the
first evaluation it is cached.) -/
def cCenter (junk : K) (ind : List Nat) (g : Grid K) : Ret (Grid K) (NdArr K) :=
  match g.readC junk .centers with
  | (g', .error e) => (g', .error e)
  | (g', .ok c) =>
    match takeAll g.dims.length ind c with
    | .error e => (g', .error e)
    | .ok l => (g', .ok (stack l))

end Grid

/-- The operations of `GridOp` and the evaluations of coordinates with ghost cells. -/
inductive GhostOp (K : Type*) where
  | base (op : GridOp K)
  | cGhost (k : Kind) (n : Nat)
  | pGhost (k : Kind) (n : Nat)
  | dimArrays (k : Kind)

/-- One operation; the object afterwards. -/
def Grid.stepH (junk : K) (g : Grid K) : GhostOp K → Grid K
  | .base op => g.stepG junk op
  | .cGhost k n => (g.cGhost junk k n).1
  | .pGhost k n => (g.pGhost junk k n).1
  | .dimArrays k => (g.dimArrays junk k).1

/-- A history of operations, exceptions being caught by the caller. -/
def Grid.runH (junk : K) (g : Grid K) (ops : List (GhostOp K)) : Grid K := ops.foldl (Grid.stepH junk) g

end PyClaw
