import Verif.Model.Tree

/-!
# Meshes of composite objects

`building3d/geom/mesh/__init__.py` and the four `get_mesh.py` files.
-/

namespace B3d.Mesh

open B3d.Triangles (Tri)
open B3d.Tree

variable {P : Type}

/-- `a[k] = v` for a numpy array and `0 ≤ k`. -/
def setRow {α : Type} (a : List α) (k : Nat) (v : α) : Except PyErr (List α) :=
  if k < a.length then .ok (a.set k v) else .error .indexError

/-- `t_tri[i][j] + num_pts_added`. -/
def shiftTri (k : Nat) (t : Tri) : Tri := (t.1 + k, t.2.1 + k, t.2.2 + k)

/-- The loops over the rows of one part, `geom/mesh/__init__.py` L39-42 (with `f = shiftTri
num_pts_added`) and L43-47 (with `f = id`): rows `j, j+1, ...` of part `i`, `prev` is the number of
rows of part `i - 1`.  State: the array and the offset. -/
def fillRows {α : Type} (i prev : Nat) (f : α → α) :
    Nat → List α → List α × Nat → Except PyErr (List α × Nat)
  | _, [], st => .ok st
  | j, r :: rows, (arr, offset) =>
    let offset := if j = 0 ∧ i > 0 then offset + prev else offset
    match setRow arr (j + offset) (f r) with
    | .error e => .error e
    | .ok arr => fillRows i prev f (j + 1) rows (arr, offset)

/-- Variables of the main loop, `geom/mesh/__init__.py` L31-37. -/
structure VState (P : Type) where
  verts : List P
  faces : List Tri
  numPtsAdded : Nat
  triOffset : Nat
  ptsOffset : Nat

/-- The main loop, `geom/mesh/__init__.py` L38-47: parts `i, i+1, ...`; `prevP` and `prevT` are
`num_pts_per_obj[i - 1]` and `num_tri_per_obj[i - 1]`. -/
def stackLoop : Nat → Nat → Nat → List (List P × List Tri) → VState P → Except PyErr (VState P)
  | _, _, _, [], st => .ok st
  | i, prevP, prevT, (pts, tri) :: rest, st =>
    match fillRows i prevT (shiftTri st.numPtsAdded) 0 tri (st.faces, st.triOffset) with
    | .error e => .error e
    | .ok (faces, triOffset) =>
      match fillRows i prevP id 0 pts (st.verts, st.ptsOffset) with
      | .error e => .error e
      | .ok (verts, ptsOffset) =>
        stackLoop (i + 1) pts.length tri.length rest
          ⟨verts, faces, st.numPtsAdded + pts.length, triOffset, ptsOffset⟩

/-- `vstack_mesh`, `geom/mesh/__init__.py` L11-52.  `zero` is the row of zeros the vertex array is
filled with; all indices are non-negative. -/
def vstackMesh (zero : P) (tPts : List (List P)) (tTri : List (List Tri)) :
    Except PyErr (List P × List Tri) :=
  if tPts.length ≠ tTri.length then .error .assertionError
  else
    let numPts := (tPts.map List.length).sum
    let numTri := (tTri.map List.length).sum
    match stackLoop 0 0 0 (tPts.zip tTri)
        ⟨List.replicate numPts zero, List.replicate numTri (0, 0, 0), 0, 0, 0⟩ with
    | .error e => .error e
    | .ok st => .ok (st.verts, st.faces)

/-- `Polygon.get_mesh`, `geom/polygon/__init__.py` L123-131. -/
def polyMesh (p : Poly P) : List P × List Tri := (p.pts, p.tri)

/-- `tuple(x.get_mesh() for x in xs)` and the two projections, then `vstack_mesh`
(`geom/{solid,zone,building}/get_mesh.py` L18-21). -/
def stackAll {X : Type} (zero : P) (mesh : X → Except PyErr (List P × List Tri)) (xs : List X) :
    Except PyErr (List P × List Tri) :=
  match xs.mapM mesh with
  | .error e => .error e
  | .ok ms => vstackMesh zero (ms.map Prod.fst) (ms.map Prod.snd)

/-- `Wall.get_mesh`, `geom/wall/__init__.py` L117-125, `geom/wall/get_mesh.py` L7-20. -/
def wallMesh (zero : P) (w : Wall P) : Except PyErr (List P × List Tri) :=
  vstackMesh zero (w.polygons.map Poly.pts) (w.polygons.map Poly.tri)

/-- `Solid.get_mesh`, `geom/solid/__init__.py` L111-119, `geom/solid/get_mesh.py` L7-21. -/
def solidMesh (zero : P) (s : Solid P) : Except PyErr (List P × List Tri) :=
  stackAll zero (wallMesh zero) s.walls

/-- `Zone.get_mesh`, `geom/zone/__init__.py` L115-123, `geom/zone/get_mesh.py` L7-21. -/
def zoneMesh (zero : P) (z : Zone P) : Except PyErr (List P × List Tri) :=
  stackAll zero (solidMesh zero) z.solids

/-- `Building.get_mesh`, `geom/building/__init__.py` L222-230, `geom/building/get_mesh.py`
L7-21. -/
def buildingMesh (zero : P) (b : Bldg P) : Except PyErr (List P × List Tri) :=
  stackAll zero (zoneMesh zero) b.zones

end B3d.Mesh
