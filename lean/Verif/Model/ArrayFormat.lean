import Verif.Model.Mesh
import Mathlib.Data.List.Dedup
import Mathlib.Data.List.Sort

/-!
# The array format

`building3d/io/arrayformat.py`.  Arrays are lists of rows; `np.zeros` arrays start as lists of zeros.
-/

namespace B3d.ArrayFormat

open B3d.Triangles (Tri)
open B3d.Tree
open B3d.Mesh (setRow shiftTri)

variable {P : Type}

/-- `a[off : off + len(rows)] = rows` (numpy raises `ValueError` when the slice is shorter). -/
def setSlice {α : Type} (a : List α) (off : Nat) (rows : List α) : Except PyErr (List α) :=
  if off + rows.length ≤ a.length then .ok (a.take off ++ rows ++ a.drop (off + rows.length))
  else .error .valueError

/-- `for fi in range(off, off + n): a[fi] = v` (`io/arrayformat.py` L82-83). -/
def setRange {α : Type} (v : α) : Nat → Nat → List α → Except PyErr (List α)
  | _, 0, a => .ok a
  | off, n + 1, a =>
    match setRow a off v with
    | .error e => .error e
    | .ok a => setRange v (off + 1) n a

/-- The arrays and counters of `to_array_format` (`io/arrayformat.py` L42-55). -/
structure AState (P : Type) where
  points : List P
  faces : List Tri
  polygons : List Nat
  walls : List Nat
  solids : List Nat
  zones : List Nat
  pn : Nat
  wn : Nat
  sn : Nat
  zn : Nat
  ptOffset : Nat
  faceOffset : Nat
  deriving DecidableEq

/-- `for x in xs: ...` where the body may change the object `x` and the state, and may raise. -/
def forEach {X S : Type} (f : X → S → Except PyErr (X × S)) : List X → S → Except PyErr (List X × S)
  | [], s => .ok ([], s)
  | x :: xs, s =>
    match f x s with
    | .error e => .error e
    | .ok (x, s) =>
      match forEach f xs s with
      | .error e => .error e
      | .ok (xs, s) => .ok (x :: xs, s)

/-- Body of the loop over polygons, `io/arrayformat.py` L68-88. -/
def putPoly (p : Poly P) (st : AState P) : Except PyErr (Poly P × AState P) :=
  let p := { p with num := some st.pn }
  match setRow st.walls st.pn st.wn with
  | .error e => .error e
  | .ok walls =>
    match setSlice st.points st.ptOffset p.pts with
    | .error e => .error e
    | .ok points =>
      match setSlice st.faces st.faceOffset (p.tri.map (shiftTri st.ptOffset)) with
      | .error e => .error e
      | .ok faces =>
        match setRange st.pn st.faceOffset p.tri.length st.polygons with
        | .error e => .error e
        | .ok polygons =>
          .ok (p, { st with walls := walls, points := points, faces := faces, polygons := polygons,
                            ptOffset := st.ptOffset + p.pts.length,
                            faceOffset := st.faceOffset + p.tri.length, pn := st.pn + 1 })

/-- Body of the loop over walls, `io/arrayformat.py` L63-89. -/
def putWall (w : Wall P) (st : AState P) : Except PyErr (Wall P × AState P) :=
  match setRow st.solids st.wn st.sn with
  | .error e => .error e
  | .ok solids =>
    match forEach putPoly w.polygons { st with solids := solids } with
    | .error e => .error e
    | .ok (polygons, st') =>
      .ok ({ w with num := some st.wn, polygons := polygons }, { st' with wn := st'.wn + 1 })

/-- Body of the loop over solids, `io/arrayformat.py` L58-90. -/
def putSolid (s : Solid P) (st : AState P) : Except PyErr (Solid P × AState P) :=
  match setRow st.zones st.sn st.zn with
  | .error e => .error e
  | .ok zones =>
    match forEach putWall s.walls { st with zones := zones } with
    | .error e => .error e
    | .ok (walls, st') =>
      .ok ({ s with num := some st.sn, walls := walls }, { st' with sn := st'.sn + 1 })

/-- Body of the loop over zones, `io/arrayformat.py` L56-91. -/
def putZone (z : Zone P) (st : AState P) : Except PyErr (Zone P × AState P) :=
  match forEach putSolid z.solids st with
  | .error e => .error e
  | .ok (solids, st') =>
    .ok ({ z with num := some st.zn, solids := solids }, { st' with zn := st'.zn + 1 })

/-- `count_objects`, `io/arrayformat.py` L153-174: zones, solids, walls, polygons, faces, points. -/
def countObjects (b : Bldg P) : Nat × Nat × Nat × Nat × Nat × Nat :=
  b.zones.foldl (fun c z =>
    z.solids.foldl (fun c s =>
      s.walls.foldl (fun c w =>
        w.polygons.foldl (fun c p =>
            (c.1, c.2.1, c.2.2.1, c.2.2.2.1 + 1, c.2.2.2.2.1 + p.tri.length,
              c.2.2.2.2.2 + p.pts.length))
          (c.1, c.2.1, c.2.2.1 + 1, c.2.2.2))
        (c.1, c.2.1 + 1, c.2.2))
      (c.1 + 1, c.2)) (0, 0, 0, 0, 0, 0)

/-- `to_array_format`, `io/arrayformat.py` L15-93: the building with the `num` attributes set, and
the six arrays (the counters of the loop are kept in the result of the model). -/
def toArrayFormat (zero : P) (b : Bldg P) : Except PyErr (Bldg P × AState P) :=
  let (_, numSolids, numWalls, numPolys, numFaces, numPts) := countObjects b
  match forEach putZone b.zones
      ⟨List.replicate numPts zero, List.replicate numFaces (0, 0, 0), List.replicate numFaces 0,
        List.replicate numPolys 0, List.replicate numWalls 0, List.replicate numSolids 0,
        0, 0, 0, 0, 0, 0⟩ with
  | .error e => .error e
  | .ok (zones, st) => .ok ({ b with zones := zones }, st)

/-! ### Reading -/

/-- `points[k]`, `faces[k]`: the compiled code does not check indices; the model answers
`IndexError`. -/
def rowAt {α : Type} (a : List α) (k : Nat) : Except PyErr α :=
  match a[k]? with
  | none => .error .indexError
  | some x => .ok x

/-- `recount[k]`, `io/arrayformat.py` L219-223: position of `k` in `pt_index`. -/
def recount (ptIndex : List Nat) (k : Nat) : Except PyErr Nat :=
  match ptIndex.zipIdx.lookup k with
  | none => .error .keyError
  | some n => .ok n

/-- One row of `poly_tri`, `io/arrayformat.py` L231-235. -/
def recountTri (ptIndex : List Nat) (t : Tri) : Except PyErr Tri :=
  match recount ptIndex t.1 with
  | .error e => .error e
  | .ok a =>
    match recount ptIndex t.2.1 with
    | .error e => .error e
    | .ok b =>
      match recount ptIndex t.2.2 with
      | .error e => .error e
      | .ok c => .ok (a, b, c)

/-- `tri_index`, `io/arrayformat.py` L194-198. -/
def triIndexOf (polygons : List Nat) (polyNum : Nat) : List Nat :=
  (polygons.zipIdx.filter fun e => e.1 = polyNum).map Prod.snd

/-- `pt_index`, `io/arrayformat.py` L200-207: the set of point numbers of the selected faces,
sorted. -/
def ptIndexOf (faces : List Tri) (triIndex : List Nat) : List Nat :=
  ((faces.zipIdx.filter fun e => e.2 ∈ triIndex).flatMap
    fun e => [e.1.1, e.1.2.1, e.1.2.2]).dedup.insertionSort (· ≤ ·)

/-- One row of `poly_tri` with the row of `faces` it comes from, `io/arrayformat.py` L231-235. -/
def polyTriRow (faces : List Tri) (ptIndex : List Nat) (i : Nat) : Except PyErr Tri :=
  match rowAt faces i with
  | .error e => .error e
  | .ok t => recountTri ptIndex t

/-- `get_polygon_points_and_faces`, `io/arrayformat.py` L177-237. -/
def getPolygonPointsAndFaces (points : List P) (faces : List Tri) (polygons : List Nat)
    (polyNum : Nat) : Except PyErr (List P × List Tri) :=
  let triIndex := triIndexOf polygons polyNum
  let ptIndex := ptIndexOf faces triIndex
  match ptIndex.mapM (rowAt points) with
  | .error e => .error e
  | .ok polyPts =>
    match triIndex.mapM (polyTriRow faces ptIndex) with
    | .error e => .error e
    | .ok polyTri => .ok (polyPts, polyTri)

/-- `Polygon(pts, name=name, uid=uid, tri=tri)` (`geom/polygon/__init__.py` L42-90): `geom` is the
outcome of the geometric part of the constructor (assertions on the points and triangles, normal,
centroid, area, plane), `none` when it does not raise. -/
def newPoly (geom : List P → List Tri → Option PyErr) (name uid : Str) (pts : List P)
    (tri : List Tri) : Except PyErr (Poly P) :=
  match geom pts tri with
  | some e => .error e
  | none =>
    match validateName name with
    | .error e => .error e
    | .ok name => .ok ⟨name, uid, pts, tri, none⟩

/-- The loop `for x in xs: self.add_...(x)` of the container constructors (`geom/wall/__init__.py`
L47-49, L71-81 and the same in `solid`, `zone`, `building`): raises when a name repeats. -/
def addAllNew {X : Type} (name : X → Str) : List X → List X → Except PyErr (List X)
  | done, [] => .ok done
  | done, x :: xs =>
    if name x ∈ done.map name then .error .geometryError else addAllNew name (done ++ [x]) xs

/-- `Wall(polygons, name, uid)`, `geom/wall/__init__.py` L20-49. -/
def newWall (name uid : Str) (polys : List (Poly P)) : Except PyErr (Wall P) :=
  match validateName name with
  | .error e => .error e
  | .ok name =>
    match addAllNew Poly.name [] polys with
    | .error e => .error e
    | .ok ps => .ok ⟨name, uid, ps, none⟩

/-- `Solid(walls, name, uid)`, `geom/solid/__init__.py` L27-53. -/
def newSolid (name uid : Str) (walls : List (Wall P)) : Except PyErr (Solid P) :=
  match validateName name with
  | .error e => .error e
  | .ok name =>
    match addAllNew Wall.name [] walls with
    | .error e => .error e
    | .ok ws => .ok ⟨name, uid, ws, none⟩

/-- `Zone(solids, name, uid)`, `geom/zone/__init__.py` L23-52. -/
def newZone (name uid : Str) (solids : List (Solid P)) : Except PyErr (Zone P) :=
  match validateName name with
  | .error e => .error e
  | .ok name =>
    match addAllNew Solid.name [] solids with
    | .error e => .error e
    | .ok ss => .ok ⟨name, uid, ss, none⟩

/-- `Building(zones, name, uid)`, `geom/building/__init__.py` L30-60. -/
def newBldg (name uid : Str) (zones : List (Zone P)) : Except PyErr (Bldg P) :=
  match validateName name with
  | .error e => .error e
  | .ok name =>
    match addAllNew Zone.name [] zones with
    | .error e => .error e
    | .ok zs => .ok ⟨name, uid, zs⟩

/-- `[x for i, x in enumerate(xs) if owner[i] == k]`. -/
def pick {X : Type} (owner : List Nat) (xs : List X) (k : Nat) : List X :=
  ((owner.zip xs).filter fun e => e.1 = k).map Prod.snd

/-- One polygon of `from_array_format`, `io/arrayformat.py` L127-128. -/
def readPoly (geom : List P → List Tri → Option PyErr) (name uid : Str) (points : List P)
    (faces : List Tri) (polygons : List Nat) (pi : Nat) : Except PyErr (Poly P) :=
  match getPolygonPointsAndFaces points faces polygons pi with
  | .error e => .error e
  | .ok (pts, tri) => newPoly geom name uid pts tri

/-- `from_array_format`, `io/arrayformat.py` L96-150.  `rname level i` and `ruid level i` are the
random names and uids given to the `i`-th polygon, wall, solid, zone (levels 0 to 3) and to the
building (level 4). -/
def fromArrayFormat (geom : List P → List Tri → Option PyErr) (rname ruid : Nat → Nat → Str)
    (points : List P) (faces : List Tri) (polygons walls solids zones : List Nat) :
    Except PyErr (Bldg P) :=
  match zones.max? with
  | none => .error .valueError
  | some zmax =>
    match (List.range walls.length).mapM fun pi =>
        readPoly geom (rname 0 pi) (ruid 0 pi) points faces polygons pi with
    | .error e => .error e
    | .ok polyObj =>
      match (List.range solids.length).mapM fun wi =>
          newWall (rname 1 wi) (ruid 1 wi) (pick walls polyObj wi) with
      | .error e => .error e
      | .ok wallObj =>
        match (List.range zones.length).mapM fun si =>
            newSolid (rname 2 si) (ruid 2 si) (pick solids wallObj si) with
        | .error e => .error e
        | .ok sldObj =>
          match (List.range (zmax + 1)).mapM fun zi =>
              newZone (rname 3 zi) (ruid 3 zi) (pick zones sldObj zi) with
          | .error e => .error e
          | .ok zoneObj => newBldg (rname 4 0) (ruid 4 0) zoneObj

end B3d.ArrayFormat
