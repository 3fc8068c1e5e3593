import Verif.Model.PolygonObj
import Verif.Model.Rotation
import Verif.Model.Wildcard

/-!
# Solids as lists of faces: volume, `box`, `floor_plan`

`building3d/geom/solid/__init__.py`, `solid/box.py`, `solid/floor_plan.py`, and the volumes of zones and
buildings.  Identity and parents of the objects are in `Verif.Model.Hierarchy`; here a wall is its name with
its named polygons, a solid its list of walls.  Exact reals.
-/

namespace B3d.Solids

open Triangles Polygon

/-- A wall: its name and `wall.polygons` in order of insertion, `wall/__init__.py` L41-49. -/
structure WallG where
  name : Str
  polys : List (Str × Poly)

/-- A solid: `solid.walls` in order of insertion, `solid/__init__.py` L47-53. -/
abbrev SolidG := List WallG

/-- `[p for w in self.children.values() for p in w.children.values()]`, `solid/__init__.py` L235. -/
def allPolys (s : SolidG) : List Poly := s.flatMap fun w => w.polys.map Prod.snd

/-- `Solid.bbox`, `solid/__init__.py` L121-123: the bounding box of the points of the mesh, which are the
points of all polygons one after the other (C13). -/
noncomputable def solidBbox (s : SolidG) : Except PyErr (Vec3 ℝ × Vec3 ℝ) :=
  Bboxes.boundingBox ((allPolys s).flatMap Poly.pts)

/-! ### Volume -/

/-- The sign of a tetrahedron, `solid/__init__.py` L244-252.  Comparisons with NaN are false. -/
noncomputable def tetraSign (vn : Option (Vec3 ℝ)) (p1 p2 : Vec3 ℝ) : ℝ :=
  match vn with
  | none => -1
  | some vn =>
    let pos := Vec3.dot vn (p1 - 0)
    let pos := if pos = 0 then Vec3.dot vn (p2 - 0) else pos
    if pos > 0 then 1 else -1

/-- The inner loop of `Solid.volume`, `solid/__init__.py` L237-254. -/
noncomputable def addTriangles (P : Poly) : List Tri → ℝ → Except PyErr ℝ
  | [], total => .ok total
  | (i, j, k) :: rest, total =>
    match P.pts[i]?, P.pts[j]?, P.pts[k]? with
    | some p1, some p2, some p3 =>
      addTriangles P rest (total + tetraSign P.vn p1 p2 * tetrahedronVolume 0 p1 p2 p3)
    | _, _, _ => .error .indexError

/-- The outer loop of `Solid.volume`, `solid/__init__.py` L236-254. -/
noncomputable def addPolygons : List Poly → ℝ → Except PyErr ℝ
  | [], total => .ok total
  | P :: rest, total =>
    match addTriangles P P.tri total with
    | .error e => .error e
    | .ok total => addPolygons rest total

/-- `Solid.volume`, `solid/__init__.py` L231-255. -/
noncomputable def solidVolume (s : SolidG) : Except PyErr ℝ :=
  match addPolygons (allPolys s) 0 with
  | .error e => .error e
  | .ok total => .ok |total|

/-- `Zone.volume`, `zone/__init__.py` L125-130; `volumes` are the volumes of its solids. -/
noncomputable def zoneVolume (volumes : List ℝ) : ℝ := volumes.foldl (· + ·) 0

/-- `Building.volume`, `building/__init__.py` L211-216; for each zone the volumes of its solids. -/
noncomputable def buildingVolume (zones : List (List ℝ)) : ℝ :=
  zones.foldl (fun v z => v + zoneVolume z) 0

/-! ### Constructors with names -/

/-- `Polygon(pts, name=name)`, `polygon/__init__.py` L42-90.  If both the points and the name are wrong, the
code may raise the other one of the two exceptions. -/
noncomputable def namedPolygon (pts : List (Vec3 ℝ)) (name : Str) : Except PyErr (Str × Poly) :=
  match validateName name with
  | .error e => .error e
  | .ok name =>
    match polygonNew pts none none with
    | .error e => .error e
    | .ok P => .ok (name, P)

/-- `Wall([poly], name=name)`, `wall/__init__.py` L20-49. -/
def oneWall (poly : Str × Poly) (name : Str) : Except PyErr WallG :=
  match validateName name with
  | .error e => .error e
  | .ok name => .ok ⟨name, [poly]⟩

/-- `Solid(walls)`, `solid/__init__.py` L27-53 with L75-81. -/
def makeSolid (walls : List WallG) : Except PyErr SolidG :=
  if (walls.map WallG.name).Nodup then .ok walls else .error .geometryError

/-- Constructing one after the other, stopping at the first exception. -/
def mapExcept {α β : Type} (f : α → Except PyErr β) : List α → Except PyErr (List β)
  | [] => .ok []
  | a :: l =>
    match f a with
    | .error e => .error e
    | .ok b =>
      match mapExcept f l with
      | .error e => .error e
      | .ok bs => .ok (b :: bs)

/-! ### box -/

/-- The points `p0` ... `p7`, `box.py` L39-49. -/
def boxPoint (x y z : ℝ) (mv : Vec3 ℝ) (i j k : ℝ) : Vec3 ℝ :=
  ⟨i * x + mv.x, j * y + mv.y, k * z + mv.z⟩

/-- Outlines and names of the faces, `box.py` L51-63: wall name, polygon name, points. -/
def boxFaces (x y z : ℝ) (mv : Vec3 ℝ) : List (Str × Str × List (Vec3 ℝ)) :=
  let p0 := boxPoint x y z mv 0 0 0
  let p1 := boxPoint x y z mv 1 0 0
  let p2 := boxPoint x y z mv 1 1 0
  let p3 := boxPoint x y z mv 0 1 0
  let p4 := boxPoint x y z mv 0 0 1
  let p5 := boxPoint x y z mv 1 0 1
  let p6 := boxPoint x y z mv 1 1 1
  let p7 := boxPoint x y z mv 0 1 1
  [("floor".toList, "floor".toList, [p0, p3, p2, p1]),
   ("wall_0".toList, "poly_0".toList, [p0, p1, p5, p4]),
   ("wall_1".toList, "poly_1".toList, [p1, p2, p6, p5]),
   ("wall_2".toList, "poly_2".toList, [p3, p7, p6, p2]),
   ("wall_3".toList, "poly_3".toList, [p0, p4, p7, p3]),
   ("ceiling".toList, "ceiling".toList, [p4, p5, p6, p7])]

/-- A wall with one polygon, `box.py` L51-63: wall name, polygon name, points. -/
noncomputable def faceWall (f : Str × Str × List (Vec3 ℝ)) : Except PyErr WallG :=
  match namedPolygon f.2.2 f.2.1 with
  | .error e => .error e
  | .ok P => oneWall P f.1

/-- `box`, `box.py` L10-69.  (All polygons are constructed before the walls; the walls cannot fail.) -/
noncomputable def box (x y z : ℝ) (mv : Vec3 ℝ) : Except PyErr SolidG :=
  match mapExcept faceWall (boxFaces x y z mv) with
  | .error e => .error e
  | .ok walls => makeSolid walls

/-! ### floor_plan -/

/-- The wall names, `floor_plan.py` L49-57. -/
def planNames (n : Nat) (wallNames : Option (List Str)) : Except PyErr (List Str) :=
  match wallNames with
  | none => .ok ((List.range n).map fun i => "wall-".toList ++ Wildcard.natStr i)
  | some names =>
    if names.length ≠ n then .error .valueError
    else if ¬ names.Nodup then .error .valueError
    else .ok names

/-- Rotation of the points of floor or ceiling, `floor_plan.py` L45-46, L66-76. -/
noncomputable def planRotate (pts : List (Vec3 ℝ)) (rotAngle : ℝ) : Except PyErr (List (Vec3 ℝ)) :=
  if ¬ isClose rotAngle 0 NP_RTOL NP_ATOL then
    match Rotation.rotatePointsAroundVector pts ⟨0, 0, 1⟩ rotAngle with
    | .error e => .error e
    | .ok (pts, _) => .ok pts
  else .ok pts

/-- The translation, `floor_plan.py` L78-84; the second result is `z0`. -/
noncomputable def planTranslate (floor ceiling : List (Vec3 ℝ)) (translate : Vec3 ℝ) :
    List (Vec3 ℝ) × List (Vec3 ℝ) × ℝ :=
  if ¬ allClose translate ⟨0, 0, 0⟩ NP_RTOL NP_ATOL then
    (floor.map (· + translate), ceiling.map (· + translate), translate.z)
  else (floor, ceiling, 0)

/-- The outlines of the side walls, `floor_plan.py` L88-99. -/
def sideOutlines (floor ceiling : List (Vec3 ℝ)) (n : Nat) : List (List (Vec3 ℝ)) :=
  (List.range n).map fun ths =>
    let nxt := if ths + 1 ≥ n then 0 else ths + 1
    [floor[ths]?.getD 0, floor[nxt]?.getD 0, ceiling[nxt]?.getD 0, ceiling[ths]?.getD 0]

/-- The polygon of floor or ceiling, `floor_plan.py` L104-112: flipped if its normal is not close to
`want`.  `flip()` is called without a name, so the new polygon is named `rnd` (`random_id()`). -/
noncomputable def levelPolygon (pts : List (Vec3 ℝ)) (name rnd : Str) (want : Vec3 ℝ) :
    Except PyErr (Str × Poly) :=
  match namedPolygon pts name with
  | .error e => .error e
  | .ok (name, P) =>
    if ¬ ∃ v, P.vn = some v ∧ allClose v want NP_RTOL NP_ATOL then
      match flip P with
      | .error e => .error e
      | .ok Q => .ok (rnd, Q)
    else .ok (name, P)

/-- The loop over the floor points, `floor_plan.py` L133-147. -/
noncomputable def adjacentLoop (wallPts : List (Vec3 ℝ)) :
    List (Vec3 ℝ × Nat) → List (Vec3 ℝ) → Option Nat → List (Vec3 ℝ)
  | [], adj, _ => adj
  | (p, i) :: rest, adj, prev =>
    let (adj, prev) :=
      if Points.isPointInArray p wallPts then
        match prev with
        | none => (adj ++ [p], some i)
        | some j => if (j : Int) ≠ (i : Int) - 1 then ((adj ++ [p]).reverse, prev) else (adj ++ [p], prev)
      else (adj, prev)
    if adj.length = 2 then adj else adjacentLoop wallPts rest adj prev

/-- The test of the direction of a wall, `floor_plan.py` L126-153: whether the wall is kept. -/
noncomputable def directionOk (wPts fPts : List (Vec3 ℝ)) (z0 : ℝ) : Except PyErr Bool :=
  let wallPts := wPts.filter fun p => decide (p.z = z0)
  let adj := adjacentLoop wallPts fPts.zipIdx [] none
  match wallPts[0]?, adj[1]? with
  | some w0, some a1 =>
    if Points.pointsEqual w0 a1 then
      match wallPts[1]?, adj[0]? with
      | some w1, some a0 => .ok (Points.pointsEqual w1 a0)
      | _, _ => .error .indexError
    else .ok false
  | _, _ => .error .indexError

/-- One pass of the loop over the walls, `floor_plan.py` L120-157. -/
noncomputable def fixWall (fPts : List (Vec3 ℝ)) (z0 : ℝ) (w : WallG) : Except PyErr WallG :=
  match w.polys with
  | (name, P) :: _ =>
    match directionOk P.pts fPts z0 with
    | .error e => .error e
    | .ok true => .ok w
    | .ok false =>
      match flip P with
      | .error e => .error e
      | .ok Q => .ok ⟨w.name, [(name, Q)]⟩
  | [] => .error .indexError

/-- The rest of `floor_plan` once the points and the names are known, `floor_plan.py` L86-166. -/
noncomputable def planSolid (floorPts ceilingPts : List (Vec3 ℝ)) (z0 : ℝ) (names : List Str)
    (floorName ceilingName rnd1 rnd2 : Str) : Except PyErr SolidG :=
  match mapExcept (fun f : List (Vec3 ℝ) × Str => faceWall (f.2, f.2, f.1))
      ((sideOutlines floorPts ceilingPts floorPts.length).zip names) with
  | .error e => .error e
  | .ok walls =>
    match levelPolygon floorPts floorName rnd1 ⟨0, 0, -1⟩ with
    | .error e => .error e
    | .ok floorPoly =>
      match levelPolygon ceilingPts ceilingName rnd2 ⟨0, 0, 1⟩ with
      | .error e => .error e
      | .ok ceilingPoly =>
        match oneWall floorPoly floorName with
        | .error e => .error e
        | .ok floor =>
          match oneWall ceilingPoly ceilingName with
          | .error e => .error e
          | .ok ceiling =>
            match mapExcept (fixWall floorPoly.2.pts z0) walls with
            | .error e => .error e
            | .ok walls => makeSolid (walls ++ [floor, ceiling])

/-- `floor_plan`, `floor_plan.py` L17-166.  `rnd1`, `rnd2` are the results of `random_id()` in the two calls
of `flip()`. -/
noncomputable def floorPlan (plan : List (ℝ × ℝ)) (height : ℝ) (translate : Vec3 ℝ) (rotAngle : ℝ)
    (wallNames : Option (List Str)) (floorName ceilingName rnd1 rnd2 : Str) : Except PyErr SolidG :=
  match planNames plan.length wallNames with
  | .error e => .error e
  | .ok names =>
    if plan = [] then .error .valueError
    else
      match planRotate (plan.map fun p => ⟨p.1, p.2, 0⟩) rotAngle,
          planRotate (plan.map fun p => ⟨p.1, p.2, height⟩) rotAngle with
      | .ok floor, .ok ceiling =>
        let (floor, ceiling, z0) := planTranslate floor ceiling translate
        planSolid floor ceiling z0 names floorName ceilingName rnd1 rnd2
      | .error e, _ => .error e
      | _, .error e => .error e

end B3d.Solids
