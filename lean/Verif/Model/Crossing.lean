import Verif.Model.PointInPolygon
import Verif.Model.Intersect

/-!
# Polygons crossing, touching, and adjacent solids

`building3d/geom/polygon/crossing.py`, `building3d/geom/polygon/touching.py`, `__eq__` of
`building3d/geom/polygon/__init__.py`, and `is_adjacent_to_solid`, `has_correct_interface` of
`building3d/geom/solid/__init__.py`.  Exact reals.
-/

namespace B3d.Polygon

open Points
open Triangles (Tri)

/-- `for x in xs: if f(x): return True`, and `False` at the end. -/
def anyOk {α : Type} (f : α → Except PyErr Bool) : List α → Except PyErr Bool
  | [] => .ok false
  | x :: xs =>
    match f x with
    | .error e => .error e
    | .ok true => .ok true
    | .ok false => anyOk f xs

/-- `np.linspace(0, 1, n + 1)`. -/
noncomputable def linspace01 (n : Nat) : List ℝ := (List.range (n + 1)).map fun k => (k : ℝ) / (n : ℝ)

/-- The body of the loop over `np.linspace(0, 1, 10)`, `crossing.py` L60-65. -/
noncomputable def sampleCrossing (pts1 : List (Vec3 ℝ)) (tri1 : List Tri) (pts2 : List (Vec3 ℝ)) (tri2 : List Tri)
    (e1 e2 : Vec3 ℝ × Vec3 ℝ) (x : ℝ) : Except PyErr Bool :=
  match isPointInside (newPointBetween e1.1 e1.2 x) pts2 tri2 false with
  | .error e => .error e
  | .ok true => .ok true
  | .ok false => isPointInside (newPointBetween e2.1 e2.2 x) pts1 tri1 false

/-- The body of the loops over the edges in `are_polygons_crossing`, `crossing.py` L45-68. -/
noncomputable def pairCrossing (pts1 : List (Vec3 ℝ)) (tri1 : List Tri) (pts2 : List (Vec3 ℝ)) (tri2 : List Tri)
    (e1 e2 : Vec3 ℝ × Vec3 ℝ) : Except PyErr Bool :=
  if pointsEqual e1.1 e2.1 || pointsEqual e1.1 e2.2 || pointsEqual e1.2 e2.2 || pointsEqual e1.2 e2.1 then .ok false
  else
    match lineSegmentIntersection e1.1 e1.2 e2.1 e2.2 with
    | none => .ok false
    | some p =>
      match distancePointToEdge p e1.1 e1.2 with
      | .error e => .error e
      | .ok d1 =>
        if isClose d1 0 NP_RTOL NP_ATOL then
          anyOk (sampleCrossing pts1 tri1 pts2 tri2 e1 e2) (linspace01 9)
        else
          match distancePointToEdge p e2.1 e2.2 with
          | .error e => .error e
          | .ok d2 =>
            if isClose d2 0 NP_RTOL NP_ATOL then
              anyOk (sampleCrossing pts1 tri1 pts2 tri2 e1 e2) (linspace01 9)
            else .ok true

/-- `are_polygons_crossing`, `crossing.py` L23-69. -/
noncomputable def arePolygonsCrossing (pts1 : List (Vec3 ℝ)) (tri1 : List Tri) (pts2 : List (Vec3 ℝ))
    (tri2 : List Tri) : Except PyErr Bool :=
  match Bboxes.boundingBox pts1, Bboxes.boundingBox pts2 with
  | .ok bbox1, .ok bbox2 =>
    if Bboxes.areBboxesOverlapping bbox1 bbox2 = false then .ok false
    else if arePointsCoplanar (pts1 ++ pts2) = false then .ok false
    else
      match polygonEdges 0 pts1, polygonEdges 0 pts2 with
      | .ok edges1, .ok edges2 =>
        anyOk (fun e1 => anyOk (fun e2 => pairCrossing pts1 tri1 pts2 tri2 e1 e2) edges2) edges1
      | .error e, _ => .error e
      | _, .error e => .error e
  | .error e, _ => .error e
  | _, .error e => .error e

/-- `is_line_segment_crossing_polygon`, `crossing.py` L72-114.  With a normal of NaNs all comparisons are false and the
point of intersection has NaN coordinates, which is not coplanar with the polygon: the answer is `False`. -/
noncomputable def isSegmentCrossingPolygon (segStart segEnd : Vec3 ℝ) (pts : List (Vec3 ℝ)) (tri : List Tri)
    (epsilon : ℝ := 1 / 10 ^ 10) : Except PyErr Bool :=
  match planeCoefficients pts with
  | .error e => .error e
  | .ok none => .ok false
  | .ok (some (a, b, c, d)) =>
    let vn : Vec3 ℝ := ⟨a, b, c⟩
    let dir := segEnd - segStart
    if |Vec3.dot dir vn| < epsilon then .ok false
    else
      let t := -(a * segStart.x + b * segStart.y + c * segStart.z + d) / Vec3.dot dir vn
      if t < 0 ∨ t > 1 then .ok false
      else isPointInside (segStart + t • dir) pts tri true

/-- The loop over the vertices in `is_polygon_crossing_cube`, `crossing.py` L130-141. -/
noncomputable def vertexInCube (minXyz maxXyz : Vec3 ℝ) (eps : ℝ) : List (Vec3 ℝ) → Bool
  | [] => false
  | p :: rest =>
    if minXyz.x - eps ≤ p.x ∧ p.x ≤ maxXyz.x + eps ∧ minXyz.y - eps ≤ p.y ∧ p.y ≤ maxXyz.y + eps ∧
        minXyz.z - eps ≤ p.z ∧ p.z ≤ maxXyz.z + eps then true
    else vertexInCube minXyz maxXyz eps rest

/-- The three edges of a triangle, `crossing.py` L146-148. -/
def triangleEdges (pts : List (Vec3 ℝ)) (t : Tri) : Except PyErr (List (Vec3 ℝ × Vec3 ℝ)) :=
  match pts[t.1]?, pts[t.2.1]?, pts[t.2.2]? with
  | some a, some b, some c => .ok [(a, b), (b, c), (c, a)]
  | _, _, _ => .error .indexError

/-- `is_polygon_crossing_cube`, `crossing.py` L117-166. -/
noncomputable def isPolygonCrossingCube (pts : List (Vec3 ℝ)) (tri : List Tri) (minXyz maxXyz : Vec3 ℝ)
    (eps : ℝ := 1 / 1000) : Except PyErr Bool :=
  if vertexInCube minXyz maxXyz eps pts then .ok true
  else
    match anyOk (fun t =>
        match triangleEdges pts t with
        | .error e => .error e
        | .ok edges => anyOk (fun ed => anyOk (fun face =>
            isSegmentCrossingPolygon ed.1 ed.2 face [(0, 1, 2), (0, 2, 3)]) (Bboxes.cubePolygons minXyz maxXyz)) edges)
        tri with
    | .error e => .error e
    | .ok true => .ok true
    | .ok false =>
      anyOk (fun ed => isSegmentCrossingPolygon ed.1 ed.2 pts tri) (Bboxes.cubeEdges minXyz maxXyz)

/-- `are_all_points_same`, `touching.py` L77-105; the loops are those of `are_polygons_facing`. -/
noncomputable def areAllPointsSame (pts1 pts2 : List (Vec3 ℝ)) : Bool :=
  matchLoop (fun a b => pointsEqual a b) pts2.zipIdx pts1 [] 0 = pts1.length

/-- The loop of `check_poly_a_against_b`, `touching.py` L131-153; `prev` is `edge[0]`. -/
noncomputable def againstLoop (ptsA : List (Vec3 ℝ)) (triA : List Tri) :
    Vec3 ℝ → List (Vec3 ℝ) → Bool → Bool → Except PyErr (Bool × Bool)
  | _, [], bnd, ins => .ok (bnd, ins)
  | prev, p :: rest, bnd, ins =>
    match anyOk (fun x => isPointInside (newPointBetween prev p x) ptsA triA false) (linspace01 4) with
    | .error e => .error e
    | .ok middle =>
      match isPointAtBoundary p ptsA with
      | .error e => .error e
      | .ok at_ =>
        match isPointInside p ptsA triA false with
        | .error e => .error e
        | .ok inside => againstLoop ptsA triA p rest (bnd || at_) (ins || (middle || inside))

/-- `check_poly_a_against_b`, `touching.py` L108-155. -/
noncomputable def checkAgainst (ptsA : List (Vec3 ℝ)) (triA : List Tri) (ptsB : List (Vec3 ℝ)) :
    Except PyErr (Bool × Bool) :=
  match ptsB.getLast? with
  | none => .error .indexError
  | some l => againstLoop ptsA triA l ptsB false false

/-- `are_polygons_touching`, `touching.py` L13-52 (its own `are_bboxes_overlapping`, L55-74, is the same function as the
one in `bboxes.py`). -/
noncomputable def arePolygonsTouching (pts1 : List (Vec3 ℝ)) (tri1 : List Tri) (pts2 : List (Vec3 ℝ))
    (tri2 : List Tri) : Except PyErr Bool :=
  match Bboxes.boundingBox pts1, Bboxes.boundingBox pts2 with
  | .ok bbox1, .ok bbox2 =>
    if Bboxes.areBboxesOverlapping bbox1 bbox2 = false then .ok false
    else if areAllPointsSame pts1 pts2 then .ok false
    else
      match checkAgainst pts1 tri1 pts2 with
      | .error e => .error e
      | .ok (abTouch, abInside) =>
        match checkAgainst pts2 tri2 pts1 with
        | .error e => .error e
        | .ok (baTouch, baInside) =>
          if abInside || baInside then .ok false
          else if abTouch || baTouch then .ok true
          else .ok false
  | .error e, _ => .error e
  | _, .error e => .error e

/-- `Polygon.__eq__`, `polygon/__init__.py` L178-182.  Arrays of different lengths cannot be broadcast (`ValueError`),
except for one point against many, which no polygon has. -/
noncomputable def polygonEq (P Q : Poly) : Except PyErr Bool :=
  if P.pts.length = Q.pts.length then
    .ok ((List.zip P.pts Q.pts).all fun e => decide (allClose e.1 e.2 NP_RTOL NP_ATOL))
  else .error .valueError

/-- `are_polygons_facing` with the normals of two polygons; `np.allclose` is false for a normal of NaNs. -/
noncomputable def facing (P Q : Poly) : Except PyErr Bool :=
  match P.vn, Q.vn with
  | some v, some w => arePolygonsFacing P.pts v Q.pts w
  | _, _ => .ok false

end B3d.Polygon

namespace B3d.Solids

open Polygon

/-- `Solid.is_adjacent_to_solid`, `solid/__init__.py` L174-204. -/
noncomputable def isAdjacentToSolid (s sld : SolidG) : Except PyErr Bool :=
  anyOk (fun P => anyOk (fun Q =>
    match arePolygonsCrossing P.pts P.tri Q.pts Q.tri with
    | .error e => .error e
    | .ok true => .ok true
    | .ok false => facing P Q) (allPolys sld)) (allPolys s)

/-- `Solid.has_correct_interface`, `solid/__init__.py` L206-230. -/
noncomputable def hasCorrectInterface (s sld : SolidG) : Except PyErr Bool :=
  anyOk (fun P => anyOk (fun Q => facing P Q) (allPolys sld)) (allPolys s)

end B3d.Solids
