import Verif.Model.Solids
import Verif.Model.Bboxes

/-!
# Points and polygons: containment, projection, distance, points in solids

`building3d/geom/polygon/ispointinside.py`, `building3d/geom/polygon/distance.py`, the methods
`get_some_interior_point`, `is_point_inside`, `contains_polygon` of `building3d/geom/polygon/__init__.py`
and `is_point_inside`, `is_point_at_boundary` of `building3d/geom/solid/__init__.py`.  Exact reals.
-/

namespace B3d.Polygon

open Triangles

/-- The loop of `is_point_at_boundary`, `ispointinside.py` L26-30. -/
noncomputable def boundaryLoop (ptest : Vec3 ℝ) (atol : ℝ) : List (Vec3 ℝ × Vec3 ℝ) → Bool
  | [] => false
  | (pt1, pt2) :: rest =>
    if Points.isPointOnSegment ptest pt1 pt2 atol then true else boundaryLoop ptest atol rest

/-- `is_point_at_boundary`, `ispointinside.py` L22-30. -/
noncomputable def isPointAtBoundary (ptest : Vec3 ℝ) (pts : List (Vec3 ℝ)) (atol : ℝ := GEOM_ATOL) :
    Except PyErr Bool :=
  match polygonEdges 0 pts with
  | .error e => .error e
  | .ok edges => .ok (boundaryLoop ptest atol edges)

/-- The loop over the triangles in `is_point_inside`, `ispointinside.py` L70-85.  The test of a triangle
uses its own default tolerance. -/
noncomputable def triangleLoop (ptest : Vec3 ℝ) (pts : List (Vec3 ℝ)) (boundaryIn : Bool) (atol : ℝ) :
    List Tri → Except PyErr Bool
  | [] => .ok false
  | (i, j, k) :: rest =>
    match pts[i]?, pts[j]?, pts[k]? with
    | some a, some b, some c =>
      match Triangles.isPointInside ptest a b c with
      | .error e => .error e
      | .ok true =>
        if boundaryIn then .ok true
        else
          match isPointAtBoundary ptest pts atol with
          | .error e => .error e
          | .ok true => .ok false
          | .ok false => .ok true
      | .ok false => triangleLoop ptest pts boundaryIn atol rest
    | _, _, _ => .error .indexError

/-- `is_point_inside`, `ispointinside.py` L34-85. -/
noncomputable def isPointInside (ptest : Vec3 ℝ) (pts : List (Vec3 ℝ)) (tri : List Tri)
    (boundaryIn : Bool := true) (atol : ℝ := GEOM_ATOL) : Except PyErr Bool :=
  match Bboxes.isPointInsideBbox ptest pts (1 / 100) with
  | .error e => .error e
  | .ok false => .ok false
  | .ok true =>
    if Points.arePointsCoplanar (pts ++ [ptest]) atol = false then .ok false
    else triangleLoop ptest pts boundaryIn atol tri

/-- The loop of `is_point_inside_margin`, `ispointinside.py` L114-117. -/
noncomputable def marginLoop (ptest : Vec3 ℝ) (margin : ℝ) : List (Vec3 ℝ × Vec3 ℝ) → Except PyErr Bool
  | [] => .ok true
  | (pt1, pt2) :: rest =>
    match Points.distancePointToEdge ptest pt1 pt2 with
    | .error e => .error e
    | .ok d => if d < margin then .ok false else marginLoop ptest margin rest

/-- `is_point_inside_margin`, `ispointinside.py` L89-118. -/
noncomputable def isPointInsideMargin (ptest : Vec3 ℝ) (margin : ℝ) (pts : List (Vec3 ℝ)) (tri : List Tri) :
    Except PyErr Bool :=
  match isPointInside ptest pts tri with
  | .error e => .error e
  | .ok false => .ok false
  | .ok true =>
    match polygonEdges 0 pts with
    | .error e => .error e
    | .ok edges => marginLoop ptest margin edges

/-- `is_point_inside_ortho_projection`, `ispointinside.py` L122-152.  The normal is computed twice from the
same points, so the three assertions fail only if it is NaN. -/
noncomputable def isPointInsideOrtho (ptest : Vec3 ℝ) (pts : List (Vec3 ℝ)) (tri : List Tri) :
    Except PyErr Bool :=
  match planeCoefficients pts with
  | .error e => .error e
  | .ok none => .error .assertionError
  | .ok (some (a, b, c, d)) =>
    let vn : Vec3 ℝ := ⟨a, b, c⟩
    let (_, _, _, dp) := projectionCoefficients ptest vn
    let dist := d - dp
    isPointInside ptest (pts.map fun p => p + dist • vn) tri

/-- `is_point_inside_projection`, `ispointinside.py` L156-201.  With a normal of NaNs the comparisons are
false and the moved point has NaN coordinates, for which every triangle test is false or raises; the model
stops there with `.ok false`. -/
noncomputable def isPointInsideProjection (ptest v : Vec3 ℝ) (pts : List (Vec3 ℝ)) (tri : List Tri)
    (fwdOnly : Bool := true) (atol : ℝ := GEOM_ATOL) : Except PyErr Bool :=
  match planeCoefficients pts with
  | .error e => .error e
  | .ok none => .ok false
  | .ok (some (a, b, c, d)) =>
    let denom := a * v.x + b * v.y + c * v.z
    if |denom| < atol then isPointInside ptest pts tri true atol
    else
      let s := (-d - a * ptest.x - b * ptest.y - c * ptest.z) / denom
      if fwdOnly ∧ s < 0 then .ok false
      else isPointInside (ptest + s • v) pts tri true atol

/-- The loop over the edges in `distance_point_to_polygon`, `distance.py` L50-54; `none` stands for
`np.inf`. -/
noncomputable def edgeMin (ptest : Vec3 ℝ) : List (Vec3 ℝ × Vec3 ℝ) → Option ℝ → Except PyErr (Option ℝ)
  | [], m => .ok m
  | (pt1, pt2) :: rest, m =>
    match Points.distancePointToEdge ptest pt1 pt2 with
    | .error e => .error e
    | .ok d =>
      match m with
      | none => edgeMin ptest rest (some d)
      | some m => edgeMin ptest rest (some (if d < m then d else m))

/-- `distance_point_to_polygon`, `distance.py` L15-55.  `none` stands for `np.inf`. -/
noncomputable def distancePointToPolygon (ptest : Vec3 ℝ) (pts : List (Vec3 ℝ)) (tri : List Tri)
    (vn : Vec3 ℝ) : Except PyErr (Option ℝ) :=
  match planeCoefficients pts with
  | .error e => .error e
  | .ok none => .error .assertionError
  | .ok (some (_, _, _, d)) =>
    let dist := (Vec3.dot vn ptest + d) / Vec3.norm vn
    match isPointInsideOrtho ptest pts tri with
    | .error e => .error e
    | .ok true => .ok (some |dist|)
    | .ok false =>
      match polygonEdges 0 pts with
      | .error e => .error e
      | .ok edges => edgeMin ptest edges none

/-- `Polygon.get_some_interior_point`, `polygon/__init__.py` L144-153. -/
noncomputable def someInteriorPoint (P : Poly) : Except PyErr (Vec3 ℝ) :=
  match P.tri with
  | [] => .error .indexError
  | (i, j, k) :: _ =>
    match P.pts[i]?, P.pts[j]?, P.pts[k]? with
    | some a, some b, some c => .ok (triangleCentroid a b c)
    | _, _, _ => .error .indexError

/-- The loop of `Polygon.contains_polygon`, `polygon/__init__.py` L160-163. -/
noncomputable def containsLoop (P : Poly) (margin : ℝ) : List (Vec3 ℝ) → Except PyErr Bool
  | [] => .ok true
  | pt :: rest =>
    match isPointInsideMargin pt margin P.pts P.tri with
    | .error e => .error e
    | .ok false => .ok false
    | .ok true => containsLoop P margin rest

/-- `Polygon.contains_polygon`, `polygon/__init__.py` L158-163. -/
noncomputable def containsPolygon (P Q : Poly) (margin : ℝ := GEOM_ATOL) : Except PyErr Bool :=
  containsLoop P margin Q.pts

end B3d.Polygon

namespace B3d.Solids

open Polygon

/-- The direction of the ray, `solid/__init__.py` L147-148. -/
noncomputable def rayDir : Vec3 ℝ :=
  let vec : Vec3 ℝ := ⟨739 / 1000, 239 / 1000, 113 / 1000⟩
  (1 / Vec3.norm vec) • vec

/-- The counting loop, `solid/__init__.py` L150-155. -/
noncomputable def countCrossings (pt : Vec3 ℝ) : List Poly → Nat → Except PyErr Nat
  | [], n => .ok n
  | P :: rest, n =>
    match isPointInsideProjection pt rayDir P.pts P.tri with
    | .error e => .error e
    | .ok true => countCrossings pt rest (n + 1)
    | .ok false => countCrossings pt rest n

/-- The loop of `Solid.is_point_at_boundary`, `solid/__init__.py` L169-172. -/
noncomputable def boundaryPolys (pt : Vec3 ℝ) : List Poly → Except PyErr Bool
  | [] => .ok false
  | P :: rest =>
    match Polygon.isPointInside pt P.pts P.tri with
    | .error e => .error e
    | .ok true => .ok true
    | .ok false => boundaryPolys pt rest

/-- `Solid.is_point_at_boundary`, `solid/__init__.py` L166-172. -/
noncomputable def isPointAtBoundary (s : SolidG) (pt : Vec3 ℝ) : Except PyErr Bool :=
  boundaryPolys pt (allPolys s)

open Classical in
/-- `Solid.is_point_inside`, `solid/__init__.py` L125-164. -/
noncomputable def isPointInside (s : SolidG) (pt : Vec3 ℝ) : Except PyErr Bool :=
  match solidBbox s with
  | .error e => .error e
  | .ok (lo, hi) =>
    if pt.x > hi.x ∨ pt.y > hi.y ∨ pt.z > hi.z then .ok false
    else if pt.x < lo.x ∨ pt.y < lo.y ∨ pt.z < lo.z then .ok false
    else
      match countCrossings pt (allPolys s) 0 with
      | .error e => .error e
      | .ok n => if n % 2 = 1 then .ok true else isPointAtBoundary s pt

end B3d.Solids
