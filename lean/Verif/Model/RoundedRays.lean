import Verif.Model.RoundedPoints

/-!
# Rays, projections and distances in rounded arithmetic

`building3d/geom/polygon/plane.py`, `building3d/geom/polygon/ispointinside.py` L121-201,
`building3d/geom/polygon/distance.py` and `building3d/geom/points/distance.py` with every arithmetic operation replaced by
a rounded one, as in `Verif/Model/Rounded.lean`.
-/

namespace B3d.Rounded

open Polygon Triangles

variable (A : Arith)

open Classical in
/-- The comparison loop of `are_points_collinear` (`building3d/geom/points/__init__.py` L175-186) with the tolerance given
by the caller. -/
noncomputable def collinearLoopTol (atol : ℝ) : List (Vec3 ℝ) → Bool
  | a :: b :: t =>
    if allClose A b a NP_RTOL atol ∨ allClose A b (-a) NP_RTOL atol then collinearLoopTol atol (b :: t) else false
  | _ => true

/-- `are_points_collinear` (`building3d/geom/points/__init__.py` L147-186) with the tolerance given by the caller. -/
noncomputable def arePointsCollinearTol (atol : ℝ) (pts : List (Vec3 ℝ)) : Except PyErr Bool :=
  match pts with
  | p0 :: p1 :: p2 :: t => .ok (collinearLoopTol A atol ((p1 :: p2 :: t).map (unitFrom A p0)))
  | _ => .error .assertionError

open Classical in
/-- `are_points_coplanar` (`building3d/geom/points/__init__.py` L98-144) with the tolerance given by the caller. -/
noncomputable def arePointsCoplanarTol (atol : ℝ) (pts : List (Vec3 ℝ)) : Bool :=
  match pts with
  | [] => true
  | refPt :: rest =>
    if rest.length + 1 ≤ 3 then true
    else
      match arePointsCollinearTol A atol (refPt :: rest) with
      | .ok true => true
      | _ =>
        match firstNormal A (refPt :: rest) with
        | none => true
        | some vn =>
          let d := -A.dot vn refPt
          (refPt :: rest).all fun p => decide (|A.add d (A.dot vn p)| < A.lit atol)

/-- `is_point_inside`, `ispointinside.py` L34-85, with `boundary_in=True` and the tolerance given by the caller. -/
noncomputable def pointInPolygonTol (atol : ℝ) (ptest : Vec3 ℝ) (pts : List (Vec3 ℝ)) (tri : List Tri) :
    Except PyErr Bool :=
  match insideBbox A ptest pts (1 / 100) with
  | .error e => .error e
  | .ok false => .ok false
  | .ok true =>
    if arePointsCoplanarTol A atol (pts ++ [ptest]) = false then .ok false
    else triangleLoop A ptest pts true tri

/-- `projection_coefficients` (`building3d/geom/polygon/plane.py` L11-22): the coefficient `d`; the others are the
components of `vn`.  Multiplication by `-1` is exact. -/
def projectionCoefficient (pt vn : Vec3 ℝ) : ℝ := -A.dot vn pt

/-- `plane_coefficients` (`building3d/geom/polygon/plane.py` L26-33): the vector `(a, b, c)` and `d`.  `none`: NaN. -/
noncomputable def planeCoefficients (pts : List (Vec3 ℝ)) : Except PyErr (Option (Vec3 ℝ × ℝ)) :=
  match pts.getLast?, pts[0]?, pts[1]? with
  | some l, some p0, some p1 => .ok ((normal A l p0 p1).map fun vn => (vn, projectionCoefficient A p0 vn))
  | _, _, _ => .error .indexError

/-- A number times an array: `dist * vn` in `ispointinside.py` L147, `s * v` in L199. -/
def scale (s : ℝ) (v : Vec3 ℝ) : Vec3 ℝ := ⟨A.mul s v.x, A.mul s v.y, A.mul s v.z⟩

open Classical in
/-- `is_point_inside_ortho_projection`, `ispointinside.py` L122-152.  The normal is computed twice from the same points, so
the three assertions fail only if it is NaN. -/
noncomputable def isPointInsideOrtho (ptest : Vec3 ℝ) (pts : List (Vec3 ℝ)) (tri : List Tri) : Except PyErr Bool :=
  match planeCoefficients A pts with
  | .error e => .error e
  | .ok none => .error .assertionError
  | .ok (some (vn, d)) =>
    let dist := A.sub d (projectionCoefficient A ptest vn)
    pointInPolygonTol A GEOM_ATOL ptest (pts.map fun p => addv A p (scale A dist vn)) tri

open Classical in
/-- `is_point_inside_projection`, `ispointinside.py` L156-201, with `fwd_only=True`.  With a normal of NaNs the model stops
with `.ok false`, as the exact model does. -/
noncomputable def isPointInsideProjection (atol : ℝ) (ptest v : Vec3 ℝ) (pts : List (Vec3 ℝ)) (tri : List Tri) :
    Except PyErr Bool :=
  match planeCoefficients A pts with
  | .error e => .error e
  | .ok none => .ok false
  | .ok (some (n, d)) =>
    let denom := A.add (A.add (A.mul n.x v.x) (A.mul n.y v.y)) (A.mul n.z v.z)
    if |denom| < A.lit atol then pointInPolygonTol A atol ptest pts tri
    else
      let s := A.div (A.sub (A.sub (A.sub (-d) (A.mul n.x ptest.x)) (A.mul n.y ptest.y)) (A.mul n.z ptest.z)) denom
      if s < 0 then .ok false
      else pointInPolygonTol A atol (addv A ptest (scale A s v)) pts tri

open Classical in
/-- `distance_point_to_edge` (`building3d/geom/points/distance.py` L8-30).  The division raises `ZeroDivisionError` under
numba's default error model if the edge has no length. -/
noncomputable def distancePointToEdge (ptest pt1 pt2 : Vec3 ℝ) : Except PyErr ℝ :=
  let v21 := subv A pt2 pt1
  let vt1 := subv A ptest pt1
  if A.dot v21 v21 = 0 then .error .zeroDivisionError
  else
    let t := A.div (A.dot vt1 v21) (A.dot v21 v21)
    if t < 0 then .ok (A.norm (subv A pt1 ptest))
    else if t > 1 then .ok (A.norm (subv A pt2 ptest))
    else .ok (A.norm (subv A (addv A pt1 (scale A t v21)) ptest))

open Classical in
/-- The loop over the edges in `distance_point_to_polygon`, `distance.py` L50-54; `none` stands for `np.inf`. -/
noncomputable def edgeMin (ptest : Vec3 ℝ) : List (Vec3 ℝ × Vec3 ℝ) → Option ℝ → Except PyErr (Option ℝ)
  | [], m => .ok m
  | (pt1, pt2) :: rest, m =>
    match distancePointToEdge A ptest pt1 pt2 with
    | .error e => .error e
    | .ok d =>
      match m with
      | none => edgeMin ptest rest (some d)
      | some m => edgeMin ptest rest (some (if d < m then d else m))

/-- `distance_point_to_polygon`, `distance.py` L15-55, called with `vn = normal(pts[-1], pts[0], pts[1])` as in
`building3d/sim/rays/find_target.py` L60-63 and `simulation_loop.py` L187-188.  `none` stands for `np.inf`. -/
noncomputable def distancePointToPolygon (ptest : Vec3 ℝ) (pts : List (Vec3 ℝ)) (tri : List Tri) :
    Except PyErr (Option ℝ) :=
  match planeCoefficients A pts with
  | .error e => .error e
  | .ok none => .error .assertionError
  | .ok (some (vn, d)) =>
    let dist := A.div (A.add (A.dot vn ptest) d) (A.norm vn)
    match isPointInsideOrtho A ptest pts tri with
    | .error e => .error e
    | .ok true => .ok (some |dist|)
    | .ok false =>
      match polygonEdges 0 pts with
      | .error e => .error e
      | .ok edges => edgeMin A ptest edges none

end B3d.Rounded
