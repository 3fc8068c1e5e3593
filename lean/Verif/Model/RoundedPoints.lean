import Verif.Model.Rounded
import Verif.Model.PointInPolygon

/-!
# Points and polygons in rounded arithmetic

`building3d/geom/polygon/ispointinside.py` L22-85 and what it calls, with every arithmetic operation replaced by a rounded
one, as in `Verif/Model/Rounded.lean`.  Only the default tolerances.
-/

namespace B3d.Rounded

open Polygon Triangles

variable (A : Arith)

open Classical in
/-- `is_point_inside_bbox` (`building3d/geom/bboxes.py` L20-29).  Smallest and largest are exact. -/
noncomputable def insideBbox (ptest : Vec3 ℝ) (pts : List (Vec3 ℝ)) (atol : ℝ) : Except PyErr Bool := do
  let bbox ← Bboxes.boundingBox pts
  let out (g : Vec3 ℝ → ℝ) : Prop := g ptest < A.sub (g bbox.1) (A.lit atol) ∨ A.add (g bbox.2) (A.lit atol) < g ptest
  return decide ¬ (out (·.x) ∨ out (·.y) ∨ out (·.z))

open Classical in
/-- `is_point_on_segment` (`building3d/geom/points/__init__.py` L242-273). -/
noncomputable def isPointOnSegment (ptest pt1 pt2 : Vec3 ℝ) : Bool :=
  if pointsEqual A ptest pt1 || pointsEqual A ptest pt2 then true
  else if ¬ allClose A (cross A (subv A ptest pt1) (subv A pt2 pt1)) 0 NP_RTOL GEOM_ATOL then false
  else
    let dotProduct := A.dot (subv A ptest pt1) (subv A pt2 pt1)
    let squaredLength := A.dot (subv A pt2 pt1) (subv A pt2 pt1)
    if dotProduct < -A.lit GEOM_ATOL ∨ dotProduct > A.add squaredLength (A.lit GEOM_ATOL) then false else true

/-- The loop of `is_point_at_boundary`, `ispointinside.py` L26-30. -/
noncomputable def boundaryLoop (ptest : Vec3 ℝ) : List (Vec3 ℝ × Vec3 ℝ) → Bool
  | [] => false
  | (pt1, pt2) :: rest => if isPointOnSegment A ptest pt1 pt2 then true else boundaryLoop ptest rest

/-- `is_point_at_boundary`, `ispointinside.py` L22-30. -/
noncomputable def isPointAtBoundary (ptest : Vec3 ℝ) (pts : List (Vec3 ℝ)) : Except PyErr Bool :=
  match polygonEdges 0 pts with
  | .error e => .error e
  | .ok edges => .ok (boundaryLoop A ptest edges)

/-- The loop over the triangles in `is_point_inside`, `ispointinside.py` L70-85. -/
noncomputable def triangleLoop (ptest : Vec3 ℝ) (pts : List (Vec3 ℝ)) (boundaryIn : Bool) : List Tri → Except PyErr Bool
  | [] => .ok false
  | (i, j, k) :: rest =>
    match pts[i]?, pts[j]?, pts[k]? with
    | some a, some b, some c =>
      match isPointInside A ptest a b c with
      | .error e => .error e
      | .ok true =>
        if boundaryIn then .ok true
        else
          match isPointAtBoundary A ptest pts with
          | .error e => .error e
          | .ok true => .ok false
          | .ok false => .ok true
      | .ok false => triangleLoop ptest pts boundaryIn rest
    | _, _, _ => .error .indexError

/-- `is_point_inside`, `ispointinside.py` L34-85. -/
noncomputable def pointInPolygon (ptest : Vec3 ℝ) (pts : List (Vec3 ℝ)) (tri : List Tri) (boundaryIn : Bool) :
    Except PyErr Bool :=
  match insideBbox A ptest pts (1 / 100) with
  | .error e => .error e
  | .ok false => .ok false
  | .ok true =>
    if arePointsCoplanar A (pts ++ [ptest]) = false then .ok false
    else triangleLoop A ptest pts boundaryIn tri

end B3d.Rounded
