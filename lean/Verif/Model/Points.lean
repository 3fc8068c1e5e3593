import Verif.Model.PyErr
import Verif.Model.Vec3
import Verif.Model.NumpyClose
import Verif.Model.PolygonBasic

/-!
# `building3d/geom/points/__init__.py` and `building3d/geom/points/distance.py`
-/

namespace B3d.Points

section
variable {K : Type} [Field K] [LinearOrder K]

/-- `points_equal` (`building3d/geom/points/__init__.py` L78-81): `np.allclose` with the absolute
tolerance `GEOM_ATOL` and NumPy's default relative tolerance `1e-5`, relative to the second
argument. -/
def pointsEqual (pt1 pt2 : Vec3 K) (atol : K := GEOM_ATOL) : Bool :=
  allClose pt1 pt2 NP_RTOL atol

/-- `is_point_in_array` (`building3d/geom/points/__init__.py` L26-35). -/
def isPointInArray (ptest : Vec3 K) (arr : List (Vec3 K)) : Bool :=
  arr.any fun p => pointsEqual ptest p

/-- `new_point_between_2_points` (`building3d/geom/points/__init__.py` L189-206). -/
def newPointBetween (pt1 pt2 : Vec3 K) (relD : K) : Vec3 K :=
  (1 - relD) • pt1 + relD • pt2

/-- `many_new_points_between_2_points` (`building3d/geom/points/__init__.py` L209-239): the array
has `num + 2` rows, row 0 is `pt1`, row `i` (for `1 ≤ i ≤ num`) divides the edge, and the last row
is overwritten with `pt2`. -/
def manyNewPointsBetween (pt1 pt2 : Vec3 K) (num : Nat) : List (Vec3 K) :=
  (List.range (num + 2)).map fun i =>
    if i = num + 1 then pt2
    else if i = 0 then pt1
    else (1 - (i : K) / ((num : K) + 1)) • pt1 + ((i : K) / ((num : K) + 1)) • pt2

/-- `is_point_on_segment` (`building3d/geom/points/__init__.py` L242-273). -/
def isPointOnSegment (ptest pt1 pt2 : Vec3 K) (atol : K := GEOM_ATOL) : Bool :=
  if allClose ptest pt1 NP_RTOL atol ∨ allClose ptest pt2 NP_RTOL atol then true
  else if ¬ allClose (Vec3.cross (ptest - pt1) (pt2 - pt1)) 0 NP_RTOL atol then false
  else
    let dotProduct := Vec3.dot (ptest - pt1) (pt2 - pt1)
    let squaredLength := Vec3.dot (pt2 - pt1) (pt2 - pt1)
    if dotProduct < -atol ∨ dotProduct > squaredLength + atol then false else true

end

/-- `distance_point_to_edge` (`building3d/geom/points/distance.py` L8-30), over the reals.  The
scalar division by `dot(v21, v21)` raises `ZeroDivisionError` under numba's default error model
when the edge is degenerate. -/
noncomputable def distancePointToEdge (ptest pt1 pt2 : Vec3 ℝ) : Except PyErr ℝ :=
  let v21 := pt2 - pt1
  let vt1 := ptest - pt1
  if Vec3.dot v21 v21 = 0 then .error .zeroDivisionError
  else
    let t := Vec3.dot vt1 v21 / Vec3.dot v21 v21
    if t < 0 then .ok (Vec3.norm (pt1 - ptest))
    else if t > 1 then .ok (Vec3.norm (pt2 - ptest))
    else .ok (Vec3.norm ((pt1 + t • v21) - ptest))

/-- Rows of the array `vectors` of `are_points_collinear`
(`building3d/geom/points/__init__.py` L164-173). -/
noncomputable def unitFrom (p0 p : Vec3 ℝ) : Vec3 ℝ :=
  let v := p - p0
  let length := Vec3.norm v
  if length > EPSILON then (1 / length) • v else 0

open Classical in
/-- The comparison loop of `are_points_collinear` (`building3d/geom/points/__init__.py`
L175-186): consecutive rows must be equal up to sign. -/
noncomputable def collinearLoop (atol : ℝ) : List (Vec3 ℝ) → Bool
  | a :: b :: t =>
    if allClose b a NP_RTOL atol ∨ allClose b ((-1 : ℝ) • a) NP_RTOL atol then
      collinearLoop atol (b :: t)
    else false
  | _ => true

/-- `are_points_collinear` (`building3d/geom/points/__init__.py` L147-186). -/
noncomputable def arePointsCollinear (pts : List (Vec3 ℝ)) (atol : ℝ := GEOM_ATOL) :
    Except PyErr Bool :=
  match pts with
  | p0 :: p1 :: p2 :: t =>
    .ok (collinearLoop atol ((p1 :: p2 :: t).map (unitFrom p0)))
  | _ => .error .assertionError

/-- The `while` loop of `are_points_coplanar` (`building3d/geom/points/__init__.py` L119-129): the
first three consecutive points with a (non-NaN) normal; `none` if there are none. -/
noncomputable def firstNormal : List (Vec3 ℝ) → Option (Vec3 ℝ)
  | a :: b :: c :: t =>
    match Polygon.normal a b c with
    | some vn => some vn
    | none => firstNormal (b :: c :: t)
  | _ => none

open Classical in
/-- `are_points_coplanar` (`building3d/geom/points/__init__.py` L98-144). -/
noncomputable def arePointsCoplanar (pts : List (Vec3 ℝ)) (atol : ℝ := GEOM_ATOL) : Bool :=
  match pts with
  | [] => true
  | refPt :: rest =>
    if rest.length + 1 ≤ 3 then true
    else
      match arePointsCollinear (refPt :: rest) atol with
      | .ok true => true
      | _ =>
        match firstNormal (refPt :: rest) with
        | none => true
        | some vn =>
          let d := -1 * Vec3.dot vn refPt
          (refPt :: rest).all fun p => decide (|d + Vec3.dot vn p| < atol)

end B3d.Points
