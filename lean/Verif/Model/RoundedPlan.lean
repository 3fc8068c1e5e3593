import Verif.Model.RoundedRotation
import Verif.Model.Solids

/-!
# The points of a floor plan in rounded arithmetic

Where `floor_plan` (`building3d/geom/solid/floor_plan.py` L62-84) puts the corners of floor and ceiling, and which corners of a wall it
takes for those on the floor (L125-128), with every arithmetic operation replaced by a rounded one, as in `Verif/Model/Rounded.lean`.
-/

namespace B3d.RotationRounded

open Rounded

variable (A : Arith) (S : Sine)

open Classical in
/-- Rotation of the points of floor or ceiling, `building3d/geom/solid/floor_plan.py` L45-46, L66-76. -/
noncomputable def planRotate (pts : List (Vec3 ℝ)) (rotAngle : ℝ) : Except PyErr (List (Vec3 ℝ)) :=
  if ¬ Rounded.isClose A rotAngle 0 NP_RTOL NP_ATOL then
    match rotatePointsAroundVector A S pts ⟨0, 0, 1⟩ rotAngle with
    | .error e => .error e
    | .ok (pts, _) => .ok pts
  else .ok pts

/-- `p + translate`, `building3d/geom/solid/floor_plan.py` L80-81. -/
def addv (p t : Vec3 ℝ) : Vec3 ℝ := ⟨A.add p.x t.x, A.add p.y t.y, A.add p.z t.z⟩

open Classical in
/-- The translation, `building3d/geom/solid/floor_plan.py` L78-84; the last result is `z0`. -/
noncomputable def planTranslate (floor ceiling : List (Vec3 ℝ)) (translate : Vec3 ℝ) : List (Vec3 ℝ) × List (Vec3 ℝ) × ℝ :=
  if ¬ Rounded.allClose A translate ⟨0, 0, 0⟩ NP_RTOL NP_ATOL then
    (floor.map fun p => addv A p translate, ceiling.map fun p => addv A p translate, translate.z)
  else (floor, ceiling, 0)

/-- The corners of floor and ceiling and `z0`, `building3d/geom/solid/floor_plan.py` L59-84. -/
noncomputable def planPoints (plan : List (ℝ × ℝ)) (height : ℝ) (translate : Vec3 ℝ) (rotAngle : ℝ) :
    Except PyErr (List (Vec3 ℝ) × List (Vec3 ℝ) × ℝ) :=
  if plan = [] then .error .valueError
  else
    match planRotate A S (plan.map fun p => ⟨p.1, p.2, 0⟩) rotAngle,
        planRotate A S (plan.map fun p => ⟨p.1, p.2, height⟩) rotAngle with
    | .ok floor, .ok ceiling => .ok (planTranslate A floor ceiling translate)
    | .error e, _ => .error e
    | _, .error e => .error e

open Classical in
/-- `wall_z0_pts`, `building3d/geom/solid/floor_plan.py` L125-130: the corners of a wall whose height is exactly `z0`. -/
noncomputable def bottom (wPts : List (Vec3 ℝ)) (z0 : ℝ) : List (Vec3 ℝ) := wPts.filter fun p => decide (p.z = z0)

/-- `is_point_in_array`, `building3d/geom/points/__init__.py` L26-36. -/
noncomputable def isPointInArray (p : Vec3 ℝ) (arr : List (Vec3 ℝ)) : Bool := arr.any fun q => Rounded.pointsEqual A p q

/-- The loop over the floor points, `building3d/geom/solid/floor_plan.py` L132-147. -/
noncomputable def adjacentLoop (wallPts : List (Vec3 ℝ)) : List (Vec3 ℝ × Nat) → List (Vec3 ℝ) → Option Nat → List (Vec3 ℝ)
  | [], adj, _ => adj
  | (p, i) :: rest, adj, prev =>
    let (adj, prev) :=
      if isPointInArray A p wallPts then
        match prev with
        | none => (adj ++ [p], some i)
        | some j => if (j : Int) ≠ (i : Int) - 1 then ((adj ++ [p]).reverse, prev) else (adj ++ [p], prev)
      else (adj, prev)
    if adj.length = 2 then adj else adjacentLoop wallPts rest adj prev

/-- The test of the direction of a wall, `building3d/geom/solid/floor_plan.py` L125-152: whether the wall is kept as it is.  Too few
points are an `IndexError`. -/
noncomputable def directionOk (wPts fPts : List (Vec3 ℝ)) (z0 : ℝ) : Except PyErr Bool :=
  let wallPts := bottom wPts z0
  let adj := adjacentLoop A wallPts fPts.zipIdx [] none
  match wallPts[0]?, adj[1]? with
  | some w0, some a1 =>
    if Rounded.pointsEqual A w0 a1 then
      match wallPts[1]?, adj[0]? with
      | some w1, some a0 => .ok (Rounded.pointsEqual A w1 a0)
      | _, _ => .error .indexError
    else .ok false
  | _, _ => .error .indexError

open Classical in
/-- The polygon of floor or ceiling, `building3d/geom/solid/floor_plan.py` L104-112: points, normal and triangles.  If the normal is not
close to `want`, the polygon is flipped (`building3d/geom/polygon/__init__.py` L133-142).  Names are left out. -/
noncomputable def levelPolygon (pts : List (Vec3 ℝ)) (want : Vec3 ℝ) : Except PyErr (List (Vec3 ℝ) × Vec3 ℝ × List Triangles.Tri) :=
  match Rounded.polygonNew A pts with
  | .error e => .error e
  | .ok (q, v, tri) =>
    if ¬ Rounded.allClose A v want NP_RTOL NP_ATOL then Rounded.polygonNew A q.reverse else .ok (q, v, tri)

end B3d.RotationRounded
