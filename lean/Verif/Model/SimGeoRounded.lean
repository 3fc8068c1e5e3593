import Verif.Model.Sim
import Verif.Model.RoundedRays

/-!
# The geometric tests of the ray simulation in rounded arithmetic

`find_target.py` L51-63 and `simulation_loop.py` L179-189, L217-227 with the functions they call.
-/

namespace B3d.Sim

/-- `normal(pts[-1], pts[0], pts[1])`, `find_target.py` L60 and `simulation_loop.py` L187.  A vector of NaNs is replaced by an
arbitrary unit vector. -/
noncomputable def roundedNormal (A : Rounded.Arith) (pts : List (Vec3 ℝ)) : Vec3 ℝ :=
  match pts.getLast?, pts[0]?, pts[1]? with
  | some l, some p0, some p1 => (Rounded.normal A l p0 p1).getD ⟨1, 0, 0⟩
  | _, _, _ => ⟨1, 0, 0⟩

open Classical in
/-- What the simulation loop asks about the polygons, `find_target.py` L55-63 and `simulation_loop.py` L179-189: the points
and triangles of a polygon are those of the polygons of the building (`get_polygon_points_and_faces`, C14), the tolerance is
`atol=1e-3` (L180).  Numbers that no polygon has do not occur.  An exception or an infinite distance is replaced by `false`
and `0`; in the theorems the distance is proved to be a number, or a distance of 0 makes the statement stronger. -/
noncomputable def geoRounded (A : Rounded.Arith) (Ps : List (List (Vec3 ℝ) × List Triangles.Tri)) : Geo ℝ where
  hit p v k :=
    match Ps[k]? with
    | none => false
    | some Q => decide (Rounded.isPointInsideProjection A (1 / 1000) p v Q.1 Q.2 = .ok true)
  dist p k :=
    match Ps[k]? with
    | none => 0
    | some Q =>
      match Rounded.distancePointToPolygon A p Q.1 Q.2 with
      | .ok (some r) => r
      | _ => 0
  vn k :=
    match Ps[k]? with
    | none => ⟨1, 0, 0⟩
    | some Q => roundedNormal A Q.1

end B3d.Sim
