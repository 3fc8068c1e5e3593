import Verif.Model.Sim
import Verif.Model.PointInPolygon

/-!
# The geometric tests of the ray simulation

`find_target.py` L51-63 and `simulation_loop.py` L179-189, L217-227 with the functions they call.  Exact reals.
-/

namespace B3d.Sim

open Polygon

/-- `normal(pts[-1], pts[0], pts[1])`, `find_target.py` L60 and `simulation_loop.py` L187.  A vector of NaNs is
replaced by an arbitrary unit vector; theorems exclude this case. -/
noncomputable def polyNormal (Q : Poly) : Vec3 ℝ :=
  match Q.pts.getLast?, Q.pts[0]?, Q.pts[1]? with
  | some l, some o, some q => (normal l o q).getD ⟨1, 0, 0⟩
  | _, _, _ => ⟨1, 0, 0⟩

open Classical in
/-- What the simulation loop asks about the polygons, `find_target.py` L55-63 and `simulation_loop.py` L179-189: the
points and triangles of a polygon are those of the polygons of the building (`get_polygon_points_and_faces`, C14), the
tolerance is `atol=1e-3` (L180).  Numbers that no polygon has do not occur.  An exception (there is none for polygons
made by the constructor with a proper first corner, C72 and C73) or an infinite distance would be replaced by `false`
and `0`. -/
noncomputable def geoOf (Ps : List Poly) : Geo ℝ where
  hit p v k :=
    match Ps[k]? with
    | none => false
    | some Q => decide (isPointInsideProjection p v Q.pts Q.tri true (1 / 1000) = .ok true)
  dist p k :=
    match Ps[k]? with
    | none => 0
    | some Q =>
      match distancePointToPolygon p Q.pts Q.tri (polyNormal Q) with
      | .ok (some r) => r
      | _ => 0
  vn k :=
    match Ps[k]? with
    | none => ⟨1, 0, 0⟩
    | some Q => polyNormal Q

end B3d.Sim
