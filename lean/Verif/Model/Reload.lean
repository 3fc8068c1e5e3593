import Verif.Model.PolygonObj
import Verif.Model.Solids

/-!
# Polygons read from a file

All readers hand the stored vertices and triangles to the constructor of `Polygon`, and no normal:
`building3d/io/b3d.py` L99-104, `building3d/io/dotbim.py` L176-181, `building3d/io/arrayformat.py` L128.
-/

namespace B3d.Polygon

open Triangles

/-- `Polygon(pts=..., tri=..., name=..., uid=...)` in the readers, `io/b3d.py` L99-104, `io/dotbim.py` L176-181,
`io/arrayformat.py` L128 (geometry only). -/
noncomputable def readPolygon (pts : List (Vec3 ℝ)) (tri : List Tri) : Except PyErr Poly := polygonNew pts (some tri) none

/-- What the constructor of `Polygon` answers to the readers: the exception it raises, if any.  This is the parameter `geom` of
the models of the readers (`Verif.Model.Files`, `Verif.Model.ArrayFormat`), `io/b3d.py` L99-104. -/
noncomputable def readOutcome (pts : List (Vec3 ℝ)) (tri : List Tri) : Option PyErr :=
  match readPolygon pts tri with
  | .ok _ => none
  | .error e => some e

end B3d.Polygon

namespace B3d.Solids

open Polygon

/-- One polygon of a wall, `io/b3d.py` L95-105: the stored vertices and triangles go to the constructor. -/
noncomputable def rereadPoly (p : Str × Poly) : Except PyErr (Str × Poly) :=
  match readPolygon p.2.pts p.2.tri with
  | .error e => .error e
  | .ok Q => .ok (p.1, Q)

/-- One wall, `io/b3d.py` L93-106. -/
noncomputable def rereadWall (w : WallG) : Except PyErr WallG :=
  match mapExcept rereadPoly w.polys with
  | .error e => .error e
  | .ok ps => .ok ⟨w.name, ps⟩

/-- A solid that is written to a file and read, `io/b3d.py` L64-76 with L90-107; the same with the other formats.  Geometry only:
the order of the entries, the names and their checks are in `Verif.Model.Files`. -/
noncomputable def rereadSolid (s : SolidG) : Except PyErr SolidG :=
  match mapExcept rereadWall s with
  | .error e => .error e
  | .ok walls => makeSolid walls

end B3d.Solids
