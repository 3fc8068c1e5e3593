import Verif.Model.Graph
import Verif.Model.Crossing

/-!
# The graphs of a building with the geometric tests of the code

`Verif.Model.Graph` takes the relations between two polygons as parameters.  Here they are the tests of
`polygon/facing.py`, `polygon/crossing.py`, `polygon/touching.py` and `bboxes.py`, applied to the polygons of the heap.
-/

namespace B3d.Hier

open Polygon Solids

variable {P : Type}

/-- The geometric attributes of the polygons by identity, `polygon/__init__.py` L55-90. -/
abbrev Polys := Nat → Poly

open Classical in
/-- `are_bboxes_overlapping(bounding_box(pl1.pts), bounding_box(pl2.pts))`, `graph.py` L59-62; no polygon is without
points. -/
noncomputable def boxesMeet (p q : Poly) : Bool :=
  match Bboxes.boundingBox p.pts, Bboxes.boundingBox q.pts with
  | .ok a, .ok b => Bboxes.areBboxesOverlapping a b
  | _, _ => false

open Classical in
/-- The relations in `graph_polygon`, `graph.py` L59-72: `is_facing_polygon`, `is_crossing_polygon`,
`is_touching_polygon` (`polygon/__init__.py` L112-131).  The tests raise no exception for polygons made by the constructor
(`C76_total`, `C77_total`, `C91_no_exception`), so that a Boolean loses nothing. -/
noncomputable def geoRels (poly : Polys) : Rels where
  bb i j := boxesMeet (poly i) (poly j)
  facing i j := decide (facing (poly i) (poly j) = .ok true)
  crossing i j := decide (arePolygonsCrossing (poly i).pts (poly i).tri (poly j).pts (poly j).tri = .ok true)
  touching i j := decide (arePolygonsTouching (poly i).pts (poly i).tri (poly j).pts (poly j).tri = .ok true)

/-- The walls of a solid of the heap with their polygons, `solid.walls` and `wall.polygons`
(`solid/__init__.py` L47-53, `wall/__init__.py` L41-49). -/
def solidAt (h : Heap P) (poly : Polys) (s : Nat) : SolidG :=
  match h[s]? with
  | none => []
  | some o => o.children.map fun kv =>
    ⟨kv.1, match h[kv.2]? with
      | none => []
      | some w => w.children.map fun e => (e.1, poly e.2)⟩

open Classical in
/-- `s.is_point_inside(p)` for a solid of the heap, `building/find_location.py` L32.  No exception is raised for solids of
polygons made by the constructor (`C74_total`). -/
noncomputable def geoInside (h : Heap P) (poly : Polys) (p : Vec3 ℝ) (s : Nat) : Bool :=
  decide (Solids.isPointInside (solidAt h poly s) p = .ok true)

end B3d.Hier
