import Verif.Model.PyErr
import Verif.Model.Vec3
import Verif.Model.NumpyClose

/-!
# `building3d/geom/bboxes.py`
-/

namespace B3d.Bboxes

variable {K : Type} [Field K] [LinearOrder K]

/-- `np.min` of a one-dimensional array (`ValueError` if empty). -/
def npMin : List K → Except PyErr K
  | [] => .error .valueError
  | a :: t => .ok (t.foldl min a)

/-- `np.max` of a one-dimensional array (`ValueError` if empty). -/
def npMax : List K → Except PyErr K
  | [] => .error .valueError
  | a :: t => .ok (t.foldl max a)

/-- `bounding_box` (`building3d/geom/bboxes.py` L8-17). -/
def boundingBox (pts : List (Vec3 K)) : Except PyErr (Vec3 K × Vec3 K) := do
  let xmin ← npMin (pts.map (·.x))
  let xmax ← npMax (pts.map (·.x))
  let ymin ← npMin (pts.map (·.y))
  let ymax ← npMax (pts.map (·.y))
  let zmin ← npMin (pts.map (·.z))
  let zmax ← npMax (pts.map (·.z))
  return (⟨xmin, ymin, zmin⟩, ⟨xmax, ymax, zmax⟩)

/-- `(a < b).any()` for arrays of shape `(3,)`. -/
def anyLt (a b : Vec3 K) : Bool := a.x < b.x || a.y < b.y || a.z < b.z

/-- Adding the scalar `c` to an array of shape `(3,)`. -/
def addScalar (a : Vec3 K) (c : K) : Vec3 K := ⟨a.x + c, a.y + c, a.z + c⟩

/-- `is_point_inside_bbox` (`building3d/geom/bboxes.py` L20-29). -/
def isPointInsideBbox (ptest : Vec3 K) (pts : List (Vec3 K)) (atol : K := GEOM_ATOL) :
    Except PyErr Bool := do
  let bbox ← boundingBox pts
  if anyLt ptest (addScalar bbox.1 (-atol)) || anyLt (addScalar bbox.2 atol) ptest then
    return false
  else
    return true

/-- `are_bboxes_overlapping` (`building3d/geom/bboxes.py` L32-55). -/
def areBboxesOverlapping (bbox1 bbox2 : Vec3 K × Vec3 K) : Bool :=
  if anyLt bbox1.2 bbox2.1 || anyLt bbox2.2 bbox1.1 then false else true

/-- `cube_edges` (`building3d/geom/bboxes.py` L58-95). -/
def cubeEdges (p0 p1 : Vec3 K) : List (Vec3 K × Vec3 K) :=
  [ (⟨p0.x, p0.y, p0.z⟩, ⟨p1.x, p0.y, p0.z⟩),
    (⟨p0.x, p0.y, p0.z⟩, ⟨p0.x, p1.y, p0.z⟩),
    (⟨p0.x, p1.y, p0.z⟩, ⟨p1.x, p1.y, p0.z⟩),
    (⟨p1.x, p0.y, p0.z⟩, ⟨p1.x, p1.y, p0.z⟩),
    (⟨p0.x, p0.y, p1.z⟩, ⟨p1.x, p0.y, p1.z⟩),
    (⟨p0.x, p1.y, p1.z⟩, ⟨p1.x, p1.y, p1.z⟩),
    (⟨p0.x, p0.y, p1.z⟩, ⟨p0.x, p1.y, p1.z⟩),
    (⟨p1.x, p0.y, p1.z⟩, ⟨p1.x, p1.y, p1.z⟩),
    (⟨p0.x, p0.y, p0.z⟩, ⟨p0.x, p0.y, p1.z⟩),
    (⟨p1.x, p0.y, p0.z⟩, ⟨p1.x, p0.y, p1.z⟩),
    (⟨p0.x, p1.y, p0.z⟩, ⟨p0.x, p1.y, p1.z⟩),
    (⟨p1.x, p1.y, p0.z⟩, ⟨p1.x, p1.y, p1.z⟩) ]

/-- `cube_polygons` (`building3d/geom/bboxes.py` L98-156). -/
def cubePolygons (p0 p1 : Vec3 K) : List (List (Vec3 K)) :=
  [ [⟨p0.x, p0.y, p0.z⟩, ⟨p1.x, p0.y, p0.z⟩, ⟨p1.x, p1.y, p0.z⟩, ⟨p0.x, p1.y, p0.z⟩],
    [⟨p0.x, p1.y, p1.z⟩, ⟨p1.x, p1.y, p1.z⟩, ⟨p1.x, p0.y, p1.z⟩, ⟨p0.x, p0.y, p1.z⟩],
    [⟨p0.x, p0.y, p0.z⟩, ⟨p0.x, p1.y, p0.z⟩, ⟨p0.x, p1.y, p1.z⟩, ⟨p0.x, p0.y, p1.z⟩],
    [⟨p1.x, p0.y, p0.z⟩, ⟨p1.x, p1.y, p0.z⟩, ⟨p1.x, p1.y, p1.z⟩, ⟨p1.x, p0.y, p1.z⟩],
    [⟨p0.x, p0.y, p0.z⟩, ⟨p1.x, p0.y, p0.z⟩, ⟨p1.x, p0.y, p1.z⟩, ⟨p0.x, p0.y, p1.z⟩],
    [⟨p0.x, p1.y, p0.z⟩, ⟨p1.x, p1.y, p0.z⟩, ⟨p1.x, p1.y, p1.z⟩, ⟨p0.x, p1.y, p1.z⟩] ]

end B3d.Bboxes
