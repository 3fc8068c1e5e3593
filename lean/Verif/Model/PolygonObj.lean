import Verif.Model.Triangles
import Verif.Model.PolygonBasic

/-!
# Polygons as objects: constructor, flip, facing

`building3d/geom/polygon/__init__.py`, `building3d/geom/polygon/facing.py`.  Names and parents are in
`Verif.Model.Hierarchy`; here a polygon is its geometry.
-/

namespace B3d.Polygon

open Triangles

/-- The geometric attributes of a polygon, `polygon/__init__.py` L69-90.  `none` is a normal of NaNs and
what is computed from it. -/
structure Poly where
  pts : List (Vec3 ℝ)
  vn : Option (Vec3 ℝ)
  tri : List Tri
  ctr : Vec3 ℝ
  area : Option ℝ
  plane : Option (ℝ × ℝ × ℝ × ℝ)

/-- `self.vn`, `polygon/__init__.py` L75-78. -/
noncomputable def chooseNormal (pts : List (Vec3 ℝ)) (vn : Option (Vec3 ℝ)) :
    Except PyErr (Option (Vec3 ℝ)) :=
  match vn with
  | some v => .ok (some v)
  | none =>
    match pts.getLast?, pts[0]?, pts[1]? with
    | some l, some p0, some p1 => .ok (normal l p0 p1)
    | _, _, _ => .error .indexError

/-- `self.pts` and `self.tri`, `polygon/__init__.py` L80-84.  A normal of NaNs fails the assertion in
`is_corner_convex`.  `triangulate` needs at most `2 n + 2` passes (C21). -/
noncomputable def chooseTriangles (pts : List (Vec3 ℝ)) (tri : Option (List Tri)) (vn : Option (Vec3 ℝ)) :
    Except PyErr (List (Vec3 ℝ) × List Tri) :=
  match tri with
  | some t => if t.length > 0 then .ok (pts, t) else .error .assertionError
  | none =>
    match vn with
    | none => .error .assertionError
    | some v =>
      match triangulate (2 * pts.length + 2) pts v with
      | none => .error .runtimeError
      | some r => r

/-- `Polygon.__init__`, `polygon/__init__.py` L42-90 (geometry only). -/
noncomputable def polygonNew (pts : List (Vec3 ℝ)) (tri : Option (List Tri)) (vn : Option (Vec3 ℝ)) :
    Except PyErr Poly :=
  if Points.arePointsCoplanar pts = false then .error .assertionError
  else if ¬ 3 ≤ pts.length then .error .assertionError
  else
    match chooseNormal pts vn with
    | .error e => .error e
    | .ok v =>
      match chooseTriangles pts tri v with
      | .error e => .error e
      | .ok (pts, tri) =>
        match polygonCentroid pts tri with
        | .error e => .error e
        | .ok ctr =>
          match planeCoefficients pts with
          | .error e => .error e
          | .ok pc => .ok ⟨pts, v, tri, ctr, v.map (polygonArea pts), pc⟩

/-- `Polygon.flip`, `polygon/__init__.py` L133-142. -/
noncomputable def flip (p : Poly) : Except PyErr Poly := polygonNew p.pts.reverse none none

/-! ### Facing -/

section facing

variable {K : Type} [Field K] [LinearOrder K]

/-- The inner loop of `are_polygons_facing`, `facing.py` L56-61: the first number not in `matched` whose
point is equal to `p`. -/
def findMatch {α : Type} (eq : α → α → Bool) (p : α) (matched : List Nat) : List (α × Nat) → Option Nat
  | [] => none
  | (q, j) :: rest =>
    if ¬ j ∈ matched then
      if eq p q then some j else findMatch eq p matched rest
    else findMatch eq p matched rest

/-- The outer loop, `facing.py` L55-61; the result is `num_matching`. -/
def matchLoop {α : Type} (eq : α → α → Bool) (pts2 : List (α × Nat)) : List α → List Nat → Nat → Nat
  | [], _, num => num
  | p :: ps, matched, num =>
    match findMatch eq p matched pts2 with
    | some j => matchLoop eq pts2 ps (j :: matched) (num + 1)
    | none => matchLoop eq pts2 ps matched num

/-- `are_polygons_facing`, `facing.py` L13-65. -/
def arePolygonsFacing (pts1 : List (Vec3 K)) (vn1 : Vec3 K) (pts2 : List (Vec3 K)) (vn2 : Vec3 K) :
    Except PyErr Bool :=
  if ¬ allClose vn1 ((-1 : K) • vn2) GEOM_RTOL NP_ATOL then .ok false
  else
    match Bboxes.boundingBox pts1, Bboxes.boundingBox pts2 with
    | .ok bbox1, .ok bbox2 =>
      if Bboxes.areBboxesOverlapping bbox1 bbox2 = false then .ok false
      else if matchLoop (fun a b => Points.pointsEqual a b) pts2.zipIdx pts1 [] 0 = pts1.length then
        if isClose (polygonArea pts1 vn1) (polygonArea pts2 vn2) NP_RTOL NP_ATOL then .ok true
        else .ok false
      else .ok false
    | .error e, _ => .error e
    | _, .error e => .error e

end facing

end B3d.Polygon
