import Verif.Model.RoundedVolume

/-!
# Triangle areas and polygon centroids in rounded arithmetic

`triangle_area`, `triangle_centroid` (`building3d/geom/triangles.py`) and `polygon_centroid`
(`building3d/geom/polygon/centroid.py`), with every arithmetic operation replaced by a rounded one, as in
`Verif/Model/Rounded.lean`.  The root of a negative number is NaN, which is the value `none` here.
-/

namespace B3d.Rounded

open Polygon Triangles

variable (A : RootArith)

/-- The number under the root without `EPSILON`, `building3d/geom/triangles.py` L24-32.  Products and sums from the left. -/
noncomputable def heron (A : Arith) (pt1 pt2 pt3 : Vec3 ℝ) : ℝ :=
  let a := A.norm (subv A pt2 pt1)
  let b := A.norm (subv A pt3 pt2)
  let c := A.norm (subv A pt3 pt1)
  let s := A.mul (1 / 2) (A.add (A.add a b) c)
  A.mul (A.mul (A.mul s (A.sub s a)) (A.sub s b)) (A.sub s c)

open Classical in
/-- `triangle_area` (`building3d/geom/triangles.py` L18-34). -/
noncomputable def triangleArea (pt1 pt2 pt3 : Vec3 ℝ) : Option ℝ :=
  let s := A.add (heron A.toArith pt1 pt2 pt3) (A.lit EPSILON)
  if s < 0 then none else some (A.sqrt s)

/-- `triangle_centroid` (`building3d/geom/triangles.py` L37-40). -/
def triangleCentroid (A : Arith) (pt1 pt2 pt3 : Vec3 ℝ) : Vec3 ℝ := divv A (addv A (addv A pt1 pt2) pt3) 3

/-- The two arrays filled by the first loop of `polygon_centroid` (`building3d/geom/polygon/centroid.py` L26-28). -/
noncomputable def centroidTerms (pts : List (Vec3 ℝ)) : List Tri → Except PyErr (List (Vec3 ℝ × Option ℝ))
  | [] => .ok []
  | (i, j, k) :: rest =>
    match pts[i]?, pts[j]?, pts[k]? with
    | some a, some b, some c =>
      match centroidTerms pts rest with
      | .ok l => .ok ((triangleCentroid A.toArith a b c, triangleArea A a b c) :: l)
      | .error e => .error e
    | _, _, _ => .error .indexError

/-- `poly_ctr += tri_ctr[i] * weights[i]`, `centroid.py` L32; with a weight that is NaN all three components are NaN. -/
def addTerm (A : Arith) (ctr : Option (Vec3 ℝ)) (t : Vec3 ℝ × Option ℝ) : Option (Vec3 ℝ) :=
  match ctr, t.2 with
  | some c, some w => some (addv A c ⟨A.mul t.1.x w, A.mul t.1.y w, A.mul t.1.z w⟩)
  | _, _ => none

/-- `polygon_centroid` (`building3d/geom/polygon/centroid.py` L10-34). -/
noncomputable def polygonCentroid (pts : List (Vec3 ℝ)) (tri : List Tri) : Except PyErr (Option (Vec3 ℝ)) :=
  if tri.length = 0 then .error .assertionError
  else
    match centroidTerms A pts tri with
    | .error e => .error e
    | .ok terms => .ok (terms.foldl (addTerm A.toArith) (some 0))

end B3d.Rounded
