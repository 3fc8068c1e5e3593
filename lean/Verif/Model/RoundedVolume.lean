import Verif.Model.Rounded
import Verif.Model.Solids

/-!
# Volumes in rounded arithmetic

`building3d/geom/tetrahedrons.py`, `Solid.volume` and `box`, with every arithmetic operation replaced by a rounded one, as in
`Verif/Model/Rounded.lean`.  The root of a negative number is NaN, which is the value `none` here; every sum with NaN is NaN.
-/

namespace B3d.Rounded

open Polygon Triangles

/-- Rounded arithmetic with square roots (`np.sqrt` of a number which is not negative). -/
structure RootArith extends Arith where
  sqrt : ℝ → ℝ
  sqrt_err : ∀ x, 0 ≤ x → |sqrt x - Real.sqrt x| ≤ 1 / 10 ^ 15 * Real.sqrt x

variable (A : RootArith)

/-- `x**2` with the constant exponent 2 is one product. -/
def sqr (A : Arith) (x : ℝ) : ℝ := A.mul x x

/-- The number under the root without `EPSILON`, `building3d/geom/tetrahedrons.py` L17-31.  Products and sums from the
left. -/
def nominator (A : Arith) (pt0 pt1 pt2 pt3 : Vec3 ℝ) : ℝ :=
  let a := A.norm (subv A pt1 pt0)
  let b := A.norm (subv A pt2 pt0)
  let c := A.norm (subv A pt3 pt0)
  let d := A.norm (subv A pt2 pt1)
  let e := A.norm (subv A pt3 pt2)
  let f := A.norm (subv A pt3 pt1)
  let x := A.sub (A.add (sqr A b) (sqr A c)) (sqr A e)
  let y := A.sub (A.add (sqr A a) (sqr A c)) (sqr A f)
  let z := A.sub (A.add (sqr A a) (sqr A b)) (sqr A d)
  A.add (A.sub (A.sub (A.sub (A.mul (A.mul (A.mul 4 (sqr A a)) (sqr A b)) (sqr A c)) (A.mul (sqr A a) (sqr A x)))
    (A.mul (sqr A b) (sqr A y))) (A.mul (sqr A c) (sqr A z))) (A.mul (A.mul x y) z)

open Classical in
/-- `tetrahedron_volume` (`building3d/geom/tetrahedrons.py` L9-34). -/
noncomputable def tetrahedronVolume (pt0 pt1 pt2 pt3 : Vec3 ℝ) : Option ℝ :=
  let s := A.add (nominator A.toArith pt0 pt1 pt2 pt3) (A.lit EPSILON)
  if s < 0 then none else some (A.div (A.sqrt s) 12)

open Classical in
/-- The sign of a tetrahedron, `building3d/geom/solid/__init__.py` L244-252. -/
noncomputable def tetraSign (A : Arith) (vn p1 p2 : Vec3 ℝ) : ℝ :=
  let pos := A.dot vn (subv A p1 0)
  let pos := if pos = 0 then A.dot vn (subv A p2 0) else pos
  if pos > 0 then 1 else -1

/-- The inner loop of `Solid.volume`, `solid/__init__.py` L237-254. -/
noncomputable def addTriangles (pts : List (Vec3 ℝ)) (vn : Vec3 ℝ) : List Tri → Option ℝ → Except PyErr (Option ℝ)
  | [], total => .ok total
  | (i, j, k) :: rest, total =>
    match pts[i]?, pts[j]?, pts[k]? with
    | some p1, some p2, some p3 =>
      addTriangles pts vn rest (match total, tetrahedronVolume A 0 p1 p2 p3 with
        | some t, some v => some (A.add t (A.mul (tetraSign A.toArith vn p1 p2) v))
        | _, _ => none)
    | _, _, _ => .error .indexError

/-- The outer loop of `Solid.volume`, `solid/__init__.py` L236-254; a polygon is its points, normal and triangles. -/
noncomputable def addPolygons : List (List (Vec3 ℝ) × Vec3 ℝ × List Tri) → Option ℝ → Except PyErr (Option ℝ)
  | [], total => .ok total
  | (pts, vn, tri) :: rest, total =>
    match addTriangles A pts vn tri total with
    | .error e => .error e
    | .ok total => addPolygons rest total

/-- `Solid.volume`, `solid/__init__.py` L231-255, for the list of the polygons of all walls. -/
noncomputable def solidVolume (polys : List (List (Vec3 ℝ) × Vec3 ℝ × List Tri)) : Except PyErr (Option ℝ) :=
  match addPolygons A polys (some 0) with
  | .error e => .error e
  | .ok total => .ok (total.map abs)

/-- The points `p0` ... `p7`, `building3d/geom/solid/box.py` L39-49. -/
def boxPoint (A : Arith) (x y z : ℝ) (mv : Vec3 ℝ) (i j k : ℝ) : Vec3 ℝ :=
  ⟨A.add (A.mul i x) mv.x, A.add (A.mul j y) mv.y, A.add (A.mul k z) mv.z⟩

/-- Outlines of the faces, `box.py` L51-56. -/
def boxFaces (A : Arith) (x y z : ℝ) (mv : Vec3 ℝ) : List (List (Vec3 ℝ)) :=
  let p0 := boxPoint A x y z mv 0 0 0
  let p1 := boxPoint A x y z mv 1 0 0
  let p2 := boxPoint A x y z mv 1 1 0
  let p3 := boxPoint A x y z mv 0 1 0
  let p4 := boxPoint A x y z mv 0 0 1
  let p5 := boxPoint A x y z mv 1 0 1
  let p6 := boxPoint A x y z mv 1 1 1
  let p7 := boxPoint A x y z mv 0 1 1
  [[p0, p3, p2, p1], [p0, p1, p5, p4], [p1, p2, p6, p5], [p3, p7, p6, p2], [p0, p4, p7, p3], [p4, p5, p6, p7]]

/-- `box`, `box.py` L10-69: the polygons in the order of the walls.  Names and walls are left out; they are in
`B3d.Solids.box`. -/
noncomputable def box (A : Arith) (x y z : ℝ) (mv : Vec3 ℝ) : Except PyErr (List (List (Vec3 ℝ) × Vec3 ℝ × List Tri)) :=
  Solids.mapExcept (polygonNew A) (boxFaces A x y z mv)

end B3d.Rounded
