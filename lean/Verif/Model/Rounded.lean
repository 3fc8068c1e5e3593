import Verif.Model.PolygonObj

/-!
# The polygon constructor in rounded arithmetic

The rest of the model computes with exact numbers.  Here the functions that decide whether and how `Polygon` divides an
outline into triangles are written once more, with every arithmetic operation of the code replaced by a rounded one.  Of
the rounded operations only what the IEEE 754 standard and the usual error bounds promise is used: a relative error of at
most `1e-15` (one rounding of a 64-bit number is at most `1.2e-16` off), and a few exact identities.  Overflow and
underflow are left out, so the numbers must stay between about `1e-290` and `1e290` in size or be zero.
-/

namespace B3d.Rounded

open Polygon Triangles

/-- Rounded arithmetic on the numbers of type `FLOAT` (`building3d/geom/types.py` L8, 64-bit numbers), as a parameter.
`norm` is `np.linalg.norm` and `dot` is `np.dot` on arrays of shape `(3,)` (in which order they add is not fixed), `lit` is
the number stored for a decimal literal, `round8` is `np.round(x, 8)`. -/
structure Arith where
  add : ℝ → ℝ → ℝ
  sub : ℝ → ℝ → ℝ
  mul : ℝ → ℝ → ℝ
  div : ℝ → ℝ → ℝ
  norm : Vec3 ℝ → ℝ
  dot : Vec3 ℝ → Vec3 ℝ → ℝ
  lit : ℝ → ℝ
  round8 : ℝ → ℝ
  add_err : ∀ x y, |add x y - (x + y)| ≤ 1 / 10 ^ 15 * |x + y|
  sub_err : ∀ x y, |sub x y - (x - y)| ≤ 1 / 10 ^ 15 * |x - y|
  mul_err : ∀ x y, |mul x y - x * y| ≤ 1 / 10 ^ 15 * |x * y|
  div_err : ∀ x y, y ≠ 0 → |div x y - x / y| ≤ 1 / 10 ^ 15 * |x / y|
  norm_err : ∀ v, |norm v - Vec3.norm v| ≤ 8 / 10 ^ 15 * Vec3.norm v
  dot_err : ∀ v w, |dot v w - Vec3.dot v w| ≤ 4 / 10 ^ 15 * (|v.x * w.x| + |v.y * w.y| + |v.z * w.z|)
  lit_err : ∀ x, |lit x - x| ≤ 1 / 10 ^ 15 * |x|
  round8_err : ∀ x, |round8 x - x| ≤ 1 / (2 * 10 ^ 8) + 4 / 10 ^ 15 * |x|
  round8_mono : ∀ x y, x ≤ y → round8 x ≤ round8 y
  /-- adding a number that is not negative to a representable one does not make it smaller -/
  add_grow : ∀ x y, 0 ≤ y → round8 x ≤ add (round8 x) y
  sub_shrink : ∀ x y, 0 ≤ y → sub (round8 x) y ≤ round8 x
  /-- signs are exact -/
  sub_swap : ∀ x y, sub y x = -sub x y
  mul_neg : ∀ x y, mul x (-y) = -mul x y
  mul_comm : ∀ x y, mul x y = mul y x
  /-- products with zero do not change a sum -/
  dot_x : ∀ a w, dot ⟨a, 0, 0⟩ w = mul a w.x
  dot_y : ∀ a w, dot ⟨0, a, 0⟩ w = mul a w.y
  dot_z : ∀ a w, dot ⟨0, 0, a⟩ w = mul a w.z

variable (A : Arith)

/-- Difference of two arrays of shape `(3,)`, for instance `pt2 - pt1` in `building3d/geom/triangles.py` L66. -/
def subv (p q : Vec3 ℝ) : Vec3 ℝ := ⟨A.sub p.x q.x, A.sub p.y q.y, A.sub p.z q.z⟩

/-- An array divided by a number, for instance `vtest /= len_vtest` in `building3d/geom/triangles.py` L79. -/
def divv (v : Vec3 ℝ) (s : ℝ) : Vec3 ℝ := ⟨A.div v.x s, A.div v.y s, A.div v.z s⟩

/-- `np.cross` on arrays of shape `(3,)`, for instance in `building3d/geom/triangles.py` L66: each component is a
difference of two products. -/
def cross (v w : Vec3 ℝ) : Vec3 ℝ :=
  ⟨A.sub (A.mul v.y w.z) (A.mul v.z w.y), A.sub (A.mul v.z w.x) (A.mul v.x w.z), A.sub (A.mul v.x w.y) (A.mul v.y w.x)⟩

/-- `np.isclose(a, b, rtol, atol)` (NumPy) as used in `building3d/geom/triangles.py` L81. -/
def isClose (a b rtol atol : ℝ) : Prop := |A.sub a b| ≤ A.add (A.lit atol) (A.mul (A.lit rtol) |b|)

/-- `np.allclose` (NumPy) as used in `building3d/geom/points/__init__.py` L81. -/
def allClose (a b : Vec3 ℝ) (rtol atol : ℝ) : Prop :=
  isClose A a.x b.x rtol atol ∧ isClose A a.y b.y rtol atol ∧ isClose A a.z b.z rtol atol

open Classical in
/-- `points_equal` (`building3d/geom/points/__init__.py` L78-81). -/
noncomputable def pointsEqual (pt1 pt2 : Vec3 ℝ) : Bool := decide (allClose A pt1 pt2 NP_RTOL GEOM_ATOL)

open Classical in
/-- Rows of the array `vectors` of `are_points_collinear` (`building3d/geom/points/__init__.py` L164-173). -/
noncomputable def unitFrom (p0 p : Vec3 ℝ) : Vec3 ℝ :=
  let v := subv A p p0
  let length := A.norm v
  if length > A.lit EPSILON then divv A v length else 0

open Classical in
/-- The comparison loop of `are_points_collinear` (`building3d/geom/points/__init__.py` L175-186). -/
noncomputable def collinearLoop : List (Vec3 ℝ) → Bool
  | a :: b :: t =>
    if allClose A b a NP_RTOL GEOM_ATOL ∨ allClose A b (-a) NP_RTOL GEOM_ATOL then collinearLoop (b :: t) else false
  | _ => true

/-- `are_points_collinear` (`building3d/geom/points/__init__.py` L147-186). -/
noncomputable def arePointsCollinear (pts : List (Vec3 ℝ)) : Except PyErr Bool :=
  match pts with
  | p0 :: p1 :: p2 :: t => .ok (collinearLoop A ((p1 :: p2 :: t).map (unitFrom A p0)))
  | _ => .error .assertionError

open Classical in
/-- `normal` (`building3d/geom/vectors.py` L15-27).  `none`: an array of NaNs. -/
noncomputable def normal (pt0 pt1 pt2 : Vec3 ℝ) : Option (Vec3 ℝ) :=
  let vn := cross A (subv A pt1 pt0) (subv A pt2 pt0)
  let len := A.norm vn
  if isClose A len 0 NP_RTOL NP_ATOL then none else some (divv A vn len)

/-- The `while` loop of `are_points_coplanar` (`building3d/geom/points/__init__.py` L119-129). -/
noncomputable def firstNormal : List (Vec3 ℝ) → Option (Vec3 ℝ)
  | a :: b :: c :: t =>
    match normal A a b c with
    | some vn => some vn
    | none => firstNormal (b :: c :: t)
  | _ => none

open Classical in
/-- `are_points_coplanar` (`building3d/geom/points/__init__.py` L98-144).  Multiplication by `-1` is exact. -/
noncomputable def arePointsCoplanar (pts : List (Vec3 ℝ)) : Bool :=
  match pts with
  | [] => true
  | refPt :: rest =>
    if rest.length + 1 ≤ 3 then true
    else
      match arePointsCollinear A (refPt :: rest) with
      | .ok true => true
      | _ =>
        match firstNormal A (refPt :: rest) with
        | none => true
        | some vn =>
          let d := -A.dot vn refPt
          (refPt :: rest).all fun p => decide (|A.add d (A.dot vn p)| < A.lit GEOM_ATOL)

open Classical in
/-- `is_point_on_same_side` (`building3d/geom/triangles.py` L43-81). -/
noncomputable def isPointOnSameSide (pt1 pt2 ptest ptref : Vec3 ℝ) : Except PyErr Bool :=
  let vtest := cross A (subv A pt2 pt1) (subv A ptest pt1)
  let vref := cross A (subv A pt2 pt1) (subv A ptref pt1)
  let lenVtest := A.norm vtest
  let lenVref := A.norm vref
  if lenVref < A.lit GEOM_ATOL then .error .geometryError
  else if lenVtest < A.lit GEOM_ATOL then .ok false
  else .ok (decide (allClose A (divv A vtest lenVtest) (divv A vref lenVref) NP_RTOL GEOM_ATOL))

open Classical in
/-- The edge test inside the loop of `is_point_inside` (`building3d/geom/triangles.py` L113-130): `none` if `ptest` is not
collinear with the pair, otherwise the returned value. -/
noncomputable def edgeTest (ptest p0 p1 : Vec3 ℝ) : Option Bool :=
  match arePointsCollinear A [p0, p1, ptest] with
  | .ok true =>
    let out (g : Vec3 ℝ → ℝ) : Prop :=
      A.round8 (g ptest) > A.add (max (A.round8 (g p0)) (A.round8 (g p1))) (A.lit GEOM_ATOL) ∨
      A.round8 (g ptest) < A.sub (min (A.round8 (g p0)) (A.round8 (g p1))) (A.lit GEOM_ATOL)
    some (decide ¬ (out (·.x) ∨ out (·.y) ∨ out (·.z)))
  | _ => none

open Classical in
/-- `is_point_inside_bbox` (`building3d/geom/bboxes.py` L20-29) on the three corners of a triangle, with the tolerance
`1e-2` of `is_point_inside` (`building3d/geom/triangles.py` L101).  Smallest and largest are exact. -/
noncomputable def inBbox (ptest pt1 pt2 pt3 : Vec3 ℝ) : Bool :=
  let out (g : Vec3 ℝ → ℝ) : Prop :=
    g ptest < A.sub (min (min (g pt1) (g pt2)) (g pt3)) (A.lit (1 / 100)) ∨
    A.add (max (max (g pt1) (g pt2)) (g pt3)) (A.lit (1 / 100)) < g ptest
  decide ¬ (out (·.x) ∨ out (·.y) ∨ out (·.z))

/-- `is_point_inside` (`building3d/geom/triangles.py` L84-141). -/
noncomputable def isPointInside (ptest pt1 pt2 pt3 : Vec3 ℝ) : Except PyErr Bool := do
  if !inBbox A ptest pt1 pt2 pt3 then return false
  if pointsEqual A ptest pt1 || pointsEqual A ptest pt2 || pointsEqual A ptest pt3 then return true
  match edgeTest A ptest pt1 pt2 with
  | some r => return r
  | none =>
  match edgeTest A ptest pt2 pt3 with
  | some r => return r
  | none =>
  match edgeTest A ptest pt3 pt1 with
  | some r => return r
  | none =>
  let side1 ← isPointOnSameSide A pt1 pt2 ptest pt3
  let side2 ← isPointOnSameSide A pt2 pt3 ptest pt1
  let side3 ← isPointOnSameSide A pt3 pt1 ptest pt2
  return (side1 && side2 && side3)

open Classical in
/-- `is_corner_convex` (`building3d/geom/triangles.py` L144-190). -/
noncomputable def isCornerConvex (vn pt1 pt2 pt3 : Vec3 ℝ) : Except PyErr Bool :=
  if ¬ |A.sub (A.norm vn) 1| < A.lit GEOM_ATOL then .error .assertionError
  else
    let v1v2n := cross A (subv A pt2 pt1) (subv A pt3 pt2)
    let len := A.norm v1v2n
    if len < A.lit GEOM_ATOL then .ok false
    else .ok (decide (allClose A (divv A v1v2n len) vn GEOM_RTOL NP_ATOL))

open Classical in
/-- `triangulate` (`building3d/geom/triangles.py` L193-275): the loop of the exact model with the rounded tests. -/
noncomputable def triangulate (fuel : Nat) (pts : List (Vec3 ℝ)) (vn : Vec3 ℝ) :
    Option (Except PyErr (List (Vec3 ℝ) × List Tri)) :=
  triangulateTries (decide (isClose A (A.norm vn) 0 NP_RTOL NP_ATOL)) (isCornerConvex A vn) (isPointInside A) fuel 2 pts

/-- `Polygon.__init__` (`building3d/geom/polygon/__init__.py` L42-84), without given triangles and normal: points, normal
and triangles.  The area is `polygonArea` below;
centroid and plane coefficients (L86-90) are left out. -/
noncomputable def polygonNew (pts : List (Vec3 ℝ)) : Except PyErr (List (Vec3 ℝ) × Vec3 ℝ × List Tri) :=
  if arePointsCoplanar A pts = false then .error .assertionError
  else if ¬ 3 ≤ pts.length then .error .assertionError
  else
    match pts.getLast?, pts[0]?, pts[1]? with
    | some l, some p0, some p1 =>
      match normal A l p0 p1 with
      | none => .error .assertionError
      | some v =>
        match triangulate A (2 * pts.length + 2) pts v with
        | none => .error .runtimeError
        | some (.error e) => .error e
        | some (.ok (q, tri)) => .ok (q, v, tri)
    | _, _, _ => .error .indexError

/-- Sum of two arrays of shape `(3,)`: `total += ...` in `building3d/geom/polygon/area.py` L33. -/
def addv (p q : Vec3 ℝ) : Vec3 ℝ := ⟨A.add p.x q.x, A.add p.y q.y, A.add p.z q.z⟩

/-- The loop of `polygon_area` (`building3d/geom/polygon/area.py` L24-33). -/
def areaTotal (pts : List (Vec3 ℝ)) : Vec3 ℝ :=
  (List.range pts.length).foldl (fun total i =>
    match pts[i]?, (if i = pts.length - 1 then pts[0]? else pts[i + 1]?) with
    | some pt1, some pt2 => addv A total (cross A pt1 pt2)
    | _, _ => total) 0

/-- `polygon_area` (`building3d/geom/polygon/area.py` L9-38). -/
noncomputable def polygonArea (pts : List (Vec3 ℝ)) (vn : Vec3 ℝ) : ℝ :=
  if pts.length < 3 then 0 else |A.div (A.dot (areaTotal A pts) vn) 2|

end B3d.Rounded
