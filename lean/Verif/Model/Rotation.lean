import Verif.Model.Points
import Verif.Model.PolygonBasic
import Mathlib.Analysis.SpecialFunctions.Trigonometric.Inverse

/-!
# Rotation

`building3d/geom/rotation.py`, `angle` of `building3d/geom/vectors.py`.  Exact reals.
-/

namespace B3d.Rotation

open B3d.Points (pointsEqual)
open B3d.Polygon (normal)

/-- A 3x3 array as its three rows. -/
@[ext]
structure Mat3 where
  r0 : Vec3 ℝ
  r1 : Vec3 ℝ
  r2 : Vec3 ℝ

/-- `np.eye(3)`. -/
def Mat3.one : Mat3 := ⟨⟨1, 0, 0⟩, ⟨0, 1, 0⟩, ⟨0, 0, 1⟩⟩
/-- `np.ones((3, 3))`. -/
def Mat3.ones : Mat3 := ⟨⟨1, 1, 1⟩, ⟨1, 1, 1⟩, ⟨1, 1, 1⟩⟩
/-- Sum of arrays. -/
def Mat3.add (a b : Mat3) : Mat3 := ⟨a.r0 + b.r0, a.r1 + b.r1, a.r2 + b.r2⟩
/-- Number times array. -/
def Mat3.smul (k : ℝ) (a : Mat3) : Mat3 := ⟨k • a.r0, k • a.r1, k • a.r2⟩
/-- `a.T`. -/
def Mat3.transpose (a : Mat3) : Mat3 :=
  ⟨⟨a.r0.x, a.r1.x, a.r2.x⟩, ⟨a.r0.y, a.r1.y, a.r2.y⟩, ⟨a.r0.z, a.r1.z, a.r2.z⟩⟩
/-- `p.dot(a)` for a row `p`. -/
def Mat3.vecMul (p : Vec3 ℝ) (a : Mat3) : Vec3 ℝ :=
  ⟨Vec3.dot p a.transpose.r0, Vec3.dot p a.transpose.r1, Vec3.dot p a.transpose.r2⟩
/-- `np.dot(a, b)`. -/
def Mat3.mul (a b : Mat3) : Mat3 := ⟨Mat3.vecMul a.r0 b, Mat3.vecMul a.r1 b, Mat3.vecMul a.r2 b⟩

/-- `rotation_matrix`, `geom/rotation.py` L19-57. -/
noncomputable def rotationMatrix (u : Vec3 ℝ) (phi : ℝ) : Except PyErr Mat3 :=
  if isClose (Vec3.norm u) 1 NP_RTOL NP_ATOL then
    let W : Mat3 := ⟨⟨0, -u.z, u.y⟩, ⟨u.z, 0, -u.x⟩, ⟨-u.y, u.x, 0⟩⟩
    .ok (Mat3.add (Mat3.add Mat3.one (Mat3.smul (Real.sin phi) W))
      (Mat3.smul (2 * Real.sin (phi / 2) ^ 2) (Mat3.mul W W)))
  else .error .assertionError

/-- `rotate_points`, `geom/rotation.py` L60-63. -/
noncomputable def rotatePoints (pts : List (Vec3 ℝ)) (R : Mat3) : List (Vec3 ℝ) :=
  pts.map fun p => Mat3.vecMul p R.transpose

/-- `rotate_points_around_vector`, `geom/rotation.py` L66-91. -/
noncomputable def rotatePointsAroundVector (pts : List (Vec3 ℝ)) (u : Vec3 ℝ) (phi : ℝ) :
    Except PyErr (List (Vec3 ℝ) × Mat3) :=
  if Vec3.norm u < GEOM_ATOL ∨ |phi| < GEOM_ATOL then .ok (pts, Mat3.ones)
  else
    match rotationMatrix u phi with
    | .error e => .error e
    | .ok R => .ok (rotatePoints pts R, R)

/-- `angle`, `geom/vectors.py` L30-46 (non-zero vectors; for a zero vector the code computes NaN). -/
noncomputable def angle (v1 v2 : Vec3 ℝ) : ℝ :=
  let d := Vec3.dot ((1 / Vec3.norm v1) • v1) ((1 / Vec3.norm v2) • v2)
  let d := if d > 1 then 1 else if d < -1 then -1 else d
  let rad := Real.arccos d
  if rad < 0 then 2 * Real.pi + rad else rad

/-- `rotate_points_to_plane`, `geom/rotation.py` L94-142.  A normal of NaNs ends in the assertion of
`rotation_matrix`; fewer than two points are an `IndexError` in the model (compiled code does not
check). -/
noncomputable def rotatePointsToPlane (pts : List (Vec3 ℝ)) (anchor u : Vec3 ℝ) (d : ℝ) :
    Except PyErr (List (Vec3 ℝ) × Vec3 ℝ × ℝ) :=
  match pts.getLast?, pts[0]?, pts[1]? with
  | some l, some p0, some p1 =>
    match normal l p0 p1 with
    | none => .error .assertionError
    | some pNorm =>
      let pts := if pointsEqual anchor ⟨0, 0, 0⟩ then pts else pts.map (· - anchor)
      let rotaxis := Vec3.cross pNorm u
      if |rotaxis.x| < GEOM_ATOL ∧ |rotaxis.y| < GEOM_ATOL ∧ |rotaxis.z| < GEOM_ATOL then
        .ok (pts, rotaxis, 0)
      else
        let rotaxis := (1 / Vec3.norm rotaxis) • rotaxis
        let phi := angle pNorm u
        match rotationMatrix rotaxis phi with
        | .error e => .error e
        | .ok R =>
          let pts := pts.map fun p => Mat3.vecMul p R.transpose
          let pts := if pointsEqual anchor ⟨0, 0, 0⟩ then pts else pts.map (· + anchor)
          .ok (pts.map (· + d • u), rotaxis, phi)
  | _, _, _ => .error .indexError

end B3d.Rotation
