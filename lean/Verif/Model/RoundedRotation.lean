import Verif.Model.Rounded
import Verif.Model.Rotation

/-!
# Rotation in rounded arithmetic

`rotation_matrix`, `rotate_points` and `rotate_points_around_vector` (`building3d/geom/rotation.py` L19-91), with every arithmetic
operation replaced by a rounded one, as in `Verif/Model/Rounded.lean`.
-/

namespace B3d.RotationRounded

open Rounded Rotation

/-- `np.sin` as used in `building3d/geom/rotation.py` L54, with an error of at most 1e-15. -/
structure Sine where
  sin : ℝ → ℝ
  err : ∀ x, |sin x - Real.sin x| ≤ 1 / 10 ^ 15

variable (A : Arith) (S : Sine)

/-- A row of `np.eye(3) + s * W + k * WW`, `building3d/geom/rotation.py` L54. -/
def row (e w ww : Vec3 ℝ) (s k : ℝ) : Vec3 ℝ :=
  ⟨A.add (A.add e.x (A.mul s w.x)) (A.mul k ww.x), A.add (A.add e.y (A.mul s w.y)) (A.mul k ww.y),
    A.add (A.add e.z (A.mul s w.z)) (A.mul k ww.z)⟩

/-- A row of a product of arrays, `np.dot(a, b)` and `pts.dot(R.T)`, `building3d/geom/rotation.py` L54 and L63: `t` is the
transposed second array. -/
def times (p : Vec3 ℝ) (t : Mat3) : Vec3 ℝ := ⟨A.dot p t.r0, A.dot p t.r1, A.dot p t.r2⟩

open Classical in
/-- `rotation_matrix`, `building3d/geom/rotation.py` L19-57.  `np.sin(phi / 2) ** 2` is a product. -/
noncomputable def rotationMatrix (u : Vec3 ℝ) (phi : ℝ) : Except PyErr Mat3 :=
  if Rounded.isClose A (A.norm u) 1 NP_RTOL NP_ATOL then
    let W : Mat3 := ⟨⟨0, -u.z, u.y⟩, ⟨u.z, 0, -u.x⟩, ⟨-u.y, u.x, 0⟩⟩
    let s := S.sin phi
    let h := S.sin (A.div phi 2)
    let k := A.mul 2 (A.mul h h)
    .ok ⟨row A ⟨1, 0, 0⟩ W.r0 (times A W.r0 W.transpose) s k, row A ⟨0, 1, 0⟩ W.r1 (times A W.r1 W.transpose) s k,
      row A ⟨0, 0, 1⟩ W.r2 (times A W.r2 W.transpose) s k⟩
  else .error .assertionError

/-- `rotate_points`, `building3d/geom/rotation.py` L60-63. -/
noncomputable def rotatePoints (pts : List (Vec3 ℝ)) (R : Mat3) : List (Vec3 ℝ) := pts.map fun p => times A p R

open Classical in
/-- `rotate_points_around_vector`, `building3d/geom/rotation.py` L66-91. -/
noncomputable def rotatePointsAroundVector (pts : List (Vec3 ℝ)) (u : Vec3 ℝ) (phi : ℝ) : Except PyErr (List (Vec3 ℝ) × Mat3) :=
  if A.norm u < A.lit GEOM_ATOL ∨ |phi| < A.lit GEOM_ATOL then .ok (pts, Mat3.ones)
  else
    match rotationMatrix A S u phi with
    | .error e => .error e
    | .ok R => .ok (rotatePoints A pts R, R)

end B3d.RotationRounded
