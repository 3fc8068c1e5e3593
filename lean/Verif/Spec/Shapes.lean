import Verif.Model.NumpyClose
import Verif.Model.Points
import Mathlib.Data.List.Rotate

/-!
# Specification vocabulary for polygons shared by rooms of any shape
-/

namespace B3d.Spec

/-- Two outlines with normals `v` and `w` are the two sides of one polygon: seen from behind, the same corners follow in
the opposite order, from whichever corner on. -/
def TwoSides (p : List (Vec3 ℝ)) (v : Vec3 ℝ) (q : List (Vec3 ℝ)) (w : Vec3 ℝ) : Prop :=
  q.IsRotated p.reverse ∧ w = -v

/-- The tolerances of `np.allclose` used for corners (`a` is the point looked for): a hundred thousandth of the coordinate. -/
def CloseCorners (a b : Vec3 ℝ) : Prop :=
  |a.x - b.x| ≤ 1 / 10 ^ 13 + 1 / 10 ^ 5 * |b.x| ∧ |a.y - b.y| ≤ 1 / 10 ^ 13 + 1 / 10 ^ 5 * |b.y| ∧
    |a.z - b.z| ≤ 1 / 10 ^ 13 + 1 / 10 ^ 5 * |b.z|

/-- The tolerances for normals: a millionth. -/
def CloseNormals (a b : Vec3 ℝ) : Prop :=
  |a.x - b.x| ≤ 1 / 10 ^ 8 + 1 / 10 ^ 6 * |b.x| ∧ |a.y - b.y| ≤ 1 / 10 ^ 8 + 1 / 10 ^ 6 * |b.y| ∧
    |a.z - b.z| ≤ 1 / 10 ^ 8 + 1 / 10 ^ 6 * |b.z|

/-- Two outlines which are clearly not the two sides of one polygon: the first has a corner that is away from all corners of
the second, or the normals are not opposite. -/
def Unlike (p : List (Vec3 ℝ)) (v : Vec3 ℝ) (q : List (Vec3 ℝ)) (w : Vec3 ℝ) : Prop :=
  (∃ a ∈ p, ∀ b ∈ q, ¬ CloseCorners a b) ∨ ¬ CloseNormals v (-w)

end B3d.Spec
