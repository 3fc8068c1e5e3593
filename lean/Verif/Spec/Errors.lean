import Verif.Model.Vec3

/-!
# Specification vocabulary for arguments which are refused

Independent of the model.
-/

namespace B3d.Spec

/-- The first corner of an outline (between the last and the second point) is straight or thin: the cross product of its
sides is at most `10⁻⁸` long. -/
def FlatFirstCorner (pts : List (Vec3 ℝ)) : Prop :=
  ∃ l p0 p1, pts.getLast? = some l ∧ pts[0]? = some p0 ∧ pts[1]? = some p1 ∧
    Vec3.norm (Vec3.cross (p0 - l) (p1 - l)) ≤ 1 / 10 ^ 8

/-- A vector which is neither zero nor of length 1, up to the tolerances. -/
def BadNormal (v : Vec3 ℝ) : Prop := 1 / 10 ^ 8 < Vec3.norm v ∧ 1 / 10 ^ 13 ≤ |Vec3.norm v - 1|

end B3d.Spec
