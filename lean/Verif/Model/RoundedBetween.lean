import Verif.Model.RoundedPoints

/-!
# Points between two points in rounded arithmetic

`new_point_between_2_points` and `many_new_points_between_2_points` (`building3d/geom/points/__init__.py` L189-239), with every
arithmetic operation replaced by a rounded one, as in `Verif/Model/Rounded.lean`.
-/

namespace B3d.Rounded

variable (A : Arith)

/-- `new_point_between_2_points` (`building3d/geom/points/__init__.py` L189-206): `pt1 * (1 - alpha) + pt2 * alpha` in every
coordinate. -/
def newPointBetween (pt1 pt2 : Vec3 ℝ) (relD : ℝ) : Vec3 ℝ :=
  ⟨A.add (A.mul pt1.x (A.sub 1 relD)) (A.mul pt2.x relD), A.add (A.mul pt1.y (A.sub 1 relD)) (A.mul pt2.y relD),
    A.add (A.mul pt1.z (A.sub 1 relD)) (A.mul pt2.z relD)⟩

/-- `many_new_points_between_2_points` (`building3d/geom/points/__init__.py` L209-239): `num + 2` rows, row 0 is `pt1`, row `i`
(for `1 ≤ i ≤ num`) divides the edge with `alpha = i / (num + 1)`, and the last row is overwritten with `pt2`. -/
def manyNewPointsBetween (pt1 pt2 : Vec3 ℝ) (num : Nat) : List (Vec3 ℝ) :=
  (List.range (num + 2)).map fun i =>
    if i = num + 1 then pt2
    else if i = 0 then pt1
    else newPointBetween A pt1 pt2 (A.div i (num + 1 : ℕ))

end B3d.Rounded
