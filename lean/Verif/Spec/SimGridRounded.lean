import Verif.Model.SimGridRounded
import Verif.Spec.Sim

/-! # Specification vocabulary for the voxel grid in rounded arithmetic -/

namespace B3d.SimRounded

/-- The building has an ordinary size on an axis, from `lo` to `hi`: its coordinates are at most a million cells, the margin `eps`
is between a millionth of a cell and a cell, and the lower end less the margin is not within a millionth of a cell of a side of
a cell. -/
structure OrdinaryAxis (lo hi step eps : ℝ) : Prop where
  lo_le : |lo| ≤ 10 ^ 6 * step
  hi_le : |hi| ≤ 10 ^ 6 * step
  eps_ge : step / 10 ^ 6 ≤ eps
  eps_le : eps ≤ step
  start : ∀ n : ℤ, 1 / 10 ^ 6 ≤ |(lo - eps) / step - n|

/-- The same on all axes. -/
structure OrdinaryBox (lo hi : Vec3 ℝ) (step eps : ℝ) : Prop where
  x : OrdinaryAxis lo.x hi.x step eps
  y : OrdinaryAxis lo.y hi.y step eps
  z : OrdinaryAxis lo.z hi.z step eps

/-- Numbers that are not all in a gap between a cell and the next one: the upper side of a cell as it is calculated may be less
than the lower side of the next one. -/
def NoGap (A : Arith) (step : ℝ) (xs : List ℝ) : Prop :=
  ∀ n : ℤ, (∃ x ∈ xs, x ≤ A.add (A.mul (n - 1 : ℤ) step) step) ∨ ∃ x ∈ xs, A.mul n step ≤ x

/-- The polygon is not in a gap on any axis. -/
def NoGaps (A : Arith) (step : ℝ) (pts : List (Vec3 ℝ)) : Prop :=
  NoGap A step (pts.map Vec3.x) ∧ NoGap A step (pts.map Vec3.y) ∧ NoGap A step (pts.map Vec3.z)

end B3d.SimRounded
