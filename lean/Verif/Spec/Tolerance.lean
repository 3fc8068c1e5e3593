import Verif.Model.Vec3

/-!
# Nearness of numbers and points

`Within a r x y`: the number `x` differs from the reference `y` by at most `a` plus the fraction `r` of the size of `y`.
-/

namespace B3d.Spec

variable {K : Type} [Field K] [LinearOrder K]

/-- `x` differs from the reference `y` by at most `a` plus `r` times the size of `y`. -/
def Within (a r x y : K) : Prop := |x - y| ≤ a + r * |y|

/-- The same for each coordinate of two points. -/
def WithinPt (a r : K) (p q : Vec3 K) : Prop := Within a r p.x q.x ∧ Within a r p.y q.y ∧ Within a r p.z q.z

end B3d.Spec
