import Verif.Spec.Simple

/-!
# Specification vocabulary for outlines drawn in a plane

Independent of the model: coordinates in a plane, exact tests of orientation, and outlines for which these tests are not
doubtful.
-/

namespace B3d.Spec

/-- Two perpendicular unit vectors. -/
structure Axes (u w : Vec3 ℝ) : Prop where
  unitU : Vec3.dot u u = 1
  unitW : Vec3.dot w w = 1
  perp : Vec3.dot u w = 0

/-- The point with the coordinates `p` in the plane through `o` with the axes `u` and `w`. -/
def inPlane (o u w : Vec3 ℝ) (p : ℝ × ℝ) : Vec3 ℝ := o + (p.1 • u + p.2 • w)

/-- Twice the signed area of a triangle: positive if it runs counter-clockwise. -/
def signedArea (a b c : ℝ × ℝ) : ℝ := (b.1 - a.1) * (c.2 - a.2) - (b.2 - a.2) * (c.1 - a.1)

/-- The squared distance. -/
def distSq (p q : ℝ × ℝ) : ℝ := (p.1 - q.1) ^ 2 + (p.2 - q.2) ^ 2

/-- `t` is in the closed triangle with the corners `a`, `b`, `c` in counter-clockwise order. -/
def InClosed (t a b c : ℝ × ℝ) : Prop := 0 ≤ signedArea a b t ∧ 0 ≤ signedArea b c t ∧ 0 ≤ signedArea c a t

/-- A set of corners without doubtful cases, at the scale `m` of at least a millimetre: different corners are between
`m` and `70 m` apart, and three corners are either exactly on a line or span a triangle with twice the area at least
`m²`. -/
structure Crisp (m : ℝ) (pts : List (ℝ × ℝ)) : Prop where
  scale : 1 / 10 ^ 3 ≤ m
  far : ∀ p ∈ pts, ∀ q ∈ pts, p ≠ q → m ^ 2 ≤ distSq p q
  near : ∀ p ∈ pts, ∀ q ∈ pts, distSq p q ≤ 5000 * m ^ 2
  sides : ∀ a ∈ pts, ∀ b ∈ pts, ∀ c ∈ pts, signedArea a b c = 0 ∨ m ^ 2 ≤ |signedArea a b c|

/-- All coordinates multiplied by `k`. -/
def scaled (k : ℝ) (p : ℝ × ℝ) : ℝ × ℝ := (k * p.1, k * p.2)

/-- No coordinate is larger than `10000 m`. -/
def Reach (m : ℝ) (q : Vec3 ℝ) : Prop := |q.x| ≤ 10 ^ 4 * m ∧ |q.y| ≤ 10 ^ 4 * m ∧ |q.z| ≤ 10 ^ 4 * m

/-- The first and the last corner are not straight. -/
def EndsTurn (plan : List (ℝ × ℝ)) : Prop :=
  ∃ p0 p1 r1 q l r2, plan = p0 :: p1 :: r1 ∧ plan = r2 ++ [q, l] ∧ signedArea l p0 p1 ≠ 0 ∧ signedArea q l p0 ≠ 0

/-- The corners of an L-shaped outline: the rectangle from `(0, 0)` to `(a, d)` without the part right of `c` and above
`b`; counter-clockwise, starting at the corner opposite to the reflex one (which has the number 3). -/
def ellShape (a b c d : ℝ) : List (ℝ × ℝ) := [(0, 0), (a, 0), (a, b), (c, b), (c, d), (0, d)]

/-- The size of an L-shaped outline: every side is at least `m` long (at least a millimetre), the whole at most `50 m`,
and the reflex corner is not nearly on the line between the corners `(a, 0)` and `(0, d)`. -/
structure EllSize (m a b c d : ℝ) : Prop where
  scale : 1 / 10 ^ 3 ≤ m
  foot : m ≤ b
  arm : m ≤ c
  width : m ≤ a - c
  height : m ≤ d - b
  wide : a ≤ 50 * m
  high : d ≤ 50 * m
  diag : b * a + c * d = a * d ∨ m ^ 2 ≤ |b * a + c * d - a * d|

end B3d.Spec
