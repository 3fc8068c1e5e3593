import Verif.Model.Vec3
import Verif.Spec.Region

/-!
# Specification vocabulary for outlines of polygons

Independent of the model: simple outlines and convex outlines without thin corners.
-/

namespace B3d.Spec

/-- The side number `i` of a closed outline goes from `a` to `b`. -/
def SideFrom (pts : List (Vec3 ℝ)) (i : Nat) (a b : Vec3 ℝ) : Prop :=
  pts[i]? = some a ∧ pts[(i + 1) % pts.length]? = some b

/-- A simple outline: two different sides have nothing in common but the corner between them. -/
def SimplePolygon (pts : List (Vec3 ℝ)) : Prop :=
  ∀ i j a b c d, i < j → j < pts.length → SideFrom pts i a b → SideFrom pts j c d →
    ∀ x, OnSegment a b x → OnSegment c d x → (j = i + 1 ∧ x = c) ∨ (i = 0 ∧ j + 1 = pts.length ∧ x = a)

/-- Two points which differ in a coordinate by more than the tolerances. -/
def Apart (p q : Vec3 ℝ) : Prop :=
  1 / 10 ^ 10 + 1 / 10 ^ 5 * |q.x| < |p.x - q.x| ∨ 1 / 10 ^ 10 + 1 / 10 ^ 5 * |q.y| < |p.y - q.y| ∨
    1 / 10 ^ 10 + 1 / 10 ^ 5 * |q.z| < |p.z - q.z|

/-- A triangle which runs counter-clockwise around `v`, with twice the area at least `10⁻⁷` and no angle whose squared
sine is less than `4·10⁻⁹` (about a quarter of a minute of arc). -/
def Thick (v a b c : Vec3 ℝ) : Prop :=
  ∃ D : ℝ, 1 / 10 ^ 7 ≤ D ∧ Vec3.cross (b - a) (c - a) = D • v ∧
    4 / 10 ^ 9 * (Vec3.normSq (b - a) * Vec3.normSq (c - a)) ≤ D ^ 2 ∧
    4 / 10 ^ 9 * (Vec3.normSq (c - b) * Vec3.normSq (a - b)) ≤ D ^ 2 ∧
    4 / 10 ^ 9 * (Vec3.normSq (a - c) * Vec3.normSq (b - c)) ≤ D ^ 2

/-- A convex outline around the unit vector `v`: three corners in the order of the outline always turn the same way. -/
structure ConvexOutline (v : Vec3 ℝ) (pts : List (Vec3 ℝ)) : Prop where
  unit : Vec3.norm v = 1
  corners : 3 ≤ pts.length
  apart : ∀ p q, List.Sublist [p, q] pts → Apart p q ∧ Apart q p
  turns : ∀ a b c, List.Sublist [a, b, c] pts → Thick v a b c

/-- `t` lies on the line from `a` to `b`, beyond `b`, at least `10⁻⁷` away from it in some coordinate. -/
def Beyond (a b t : Vec3 ℝ) : Prop :=
  ∃ k : ℝ, 0 ≤ k ∧ t - b = k • (b - a) ∧
    (1 / 10 ^ 7 ≤ |t.x - b.x| ∨ 1 / 10 ^ 7 ≤ |t.y - b.y| ∨ 1 / 10 ^ 7 ≤ |t.z - b.z|)

/-- An outline around the unit vector `v`, all of which is seen from its last corner: seen from there, each corner is
to the left of the corners before it.  The other corners may be reflex.  A later corner must not be almost on the line
of a side, unless it is exactly on it, beyond the end of the side. -/
structure StarOutline (v : Vec3 ℝ) (pts : List (Vec3 ℝ)) : Prop where
  unit : Vec3.norm v = 1
  corners : 3 ≤ pts.length
  apart : ∀ p q, List.Sublist [p, q] pts → Apart p q ∧ Apart q p
  seen : ∀ a b l, List.Sublist [a, b] pts.dropLast → pts.getLast? = some l → Thick v l a b
  lines : ∀ i j a b t, i + 1 < j → j + 1 < pts.length → pts[i]? = some a → pts[i + 1]? = some b → pts[j]? = some t →
    Thick v a b t ∨ Thick v b a t ∨ Beyond a b t

/-- A wall of height `h` over an edge with squared length `k` which is not too narrow: the area is at least `10⁻⁷` and
the diagonal is at most 15000 times as long as each side. -/
def WallFits (h k : ℝ) : Prop :=
  0 < h ∧ 1 / 10 ^ 14 ≤ k * h ^ 2 ∧ 4 / 10 ^ 9 * (k + h ^ 2) ≤ k ∧ 4 / 10 ^ 9 * (k + h ^ 2) ≤ h ^ 2

end B3d.Spec
