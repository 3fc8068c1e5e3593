import Verif.Spec.Rounded
import Verif.Spec.Region

/-!
# Specification vocabulary for rays and level polygons

Independent of the model.
-/

namespace B3d.Spec

/-- The length of the way from `a` to `b` seen from above. -/
noncomputable def levelLength (a b : Vec3 ℝ) : ℝ := Real.sqrt ((b.x - a.x) ^ 2 + (b.y - a.y) ^ 2)

/-- Twice the area of the triangle `a`, `b`, `c` seen from above, negative if it runs clockwise. -/
def levelArea (a b c : Vec3 ℝ) : ℝ := (b.x - a.x) * (c.y - a.y) - (b.y - a.y) * (c.x - a.x)

/-- Seen from above, the point `q` is in the triangle `a`, `b`, `c`, and at least `h` away from the lines of its edges. -/
def DeepIn (h : ℝ) (a b c q : Vec3 ℝ) : Prop :=
  ∃ s : ℝ, (s = 1 ∨ s = -1) ∧ h * levelLength a b ≤ s * levelArea a b q ∧ h * levelLength b c ≤ s * levelArea b c q ∧
    h * levelLength c a ≤ s * levelArea c a q

/-- A polygon at the height `z0` with coordinates up to `R`: its first two corners are not straight, and no triangle is a
needle. -/
structure LevelPolygon (R z0 : ℝ) (pts : List (Vec3 ℝ)) (tri : List (Nat × Nat × Nat)) : Prop where
  level : ∀ p ∈ pts, p.z = z0
  bounded : ∀ p ∈ pts, Bounded R p
  corners : ∃ l p0 p1 p2, pts.getLast? = some l ∧ pts[0]? = some p0 ∧ pts[1]? = some p1 ∧ pts[2]? = some p2 ∧
    1 / 10 ^ 7 ≤ |levelArea l p0 p1| ∧ 1 / 10 ^ 7 ≤ |levelArea p0 p1 p2|
  triangles : ∀ t ∈ tri, TriangleWith pts t fun a b c => 1 / 10 ^ 7 ≤ |levelArea a b c|

/-- Seen from above, the point `q` is in one of the triangles, at least `h` away from the lines of its edges. -/
def DeepInside (h : ℝ) (pts : List (Vec3 ℝ)) (tri : List (Nat × Nat × Nat)) (q : Vec3 ℝ) : Prop :=
  ∃ t ∈ tri, TriangleWith pts t fun a b c => DeepIn h a b c q

/-- Seen from above, one of the edges of the triangle `a`, `b`, `c` has the point `q` on the other side, at least `h` away
from the line of the edge. -/
def DeepOut (h : ℝ) (a b c q : Vec3 ℝ) : Prop :=
  ∃ s : ℝ, (s = 1 ∨ s = -1) ∧ 0 < s * levelArea a b c ∧ (s * levelArea a b q ≤ -(h * levelLength a b) ∨
    s * levelArea b c q ≤ -(h * levelLength b c) ∨ s * levelArea c a q ≤ -(h * levelLength c a))

/-- Seen from above, the point `q` is at least `h` beside every triangle. -/
def DeepOutside (h : ℝ) (pts : List (Vec3 ℝ)) (tri : List (Nat × Nat × Nat)) (q : Vec3 ℝ) : Prop :=
  ∀ t ∈ tri, TriangleWith pts t fun a b c => DeepOut h a b c q

/-- The axes change their roles: the first one becomes the third one.  Seen "from above" after a roll is seen along the first
axis before. -/
def roll (p : Vec3 ℝ) : Vec3 ℝ := ⟨p.y, p.z, p.x⟩

/-- `f` gives the coordinates as seen along the third, the first or the second axis. -/
def AlongAxis (f : Vec3 ℝ → Vec3 ℝ) : Prop := f = id ∨ f = roll ∨ f = roll ∘ roll

end B3d.Spec
